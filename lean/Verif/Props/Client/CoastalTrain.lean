import Verif.Model.Client.CoastalTrain
import Verif.Spec.ClientCoastalTrain
import Verif.Lemmas.Client.Coastal
import Verif.Lemmas.Client.Qq
import Verif.Props.Client.LeastSquares

/-! # C160: training of the coastal correction of the client -/

set_option linter.unusedSectionVars false

namespace Gridpp.Props
open Fl hiding MV isValid
open Res Client Spec

variable {K : Type} [Field K] [LinearOrder K] [IsStrictOrderedRing K]

theorem memberMean_some {a : List (Fl K)} {m : K} (h : memberMean a = some m) : Client.ensMean a = fin m ∧ Client.isValid (Client.ensMean a) = true := by
  unfold memberMean at h
  split_ifs at h with h1
  rw [Option.some.injEq] at h
  rw [isValid_ensMean, ensMean_eq, if_neg h1.1, h]
  exact ⟨rfl, by rw [h] at h1; simpa using h1⟩

theorem memberMean_none {a : List (Fl K)} (h : memberMean a = none) : Client.isValid (Client.ensMean a) = false := by
  unfold memberMean at h
  split_ifs at h with h1
  rw [isValid_ensMean]
  simpa using h1

theorem meanAt_nat {f : FieldC K} {i j : Nat} {ens : List (Fl K)} (h : f.ens i j = ok ens) :
    meanAt f (some ((i : Int), (j : Int))) = ok (Client.ensMean ens) := by
  simp only [meanAt]
  rw [if_neg (by simp)]
  simp only [Int.toNat_natCast, h, ok_bind]

/-- The loop keeps the first places with the least and the most land. -/
theorem places_foldl {L : Int × Int → K} (t : List (Int × Int)) : ∀ p q,
    t.foldl (fun s a => placesUpdate s (fin (L a)) a) ⟨some p, some q, fin (L p), fin (L q)⟩ =
      ⟨some (pick L p t), some (pick (fun a => -L a) q t), fin (L (pick L p t)), fin (L (pick (fun a => -L a) q t))⟩ := by
  induction t with
  | nil => intro p q; rfl
  | cons a t ih =>
    intro p q
    have h : placesUpdate ⟨some p, some q, fin (L p), fin (L q)⟩ (fin (L a)) a =
        ⟨some (if L a < L p then a else p), some (if -L a < -L q then a else q), fin (L (if L a < L p then a else p)),
          fin (L (if -L a < -L q then a else q))⟩ := by
      unfold placesUpdate
      simp only [lt_fin, decide_eq_true_eq, neg_lt_neg_iff]
      split_ifs <;> simp_all
    rw [List.foldl_cons, h, ih]
    rfl

theorem coastPlaces_ok {Y X : Nat} {r : Int} (hr : 0 ≤ r) {lafs : List (List (Fl K))} (hl : Rect Y X lafs) {L : Nat → Nat → K}
    (hL : ∀ i < Y, ∀ j < X, cell? lafs i j = some (fin (L i j)) ∧ 0 ≤ L i j ∧ L i j ≤ 1) {y x : Nat} (hy : y < Y) (hx : x < X) :
    ∃ i j k l : Nat, FirstLeast Y X r y x L i j ∧ FirstLeast Y X r y x (fun k l => -L k l) k l ∧
      coastPlaces Y X r lafs ((y : Int), (x : Int)) =
        ok ⟨some ((i : Int), (j : Int)), some ((k : Int), (l : Int)), fin (L i j), fin (L k l)⟩ := by
  have hself : ((y : Int), (x : Int)) ∈ stencil Y X r ((y : Int), (x : Int)) := by
    rw [within_iff]
    simp [hy, hx, hr]
  obtain ⟨p0, t, hst⟩ := List.exists_cons_of_ne_nil (List.ne_nil_of_mem hself)
  have hloop : coastPlaces Y X r lafs ((y : Int), (x : Int)) = ok ((p0 :: t).foldl
      (fun s (a : Int × Int) => placesUpdate s (fin (L a.1.toNat a.2.toNat)) a) ⟨none, none, fin 2, fin (-1)⟩) := by
    unfold coastPlaces
    rw [hst]
    apply foldM_ok
    intro s p hp
    rw [← hst, within_iff] at hp
    obtain ⟨i, hi⟩ := Int.eq_ofNat_of_zero_le hp.1
    obtain ⟨j, hj⟩ := Int.eq_ofNat_of_zero_le hp.2.2.1
    have hi' : i < Y := by omega
    have hj' : j < X := by omega
    obtain ⟨u, hu, hu'⟩ := vget2_of_rect hl hi' hj'
    rw [(hL i hi' j hj').1, Option.some.injEq] at hu
    rw [hi, hj, hu', ok_bind, ← hu]
    simp
  have hp0 : p0 ∈ stencil Y X r ((y : Int), (x : Int)) := by rw [hst]; simp
  rw [within_iff] at hp0
  have hb := (hL p0.1.toNat (by omega) p0.2.toNat (by omega)).2
  have hfirst : placesUpdate ⟨none, none, fin 2, fin (-1)⟩ (fin (L p0.1.toNat p0.2.toNat)) p0 =
      (⟨some p0, some p0, fin (L p0.1.toNat p0.2.toNat), fin (L p0.1.toNat p0.2.toNat)⟩ : CoastPlaces K) := by
    unfold placesUpdate
    have h1 : L p0.1.toNat p0.2.toNat < 2 := by linarith
    have h2 : -1 < L p0.1.toNat p0.2.toNat := by linarith
    simp [lt_fin, gt_fin, h1, h2]
  rw [List.foldl_cons, hfirst, places_foldl (L := fun a : Int × Int => L a.1.toNat a.2.toNat)] at hloop
  obtain ⟨n1, m1⟩ := firstLeast_pick (L := L) hst
  obtain ⟨n2, m2⟩ := firstLeast_pick (L := fun k l => -L k l) hst
  have back : ∀ p ∈ p0 :: t, ((p.1.toNat : Int), (p.2.toNat : Int)) = p := by
    intro p hp
    rw [← hst, within_iff] at hp
    rw [Int.toNat_of_nonneg hp.1, Int.toNat_of_nonneg hp.2.2.1]
  refine ⟨_, _, _, _, m1, m2, ?_⟩
  rw [back _ n1, back _ n2]
  exact hloop

theorem coastDatum_ok {useNN : Bool} {s : CoastPlaces K} {iObs jObs y x i j k l : Nat} (hs1 : s.lower = some ((i : Int), (j : Int)))
    (hs2 : s.upper = some ((k : Int), (l : Int))) {d : FieldC K × FieldC K} {c : CoastCase K} (h0 : d.1.get iObs jObs 0 = ok c.obs)
    (h1 : d.2.ens y x = ok c.here) (h2 : d.2.ens i j = ok c.sea) (h3 : d.2.ens k l = ok c.land) (hsea : useNN = true ∨ memberMean c.sea ≠ none) :
    coastDatum useNN s iObs jObs ((y : Int), (x : Int)) d =
      ok ((c.error? useNN).map fun e => (fin e, trainGradient s (Client.ensMean c.sea) (Client.ensMean c.land))) := by
  unfold coastDatum
  rw [h0, ok_bind, hs1, meanAt_nat h2, ok_bind, hs2, meanAt_nat h3, ok_bind, meanAt_nat h1, ok_bind]
  unfold CoastCase.error?
  cases ho : c.obs with
  | fin o =>
    by_cases ho9 : o = -999
    · have : Client.isValid (fin o) = false := by simp [Client.isValid, ho9]
      rw [this]
      cases memberMean c.here <;> simp [ho9]
    · have hv : Client.isValid (fin o) = true := by simp [Client.isValid, ho9]
      cases hh : memberMean c.here with
      | none => simp [memberMean_none hh]
      | some h =>
        obtain ⟨e1, e2⟩ := memberMean_some hh
        rw [e2, hv, e1]
        cases useNN with
        | true => simp [ho9]
        | false =>
          obtain ⟨m, hm⟩ : ∃ m, memberMean c.sea = some m := Option.ne_none_iff_exists'.mp (by simpa using hsea)
          simp [ho9, hm, (memberMean_some hm).1]
  | nan => simp [Client.isValid]
  | pinf => simp [Client.isValid]
  | ninf => simp [Client.isValid]

theorem trainGradient_ok {s : CoastPlaces K} {lo hi : K} (hs1 : s.minLaf = fin lo) (hs2 : s.maxLaf = fin hi) (hne : hi - lo ≠ 0) (c : CoastCase K) :
    trainGradient s (Client.ensMean c.sea) (Client.ensMean c.land) = fin (c.gradient (hi - lo)) := by
  unfold trainGradient CoastCase.gradient
  cases h1 : memberMean c.sea with
  | none => rw [memberMean_none h1]; simp
  | some u =>
    obtain ⟨e1, e2⟩ := memberMean_some h1
    cases h2 : memberMean c.land with
    | none => rw [memberMean_none h2]; simp
    | some v =>
      obtain ⟨e3, e4⟩ := memberMean_some h2
      rw [e2, e4, e1, e3, hs1, hs2]
      simp only [Bool.and_self, if_true, fin_sub, fin_div_of_ne _ hne]

/-- The two ways to add up the squared errors. -/
theorem squaredError_pairs (pairs : List (K × K)) (a b : K) :
    squaredError [pairs.map fun _ => 1, pairs.map Prod.snd] (pairs.map Prod.fst) [a, b] = squareError pairs a b := by
  unfold squaredError squareError predict kdot
  congr 1
  apply List.ext_getElem
  · simp
  · intro t h1 h2
    simp only [List.length_map, List.length_range] at h1
    simp [List.getD_eq_getElem?_getD, h1]

theorem independent_pairs (pairs : List (K × K)) : IndependentColumns pairs.length [pairs.map fun _ => 1, pairs.map Prod.snd] ↔
    ∃ p ∈ pairs, ∃ q ∈ pairs, p.2 ≠ q.2 := by
  have hpred : ∀ a b : K, ∀ t (ht : t < pairs.length), predict [pairs.map fun _ => 1, pairs.map Prod.snd] [a, b] t = a + b * pairs[t].2 := by
    intro a b t ht
    simp [predict, kdot, List.getD_eq_getElem?_getD, ht]
  constructor
  · intro h
    by_contra hc
    push Not at hc
    cases hp : pairs with
    | nil =>
      have := h [1, 1] rfl (by rw [hp]; simp) 1 (by simp)
      exact one_ne_zero this
    | cons p ps =>
      have hp0 : p ∈ pairs := by rw [hp]; simp
      have := h [p.2, -1] rfl (by
        intro t ht
        rw [hpred _ _ t ht, hc _ (List.getElem_mem ht) p hp0]
        ring) (-1) (by simp)
      exact one_ne_zero (neg_eq_zero.mp this)
  · rintro ⟨p, hp, q, hq, hne⟩ v hv h
    match v, hv with
    | [a, b], _ =>
      obtain ⟨m, hm, rfl⟩ := List.getElem_of_mem hp
      obtain ⟨n, hn, rfl⟩ := List.getElem_of_mem hq
      have e1 := h m hm
      have e2 := h n hn
      rw [hpred _ _ _ hm] at e1
      rw [hpred _ _ _ hn] at e2
      have hb : b * (pairs[m].2 - pairs[n].2) = 0 := by linear_combination e1 - e2
      have hb0 : b = 0 := (mul_eq_zero.mp hb).resolve_right (sub_ne_zero.mpr hne)
      have ha0 : a = 0 := by rw [hb0] at e1; simpa using e1
      simp [ha0, hb0]

/-- Fitting an offset and a slope. -/
theorem trainRange_ok (pairs : List (K × K)) :
    ((∃ p ∈ pairs, ∃ q ∈ pairs, p.2 ≠ q.2) → ∃ a b : K, trainRange (pairs.map fun p => (fin p.1, fin p.2)) = ok [fin a, fin 1, fin b] ∧
      ∀ a' b', squareError pairs a b ≤ squareError pairs a' b' ∧ (squareError pairs a' b' = squareError pairs a b → a' = a ∧ b' = b)) ∧
    ((∀ p ∈ pairs, ∀ q ∈ pairs, p.2 = q.2) → trainRange (pairs.map fun p => (fin p.1, fin p.2)) = .abort) := by
  have hreg : utilRegression ((pairs.map fun p => ((fin p.1 : Fl K), (fin p.2 : Fl K))).map Prod.fst)
      [(pairs.map fun p => ((fin p.1 : Fl K), (fin p.2 : Fl K))).map fun _ => fin 1, (pairs.map fun p => ((fin p.1 : Fl K), (fin p.2 : Fl K))).map Prod.snd] false =
      utilRegression ((pairs.map Prod.fst).map fin) ([pairs.map fun _ => (1 : K), pairs.map Prod.snd].map (List.map fin)) false := by
    simp [List.map_map, Function.comp_def]
  unfold trainRange
  rw [hreg]
  by_cases hlen : 2 ≤ pairs.length
  · obtain ⟨g1, g2⟩ := c159_least (cols := [pairs.map fun _ => (1 : K), pairs.map Prod.snd]) (y := pairs.map Prod.fst)
      (predictors := [pairs.map fun _ => (1 : K), pairs.map Prod.snd]) (addConst := false) rfl (by simpa using hlen) (by simp)
    simp only [List.length_map, independent_pairs] at g1 g2
    refine ⟨fun h => ?_, fun h => ?_⟩
    · obtain ⟨b, h1, h2, h3⟩ := g1 h
      match b, h2 with
      | [a, b], _ =>
        refine ⟨a, b, ?_, fun a' b' => ?_⟩
        · rw [h1]
          rfl
        · have := h3 [a', b'] rfl
          rw [squaredError_pairs, squaredError_pairs] at this
          refine ⟨this.1, fun h => ?_⟩
          have := this.2 h
          simpa using this
    · rw [g2 (by push Not; exact h)]
      rfl
  · refine ⟨?_, fun _ => ?_⟩
    · rintro ⟨p, hp, q, hq, hne⟩
      exfalso
      match pairs, hlen with
      | [], _ => simp at hp
      | [w], _ =>
        simp only [List.mem_singleton] at hp hq
        rw [hp, hq] at hne
        exact hne rfl
      | _ :: _ :: _, h => simp at h
    · rw [c159_error false (Or.inl (by simp only [List.length_map]; omega))]
      rfl

theorem squareError_zero (pairs : List (K × K)) (a : K) : squareError pairs a 0 = ((pairs.map Prod.fst).map fun y => (y - a) ^ 2).sum := by
  unfold squareError
  simp [List.map_map, Function.comp_def]

theorem sum_sq_shift (ys : List K) (a a' : K) : (ys.map fun y => (y - a') ^ 2).sum =
    (ys.map fun y => (y - a) ^ 2).sum + 2 * (a - a') * (ys.sum - ys.length * a) + ys.length * (a - a') ^ 2 := by
  induction ys with
  | nil => simp
  | cons y t ih =>
    simp only [List.map_cons, List.sum_cons, ih, List.length_cons, Nat.cast_add, Nat.cast_one]
    ring

/-- Fitting an offset. -/
theorem trainOffset_ok {rows : List (Fl K × Fl K)} {ys : List K} (hrows : rows.map Prod.fst = ys.map fin) (hne : ys ≠ []) (h9 : ∀ y ∈ ys, y ≠ -999)
    (hm : mean ys ≠ -999) : trainOffset rows = ok [fin (mean ys), fin 1, fin 0] ∧
      ∀ a', (ys.map fun y => (y - mean ys) ^ 2).sum ≤ (ys.map fun y => (y - a') ^ 2).sum ∧
        ((ys.map fun y => (y - a') ^ 2).sum = (ys.map fun y => (y - mean ys) ^ 2).sum → a' = mean ys) := by
  have hpos : 0 < ys.length := List.length_pos_iff.mpr hne
  have hn : (0 : K) < (ys.length : K) := by exact_mod_cast hpos
  have hpres : present (ys.map fin) = ys := by
    unfold present
    have : Fl.vals (ys.map fin) = ys := by
      exact Fl.vals_map_fin ys
    rw [this, List.filter_eq_self]
    intro y hy
    simpa using h9 y hy
  constructor
  · unfold trainOffset
    rw [hrows, Client.sumCount_eq, hpres]
    simp only [hpos, if_true, ofNat_def, fin_div_of_ne _ hn.ne']
    have : Client.isValid (fin (ys.sum / (ys.length : K))) = true := by simpa [Client.isValid, mean] using hm
    rw [this]
    rfl
  · intro a'
    have hz : ys.sum - ys.length * mean ys = 0 := by
      unfold mean
      field_simp
      ring
    have e := sum_sq_shift ys (mean ys) a'
    rw [hz, mul_zero, add_zero] at e
    have hsq := sq_nonneg (mean ys - a')
    refine ⟨by rw [e]; nlinarith, fun h => ?_⟩
    rw [e] at h
    have : (ys.length : K) * (mean ys - a') ^ 2 = 0 := by linarith
    rcases mul_eq_zero.mp this with h | h
    · exact absurd h hn.ne'
    · have := pow_eq_zero_iff two_ne_zero |>.mp h
      linarith

/-- **C160** (partial): training at a grid point uses the cases in which the observation, the forecast at the grid point and, unless the
nearest neighbour is used, the forecast at the place with the least land are present. If there is enough difference in land between the
places with the least and the most land, the offset and the factor of the gradient are those with the least sum of squared errors, and the
only ones; the program stops if no two cases have different gradients. Otherwise the factor is 0 and the offset has the least sum of squared
errors. Missing: cases where all the members at the place with the least land are missing (see `c160_missing_false`), and errors that happen
to be -999. -/
theorem c160_train_partial {Y X E : Nat} {r : Int} (hr : 0 ≤ r) {d : K} (hd : 0 ≤ d) (useNN : Bool) {lafs : List (List (Fl K))} (hl : Rect Y X lafs)
    {L : Nat → Nat → K} (hL : ∀ i < Y, ∀ j < X, cell? lafs i j = some (fin (L i j)) ∧ 0 ≤ L i j ∧ L i j ≤ 1) {iObs jObs y x : Nat}
    (hy : y < Y) (hx : x < X) {data : List (FieldC K × FieldC K)} (hne : data ≠ []) (hs : ∀ f ∈ data, Sized Y X E f.2) :
    ∃ i j k l, FirstLeast Y X r y x L i j ∧ FirstLeast Y X r y x (fun k l => -L k l) k l ∧
      ∀ cases : List (CoastCase K), List.Forall₂ (fun f c => f.1.get iObs jObs 0 = ok c.obs ∧ f.2.ens y x = ok c.here ∧ f.2.ens i j = ok c.sea ∧
          f.2.ens k l = ok c.land) data cases →
        (useNN = true ∨ ∀ c ∈ cases, memberMean c.sea ≠ none) →
        let pairs := coastPairs useNN (L k l - L i j) cases
        let result := coastTrain r (fin d) useNN lafs iObs jObs ((y : Int), (x : Int)) data
        (pairs = [] → result = .abort) ∧
        (d < L k l - L i j → ((∃ p ∈ pairs, ∃ q ∈ pairs, p.2 ≠ q.2) → ∃ a b : K, result = ok [fin a, fin 1, fin b] ∧
            ∀ a' b', squareError pairs a b ≤ squareError pairs a' b' ∧
              (squareError pairs a' b' = squareError pairs a b → a' = a ∧ b' = b)) ∧
          ((∀ p ∈ pairs, ∀ q ∈ pairs, p.2 = q.2) → result = .abort)) ∧
        (L k l - L i j ≤ d → pairs ≠ [] → (∀ p ∈ pairs, p.1 ≠ -999) → mean (pairs.map Prod.fst) ≠ -999 →
          ∃ a : K, result = ok [fin a, fin 1, fin 0] ∧ ∀ a', squareError pairs a 0 ≤ squareError pairs a' 0 ∧
            (squareError pairs a' 0 = squareError pairs a 0 → a' = a)) := by
  obtain ⟨i, j, k, l, m1, m2, m3⟩ := coastPlaces_ok hr hl hL hy hx
  refine ⟨i, j, k, l, m1, m2, ?_⟩
  intro cases hc hsea
  simp only
  obtain ⟨f0, rest, hdata⟩ := List.exists_cons_of_ne_nil hne
  have hf0 := hs f0 (by rw [hdata]; simp)
  have hv : vget data 0 = ok f0 := by rw [hdata]; rfl
  obtain ⟨s, hseq⟩ : ∃ s : CoastPlaces K, s = ⟨some ((i : Int), (j : Int)), some ((k : Int), (l : Int)), fin (L i j), fin (L k l)⟩ := ⟨_, rfl⟩
  have hmap : mapM (coastDatum useNN s iObs jObs ((y : Int), (x : Int))) data =
      ok (cases.map fun c => (c.error? useNN).map fun e => (fin e, trainGradient s (Client.ensMean c.sea) (Client.ensMean c.land))) := by
    clear hdata hv hne hs
    induction hc with
    | nil => rfl
    | cons h _ ih =>
      have h1 := coastDatum_ok (useNN := useNN) (s := s) (by rw [hseq]) (by rw [hseq]) h.1 h.2.1 h.2.2.1 h.2.2.2
        (hsea.imp id fun g => g _ (by simp))
      rw [mapM_cons, h1, ok_bind, ih (hsea.imp id fun g c hc => g c (by simp [hc]))]
      rfl
  have hrows : (cases.map fun c => (c.error? useNN).map fun e => ((fin e : Fl K), trainGradient s (Client.ensMean c.sea) (Client.ensMean c.land))).filterMap id =
      cases.filterMap fun c => (c.error? useNN).map fun e => (fin e, trainGradient s (Client.ensMean c.sea) (Client.ensMean c.land)) := by
    rw [List.filterMap_map]
    rfl
  have hresult : coastTrain r (fin d) useNN lafs iObs jObs ((y : Int), (x : Int)) data =
      (let rows := cases.filterMap fun c => (c.error? useNN).map fun e => (fin e, trainGradient s (Client.ensMean c.sea) (Client.ensMean c.land))
      if rows.length = 0 then Client.error else if d < L k l - L i j then trainRange rows else trainOffset rows) := by
    unfold coastTrain
    rw [hv, ok_bind, hf0.nY, hf0.nX, m3, ok_bind, ← hseq]
    have : assert s.upper.isSome = ok () := by rw [hseq]; rfl
    rw [this, ok_bind, hmap, ok_bind]
    simp only [hrows]
    have hgt : ((s.maxLaf - s.minLaf).gt (fin d) = true) ↔ d < L k l - L i j := by rw [hseq]; simp
    simp only [hgt]
  rw [hresult]
  simp only
  have hfst : (cases.filterMap fun c => (c.error? useNN).map fun e => ((fin e : Fl K), trainGradient s (Client.ensMean c.sea) (Client.ensMean c.land))).map Prod.fst =
      ((coastPairs useNN (L k l - L i j) cases).map Prod.fst).map fin := by
    unfold coastPairs
    clear hmap hrows hresult hsea hc
    induction cases with
    | nil => rfl
    | cons c t ih =>
      cases h : c.error? useNN with
      | none => simpa [h] using ih
      | some e => simpa [h] using ih
  have hlen : (cases.filterMap fun c => (c.error? useNN).map fun e => ((fin e : Fl K), trainGradient s (Client.ensMean c.sea) (Client.ensMean c.land))).length =
      (coastPairs useNN (L k l - L i j) cases).length := by
    have := congrArg List.length hfst
    simpa only [List.length_map] using this
  rw [hlen]
  refine ⟨fun h => by rw [h]; rfl, fun hlt => ?_, fun hle hpne h9 hm => ?_⟩
  · have hne0 : L k l - L i j ≠ 0 := by intro h; rw [h] at hlt; exact absurd hlt (not_lt.mpr hd)
    have heq : (cases.filterMap fun c => (c.error? useNN).map fun e => ((fin e : Fl K), trainGradient s (Client.ensMean c.sea) (Client.ensMean c.land))) =
        (coastPairs useNN (L k l - L i j) cases).map fun p => (fin p.1, fin p.2) := by
      unfold coastPairs
      rw [List.map_filterMap]
      congr 1
      funext c
      rw [trainGradient_ok (by rw [hseq]) (by rw [hseq]) hne0 c]
      cases c.error? useNN <;> rfl
    rw [heq, if_pos hlt]
    obtain ⟨t1, t2⟩ := trainRange_ok (coastPairs useNN (L k l - L i j) cases)
    refine ⟨fun h => ?_, fun h => ?_⟩
    · obtain ⟨p, hp, _⟩ := h
      rw [if_neg (by have := List.length_pos_of_mem hp; omega)]
      exact t1 ⟨p, hp, by assumption⟩
    · split_ifs
      · rfl
      · exact t2 h
  · rw [if_neg (by have := List.length_pos_iff.mpr hpne; omega), if_neg (not_lt.mpr hle)]
    obtain ⟨t1, t2⟩ := trainOffset_ok hfst (by simpa using hpne) (by
      intro y hy
      obtain ⟨p, hp, rfl⟩ := List.mem_map.mp hy
      exact h9 p hp) hm
    refine ⟨_, t1, fun a' => ?_⟩
    rw [squareError_zero, squareError_zero]
    exact t2 a'

/-- **C160**: without land fractions the program stops. -/
theorem c160_missing_land {Y X : Nat} {r : Int} {lafs : List (List (Fl K))} (hl : Rect Y X lafs) (hm : ∀ row ∈ lafs, ∀ v ∈ row, v = Client.MV) {d : Fl K}
    (useNN : Bool) (iObs jObs : Nat) (c : Int × Int) {E : Nat} {f : FieldC K × FieldC K} (hf : Sized Y X E f.2) (data : List (FieldC K × FieldC K)) :
    coastTrain r d useNN lafs iObs jObs c (f :: data) = .abort := by
  have hplaces : ∃ s : CoastPlaces K, coastPlaces Y X r lafs c = ok s ∧ s.upper = none := by
    unfold coastPlaces
    have : ∀ (t : List (Int × Int)) (s : CoastPlaces K), (∀ p ∈ t, p ∈ stencil Y X r c) → s.upper = none → s.maxLaf = fin (-1) →
        ∃ s', foldM (fun s (p : Int × Int) => do
          let laf ← vget2 lafs p.1 p.2
          ok (placesUpdate s laf p)) s t = ok s' ∧ s'.upper = none := by
      intro t
      induction t with
      | nil => intro s _ h1 _; exact ⟨s, rfl, h1⟩
      | cons p t ih =>
        intro s hp h1 h2
        have hp1 := hp p (by simp)
        rw [mem_stencil] at hp1
        obtain ⟨i, hi⟩ := Int.eq_ofNat_of_zero_le hp1.1
        obtain ⟨j, hj⟩ := Int.eq_ofNat_of_zero_le hp1.2.2.1
        obtain ⟨u, hu, hu'⟩ := vget2_of_rect hl (show i < Y by omega) (show j < X by omega)
        have hum : u = Client.MV := by
          unfold cell? at hu
          obtain ⟨row, hrow, hv⟩ := Option.bind_eq_some_iff.mp hu
          exact hm row (List.mem_of_getElem? hrow) u (List.mem_of_getElem? hv)
        rw [foldM_cons, hi, hj, hu', ok_bind, ok_bind]
        have hup : (placesUpdate s u p).upper = none ∧ (placesUpdate s u p).maxLaf = fin (-1) := by
          have h999 : ¬ (-1 : K) < -999 := by linarith [show (0 : K) < 1 from one_pos]
          rw [hum]
          unfold placesUpdate
          constructor <;> · split_ifs <;> simp_all [Client.MV]
        exact ih _ (fun q hq => hp q (by simp [hq])) hup.1 hup.2
    exact this _ _ (fun _ h => h) rfl rfl
  obtain ⟨s, h1, h2⟩ := hplaces
  unfold coastTrain
  rw [show vget (f :: data) 0 = ok f from rfl, ok_bind, hf.nY, hf.nX, h1, ok_bind, h2]
  rfl

/-! ### Examples -/

/-- A row of two places, sea and land. -/
def coastObs (v : Fl ℚ) : FieldC ℚ := ⟨[v], 1, 1, 1⟩
def coastPair (u v : Fl ℚ) : FieldC ℚ := ⟨[u, v], 1, 2, 1⟩

/-- **C160** is false if the forecast at sea is missing in one case: the missing value -999 is taken as the forecast there, and the offset
becomes about 334 although every other error is 1. -/
theorem c160_missing_false : coastTrain 1 (fin (1 / 10)) false [[fin 0, fin (1 / 20)]] 0 0 (0, 1)
    [(coastObs (fin 2), coastPair (fin 1) (fin 1)), (coastObs (fin 3), coastPair (fin 2) (fin 2)), (coastObs (fin 2), coastPair Client.MV (fin 1))] =
    ok [fin (1003 / 3), fin 1, fin 0] := by decide +kernel

/-- The errors are 1 + 2 times the gradient. -/
example : coastTrain 1 (fin (1 / 10)) false [[fin 0, fin 1]] 0 0 (0, 1)
    [(coastObs (fin 4), coastPair (fin 1) (fin 2)), (coastObs (fin 7), coastPair (fin 2) (fin 4))] = ok [fin 1, fin 1, fin 2] := by decide +kernel

/-- One case only. -/
example : coastTrain 1 (fin (1 / 10)) false [[fin 0, fin 1]] 0 0 (0, 1) [(coastObs (fin 4), coastPair (fin 1) (fin 2))] = .abort := by decide +kernel

/-- The hypotheses of the theorem hold for the first example. -/
example : coastPairs false 1 [⟨fin 4, [fin 2], [fin 1], [fin 2]⟩, ⟨fin 7, [fin 4], [fin 2], [fin 4]⟩] = ([(3, 1), (5, 2)] : List (ℚ × ℚ)) := by decide +kernel

end Gridpp.Props
