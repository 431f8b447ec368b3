import Verif.Lemmas.Client.ZagaCore
import Verif.Props.Client.Zaga

/-! # C123: the calibrator zaga of the client -/

set_option linter.unusedSectionVars false

namespace Gridpp.Props
open Fl hiding MV isValid
open Res Client Spec

variable {K : Type} [Field K] [LinearOrder K] [IsStrictOrderedRing K] [FloorRing K] [LawfulExp K]

/-- Parameters the calibrator can use: one is missing or there are eight. -/
def ZagaPars (p : List (Fl K)) : Prop := (∃ v ∈ p, ¬ Present v) ∨ ∃ c, Pars8 p c

theorem zagaP0_coincidence {p : List (Fl K)} {c : Fin 8 → K} (hp : Pars8 p c) {m f P mu sigma : K} (hz : ZagaModel c m f P mu sigma) (h0 : 0 ≤ f)
    (h1 : f ≤ 1) (hl : P = 1 / (1 + HasExp.exp 999)) : zagaP0 (fin m) (fin f) p = ok MV := by
  obtain ⟨r, hr, rfl, rfl, rfl⟩ := hz.law
  have hm := thirdRoot_nonneg hr
  set l := c 4 + c 5 * m + c 6 * f + c 7 * r with hldef
  have hl' : l = -999 := by
    have a := LawfulExp.exp_pos (-l)
    have b := LawfulExp.exp_pos (999 : K)
    rw [div_eq_div_iff (by positivity) (by positivity)] at hl
    have e : (HasExp.exp (-l) : K) = HasExp.exp 999 := by linarith
    have := congrArg HasExp.log e
    rw [LawfulExp.log_exp, LawfulExp.log_exp] at this
    linarith
  unfold zagaP0
  rw [zaga_accept hm h0 h1, hp.all]
  simp only [Bool.false_eq_true, if_false, Bool.not_true]
  have e4 := hp.parAt 4
  have e5 := hp.parAt 5
  have e6 := hp.parAt 6
  have e7 := hp.parAt 7
  simp only [show ((4 : Fin 8).val) = 4 from rfl, show ((5 : Fin 8).val) = 5 from rfl, show ((6 : Fin 8).val) = 6 from rfl,
    show ((7 : Fin 8).val) = 7 from rfl] at e4 e5 e6 e7
  simp only [e4, e5, e6, e7, ok_bind, thirdRoot_pow hr, fin_mul, fin_add]
  rw [← hldef, hl']
  have : isValid (fin (-999) : Fl K) = false := isValid_false_iff.mpr not_present_MV
  simp [invLogit, this]

/-- `getInvCdf` always comes to an end. -/
theorem zagaInvCdf_total {mk : Fl K → Fl K → Dist K} {F : K → K → K → K} (hmk : GammaFamily mk F) {p : List (Fl K)} (hp : ZagaPars p)
    {m f : K} (hm : 0 ≤ m) (h0 : 0 ≤ f) (h1 : f ≤ 1) (q : K) : ∃ w, zagaInvCdf mk (fin q) (fin m) (fin f) p = ok w := by
  rcases hp with hp | ⟨c, hp⟩
  · exact ⟨MV, (c122_missing mk _ _ p).1 _ (Or.inr (Or.inl hp))⟩
  rcases lt_trichotomy q 0 with hq | hq | hq
  · exact ⟨MV, (c122_missing mk _ _ p).1 _ (Or.inr (Or.inr (Or.inr (Or.inr ⟨q, rfl, Or.inl hq⟩))))⟩
  · refine ⟨0, ?_⟩
    have acc := zaga_accept (K := K) hm h0 h1
    simp only [Bool.or_eq_false_iff] at acc
    obtain ⟨⟨⟨⟨a1, a2⟩, a3⟩, a4⟩, a5⟩ := acc
    unfold zagaInvCdf
    rw [a1, a2, a3, a4, a5, hp.all, hq]
    simp [zero_def, one_def, lt_fin, ge_fin, feq_fin]
  by_cases hq1 : 1 ≤ q
  · exact ⟨MV, (c122_missing mk _ _ p).1 _ (Or.inr (Or.inr (Or.inr (Or.inr ⟨q, rfl, Or.inr hq1⟩))))⟩
  have hq1 := not_le.mp hq1
  obtain ⟨P, mu, sigma, hz⟩ := zagaModel_exists c (f := f) hm
  by_cases hl : P = 1 / (1 + HasExp.exp 999)
  · refine ⟨MV, ?_⟩
    have acc := zaga_accept (K := K) hm h0 h1
    simp only [Bool.or_eq_false_iff] at acc
    obtain ⟨⟨⟨⟨a1, a2⟩, a3⟩, a4⟩, a5⟩ := acc
    have hv : isValid (MV : Fl K) = false := isValid_false_iff.mpr not_present_MV
    unfold zagaInvCdf
    rw [a1, a2, a3, a4, a5, hp.all, zagaP0_coincidence hp hz h0 h1 hl, ok_bind, hv]
    simp [zero_def, one_def, lt_fin, ge_fin, feq_fin, hq.ne', not_lt.mpr hq.le, not_le.mpr hq1]
  · have hpos : 0 < mu ∧ 0 < sigma := by
      obtain ⟨r, hr, rfl, rfl, rfl⟩ := hz.law
      exact ⟨LawfulExp.exp_pos _, LawfulExp.exp_pos _⟩
    obtain ⟨v, hv, -⟩ := c122_quantile_partial hmk hp hz (gammaMoments_exists hpos.1 hpos.2) h0 h1 hl hq hq1
    exact ⟨_, hv⟩

theorem zagaInvCdf_total' {mk : Fl K → Fl K → Dist K} {F : K → K → K → K} (hmk : GammaFamily mk F) {p : List (Fl K)} (hp : ZagaPars p)
    (mean frac : Fl K) (q : K) : ∃ w, zagaInvCdf mk (fin q) mean frac p = ok w := by
  by_cases h : ZagaPredictors mean frac
  · obtain ⟨m, f, rfl, rfl, hm, h0, h1⟩ := h
    exact zagaInvCdf_total hmk hp hm h0 h1 q
  · exact ⟨MV, (c122_missing mk _ _ p).1 _ (Or.inl h)⟩

/-- `getCdf` always comes to an end. -/
theorem zagaCdf_total {mk : Fl K → Fl K → Dist K} {F : K → K → K → K} (hmk : GammaFamily mk F) {p : List (Fl K)} (hp : ZagaPars p)
    {m f : K} (hm : 0 ≤ m) (h0 : 0 ≤ f) (h1 : f ≤ 1) (x : Fl K) : ∃ w, zagaCdf mk x (fin m) (fin f) p = ok w := by
  by_cases hx : Present x
  swap
  · exact ⟨MV, (c122_missing mk _ _ p).2 _ (Or.inl hx)⟩
  obtain ⟨a, rfl, ha⟩ := hx
  have acc := zaga_accept (K := K) hm h0 h1
  simp only [Bool.or_eq_false_iff] at acc
  obtain ⟨⟨⟨⟨a1, a2⟩, a3⟩, a4⟩, a5⟩ := acc
  by_cases ha0 : a < 0
  · refine ⟨0, ?_⟩
    unfold zagaCdf
    rw [valid_fin ha, a1, a2, a3, a4, a5]
    simp [zero_def, lt_fin, ha0]
  have ha0 := not_lt.mp ha0
  rcases hp with hp | ⟨c, hp⟩
  · exact ⟨MV, (c122_missing mk _ _ p).2 _ (Or.inr (Or.inr ⟨hp, a, rfl, ha0⟩))⟩
  obtain ⟨P, mu, sigma, hz⟩ := zagaModel_exists c (f := f) hm
  by_cases hl : P = 1 / (1 + HasExp.exp 999)
  · refine ⟨MV, ?_⟩
    have hv : isValid (MV : Fl K) = false := isValid_false_iff.mpr not_present_MV
    unfold zagaCdf
    rw [valid_fin ha, a1, a2, a3, a4, a5, hp.all, zagaP0_coincidence hp hz h0 h1 hl, ok_bind, hv]
    simp [zero_def, lt_fin, not_lt.mpr ha0]
  · have hpos : 0 < mu ∧ 0 < sigma := by
      obtain ⟨r, hr, rfl, rfl, rfl⟩ := hz.law
      exact ⟨LawfulExp.exp_pos _, LawfulExp.exp_pos _⟩
    obtain ⟨G, hG, -⟩ := c122_cdf_partial hmk hp hz (gammaMoments_exists hpos.1 hpos.2) h0 h1 hl
    exact ⟨_, hG a ha⟩

/-! ### The ensemble -/

/-- What becomes of the members `raw` of one grid point. Nothing, if one of them is missing. Else the predictors are the mean, not more
than `top`, and the fraction up to `thr`; the quantiles `w` of the levels (e + 1/2) / E take the places of the members. -/
def ZagaCellOut (mk : Fl K → Fl K → Dist K) (p : List (Fl K)) (thr top : K) (E : Nat) (raw out : Nat → Fl K) : Prop :=
  ((∃ e < E, ¬ Present (raw e)) → ∀ e < E, out e = raw e) ∧
  ∀ r : Nat → K, (∀ e < E, raw e = fin (r e) ∧ 0 ≤ r e) → ∃ w, (∀ e < E, zagaInvCdf mk (fin (((e : K) + 1 / 2) / (E : K)))
    (fin (sampleMean (Finset.range E) r top)) (fin (sampleFraction (Finset.range E) r thr)) p = ok (w e)) ∧ Recalibrated E raw w out

theorem zagaSample_zero {Y X E y x : Nat} (hy : y < Y) (hx : x < X) :
    zagaSample Y X E 0 y x = (Finset.range E).image fun e => (e, y, x) := by
  ext ⟨e, a, b⟩
  simp only [zagaSample, Finset.mem_filter, Finset.mem_product, Finset.mem_range, Finset.mem_image, Prod.mk.injEq]
  constructor
  · rintro ⟨⟨h1, h2, h3⟩, h4⟩
    exact ⟨e, h1, rfl, by omega, by omega⟩
  · rintro ⟨e', h1, rfl, rfl, rfl⟩
    omega

theorem sample_zero {Y X E y x : Nat} (hy : y < Y) (hx : x < X) (r : Nat → K) (top thr : K) :
    sampleMean (zagaSample Y X E 0 y x) (fun q => r q.1) top = sampleMean (Finset.range E) r top ∧
    sampleFraction (zagaSample Y X E 0 y x) (fun q => r q.1) thr = sampleFraction (Finset.range E) r thr := by
  have hinj : Function.Injective fun e : Nat => (e, y, x) := fun a b h => by simpa using h
  unfold sampleMean sampleFraction
  rw [zagaSample_zero hy hx, Finset.card_image_of_injective _ hinj, Finset.sum_image fun a _ b _ h => hinj h, Finset.filter_image,
    Finset.card_image_of_injective _ hinj]
  exact ⟨rfl, rfl⟩

/-- The options of this part: no probability of precipitation, no neighbours, no accumulation. -/
structure ZagaPlain (o : ZagaOpts K) (thr top : K) : Prop where
  pop : o.pop = false
  hours : o.sixHours = false
  nb : o.nb = 0
  frac : o.fracThreshold = fin thr
  limit : o.maxEnsMean = fin top
  top_pos : 0 < top

theorem zaga_one_value {before : List (FieldC K)} {f : FieldC K} {Y X E t i j : Nat} (hb : before.length = t) (hf : Sized Y X E f) (hi : i < Y)
    (hj : j < X) {e : Nat} (he : e < E) {v : Fl K} (hv : f.get i j e = ok v) :
    zagaTotal 1 (before ++ [f]) t e ((i : Int), (j : Int)) = ok (chainAdd (fin 0) v) := by
  have : ∀ k : Nat, k < 1 → ∃ g, vget (before ++ [f]) ((t : Int) - (1 : Nat) + 1 + k) = ok g ∧ g.getInt (i : Int) (j : Int) e = ok v := by
    intro k hk
    obtain rfl : k = 0 := by omega
    refine ⟨f, ?_, ?_⟩
    · have : ((t : Int) - (1 : Nat) + 1 + (0 : Nat)) = (t : Int) := by omega
      rw [this, vget_eq_ok_of_lt (show t < (before ++ [f]).length by simp [hb])]
      simp [← hb]
    · obtain ⟨u, h1, h2⟩ := getInt_nat hf hi hj he
      rw [h1, ← h2, hv]
  rw [zagaTotal_eq (u := fun _ => v) (c := ((i : Int), (j : Int))) this]
  rfl

theorem zaga_ensemble_cell {mk : Fl K → Fl K → Dist K} {F : K → K → K → K} (hmk : GammaFamily mk F) (A : Arma K) (hA : Arma.Lawful A)
    {o : ZagaOpts K} {thr top : K} (ho : ZagaPlain o thr top) {Y X E t : Nat} (hE : 0 < E) {before : List (FieldC K)} (hb : before.length = t)
    {p : List (Fl K)} (hp : ZagaPars p) {s : ZagaFields K} (hs : Sized Y X E s.precip) {i j : Nat} (hi : i < Y) (hj : j < X)
    {raw : Nat → Fl K} (hraw : ∀ e < E, s.precip.get i j e = ok (raw e)) :
    ∃ g out, zagaCell o mk A Y X E before t p s i j = ok { s with precip := g } ∧ Sized Y X E g ∧ (∀ e < E, g.get i j e = ok (out e)) ∧
      ZagaCellOut mk p thr top E raw out ∧ ∀ y' x', ¬ (y' = i ∧ x' = j) → g.get y' x' = s.precip.get y' x' := by
  unfold zagaCell
  rw [ho.pop, Bool.false_and, if_neg (by simp)]
  have hwin : o.window = 1 := by unfold ZagaOpts.window; rw [ho.hours]; rfl
  have hmem : ∀ q ∈ zagaSample Y X E o.nb i j, q.1 < E ∧ q.2.1 = i ∧ q.2.2 = j := by
    intro q hq
    rw [ho.nb, zagaSample_zero hi hj, Finset.mem_image] at hq
    obtain ⟨e, he, rfl⟩ := hq
    exact ⟨Finset.mem_range.mp he, rfl, rfl⟩
  have htot : ∀ q ∈ zagaSample Y X E o.nb i j, zagaTotal o.window (before ++ [s.precip]) t q.1 ((q.2.1 : Int), (q.2.2 : Int)) =
      ok (chainAdd (fin 0) (raw q.1)) := by
    intro q hq
    obtain ⟨h1, h2, h3⟩ := hmem q hq
    rw [hwin, h2, h3]
    exact zaga_one_value hb hs hi hj h1 (hraw _ h1)
  obtain ⟨l, l1, l2, l3⟩ := hs.ens hi hj hE
  have hl : l = (List.range E).map raw := map_range_getElem? l2 fun e he => (l3 e _).mpr (hraw e he)
  subst hl
  by_cases hmiss : ∃ e < E, ¬ Present (raw e)
  · have hbad : ∃ q ∈ zagaSample Y X E o.nb i j, ¬ Present (chainAdd (fin 0) (raw q.1)) := by
      obtain ⟨e, he, hn⟩ := hmiss
      refine ⟨(e, i, j), ?_, ?_⟩
      · rw [ho.nb, zagaSample_zero hi hj]
        exact Finset.mem_image.mpr ⟨e, Finset.mem_range.mpr he, rfl⟩
      · unfold chainAdd
        rw [isValid_false_iff.mpr hn]
        simpa using not_present_MV
    obtain ⟨sums, s1, s2⟩ := zagaSums_missing htot hbad
    obtain ⟨g, g1, g2, g3, g4⟩ := putMembers_spec hi hj (vals := (List.range E).map raw) (by simp) hs
    refine ⟨g, raw, ?_, g2, fun e he => g3 e _ (by simp [he]), ⟨fun _ _ _ => rfl, fun r hr => ?_⟩, g4⟩
    · rw [s1, ok_bind, l1, ok_bind]
      unfold zagaApply
      rw [s2, isValid_false_iff.mpr not_present_MV, Bool.false_and, if_neg (by simp), g1, ok_bind]
    · obtain ⟨e, he, hn⟩ := hmiss
      exact absurd ⟨r e, (hr e he).1, by have := (hr e he).2; intro h; rw [h] at this; linarith⟩ hn
  by_cases hneg : ∀ e < E, ∃ q, raw e = fin q ∧ 0 ≤ q
  · have hval : ∀ e, ∃ q, e < E → raw e = fin q ∧ 0 ≤ q := by
      intro e
      by_cases he : e < E
      · obtain ⟨q, hq⟩ := hneg e he
        exact ⟨q, fun _ => hq⟩
      · exact ⟨0, fun h => absurd h he⟩
    choose r hr using hval
    have hS := zagaSample_nonempty (nb := o.nb) hi hj hE
    have hsum := zagaSums_present (o := o) (Y := Y) (X := X) (E := E) (precips := before ++ [s.precip]) (t := t) (i := i) (j := j) ho.frac
      (g := fun q => r q.1) (by
        intro q hq
        obtain ⟨h1, -, -⟩ := hmem q hq
        obtain ⟨r1, r2⟩ := hr q.1 h1
        refine ⟨?_, r2⟩
        rw [htot q hq, r1]
        unfold chainAdd
        rw [valid_nonneg (le_refl (0 : K)), valid_nonneg r2]
        simp)
    have hnn : 0 ≤ sampleMean (Finset.range E) r top :=
      sampleMean_nonneg _ (fun e he => (hr e (Finset.mem_range.mp he)).2) ho.top_pos.le
    obtain ⟨hf0, hf1⟩ := sampleFraction_range (Finset.range E) r thr
    have hinv : ∀ e, ∃ w, e < E → zagaInvCdf mk (quantileLevel E e) (fin (sampleMean (Finset.range E) r top))
        (fin (sampleFraction (Finset.range E) r thr)) p = ok w := by
      intro e
      by_cases he : e < E
      · obtain ⟨q, hq, -⟩ := quantileLevel_eq (K := K) he
        obtain ⟨w, hw⟩ := zagaInvCdf_total hmk hp hnn hf0 hf1 q
        exact ⟨w, fun _ => by rw [hq]; exact hw⟩
      · exact ⟨MV, fun h => absurd h he⟩
    choose w hw using hinv
    obtain ⟨g, out, g1, g2, g3, g4, g5⟩ := recalibrate_spec A hA hi hj hE (raw := raw) (w := w)
      (inv := fun q => zagaInvCdf mk q (fin (sampleMean (Finset.range E) r top)) (fin (sampleFraction (Finset.range E) r thr)) p) hw hs
    refine ⟨g, out, ?_, g2, g3, ⟨fun h => absurd h hmiss, fun r' hr' => ⟨w, fun e he => ?_, g4⟩⟩, g5⟩
    · rw [hsum, ok_bind, l1, ok_bind]
      unfold zagaApply
      have hsn : 0 ≤ ∑ q ∈ zagaSample Y X E o.nb i j, r q.1 := Finset.sum_nonneg fun q hq => (hr q.1 (hmem q hq).1).2
      rw [valid_nonneg hsn, Bool.true_and, if_pos (decide_eq_true hS), ho.pop]
      simp only [Bool.false_eq_true, if_false]
      have e1 : zagaMean o.maxEnsMean ⟨fin (∑ q ∈ zagaSample Y X E o.nb i j, r q.1),
          fin (((zagaSample Y X E o.nb i j).filter fun q => r q.1 ≤ thr).card : K), (zagaSample Y X E o.nb i j).card⟩ =
          fin (sampleMean (Finset.range E) r top) := by
        rw [ho.limit, zagaMean_eq ho.top_pos _ (g := fun q => r q.1) hS, ho.nb, (sample_zero hi hj r top thr).1]
      have e2 : (fin (((zagaSample Y X E o.nb i j).filter fun q => r q.1 ≤ thr).card : K) : Fl K) / Fl.ofNat (zagaSample Y X E o.nb i j).card =
          fin (sampleFraction (Finset.range E) r thr) := by
        have hS' : (((zagaSample Y X E o.nb i j).card : Nat) : K) ≠ 0 := by exact_mod_cast hS.ne'
        rw [ofNat_def, fin_div_of_ne _ hS', ← (sample_zero hi hj r top thr).2, ho.nb]
        rfl
      rw [e1, e2, g1, ok_bind]
    · have hrr : ∀ e < E, r' e = r e := by
        intro e he
        have := (hr' e he).1
        rw [(hr e he).1, Fl.fin.injEq] at this
        exact this.symm
      have e1 : sampleMean (Finset.range E) r' top = sampleMean (Finset.range E) r top := by
        unfold sampleMean
        rw [Finset.sum_congr rfl fun e he => hrr e (Finset.mem_range.mp he)]
      have e2 : sampleFraction (Finset.range E) r' thr = sampleFraction (Finset.range E) r thr := by
        unfold sampleFraction
        rw [Finset.filter_congr fun e he => by rw [hrr e (Finset.mem_range.mp he)]]
      rw [e1, e2, ← hw e he]
      obtain ⟨q, hq, hq', -⟩ := quantileLevel_eq (K := K) he
      rw [hq, hq']
  · -- a negative value
    have hvac : ∀ out, ZagaCellOut mk p thr top E raw out := fun out =>
      ⟨fun h => absurd h hmiss, fun r hr => absurd (fun e he => ⟨r e, hr e he⟩) hneg⟩
    rw [zagaSums_eq htot, ok_bind, l1, ok_bind]
    unfold zagaApply
    split_ifs with c1 c2
    · rw [ho.pop] at c2; cases c2
    · generalize zagaMean o.maxEnsMean _ = mean
      generalize (ZagaSums.frac _ / Fl.ofNat _ : Fl K) = frac
      have hinv : ∀ e, ∃ w, e < E → zagaInvCdf mk (quantileLevel E e) mean frac p = ok w := by
        intro e
        by_cases he : e < E
        · obtain ⟨q, hq, -⟩ := quantileLevel_eq (K := K) he
          obtain ⟨w, hw⟩ := zagaInvCdf_total' hmk hp mean frac q
          exact ⟨w, fun _ => by rw [hq]; exact hw⟩
        · exact ⟨MV, fun h => absurd h he⟩
      choose w hw using hinv
      obtain ⟨g, out, g1, g2, g3, -, g5⟩ := recalibrate_spec A hA hi hj hE (raw := raw) (w := w)
        (inv := fun q => zagaInvCdf mk q mean frac p) hw hs
      exact ⟨g, out, by simp only; rw [g1, ok_bind], g2, g3, hvac out, g5⟩
    · obtain ⟨g, g1, g2, g3, g4⟩ := putMembers_spec hi hj (vals := (List.range E).map raw) (by simp) hs
      exact ⟨g, raw, by rw [g1, ok_bind], g2, fun e he => g3 e _ (by simp [he]), hvac raw, g4⟩

/-- The grid points in the order of the loops. -/
def zagaCells (Y X : Nat) : List (Nat × Nat) := (List.range Y).flatMap fun i => (List.range X).map fun j => (i, j)

theorem mem_zagaCells {Y X : Nat} {c : Nat × Nat} : c ∈ zagaCells Y X ↔ c.1 < Y ∧ c.2 < X := by
  unfold zagaCells
  simp only [List.mem_flatMap, List.mem_range, List.mem_map]
  constructor
  · rintro ⟨i, hi, j, hj, rfl⟩; exact ⟨hi, hj⟩
  · intro h; exact ⟨c.1, h.1, c.2, h.2, rfl⟩

theorem zagaCells_nodup (Y X : Nat) : (zagaCells Y X).Nodup := by
  unfold zagaCells
  rw [List.nodup_flatMap]
  refine ⟨fun i _ => (List.nodup_range).map (fun a b h => by simpa using h), ?_⟩
  refine (List.nodup_range (n := Y)).imp ?_
  intro a b hab c h1 h2
  obtain ⟨_, -, rfl⟩ := List.mem_map.mp h1
  obtain ⟨_, -, h⟩ := List.mem_map.mp h2
  simp only [Prod.mk.injEq] at h
  exact hab h.1.symm

theorem zagaTime_eq (o : ZagaOpts K) (mk : Fl K → Fl K → Dist K) (A : Arma K) (Y X E : Nat) (par : Nat → Nat → Nat → List (Fl K))
    (before : List (FieldC K)) (t : Nat) (s : ZagaFields K) :
    zagaTime o mk A Y X E par before t s =
      Res.omp (foldM (fun s c => zagaCell o mk A Y X E before t (par t c.1 c.2) s c.1 c.2) s (zagaCells Y X)) := by
  unfold zagaTime zagaCells
  rw [← foldM_flatMap]
  congr 2
  funext s i
  rw [foldM_map']

/-- **C123** (ensemble), for single grid points and single times. Without neighbours and accumulation the calibrator changes nothing but
the precipitation, and each grid point by itself: the members are kept if one of them or a quantile is missing; else they are replaced
by the quantiles of the levels (e + 1/2) / E in the order of the old members, for the mean of the members up to a limit and the fraction
of them up to the threshold. -/
theorem c123_ensemble_partial {mk : Fl K → Fl K → Dist K} {F : K → K → K → K} (hmk : GammaFamily mk F) (A : Arma K) (hA : Arma.Lawful A)
    {o : ZagaOpts K} {thr top : K} (ho : ZagaPlain o thr top) {Y X E : Nat} (hE : 0 < E) {par : Nat → Nat → Nat → List (Fl K)}
    {fields : List (ZagaFields K)} (hp : ∀ t < fields.length, ∀ y < Y, ∀ x < X, ZagaPars (par t y x))
    (hs : ∀ s ∈ fields, Sized Y X E s.precip) :
    ∃ out, zagaCore o mk A Y X E par fields = ok out ∧ out.length = fields.length ∧ ∀ t s, fields[t]? = some s →
      ∃ s', out[t]? = some s' ∧ s'.pop = s.pop ∧ s'.low = s.low ∧ s'.middle = s.middle ∧ s'.high = s.high ∧ Sized Y X E s'.precip ∧
        ∀ y < Y, ∀ x < X, ∃ raw new, (∀ e < E, s.precip.get y x e = ok (raw e)) ∧ (∀ e < E, s'.precip.get y x e = ok (new e)) ∧
          ZagaCellOut mk (par t y x) thr top E raw new := by
  -- one time
  have htime : ∀ t s (before : List (FieldC K)), fields[t]? = some s → before.length = t → ∃ s', zagaTime o mk A Y X E par before t s = ok s' ∧
      s'.pop = s.pop ∧ s'.low = s.low ∧ s'.middle = s.middle ∧ s'.high = s.high ∧ Sized Y X E s'.precip ∧
        ∀ y < Y, ∀ x < X, ∃ raw new, (∀ e < E, s.precip.get y x e = ok (raw e)) ∧ (∀ e < E, s'.precip.get y x e = ok (new e)) ∧
          ZagaCellOut mk (par t y x) thr top E raw new := by
    intro t s before hts hb
    have htl := (List.getElem?_eq_some_iff.mp hts).1
    have hsm := List.mem_of_getElem? hts
    rw [zagaTime_eq]
    obtain ⟨s', h1, ⟨h2, h3, h4, h5, h6⟩, h7, -⟩ := foldM_cells (S := ZagaFields K) (ι := Nat × Nat) (V := Nat → Res (Fl K))
      (fun u => Sized Y X E u.precip ∧ u.pop = s.pop ∧ u.low = s.low ∧ u.middle = s.middle ∧ u.high = s.high)
      (fun u c => u.precip.get c.1 c.2)
      (fun s c => zagaCell o mk A Y X E before t (par t c.1 c.2) s c.1 c.2)
      (fun c v w => ∃ raw new, (∀ e < E, v e = ok (raw e)) ∧ (∀ e < E, w e = ok (new e)) ∧ ZagaCellOut mk (par t c.1 c.2) thr top E raw new)
      (zagaCells Y X) (zagaCells_nodup Y X) (by
        rintro u ⟨u1, u2, u3, u4, u5⟩ ⟨i, j⟩ hc
        obtain ⟨hi, hj⟩ := mem_zagaCells.mp hc
        simp only at hi hj ⊢
        have hex : ∀ e, ∃ v, e < E → u.precip.get i j e = ok v := by
          intro e
          by_cases he : e < E
          · obtain ⟨v, hv⟩ := u1.exists_get hi hj he
            exact ⟨v, fun _ => hv⟩
          · exact ⟨MV, fun h => absurd h he⟩
        choose raw hraw using hex
        obtain ⟨g, new, g1, g2, g3, g4, g5⟩ := zaga_ensemble_cell hmk A hA ho hE hb (hp t htl i hi j hj) u1 hi hj hraw
        refine ⟨{ u with precip := g }, g1, ⟨g2, u2, u3, u4, u5⟩, ⟨raw, new, hraw, g3, g4⟩, ?_⟩
        rintro ⟨y', x'⟩ hne
        exact g5 y' x' fun h => hne (Prod.ext h.1 h.2)) s ⟨hs s hsm, rfl, rfl, rfl, rfl⟩
    exact ⟨s', by rw [h1]; rfl, h3, h4, h5, h6, h2, fun y hy x hx => h7 (y, x) (mem_zagaCells.mpr ⟨hy, hx⟩)⟩
  obtain ⟨out, h1, h2, h3⟩ := buildM_exists (n := fields.length) (f := fun (before : List (ZagaFields K)) t => do
      let s ← vget fields (t : Nat)
      zagaTime o mk A Y X E par (before.map ZagaFields.precip) t s)
    (Q := fun acc => ∀ t s, t < acc.length → fields[t]? = some s →
      ∃ s', acc[t]? = some s' ∧ s'.pop = s.pop ∧ s'.low = s.low ∧ s'.middle = s.middle ∧ s'.high = s.high ∧ Sized Y X E s'.precip ∧
        ∀ y < Y, ∀ x < X, ∃ raw new, (∀ e < E, s.precip.get y x e = ok (raw e)) ∧ (∀ e < E, s'.precip.get y x e = ok (new e)) ∧
          ZagaCellOut mk (par t y x) thr top E raw new) (by intro t s h; simp at h) (by
      intro acc hlt hQ
      obtain ⟨s', g1, g2⟩ := htime acc.length fields[acc.length] (acc.map ZagaFields.precip) (List.getElem?_eq_getElem hlt) (by simp)
      refine ⟨s', by rw [vget_eq_ok_of_lt hlt, ok_bind]; exact g1, fun t s ht hts => ?_⟩
      by_cases h : t < acc.length
      · obtain ⟨u, u1, u2⟩ := hQ t s h hts
        exact ⟨u, by rw [List.getElem?_append_left h]; exact u1, u2⟩
      · obtain rfl : t = acc.length := by simp at ht; omega
        rw [List.getElem?_eq_getElem hlt, Option.some.injEq] at hts
        subst hts
        exact ⟨s', by simp, g2⟩)
  exact ⟨out, h1, h2, fun t s hts => h3 t s (by rw [h2]; exact (List.getElem?_eq_some_iff.mp hts).1) hts⟩

/-- **C123** (rank). At a grid point with nothing missing and no two equal members the member with `k` members below it gets the
quantile of the level (k + 1/2) / E. -/
theorem c123_rank_partial {mk : Fl K → Fl K → Dist K} {F : K → K → K → K} (hmk : GammaFamily mk F) {p : List (Fl K)} {c : Fin 8 → K} (hp : Pars8 p c)
    {thr top : K} {E : Nat} {raw new : Nat → Fl K} (h : ZagaCellOut mk p thr top E raw new) {r : Nat → K}
    (hr : ∀ e < E, raw e = fin (r e) ∧ 0 ≤ r e) (hd : ∀ i < E, ∀ j < E, r i = r j → i = j) {P mu sigma : K}
    (hz : ZagaModel c (sampleMean (Finset.range E) r top) (sampleFraction (Finset.range E) r thr) P mu sigma)
    (hl : P ≠ 1 / (1 + HasExp.exp 999)) : ∀ e < E, zagaInvCdf mk (fin (((rankOf E r e : K) + 1 / 2) / (E : K)))
      (fin (sampleMean (Finset.range E) r top)) (fin (sampleFraction (Finset.range E) r thr)) p = ok (new e) ∧ ∃ v, new e = fin v ∧ 0 ≤ v := by
  obtain ⟨w, hw, hre⟩ := h.2 r hr
  obtain ⟨hf0, hf1⟩ := sampleFraction_range (Finset.range E) r thr
  have hpos : 0 < mu ∧ 0 < sigma := by
    obtain ⟨r, hr, rfl, rfl, rfl⟩ := hz.law
    exact ⟨LawfulExp.exp_pos _, LawfulExp.exp_pos _⟩
  have hlev : ∀ e < E, (0 : K) < ((e : K) + 1 / 2) / (E : K) ∧ ((e : K) + 1 / 2) / (E : K) < 1 := by
    intro e he
    obtain ⟨q, -, rfl, h1, h2⟩ := quantileLevel_eq (K := K) he
    exact ⟨h1, h2⟩
  have hwv : ∀ e < E, ∃ v, w e = fin v ∧ 0 ≤ v := by
    intro e he
    obtain ⟨v, h1, h2, -⟩ := c122_quantile_partial hmk hp hz (gammaMoments_exists hpos.1 hpos.2) hf0 hf1 hl (hlev e he).1 (hlev e he).2
    rw [hw e he, Res.ok.injEq] at h1
    exact ⟨v, h1, h2⟩
  have hpres : ∀ {u : Fl K}, (∃ v, u = fin v ∧ 0 ≤ v) → Present u := by
    rintro u ⟨v, rfl, hv⟩
    exact ⟨v, rfl, by intro h; rw [h] at hv; linarith⟩
  rcases hre with ⟨⟨e, he, hn⟩, -⟩ | ⟨-, ⟨e, he, hn⟩, -⟩ | ⟨r', v, out, hr', hv, ho, hreo⟩
  · exact absurd (hpres (hwv e he)) hn
  · exact absurd (hpres ⟨r e, hr e he⟩) hn
  · have hrr : ∀ e < E, r' e = r e := by
      intro e he
      have := (hr' e he).1
      rw [(hr e he).1, Fl.fin.injEq] at this
      exact this.symm
    have hreo' : Reordered E r v out := ⟨hreo.perm, fun i hi j hj hij => hreo.order i hi j hj (by rw [hrr i hi, hrr j hj]; exact hij)⟩
    have hmono : ∀ i j, i ≤ j → j < E → v i ≤ v j := by
      intro i j hij hj
      refine c122_mono_partial hmk hp hz hf0 hf1 hl (hlev i (by omega)).1 ?_ (hlev j hj).2 ?_ ?_
      · have : (0 : K) < (E : K) := by exact_mod_cast (show 0 < E by omega)
        have hc : (i : K) ≤ (j : K) := by exact_mod_cast hij
        rw [div_le_div_iff_of_pos_right this]
        linarith
      · rw [hw i (by omega), (hv i (by omega)).1]
      · rw [hw j hj, (hv j hj).1]
    intro e he
    obtain ⟨k1, k2⟩ := reordered_rank hreo' hd hmono e he
    rw [hw _ k1, ho e he, k2, (hv _ k1).1]
    refine ⟨rfl, v (rankOf E r e), rfl, ?_⟩
    obtain ⟨u, h1, h2⟩ := hwv _ k1
    rw [(hv _ k1).1, Fl.fin.injEq] at h1
    rw [h1]; exact h2

variable {K' : Type} [Field K'] [LinearOrder K'] [IsStrictOrderedRing K'] [FloorRing K'] [HasExp K']

/-- **C123** (6h) is false for an ensemble: with the accumulation over six hours and without `popVariable`, the calibrator reads in front
of its array of fields at the first time. -/
theorem c123_six_hours_false (mk : Fl K' → Fl K' → Dist K') (A : Arma K') (o : ZagaOpts K') (hp : o.pop = false) (h6 : o.sixHours = true)
    {Y X E : Nat} (hY : 0 < Y) (hX : 0 < X) (hE : 0 < E) (par : Nat → Nat → Nat → List (Fl K')) (s : ZagaFields K') (rest : List (ZagaFields K')) :
    zagaCore o mk A Y X E par (s :: rest) = .ub := by
  have hsum : ∀ precips : List (FieldC K'), zagaSums o Y X E precips 0 0 0 = .ub := by
    intro precips
    unfold zagaSums
    obtain ⟨E, rfl⟩ : ∃ e, E = e + 1 := ⟨E - 1, by omega⟩
    have hne : ((0 : Int), (0 : Int)) ∈ stencil Y X o.nb (((0 : Nat) : Int), ((0 : Nat) : Int)) := by
      rw [mem_stencil]; simp only; omega
    rw [List.range_succ_eq_map, foldM_cons]
    cases hst : stencil Y X o.nb (((0 : Nat) : Int), ((0 : Nat) : Int)) with
    | nil => rw [hst] at hne; cases hne
    | cons c l =>
      rw [foldM_cons, zagaTotal_ub (by unfold ZagaOpts.window; rw [h6]; simp)]
      rfl
  obtain ⟨Y, rfl⟩ : ∃ e, Y = e + 1 := ⟨Y - 1, by omega⟩
  obtain ⟨X, rfl⟩ : ∃ e, X = e + 1 := ⟨X - 1, by omega⟩
  have hcell : ∀ q, zagaCell o mk A (Y + 1) (X + 1) E [] 0 q s 0 0 = .ub := by
    intro q
    unfold zagaCell
    rw [hp, Bool.false_and, if_neg (by simp), hsum]
    rfl
  have htime : zagaTime o mk A (Y + 1) (X + 1) E par [] 0 s = .ub := by
    unfold zagaTime
    rw [List.range_succ_eq_map (n := Y), List.range_succ_eq_map (n := X), foldM_cons, foldM_cons, hcell]
    rfl
  unfold zagaCore buildM
  rw [List.length_cons, List.range_succ_eq_map, foldM_cons]
  have h0 : vget (s :: rest) ((0 : Nat) : Int) = ok s := rfl
  simp only [h0, ok_bind, List.map_nil, htime]
  rfl

/-- The calibrator of the example below: one row, two grid points, one member, every point a neighbour of the other. -/
def zagaLine (a b : ℚ) : Res (List (List (Fl ℚ))) :=
  let f : FieldC ℚ := ⟨[fin a, fin b], 1, 2, 1⟩
  do
    let out ← zagaCore ⟨fin (1 / 2), 1, fin (1 / 2), MV, MV, MV, fin 100, false, false⟩ exampleGamma ⟨fun _ => ub, id⟩ 1 2 1
      (fun _ _ _ => [-1, 3, 0, 0, -1, 0, 0, 0].map fin) [⟨f, f, f, f, f⟩]
    ok (out.map fun s => s.precip.values)

/-- **C123** (neighbours) is false: with the same parameters and the same values 2 and 4 around them, two grid points get different
amounts, as the second one is calibrated with the new value of the first one. The functions in place of the exponential function and of
the gamma distribution are those of the examples. -/
theorem c123_neighbour_false : zagaLine 2 4 = ok [[fin 5, fin (13 / 2)]] := by decide +kernel

end Gridpp.Props
