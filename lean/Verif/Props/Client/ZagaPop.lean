import Verif.Props.Client.ZagaCore

/-! # C123: the probability of precipitation of the calibrator zaga of the client -/

set_option linter.unusedSectionVars false

namespace Gridpp.Props
open Fl hiding MV isValid
open Res Client Spec

variable {K : Type} [Field K] [LinearOrder K] [IsStrictOrderedRing K] [FloorRing K] [LawfulExp K]

omit [FloorRing K] [LawfulExp K] in
theorem setMembers_spec {Y X E i j : Nat} (hi : i < Y) (hj : j < X) {f : FieldC K} (hf : Sized Y X E f) {value : Res (Fl K)} {v : Fl K}
    (hv : value = ok v) : ∃ g, setMembers E i j value f = ok g ∧ Sized Y X E g ∧ (∀ e < E, g.get i j e = ok v) ∧
      ∀ y' x', ¬ (y' = i ∧ x' = j) → g.get y' x' = f.get y' x' := by
  subst hv
  unfold setMembers
  obtain ⟨g, h1, ⟨h2, h3⟩, h4, -⟩ := foldM_cells (S := FieldC K) (ι := Nat) (V := Res (Fl K))
    (fun u => Sized Y X E u ∧ ∀ y' x', ¬ (y' = i ∧ x' = j) → u.get y' x' = f.get y' x')
    (fun u e => u.get i j e) (fun f e => do
      let w ← ok v
      f.set i j e w) (fun _ _ w => w = ok v) (List.range E) List.nodup_range (by
      rintro u ⟨u1, u2⟩ e he
      obtain ⟨u', g1, g2, g3, g4⟩ := u1.set hi hj (List.mem_range.mp he) v
      refine ⟨u', by rw [ok_bind]; exact g1, ⟨g2, fun y' x' hn => ?_⟩, g3, fun e' hne => g4 i j e' fun h => hne h.2.2⟩
      rw [← u2 y' x' hn]
      funext e'
      exact g4 y' x' e' fun h => hn ⟨h.1, h.2.1⟩) f ⟨hf, fun _ _ _ => rfl⟩
  exact ⟨g, h1, h2, fun e he => h4 e (List.mem_range.mpr he), h3⟩

/-- One of the fields with a quantile: left as it is without a level. -/
def ZagaQuantileOut (mk : Fl K → Fl K → Dist K) (p : List (Fl K)) (m f : K) (level : Fl K) (E : Nat) (old new : Nat → Res (Fl K)) : Prop :=
  (¬ Present level → new = old) ∧ (Present level → ∃ w, zagaInvCdf mk level (fin m) (fin f) p = ok w ∧ ∀ e < E, new e = ok w)

theorem zagaQuantile_spec {mk : Fl K → Fl K → Dist K} {F : K → K → K → K} (hmk : GammaFamily mk F) {p : List (Fl K)} (hp : ZagaPars p)
    {m f : K} (hm : 0 ≤ m) (h0 : 0 ≤ f) (h1 : f ≤ 1) (level : Fl K) {Y X E i j : Nat} (hi : i < Y) (hj : j < X) {u : FieldC K}
    (hu : Sized Y X E u) : ∃ g, zagaQuantile E i j level (fun q => zagaInvCdf mk q (fin m) (fin f) p) u = ok g ∧ Sized Y X E g ∧
      ZagaQuantileOut mk p m f level E (u.get i j) (g.get i j) ∧ ∀ y' x', ¬ (y' = i ∧ x' = j) → g.get y' x' = u.get y' x' := by
  unfold zagaQuantile
  by_cases hl : Present level
  · rw [if_pos (isValid_iff_present.mpr hl)]
    obtain ⟨q, rfl, -⟩ := id hl
    obtain ⟨w, hw⟩ := zagaInvCdf_total hmk hp hm h0 h1 q
    obtain ⟨g, g1, g2, g3, g4⟩ := setMembers_spec hi hj hu hw
    exact ⟨g, g1, g2, ⟨fun h => absurd hl h, fun _ => ⟨w, hw, g3⟩⟩, g4⟩
  · rw [if_neg (by rw [isValid_false_iff.mpr hl]; simp)]
    exact ⟨u, rfl, hu, ⟨fun _ => rfl, fun h => absurd h hl⟩, fun _ _ _ => rfl⟩

/-- The values of the four fields with results at one grid point. -/
structure ZagaResult (K : Type) where
  pop : Nat → Res (Fl K)
  low : Nat → Res (Fl K)
  middle : Nat → Res (Fl K)
  high : Nat → Res (Fl K)

def zagaResult (s : ZagaFields K) (c : Nat × Nat) : ZagaResult K := ⟨s.pop.get c.1 c.2, s.low.get c.1 c.2, s.middle.get c.1 c.2, s.high.get c.1 c.2⟩

/-- The result at one grid point. `val k q` is the precipitation of the time `k` of the window at the place `q`. -/
structure ZagaPopOut (mk : Fl K → Fl K → Dist K) (o : ZagaOpts K) (p : List (Fl K)) (thr top : K) (E t : Nat) (S : Finset (Nat × Nat × Nat))
    (val : Nat → Nat × Nat × Nat → Fl K) (old new : ZagaResult K) : Prop where
  /-- not enough times before this one -/
  early : t + 1 < o.window → (∀ e < E, new.pop e = ok MV) ∧ new.low = old.low ∧ new.middle = old.middle ∧ new.high = old.high
  /-- something is missing -/
  missing : o.window ≤ t + 1 → (∃ k < o.window, ∃ q ∈ S, ¬ Present (val k q)) → new = old
  full : o.window ≤ t + 1 → ∀ g : Nat → Nat × Nat × Nat → K, (∀ k < o.window, ∀ q ∈ S, val k q = fin (g k q) ∧ 0 ≤ g k q) →
    (∃ w, zagaCdf mk o.popThreshold (fin (sampleMean S (fun q => ∑ k ∈ Finset.range o.window, g k q) top))
        (fin (sampleFraction S (fun q => ∑ k ∈ Finset.range o.window, g k q) thr)) p = ok w ∧
      (Present w → ∀ e < E, new.pop e = ok (1 - w)) ∧ (¬ Present w → ∀ e < E, new.pop e = ok MV)) ∧
    ZagaQuantileOut mk p (sampleMean S (fun q => ∑ k ∈ Finset.range o.window, g k q) top)
      (sampleFraction S (fun q => ∑ k ∈ Finset.range o.window, g k q) thr) o.low E old.low new.low ∧
    ZagaQuantileOut mk p (sampleMean S (fun q => ∑ k ∈ Finset.range o.window, g k q) top)
      (sampleFraction S (fun q => ∑ k ∈ Finset.range o.window, g k q) thr) o.middle E old.middle new.middle ∧
    ZagaQuantileOut mk p (sampleMean S (fun q => ∑ k ∈ Finset.range o.window, g k q) top)
      (sampleFraction S (fun q => ∑ k ∈ Finset.range o.window, g k q) thr) o.high E old.high new.high

/-- The options of this part. -/
structure ZagaForPop (o : ZagaOpts K) (thr top : K) : Prop where
  pop : o.pop = true
  frac : o.fracThreshold = fin thr
  limit : o.maxEnsMean = fin top
  top_pos : 0 < top

/-- All four fields with results have the size of the precipitation. -/
structure ZagaSized (Y X E : Nat) (s : ZagaFields K) : Prop where
  precip : Sized Y X E s.precip
  pop : Sized Y X E s.pop
  low : Sized Y X E s.low
  middle : Sized Y X E s.middle
  high : Sized Y X E s.high

theorem zaga_pop_cell {mk : Fl K → Fl K → Dist K} {F : K → K → K → K} (hmk : GammaFamily mk F) (A : Arma K) {o : ZagaOpts K} {thr top : K}
    (ho : ZagaForPop o thr top) {Y X E t : Nat} (hE : 0 < E) {before : List (FieldC K)} (hb : before.length = t)
    (hbs : ∀ f ∈ before, Sized Y X E f) {p : List (Fl K)} (hp : ZagaPars p) {s : ZagaFields K} (hs : ZagaSized Y X E s) {i j : Nat}
    (hi : i < Y) (hj : j < X) {val : Nat → Nat × Nat × Nat → Fl K}
    (hval : ∀ t' f, (before ++ [s.precip])[t']? = some f → ∀ q : Nat × Nat × Nat, q.2.1 < Y → q.2.2 < X → q.1 < E →
      f.get q.2.1 q.2.2 q.1 = ok (val t' q))
    (hnn : ∀ t' q r, val t' q = fin r → r ≠ -999 → 0 ≤ r) :
    ∃ s', zagaCell o mk A Y X E before t p s i j = ok s' ∧ ZagaSized Y X E s' ∧ s'.precip = s.precip ∧
      ZagaPopOut mk o p thr top E t (zagaSample Y X E o.nb i j) (fun k q => val (t + 1 - o.window + k) q) (zagaResult s (i, j))
        (zagaResult s' (i, j)) ∧ ∀ c, c ≠ (i, j) → zagaResult s' c = zagaResult s c := by
  have hother : ∀ {u u' : FieldC K}, (∀ y' x', ¬ (y' = i ∧ x' = j) → u'.get y' x' = u.get y' x') → ∀ c : Nat × Nat, c ≠ (i, j) →
      u'.get c.1 c.2 = u.get c.1 c.2 := fun h c hc => h _ _ fun h' => hc (Prod.ext h'.1 h'.2)
  unfold zagaCell
  by_cases hw : t + 1 < o.window
  · rw [ho.pop, Bool.true_and, if_pos (decide_eq_true hw)]
    obtain ⟨g, g1, g2, g3, g4⟩ := setMembers_spec hi hj hs.pop (value := ok MV) rfl
    refine ⟨{ s with pop := g }, by rw [g1, ok_bind], ⟨hs.precip, g2, hs.low, hs.middle, hs.high⟩, rfl, ?_, ?_⟩
    · exact ⟨fun _ => ⟨g3, rfl, rfl, rfl⟩, fun h => absurd h (by omega), fun h => absurd h (by omega)⟩
    · intro c hc
      unfold zagaResult
      rw [hother g4 c hc]
  · rw [ho.pop, Bool.true_and, if_neg (by simpa using hw)]
    have hmem : ∀ q ∈ zagaSample Y X E o.nb i j, q.1 < E ∧ q.2.1 < Y ∧ q.2.2 < X := by
      intro q hq
      simp only [zagaSample, Finset.mem_filter, Finset.mem_product, Finset.mem_range] at hq
      exact ⟨hq.1.1, hq.1.2.1, hq.1.2.2⟩
    have htot : ∀ q ∈ zagaSample Y X E o.nb i j, zagaTotal o.window (before ++ [s.precip]) t q.1 ((q.2.1 : Int), (q.2.2 : Int)) =
        ok (((List.range o.window).map fun k => val (t + 1 - o.window + k) q).foldl chainAdd (fin 0)) := by
      intro q hq
      obtain ⟨q1, q2, q3⟩ := hmem q hq
      refine zagaTotal_eq fun k hk => ?_
      have hlt : t + 1 - o.window + k < (before ++ [s.precip]).length := by
        rw [List.length_append, hb, List.length_singleton]; omega
      refine ⟨(before ++ [s.precip])[t + 1 - o.window + k], ?_, ?_⟩
      · rw [show ((t : Int) - o.window + 1 + k) = ((t + 1 - o.window + k : Nat) : Int) by omega, vget_eq_ok_of_lt hlt]
      · have hsz : Sized Y X E (before ++ [s.precip])[t + 1 - o.window + k] := by
          rcases List.mem_append.mp (List.getElem_mem hlt) with h | h
          · exact hbs _ h
          · rw [List.mem_singleton.mp h]; exact hs.precip
        obtain ⟨u, h1, h2⟩ := getInt_nat hsz q2 q3 q1
        rw [h1, ← h2]
        exact hval _ _ (List.getElem?_eq_getElem hlt) q q2 q3 q1
    obtain ⟨l, l1, l2, l3⟩ := hs.precip.ens hi hj hE
    by_cases hmiss : ∃ k < o.window, ∃ q ∈ zagaSample Y X E o.nb i j, ¬ Present (val (t + 1 - o.window + k) q)
    · have hbad : ∃ q ∈ zagaSample Y X E o.nb i j,
          ¬ Present (((List.range o.window).map fun k => val (t + 1 - o.window + k) q).foldl chainAdd (fin 0)) := by
        obtain ⟨k, hk, q, hq, hn⟩ := hmiss
        refine ⟨q, hq, ?_⟩
        rw [chain_missing ⟨_, List.mem_map.mpr ⟨k, List.mem_range.mpr hk, rfl⟩, hn⟩]
        exact not_present_MV
      obtain ⟨sums, s1, s2⟩ := zagaSums_missing htot hbad
      obtain ⟨g, g1, g2, g3, g4⟩ := putMembers_spec hi hj (vals := l) l2 hs.precip
      have hg : g = s.precip := by
        refine g2.ext hs.precip fun y hy x hx e he => ?_
        by_cases h : y = i ∧ x = j
        · obtain ⟨rfl, rfl⟩ := h
          obtain ⟨v, hv⟩ := hs.precip.exists_get hi hj he
          rw [hv]
          exact g3 e v ((l3 e v).mpr hv)
        · rw [g4 y x h]
      refine ⟨s, ?_, hs, rfl, ⟨fun h => absurd h hw, fun _ _ => rfl, fun _ gg hgg => ?_⟩, fun _ _ => rfl⟩
      · rw [s1, ok_bind, l1, ok_bind]
        unfold zagaApply
        rw [s2, isValid_false_iff.mpr not_present_MV, Bool.false_and, if_neg (by simp), g1, ok_bind, hg]
      · obtain ⟨k, hk, q, hq, hn⟩ := hmiss
        obtain ⟨h1, h2⟩ := hgg k hk q hq
        exact absurd ⟨gg k q, h1, by intro h; rw [h] at h2; linarith⟩ hn
    · push Not at hmiss
      have hval' : ∀ k q, ∃ r, k < o.window → q ∈ zagaSample Y X E o.nb i j → val (t + 1 - o.window + k) q = fin r ∧ 0 ≤ r := by
        intro k q
        by_cases h : k < o.window ∧ q ∈ zagaSample Y X E o.nb i j
        · obtain ⟨r, h1, h2⟩ := hmiss k h.1 q h.2
          exact ⟨r, fun _ _ => ⟨h1, hnn _ _ _ h1 h2⟩⟩
        · exact ⟨0, fun h1 h2 => absurd ⟨h1, h2⟩ h⟩
      choose r hr using hval'
      have hS := zagaSample_nonempty (nb := o.nb) hi hj hE
      set S := zagaSample Y X E o.nb i j with hSdef
      set T : Nat × Nat × Nat → K := fun q => ∑ k ∈ Finset.range o.window, r k q with hT
      have hT0 : ∀ q ∈ S, 0 ≤ T q := fun q hq => Finset.sum_nonneg fun k hk => (hr k q (Finset.mem_range.mp hk) hq).2
      have hsum := zagaSums_present (o := o) (Y := Y) (X := X) (E := E) (precips := before ++ [s.precip]) (t := t) (i := i) (j := j) ho.frac
        (g := T) (by
          intro q hq
          refine ⟨?_, hT0 q hq⟩
          rw [htot q hq]
          have e1 : ((List.range o.window).map fun k => val (t + 1 - o.window + k) q) = ((List.range o.window).map fun k => r k q).map fin := by
            rw [List.map_map]
            exact List.map_congr_left fun k hk => (hr k q (List.mem_range.mp hk) hq).1
          rw [e1, chain_sum (by
            intro v hv
            obtain ⟨k, hk, rfl⟩ := List.mem_map.mp hv
            exact (hr k q (List.mem_range.mp hk) hq).2) (le_refl _), zero_add]
          rfl)
      have hm : 0 ≤ sampleMean S T top := sampleMean_nonneg _ hT0 ho.top_pos.le
      obtain ⟨hf0, hf1⟩ := sampleFraction_range S T thr
      obtain ⟨w, hw'⟩ := zagaCdf_total hmk hp hm hf0 hf1 o.popThreshold
      obtain ⟨gp, p1, p2, p3, p4⟩ := setMembers_spec hi hj hs.pop (value := do
        let cdf ← zagaCdf mk o.popThreshold (fin (sampleMean S T top)) (fin (sampleFraction S T thr)) p
        ok (if isValid cdf then 1 - cdf else MV)) (v := if isValid w then 1 - w else MV) (by rw [hw', ok_bind])
      obtain ⟨gl, a1, a2, a3, a4⟩ := zagaQuantile_spec hmk hp hm hf0 hf1 o.low hi hj hs.low
      obtain ⟨gm, b1, b2, b3, b4⟩ := zagaQuantile_spec hmk hp hm hf0 hf1 o.middle hi hj hs.middle
      obtain ⟨gh, c1, c2, c3, c4⟩ := zagaQuantile_spec hmk hp hm hf0 hf1 o.high hi hj hs.high
      refine ⟨⟨s.precip, gp, gl, gm, gh⟩, ?_, ⟨hs.precip, p2, a2, b2, c2⟩, rfl, ⟨fun h => absurd h hw, fun _ h => ?_, fun _ gg hgg => ?_⟩, ?_⟩
      · rw [hsum, ok_bind, l1, ok_bind]
        unfold zagaApply
        have hsn : 0 ≤ ∑ q ∈ S, T q := Finset.sum_nonneg hT0
        rw [valid_nonneg hsn, Bool.true_and, if_pos (decide_eq_true hS), ho.pop]
        simp only [if_true]
        have e1 : zagaMean o.maxEnsMean ⟨fin (∑ q ∈ S, T q), fin ((S.filter fun q => T q ≤ thr).card : K), S.card⟩ = fin (sampleMean S T top) := by
          rw [ho.limit, zagaMean_eq ho.top_pos _ (g := T) hS]
        have e2 : (fin ((S.filter fun q => T q ≤ thr).card : K) : Fl K) / Fl.ofNat S.card = fin (sampleFraction S T thr) := by
          have hS' : ((S.card : Nat) : K) ≠ 0 := by exact_mod_cast hS.ne'
          rw [ofNat_def, fin_div_of_ne _ hS']
          rfl
        rw [e1, e2]
        unfold zagaPop
        rw [p1, ok_bind, a1, ok_bind, b1, ok_bind, c1, ok_bind]
      · obtain ⟨k, hk, q, hq, hn⟩ := h
        exact absurd (hmiss k hk q hq) hn
      · have hsame : ∀ q ∈ S, ∑ k ∈ Finset.range o.window, gg k q = T q := by
          intro q hq
          refine Finset.sum_congr rfl fun k hk => ?_
          have h1 := (hgg k (Finset.mem_range.mp hk) q hq).1
          rw [(hr k q (Finset.mem_range.mp hk) hq).1, Fl.fin.injEq] at h1
          exact h1.symm
        have e1 : sampleMean S (fun q => ∑ k ∈ Finset.range o.window, gg k q) top = sampleMean S T top := by
          unfold sampleMean
          rw [Finset.sum_congr rfl hsame]
        have e2 : sampleFraction S (fun q => ∑ k ∈ Finset.range o.window, gg k q) thr = sampleFraction S T thr := by
          unfold sampleFraction
          rw [Finset.filter_congr (q := fun q => T q ≤ thr) fun q hq => by simp only [hsame q hq]]
        rw [e1, e2]
        refine ⟨⟨w, hw', fun hP e he => ?_, fun hP e he => ?_⟩, a3, b3, c3⟩
        · have := p3 e he
          rw [if_pos (isValid_iff_present.mpr hP)] at this
          exact this
        · have := p3 e he
          rw [isValid_false_iff.mpr hP] at this
          exact this
      · intro c hc
        unfold zagaResult
        simp only
        rw [hother p4 c hc, hother a4 c hc, hother b4 c hc, hother c4 c hc]

/-- **C123** (probability of precipitation). With `popVariable` the precipitation stays as it is. The other fields get, at each grid point,
the probability of more than the threshold and the quantiles of the three levels (where there is a level), from the mean and the fraction
of the sums over the time window of all members at all neighbours. At times with not enough times before them the probability is missing.
A missing value among the values needed leaves all fields as they were. -/
theorem c123_pop_partial {mk : Fl K → Fl K → Dist K} {F : K → K → K → K} (hmk : GammaFamily mk F) (A : Arma K) {o : ZagaOpts K} {thr top : K}
    (ho : ZagaForPop o thr top) {Y X E : Nat} (hE : 0 < E) {par : Nat → Nat → Nat → List (Fl K)} {fields : List (ZagaFields K)}
    (hp : ∀ t < fields.length, ∀ y < Y, ∀ x < X, ZagaPars (par t y x)) (hs : ∀ s ∈ fields, ZagaSized Y X E s)
    {val : Nat → Nat × Nat × Nat → Fl K} (hval : ∀ t s, fields[t]? = some s → ∀ e < E, ∀ y < Y, ∀ x < X, s.precip.get y x e = ok (val t (e, y, x)))
    (hnn : ∀ t q r, val t q = fin r → r ≠ -999 → 0 ≤ r) :
    ∃ out, zagaCore o mk A Y X E par fields = ok out ∧ out.length = fields.length ∧ ∀ t s, fields[t]? = some s →
      ∃ s', out[t]? = some s' ∧ s'.precip = s.precip ∧ ∀ y < Y, ∀ x < X, ZagaPopOut mk o (par t y x) thr top E t (zagaSample Y X E o.nb y x)
        (fun k q => val (t + 1 - o.window + k) q) (zagaResult s (y, x)) (zagaResult s' (y, x)) := by
  have htime : ∀ t s (before : List (FieldC K)), fields[t]? = some s → before = (fields.take t).map ZagaFields.precip →
      ∃ s', zagaTime o mk A Y X E par before t s = ok s' ∧ s'.precip = s.precip ∧ ∀ y < Y, ∀ x < X,
        ZagaPopOut mk o (par t y x) thr top E t (zagaSample Y X E o.nb y x) (fun k q => val (t + 1 - o.window + k) q) (zagaResult s (y, x))
          (zagaResult s' (y, x)) := by
    intro t s before hts hb
    have htl := (List.getElem?_eq_some_iff.mp hts).1
    have hsm := List.mem_of_getElem? hts
    have hbl : before.length = t := by rw [hb]; simp; omega
    have hbs : ∀ f ∈ before, Sized Y X E f := by
      intro f hf
      rw [hb] at hf
      obtain ⟨u, hu, rfl⟩ := List.mem_map.mp hf
      exact (hs u (List.mem_of_mem_take hu)).precip
    have hbv : ∀ t' f, (before ++ [s.precip])[t']? = some f → ∀ q : Nat × Nat × Nat, q.2.1 < Y → q.2.2 < X → q.1 < E →
        f.get q.2.1 q.2.2 q.1 = ok (val t' q) := by
      intro t' f hf q q1 q2 q3
      by_cases h : t' < t
      · rw [List.getElem?_append_left (by omega), hb, List.getElem?_map, List.getElem?_take_of_lt h] at hf
        obtain ⟨u, hu, rfl⟩ := Option.map_eq_some_iff.mp hf
        exact hval t' u hu q.1 q3 q.2.1 q1 q.2.2 q2
      · have hlt := (List.getElem?_eq_some_iff.mp hf).1
        rw [List.length_append, hbl, List.length_singleton] at hlt
        obtain rfl : t' = t := by omega
        rw [List.getElem?_append_right (by omega), hbl, Nat.sub_self] at hf
        simp only [List.getElem?_cons_zero, Option.some.injEq] at hf
        subst hf
        exact hval t' s hts q.1 q3 q.2.1 q1 q.2.2 q2
    rw [zagaTime_eq]
    obtain ⟨s', h1, ⟨h2, h3⟩, h7, -⟩ := foldM_cells (S := ZagaFields K) (ι := Nat × Nat) (V := ZagaResult K)
      (fun u => ZagaSized Y X E u ∧ u.precip = s.precip) zagaResult
      (fun s c => zagaCell o mk A Y X E before t (par t c.1 c.2) s c.1 c.2)
      (fun c v w => ZagaPopOut mk o (par t c.1 c.2) thr top E t (zagaSample Y X E o.nb c.1 c.2) (fun k q => val (t + 1 - o.window + k) q) v w)
      (zagaCells Y X) (zagaCells_nodup Y X) (by
        rintro u ⟨u1, u2⟩ ⟨i, j⟩ hc
        obtain ⟨hi, hj⟩ := mem_zagaCells.mp hc
        obtain ⟨s', g1, g2, g3, g4, g5⟩ := zaga_pop_cell hmk A ho hE hbl hbs (hp t htl i hi j hj) u1 hi hj (val := val) (by rw [u2]; exact hbv) hnn
        exact ⟨s', g1, ⟨g2, by rw [g3, u2]⟩, g4, g5⟩) s ⟨hs s hsm, rfl⟩
    exact ⟨s', by rw [h1]; rfl, h3, fun y hy x hx => h7 (y, x) (mem_zagaCells.mpr ⟨hy, hx⟩)⟩
  obtain ⟨out, h1, h2, -, h3⟩ := buildM_exists (n := fields.length) (f := fun (before : List (ZagaFields K)) t => do
      let s ← vget fields (t : Nat)
      zagaTime o mk A Y X E par (before.map ZagaFields.precip) t s)
    (Q := fun acc => acc.map ZagaFields.precip = (fields.take acc.length).map ZagaFields.precip ∧ ∀ t s, t < acc.length → fields[t]? = some s →
      ∃ s', acc[t]? = some s' ∧ s'.precip = s.precip ∧ ∀ y < Y, ∀ x < X, ZagaPopOut mk o (par t y x) thr top E t (zagaSample Y X E o.nb y x)
        (fun k q => val (t + 1 - o.window + k) q) (zagaResult s (y, x)) (zagaResult s' (y, x))) ⟨by simp, by intro t s h; simp at h⟩ (by
      rintro acc hlt ⟨hQ1, hQ⟩
      obtain ⟨s', g1, g2⟩ := htime acc.length fields[acc.length] (acc.map ZagaFields.precip) (List.getElem?_eq_getElem hlt) hQ1
      refine ⟨s', by rw [vget_eq_ok_of_lt hlt, ok_bind]; exact g1, ?_, fun t s ht hts => ?_⟩
      · rw [List.map_append, hQ1, List.length_append, List.length_singleton, List.take_add_one, List.map_append, List.getElem?_eq_getElem hlt]
        simp [g2.1]
      by_cases h : t < acc.length
      · obtain ⟨u, u1, u2⟩ := hQ t s h hts
        exact ⟨u, by rw [List.getElem?_append_left h]; exact u1, u2⟩
      · obtain rfl : t = acc.length := by simp at ht; omega
        rw [List.getElem?_eq_getElem hlt, Option.some.injEq] at hts
        subst hts
        exact ⟨s', by simp, g2⟩)
  exact ⟨out, h1, h2, fun t s hts => h3 t s (by rw [h2]; exact (List.getElem?_eq_some_iff.mp hts).1) hts⟩

/-- **C123** (the probability). For values that are all there, the probability is that of an amount above the threshold: (1 - P) times the
probability of the gamma law. -/
theorem c123_pop_value_partial {mk : Fl K → Fl K → Dist K} {F : K → K → K → K} (hmk : GammaFamily mk F) {o : ZagaOpts K} {p : List (Fl K)}
    {c : Fin 8 → K} (hp : Pars8 p c) {thr top x : K} (hx : o.popThreshold = fin x) (hx0 : 0 ≤ x) {E t : Nat} {S : Finset (Nat × Nat × Nat)}
    {val : Nat → Nat × Nat × Nat → Fl K} {old new : ZagaResult K} (h : ZagaPopOut mk o p thr top E t S val old new) (ht : o.window ≤ t + 1)
    {g : Nat → Nat × Nat × Nat → K} (hg : ∀ k < o.window, ∀ q ∈ S, val k q = fin (g k q) ∧ 0 ≤ g k q) {P mu sigma k s : K}
    (hz : ZagaModel c (sampleMean S (fun q => ∑ k ∈ Finset.range o.window, g k q) top)
      (sampleFraction S (fun q => ∑ k ∈ Finset.range o.window, g k q) thr) P mu sigma) (hgm : GammaMoments k s mu (sigma * mu))
    (hl : P ≠ 1 / (1 + HasExp.exp 999)) : ∀ e < E, new.pop e = ok (fin ((1 - P) * (1 - F k s x))) := by
  obtain ⟨⟨w, h1, h2, -⟩, -⟩ := h.full ht g hg
  obtain ⟨hf0, hf1⟩ := sampleFraction_range S (fun q => ∑ k ∈ Finset.range o.window, g k q) thr
  obtain ⟨G, g1, -, g3, g4, g5⟩ := c122_cdf_partial hmk hp hz hgm hf0 hf1 hl
  obtain ⟨-, hP0, hP1⟩ := c122_p0_partial hp hz hf0 hf1 hl
  rw [hx, g1 x (by intro h; rw [h] at hx0; linarith), Res.ok.injEq] at h1
  subst h1
  have hG : 0 ≤ G x := by
    rcases hx0.eq_or_lt with rfl | h
    · rw [g3]; exact hP0.le
    · have := g5 0 x (le_refl _) h
      rw [g3] at this; linarith
  intro e he
  rw [h2 ⟨G x, rfl, by intro h; rw [h] at hG; linarith⟩ e he, one_def, fin_sub, (g4 x hx0).1]
  congr 2
  ring

/-- Two grid points with the values `a` and `b` and the same parameters, nothing else around them; the field for the probability holds 7,
the one for the lower quantile 8. -/
def zagaPopLine (a b : Fl ℚ) : Res (List (List (Fl ℚ) × List (Fl ℚ))) :=
  let f (u v : Fl ℚ) : FieldC ℚ := ⟨[u, v], 1, 2, 1⟩
  do
    let out ← zagaCore ⟨fin (1 / 2), 0, fin (1 / 2), fin (1 / 10), MV, MV, fin 100, true, false⟩ exampleGamma ⟨fun _ => ub, id⟩ 1 2 1
      (fun _ _ _ => [-1, 3, 0, 0, -1, 0, 0, 0].map fin) [⟨f a b, f (fin 7) (fin 7), f (fin 8) (fin 8), f a b, f a b⟩]
    ok (out.map fun s => (s.pop.values, s.low.values))

/-- **C123** (missing values) is false for the probability: at the grid point without a value the field keeps the number it held before the
calibration and does not become missing. -/
theorem c123_stale_false : ∃ u v, zagaPopLine MV (fin 4) = ok [([fin 7, u], [fin 8, v])] ∧ Present u ∧ Present v := by
  refine ⟨fin (12 / 13), fin (2 / 3), ?_, ?_, ?_⟩
  · decide +kernel
  · exact ⟨_, rfl, by norm_num⟩
  · exact ⟨_, rfl, by norm_num⟩

/-- The options of the example meet the hypotheses. -/
example : ZagaForPop (⟨fin (1 / 2), 0, fin (1 / 2), fin (1 / 10), MV, MV, fin 100, true, false⟩ : ZagaOpts K) (1 / 2) 100 :=
  ⟨rfl, rfl, rfl, by norm_num⟩

example : ZagaPlain (⟨fin (1 / 2), 0, fin (1 / 2), MV, MV, MV, fin 100, false, false⟩ : ZagaOpts K) (1 / 2) 100 :=
  ⟨rfl, rfl, rfl, rfl, rfl, by norm_num⟩

end Gridpp.Props
