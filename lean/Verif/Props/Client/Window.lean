import Verif.Props.Client.Stat

/-! # C90: the window calibrator -/

set_option linter.unusedSectionVars false

namespace Gridpp.Props
open Fl hiding MV isValid
open Res Client Spec

variable {K : Type} [Field K] [LinearOrder K] [IsStrictOrderedRing K] [FloorRing K]

/-- The times, of `n`, in the window of length `L` for time `t`: the `L` times that end with `t`, or the `L` times of which
`(L - 1) / 2` are before `t`. -/
def windowTimes (L : Nat) (before : Bool) (n t : Nat) : List Nat :=
  (List.range n).filter fun i =>
    if before then decide (i ≤ t ∧ t < i + L) else decide (t ≤ i + (L - 1) / 2 ∧ i + (L - 1) / 2 < t + L)

/-- What the window calibrator should put at time `t` of a series `a` of `n` values. -/
def WindowSpec (L : Nat) (before keepMissing edgeMissing : Bool) (s : StatType) (p : K) (n : Nat) (a : Nat → Fl K) (t : Nat) (v : Fl K) :
    Prop :=
  let w := (windowTimes L before n t).map a
  (edgeMissing = true ∧ w.length ≠ L → v = fin (-999)) ∧
  (keepMissing = true ∧ (∃ u ∈ w, ¬ Present u) → v = fin (-999)) ∧
  (present w = [] → v = fin (-999)) ∧
  (¬ (edgeMissing = true ∧ w.length ≠ L) → ¬ (keepMissing = true ∧ ∃ u ∈ w, ¬ Present u) → present w ≠ [] →
    ∃ q, v = fin q ∧ StatOf s p (present w) q)

theorem filter_range_between {n lo hi : Nat} (hl : lo ≤ hi) (hh : hi < n) (P : Nat → Bool)
    (hP : ∀ i < n, P i = true ↔ lo ≤ i ∧ i ≤ hi) : (List.range n).filter P = (List.range (hi + 1 - lo)).map (lo + ·) := by
  have h1 : List.range n = List.range' 0 lo ++ (List.range' lo (hi + 1 - lo) ++ List.range' (hi + 1) (n - (hi + 1))) := by
    rw [List.range_eq_range']
    have e1 : List.range' lo (hi + 1 - lo) ++ List.range' (hi + 1) (n - (hi + 1)) = List.range' lo (n - lo) := by
      have := List.range'_append (s := lo) (m := hi + 1 - lo) (n := n - (hi + 1)) (step := 1)
      rw [show lo + 1 * (hi + 1 - lo) = hi + 1 by omega, show hi + 1 - lo + (n - (hi + 1)) = n - lo by omega] at this
      exact this
    have e2 := List.range'_append (s := 0) (m := lo) (n := n - lo) (step := 1)
    rw [show 0 + 1 * lo = lo by omega, show lo + (n - lo) = n by omega] at e2
    rw [e1, e2]
  rw [h1, List.filter_append, List.filter_append]
  have f1 : (List.range' 0 lo).filter P = [] := by
    rw [List.filter_eq_nil_iff]
    intro i hi'
    rw [List.mem_range'_1] at hi'
    rw [hP i (by omega)]
    omega
  have f3 : (List.range' (hi + 1) (n - (hi + 1))).filter P = [] := by
    rw [List.filter_eq_nil_iff]
    intro i hi'
    rw [List.mem_range'_1] at hi'
    rw [hP i (by omega)]
    omega
  have f2 : (List.range' lo (hi + 1 - lo)).filter P = List.range' lo (hi + 1 - lo) := by
    rw [List.filter_eq_self]
    intro i hi'
    rw [List.mem_range'_1] at hi'
    rw [hP i (by omega)]
    omega
  rw [f1, f2, f3, List.nil_append, List.append_nil, List.range'_eq_map_range]

/-- The loop of the code runs over exactly the times of the window. -/
theorem windowRange_times {L : Nat} (hL : 1 ≤ L) (before : Bool) {n t : Nat} (ht : t < n) :
    irange (windowRange L before n t).1 (windowRange L before n t).2 = (windowTimes L before n t).map (fun i : Nat => (i : Int)) ∧
    (((windowRange L before n t).2 - (windowRange L before n t).1 + 1).toNat = (windowTimes L before n t).length) ∧
    0 ≤ (windowRange L before n t).2 - (windowRange L before n t).1 + 1 ∧
    (windowRange L before n t).2 - (windowRange L before n t).1 + 1 ≤ (L : Int) := by
  have key : ∀ lo hi : Nat, windowRange L before n t = ((lo : Int), (hi : Int)) → lo ≤ hi → hi < n → hi + 1 ≤ lo + L →
      windowTimes L before n t = (List.range (hi + 1 - lo)).map (lo + ·) →
      irange (windowRange L before n t).1 (windowRange L before n t).2 = (windowTimes L before n t).map (fun i : Nat => (i : Int)) ∧
      (((windowRange L before n t).2 - (windowRange L before n t).1 + 1).toNat = (windowTimes L before n t).length) ∧
      0 ≤ (windowRange L before n t).2 - (windowRange L before n t).1 + 1 ∧
      (windowRange L before n t).2 - (windowRange L before n t).1 + 1 ≤ (L : Int) := by
    intro lo hi hr hl hh hL' hw
    rw [hr, hw]
    refine ⟨?_, ?_, ?_, ?_⟩
    · unfold irange
      rw [List.map_map, show ((hi : Int) + 1 - (lo : Int)).toNat = hi + 1 - lo by omega]
      apply List.map_congr_left
      intro i _
      simp
    · simp only [List.length_map, List.length_range]; omega
    · simp only; omega
    · simp only; omega
  cases before with
  | true =>
    refine key (t + 1 - L) t ?_ (by omega) ht (by omega) ?_
    · simp only [windowRange, if_true, Prod.mk.injEq]; omega
    · refine filter_range_between (by omega) ht _ fun i hi => ?_
      simp only [if_true, decide_eq_true_eq]; omega
  | false =>
    have hb : ((L : Int) - 1) / 2 = (((L - 1) / 2 : Nat) : Int) := by omega
    set b := (L - 1) / 2 with hbdef
    refine key (t - b) (min (n - 1) (t + (L - b - 1))) ?_ (by omega) (by omega) (by omega) ?_
    · simp only [windowRange, Bool.false_eq_true, if_false, hb, Prod.mk.injEq]; omega
    · refine filter_range_between (by omega) (by omega) _ fun i hi => ?_
      simp only [Bool.false_eq_true, if_false, decide_eq_true_eq]; omega

theorem windowValue_ok [LawfulSqrt K] {L : Nat} (hL : 1 ≤ L) (before keepMissing edgeMissing : Bool) (s : StatType) (q : Fl K)
    (p : K) (hq : s = .quantile → q = fin p ∧ 0 ≤ p ∧ p ≤ 1) (fields : List (FieldC K)) {t y x e : Nat}
    (ht : t < fields.length) {a : Nat → Fl K} (ha : ∀ i < fields.length, At fields i y x e (a i)) :
    ∃ v, windowValue L before keepMissing edgeMissing s q fields t y x e = ok v ∧
      WindowSpec L before keepMissing edgeMissing s p fields.length a t v := by
  obtain ⟨h1, h2, h3, h4⟩ := windowRange_times hL before ht
  set r := windowRange (L : Int) before fields.length t with hr
  set w := windowTimes L before fields.length t with hw
  have hlen : decide (r.2 - r.1 + 1 ≠ (L : Int)) = decide ((w.map a).length ≠ L) := by
    rw [List.length_map, ← h2, decide_eq_decide]; omega
  have hread : mapM (fun tt : Int => do
      let f ← vget fields tt
      f.get y x e) (irange r.1 r.2) = ok (w.map a) := by
    rw [h1]
    have : ∀ l : List Nat, (∀ i ∈ l, i < fields.length) → mapM (fun tt : Int => do
      let f ← vget fields tt
      f.get y x e) (l.map (fun i : Nat => (i : Int))) = ok (l.map a) := by
      intro l
      induction l with
      | nil => intro _; rfl
      | cons i t ih =>
        intro h
        obtain ⟨f, hf1, hf2⟩ := ha i (h i (by simp))
        have hv : vget fields (i : Int) = ok f := by rw [vget_nat, hf1]
        simp only [List.map_cons, mapM_cons, hv, ok_bind, hf2, ih fun j hj => h j (by simp [hj])]
    exact this w fun i hi => by
      rw [hw, windowTimes, List.mem_filter, List.mem_range] at hi
      exact hi.1
  have hany : (w.map a).any (fun v => !isValid v) = true ↔ ∃ u ∈ w.map a, ¬ Present u := by
    rw [List.any_eq_true]
    simp only [Bool.not_eq_true', isValid_false_iff]
  have hpad : ∀ k, present (w.map a ++ List.replicate k MV) = present (w.map a) := by
    intro k; rw [present_append, present_replicate_MV, List.append_nil]
  have hassert : decide (r.2 - r.1 + 1 ≤ (L : Int)) = true := by simpa using h4
  simp only [windowValue, ← hr, hassert, assert_true, ok_bind]
  by_cases hE : edgeMissing = true ∧ (w.map a).length ≠ L
  · refine ⟨MV, ?_, ?_⟩
    · rw [hlen, if_pos (by simpa using hE)]
    · exact ⟨fun _ => rfl, fun _ => rfl, fun _ => rfl, fun h => absurd hE h⟩
  · rw [hlen, if_neg (by simpa using hE), hread, ok_bind]
    by_cases hM : keepMissing = true ∧ ∃ u ∈ w.map a, ¬ Present u
    · refine ⟨MV, ?_, ?_⟩
      · rw [if_pos (by rw [Bool.and_eq_true, hany]; exact hM)]
      · exact ⟨fun _ => rfl, fun _ => rfl, fun _ => rfl, fun _ h => absurd hM h⟩
    · rw [if_neg (by rw [Bool.and_eq_true, hany]; exact hM)]
      by_cases hP : present (w.map a) = []
      · refine ⟨fin (-999), c89_missing _ _ _ (by rw [hpad, hP]), fun _ => rfl, fun _ => rfl, fun _ => rfl, fun _ _ h => absurd hP h⟩
      · obtain ⟨v, hv1, hv2⟩ := c89_value (w.map a ++ List.replicate ((L : Int).toNat - (w.map a).length) MV) s q p (by rw [hpad]; exact hP) hq
        rw [hpad] at hv2
        exact ⟨fin v, hv1, fun h => absurd h hE, fun h => absurd h hM, fun h => absurd h hP, fun _ _ _ => ⟨v, rfl, hv2⟩⟩

/-- **C90**. With the options accepted, the calibrator replaces every value by the statistic of the values present in the window of
the old series, or by missing where the options say so. -/
theorem c90_window [LawfulSqrt K] {Y X E : Nat} {L : Nat} (hL : 1 ≤ L) (before keepMissing edgeMissing : Bool) (s : StatType) (q : Fl K)
    (p : K) (hq : s = .quantile → q = fin p ∧ 0 ≤ p ∧ p ≤ 1) (fields : List (FieldC K)) (hf : Series Y X E fields) :
    ∃ out, window Y X E L before keepMissing edgeMissing s q fields = ok out ∧ out.length = fields.length ∧ Series Y X E out ∧
      ∀ y < Y, ∀ x < X, ∀ e < E, ∀ a : Nat → Fl K, (∀ i < fields.length, At fields i y x e (a i)) → ∀ t < fields.length,
        ∃ v, At out t y x e v ∧ WindowSpec L before keepMissing edgeMissing s p fields.length a t v := by
  classical
  have hopt : windowOptions (L : Int) s q = ok () := by
    unfold windowOptions
    rw [if_neg (by omega)]
    by_cases hs : s = .quantile
    · obtain ⟨rfl, h0, h1⟩ := hq hs
      have hv : isValid (fin p : Fl K) = true := isValid_iff_present.mpr ⟨p, rfl, by intro h; rw [h] at h0; linarith⟩
      have e1 : (fin p : Fl K).lt 0 = false := by rw [zero_def, lt_fin]; simpa using h0
      have e2 : (fin p : Fl K).gt 1 = false := by rw [one_def, gt_fin]; simpa using h1
      rw [hv, e1, e2]; simp
    · simp [hs]
  have hser : ∀ y x e, ∃ a : Nat → Fl K, y < Y → x < X → e < E → ∀ i < fields.length, At fields i y x e (a i) := by
    intro y x e
    by_cases h : y < Y ∧ x < X ∧ e < E
    · have : ∀ i : Nat, ∃ v, i < fields.length → At fields i y x e v := by
        intro i
        by_cases hi : i < fields.length
        · obtain ⟨v, hv⟩ := hf.exists_at hi h.1 h.2.1 h.2.2
          exact ⟨v, fun _ => hv⟩
        · exact ⟨nan, fun h => absurd h hi⟩
      choose a ha using this
      exact ⟨a, fun _ _ _ => ha⟩
    · exact ⟨fun _ => nan, fun h1 h2 h3 => absurd ⟨h1, h2, h3⟩ h⟩
  choose A hA using hser
  have hval : ∀ t y x e, ∃ v, t < fields.length → y < Y → x < X → e < E →
      windowValue L before keepMissing edgeMissing s q fields t y x e = ok v ∧
      WindowSpec L before keepMissing edgeMissing s p fields.length (A y x e) t v := by
    intro t y x e
    by_cases h : t < fields.length ∧ y < Y ∧ x < X ∧ e < E
    · obtain ⟨v, hv⟩ := windowValue_ok hL before keepMissing edgeMissing s q p hq fields h.1 (hA y x e h.2.1 h.2.2.1 h.2.2.2)
      exact ⟨v, fun _ _ _ _ => hv⟩
    · exact ⟨nan, fun h1 h2 h3 h4 => absurd ⟨h1, h2, h3, h4⟩ h⟩
  choose V hV using hval
  obtain ⟨out, h1, h2, h3⟩ := mapM_range_exists (n := fields.length) (f := fun t : Nat => do
      let empty ← FieldC.new Y X E MV
      FieldC.forAll Y X E (fun f y x e => do
        let v ← windowValue L before keepMissing edgeMissing s q fields t y x e
        f.set y x e v) empty)
    (P := fun t f => Sized Y X E f ∧ ∀ y < Y, ∀ x < X, ∀ e < E, f.get y x e = ok (V t y x e)) (by
      intro t ht
      obtain ⟨g, hg1, hg2, -⟩ := FieldC.new_sized Y X E (MV : Fl K)
      obtain ⟨o, ho1, ho2, ho3⟩ := forAll_write (Y := Y) (X := X) (E := E) (body := fun f y x e => do
        let v ← windowValue L before keepMissing edgeMissing s q fields t y x e
        f.set y x e v) (val := V t) (by
          intro f _ y hy x hx e he
          simp only [(hV t y x e ht hy hx he).1, ok_bind]) g hg2
      exact ⟨o, by simp only [hg1, ok_bind]; exact ho1, ho2, ho3⟩)
  refine ⟨out, ?_, h2, ?_, ?_⟩
  · unfold window
    rw [hopt]
    exact h1
  · rw [series_iff]
    intro t ht
    obtain ⟨f, hf1, hf2, -⟩ := h3 t (by omega)
    exact ⟨f, hf1, hf2⟩
  · intro y hy x hx e he a ha t ht
    have hae : ∀ i < fields.length, a i = A y x e i := fun i hi => (ha i hi).unique (hA y x e hy hx he i hi)
    obtain ⟨f, hf1, -, hf2⟩ := h3 t ht
    refine ⟨V t y x e, ⟨f, hf1, hf2 y hy x hx e he⟩, ?_⟩
    have hw : (windowTimes L before fields.length t).map a = (windowTimes L before fields.length t).map (A y x e) := by
      apply List.map_congr_left
      intro i hi
      rw [windowTimes, List.mem_filter, List.mem_range] at hi
      exact hae i hi.1
    have := (hV t y x e ht hy hx he).2
    unfold WindowSpec at this ⊢
    rw [hw]
    exact this

/-- The hypotheses hold for three times of one cell, and the windows are as one expects. -/
example : Series 1 1 1 ([⟨[fin 1], 1, 1, 1⟩, ⟨[fin (-999)], 1, 1, 1⟩, ⟨[fin 4], 1, 1, 1⟩] : List (FieldC ℚ)) ∧
    windowTimes 3 false 3 0 = [0, 1] ∧ windowTimes 3 true 3 2 = [0, 1, 2] ∧ windowTimes 2 false 3 1 = [1, 2] := by
  refine ⟨?_, by decide, by decide, by decide⟩
  intro f hf
  simp only [List.mem_cons, List.not_mem_nil, or_false] at hf
  rcases hf with rfl | rfl | rfl <;> exact ⟨rfl, rfl, rfl, rfl⟩

/-- **C90** (options). A length below 1 is refused, and so is a quantile with a missing or undefined level, or one outside
[0, 1]. -/
theorem c90_refused [HasSqrt K] (Y X E : Nat) (length : Int) (before keepMissing edgeMissing : Bool) (s : StatType) (q : Fl K)
    (fields : List (FieldC K)) (h : length < 1 ∨ (s = .quantile ∧ ¬ ∃ p : K, q = fin p ∧ 0 ≤ p ∧ p ≤ 1)) :
    window Y X E length before keepMissing edgeMissing s q fields = .abort := by
  have : windowOptions length s q = .abort := by
    unfold windowOptions
    by_cases hl : length < 1
    · rw [if_pos hl]; rfl
    · rw [if_neg hl]
      obtain ⟨rfl, hq⟩ := h.resolve_left hl
      rw [if_pos]
      · rfl
      · cases q with
        | fin p =>
          by_contra hc
          simp only [decide_true, Bool.true_and, Bool.or_eq_true, not_or, Bool.not_eq_true] at hc
          obtain ⟨⟨-, h0⟩, h1⟩ := hc
          rw [zero_def, lt_fin] at h0
          rw [one_def, gt_fin] at h1
          exact hq ⟨p, rfl, by simpa using h0, by simpa using h1⟩
        | _ => simp [Client.isValid]
  unfold window
  rw [this]
  rfl

example : ¬ ∃ p : ℚ, (fin (-999) : Fl ℚ) = fin p ∧ 0 ≤ p ∧ p ≤ 1 := by
  rintro ⟨p, h, h0, -⟩
  simp only [Fl.fin.injEq] at h
  rw [← h] at h0
  exact absurd h0 (by decide +kernel)

end Gridpp.Props
