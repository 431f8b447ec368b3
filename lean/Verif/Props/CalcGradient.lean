import Verif.Lemmas.CalcGradient
import Verif.Props.Neighbourhood
import Verif.Lemmas.Grid
import Verif.Base.Loops
import Verif.Base.Inst

/-! # C65: calc_gradient -/

set_option linter.unusedSectionVars false

namespace Gridpp.Props
open Fl Res Spec

section
variable {K : Type} [Field K] [LinearOrder K] [IsStrictOrderedRing K] [FloorRing K] [HasSqrt K]

/-- **C65** (errors). Every rejected input, in the order of the checks, whatever the type of gradient. -/
theorem c65_throws (rnd : Rnd K) (base values : List (List (Fl K))) (type : GradientType) (hw n : Int) (minRange d : Fl K)
    (h : hw ≤ 0 ∨ (∃ r < 0, minRange = fin r) ∨ n < 0 ∨ base = [] ∨ base.map List.length ≠ values.map List.length) :
    calcGradient rnd base values type hw n minRange d = .throw .invalidArgument := by
  unfold calcGradient
  by_cases h1 : hw ≤ 0
  · rw [if_pos h1]
  rw [if_neg h1]
  by_cases h2 : (minRange.isValid && minRange.lt (fin 0)) = true
  · rw [if_pos h2]
  rw [if_neg h2]
  by_cases h3 : n < 0
  · rw [if_pos h3]
  rw [if_neg h3]
  by_cases h4 : base.length = 0
  · rw [if_pos h4]
  rw [if_neg h4]
  have h5 : compatibleSize22 base values = false := by
    unfold compatibleSize22
    rcases h with h | ⟨r, hr, rfl⟩ | h | rfl | h
    · exact absurd h h1
    · exact absurd (by simpa using hr) h2
    · exact absurd h h3
    · exact absurd rfl h4
    · simpa using h
  rw [if_pos h5]

/-- Beyond the checks. -/
theorem calcGradient_checked (rnd : Rnd K) {Y X : Nat} {base values : List (List (Fl K))} (hb : Rect Y X base) (hv : Rect Y X values) (hY : 0 < Y)
    (type : GradientType) (hw n : Nat) (hhw : 0 < hw) (minRange d : Fl K) (hr : ∀ r, minRange = fin r → 0 ≤ r) :
    calcGradient rnd base values type hw n minRange d = match type with
      | .minMax => mapM (minMaxRow base values Y X hw n minRange d) (upto Y)
      | .linearRegression => regression rnd base values Y X hw n minRange d
      | .other => ok (initVec2 Y X d) := by
  unfold calcGradient
  rw [if_neg (by omega), if_neg, if_neg (by omega), if_neg (by rw [hb.1]; omega), if_neg]
  · obtain ⟨r0, t, e⟩ := List.exists_cons_of_ne_nil (l := base) (by rintro rfl; have := hb.1; simp at this; omega)
    have hl : r0.length = X := hb.2 r0 (by rw [e]; simp)
    have hg : vget base 0 = ok r0 := by rw [e]; rfl
    rw [hg, ok_bind, hb.1, hl]
    cases type <;> rfl
  · have e : base.map List.length = values.map List.length := by
      rw [List.map_eq_replicate_iff.mpr hb.2, List.map_eq_replicate_iff.mpr hv.2, hb.1, hv.1]
    simp [compatibleSize22, e]
  · cases minRange with
    | fin r => have := hr r rfl; simpa using this
    | _ => simp [isValid]

theorem minMaxRows {Y X : Nat} {base values : List (List (Fl K))} (hb : Rect Y X base) (hw n : Int) (minRange d : Fl K) :
    mapM (minMaxRow base values Y X hw n minRange d) (upto Y) = grid2 Y X (minMaxCell base values Y X hw n minRange d) := by
  unfold grid2
  refine mapM_congr fun y hy => ?_
  obtain ⟨k, hk, rfl⟩ : ∃ k : Nat, k < Y ∧ (k : Int) = y := by simpa [upto] using hy
  have hl : k < base.length := by rw [hb.1]; exact hk
  unfold minMaxRow
  rw [vget_eq_ok_of_lt hl, ok_bind, hb.row_length hl]
  simp only [lt_irrefl, if_false, Nat.sub_self, List.replicate_zero, List.append_nil]
  cases mapM (minMaxCell base values Y X hw n minRange d k) (upto X) <;> rfl

/-- **C65** (MinMax). `P` are the valid pairs in the window. With fewer than `n` pairs, or none, the cell gets the default. Otherwise
the first pair with the largest base and the first pair with the smallest base give the quotient of differences, unless the range
of the base is at most `min_range`. If the base is constant and `min_range` is missing, the value is NaN. -/
theorem c65_minmax (rnd : Rnd K) (Y X : Nat) (base values : List (List (Fl K))) (hb : Rect Y X base) (hv : Rect Y X values) (hY : 0 < Y)
    (hw n : Nat) (hhw : 0 < hw) (minRange d : Fl K) (hr : ∀ r, minRange = fin r → 0 ≤ r) :
    ∃ out, calcGradient rnd base values .minMax hw n minRange d = ok out ∧ Rect Y X out ∧ ∀ y < Y, ∀ x < X, ∃ v, cell? out y x = some v ∧
      IsMinMaxGradient (windowPairs base values hw y x) n minRange d v := by
  rw [calcGradient_checked rnd hb hv hY _ hw n hhw minRange d hr]
  simp only
  rw [minMaxRows hb]
  have key := grid2_exists (Y := Y) (X := X) (f := minMaxCell base values Y X hw n minRange d) (P := fun y x v =>
      IsMinMaxGradient (windowPairs base values hw y x) n minRange d v) ?_
  · obtain ⟨out, h1, h2, h3⟩ := key
    refine ⟨out, h1, h2, fun y hy x hx => ?_⟩
    obtain ⟨v, hv1, -, hv2⟩ := h3 y hy x hx
    exact ⟨v, hv1, hv2⟩
  · intro y hy x hx
    obtain ⟨s, hs, hc, hmax, hmin⟩ := minMax_loop hb hv hw hy hx
    generalize windowPairs base values hw y x = P at *
    unfold minMaxCell
    rw [hs, ok_bind]
    by_cases hn : P.length < n
    · rw [if_pos (by rw [hc]; exact_mod_cast hn)]
      exact ⟨d, rfl, fun _ => rfl, fun h => absurd hn (not_lt.mpr h)⟩
    rw [if_neg (by rw [hc]; exact_mod_cast hn)]
    rcases hmax with ⟨hP, hcm⟩ | ⟨b1, v1, e1, f1, g1, r1⟩
    · rw [if_pos (by rw [hcm]; rfl)]
      exact ⟨d, rfl, fun _ => rfl, fun _ h => absurd hP h⟩
    rcases hmin with ⟨hP, hcm⟩ | ⟨b0, v0, e0, f0, g0, r0⟩
    · rw [hP] at f1; simp at f1
    have hP : P ≠ [] := by rintro rfl; simp at f1
    have hm1 : (b1, v1) ∈ P := List.mem_of_find?_eq_some f1
    have hle : b0 ≤ b1 := not_lt.mp (g0 _ hm1)
    rw [if_neg (by rw [e1, e0]; simp [isValid])]
    have habs : Fl.abs (s.cmax - s.cmin) = fin (b1 - b0) := by
      rw [e1, e0, fin_sub]
      show fin |b1 - b0| = _
      rw [abs_of_nonneg (by linarith)]
    rw [habs, r1, r0, ok_bind, ok_bind, e1, e0, fin_sub, fin_sub]
    have h0 : ¬ (P.length < n ∨ P = []) := by rintro (h | h); exacts [hn h, hP h]
    by_cases hle2 : (fin (b1 - b0)).le minRange = true
    · rw [if_pos hle2]
      exact ⟨d, rfl, fun h => absurd h h0, fun _ _ => ⟨b1, v1, b0, v0, f1, fun p hp => not_lt.mp (g1 p hp), f0, fun p hp => not_lt.mp (g0 p hp),
        fun _ => rfl, fun h => (by rw [hle2] at h; cases h), fun h => (by rw [hle2] at h; cases h)⟩⟩
    · rw [if_neg hle2]
      refine ⟨_, rfl, fun h => absurd h h0, fun _ _ => ⟨b1, v1, b0, v0, f1, fun p hp => not_lt.mp (g1 p hp), f0, fun p hp => not_lt.mp (g0 p hp),
        fun h => absurd h hle2, fun _ hlt => ?_, fun _ he => ?_⟩⟩
      · rw [fin_div_of_ne _ (by linarith [sub_pos.mpr hlt] : b1 - b0 ≠ 0)]
      · subst he
        rw [f0] at f1
        have : v0 = v1 := by simpa using f1
        subst this
        simp [fin_div, infOfSign]

/-- The mean of a field of moments over the window. -/
theorem moment_mean (rnd : Rnd K) {Y X : Nat} {w : List (List (Fl K × Fl K))} (h : Rect Y X w) (hY : 0 < Y) (hX : 0 < X) (hw : Nat)
    (f : Moments K → Fl K) :
    ∃ out, neighbourhood rnd ((w.map (List.map fun p => momentsAt p.1 p.2)).map (List.map f)) hw .mean = ok out ∧
      ∀ y < Y, ∀ x < X, vget2 out (y : Int) (x : Int) =
        ok (if vals ((square w hw y x).map fun p => f (momentsAt p.1 p.2)) = [] then nan
          else fin (mean (vals ((square w hw y x).map fun p => f (momentsAt p.1 p.2))))) := by
  obtain ⟨out, h1, h2, -⟩ := neighbourhood_total rnd (rect_map f (rect_map (fun p : Fl K × Fl K => momentsAt p.1 p.2) h)) hY hX hw
    (s := .mean) (by simp [Deterministic])
  refine ⟨out, h1, fun y hy x hx => ?_⟩
  obtain ⟨v, e1, e2⟩ := h2.2 y hy x hx
  rw [square_map, square_map, List.map_map, calcStatistic_mean] at e2
  rw [vget2_of_cell? e1, ← e2]
  rfl

theorem moment_sum (rnd : Rnd K) {Y X : Nat} {w : List (List (Fl K × Fl K))} (h : Rect Y X w) (hY : 0 < Y) (hX : 0 < X) (hw : Nat)
    (f : Moments K → Fl K) :
    ∃ out, neighbourhood rnd ((w.map (List.map fun p => momentsAt p.1 p.2)).map (List.map f)) hw .sum = ok out ∧
      ∀ y < Y, ∀ x < X, vget2 out (y : Int) (x : Int) =
        ok (if vals ((square w hw y x).map fun p => f (momentsAt p.1 p.2)) = [] then nan
          else fin (vals ((square w hw y x).map fun p => f (momentsAt p.1 p.2))).sum) := by
  obtain ⟨out, h1, h2, -⟩ := neighbourhood_total rnd (rect_map f (rect_map (fun p : Fl K × Fl K => momentsAt p.1 p.2) h)) hY hX hw
    (s := .sum) (by simp [Deterministic])
  refine ⟨out, h1, fun y hy x hx => ?_⟩
  obtain ⟨v, e1, e2⟩ := h2.2 y hy x hx
  rw [square_map, square_map, List.map_map, calcStatistic_sum] at e2
  rw [vget2_of_cell? e1, ← e2]
  rfl

theorem moments_field {Y X : Nat} {base values : List (List (Fl K))} (hb : Rect Y X base) (hv : Rect Y X values) :
    (grid2 Y X fun y x => do
      let b ← vget2 base y x
      let v ← vget2 values y x
      ok (momentsAt b v)) = ok ((pairField base values).map (List.map fun p => momentsAt p.1 p.2)) := by
  refine grid2_map (rect_pairField hb hv) fun y x v h => ?_
  obtain ⟨hy, hx⟩ := cell?_lt (rect_pairField hb hv) h
  obtain ⟨u, u1, u2⟩ := vget2_of_rect hb hy hx
  obtain ⟨w, w1, w2⟩ := vget2_of_rect hv hy hx
  rw [cell?_pairField u1 w1] at h
  injection h with h
  rw [u2, ok_bind, w2, ok_bind, ← h]

end

section
variable {K : Type} [Field K] [LinearOrder K] [IsStrictOrderedRing K] [FloorRing K] [LawfulSqrt K]

/-- One cell, given its moments. -/
theorem regressionCell_spec (P : List (K × K)) (n : Nat) (minRange d : Fl K) (hr : ∀ r, minRange = fin r → 0 ≤ r) :
    IsRegressionGradient P n minRange d (regressionCell n minRange d (fin (P.length : K))
      (if P.map Prod.fst = [] then nan else fin (mean (P.map Prod.fst)))
      (if P.map Prod.snd = [] then nan else fin (mean (P.map Prod.snd)))
      (if P.map (fun p => p.1 * p.1) = [] then nan else fin (mean (P.map fun p => p.1 * p.1)))
      (if P.map (fun p => p.1 * p.2) = [] then nan else fin (mean (P.map fun p => p.1 * p.2)))) := by
  have hcount : (fin (P.length : K)).ge (Fl.ofInt (n : Int)) = decide (n ≤ P.length) := by
    rw [Fl.ofInt_def, ge_fin]
    simp
  unfold regressionCell
  rw [hcount]
  by_cases hP : P = []
  · subst hP
    refine ⟨fun h => absurd h.2.1 (by simp [variance]), fun _ => ?_⟩
    simp [isValid]
  simp only [List.map_eq_nil_iff, hP, if_false, isValid_fin, fin_mul, fin_sub, fne_fin, mean_sub_sq P hP, mean_sub_prod P hP, Bool.and_true]
  have h0 := variance_nonneg (P.map Prod.fst)
  generalize hV : variance (P.map Prod.fst) = V at *
  rw [sqrt_fin h0]
  simp only [isValid_fin, Bool.not_true, Bool.false_eq_true, if_false]
  by_cases hc : n ≤ P.length ∧ V ≠ 0
  · have e : (decide (n ≤ P.length) && !decide (V = 0)) = true := by simp [hc]
    have hsl : (fin (covariance P) / fin V : Fl K) = fin (slope P) := by rw [fin_div_of_ne _ hc.2, slope, hV]
    have hrange : (if minRange.isValid then !((fin (HasSqrt.sqrt V)).lt minRange) else true) = true ↔ ∀ r, minRange = fin r → r ^ 2 ≤ V := by
      cases minRange with
      | fin r =>
        have hr0 := hr r rfl
        have hs0 := LawfulSqrt.sqrt_nonneg V h0
        have hs1 := LawfulSqrt.sqrt_mul_self V h0
        simp only [isValid_fin, if_true, lt_fin, Bool.not_eq_true', decide_eq_false_iff_not, not_lt, fin.injEq, forall_eq']
        constructor
        · intro h; nlinarith
        · intro h
          by_contra hc
          push Not at hc
          nlinarith
      | _ => simp [isValid]
    unfold IsRegressionGradient
    rw [hV]
    simp only [e, if_true, hsl]
    refine ⟨fun h => by rw [if_pos (hrange.mpr h.2.2)], fun h => by rw [if_neg fun h' => h ⟨hc.1, hc.2, hrange.mp h'⟩]⟩
  · have e : (decide (n ≤ P.length) && !decide (V = 0)) = false := by
      by_cases h1 : n ≤ P.length
      · have : V = 0 := by by_contra h; exact hc ⟨h1, h⟩
        simp [this]
      · simp [h1]
    unfold IsRegressionGradient
    rw [hV]
    simp only [e, Bool.false_eq_true, if_false]
    exact ⟨fun h => absurd ⟨h.1, h.2.1⟩ hc, fun _ => trivial⟩

/-- **C65** (LinearRegression). Every cell has the slope of the least-squares line through the valid pairs of its window, or the default. -/
theorem c65_regression (rnd : Rnd K) (Y X : Nat) (base values : List (List (Fl K))) (hb : Rect Y X base) (hv : Rect Y X values) (hY : 0 < Y)
    (hX : 0 < X) (hw n : Nat) (hhw : 0 < hw) (minRange d : Fl K) (hr : ∀ r, minRange = fin r → 0 ≤ r) :
    ∃ out, calcGradient rnd base values .linearRegression hw n minRange d = ok out ∧ Rect Y X out ∧
      ∀ y < Y, ∀ x < X, ∃ v, cell? out y x = some v ∧ IsRegressionGradient (windowPairs base values hw y x) n minRange d v := by
  rw [calcGradient_checked rnd hb hv hY _ hw n hhw minRange d hr]
  simp only
  unfold regression
  rw [moments_field hb hv, omp_ok, ok_bind]
  have hp := rect_pairField hb hv
  obtain ⟨mX, m1, m2⟩ := moment_mean rnd hp hY hX hw Moments.base0
  obtain ⟨mY, n1, n2⟩ := moment_mean rnd hp hY hX hw Moments.values0
  obtain ⟨mXX, o1, o2⟩ := moment_mean rnd hp hY hX hw Moments.bb
  obtain ⟨mXY, p1, p2⟩ := moment_mean rnd hp hY hX hw Moments.bv
  obtain ⟨cnt, q1, q2⟩ := moment_sum rnd hp hY hX hw Moments.valid
  rw [m1, ok_bind, n1, ok_bind, o1, ok_bind, p1, ok_bind, q1, ok_bind]
  obtain ⟨out, h1, h2, h3⟩ := grid2_exists (Y := Y) (X := X) (f := fun y x => do
      let c ← vget2 cnt y x
      let mXX ← vget2 mXX y x
      let mXY ← vget2 mXY y x
      let mX ← vget2 mX y x
      let mY ← vget2 mY y x
      ok (regressionCell n minRange d c mX mY mXX mXY))
    (P := fun y x v => IsRegressionGradient (windowPairs base values hw y x) n minRange d v) (fun y hy x hx => by
      simp only [m2 y hy x hx, n2 y hy x hx, o2 y hy x hx, p2 y hy x hx, q2 y hy x hx, ok_bind]
      refine ⟨_, rfl, ?_⟩
      obtain ⟨v1, v2, v3, v4, v5, v6⟩ := vals_moments (square (pairField base values) hw y x)
      rw [v1, v2, v3, v4, v5, if_neg]
      · exact regressionCell_spec (windowPairs base values hw y x) n minRange d hr
      · intro hc
        rw [hc] at v6
        obtain ⟨v, hv⟩ := hp.cell?_some hy hx
        have : v ∈ square (pairField base values) hw y x := mem_square.mpr ⟨y, x, by omega, by omega, by omega, by omega, hv⟩
        rw [List.length_nil] at v6
        rw [List.length_eq_zero_iff.mp v6.symm] at this
        cases this)
  rw [h1, omp_ok]
  refine ⟨out, rfl, h2, fun y hy x hx => ?_⟩
  obtain ⟨v, e1, -, e2⟩ := h3 y hy x hx
  exact ⟨v, e1, e2⟩

/-- **C65** (linear relation, LinearRegression). If all valid pairs of the window lie on `a + g * base`, there are at least `n` of them, two
have different bases, and the standard deviation of the bases reaches `min_range` (if given), the cell gets exactly `g`. -/
theorem c65_regression_linear (rnd : Rnd K) (Y X : Nat) (base values : List (List (Fl K))) (hb : Rect Y X base) (hv : Rect Y X values)
    (hw n : Nat) (hhw : 0 < hw) (minRange d : Fl K) (hr : ∀ r, minRange = fin r → 0 ≤ r) (y x : Nat) (hy : y < Y) (hx : x < X) (a g : K)
    (hlin : ∀ p ∈ windowPairs base values hw y x, p.2 = a + g * p.1) (hn : n ≤ (windowPairs base values hw y x).length)
    (hne : ∃ p ∈ windowPairs base values hw y x, ∃ q ∈ windowPairs base values hw y x, p.1 ≠ q.1)
    (hrange : ∀ r, minRange = fin r → r ^ 2 ≤ variance ((windowPairs base values hw y x).map Prod.fst)) :
    ∃ out, calcGradient rnd base values .linearRegression hw n minRange d = ok out ∧ cell? out y x = some (fin g) := by
  obtain ⟨out, h1, -, h3⟩ := c65_regression rnd Y X base values hb hv (by omega) (by omega) hw n hhw minRange d hr
  obtain ⟨v, e1, e2⟩ := h3 y hy x hx
  generalize windowPairs base values hw y x = P at *
  have hvar : variance (P.map Prod.fst) ≠ 0 := by
    obtain ⟨p, hp, q, hq, hpq⟩ := hne
    intro h
    have hP : P.map Prod.fst ≠ [] := by
      intro hc
      rw [List.map_eq_nil_iff.mp hc] at hp
      cases hp
    have := (variance_eq_zero hP).mp h
    exact hpq (this _ (List.mem_map_of_mem hp) _ (List.mem_map_of_mem hq))
  refine ⟨out, h1, ?_⟩
  rw [e1, e2.1 ⟨hn, hvar, hrange⟩, slope_affine hvar hlin]

/-- **C65** (finite or default, LinearRegression). -/
theorem c65_regression_finite (rnd : Rnd K) (Y X : Nat) (base values : List (List (Fl K))) (hb : Rect Y X base) (hv : Rect Y X values)
    (hY : 0 < Y) (hX : 0 < X) (hw n : Nat) (hhw : 0 < hw) (minRange d : Fl K) (hr : ∀ r, minRange = fin r → 0 ≤ r) :
    ∃ out, calcGradient rnd base values .linearRegression hw n minRange d = ok out ∧ Rect Y X out ∧
      ∀ y < Y, ∀ x < X, ∃ v, cell? out y x = some v ∧ (v.isValid = true ∨ v = d) ∧ ((windowPairs base values hw y x).length < n → v = d) := by
  obtain ⟨out, h1, h2, h3⟩ := c65_regression rnd Y X base values hb hv hY hX hw n hhw minRange d hr
  refine ⟨out, h1, h2, fun y hy x hx => ?_⟩
  obtain ⟨v, e1, e2, e3⟩ := h3 y hy x hx
  refine ⟨v, e1, ?_, fun h => e3 fun hc => absurd hc.1 (not_le.mpr h)⟩
  rcases Classical.em (n ≤ (windowPairs base values hw y x).length ∧ variance ((windowPairs base values hw y x).map Prod.fst) ≠ 0 ∧
    ∀ r, minRange = fin r → r ^ 2 ≤ variance ((windowPairs base values hw y x).map Prod.fst)) with h | h
  · rw [e2 h]; exact Or.inl rfl
  · exact Or.inr (e3 h)

end

section
variable {K : Type} [Field K] [LinearOrder K] [IsStrictOrderedRing K] [FloorRing K] [HasSqrt K]

/-- **C65** (linear relation, MinMax). The range of the bases must exceed `min_range`, if given. -/
theorem c65_minmax_linear (rnd : Rnd K) (Y X : Nat) (base values : List (List (Fl K))) (hb : Rect Y X base) (hv : Rect Y X values)
    (hw n : Nat) (hhw : 0 < hw) (minRange d : Fl K) (hr : ∀ r, minRange = fin r → 0 ≤ r) (y x : Nat) (hy : y < Y) (hx : x < X) (a g : K)
    (hlin : ∀ p ∈ windowPairs base values hw y x, p.2 = a + g * p.1) (hn : n ≤ (windowPairs base values hw y x).length)
    (hne : ∃ p ∈ windowPairs base values hw y x, ∃ q ∈ windowPairs base values hw y x, p.1 < q.1 ∧ (fin (q.1 - p.1)).gt minRange = true ∨
      minRange = nan ∧ p.1 < q.1) :
    ∃ out, calcGradient rnd base values .minMax hw n minRange d = ok out ∧ cell? out y x = some (fin g) := by
  obtain ⟨out, h1, -, h3⟩ := c65_minmax rnd Y X base values hb hv (by omega) hw n hhw minRange d hr
  obtain ⟨v, e1, -, e2⟩ := h3 y hy x hx
  generalize windowPairs base values hw y x = P at *
  obtain ⟨p, hp, q, hq, hpq⟩ := hne
  obtain ⟨b1, v1, b0, v0, f1, g1, f0, g0, -, k2, -⟩ := e2 hn (by rintro rfl; cases hp)
  have hlt : p.1 < q.1 := by rcases hpq with h | h; exacts [h.1, h.2]
  have hb0 := g0 p hp
  have hb1 := g1 q hq
  have hv1 := hlin _ (List.mem_of_find?_eq_some f1)
  have hv0 := hlin _ (List.mem_of_find?_eq_some f0)
  simp only at hv1 hv0
  have hle : (fin (b1 - b0)).le minRange = false := by
    cases minRange with
    | nan => rfl
    | ninf => rfl
    | pinf => rcases hpq with h | h
              · exact absurd h.2 (by simp [gt, lt])
              · cases h.1
    | fin r => rcases hpq with h | h
               · have := h.2
                 rw [gt_fin] at this
                 rw [le_fin]
                 simp only [decide_eq_true_eq, decide_eq_false_iff_not, not_le] at this ⊢
                 linarith
               · cases h.1
  refine ⟨out, h1, ?_⟩
  rw [e1, k2 hle (by linarith), hv1, hv0]
  congr 2
  rw [div_eq_iff (by linarith)]
  ring

/-- **C65** (finite or default, MinMax). Holds if `min_range` is given; missing: `min_range` not given and a constant base, where the code
divides 0 by 0 (`c65_not_finite`). -/
theorem c65_minmax_finite_partial (rnd : Rnd K) (Y X : Nat) (base values : List (List (Fl K))) (hb : Rect Y X base) (hv : Rect Y X values)
    (hY : 0 < Y) (hw n : Nat) (hhw : 0 < hw) (r : K) (d : Fl K) (hr : 0 ≤ r) :
    ∃ out, calcGradient rnd base values .minMax hw n (fin r) d = ok out ∧ Rect Y X out ∧
      ∀ y < Y, ∀ x < X, ∃ v, cell? out y x = some v ∧ (v.isValid = true ∨ v = d) ∧ ((windowPairs base values hw y x).length < n → v = d) := by
  obtain ⟨out, h1, h2, h3⟩ := c65_minmax rnd Y X base values hb hv hY hw n hhw (fin r) d (fun r' h => by cases h; exact hr)
  refine ⟨out, h1, h2, fun y hy x hx => ?_⟩
  obtain ⟨v, e1, e2, e3⟩ := h3 y hy x hx
  refine ⟨v, e1, ?_, fun h => e2 (Or.inl h)⟩
  by_cases hd : (windowPairs base values hw y x).length < n ∨ windowPairs base values hw y x = []
  · exact Or.inr (e2 hd)
  · push Not at hd
    obtain ⟨b1, v1, b0, v0, f1, g1, -, -, k1, k2, -⟩ := e3 hd.1 hd.2
    by_cases hle : (fin (b1 - b0)).le (fin r) = true
    · exact Or.inr (k1 hle)
    · have hle' : (fin (b1 - b0)).le (fin r) = false := by simpa using hle
      left
      rw [k2 hle' (by
        rw [le_fin] at hle'
        simp only [decide_eq_false_iff_not, not_le] at hle'
        linarith)]
      rfl

/-- Any other type of gradient gives the default everywhere. -/
theorem c65_other (rnd : Rnd K) (Y X : Nat) (base values : List (List (Fl K))) (hb : Rect Y X base) (hv : Rect Y X values) (hY : 0 < Y)
    (hw n : Nat) (hhw : 0 < hw) (minRange d : Fl K) (hr : ∀ r, minRange = fin r → 0 ≤ r) :
    calcGradient rnd base values .other hw n minRange d = ok (List.replicate Y (List.replicate X d)) := by
  rw [calcGradient_checked rnd hb hv hY _ hw n hhw minRange d hr]
  rfl

end

/-- **C65** fails: constant base and no `min_range` (the default) gives NaN, although the default gradient is 0. -/
theorem c65_not_finite : calcGradient (fun _ => 0) [[fin (1 : ℚ), fin 1]] [[fin 3, fin 5]] .minMax 1 2 nan (fin 0) = ok [[nan, nan]] := by
  decide +kernel

/-- Rows of different length are accepted (the sizes of the two fields agree), then accessed outside. -/
theorem c65_ragged :
    calcGradient (fun _ => 0) [[fin (1 : ℚ)], [fin 2, fin 3]] [[fin 1], [fin 2, fin 3]] .minMax 1 2 nan (fin 0) = ub ∧
    calcGradient (fun _ => 0) [[fin (1 : ℚ), fin 2], [fin 3]] [[fin 1, fin 2], [fin 3]] .linearRegression 1 2 nan (fin 0) = ub := by
  decide +kernel

/-- The hypotheses are met: `values = 1 + 2 * base` with missing values. -/
example : Rect 2 3 [[fin (1 : ℚ), fin 2, nan], [fin 4, fin 0, fin 5]] ∧ Rect 2 3 [[fin (3 : ℚ), fin 5, fin 7], [fin 9, fin 1, nan]] ∧
    windowPairs [[fin (1 : ℚ), fin 2, nan], [fin 4, fin 0, fin 5]] [[fin (3 : ℚ), fin 5, fin 7], [fin 9, fin 1, nan]] 1 0 0 =
      [(1, 3), (2, 5), (4, 9), (0, 1)] ∧
    calcGradient (fun _ => 0) [[fin (1 : ℚ), fin 2, nan], [fin 4, fin 0, fin 5]] [[fin (3 : ℚ), fin 5, fin 7], [fin 9, fin 1, nan]]
      .linearRegression 1 3 nan (fin (-9)) = ok [[fin 2, fin 2, fin (-9)], [fin 2, fin 2, fin (-9)]] ∧
    calcGradient (fun _ => 0) [[fin (1 : ℚ), fin 2, nan], [fin 4, fin 0, fin 5]] [[fin (3 : ℚ), fin 5, fin 7], [fin 9, fin 1, nan]]
      .minMax 1 2 (fin 2) (fin (-9)) = ok [[fin 2, fin 2, fin (-9)], [fin 2, fin 2, fin (-9)]] := by
  decide +kernel

end Gridpp.Props
