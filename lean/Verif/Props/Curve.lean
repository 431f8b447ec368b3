import Verif.Lemmas.Curve
import Verif.Props.Interp

/-! # C31, C32: apply_curve -/

set_option linter.unusedSectionVars false

namespace Gridpp.Props
open Fl Res

variable {K : Type} [Field K] [LinearOrder K] [IsStrictOrderedRing K]

/-- Every policy except `Unchanged` (and values outside the enum) has exactly one continuation slope at each end. -/
theorem continuesWith_existsUnique (p : Extrapolation) (hp : p ≠ .unchanged) (hp' : p ≠ .other) (xs ys : List K)
    (hl : xs.length = ys.length) (hne : 0 < xs.length) (hs : xs.Pairwise (· < ·)) (i j : Nat)
    (hij : 1 < xs.length → i < j ∧ j < xs.length) : ∃! s, ContinuesWith p xs ys i j s := by
  cases p with
  | zero => exact ⟨0, Or.inl ⟨rfl, rfl⟩, fun t ht => by rcases ht with h | h | h | h | h <;> simp_all⟩
  | oneToOne => exact ⟨1, Or.inr (Or.inl ⟨rfl, rfl⟩), fun t ht => by rcases ht with h | h | h | h | h <;> simp_all⟩
  | unchanged => exact absurd rfl hp
  | other => exact absurd rfl hp'
  | meanSlope =>
    by_cases h1 : xs.length = 1
    · exact ⟨1, Or.inr (Or.inr (Or.inl ⟨Or.inl rfl, h1, rfl⟩)), fun t ht => by rcases ht with h | h | h | ⟨_, h, _⟩ | h <;> simp_all⟩
    · have hd := sub_pos.mpr (strict_lt hs (show 0 < xs.length - 1 by omega) (by omega))
      refine ⟨(ys[ys.length - 1] - ys[0]) / (xs[xs.length - 1] - xs[0]),
        Or.inr (Or.inr (Or.inr (Or.inl ⟨rfl, by omega, by omega, div_mul_cancel₀ _ hd.ne'⟩))), fun t ht => ?_⟩
      rcases ht with h | h | h | ⟨_, _, _, h⟩ | h
      · exact absurd h.1 (by simp)
      · exact absurd h.1 (by simp)
      · exact absurd h.2.1 h1
      · rw [eq_div_iff hd.ne', h]
      · exact absurd h.1 (by simp)
  | nearestSlope =>
    by_cases h1 : xs.length = 1
    · exact ⟨1, Or.inr (Or.inr (Or.inl ⟨Or.inr rfl, h1, rfl⟩)), fun t ht => by rcases ht with h | h | h | h | ⟨_, h, _⟩ <;> simp_all⟩
    · obtain ⟨hi, hj⟩ := hij (by omega)
      have hd := sub_pos.mpr (strict_lt hs hi hj)
      refine ⟨(ys[j] - ys[i]) / (xs[j] - xs[i]),
        Or.inr (Or.inr (Or.inr (Or.inr ⟨rfl, by omega, by omega, by omega, by omega, by omega, div_mul_cancel₀ _ hd.ne'⟩))), fun t ht => ?_⟩
      rcases ht with h | h | h | h | ⟨_, _, _, _, _, _, h⟩
      · exact absurd h.1 (by simp)
      · exact absurd h.1 (by simp)
      · exact absurd h.2.1 h1
      · exact absurd h.1 (by simp)
      · rw [eq_div_iff hd.ne', h]

/-- **C31** (inside). On a strictly increasing finite curve, an input between the ends gives the value of the polyline
through the curve points: exact at each point and linear on each segment, whatever the policies. -/
theorem c31_inside (xs ys : List K) (hl : xs.length = ys.length) (hs : xs.Pairwise (· < ·)) (below above : Extrapolation) :
    (∀ i, (h : i < xs.length) → applyCurve (fin xs[i]) (ys.map fin) (xs.map fin) below above = ok (fin ys[i])) ∧
    (∀ i, (h : i + 1 < xs.length) → ∀ x, xs[i] ≤ x → x ≤ xs[i + 1] →
      applyCurve (fin x) (ys.map fin) (xs.map fin) below above =
        ok (fin (ys[i] + (ys[i + 1] - ys[i]) * ((x - xs[i]) / (xs[i + 1] - xs[i]))))) := by
  have hk : ∀ i, (h : i < xs.length) → applyCurve (fin xs[i]) (ys.map fin) (xs.map fin) below above = ok (fin ys[i]) := by
    intro i h
    rw [applyCurve_inside xs ys hl (by omega) _ (sorted_le (strict_le hs) (Nat.zero_le i) h)
      (sorted_le (strict_le hs) (show i ≤ xs.length - 1 by omega) (by omega))]
    obtain ⟨r, hr, -, -, h3, -, -⟩ := c07_interpolate xs ys hl (strict_le hs) (by omega) xs[i]
    rw [hr, h3 i h rfl fun k hk hki => ?_]
    rcases Nat.lt_or_gt_of_ne hki with h' | h'
    · exact (strict_lt hs h' h).ne
    · exact (strict_lt hs h' hk).ne'
  refine ⟨hk, fun i h x h0 h1 => ?_⟩
  have hd := sub_pos.mpr (strict_lt hs (Nat.lt_succ_self i) h)
  rcases h0.eq_or_lt with rfl | h0'
  · rw [hk i (by omega)]; simp
  rcases h1.eq_or_lt with rfl | h1'
  · rw [hk (i + 1) h, div_self hd.ne']; congr 2; ring
  rw [applyCurve_inside xs ys hl (by omega) _ ((sorted_le (strict_le hs) (Nat.zero_le i) (by omega)).trans h0)
      (h1.trans (sorted_le (strict_le hs) (show i + 1 ≤ xs.length - 1 by omega) (by omega)))]
  obtain ⟨r, hr, -, -, -, h4, -⟩ := c07_interpolate xs ys hl (strict_le hs) (by omega) x
  rw [hr, h4 i h h0' h1']

/-- **C31** (below the first point, including the end point itself: no jump there). -/
theorem c31_below (xs ys : List K) (hl : xs.length = ys.length) (hs : xs.Pairwise (· < ·)) (hne : 0 < xs.length)
    (below above : Extrapolation) (s : K) (h : ContinuesWith below xs ys 0 1 s) (x : K) (hx : x ≤ xs[0]) :
    applyCurve (fin x) (ys.map fin) (xs.map fin) below above = ok (fin (ys[0] + s * (x - xs[0]))) := by
  rcases hx.eq_or_lt with rfl | hx
  · rw [(c31_inside xs ys hl hs below above).1 0 hne]; simp
  · exact applyCurve_below xs ys hl hs hne x hx below above h

/-- **C31** (above the last point, including the end point itself). -/
theorem c31_above (xs ys : List K) (hl : xs.length = ys.length) (hs : xs.Pairwise (· < ·)) (hne : 0 < xs.length)
    (below above : Extrapolation) (s : K) (h : ContinuesWith above xs ys (xs.length - 2) (xs.length - 1) s) (x : K)
    (hx : xs[xs.length - 1] ≤ x) :
    applyCurve (fin x) (ys.map fin) (xs.map fin) below above =
      ok (fin (ys[ys.length - 1] + s * (x - xs[xs.length - 1]))) := by
  rcases hx.eq_or_lt with rfl | hx
  · rw [(c31_inside xs ys hl hs below above).1 (xs.length - 1) (by omega)]; simp [hl]
  · exact applyCurve_above xs ys hl hs hne x hx below above h

/-- **C31** (`Unchanged`). Outside the curve the input is returned. No order of the curve is needed. -/
theorem c31_unchanged (xs ys : List K) (hl : xs.length = ys.length) (hne : 0 < xs.length) (p : Extrapolation) (x : K) :
    (x < xs[0] → applyCurve (fin x) (ys.map fin) (xs.map fin) .unchanged p = ok (fin x)) ∧
    (xs[0] < x → xs[xs.length - 1] < x → applyCurve (fin x) (ys.map fin) (xs.map fin) p .unchanged = ok (fin x)) := by
  have e1 : vget (xs.map (fin : K → Fl K)) 0 = ok (fin xs[0]) := vget_map_fin xs 0 hne
  have e2 : vget (ys.map (fin : K → Fl K)) 0 = ok (fin (ys[0]'(by omega))) := vget_map_fin ys 0 (by omega)
  have hc : ((xs.map (fin : K → Fl K)).length : Int) - 1 = ((xs.length - 1 : Nat) : Int) := by simp; omega
  constructor
  · intro hx
    unfold applyCurve
    rw [if_neg (by simp [hl]), if_neg (by rw [List.length_map]; omega)]
    simp only [hc, e1, e2, vget_map_fin xs (xs.length - 1) (by omega), vget_map_fin ys (xs.length - 1) (by omega),
      ok_bind, ge_fin, le_fin, not_le.mpr hx, hx.le, decide_true, decide_false, Bool.false_and, if_true,
      Bool.false_eq_true, if_false]
  · intro h0 hx
    unfold applyCurve
    rw [if_neg (by simp [hl]), if_neg (by rw [List.length_map]; omega)]
    simp only [hc, e1, e2, vget_map_fin xs (xs.length - 1) (by omega), vget_map_fin ys (xs.length - 1) (by omega),
      ok_bind, le_fin, not_le.mpr hx, not_le.mpr h0, decide_false, Bool.and_false, Bool.false_eq_true, if_false, if_true]

/-- **C31** (errors). Size mismatch and empty curves throw, for every input including missing ones. -/
theorem c31_throws (x : Fl K) (ref fcst : List (Fl K)) (below above : Extrapolation)
    (h : ref.length ≠ fcst.length ∨ ref = [] ∨ fcst = []) :
    applyCurve x ref fcst below above = .throw .invalidArgument := by
  unfold applyCurve
  by_cases hl : ref.length ≠ fcst.length
  · rw [if_pos hl]
  · rw [if_neg hl, if_pos]
    rcases h with h | rfl | rfl
    · exact absurd h hl
    · rfl
    · simpa using hl

/-- **C31** (no other failure). Beyond the size errors, the only failure is a policy outside the enum, used outside the
curve of at least two points. -/
theorem c31_other_policy (xs ys : List K) (hl : xs.length = ys.length) (hne : 1 < xs.length) (p : Extrapolation) (x : K)
    (hx : x < xs[0]) : applyCurve (fin x) (ys.map fin) (xs.map fin) .other p = .throw .invalidArgument := by
  have e1 : vget (xs.map (fin : K → Fl K)) 0 = ok (fin xs[0]) := vget_map_fin xs 0 (by omega)
  have e2 : vget (ys.map (fin : K → Fl K)) 0 = ok (fin (ys[0]'(by omega))) := vget_map_fin ys 0 (by omega)
  have hc : ((xs.map (fin : K → Fl K)).length : Int) - 1 = ((xs.length - 1 : Nat) : Int) := by simp; omega
  have hc' : ((xs.map (fin : K → Fl K)).length : Int) ≤ 1 ↔ xs.length = 1 := by simp; omega
  unfold applyCurve
  rw [if_neg (by simp [hl]), if_neg (by rw [List.length_map]; omega)]
  simp only [hc, e1, e2, vget_map_fin xs (xs.length - 1) (by omega), vget_map_fin ys (xs.length - 1) (by omega),
    ok_bind, ge_fin, le_fin, not_le.mpr hx, hx.le, decide_true, decide_false, Bool.false_and, if_true,
    Bool.false_eq_true, if_false, hc']
  simp [show xs.length ≠ 1 by omega]

/-- **C31** (vector overload): the size checks throw before the parallel loop; otherwise element by element. -/
theorem c31_vec (f ref curve : List (Fl K)) (below above : Extrapolation) :
    (ref.length ≠ curve.length ∨ ref = [] → applyCurveVec f ref curve below above = .throw .invalidArgument) ∧
    (∀ out, applyCurveVec f ref curve below above = ok out →
      List.Forall₂ (fun v r => applyCurve v ref curve below above = ok r) f out) := by
  unfold applyCurveVec
  constructor
  · intro h
    by_cases hl : ref.length ≠ curve.length
    · rw [if_pos hl]
    · rw [if_neg hl, if_pos]
      rcases h with h | rfl
      · exact absurd h hl
      · rfl
  · intro out h
    split_ifs at h
    cases hm : mapM (fun v => applyCurve v ref curve below above) f with
    | ok b => rw [hm] at h; cases h; exact mapM_eq_ok hm
    | _ => rw [hm] at h; cases h

/-- Non-vacuity for C31/C32: a strictly increasing curve, evaluated below, inside, at a knot and above. -/
example : ([1, 2, 4] : List ℚ).Pairwise (· < ·) ∧ ([1, 2, 4] : List ℚ).length = ([0, 3, 4] : List ℚ).length ∧
    ContinuesWith .nearestSlope [1, 2, 4] [0, 3, 4] 0 1 (3 : ℚ) ∧
    ContinuesWith .meanSlope [1, 2, 4] [0, 3, 4] 1 2 (4 / 3 : ℚ) ∧
    applyCurve (fin (0 : ℚ)) ([0, 3, 4].map fin) ([1, 2, 4].map fin) .nearestSlope .meanSlope = ok (fin (-3)) ∧
    applyCurve (fin (3 : ℚ)) ([0, 3, 4].map fin) ([1, 2, 4].map fin) .nearestSlope .meanSlope = ok (fin (7 / 2)) ∧
    applyCurve (fin (7 : ℚ)) ([0, 3, 4].map fin) ([1, 2, 4].map fin) .nearestSlope .meanSlope = ok (fin 8) ∧
    applyCurve (fin (0 : ℚ)) ([0, 3, 4].map fin) ([1, 2, 4].map fin) .zero .meanSlope = ok (fin 0) := by
  refine ⟨by decide +kernel, rfl, ?_, ?_, by decide +kernel, by decide +kernel, by decide +kernel, by decide +kernel⟩
  · exact Or.inr (Or.inr (Or.inr (Or.inr ⟨rfl, by decide, by decide, by decide, by decide, by decide, by norm_num⟩)))
  · exact Or.inr (Or.inr (Or.inr (Or.inl ⟨rfl, by decide, by decide, by norm_num⟩)))

/-- **C31** (remark). If the two lowest abscissas coincide, `NearestSlope` divides by zero and returns an infinity. -/
theorem c31_repeated_end :
    applyCurve (fin (-1 : ℚ)) ([0, 1, 2].map fin) ([0, 0, 1].map fin) .nearestSlope .nearestSlope = ok ninf := by
  decide +kernel

/-- The continuation slope of a non-decreasing curve is not negative. -/
theorem continuesWith_nonneg {p : Extrapolation} {xs ys : List K} (hl : xs.length = ys.length) (hs : xs.Pairwise (· < ·))
    (hy : ys.Pairwise (· ≤ ·)) {i j : Nat} (hij : 1 < xs.length → i < j) {s : K} (h : ContinuesWith p xs ys i j s) : 0 ≤ s := by
  rcases h with ⟨-, rfl⟩ | ⟨-, rfl⟩ | ⟨-, -, rfl⟩ | ⟨-, h, h', he⟩ | ⟨-, h1, hi, hj, hi', hj', he⟩
  · exact le_refl _
  · exact zero_le_one
  · exact zero_le_one
  · have hd := sub_pos.mpr (strict_lt hs (show 0 < xs.length - 1 by omega) (by omega))
    have := sorted_le hy (Nat.zero_le (ys.length - 1)) (by omega)
    exact nonneg_of_mul_nonneg_left (he ▸ sub_nonneg.mpr this) hd
  · have hd := sub_pos.mpr (strict_lt hs (hij h1) hj)
    have := sorted_le hy (hij h1).le hj'
    exact nonneg_of_mul_nonneg_left (he ▸ sub_nonneg.mpr this) hd

/-- **C32**. With strictly increasing `fcst`, non-decreasing `ref` and any pair of policies other than `Unchanged`, the
result is a number for every finite input and non-decreasing in the input. -/
theorem c32_monotone (xs ys : List K) (hl : xs.length = ys.length) (hs : xs.Pairwise (· < ·)) (hy : ys.Pairwise (· ≤ ·))
    (hne : 0 < xs.length) (below above : Extrapolation) (hb : below ≠ .unchanged ∧ below ≠ .other)
    (ha : above ≠ .unchanged ∧ above ≠ .other) :
    ∃ f : K → K, (∀ x, applyCurve (fin x) (ys.map fin) (xs.map fin) below above = ok (fin (f x))) ∧
      ∀ x x', x ≤ x' → f x ≤ f x' := by
  obtain ⟨sb, hsb, -⟩ := continuesWith_existsUnique below hb.1 hb.2 xs ys hl hne hs 0 1 (by omega)
  obtain ⟨sa, hsa, -⟩ := continuesWith_existsUnique above ha.1 ha.2 xs ys hl hne hs (xs.length - 2) (xs.length - 1) (by omega)
  have nb := continuesWith_nonneg hl hs hy (by omega) hsb
  have na := continuesWith_nonneg hl hs hy (by omega) hsa
  have hi := fun x => c07_interpolate xs ys hl (strict_le hs) hne x
  choose g hg hg1 hg2 hg3 hg4 hg5 using hi
  have hends := sorted_le (strict_le hs) (Nat.zero_le (xs.length - 1)) (by omega)
  have gm : ∀ x x', x ≤ x' → g x ≤ g x' := fun x x' h => c07_mono xs ys hl (strict_le hs) hy x x' h _ _ (hg x) (hg x')
  have key : ∀ x, applyCurve (fin x) (ys.map fin) (xs.map fin) below above =
      ok (fin (g x + sb * min (0 : K) (x - xs[0]) + sa * max (0 : K) (x - xs[xs.length - 1]))) := by
    intro x
    by_cases h0 : x < xs[0]
    · rw [c31_below xs ys hl hs hne below above sb hsb x h0.le, hg1 x h0,
        min_eq_right (sub_nonpos.mpr h0.le), max_eq_left (sub_nonpos.mpr (h0.le.trans hends))]
      simp
    · by_cases h1 : xs[xs.length - 1] < x
      · rw [c31_above xs ys hl hs hne below above sa hsa x h1.le, hg2 x h1,
          max_eq_right (sub_nonneg.mpr h1.le), min_eq_left (sub_nonneg.mpr (hends.trans h1.le))]
        simp [hl]
      · rw [applyCurve_inside xs ys hl hne x (not_lt.mp h0) (not_lt.mp h1), hg x,
          min_eq_left (sub_nonneg.mpr (not_lt.mp h0)), max_eq_left (sub_nonpos.mpr (not_lt.mp h1))]
        simp
  refine ⟨_, key, fun x x' h => ?_⟩
  have a1 := gm x x' h
  have a2 := mul_le_mul_of_nonneg_left (min_le_min_left (0 : K) (sub_le_sub_right h xs[0])) nb
  have a3 := mul_le_mul_of_nonneg_left (max_le_max_left (0 : K) (sub_le_sub_right h xs[xs.length - 1])) na
  exact add_le_add (add_le_add a1 a2) a3

example : ([1, 2, 4] : List ℚ).Pairwise (· < ·) ∧ ([0, 3, 3] : List ℚ).Pairwise (· ≤ ·) := by decide +kernel

/-- **C32** (boundary of the claim). With `Unchanged` the order can be broken at the end of the curve. -/
theorem c32_unchanged_breaks_order :
    applyCurve (fin (1 : ℚ)) ([10, 20].map fin) ([1, 2].map fin) .unchanged .unchanged = ok (fin 10) ∧
    applyCurve (fin (2 : ℚ)) ([10, 20].map fin) ([1, 2].map fin) .unchanged .unchanged = ok (fin 20) ∧
    applyCurve (fin (3 : ℚ)) ([10, 20].map fin) ([1, 2].map fin) .unchanged .unchanged = ok (fin 3) := by
  decide +kernel

end Gridpp.Props
