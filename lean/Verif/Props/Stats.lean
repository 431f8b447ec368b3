import Verif.Lemmas.Quantile
import Verif.Base.Inst

/-! # C01–C04: statistics and quantiles of an array -/

set_option linter.unusedSectionVars false

namespace Gridpp.Props
open Fl Res Spec

variable {K : Type} [Field K] [LinearOrder K] [IsStrictOrderedRing K] [FloorRing K]

/-- The eight deterministic statistics. -/
def Deterministic (s : Statistic) : Prop :=
  s ∈ [Statistic.mean, .sum, .count, .min, .median, .max, .std, .variance]

/-- **C01** (order and missing values). Two arrays whose valid values agree up to order have the same statistic. -/
theorem c01_only_valid_multiset [HasSqrt K] (rnd : Rnd K) (a b : List (Fl K)) (s : Statistic) (hs : Deterministic s)
    (h : (a.filter isValid).Perm (b.filter isValid)) : calcStatistic rnd a s = calcStatistic rnd b s := by
  have hv : (vals a).Perm (vals b) := by
    have := vals_perm h
    rwa [vals_filter_isValid, vals_filter_isValid] at this
  simp only [Deterministic, List.mem_cons, List.not_mem_nil, or_false] at hs
  have hvar : calcVariance a = calcVariance b := by
    by_cases ha : vals a = []
    · have hb : vals b = [] := by rw [ha] at hv; exact List.nil_perm.mp hv
      rw [calcVariance_none a ha, calcVariance_none b hb]
    · have hb : vals b ≠ [] := by intro hb; rw [hb] at hv; exact ha (List.perm_nil.mp hv)
      rw [calcVariance_eq a ha, calcVariance_eq b hb, variance_perm hv]
  rcases hs with rfl | rfl | rfl | rfl | rfl | rfl | rfl | rfl <;>
    simp only [calcStatistic, sumCount_eq, hv.sum_eq, hv.length_eq, hvar, calcQuantile_perm hv]

/-- **C01** (missing result). The statistic always returns a value; it is missing exactly when no value of the array
is valid, except Count, which is then 0. -/
theorem c01_missing_iff [HasSqrt K] (rnd : Rnd K) (a : List (Fl K)) (s : Statistic) (hs : Deterministic s) :
    ∃ v, calcStatistic rnd a s = ok v ∧
      (s ≠ .count → (v.isValid = false ↔ ∀ x ∈ a, x.isValid = false)) ∧
      (s = .count → v.isValid = true ∧ ((∀ x ∈ a, x.isValid = false) → v = fin 0)) := by
  have hnone : (∀ x ∈ a, x.isValid = false) ↔ vals a = [] := by
    constructor
    · intro h
      by_contra hc
      obtain ⟨q, hq⟩ := List.exists_mem_of_ne_nil _ hc
      have := h _ (mem_vals.mp hq)
      simp at this
    · intro h x hx
      cases x with
      | fin q => have := mem_vals.mpr hx; rw [h] at this; simp at this
      | _ => rfl
  rw [hnone]
  simp only [Deterministic, List.mem_cons, List.not_mem_nil, or_false] at hs
  have h05 : (0 : K) ≤ 1 / 2 := by norm_num
  have h15 : (1 / 2 : K) ≤ 1 := by norm_num
  by_cases ha : vals a = []
  · rcases hs with rfl | rfl | rfl | rfl | rfl | rfl | rfl | rfl <;>
    simp [calcStatistic, sumCount_eq, ha, calcVariance_none, calcQuantile_none a ha (le_refl 0) zero_le_one,
      calcQuantile_none a ha zero_le_one (le_refl 1)]
    exact ⟨nan, by simpa using calcQuantile_none a ha h05 h15, rfl⟩
  · have hl := length_ne_zero ha
    have hp : 0 < (vals a).length := List.length_pos_iff.mpr ha
    obtain ⟨m0, hm0, -⟩ := calcQuantile_zero a ha
    obtain ⟨m1, hm1, -⟩ := calcQuantile_one a ha
    obtain ⟨m5, hm5, -⟩ := calcQuantile_polyline a ha h05 h15
    rcases hs with rfl | rfl | rfl | rfl | rfl | rfl | rfl | rfl <;>
    simp only [calcStatistic, sumCount_eq, hp, if_true, ofNat_def, fin_div_of_ne _ hl, calcVariance_eq a ha,
      Fl.zero_def, Fl.one_def, hm0, hm1, hm5, sqrt_fin (variance_nonneg _)] <;>
    simp [ha]

example : Deterministic .median ∧
    (([fin 3, nan, fin 1] : List (Fl ℚ)).filter isValid).Perm ([fin 1, pinf, fin 3, ninf].filter isValid) := by
  constructor
  · simp [Deterministic]
  · exact List.Perm.swap _ _ _

/-- **C02**. Sum, Count, Mean, Min, Max and Median of an array with a valid value. -/
theorem c02_mean_sum_count_min_max [HasSqrt K] (rnd : Rnd K) (a : List (Fl K)) (h : ∃ x ∈ a, x.isValid = true) :
    ∃ mean min max med : K,
      calcStatistic rnd a .sum = ok (fin (vals a).sum) ∧
      calcStatistic rnd a .count = ok (fin ((a.filter isValid).length : K)) ∧
      calcStatistic rnd a .mean = ok (fin mean) ∧ mean * ((a.filter isValid).length : K) = (vals a).sum ∧
      calcStatistic rnd a .min = ok (fin min) ∧ MinOf min (vals a) ∧
      calcStatistic rnd a .max = ok (fin max) ∧ MaxOf max (vals a) ∧
      calcStatistic rnd a .median = ok (fin med) ∧ min ≤ med ∧ med ≤ max ∧ min ≤ mean ∧ mean ≤ max := by
  have ha : vals a ≠ [] := by
    obtain ⟨x, hx, hv⟩ := h
    obtain ⟨q, rfl⟩ := exists_fin_of_valid hv
    exact List.ne_nil_of_mem (mem_vals.mpr hx)
  have hl := length_ne_zero ha
  have hp : 0 < (vals a).length := List.length_pos_iff.mpr ha
  have h05 : (0 : K) ≤ 1 / 2 := by norm_num
  have h15 : (1 / 2 : K) ≤ 1 := by norm_num
  obtain ⟨m0, hm0, h0⟩ := calcQuantile_zero a ha
  obtain ⟨m1, hm1, h1⟩ := calcQuantile_one a ha
  obtain ⟨m5, hm5, h5⟩ := calcQuantile_polyline a ha h05 h15
  obtain ⟨m0', hm0', h0'⟩ := calcQuantile_polyline a ha (le_refl 0) zero_le_one
  obtain ⟨m1', hm1', h1'⟩ := calcQuantile_polyline a ha zero_le_one (le_refl 1)
  rw [hm0] at hm0'; cases hm0'
  rw [hm1] at hm1'; cases hm1'
  have hN : (1 : K) ≤ (vals a).length := by exact_mod_cast hp
  have hf : (a.filter isValid).length = (vals a).length := by rw [filter_isValid]; simp
  refine ⟨Spec.mean (vals a), m0, m1, m5, ?_, ?_, ?_, ?_, ?_, h0, ?_, h1, ?_, ?_, ?_, ?_, ?_⟩
  · simp [calcStatistic, sumCount_eq, hp]
  · simp [calcStatistic, sumCount_eq, hf]
  · simp [calcStatistic, sumCount_eq, hp, Spec.mean, hl]
  · rw [hf, Spec.mean, div_mul_cancel₀ _ hl]
  · simpa [calcStatistic] using hm0
  · simpa [calcStatistic] using hm1
  · simpa [calcStatistic] using hm5
  · exact polyline_mono (pairwise_sorted _) (by nlinarith) h0' h5
  · exact polyline_mono (pairwise_sorted _) (by nlinarith) h5 h1'
  · exact (mean_mem_Icc ha h0.2 h1.2).1
  · exact (mean_mem_Icc ha h0.2 h1.2).2

example : ∃ x ∈ ([nan, fin 2, fin 5] : List (Fl ℚ)), x.isValid = true := ⟨fin 2, by simp, rfl⟩

/-- Add a constant to every value. -/
def shift (c : K) (a : List (Fl K)) : List (Fl K) := a.map (· + fin c)

/-- **C03**. Variance is the population variance, non-negative, zero iff all valid values are equal, invariant under
adding a constant; Std is a non-negative number whose square is the variance. -/
theorem c03_variance [LawfulSqrt K] (rnd : Rnd K) (a : List (Fl K)) (h : ∃ x ∈ a, x.isValid = true) :
    ∃ var sd : K,
      calcStatistic rnd a .variance = ok (fin var) ∧ var = Spec.variance (vals a) ∧ 0 ≤ var ∧
      (var = 0 ↔ ∀ x ∈ vals a, ∀ y ∈ vals a, x = y) ∧
      (∀ c, calcStatistic rnd (shift c a) .variance = ok (fin var)) ∧
      calcStatistic rnd a .std = ok (fin sd) ∧ 0 ≤ sd ∧ sd * sd = var := by
  have ha : vals a ≠ [] := by
    obtain ⟨x, hx, hv⟩ := h
    obtain ⟨q, rfl⟩ := exists_fin_of_valid hv
    exact List.ne_nil_of_mem (mem_vals.mpr hx)
  have h0 := variance_nonneg (vals a)
  have hsh : ∀ c, vals (shift c a) = (vals a).map (· + c) := by
    intro c
    clear ha h h0
    unfold shift
    induction a with
    | nil => rfl
    | cons v t ih =>
      cases v
      · simpa using ih
      · have : (pinf + fin c : Fl K) = pinf := rfl
        simp [ih, this]
      · have : (ninf + fin c : Fl K) = ninf := rfl
        simp [ih, this]
      · simp [ih]
  refine ⟨_, HasSqrt.sqrt (Spec.variance (vals a)), ?_, rfl, h0, variance_eq_zero ha, ?_, ?_,
    LawfulSqrt.sqrt_nonneg _ h0, LawfulSqrt.sqrt_mul_self _ h0⟩
  · simp [calcStatistic, calcVariance_eq a ha]
  · intro c
    have hne : vals (shift c a) ≠ [] := by rw [hsh]; simpa using ha
    simp [calcStatistic, calcVariance_eq _ hne, hsh, variance_shift ha]
  · simp [calcStatistic, calcVariance_eq a ha, h0]

example : ∃ x ∈ ([nan, fin 2, fin 5] : List (Fl ℝ)), x.isValid = true := ⟨fin 2, by simp, rfl⟩

/-- **C04** (levels outside [0,1]). `calc_quantile` throws exactly for a level below 0 or above 1 (infinities
included), for every array. -/
theorem c04_throws_iff (a : List (Fl K)) (q : Fl K) :
    (calcQuantile a q = .throw .invalidArgument ↔ (q.lt 0 = true ∨ q.gt 1 = true)) ∧
    ((∃ v, calcQuantile a q = ok v) ↔ ¬ (q.lt 0 = true ∨ q.gt 1 = true)) := by
  by_cases hq : q.lt 0 = true ∨ q.gt 1 = true
  · rw [calcQuantile_invalid_level a q hq]
    exact ⟨⟨fun _ => hq, fun _ => rfl⟩, ⟨fun ⟨v, hv⟩ => (by cases hv), fun h => absurd hq h⟩⟩
  · have : ∃ v, calcQuantile a q = ok v := by
      cases q with
      | nan => exact ⟨_, calcQuantile_nan a⟩
      | pinf => exact absurd (Or.inr rfl) hq
      | ninf => exact absurd (Or.inl rfl) hq
      | fin q =>
        simp only [Fl.zero_def, Fl.one_def, lt_fin, gt_fin, decide_eq_true_eq, not_or, not_lt] at hq
        by_cases ha : vals a = []
        · exact ⟨_, calcQuantile_none a ha hq.1 hq.2⟩
        · obtain ⟨v, hv, -⟩ := calcQuantile_polyline a ha hq.1 hq.2
          exact ⟨_, hv⟩
    obtain ⟨v, hv⟩ := this
    rw [hv]
    exact ⟨⟨fun h => (by cases h), fun h => absurd h hq⟩, ⟨fun _ => hq, fun _ => ⟨v, rfl⟩⟩⟩

/-- **C04** (missing). A NaN level, or an array without valid values, gives missing. -/
theorem c04_missing (a : List (Fl K)) :
    calcQuantile a nan = ok nan ∧
    ((∀ x ∈ a, x.isValid = false) → ∀ q, 0 ≤ q → q ≤ 1 → calcQuantile a (fin q) = ok nan) := by
  refine ⟨calcQuantile_nan a, fun h q h0 h1 => calcQuantile_none a ?_ h0 h1⟩
  by_contra hc
  obtain ⟨q, hq⟩ := List.exists_mem_of_ne_nil _ hc
  have := h _ (mem_vals.mp hq)
  simp at this

/-- **C04** (value). For an array with `N ≥ 1` valid values and a level in [0,1], the result is a number on the
polyline through the order statistics at position `q(N-1)`: the k-th smallest value at `q = k/(N-1)`, linear in
between. -/
theorem c04_value (a : List (Fl K)) (h : ∃ x ∈ a, x.isValid = true) (q : K) (h0 : 0 ≤ q) (h1 : q ≤ 1) :
    ∃ v, calcQuantile a (fin q) = ok (fin v) ∧ OnPolyline (sorted (vals a)) (q * ((vals a).length - 1)) v ∧
      (∀ m, MinOf m (vals a) → m ≤ v ∧ (q = 0 → v = m)) ∧ (∀ m, MaxOf m (vals a) → v ≤ m ∧ (q = 1 → v = m)) ∧
      (∀ (k : Nat) (hk : k < (sorted (vals a)).length), q * ((vals a).length - 1) = k → v = (sorted (vals a))[k]) := by
  have ha : vals a ≠ [] := by
    obtain ⟨x, hx, hv⟩ := h
    obtain ⟨q, rfl⟩ := exists_fin_of_valid hv
    exact List.ne_nil_of_mem (mem_vals.mpr hx)
  have hp : 0 < (vals a).length := List.length_pos_iff.mpr ha
  have hN : (1 : K) ≤ (vals a).length := by exact_mod_cast hp
  obtain ⟨v, hv, hvp⟩ := calcQuantile_polyline a ha h0 h1
  obtain ⟨m0, hm0, hmin⟩ := calcQuantile_zero a ha
  obtain ⟨m1, hm1, hmax⟩ := calcQuantile_one a ha
  obtain ⟨m0', hm0', h0'⟩ := calcQuantile_polyline a ha (le_refl 0) zero_le_one
  obtain ⟨m1', hm1', h1'⟩ := calcQuantile_polyline a ha zero_le_one (le_refl 1)
  rw [hm0] at hm0'; cases hm0'
  rw [hm1] at hm1'; cases hm1'
  refine ⟨v, hv, hvp, ?_, ?_, ?_⟩
  · intro m hm
    obtain rfl := MinOf.unique (.refl _) hm hmin
    refine ⟨polyline_mono (pairwise_sorted _) (by nlinarith) h0' hvp, ?_⟩
    rintro rfl
    exact polyline_unique (pairwise_sorted _) hvp h0'
  · intro m hm
    obtain rfl := MaxOf.unique (.refl _) hm hmax
    refine ⟨polyline_mono (pairwise_sorted _) (by nlinarith) hvp h1', ?_⟩
    rintro rfl
    exact polyline_unique (pairwise_sorted _) hvp h1'
  · intro k hk hq
    exact polyline_unique (pairwise_sorted _) hvp (Or.inl ⟨k, hk, hq, rfl⟩)

/-- **C04** (monotone in the level). -/
theorem c04_mono (a : List (Fl K)) (q q' : K) (h0 : 0 ≤ q) (hq : q ≤ q') (h1 : q' ≤ 1) (v v' : K)
    (hv : calcQuantile a (fin q) = ok (fin v)) (hv' : calcQuantile a (fin q') = ok (fin v')) : v ≤ v' := by
  by_cases ha : vals a = []
  · rw [calcQuantile_none a ha h0 (hq.trans h1)] at hv; cases hv
  · have hp : 0 < (vals a).length := List.length_pos_iff.mpr ha
    have hN : (1 : K) ≤ (vals a).length := by exact_mod_cast hp
    obtain ⟨w, hw, hwp⟩ := calcQuantile_polyline a ha h0 (hq.trans h1)
    obtain ⟨w', hw', hwp'⟩ := calcQuantile_polyline a ha (h0.trans hq) h1
    rw [hv] at hw; cases hw
    rw [hv'] at hw'; cases hw'
    exact polyline_mono (pairwise_sorted _) (by nlinarith) hwp hwp'

example : calcQuantile ([fin 3, nan, fin 1, fin 2] : List (Fl ℚ)) (fin (1/4)) = ok (fin (3/2)) ∧
    calcQuantile ([fin 3, nan, fin 1, fin 2] : List (Fl ℚ)) (fin (3/4)) = ok (fin (5/2)) := by
  constructor <;> decide +kernel

/-- **C71** (random choice). Whatever `rand()` returns, the result is one of the valid values, and every valid value is the
result for some `rand()`; missing without a valid value. -/
theorem c71_random_choice [HasSqrt K] (a : List (Fl K)) :
    (∀ rnd : Rnd K, (∃ x ∈ a, x.isValid = true) → ∃ v ∈ a, v.isValid = true ∧ calcStatistic rnd a .randomChoice = ok v) ∧
    (∀ v ∈ a, v.isValid = true → ∃ rnd : Rnd K, calcStatistic rnd a .randomChoice = ok v) ∧
    (∀ rnd : Rnd K, (∀ x ∈ a, x.isValid = false) → calcStatistic rnd a .randomChoice = ok nan) := by
  have hle : (a.filter isValid).length ≤ a.length := List.length_filter_le _ _
  have key : ∀ r, (h : 0 < (a.filter isValid).length) →
      randomChoice r a = ok ((a.filter isValid)[r % (a.filter isValid).length]'(Nat.mod_lt _ h)) := by
    intro r h
    have hlt := Nat.mod_lt r h
    unfold randomChoice
    simp only [if_pos h]
    rw [decide_eq_true (lt_of_lt_of_le hlt hle), assert_true, ok_bind]
    exact vget_eq_ok_of_lt hlt
  refine ⟨fun rnd ⟨x, hx, hv⟩ => ?_, fun v hv hvv => ?_, fun rnd h => ?_⟩
  · have hp : 0 < (a.filter isValid).length := List.length_pos_of_mem (List.mem_filter.mpr ⟨hx, hv⟩)
    have hm := List.mem_filter.mp (List.getElem_mem (Nat.mod_lt (rnd a) hp))
    exact ⟨_, hm.1, hm.2, key (rnd a) hp⟩
  · obtain ⟨i, hi, he⟩ := List.getElem_of_mem (List.mem_filter.mpr ⟨hv, hvv⟩)
    refine ⟨fun _ => i, ?_⟩
    simp only [calcStatistic]
    rw [key i (by omega)]
    congr 1
    simp only [Nat.mod_eq_of_lt hi, he]
  · simp only [calcStatistic, randomChoice]
    have : a.filter isValid = [] := List.filter_eq_nil_iff.mpr fun x hx => by simp [h x hx]
    simp [this, MV]

/-- **C71** (errors): Quantile and Unknown are refused, for every array. -/
theorem c71_refused [HasSqrt K] (rnd : Rnd K) (a : List (Fl K)) :
    calcStatistic rnd a .quantile = .throw .runtimeError ∧ calcStatistic rnd a .unknown = .throw .runtimeError := ⟨rfl, rfl⟩

example : calcStatistic (fun _ => 4) ([fin 3, nan, fin 1, fin 2] : List (Fl ℚ)) .randomChoice = ok (fin 1) := by decide +kernel

end Gridpp.Props
