import Verif.Model.Util
import Verif.Spec.Stats
import Mathlib.Algebra.Order.BigOperators.Group.List
import Mathlib.Algebra.BigOperators.Ring.List
import Mathlib.Tactic.LinearCombination

/-! Lemmas about `calc_statistic` and `calc_quantile`. -/

set_option linter.unusedSectionVars false

namespace Gridpp
open Fl Res Spec

section
variable {K : Type} [Field K] [LinearOrder K] [IsStrictOrderedRing K]

theorem sumCount_aux (a : List (Fl K)) (s : K) (c : Nat) :
    a.foldl (fun (s : Fl K × Nat) v => if v.isValid then (s.1 + v, s.2 + 1) else s) (fin s, c)
      = (fin (s + (vals a).sum), c + (vals a).length) := by
  induction a generalizing s c with
  | nil => simp
  | cons v t ih =>
    cases v <;> simp [ih]
    constructor
    · ring
    · omega

theorem sumCount_eq (a : List (Fl K)) : sumCount a = (fin (vals a).sum, (vals a).length) := by
  have := sumCount_aux a 0 0
  simpa [sumCount] using this

theorem minStep_nan (v : Fl K) : minStep v nan = v := by simp [minStep]

theorem foldl_minStep_fin (a : List (Fl K)) (m : K) :
    ∃ r, a.foldl minStep (fin m) = fin r ∧ MinOf r (m :: vals a) := by
  induction a generalizing m with
  | nil => exact ⟨m, rfl, by simp [MinOf]⟩
  | cons v t ih =>
    cases v with
    | fin q =>
      by_cases hq : q < m
      · obtain ⟨r, h1, h2, h3⟩ := ih q
        refine ⟨r, by simp [minStep, hq, h1], ?_, ?_⟩
        · simp only [vals_fin, List.mem_cons] at h2 ⊢; tauto
        · intro x hx
          simp only [vals_fin, List.mem_cons] at hx
          rcases hx with rfl | rfl | hx
          · exact le_trans (h3 q (by simp)) hq.le
          · exact h3 _ (by simp)
          · exact h3 _ (by simp [hx])
      · obtain ⟨r, h1, h2, h3⟩ := ih m
        refine ⟨r, by simp [minStep, hq, h1], ?_, ?_⟩
        · simp only [vals_fin, List.mem_cons] at h2 ⊢; tauto
        · intro x hx
          simp only [vals_fin, List.mem_cons] at hx
          rcases hx with rfl | rfl | hx
          · exact h3 _ (by simp)
          · exact le_trans (h3 m (by simp)) (not_lt.mp hq)
          · exact h3 _ (by simp [hx])
    | _ => simpa [minStep] using ih m

theorem foldl_minStep (a : List (Fl K)) (h : vals a ≠ []) :
    ∃ r, a.foldl minStep nan = fin r ∧ MinOf r (vals a) := by
  induction a with
  | nil => simp at h
  | cons v t ih =>
    cases v with
    | fin q => simpa [minStep] using foldl_minStep_fin t q
    | _ => simpa [minStep] using ih (by simpa using h)

theorem foldl_minStep_none (a : List (Fl K)) (h : vals a = []) : a.foldl minStep nan = nan := by
  induction a with
  | nil => rfl
  | cons v t ih => cases v <;> simp_all [minStep]

theorem foldl_maxStep_fin (a : List (Fl K)) (m : K) :
    ∃ r, a.foldl maxStep (fin m) = fin r ∧ MaxOf r (m :: vals a) := by
  induction a generalizing m with
  | nil => exact ⟨m, rfl, by simp [MaxOf]⟩
  | cons v t ih =>
    cases v with
    | fin q =>
      by_cases hq : m < q
      · obtain ⟨r, h1, h2, h3⟩ := ih q
        refine ⟨r, by simp [maxStep, hq, h1], ?_, ?_⟩
        · simp only [vals_fin, List.mem_cons] at h2 ⊢; tauto
        · intro x hx
          simp only [vals_fin, List.mem_cons] at hx
          rcases hx with rfl | rfl | hx
          · exact le_trans hq.le (h3 q (by simp))
          · exact h3 _ (by simp)
          · exact h3 _ (by simp [hx])
      · obtain ⟨r, h1, h2, h3⟩ := ih m
        refine ⟨r, by simp [maxStep, hq, h1], ?_, ?_⟩
        · simp only [vals_fin, List.mem_cons] at h2 ⊢; tauto
        · intro x hx
          simp only [vals_fin, List.mem_cons] at hx
          rcases hx with rfl | rfl | hx
          · exact h3 _ (by simp)
          · exact le_trans (not_lt.mp hq) (h3 m (by simp))
          · exact h3 _ (by simp [hx])
    | _ => simpa [maxStep] using ih m

theorem foldl_maxStep (a : List (Fl K)) (h : vals a ≠ []) :
    ∃ r, a.foldl maxStep nan = fin r ∧ MaxOf r (vals a) := by
  induction a with
  | nil => simp at h
  | cons v t ih =>
    cases v with
    | fin q => simpa [maxStep] using foldl_maxStep_fin t q
    | _ => simpa [maxStep] using ih (by simpa using h)

theorem foldl_maxStep_none (a : List (Fl K)) (h : vals a = []) : a.foldl maxStep nan = nan := by
  induction a with
  | nil => rfl
  | cons v t ih => cases v <;> simp_all [maxStep]

theorem MinOf.unique {a b : K} {xs ys : List K} (hp : xs.Perm ys) (ha : MinOf a xs) (hb : MinOf b ys) : a = b :=
  le_antisymm (ha.2 _ (hp.mem_iff.mpr hb.1)) (hb.2 _ (hp.mem_iff.mp ha.1))

theorem MaxOf.unique {a b : K} {xs ys : List K} (hp : xs.Perm ys) (ha : MaxOf a xs) (hb : MaxOf b ys) : a = b :=
  le_antisymm (hb.2 _ (hp.mem_iff.mp ha.1)) (ha.2 _ (hp.mem_iff.mpr hb.1))

/-! ### Variance -/

theorem varStep_fin (a : List (Fl K)) (t t2 k : K) (c : Nat) :
    a.foldl varStep (fin t, fin t2, fin k, c)
      = (fin (t + ((vals a).map (· - k)).sum), fin (t2 + ((vals a).map fun x => (x - k) * (x - k)).sum), fin k,
         c + (vals a).length) := by
  induction a generalizing t t2 c with
  | nil => simp
  | cons v s ih =>
    cases v <;> simp [varStep, ih]
    refine ⟨by ring, by ring, by omega⟩

theorem varStep_nan (a : List (Fl K)) :
    a.foldl varStep (fin 0, fin 0, nan, 0) =
      match vals a with
      | [] => (fin 0, fin 0, nan, 0)
      | k :: t => (fin (((k :: t).map (· - k)).sum), fin (((k :: t).map fun x => (x - k) * (x - k)).sum), fin k,
         (k :: t).length) := by
  induction a with
  | nil => rfl
  | cons v s ih =>
    cases v with
    | fin q => simp [varStep, varStep_fin]; omega
    | _ => simpa [varStep] using ih

theorem sum_map_sub (xs : List K) (k : K) : (xs.map (· - k)).sum = xs.sum - xs.length * k := by
  induction xs with
  | nil => simp
  | cons x t ih => simp [ih]; ring

theorem sum_map_sq (xs : List K) (k : K) :
    (xs.map fun x => (x - k) * (x - k)).sum = (xs.map fun x => x * x).sum - 2 * k * xs.sum + xs.length * (k * k) := by
  induction xs with
  | nil => simp
  | cons x t ih => simp [ih]; ring

theorem variance_eq (xs : List K) :
    Spec.variance xs = ((xs.map fun x => x * x).sum - 2 * mean xs * xs.sum + xs.length * (mean xs * mean xs)) / xs.length := by
  unfold Spec.variance
  rw [← sum_map_sq]
  simp only [pow_two]

theorem length_ne_zero {xs : List K} (h : xs ≠ []) : (xs.length : K) ≠ 0 := by
  simpa using h

theorem length_pos' {xs : List K} (h : xs ≠ []) : (0 : K) < xs.length := by
  have : 0 < xs.length := List.length_pos_iff.mpr h
  exact_mod_cast this

theorem shifted_variance (xs : List K) (k : K) (h : xs ≠ []) :
    (xs.map fun x => (x - k) * (x - k)).sum / xs.length
      - ((xs.map (· - k)).sum / xs.length) * ((xs.map (· - k)).sum / xs.length) = Spec.variance xs := by
  rw [variance_eq, sum_map_sq, sum_map_sub, mean]
  have := length_ne_zero h
  field_simp
  ring

theorem sum_sq_nonneg (xs : List K) (m : K) : 0 ≤ (xs.map fun x => (x - m) ^ 2).sum := by
  apply List.sum_nonneg
  intro x hx
  simp only [List.mem_map] at hx
  obtain ⟨y, _, rfl⟩ := hx
  positivity

theorem variance_nonneg (xs : List K) : 0 ≤ Spec.variance xs :=
  div_nonneg (sum_sq_nonneg _ _) (by positivity)

theorem calcVariance_eq (a : List (Fl K)) (h : vals a ≠ []) : calcVariance a = fin (Spec.variance (vals a)) := by
  unfold calcVariance
  have h0 : ((0, 0, MV, 0) : Fl K × Fl K × Fl K × Nat) = (fin 0, fin 0, nan, 0) := rfl
  rw [h0, varStep_nan]
  obtain ⟨k, t, hk⟩ := List.exists_cons_of_ne_nil h
  rw [hk]
  have hne : (((k :: t).length : Nat) : K) ≠ 0 := length_ne_zero (by simp)
  have hv := shifted_variance (k :: t) k (by simp)
  have h0 := variance_nonneg (k :: t)
  have hp : 0 < (k :: t).length := by simp
  simp only [hp, if_true, ofNat_def, fin_div_of_ne _ hne, fin_mul, fin_sub, hv, zero_def, lt_fin,
    decide_eq_true_eq, not_lt.mpr h0, if_false]

theorem calcVariance_none (a : List (Fl K)) (h : vals a = []) : calcVariance a = nan := by
  unfold calcVariance
  have h0 : ((0, 0, MV, 0) : Fl K × Fl K × Fl K × Nat) = (fin 0, fin 0, nan, 0) := rfl
  rw [h0, varStep_nan, h]
  simp

theorem mean_perm {xs ys : List K} (h : xs.Perm ys) : mean xs = mean ys := by
  simp [mean, h.sum_eq, h.length_eq]

theorem variance_perm {xs ys : List K} (h : xs.Perm ys) : Spec.variance xs = Spec.variance ys := by
  unfold Spec.variance
  rw [mean_perm h, h.length_eq, (h.map _).sum_eq]

theorem variance_eq_zero {xs : List K} (h : xs ≠ []) :
    Spec.variance xs = 0 ↔ ∀ x ∈ xs, ∀ y ∈ xs, x = y := by
  have hl := length_pos' h
  constructor
  · intro hv
    have hs : (xs.map fun x => (x - mean xs) ^ 2).sum = 0 := by
      unfold Spec.variance at hv
      rcases div_eq_zero_iff.mp hv with h1 | h1
      · exact h1
      · exact absurd h1 hl.ne'
    have key : ∀ x ∈ xs, x = mean xs := by
      intro x hx
      have hle : (x - mean xs) ^ 2 ≤ (xs.map fun x => (x - mean xs) ^ 2).sum := by
        apply List.single_le_sum
        · intro z hz
          simp only [List.mem_map] at hz
          obtain ⟨y, _, rfl⟩ := hz
          positivity
        · exact List.mem_map_of_mem hx
      rw [hs] at hle
      have : (x - mean xs) ^ 2 = 0 := le_antisymm hle (by positivity)
      have := pow_eq_zero_iff (two_ne_zero) |>.mp this
      linarith
    intro x hx y hy
    rw [key x hx, key y hy]
  · intro hxy
    obtain ⟨x0, hx0⟩ := List.exists_mem_of_ne_nil xs h
    have hrep : xs = List.replicate xs.length x0 := by
      rw [List.eq_replicate_iff]
      exact ⟨rfl, fun y hy => hxy y hy x0 hx0⟩
    have hm : mean xs = x0 := by
      unfold mean
      rw [hrep]
      simp only [List.sum_replicate, List.length_replicate, nsmul_eq_mul]
      field_simp
    unfold Spec.variance
    have : (xs.map fun x => (x - mean xs) ^ 2).sum = 0 := by
      apply List.sum_eq_zero
      intro z hz
      simp only [List.mem_map] at hz
      obtain ⟨y, hy, rfl⟩ := hz
      rw [hm, hxy y hy x0 hx0]; simp
    rw [this]; simp

theorem mean_shift {xs : List K} (h : xs ≠ []) (c : K) : mean (xs.map (· + c)) = mean xs + c := by
  have := length_ne_zero h
  have hs : (xs.map (· + c)).sum = xs.sum + xs.length * c := by
    clear this h
    induction xs with
    | nil => simp
    | cons x t ih => simp [ih]; ring
  unfold mean
  rw [hs, List.length_map]
  field_simp

theorem variance_shift {xs : List K} (h : xs ≠ []) (c : K) : Spec.variance (xs.map (· + c)) = Spec.variance xs := by
  unfold Spec.variance
  rw [mean_shift h, List.map_map, List.length_map]
  congr 3
  funext x
  simp

theorem mean_mem_Icc {xs : List K} (h : xs ≠ []) {lo hi : K} (hlo : ∀ x ∈ xs, lo ≤ x) (hhi : ∀ x ∈ xs, x ≤ hi) :
    lo ≤ mean xs ∧ mean xs ≤ hi := by
  have hl := length_pos' h
  have h1 : xs.length * lo ≤ xs.sum := by
    clear h hhi hl
    induction xs with
    | nil => simp
    | cons x t ih =>
      have h1 := hlo x (by simp)
      have h2 := ih (fun y hy => hlo y (by simp [hy]))
      simp only [List.sum_cons, List.length_cons]; push_cast; linarith
  have h2 : xs.sum ≤ xs.length * hi := by
    clear h hlo hl h1
    induction xs with
    | nil => simp
    | cons x t ih =>
      have h1 := hhi x (by simp)
      have h2 := ih (fun y hy => hhi y (by simp [hy]))
      simp only [List.sum_cons, List.length_cons]; push_cast; linarith
  unfold mean
  rw [le_div_iff₀ hl, div_le_iff₀ hl]
  constructor <;> linarith

end
end Gridpp
