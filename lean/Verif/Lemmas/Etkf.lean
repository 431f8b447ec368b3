import Mathlib.LinearAlgebra.Matrix.NonsingularInverse
import Mathlib.LinearAlgebra.Matrix.Symmetric
import Mathlib.LinearAlgebra.Matrix.DotProduct
import Mathlib.LinearAlgebra.Matrix.ToLinearEquiv
import Mathlib.Tactic.Linarith
import Mathlib.Tactic.FieldSimp

/-! Linear algebra of the ensemble transform filter, over an ordered field. -/

set_option linter.unusedSectionVars false

namespace Gridpp
open Matrix

section
variable {K : Type} [Field K] [LinearOrder K] [IsStrictOrderedRing K]

theorem dot_self_nonneg {n : Nat} (v : Fin n → K) : 0 ≤ v ⬝ᵥ v := Finset.sum_nonneg fun i _ => mul_self_nonneg (v i)

theorem dot_self_eq_zero {n : Nat} {v : Fin n → K} (h : v ⬝ᵥ v = 0) : v = 0 := by
  funext i
  have := (Finset.sum_eq_zero_iff_of_nonneg fun i _ => mul_self_nonneg (v i)).mp h i (Finset.mem_univ i)
  exact mul_self_eq_zero.mp this

theorem diag_form {m : Nat} (r v : Fin m → K) : v ⬝ᵥ (diagonal r *ᵥ v) = ∑ i, r i * (v i * v i) := by
  simp only [dotProduct, mulVec_diagonal]
  exact Finset.sum_congr rfl fun i _ => by ring

theorem diag_form_nonneg {m : Nat} {r : Fin m → K} (hr : ∀ i, 0 ≤ r i) (v : Fin m → K) : 0 ≤ v ⬝ᵥ (diagonal r *ᵥ v) := by
  rw [diag_form]
  exact Finset.sum_nonneg fun i _ => mul_nonneg (hr i) (mul_self_nonneg _)

/-- A matrix with a positive quadratic form is invertible. -/
theorem det_ne_zero_of_form {n : Nat} {M : Matrix (Fin n) (Fin n) K} (h : ∀ v, v ⬝ᵥ (M *ᵥ v) = 0 → v = 0) : M.det ≠ 0 := by
  intro hd
  obtain ⟨v, hv, h0⟩ := Matrix.exists_mulVec_eq_zero_iff.mpr hd
  exact hv (h v (by rw [h0, dotProduct_zero]))

/-- `Yᵀ diag(q) Y + δ I`. -/
def pinvMat {m n : Nat} (Y : Matrix (Fin m) (Fin n) K) (q : Fin m → K) (δ : K) : Matrix (Fin n) (Fin n) K := Yᵀ * diagonal q * Y + δ • 1

theorem pinv_form {m n : Nat} (Y : Matrix (Fin m) (Fin n) K) (q : Fin m → K) (δ : K) (v : Fin n → K) :
    v ⬝ᵥ (pinvMat Y q δ *ᵥ v) = (Y *ᵥ v) ⬝ᵥ (diagonal q *ᵥ (Y *ᵥ v)) + δ * (v ⬝ᵥ v) := by
  unfold pinvMat
  rw [add_mulVec, dotProduct_add, smul_mulVec, one_mulVec, dotProduct_smul, smul_eq_mul, ← mulVec_mulVec, ← mulVec_mulVec,
    dotProduct_mulVec, vecMul_transpose]

theorem pinv_det {m n : Nat} (Y : Matrix (Fin m) (Fin n) K) {q : Fin m → K} (hq : ∀ i, 0 ≤ q i) {δ : K} (hδ : 0 < δ) :
    (pinvMat Y q δ).det ≠ 0 := by
  refine det_ne_zero_of_form fun v hv => dot_self_eq_zero ?_
  rw [pinv_form] at hv
  have h1 := diag_form_nonneg hq (Y *ᵥ v)
  have h2 := dot_self_nonneg v
  nlinarith

theorem pinv_symm {m n : Nat} (Y : Matrix (Fin m) (Fin n) K) (q : Fin m → K) (δ : K) : (pinvMat Y q δ)ᵀ = pinvMat Y q δ := by
  unfold pinvMat
  simp [Matrix.mul_assoc]

theorem inner_det {m n : Nat} (Y : Matrix (Fin m) (Fin n) K) {r : Fin m → K} (hr : ∀ i, 0 < r i) {δ : K} (hδ : 0 < δ) :
    (Y * Yᵀ + δ • diagonal r).det ≠ 0 := by
  refine det_ne_zero_of_form fun v hv => ?_
  rw [add_mulVec, dotProduct_add, smul_mulVec, dotProduct_smul, smul_eq_mul, ← mulVec_mulVec, dotProduct_mulVec,
    ← mulVec_transpose, diag_form] at hv
  have h1 := dot_self_nonneg (Yᵀ *ᵥ v)
  have h2 : 0 ≤ ∑ i, r i * (v i * v i) := Finset.sum_nonneg fun i _ => mul_nonneg (hr i).le (mul_self_nonneg _)
  have h3 : ∑ i, r i * (v i * v i) = 0 := by nlinarith
  funext i
  have := (Finset.sum_eq_zero_iff_of_nonneg fun i _ => mul_nonneg (hr i).le (mul_self_nonneg (v i))).mp h3 i (Finset.mem_univ i)
  rcases mul_eq_zero.mp this with h | h
  · exact absurd h (hr i).ne'
  · exact mul_self_eq_zero.mp h

/-- The symmetric square root made from eigenvalues and orthonormal eigenvectors. -/
structure SymRoot {n : Nat} (M W : Matrix (Fin n) (Fin n) K) : Prop where
  symm : Wᵀ = W
  sq : W * W = M
  nonneg : ∀ v, 0 ≤ v ⬝ᵥ (W *ᵥ v)

theorem symRoot_of_eigen {n : Nat} {M V : Matrix (Fin n) (Fin n) K} {lam s : Fin n → K} (hV : Vᵀ * V = 1) (hM : M = V * diagonal lam * Vᵀ)
    (hs : ∀ i, 0 ≤ s i) (hss : ∀ i, s i * s i = lam i) : SymRoot M (V * diagonal s * Vᵀ) := by
  refine ⟨by simp [Matrix.mul_assoc], ?_, fun v => ?_⟩
  · have : V * diagonal s * Vᵀ * (V * diagonal s * Vᵀ) = V * diagonal s * (Vᵀ * V) * (diagonal s * Vᵀ) := by
      simp only [Matrix.mul_assoc]
    rw [this, hV, Matrix.mul_one, hM, ← Matrix.mul_assoc, Matrix.mul_assoc V, diagonal_mul_diagonal]
    simp only [hss]
  · rw [← mulVec_mulVec, ← mulVec_mulVec, dotProduct_mulVec, ← mulVec_transpose]
    exact diag_form_nonneg hs _

theorem eigen_nonneg {n : Nat} {M V : Matrix (Fin n) (Fin n) K} {lam : Fin n → K} (hV : Vᵀ * V = 1) (hM : M = V * diagonal lam * Vᵀ)
    (hp : ∀ v, 0 ≤ v ⬝ᵥ (M *ᵥ v)) (j : Fin n) : 0 ≤ lam j := by
  have e : Vᵀ *ᵥ (V *ᵥ Pi.single j 1) = Pi.single j 1 := by rw [mulVec_mulVec, hV, one_mulVec]
  have h := hp (V *ᵥ Pi.single j 1)
  rw [hM, ← mulVec_mulVec, ← mulVec_mulVec, e, dotProduct_mulVec, ← mulVec_transpose, e, diag_form] at h
  rwa [Finset.sum_eq_single j (fun i _ hi => by simp [hi]) (by simp), Pi.single_eq_same, mul_one, mul_one] at h

theorem root_const {n : Nat} {M W : Matrix (Fin n) (Fin n) K} (h : SymRoot M W) {s : K} (hs : 0 < s) {u : Fin n → K}
    (hu : M *ᵥ u = (s * s) • u) : W *ᵥ u = s • u := by
  have e : W *ᵥ (W *ᵥ u - s • u) + s • (W *ᵥ u - s • u) = 0 := by
    rw [mulVec_sub, mulVec_mulVec, h.sq, hu, mulVec_smul, smul_sub, smul_smul]
    abel
  have h1 := h.nonneg (W *ᵥ u - s • u)
  have h2 := dot_self_nonneg (W *ᵥ u - s • u)
  have h3 : (W *ᵥ u - s • u) ⬝ᵥ (W *ᵥ (W *ᵥ u - s • u)) + s * ((W *ᵥ u - s • u) ⬝ᵥ (W *ᵥ u - s • u)) = 0 := by
    rw [← smul_eq_mul, ← dotProduct_smul, ← dotProduct_add, e, dotProduct_zero]
  exact sub_eq_zero.mp (dot_self_eq_zero (by nlinarith))

/-- The increments of the ensemble transform filter. `k` is the Kalman gain of the output point. -/
theorem etkf {m n : Nat} (Y : Matrix (Fin m) (Fin n) K) {q : Fin m → K} (hq : ∀ i, 0 < q i) {δ f s : K} (hδ : 0 < δ) (hs : 0 < s)
    (hf : s * s * δ = f) (hY : Y *ᵥ 1 = 0) {X : Fin n → K} (hX : X ⬝ᵥ 1 = 0) {W : Matrix (Fin n) (Fin n) K}
    (hW : SymRoot (f • (pinvMat Y q δ)⁻¹) W) (d : Fin m → K) :
    (X ᵥ* W) ⬝ᵥ 1 = 0 ∧ ∃ k : Fin m → K, k ᵥ* (Y * Yᵀ + δ • diagonal fun i => (q i)⁻¹) = Y *ᵥ X ∧
      X ⬝ᵥ ((pinvMat Y q δ)⁻¹ *ᵥ (Yᵀ *ᵥ (diagonal q *ᵥ d))) = k ⬝ᵥ d ∧
      δ * ((X ᵥ* W) ⬝ᵥ (X ᵥ* W)) = f * (X ⬝ᵥ X - k ⬝ᵥ (Y *ᵥ X)) ∧ 0 ≤ k ⬝ᵥ (Y *ᵥ X) := by
  have hu : IsUnit (pinvMat Y q δ).det := isUnit_iff_ne_zero.mpr (pinv_det Y (fun i => (hq i).le) hδ)
  have hPi := Matrix.nonsing_inv_mul _ hu
  have hPi2 := Matrix.mul_nonsing_inv _ hu
  have hPt : ((pinvMat Y q δ)⁻¹)ᵀ = (pinvMat Y q δ)⁻¹ := by rw [transpose_nonsing_inv, pinv_symm]
  generalize hP : (pinvMat Y q δ)⁻¹ = P at *
  have hqq : diagonal q * diagonal (fun i => (q i)⁻¹) = 1 := by
    rw [diagonal_mul_diagonal, ← diagonal_one]
    congr 1
    funext i
    exact mul_inv_cancel₀ (hq i).ne'
  have hk : (X ᵥ* (P * Yᵀ * diagonal q)) ᵥ* (Y * Yᵀ + δ • diagonal fun i => (q i)⁻¹) = Y *ᵥ X := by
    rw [vecMul_vecMul]
    have : P * Yᵀ * diagonal q * (Y * Yᵀ + δ • diagonal fun i => (q i)⁻¹) = Yᵀ := by
      have e : P * Yᵀ * diagonal q * (Y * Yᵀ + δ • diagonal fun i => (q i)⁻¹) =
          P * (Yᵀ * diagonal q * Y * Yᵀ + δ • (Yᵀ * (diagonal q * diagonal fun i => (q i)⁻¹))) := by
        simp only [Matrix.mul_add, Matrix.mul_smul, Matrix.mul_assoc]
      rw [e, hqq, Matrix.mul_one]
      have e2 : Yᵀ * diagonal q * Y * Yᵀ + δ • Yᵀ = pinvMat Y q δ * Yᵀ := by
        unfold pinvMat
        rw [Matrix.add_mul, Matrix.smul_mul, Matrix.one_mul]
      rw [e2, ← Matrix.mul_assoc, hPi, Matrix.one_mul]
    rw [this, vecMul_transpose]
  refine ⟨?_, X ᵥ* (P * Yᵀ * diagonal q), hk, ?_, ?_, ?_⟩
  · have h1 : pinvMat Y q δ *ᵥ 1 = δ • 1 := by
      unfold pinvMat
      rw [add_mulVec, ← mulVec_mulVec, hY, mulVec_zero, zero_add, smul_mulVec, one_mulVec]
    have h2 : (f • P) *ᵥ 1 = (s * s) • (1 : Fin n → K) := by
      have : P *ᵥ (pinvMat Y q δ *ᵥ 1) = 1 := by rw [mulVec_mulVec, hPi, one_mulVec]
      rw [h1, mulVec_smul] at this
      rw [smul_mulVec, ← hf, ← smul_smul, this]
    rw [← dotProduct_mulVec, root_const hW hs h2, dotProduct_smul, hX, smul_zero]
  · rw [mulVec_mulVec, mulVec_mulVec, dotProduct_mulVec]
  · have e1 : (X ᵥ* W) ⬝ᵥ (X ᵥ* W) = f * (X ⬝ᵥ (P *ᵥ X)) := by
      rw [← mulVec_transpose W X, hW.symm, dotProduct_mulVec, ← mulVec_transpose, hW.symm, mulVec_mulVec, hW.sq, smul_mulVec,
        smul_dotProduct, smul_eq_mul, dotProduct_comm]
    have e2 : δ • P = 1 - P * Yᵀ * diagonal q * Y := by
      have : P * pinvMat Y q δ = P * Yᵀ * diagonal q * Y + δ • P := by
        unfold pinvMat
        rw [Matrix.mul_add, Matrix.mul_smul, Matrix.mul_one]
        simp only [Matrix.mul_assoc]
      rw [hPi] at this
      rw [this]; abel
    have e3 : δ * (X ⬝ᵥ (P *ᵥ X)) = X ⬝ᵥ X - (X ᵥ* (P * Yᵀ * diagonal q)) ⬝ᵥ (Y *ᵥ X) := by
      rw [← smul_eq_mul, ← dotProduct_smul, ← smul_mulVec, e2, sub_mulVec, one_mulVec, dotProduct_sub, ← dotProduct_mulVec,
        mulVec_mulVec]
    rw [e1, ← e3]; ring
  · rw [← hk, dotProduct_comm, ← dotProduct_mulVec, add_mulVec, dotProduct_add, smul_mulVec, dotProduct_smul, smul_eq_mul,
      ← mulVec_mulVec, dotProduct_mulVec, ← mulVec_transpose]
    exact add_nonneg (dot_self_nonneg _) (mul_nonneg hδ.le (diag_form_nonneg (fun i => (inv_pos.mpr (hq i)).le) _))

end
end Gridpp
