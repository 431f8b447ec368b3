import Verif.Lemmas.EnsiEtkf

/-! The ensemble transform filter with correlated errors of the observations and with inflation. -/

set_option linter.unusedSectionVars false

namespace Gridpp
open Matrix

section
variable {K : Type} [Field K] [LinearOrder K] [IsStrictOrderedRing K]

/-- A symmetric positive definite matrix `Q` with the inverse `R`. -/
structure Precision {m : Nat} (Q R : Matrix (Fin m) (Fin m) K) : Prop where
  symm : Qᵀ = Q
  nonneg : ∀ v, 0 ≤ v ⬝ᵥ (Q *ᵥ v)
  definite : ∀ v, v ⬝ᵥ (Q *ᵥ v) = 0 → v = 0
  inv : Q * R = 1

theorem Precision.diag {m : Nat} {q r : Fin m → K} (hr : ∀ i, 0 < r i) (hq : ∀ i, q i = (r i)⁻¹) : Precision (diagonal q) (diagonal r) := by
  have hq0 : ∀ i, 0 < q i := fun i => by rw [hq]; exact inv_pos.mpr (hr i)
  refine ⟨by simp, diag_form_nonneg fun i => (hq0 i).le, fun v hv => ?_, ?_⟩
  · rw [diag_form] at hv
    funext i
    have := (Finset.sum_eq_zero_iff_of_nonneg fun i _ => mul_nonneg (hq0 i).le (mul_self_nonneg (v i))).mp hv i (Finset.mem_univ i)
    rcases mul_eq_zero.mp this with h | h
    · exact absurd h (hq0 i).ne'
    · exact mul_self_eq_zero.mp h
  · rw [diagonal_mul_diagonal, ← diagonal_one]
    congr 1
    funext i
    rw [hq]
    exact inv_mul_cancel₀ (hr i).ne'

theorem Precision.form {m : Nat} {Q R : Matrix (Fin m) (Fin m) K} (h : Precision Q R) (v : Fin m → K) :
    v ⬝ᵥ (R *ᵥ v) = (R *ᵥ v) ⬝ᵥ (Q *ᵥ (R *ᵥ v)) := by
  rw [mulVec_mulVec, h.inv, one_mulVec, dotProduct_comm]

/-- `Yᵀ Q Y + δ I`. -/
def pinvG {m n : Nat} (Y : Matrix (Fin m) (Fin n) K) (Q : Matrix (Fin m) (Fin m) K) (δ : K) : Matrix (Fin n) (Fin n) K := Yᵀ * Q * Y + δ • 1

theorem pinvG_form {m n : Nat} (Y : Matrix (Fin m) (Fin n) K) (Q : Matrix (Fin m) (Fin m) K) (δ : K) (v : Fin n → K) :
    v ⬝ᵥ (pinvG Y Q δ *ᵥ v) = (Y *ᵥ v) ⬝ᵥ (Q *ᵥ (Y *ᵥ v)) + δ * (v ⬝ᵥ v) := by
  unfold pinvG
  rw [add_mulVec, dotProduct_add, smul_mulVec, one_mulVec, dotProduct_smul, smul_eq_mul, ← mulVec_mulVec, ← mulVec_mulVec,
    dotProduct_mulVec, vecMul_transpose]

theorem pinvG_det {m n : Nat} (Y : Matrix (Fin m) (Fin n) K) {Q : Matrix (Fin m) (Fin m) K} (hq : ∀ v, 0 ≤ v ⬝ᵥ (Q *ᵥ v)) {δ : K} (hδ : 0 < δ) :
    (pinvG Y Q δ).det ≠ 0 := by
  refine det_ne_zero_of_form fun v hv => dot_self_eq_zero ?_
  rw [pinvG_form] at hv
  have h1 := hq (Y *ᵥ v)
  have h2 := dot_self_nonneg v
  nlinarith

theorem pinvG_symm {m n : Nat} (Y : Matrix (Fin m) (Fin n) K) {Q : Matrix (Fin m) (Fin m) K} (h : Qᵀ = Q) (δ : K) : (pinvG Y Q δ)ᵀ = pinvG Y Q δ := by
  unfold pinvG
  simp [Matrix.mul_assoc, h]

theorem innerG_det {m n : Nat} (Y : Matrix (Fin m) (Fin n) K) {Q R : Matrix (Fin m) (Fin m) K} (h : Precision Q R) {δ : K} (hδ : 0 < δ) :
    (Y * Yᵀ + δ • R).det ≠ 0 := by
  refine det_ne_zero_of_form fun v hv => ?_
  rw [add_mulVec, dotProduct_add, smul_mulVec, dotProduct_smul, smul_eq_mul, ← mulVec_mulVec, dotProduct_mulVec,
    ← mulVec_transpose, h.form] at hv
  have h1 := dot_self_nonneg (Yᵀ *ᵥ v)
  have h2 := h.nonneg (R *ᵥ v)
  have h3 : (R *ᵥ v) ⬝ᵥ (Q *ᵥ (R *ᵥ v)) = 0 := by nlinarith
  have h4 := h.definite _ h3
  have h5 : Q *ᵥ (R *ᵥ v) = v := by rw [mulVec_mulVec, h.inv, one_mulVec]
  rw [← h5, h4, mulVec_zero]

/-- The increments of the ensemble transform filter. `k` is the Kalman gain of the output point. -/
theorem etkfG {m n : Nat} (Y : Matrix (Fin m) (Fin n) K) {Q R : Matrix (Fin m) (Fin m) K} (hQ : Precision Q R) {δ f s : K} (hδ : 0 < δ) (hs : 0 < s)
    (hf : s * s * δ = f) (hY : Y *ᵥ 1 = 0) {X : Fin n → K} (hX : X ⬝ᵥ 1 = 0) {W : Matrix (Fin n) (Fin n) K}
    (hW : SymRoot (f • (pinvG Y Q δ)⁻¹) W) (d : Fin m → K) :
    (X ᵥ* W) ⬝ᵥ 1 = 0 ∧ ∃ k : Fin m → K, k ᵥ* (Y * Yᵀ + δ • R) = Y *ᵥ X ∧
      X ⬝ᵥ ((pinvG Y Q δ)⁻¹ *ᵥ (Yᵀ *ᵥ (Q *ᵥ d))) = k ⬝ᵥ d ∧
      δ * ((X ᵥ* W) ⬝ᵥ (X ᵥ* W)) = f * (X ⬝ᵥ X - k ⬝ᵥ (Y *ᵥ X)) ∧ 0 ≤ k ⬝ᵥ (Y *ᵥ X) := by
  have hu : IsUnit (pinvG Y Q δ).det := isUnit_iff_ne_zero.mpr (pinvG_det Y hQ.nonneg hδ)
  have hPi := Matrix.nonsing_inv_mul _ hu
  have hPi2 := Matrix.mul_nonsing_inv _ hu
  have hPt : ((pinvG Y Q δ)⁻¹)ᵀ = (pinvG Y Q δ)⁻¹ := by rw [transpose_nonsing_inv, pinvG_symm Y hQ.symm]
  generalize hP : (pinvG Y Q δ)⁻¹ = P at *
  have hk : (X ᵥ* (P * Yᵀ * Q)) ᵥ* (Y * Yᵀ + δ • R) = Y *ᵥ X := by
    rw [vecMul_vecMul]
    have : P * Yᵀ * Q * (Y * Yᵀ + δ • R) = Yᵀ := by
      have e : P * Yᵀ * Q * (Y * Yᵀ + δ • R) = P * (Yᵀ * Q * Y * Yᵀ + δ • (Yᵀ * (Q * R))) := by
        simp only [Matrix.mul_add, Matrix.mul_smul, Matrix.mul_assoc]
      rw [e, hQ.inv, Matrix.mul_one]
      have e2 : Yᵀ * Q * Y * Yᵀ + δ • Yᵀ = pinvG Y Q δ * Yᵀ := by
        unfold pinvG
        rw [Matrix.add_mul, Matrix.smul_mul, Matrix.one_mul]
      rw [e2, ← Matrix.mul_assoc, hPi, Matrix.one_mul]
    rw [this, vecMul_transpose]
  refine ⟨?_, X ᵥ* (P * Yᵀ * Q), hk, ?_, ?_, ?_⟩
  · have h1 : pinvG Y Q δ *ᵥ 1 = δ • 1 := by
      unfold pinvG
      rw [add_mulVec, ← mulVec_mulVec, hY, mulVec_zero, zero_add, smul_mulVec, one_mulVec]
    have h2 : (f • P) *ᵥ 1 = (s * s) • (1 : Fin n → K) := by
      have : P *ᵥ (pinvG Y Q δ *ᵥ 1) = 1 := by rw [mulVec_mulVec, hPi, one_mulVec]
      rw [h1, mulVec_smul] at this
      rw [smul_mulVec, ← hf, ← smul_smul, this]
    rw [← dotProduct_mulVec, root_const hW hs h2, dotProduct_smul, hX, smul_zero]
  · rw [mulVec_mulVec, mulVec_mulVec, dotProduct_mulVec]
  · have e1 : (X ᵥ* W) ⬝ᵥ (X ᵥ* W) = f * (X ⬝ᵥ (P *ᵥ X)) := by
      rw [← mulVec_transpose W X, hW.symm, dotProduct_mulVec, ← mulVec_transpose, hW.symm, mulVec_mulVec, hW.sq, smul_mulVec,
        smul_dotProduct, smul_eq_mul, dotProduct_comm]
    have e2 : δ • P = 1 - P * Yᵀ * Q * Y := by
      have : P * pinvG Y Q δ = P * Yᵀ * Q * Y + δ • P := by
        unfold pinvG
        rw [Matrix.mul_add, Matrix.mul_smul, Matrix.mul_one]
        simp only [Matrix.mul_assoc]
      rw [hPi] at this
      rw [this]; abel
    have e3 : δ * (X ⬝ᵥ (P *ᵥ X)) = X ⬝ᵥ X - (X ᵥ* (P * Yᵀ * Q)) ⬝ᵥ (Y *ᵥ X) := by
      rw [← smul_eq_mul, ← dotProduct_smul, ← smul_mulVec, e2, sub_mulVec, one_mulVec, dotProduct_sub, ← dotProduct_mulVec,
        mulVec_mulVec]
    rw [e1, ← e3]; ring
  · rw [← hk, dotProduct_comm, ← dotProduct_mulVec, add_mulVec, dotProduct_add, smul_mulVec, dotProduct_smul, smul_eq_mul,
      ← mulVec_mulVec, dotProduct_mulVec, ← mulVec_transpose, hQ.form]
    exact add_nonneg (dot_self_nonneg _) (mul_nonneg hδ.le (hQ.nonneg _))

/-- The positive part of `ensiTransform_ok`: eigenvalues of `(n - 1) P` are not negative, and give a symmetric root. -/
theorem eigG [LawfulSqrt K] {A : ArmaE K} (hA : A.Lawful) {m n : Nat} (hn : 0 < n) {Q R : Matrix (Fin m) (Fin m) K} (hQ : Precision Q R)
    (Y : Matrix (Fin m) (Fin n) K) {δ : K} (hδ : 0 < δ) : ∃ (lam : Fin n → K) (V : Matrix (Fin n) (Fin n) K),
      A.eigSym (toRows (((n : K) - 1) • (pinvG Y Q δ)⁻¹)) = some (List.ofFn fun i => Fl.fin (lam i), toRows V) ∧ (∀ i, 0 ≤ lam i) ∧
      SymRoot (((n : K) - 1) • (pinvG Y Q δ)⁻¹) (V * diagonal (fun i => HasSqrt.sqrt (lam i)) * Vᵀ) := by
  have hdet := pinvG_det Y hQ.nonneg hδ
  have hu : IsUnit (pinvG Y Q δ).det := isUnit_iff_ne_zero.mpr hdet
  have hn1 : (0 : K) ≤ (n : K) - 1 := by
    have : (1 : K) ≤ (n : K) := by exact_mod_cast hn
    linarith
  have hsym : (((n : K) - 1) • (pinvG Y Q δ)⁻¹)ᵀ = ((n : K) - 1) • (pinvG Y Q δ)⁻¹ := by
    rw [transpose_smul, transpose_nonsing_inv, pinvG_symm Y hQ.symm]
  obtain ⟨lam, V, h1, h2, h3⟩ := hA.eigSym_ok n _ hn hsym
  have hpos : ∀ v, 0 ≤ v ⬝ᵥ ((((n : K) - 1) • (pinvG Y Q δ)⁻¹) *ᵥ v) := by
    intro v
    have hv : v = pinvG Y Q δ *ᵥ ((pinvG Y Q δ)⁻¹ *ᵥ v) := by rw [mulVec_mulVec, Matrix.mul_nonsing_inv _ hu, one_mulVec]
    rw [smul_mulVec, dotProduct_smul, smul_eq_mul]
    refine mul_nonneg hn1 ?_
    rw [dotProduct_comm]
    nth_rw 2 [hv]
    rw [pinvG_form]
    exact add_nonneg (hQ.nonneg _) (mul_nonneg hδ.le (dot_self_nonneg _))
  have hl := eigen_nonneg h2 h3 hpos
  exact ⟨lam, V, h1, hl, symRoot_of_eigen h2 h3 (fun i => LawfulSqrt.sqrt_nonneg _ (hl i)) (fun i => LawfulSqrt.sqrt_mul_self _ (hl i))⟩

/-- The weights of the members add up to 0. -/
theorem weightsG_sum {m n : Nat} (Y : Matrix (Fin m) (Fin n) K) {Q R : Matrix (Fin m) (Fin m) K} (hQ : Precision Q R) {δ : K} (hδ : 0 < δ)
    (hY : Y *ᵥ 1 = 0) (v : Fin m → K) : (1 : Fin n → K) ⬝ᵥ ((pinvG Y Q δ)⁻¹ *ᵥ (Yᵀ *ᵥ v)) = 0 := by
  have hu : IsUnit (pinvG Y Q δ).det := isUnit_iff_ne_zero.mpr (pinvG_det Y hQ.nonneg hδ)
  have hPt : ((pinvG Y Q δ)⁻¹)ᵀ = (pinvG Y Q δ)⁻¹ := by rw [transpose_nonsing_inv, pinvG_symm Y hQ.symm]
  have h1 : pinvG Y Q δ *ᵥ 1 = δ • 1 := by
    unfold pinvG
    rw [add_mulVec, ← mulVec_mulVec, hY, mulVec_zero, zero_add, smul_mulVec, one_mulVec]
  have h2 : (pinvG Y Q δ)⁻¹ *ᵥ (1 : Fin n → K) = δ⁻¹ • 1 := by
    have : (pinvG Y Q δ)⁻¹ *ᵥ (pinvG Y Q δ *ᵥ 1) = 1 := by rw [mulVec_mulVec, Matrix.nonsing_inv_mul _ hu, one_mulVec]
    rw [h1, mulVec_smul] at this
    rw [← this, smul_smul, inv_mul_cancel₀ hδ.ne', one_smul, this]
  rw [dotProduct_mulVec, ← mulVec_transpose, hPt, h2, smul_dotProduct, dotProduct_mulVec, vecMul_transpose, hY, zero_dotProduct, smul_zero]

/-- The filter gives the Kalman update with inflation `c` and errors with the covariances `R`; the sum of the background values with the
weights is the change of the mean. -/
theorem kalmanG (members : List Nat) (hnd : members.Nodup) (hn : 2 ≤ members.length) (x : Nat → K) {m : Nat} (p : Fin m → Nat → K)
    {Q R : Matrix (Fin m) (Fin m) K} (hQ : Precision Q R) (d : Fin m → K) {c s : K} (hs : 0 < s) (hc : c = s * s) (Y : Matrix (Fin m) (Fin members.length) K)
    (hY : ∀ i k, Y i k = p i (members.get k) - Spec.ensMean members.toFinset (p i)) (X : Fin members.length → K)
    (hX : ∀ k, X k = x (members.get k) - Spec.ensMean members.toFinset x) (W : Matrix (Fin members.length) (Fin members.length) K)
    (hW : SymRoot (((members.length : K) - 1) • (pinvG Y Q (((members.length : K) - 1) / c))⁻¹) W) (a : Nat → K)
    (ha : ∀ k, a (members.get k) = Spec.ensMean members.toFinset x + ((X ᵥ* W) k + X ⬝ᵥ ((pinvG Y Q (((members.length : K) - 1) / c))⁻¹ *ᵥ
      (Yᵀ *ᵥ (Q *ᵥ d))))) :
    Spec.InflatedUpdate members.toFinset x p c R d a ∧
      ∑ k, x (members.get k) * ((pinvG Y Q (((members.length : K) - 1) / c))⁻¹ *ᵥ (Yᵀ *ᵥ (Q *ᵥ d))) k =
        Spec.ensMean members.toFinset a - Spec.ensMean members.toFinset x := by
  have hc0 : 0 < c := by rw [hc]; exact mul_pos hs hs
  have hcard : members.toFinset.card = members.length := List.toFinset_card_of_nodup hnd
  have hne : members.toFinset.Nonempty := Finset.card_pos.mp (by omega)
  have hn0 : (members.length : K) ≠ 0 := by exact_mod_cast (by omega : members.length ≠ 0)
  have hN : (0 : K) < (members.length : K) - 1 := by
    have : (2 : K) ≤ (members.length : K) := by exact_mod_cast hn
    linarith
  have hNe : (members.toFinset.card : K) - 1 = (members.length : K) - 1 := by rw [hcard]
  generalize hδe : ((members.length : K) - 1) = N at *
  have hδ : 0 < N / c := div_pos hN hc0
  have hY1 : Y *ᵥ 1 = 0 := by
    funext i
    have : (Y *ᵥ 1) i = ∑ k, (p i (members.get k) - Spec.ensMean members.toFinset (p i)) := by
      simp only [mulVec, dotProduct, Pi.one_apply, mul_one, hY]
    rw [this, sum_members members hnd fun e => p i e - Spec.ensMean members.toFinset (p i), sum_dev _ hne]
    rfl
  have hX1 : X ⬝ᵥ 1 = 0 := by
    have : X ⬝ᵥ 1 = ∑ k, (x (members.get k) - Spec.ensMean members.toFinset x) := by
      simp only [dotProduct, Pi.one_apply, mul_one, hX]
    rw [this, sum_members members hnd fun e => x e - Spec.ensMean members.toFinset x, sum_dev _ hne]
  obtain ⟨h1, k, h2, h3, h4, h5⟩ := etkfG Y hQ hδ hs (f := N) (by rw [← hc]; field_simp) hY1 hX1 hW d
  have hsum := weightsG_sum Y hQ hδ hY1 (Q *ᵥ d)
  have hcovY : ∀ i j, Spec.ensCov members.toFinset (p i) (p j) = (Y * Yᵀ) i j / N := by
    intro i j
    unfold Spec.ensCov
    rw [hNe, Matrix.mul_apply,
      ← sum_members members hnd fun e => (p i e - Spec.ensMean members.toFinset (p i)) * (p j e - Spec.ensMean members.toFinset (p j))]
    simp only [transpose_apply, hY]
  have hcovX : ∀ j, Spec.ensCov members.toFinset (p j) x = (Y *ᵥ X) j / N := by
    intro j
    unfold Spec.ensCov
    rw [hNe, ← sum_members members hnd fun e => (p j e - Spec.ensMean members.toFinset (p j)) * (x e - Spec.ensMean members.toFinset x)]
    simp only [mulVec, dotProduct, hY, hX]
  have hcovXX : Spec.ensCov members.toFinset x x = (X ⬝ᵥ X) / N := by
    unfold Spec.ensCov
    rw [hNe, ← sum_members members hnd fun e => (x e - Spec.ensMean members.toFinset x) * (x e - Spec.ensMean members.toFinset x)]
    simp only [dotProduct, hX]
  have hmean : Spec.ensMean members.toFinset a = Spec.ensMean members.toFinset x + k ⬝ᵥ d := by
    conv_lhs => unfold Spec.ensMean
    rw [hcard, ← sum_members members hnd]
    simp only [ha, h3]
    rw [Finset.sum_add_distrib, Finset.sum_add_distrib, Finset.sum_const, Finset.sum_const, Finset.card_univ, Fintype.card_fin,
      nsmul_eq_mul, nsmul_eq_mul]
    have : ∑ k, (X ᵥ* W) k = 0 := by rw [← h1]; simp only [dotProduct, Pi.one_apply, mul_one]
    rw [this]
    field_simp
    ring
  have hvar : Spec.ensCov members.toFinset a a = c * (X ⬝ᵥ X - k ⬝ᵥ (Y *ᵥ X)) / N := by
    unfold Spec.ensCov
    rw [hNe, ← sum_members members hnd fun e => (a e - Spec.ensMean members.toFinset a) * (a e - Spec.ensMean members.toFinset a)]
    have e : ∑ j, (a (members.get j) - Spec.ensMean members.toFinset a) * (a (members.get j) - Spec.ensMean members.toFinset a) =
        (X ᵥ* W) ⬝ᵥ (X ᵥ* W) := by
      refine Finset.sum_congr rfl fun j _ => ?_
      rw [ha, h3, hmean]
      ring
    rw [e]
    congr 1
    have h6 : N / c * ((X ᵥ* W) ⬝ᵥ (X ᵥ* W)) = N / c * (c * (X ⬝ᵥ X - k ⬝ᵥ (Y *ᵥ X))) := by
      rw [h4]; field_simp
    exact mul_left_cancel₀ hδ.ne' h6
  have hkx : ∑ i, k i * Spec.ensCov members.toFinset (p i) x = (k ⬝ᵥ (Y *ᵥ X)) / N := by
    simp only [hcovX, dotProduct, div_eq_mul_inv, Finset.sum_mul, mul_assoc]
  have hgain : ∀ k', Spec.InflatedGain members.toFinset x p c R k' ↔ k' ᵥ* (Y * Yᵀ + (N / c) • R) = Y *ᵥ X := by
    intro k'
    unfold Spec.InflatedGain
    rw [funext_iff]
    refine forall_congr' fun j => ?_
    have e : (k' ᵥ* (Y * Yᵀ + (N / c) • R)) j = N / c * ∑ i, k' i * (c * Spec.ensCov members.toFinset (p i) (p j) + R i j) := by
      rw [Finset.mul_sum]
      simp only [vecMul, dotProduct]
      refine Finset.sum_congr rfl fun i _ => ?_
      rw [Matrix.add_apply, Matrix.smul_apply, hcovY, smul_eq_mul]
      have := hN.ne'
      have := hc0.ne'
      field_simp
    rw [e, hcovX]
    have := hN.ne'
    have := hc0.ne'
    constructor
    · intro hh; rw [hh]; field_simp
    · intro hh
      rw [← hh]; field_simp
  refine ⟨⟨k, fun k' => ?_, hmean, ?_, ?_⟩, ?_⟩
  · rw [hgain]
    refine ⟨fun h => ?_, fun h => by rw [h]; exact h2⟩
    have hu : IsUnit (Y * Yᵀ + (N / c) • R).det := isUnit_iff_ne_zero.mpr (innerG_det Y hQ hδ)
    have := congrArg (· ᵥ* (Y * Yᵀ + (N / c) • R)⁻¹) (h.trans h2.symm)
    simpa [vecMul_vecMul, Matrix.mul_nonsing_inv _ hu] using this
  · rw [hvar, hcovXX, hkx, ← sub_div, mul_div_assoc]
  · rw [hvar, hcovXX, mul_div_assoc]
    exact mul_le_mul_of_nonneg_left (div_le_div_of_nonneg_right (by linarith) hN.le) hc0.le
  · rw [hmean, add_sub_cancel_left, ← h3]
    have e : ∀ w : Fin members.length → K, ∑ k, x (members.get k) * w k = X ⬝ᵥ w + Spec.ensMean members.toFinset x * ((1 : Fin members.length → K) ⬝ᵥ w) := by
      intro w
      simp only [dotProduct, Finset.mul_sum, ← Finset.sum_add_distrib, hX, Pi.one_apply]
      exact Finset.sum_congr rfl fun k _ => by ring
    rw [e, hsum, mul_zero, add_zero]

end
end Gridpp
