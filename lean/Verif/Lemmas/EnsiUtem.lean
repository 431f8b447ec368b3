import Verif.Lemmas.EnsiStandard
import Verif.Lemmas.EnsiMulti

/-! The variant `utem` of `optimal_interpolation_ensi_multi` on data that are numbers. -/

set_option linter.unusedSectionVars false

namespace Gridpp
open Fl Res Matrix

section
variable {K : Type} [Field K] [LinearOrder K] [IsStrictOrderedRing K] [LawfulSqrt K]

theorem map_eq_ofFn {α : Type} (members : List Nat) (f : Nat → α) : members.map f = List.ofFn fun k => f (members.get k) := by
  apply List.ext_getElem <;> simp

theorem sum_standard {S : Finset Nat} (h : S.Nonempty) (x : Nat → K) : ∑ e ∈ S, standardOf S x e = 0 := by
  unfold standardOf
  split_ifs with hs
  · have e : ∀ e ∈ S, 1 / HasSqrt.sqrt ((S.card : K) - 1) * (x e - Spec.ensMean S x) / Spec.ensSpread S x =
        1 / HasSqrt.sqrt ((S.card : K) - 1) / Spec.ensSpread S x * (x e - Spec.ensMean S x) := fun e _ => by ring
    rw [Finset.sum_congr rfl e, ← Finset.mul_sum, sum_dev _ h, mul_zero]
  · simp

theorem sumTo_map (members : List Nat) (hnd : members.Nodup) (x : Nat → K) :
    (sumTo (members.map fun e => fin (x e)).length fun k => (members.map fun e => fin (x e)).getD k nan) / Fl.ofNat (members.map fun e => fin (x e)).length =
      fin (∑ e ∈ members.toFinset, x e) / fin (members.length : K) := by
  rw [List.length_map, sumTo_fin (g := fun k => x (members.get k)) (fun k => by simp [List.getD]), sum_members members hnd, ofNat_def]

theorem mean_map (members : List Nat) (hnd : members.Nodup) (hn : 0 < members.length) (x : Nat → K) :
    (sumTo (members.map fun e => fin (x e)).length fun k => (members.map fun e => fin (x e)).getD k nan) / Fl.ofNat (members.map fun e => fin (x e)).length =
      fin (Spec.ensMean members.toFinset x) := by
  rw [sumTo_map members hnd, fin_div_of_ne _ (by exact_mod_cast hn.ne')]
  unfold Spec.ensMean
  rw [List.toFinset_card_of_nodup hnd]

theorem utemX_map (members : List Nat) (hnd : members.Nodup) (h0 : members ≠ []) (x : Nat → K) :
    utemX (members.map fun e => fin (x e)) = members.map fun e => fin (standardOf members.toFinset x e) := by
  have hst := standardize_map members hnd h0 x
  unfold standardize at hst
  unfold utemX
  simp only [mean_map members hnd (List.length_pos_iff.mpr h0)]
  simp only [meanStat_map members hnd h0, stdStat_map members hnd h0, isValid_fin, Bool.true_and, minStd, gt_fin] at hst ⊢
  by_cases h : 13 / 10000 < Spec.ensSpread members.toFinset x
  · rw [if_pos (by simpa using h)] at hst
    rw [← hst]
    simp [le_fin, not_le.mpr h]
  · rw [if_neg (by simpa using h)] at hst
    rw [← hst]
    simp [le_fin, not_lt.mp h]

/-- The new values of the members in `utem`. -/
theorem utemUpdate_gen (row rowc : List (Fl K)) (members : List Nat) (hnd : members.Nodup) (hn : 0 < members.length) (b bc : Nat → K)
    (hrow : ∀ e ∈ members, row[e]? = some (fin (b e))) (hrowc : ∀ e ∈ members, rowc[e]? = some (fin (bc e))) (rows : List (EnsiObs K))
    (W : Matrix (Fin members.length) (Fin members.length) K) (w : Fin members.length → K) (br : K) (X : Fin members.length → K)
    (hX : ∀ k, X k = standardOf members.toFinset bc (members.get k)) (extrap : Bool) :
    ∃ out, utemUpdate row rowc members rows (fin br) extrap (some (toRows W, List.ofFn fun e => fin (w e))) = ok out ∧
      out.length = row.length ∧ (∀ i, i ∉ members → out[i]? = row[i]?) ∧
      ∀ k : Fin members.length, out[members.get k]? = some (fin (Spec.ensMean members.toFinset b) +
        (if extrap then fin (Spec.ensSpread members.toFinset b * (X ᵥ* W) k + br * (X ⬝ᵥ w))
          else ensiLimit rows k (fin (b (members.get k) - Spec.ensMean members.toFinset b))
            (fin (Spec.ensSpread members.toFinset b * (X ᵥ* W) k + br * (X ⬝ᵥ w))))) := by
  have h0 : members ≠ [] := List.length_pos_iff.mp hn
  have hm : ∀ e ∈ members, e < row.length := fun e he => (List.getElem?_eq_some_iff.mp (hrow e he)).1
  have hv : mapM (fun ei : Nat => vget row (ei : Int)) members = ok (members.map fun e => fin (b e)) := mapM_ok fun e he => vget_some (hrow e he)
  have hvc : mapM (fun ei : Nat => vget rowc (ei : Int)) members = ok (members.map fun e => fin (bc e)) :=
    mapM_ok fun e he => vget_some (hrowc e he)
  have hXl : (members.map fun e => fin (standardOf members.toFinset bc e)) = List.ofFn fun k => fin (X k) := by
    rw [map_eq_ofFn]
    simp only [hX]
  have hbl : (members.map fun e => fin (b e)).map (fun v => v - fin (Spec.ensMean members.toFinset b)) =
      List.ofFn fun k : Fin members.length => fin (b (members.get k) - Spec.ensMean members.toFinset b) := by
    rw [List.map_map, map_eq_ofFn]
    simp only [Function.comp, fin_sub]
  have hvals : (List.range members.length).map (utemMember rows extrap (fin (Spec.ensMean members.toFinset b))
      (List.ofFn fun k : Fin members.length => fin (b (members.get k) - Spec.ensMean members.toFinset b)) (List.ofFn fun k => fin (X k))
      fun k e => fin (Spec.ensSpread members.toFinset b) * ent (toRows W) k e + fin br * (List.ofFn fun e => fin (w e)).getD k nan) =
      List.ofFn fun k : Fin members.length => fin (Spec.ensMean members.toFinset b) +
        (if extrap then fin (Spec.ensSpread members.toFinset b * (X ᵥ* W) k + br * (X ⬝ᵥ w))
          else ensiLimit rows k (fin (b (members.get k) - Spec.ensMean members.toFinset b))
            (fin (Spec.ensSpread members.toFinset b * (X ᵥ* W) k + br * (X ⬝ᵥ w)))) := by
    apply List.ext_getElem
    · simp
    · intro k h1 h2
      have hk : k < members.length := by simpa using h1
      simp only [List.getElem_map, List.getElem_range, List.getElem_ofFn, utemMember]
      have e : (List.ofFn fun k => fin (X k)).length = members.length := by simp
      have e2 : (sumTo members.length fun j => (List.ofFn fun k => fin (X k)).getD j nan *
          (fin (Spec.ensSpread members.toFinset b) * ent (toRows W) j k + fin br * (List.ofFn fun e => fin (w e)).getD j nan)) =
          fin (Spec.ensSpread members.toFinset b * (X ᵥ* W) ⟨k, hk⟩ + br * (X ⬝ᵥ w)) := by
        rw [sumTo_fin (g := fun j => X j * (Spec.ensSpread members.toFinset b * W j ⟨k, hk⟩ + br * w j)) (fun j => by
          have := ent_toRows W j ⟨k, hk⟩
          simp only at this
          rw [getD_ofFn, getD_ofFn, this, fin_mul, fin_mul, fin_add, fin_mul])]
        simp only [vecMul, dotProduct, Finset.mul_sum, ← Finset.sum_add_distrib]
        congr 1
        exact Finset.sum_congr rfl fun j _ => by ring
      have e3 : (List.ofFn fun k : Fin members.length => fin (b (members.get k) - Spec.ensMean members.toFinset b)).getD k nan =
          fin (b (members.get ⟨k, hk⟩) - Spec.ensMean members.toFinset b) :=
        getD_ofFn (fun k : Fin members.length => fin (b (members.get k) - Spec.ensMean members.toFinset b)) ⟨k, hk⟩
      rw [e, e2, e3]
  obtain ⟨out, h1, h2, h3, h4⟩ := writeMembers_eq row members (List.ofFn fun k : Fin members.length => fin (Spec.ensMean members.toFinset b) +
        (if extrap then fin (Spec.ensSpread members.toFinset b * (X ᵥ* W) k + br * (X ⬝ᵥ w))
          else ensiLimit rows k (fin (b (members.get k) - Spec.ensMean members.toFinset b))
            (fin (Spec.ensSpread members.toFinset b * (X ᵥ* W) k + br * (X ⬝ᵥ w))))) hm
  refine ⟨out, ?_, h2, h3, fun k => h4 hnd k _ _ (by simp) (by simp)⟩
  simp only [utemUpdate, hv, hvc, ok_bind, mean_map members hnd hn, stdStat_map members hnd h0, hbl, utemX_map members hnd h0, hXl, hvals, h1]

/-- The analysis of `utem`, with extrapolation, as an update in units of the standard deviation. -/
theorem corrUpdate_of_etkf (members : List Nat) (hnd : members.Nodup) (hn : 2 ≤ members.length) (x xc : Nat → K) {m : Nat} (pc : Fin m → Nat → K)
    (q r d : Fin m → K) (hr : ∀ i, 0 < r i) (hq : ∀ i, q i = (r i)⁻¹) (br : K) (Z : Matrix (Fin m) (Fin members.length) K)
    (hZ : ∀ i k, Z i k = standardOf members.toFinset (pc i) (members.get k)) (X : Fin members.length → K)
    (hX : ∀ k, X k = standardOf members.toFinset xc (members.get k)) (W : Matrix (Fin members.length) (Fin members.length) K)
    (hW : SymRoot (((members.length : K) - 1) • (pinvMat Z q 1)⁻¹) W) (a : Nat → K)
    (ha : ∀ k, a (members.get k) = Spec.ensMean members.toFinset x + (Spec.ensSpread members.toFinset x * (X ᵥ* W) k +
      br * (X ⬝ᵥ ((pinvMat Z q 1)⁻¹ *ᵥ (Zᵀ *ᵥ (diagonal q *ᵥ d)))))) :
    (13 / 10000 < Spec.ensSpread members.toFinset xc →
      Spec.CorrUpdate members.toFinset x ((members.length : K) / ((members.length : K) - 1))
        (fun i => Spec.ensCorrOr0 members.toFinset (pc i) xc) (fun i j => Spec.ensCorrOr0 members.toFinset (pc i) (pc j)) r d br a) ∧
    (Spec.ensSpread members.toFinset xc ≤ 13 / 10000 → ∀ e ∈ members.toFinset, a e = Spec.ensMean members.toFinset x) := by
  have hcard : members.toFinset.card = members.length := List.toFinset_card_of_nodup hnd
  have hne : members.toFinset.Nonempty := Finset.card_pos.mp (by omega)
  refine ⟨fun hsp => ?_, fun hsp e he => ?_⟩
  · have hnK : (2 : K) ≤ (members.length : K) := by exact_mod_cast hn
    have hn0 : (members.length : K) ≠ 0 := by linarith
    have hf : (0 : K) < (members.length : K) - 1 := by linarith
    have hs2 := LawfulSqrt.sqrt_mul_self _ hf.le
    have hs : 0 < HasSqrt.sqrt ((members.length : K) - 1) := by
      refine lt_of_le_of_ne (LawfulSqrt.sqrt_nonneg _ hf.le) fun c => ?_
      rw [← c, mul_zero] at hs2
      linarith
    have hq0 : ∀ i, 0 < q i := fun i => by rw [hq]; exact inv_pos.mpr (hr i)
    have hqi : (fun i => (q i)⁻¹) = r := by funext i; rw [hq, inv_inv]
    have hZ1 : Z *ᵥ 1 = 0 := by
      funext i
      have : (Z *ᵥ 1) i = ∑ k, standardOf members.toFinset (pc i) (members.get k) := by
        simp only [mulVec, dotProduct, Pi.one_apply, mul_one, hZ]
      rw [this, sum_members members hnd fun e => standardOf members.toFinset (pc i) e, sum_standard hne]
      rfl
    have hX1 : X ⬝ᵥ 1 = 0 := by
      have : X ⬝ᵥ 1 = ∑ k, standardOf members.toFinset xc (members.get k) := by
        simp only [dotProduct, Pi.one_apply, mul_one, hX]
      rw [this, sum_members members hnd fun e => standardOf members.toFinset xc e, sum_standard hne]
    obtain ⟨h1, k, h2, h3, h4, h5⟩ := etkf Z hq0 one_pos hs (by rw [mul_one]; exact hs2) hZ1 hX1 hW d
    rw [hqi, one_smul] at h2
    rw [one_mul] at h4
    have hprod : ∀ u v : Nat → K, ∑ k : Fin members.length, standardOf members.toFinset u (members.get k) *
        standardOf members.toFinset v (members.get k) =
        (members.length : K) / ((members.length : K) - 1) * Spec.ensCorrOr0 members.toFinset u v := fun u v => by
      rw [sum_members members hnd fun e => standardOf members.toFinset u e * standardOf members.toFinset v e, standard_mul, hcard]
    have hZX : ∀ j, (Z *ᵥ X) j = (members.length : K) / ((members.length : K) - 1) * Spec.ensCorrOr0 members.toFinset (pc j) xc := fun j => by
      rw [← hprod]
      simp only [mulVec, dotProduct, hZ, hX]
    have hZZ : ∀ i j, (Z * Zᵀ) i j = (members.length : K) / ((members.length : K) - 1) * Spec.ensCorrOr0 members.toFinset (pc i) (pc j) :=
      fun i j => by
        rw [← hprod]
        simp only [Matrix.mul_apply, transpose_apply, hZ]
    have hXX : X ⬝ᵥ X = (members.length : K) / ((members.length : K) - 1) := by
      have := hprod xc xc
      rw [ensCorrOr0_self hsp, mul_one] at this
      rw [← this]
      simp only [dotProduct, hX]
    have hgain : ∀ k', Spec.CorrGain (fun j => (members.length : K) / ((members.length : K) - 1) * Spec.ensCorrOr0 members.toFinset (pc j) xc)
        (fun i j => (members.length : K) / ((members.length : K) - 1) * Spec.ensCorrOr0 members.toFinset (pc i) (pc j)) r k' ↔
        k' ᵥ* (Z * Zᵀ + diagonal r) = Z *ᵥ X := by
      intro k'
      unfold Spec.CorrGain
      rw [funext_iff]
      refine forall_congr' fun j => ?_
      rw [hZX]
      simp only [vecMul, dotProduct, Matrix.add_apply, hZZ, diagonal_apply]
    have hmean : Spec.ensMean members.toFinset a = Spec.ensMean members.toFinset x + br * (k ⬝ᵥ d) := by
      conv_lhs => unfold Spec.ensMean
      rw [hcard, ← sum_members members hnd]
      simp only [ha, h3]
      rw [Finset.sum_add_distrib, Finset.sum_add_distrib, Finset.sum_const, Finset.sum_const, Finset.card_univ, Fintype.card_fin,
        nsmul_eq_mul, nsmul_eq_mul, ← Finset.mul_sum]
      have : ∑ k, (X ᵥ* W) k = 0 := by rw [← h1]; simp only [dotProduct, Pi.one_apply, mul_one]
      rw [this]
      field_simp
      ring
    have hsq : ∀ z : Nat → K, Spec.ensSpread members.toFinset z ^ 2 =
        (∑ e ∈ members.toFinset, (z e - Spec.ensMean members.toFinset z) * (z e - Spec.ensMean members.toFinset z)) / (members.length : K) := by
      intro z
      unfold Spec.ensSpread
      rw [pow_two, LawfulSqrt.sqrt_mul_self _ (div_nonneg (sum_sq_dev_nonneg _ _) (Nat.cast_nonneg _)), hcard]
    have hkg : k ⬝ᵥ (Z *ᵥ X) = (members.length : K) / ((members.length : K) - 1) * ∑ i, k i * Spec.ensCorrOr0 members.toFinset (pc i) xc := by
      simp only [dotProduct, hZX, Finset.mul_sum]
      exact Finset.sum_congr rfl fun i _ => by ring
    have hvar : Spec.ensSpread members.toFinset a ^ 2 = Spec.ensSpread members.toFinset x ^ 2 *
        (1 - ∑ i, k i * Spec.ensCorrOr0 members.toFinset (pc i) xc) := by
      rw [hsq a, ← sum_members members hnd fun e => (a e - Spec.ensMean members.toFinset a) * (a e - Spec.ensMean members.toFinset a)]
      have e : ∑ j, (a (members.get j) - Spec.ensMean members.toFinset a) * (a (members.get j) - Spec.ensMean members.toFinset a) =
          Spec.ensSpread members.toFinset x ^ 2 * ((X ᵥ* W) ⬝ᵥ (X ᵥ* W)) := by
        rw [dotProduct, Finset.mul_sum]
        refine Finset.sum_congr rfl fun j _ => ?_
        rw [ha, h3, hmean]
        ring
      rw [e, h4, hXX, hkg]
      have := hf.ne'
      field_simp
    have hnn : ∀ z : Nat → K, 0 ≤ Spec.ensSpread members.toFinset z := fun z =>
      LawfulSqrt.sqrt_nonneg _ (div_nonneg (sum_sq_dev_nonneg _ _) (Nat.cast_nonneg _))
    refine ⟨k, fun k' => ?_, hmean, hvar, ?_⟩
    · rw [hgain]
      refine ⟨fun h => ?_, fun h => by rw [h]; exact h2⟩
      have hdet := inner_det Z hr one_pos
      rw [one_smul] at hdet
      have hu : IsUnit (Z * Zᵀ + diagonal r).det := isUnit_iff_ne_zero.mpr hdet
      have := congrArg (· ᵥ* (Z * Zᵀ + diagonal r)⁻¹) (h.trans h2.symm)
      simpa [vecMul_vecMul, Matrix.mul_nonsing_inv _ hu] using this
    · have h6 : 0 ≤ ∑ i, k i * Spec.ensCorrOr0 members.toFinset (pc i) xc := by
        rw [hkg] at h5
        have : 0 < (members.length : K) / ((members.length : K) - 1) := div_pos (by linarith) hf
        exact nonneg_of_mul_nonneg_right h5 this
      refine abs_le_of_sq_le_sq' ?_ (hnn x) |>.2
      rw [hvar]
      have := sq_nonneg (Spec.ensSpread members.toFinset x)
      nlinarith
  · obtain ⟨k, rfl⟩ := List.get_of_mem (List.mem_toFinset.mp he)
    have hX0 : X = 0 := by
      funext k
      rw [hX]
      unfold standardOf
      rw [if_neg (not_lt.mpr hsp)]
      rfl
    rw [ha, hX0]
    simp

end
end Gridpp
