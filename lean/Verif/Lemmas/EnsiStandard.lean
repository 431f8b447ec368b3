import Verif.Lemmas.EnsiEtkf
import Verif.Lemmas.Stats

/-! Standardized members in the variants `ebe` and `utem` of `optimal_interpolation_ensi_multi`. -/

set_option linter.unusedSectionVars false

namespace Gridpp
open Fl Res

section
variable {K : Type} [Field K] [LinearOrder K] [IsStrictOrderedRing K] [LawfulSqrt K]

theorem sqrt_unique {a b : K} (ha : 0 ≤ a) (hb : 0 ≤ b) (h : b * b = a) : HasSqrt.sqrt a = b := by
  have h1 := LawfulSqrt.sqrt_mul_self a ha
  have h2 := LawfulSqrt.sqrt_nonneg a ha
  rcases mul_self_eq_mul_self_iff.mp (h1.trans h.symm) with h3 | h3
  · exact h3
  · linarith

theorem sqrt_at_zero : HasSqrt.sqrt (0 : K) = 0 := sqrt_unique le_rfl le_rfl (mul_zero 0)

/-- The standardized value of member `e`. -/
def standardOf (S : Finset Nat) (x : Nat → K) (e : Nat) : K :=
  if 13 / 10000 < Spec.ensSpread S x then
    1 / HasSqrt.sqrt ((S.card : K) - 1) * (x e - Spec.ensMean S x) / Spec.ensSpread S x
  else 0

theorem sum_sq_dev_nonneg (S : Finset Nat) (x : Nat → K) : 0 ≤ ∑ e ∈ S, (x e - Spec.ensMean S x) * (x e - Spec.ensMean S x) :=
  Finset.sum_nonneg fun _ _ => mul_self_nonneg _

theorem meanStat_map (members : List Nat) (hnd : members.Nodup) (h0 : members ≠ []) (x : Nat → K) :
    meanStat (members.map fun e => fin (x e)) = fin (Spec.ensMean members.toFinset x) := by
  have hv : vals (members.map fun e => fin (x e)) = members.map x := by
    rw [← vals_map_fin (members.map x), List.map_map]; rfl
  have hl : 0 < members.length := List.length_pos_iff.mpr h0
  have hc : ((members.length : Nat) : K) ≠ 0 := by exact_mod_cast hl.ne'
  unfold meanStat
  simp only [sumCount_eq, hv, List.length_map, hl, if_true, ofNat_def]
  rw [fin_div_of_ne _ hc]
  unfold Spec.ensMean
  rw [List.toFinset_card_of_nodup hnd, List.sum_toFinset x hnd]

theorem stdStat_map (members : List Nat) (hnd : members.Nodup) (h0 : members ≠ []) (x : Nat → K) :
    stdStat (members.map fun e => fin (x e)) = fin (Spec.ensSpread members.toFinset x) := by
  have hv : vals (members.map fun e => fin (x e)) = members.map x := by
    rw [← vals_map_fin (members.map x), List.map_map]; rfl
  unfold stdStat
  rw [calcVariance_eq _ (by rw [hv]; simpa using h0), sqrt_fin (variance_nonneg _), hv]
  have hm : Spec.mean (members.map x) = Spec.ensMean members.toFinset x := by
    unfold Spec.mean Spec.ensMean
    rw [List.toFinset_card_of_nodup hnd, List.sum_toFinset x hnd, List.length_map]
  unfold Spec.ensSpread Spec.variance
  rw [hm, List.map_map, List.toFinset_card_of_nodup hnd, List.sum_toFinset _ hnd, List.length_map]
  congr 5
  funext e
  simp only [Function.comp_apply]
  rw [pow_two]

theorem card_of_spread {S : Finset Nat} {x : Nat → K} (h : 0 < Spec.ensSpread S x) : 2 ≤ S.card := by
  by_contra hc
  have : S.card ≤ 1 := by omega
  have hz : ∀ e ∈ S, x e - Spec.ensMean S x = 0 := by
    intro e he
    obtain ⟨a, ha⟩ := Finset.card_le_one_iff_subset_singleton.mp this
    have hS : S = {e} := by
      apply Finset.eq_singleton_iff_unique_mem.mpr ⟨he, fun e' he' => ?_⟩
      rw [Finset.mem_singleton.mp (ha he), Finset.mem_singleton.mp (ha he')]
    rw [hS]
    simp [Spec.ensMean]
  have : Spec.ensSpread S x = 0 := by
    unfold Spec.ensSpread
    rw [Finset.sum_eq_zero (fun e he => by rw [hz e he, mul_zero]), zero_div, sqrt_at_zero]
  rw [this] at h
  exact lt_irrefl _ h

theorem standardize_map (members : List Nat) (hnd : members.Nodup) (h0 : members ≠ []) (x : Nat → K) :
    standardize (members.map fun e => fin (x e)) = members.map fun e => fin (standardOf members.toFinset x e) := by
  unfold standardize
  simp only [meanStat_map members hnd h0, stdStat_map members hnd h0, isValid_fin, Bool.true_and, minStd, gt_fin, List.length_map,
    List.map_map]
  by_cases h : 13 / 10000 < Spec.ensSpread members.toFinset x
  · rw [if_pos (by simpa using h)]
    have hp : (0 : K) < Spec.ensSpread members.toFinset x := lt_trans (by norm_num) h
    have hc := card_of_spread hp
    rw [List.toFinset_card_of_nodup hnd] at hc
    have hc2 : (0 : K) < (members.length : K) - 1 := by
      have : (2 : K) ≤ (members.length : K) := by exact_mod_cast hc
      linarith
    have hs : HasSqrt.sqrt ((members.length : K) - 1) ≠ 0 := fun c => by
      have := LawfulSqrt.sqrt_mul_self _ hc2.le
      rw [c, mul_zero] at this
      linarith
    have he : Fl.ofInt ((members.length : Int) - 1) = fin ((members.length : K) - 1) := by rw [ofInt_def]; push_cast; rfl
    apply List.map_congr_left
    intro e _
    simp only [Function.comp_apply, standardOf, if_pos h, he, sqrt_fin hc2.le, one_def, fin_div_of_ne _ hs, fin_sub, fin_mul,
      fin_div_of_ne _ hp.ne', List.toFinset_card_of_nodup hnd]
  · rw [if_neg (by simpa using h)]
    apply List.map_congr_left
    intro e _
    simp only [Function.comp_apply, standardOf, if_neg h, zero_def]

/-- The product of two rows of standardized values. -/
theorem standard_mul (S : Finset Nat) (x y : Nat → K) :
    ∑ e ∈ S, standardOf S x e * standardOf S y e = (S.card : K) / ((S.card : K) - 1) * Spec.ensCorrOr0 S x y := by
  unfold standardOf Spec.ensCorrOr0
  by_cases hx : 13 / 10000 < Spec.ensSpread S x
  · by_cases hy : 13 / 10000 < Spec.ensSpread S y
    · rw [if_pos ⟨hx, hy⟩]
      simp only [if_pos hx, if_pos hy]
      have hpx : (0 : K) < Spec.ensSpread S x := lt_trans (by norm_num) hx
      have hpy : (0 : K) < Spec.ensSpread S y := lt_trans (by norm_num) hy
      have hc : (2 : K) ≤ (S.card : K) := by exact_mod_cast card_of_spread hpx
      have hc0 : (0 : K) < (S.card : K) := by linarith
      have hc1 : (0 : K) < (S.card : K) - 1 := by linarith
      have hs := LawfulSqrt.sqrt_mul_self _ hc1.le
      have hspread : ∀ z : Nat → K, Spec.ensSpread S z =
          HasSqrt.sqrt (∑ e ∈ S, (z e - Spec.ensMean S z) * (z e - Spec.ensMean S z)) / HasSqrt.sqrt (S.card : K) := by
        intro z
        unfold Spec.ensSpread
        refine sqrt_unique (div_nonneg (sum_sq_dev_nonneg S z) hc0.le)
          (div_nonneg (LawfulSqrt.sqrt_nonneg _ (sum_sq_dev_nonneg S z)) (LawfulSqrt.sqrt_nonneg _ hc0.le)) ?_
        rw [div_mul_div_comm, LawfulSqrt.sqrt_mul_self _ (sum_sq_dev_nonneg S z), LawfulSqrt.sqrt_mul_self _ hc0.le]
      have hn := LawfulSqrt.sqrt_mul_self _ hc0.le
      have hn0 : HasSqrt.sqrt (S.card : K) ≠ 0 := fun c => by rw [c, mul_zero] at hn; linarith
      have hs0 : HasSqrt.sqrt ((S.card : K) - 1) ≠ 0 := fun c => by rw [c, mul_zero] at hs; linarith
      have ex : HasSqrt.sqrt (∑ e ∈ S, (x e - Spec.ensMean S x) * (x e - Spec.ensMean S x)) = Spec.ensSpread S x * HasSqrt.sqrt (S.card : K) := by
        rw [hspread x, div_mul_cancel₀ _ hn0]
      have ey : HasSqrt.sqrt (∑ e ∈ S, (y e - Spec.ensMean S y) * (y e - Spec.ensMean S y)) = Spec.ensSpread S y * HasSqrt.sqrt (S.card : K) := by
        rw [hspread y, div_mul_cancel₀ _ hn0]
      unfold Spec.ensCorr
      rw [ex, ey]
      have hsum : ∑ e ∈ S, (1 / HasSqrt.sqrt ((S.card : K) - 1) * (x e - Spec.ensMean S x) / Spec.ensSpread S x) *
          (1 / HasSqrt.sqrt ((S.card : K) - 1) * (y e - Spec.ensMean S y) / Spec.ensSpread S y) =
          (1 / ((S.card : K) - 1) / (Spec.ensSpread S x * Spec.ensSpread S y)) * ∑ e ∈ S, (x e - Spec.ensMean S x) * (y e - Spec.ensMean S y) := by
        rw [Finset.mul_sum]
        refine Finset.sum_congr rfl fun e _ => ?_
        conv_rhs => rw [← hs]
        field_simp
      rw [hsum]
      generalize (∑ e ∈ S, (x e - Spec.ensMean S x) * (y e - Spec.ensMean S y)) = q
      have : Spec.ensSpread S x * HasSqrt.sqrt (S.card : K) * (Spec.ensSpread S y * HasSqrt.sqrt (S.card : K)) =
          Spec.ensSpread S x * Spec.ensSpread S y * (S.card : K) := by linear_combination (Spec.ensSpread S x * Spec.ensSpread S y) * hn
      rw [this]
      have h1 := hpx.ne'
      have h2 := hpy.ne'
      have h3 := hc0.ne'
      have h4 := hc1.ne'
      field_simp
    · rw [if_neg (fun h => hy h.2), mul_zero]
      simp only [if_neg hy, mul_zero, Finset.sum_const_zero]
  · rw [if_neg (fun h => hx h.1), mul_zero]
    simp only [if_neg hx, zero_mul, Finset.sum_const_zero]

/-- A quantity with enough spread has correlation 1 with itself. -/
theorem ensCorrOr0_self {S : Finset Nat} {x : Nat → K} (h : 13 / 10000 < Spec.ensSpread S x) : Spec.ensCorrOr0 S x x = 1 := by
  unfold Spec.ensCorrOr0 Spec.ensCorr
  rw [if_pos ⟨h, h⟩, LawfulSqrt.sqrt_mul_self _ (sum_sq_dev_nonneg S x)]
  refine div_self fun c => ?_
  have hp : (0 : K) < Spec.ensSpread S x := lt_trans (by norm_num) h
  unfold Spec.ensSpread at hp
  rw [c, zero_div, sqrt_at_zero] at hp
  exact lt_irrefl _ hp

end
end Gridpp
