import Verif.Model.Client.Bilinear
import Verif.Lemmas.Bilinear
import Verif.Lemmas.Client.Stencil

/-! # Lemmas about the bilinear downscaler of the client -/

set_option linter.unusedSectionVars false

namespace Gridpp.Client
open Fl hiding MV isValid
open Res Props

variable {K : Type} [Field K] [LinearOrder K] [IsStrictOrderedRing K]

theorem snapC_fin {v : K} (h0 : -(20 / 100) ≤ v) (h1 : v ≤ 117 / 100) : snapC (fin v) = fin (max 0 (min 1 v)) := by
  unfold snapC
  simp only [Fl.zero_def, Fl.one_def, ge_fin, le_fin]
  by_cases ha : 1 ≤ v
  · simp only [ha, h1, decide_true, Bool.and_self, if_true, le_fin, ge_fin]
    have : ¬ ((1 : K) ≤ 0) := by norm_num
    simp [this, min_eq_left ha]
  · have ha' : v < 1 := lt_of_not_ge ha
    simp only [ha, decide_false, Bool.false_and, Bool.false_eq_true, if_false, le_fin, ge_fin, h0, decide_true, Bool.and_true]
    rw [min_eq_right ha'.le]
    by_cases hb : v ≤ 0
    · simp [hb]
    · have hb' : 0 < v := lt_of_not_ge hb
      simp [hb, max_eq_right hb'.le]

/-- Beyond the tolerance nothing is adjusted. -/
theorem snapC_beyond {v : K} (h : v < -(20 / 100) ∨ 117 / 100 < v) : snapC (fin v) = fin v ∧ ¬ (0 ≤ v ∧ v ≤ 1) := by
  unfold snapC
  simp only [Fl.zero_def, Fl.one_def, ge_fin, le_fin]
  rcases h with h | h
  · have h1 : ¬ 1 ≤ v := by intro hc; linarith
    have h2 : ¬ -(20 / 100) ≤ v := by intro hc; linarith
    simp only [h1, decide_false, Bool.false_and, Bool.false_eq_true, if_false, le_fin, ge_fin, h2, Bool.and_false, true_and]
    intro hc; linarith [hc.1]
  · have h1 : ¬ v ≤ 117 / 100 := by intro hc; linarith
    have h2 : ¬ v ≤ 0 := by intro hc; linarith
    simp only [h1, decide_false, Bool.and_false, Bool.false_eq_true, if_false, le_fin, ge_fin, h2, Bool.false_and, true_and]
    intro hc; linarith [hc.2]

section coefs
variable {A B C D m : Pt K} {α β : K} (hm : AtCoords A B C D α β m)
include hm

theorem alphaC_at [LawfulSqrt K] (hA : crossV B C A D ≠ 0) : alphaC (coefs (fin m.lon) (fin m.lat) (quadOf A B C D)) =
    fin (if 0 ≤ orient A B C D α β then α else α + orient A B C D α β / crossV B C A D) := by
  unfold alphaC
  rw [alphaLin_at hm, root_at hm, alphaDiv_fin]
  have h2 : (2 * crossV B C A D) ≠ 0 := mul_ne_zero two_ne_zero hA
  simp only [fin_add, fin_neg, fin_div_of_ne _ h2]
  congr 1
  split_ifs with hJ
  · rw [abs_of_nonneg hJ]; field_simp; ring
  · rw [abs_of_neg (lt_of_not_ge hJ)]; field_simp; ring

theorem betaC_at [LawfulSqrt K] (hB : crossV D C A B ≠ 0) : betaC (coefs (fin m.lon) (fin m.lat) (quadOf A B C D)) =
    fin (if 0 ≤ orient A B C D α β then β else β - orient A B C D α β / crossV D C A B) := by
  unfold betaC
  rw [betaLin_at hm, root_at hm, betaDiv_fin]
  have h2 : (2 * crossV D C A B) ≠ 0 := mul_ne_zero two_ne_zero hB
  simp only [fin_add, fin_div_of_ne _ h2]
  congr 1
  split_ifs with hJ
  · rw [abs_of_nonneg hJ]; field_simp; ring
  · rw [abs_of_neg (lt_of_not_ge hJ)]; field_simp; ring

/-- The general method finds the cell coordinates in a positively oriented cell, also of points outside the cell. -/
theorem calcGeneralC_pos [LawfulSqrt K] (hJ : 0 < orient A B C D α β) (hnp : crossV B C A D ≠ 0 ∨ crossV D C A B ≠ 0) :
    calcGeneralC (fin m.lon) (fin m.lat) (quadOf A B C D) = ok (fin α, fin (1 - β)) := by
  have hg : ∀ v : K, ((fin (2 * v) : Fl K).feq 0 = true) ↔ v = 0 := by
    intro v; rw [Fl.zero_def, feq_fin]; simp
  have hn : ∀ v : K, ((fin (2 * v) : Fl K).fne 0 = true) ↔ v ≠ 0 := by
    intro v; rw [Fl.zero_def, fne_fin]; simp
  unfold calcGeneralC
  simp only [alphaDiv_fin, betaDiv_fin, Bool.and_eq_true, hg, hn]
  by_cases hB : crossV D C A B = 0
  · have hA : crossV B C A D ≠ 0 := by rcases hnp with h | h; exacts [h, absurd hB h]
    have ha := alphaC_at hm hA
    rw [if_pos hJ.le] at ha
    rw [if_neg (by simp [hB]), if_pos hB, ha, diagnoseT_at hm hJ.ne', ok_bind]
    simp only [Fl.one_def, fin_sub]
    congr 3; ring
  · have hb := betaC_at hm hB
    rw [if_pos hJ.le] at hb
    by_cases hA : crossV B C A D = 0
    · rw [if_neg (by simp [hA]), if_neg hB, if_pos hA, hb, Fl.one_def, fin_sub, diagnoseS_at hm hJ.ne', ok_bind]
    · have ha := alphaC_at hm hA
      rw [if_pos hJ.le] at ha
      rw [if_pos ⟨hA, hB⟩, ha, hb, Fl.one_def, fin_sub]

/-- In a negatively oriented cell without parallel sides it finds the other intersection. -/
theorem calcGeneralC_neg [LawfulSqrt K] (hJ : orient A B C D α β < 0) (hA : crossV B C A D ≠ 0) (hB : crossV D C A B ≠ 0) :
    calcGeneralC (fin m.lon) (fin m.lat) (quadOf A B C D) =
      ok (fin (α + orient A B C D α β / crossV B C A D), fin (1 - (β - orient A B C D α β / crossV D C A B))) := by
  have hn : ∀ v : K, ((fin (2 * v) : Fl K).fne 0 = true) ↔ v ≠ 0 := by
    intro v; rw [Fl.zero_def, fne_fin]; simp
  unfold calcGeneralC
  simp only [alphaDiv_fin, betaDiv_fin, Bool.and_eq_true, hn]
  have ha := alphaC_at hm hA
  have hb := betaC_at hm hB
  rw [if_neg (not_le.mpr hJ)] at ha hb
  rw [if_pos ⟨hA, hB⟩, ha, hb, Fl.one_def, fin_sub]

theorem calcParallelogramC_at (h1 : C.lon = B.lon + D.lon - A.lon) (h2 : C.lat = B.lat + D.lat - A.lat) (hJ : orient A B C D 0 0 ≠ 0)
    [HasSqrt K] : calcST (fin m.lon) (fin m.lat) (quadOf A B C D) = ok (fin α, fin (1 - β)) := by
  have hn : parallelC (quadOf A B C D) = true := by
    simp only [parallelC, quadOf, fin_sub, fin_mul, Fl.abs, le_fin, h1, h2, Bool.and_eq_true, decide_eq_true_eq]
    constructor
    · rw [show (A.lon - B.lon) * (D.lat - (B.lat + D.lat - A.lat)) - (D.lon - (B.lon + D.lon - A.lon)) * (A.lat - B.lat) = 0 by ring]
      simp
    · rw [show (B.lon + D.lon - A.lon - B.lon) * (D.lat - A.lat) - (D.lon - A.lon) * (B.lat + D.lat - A.lat - B.lat) = 0 by ring]
      simp
  have h := calcParallelogram_at hm h1 h2 hJ
  unfold bilinearST at h
  have hn' : nearParallelogram (quadOf A B C D) = true := by
    simp only [nearParallelogram, quadOf, fin_sub, fin_mul, Fl.abs, le_fin, h1, h2, Bool.and_eq_true, decide_eq_true_eq]
    constructor
    · rw [show (A.lon - B.lon) * (D.lat - (B.lat + D.lat - A.lat)) - (D.lon - (B.lon + D.lon - A.lon)) * (A.lat - B.lat) = 0 by ring]
      simp
    · rw [show (B.lon + D.lon - A.lon - B.lon) * (D.lat - A.lat) - (D.lon - A.lon) * (B.lat + D.lat - A.lat - B.lat) = 0 by ring]
      simp
  rw [if_pos hn'] at h
  unfold calcST
  rw [if_pos hn]
  exact h

end coefs

/-- The cell passes as a parallelogram (tolerance 1e-6 on two cross products). -/
def PassesParallel (A B C D : Pt K) : Prop := |crossV B A C D| ≤ 1 / 1000000 ∧ |crossV B C A D| ≤ 1 / 1000000

theorem parallelC_iff (A B C D : Pt K) : parallelC (quadOf A B C D) = true ↔ PassesParallel A B C D := by
  simp only [parallelC, quadOf, fin_sub, fin_mul, Fl.abs, le_fin, Bool.and_eq_true, decide_eq_true_eq, PassesParallel, crossV]
  rw [show (A.lon - B.lon) * (D.lat - C.lat) - (D.lon - C.lon) * (A.lat - B.lat) =
      (A.lon - B.lon) * (D.lat - C.lat) - (A.lat - B.lat) * (D.lon - C.lon) by ring,
    show (C.lon - B.lon) * (D.lat - A.lat) - (D.lon - A.lon) * (C.lat - B.lat) =
      (C.lon - B.lon) * (D.lat - A.lat) - (C.lat - B.lat) * (D.lon - A.lon) by ring]

theorem PassesParallel.not {A B C D : Pt K} (h : ¬ PassesParallel A B C D) : crossV B C A D ≠ 0 ∨ crossV D C A B ≠ 0 := by
  by_contra hc
  push Not at hc
  apply h
  constructor
  · rw [show crossV B A C D = -crossV D C A B by simp only [crossV]; ring, hc.2]; simp
  · rw [hc.1]; simp

end Gridpp.Client
