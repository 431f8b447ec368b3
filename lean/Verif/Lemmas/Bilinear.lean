import Verif.Model.Bilinear
import Verif.Lemmas.Box
import Mathlib.Tactic.LinearCombination
import Mathlib.Tactic.FieldSimp
import Mathlib.Tactic.Linarith
import Mathlib.Tactic.Ring

/-! Algebra of the bilinear interpolation (bilinear.cpp). -/

set_option linter.unusedSectionVars false

namespace Gridpp
open Fl Res
open Props

variable {K : Type} [Field K] [LinearOrder K] [IsStrictOrderedRing K]

theorem sqrt_abs [LawfulSqrt K] (j : K) : HasSqrt.sqrt (j * j) = |j| := by
  have h1 := LawfulSqrt.sqrt_nonneg (j * j) (mul_self_nonneg j)
  have h2 := LawfulSqrt.sqrt_mul_self (j * j) (mul_self_nonneg j)
  have h3 : |j| * |j| = j * j := abs_mul_abs_self j
  exact (mul_self_inj h1 (abs_nonneg j)).mp (by rw [h2, h3])

theorem isWithinRange_fin (v : K) : isWithinRange (fin v) = true ↔ -(1 / 100) ≤ v ∧ v < 1 + 1 / 100 := by
  simp [isWithinRange]

theorem isWithinRange_unit {v : K} (h0 : 0 ≤ v) (h1 : v ≤ 1) : isWithinRange (fin v) = true := by
  rw [isWithinRange_fin]; constructor <;> linarith

theorem assert_true' {b : Bool} (h : b = true) : Res.assert b = ok () := by rw [h]; rfl

theorem snap_unit {v : K} (h0 : 0 ≤ v) (h1 : v ≤ 1) : snap (fin v) = fin v := by
  unfold snap
  simp only [Fl.zero_def, Fl.one_def, ge_fin, le_fin]
  by_cases h : v = 1
  · subst h
    norm_num
  · have : ¬ (1 ≤ v) := fun hc => h (le_antisymm h1 hc)
    simp only [this, decide_false, Bool.false_and, Bool.false_eq_true, if_false, ge_fin, le_fin]
    by_cases h' : v = 0
    · subst h'; norm_num
    · have : ¬ (v ≤ 0) := fun hc => h' (le_antisymm hc h0)
      simp [this]

theorem unitRange_fin {s t : K} : unitRange (fin s) (fin t) = true ↔ 0 ≤ s ∧ s ≤ 1 ∧ 0 ≤ t ∧ t ≤ 1 := by
  simp only [unitRange, Fl.zero_def, Fl.one_def, ge_fin, le_fin, Bool.and_eq_true, decide_eq_true_eq]
  tauto

theorem unitRange_exists {s t : Fl K} (h : unitRange s t = true) :
    ∃ a b : K, s = fin a ∧ t = fin b ∧ 0 ≤ a ∧ a ≤ 1 ∧ 0 ≤ b ∧ b ≤ 1 := by
  cases s with
  | fin a =>
    cases t with
    | fin b => exact ⟨a, b, rfl, rfl, unitRange_fin.mp h⟩
    | nan => simp [unitRange] at h
    | pinf => simp [unitRange, Fl.ge, Fl.le, Fl.lt, Fl.feq] at h
    | ninf => simp [unitRange, Fl.ge, Fl.le, Fl.lt, Fl.feq] at h
  | nan => simp [unitRange] at h
  | pinf => simp [unitRange, Fl.ge, Fl.le, Fl.lt, Fl.feq] at h
  | ninf => simp [unitRange, Fl.ge, Fl.le, Fl.lt, Fl.feq] at h

theorem bilinearSum_fin (s t v0 v1 v2 v3 : K) : bilinearSum (fin s) (fin t) (fin v0) (fin v1) (fin v2) (fin v3) =
    fin (v1 * (1 - s) * (1 - t) + v3 * s * (1 - t) + v0 * (1 - s) * t + v2 * s * t) := by
  simp only [bilinearSum, Fl.one_def, fin_sub, fin_mul, fin_add]

/-- The corners `A` (I1, J1), `B` (I2, J1), `C` (I2, J2), `D` (I1, J2) as arguments of `::bilinear`. -/
def quadOf (A B C D : Pt K) : Quad K :=
  ⟨fin A.lon, fin B.lon, fin D.lon, fin C.lon, fin A.lat, fin B.lat, fin D.lat, fin C.lat⟩

/-- `m` is the point with cell coordinates `α` (from A towards D) and `β` (from A towards B). -/
def AtCoords (A B C D : Pt K) (α β : K) (m : Pt K) : Prop :=
  m.lon = (1 - α) * (1 - β) * A.lon + (1 - α) * β * B.lon + α * (1 - β) * D.lon + α * β * C.lon ∧
  m.lat = (1 - α) * (1 - β) * A.lat + (1 - α) * β * B.lat + α * (1 - β) * D.lat + α * β * C.lat

/-- Orientation of the cell at the coordinates `(α, β)`: the cross product of the directions of increasing `α` and `β`. -/
def orient (A B C D : Pt K) (α β : K) : K :=
  ((D.lon - A.lon) * (1 - β) + (C.lon - B.lon) * β) * ((B.lat - A.lat) * (1 - α) + (C.lat - D.lat) * α) -
  ((D.lat - A.lat) * (1 - β) + (C.lat - B.lat) * β) * ((B.lon - A.lon) * (1 - α) + (C.lon - D.lon) * α)

/-- Cross product of two displacements. -/
def crossV (P Q R S : Pt K) : K := (Q.lon - P.lon) * (S.lat - R.lat) - (Q.lat - P.lat) * (S.lon - R.lon)

/-- `m` lies on the line through the points at fraction `α` of the sides A–D and B–C. -/
def OnAlphaLine (A B C D : Pt K) (α : K) (m : Pt K) : Prop :=
  cross ⟨A.lat + α * (D.lat - A.lat), A.lon + α * (D.lon - A.lon)⟩ ⟨B.lat + α * (C.lat - B.lat), B.lon + α * (C.lon - B.lon)⟩ m = 0

/-- `m` lies on the line through the points at fraction `β` of the sides A–B and D–C. -/
def OnBetaLine (A B C D : Pt K) (β : K) (m : Pt K) : Prop :=
  cross ⟨A.lat + β * (B.lat - A.lat), A.lon + β * (B.lon - A.lon)⟩ ⟨D.lat + β * (C.lat - D.lat), D.lon + β * (C.lon - D.lon)⟩ m = 0

section coefs
variable (A B C D m : Pt K)

theorem coefs_fin : coefs (fin m.lon) (fin m.lat) (quadOf A B C D) =
    ⟨fin (-A.lon + D.lon), fin (-A.lon + B.lon), fin (A.lon - B.lon - D.lon + C.lon), fin (m.lon - A.lon),
     fin (-A.lat + D.lat), fin (-A.lat + B.lat), fin (A.lat - B.lat - D.lat + C.lat), fin (m.lat - A.lat)⟩ := by
  simp only [coefs, quadOf, fin_neg, fin_add, fin_sub]

theorem alphaDiv_fin : (coefs (fin m.lon) (fin m.lat) (quadOf A B C D)).alphaDiv = fin (2 * crossV B C A D) := by
  rw [coefs_fin]
  simp only [Coefs.alphaDiv, fin_mul, fin_sub, crossV]
  congr 1; ring

theorem betaDiv_fin : (coefs (fin m.lon) (fin m.lat) (quadOf A B C D)).betaDiv = fin (2 * crossV D C A B) := by
  rw [coefs_fin]
  simp only [Coefs.betaDiv, fin_mul, fin_sub, crossV]
  congr 1; ring

variable {A B C D m} {α β : K} (hm : AtCoords A B C D α β m)
include hm

theorem alphaLin_at : (coefs (fin m.lon) (fin m.lat) (quadOf A B C D)).alphaLin =
    fin (-(orient A B C D α β) - 2 * crossV B C A D * α) := by
  rw [coefs_fin]
  simp only [Coefs.alphaLin, fin_mul, fin_sub, fin_add, crossV, orient]
  rw [hm.1, hm.2]
  congr 1; ring

theorem betaLin_at : (coefs (fin m.lon) (fin m.lat) (quadOf A B C D)).betaLin =
    fin (-(orient A B C D α β) + 2 * crossV D C A B * β) := by
  rw [coefs_fin]
  simp only [Coefs.betaLin, fin_mul, fin_sub, fin_add, crossV, orient]
  rw [hm.1, hm.2]
  congr 1; ring

theorem root_at [LawfulSqrt K] : (coefs (fin m.lon) (fin m.lat) (quadOf A B C D)).root = fin |orient A B C D α β| := by
  unfold Coefs.root
  rw [alphaLin_at hm, coefs_fin]
  simp only [fin_mul, fin_sub, fin_add]
  rw [show -4 * ((A.lon - B.lon - D.lon + C.lon) * (-A.lat + D.lat) - (-A.lon + D.lon) * (A.lat - B.lat - D.lat + C.lat)) *
        ((m.lon - A.lon) * (-A.lat + B.lat) - (-A.lon + B.lon) * (m.lat - A.lat)) +
        (-(orient A B C D α β) - 2 * crossV B C A D * α) * (-(orient A B C D α β) - 2 * crossV B C A D * α) =
      orient A B C D α β * orient A B C D α β by
    rw [hm.1, hm.2]; simp only [crossV, orient]; ring]
  rw [sqrt_fin (mul_self_nonneg _), sqrt_abs]

/-- The first solution of the quadratic equation for `alpha` when the cell is positively oriented. -/
theorem alpha_pos [LawfulSqrt K] (hα0 : 0 ≤ α) (hα1 : α ≤ 1) (hJ : 0 ≤ orient A B C D α β) (hA : crossV B C A D ≠ 0) :
    (coefs (fin m.lon) (fin m.lat) (quadOf A B C D)).alpha = fin α := by
  unfold Coefs.alpha
  rw [alphaLin_at hm, root_at hm, alphaDiv_fin, abs_of_nonneg hJ]
  have h2 : (2 * crossV B C A D) ≠ 0 := mul_ne_zero two_ne_zero hA
  simp only [fin_add, fin_neg, fin_div_of_ne _ h2]
  rw [show -(-orient A B C D α β - 2 * crossV B C A D * α + orient A B C D α β) / (2 * crossV B C A D) = α by field_simp; ring]
  rw [if_pos (isWithinRange_unit hα0 hα1)]

/-- The first solution of the quadratic equation for `beta` when the cell is positively oriented. -/
theorem beta_pos [LawfulSqrt K] (hJ : 0 ≤ orient A B C D α β) (hB : crossV D C A B ≠ 0) :
    ((coefs (fin m.lon) (fin m.lat) (quadOf A B C D)).betaLin + (coefs (fin m.lon) (fin m.lat) (quadOf A B C D)).root) /
      (coefs (fin m.lon) (fin m.lat) (quadOf A B C D)).betaDiv = fin β := by
  rw [betaLin_at hm, root_at hm, betaDiv_fin, abs_of_nonneg hJ]
  have h2 : (2 * crossV D C A B) ≠ 0 := mul_ne_zero two_ne_zero hB
  simp only [fin_add, fin_div_of_ne _ h2]
  congr 1; field_simp; ring

/-- The other line of constant `alpha` through `m`. -/
theorem other_alpha (hA : crossV B C A D ≠ 0) :
    OnAlphaLine A B C D (α + orient A B C D α β / crossV B C A D) m := by
  unfold OnAlphaLine
  simp only [cross]
  rw [hm.1, hm.2]
  have : ∀ J c : K, c ≠ 0 → ∃ r, J / c = r ∧ r * c = J := fun J c h => ⟨J / c, rfl, div_mul_cancel₀ J h⟩
  obtain ⟨r, hr, hr'⟩ := this (orient A B C D α β) (crossV B C A D) hA
  rw [hr]
  simp only [orient, crossV] at hr'
  linear_combination (-r) * hr'

/-- The other line of constant `beta` through `m`. -/
theorem other_beta (hB : crossV D C A B ≠ 0) :
    OnBetaLine A B C D (β - orient A B C D α β / crossV D C A B) m := by
  unfold OnBetaLine
  simp only [cross]
  rw [hm.1, hm.2]
  have : ∀ J c : K, c ≠ 0 → ∃ r, J / c = r ∧ r * c = J := fun J c h => ⟨J / c, rfl, div_mul_cancel₀ J h⟩
  obtain ⟨r, hr, hr'⟩ := this (orient A B C D α β) (crossV D C A B) hB
  rw [hr]
  simp only [orient, crossV] at hr'
  linear_combination (-r) * hr'

theorem diagnoseT_at (hJ : orient A B C D α β ≠ 0) :
    diagnoseT (fin m.lon) (fin m.lat) (quadOf A B C D) (fin α) = ok (fin (1 - β)) := by
  have e1 : A.lat + (D.lat - A.lat) * α - B.lat - (C.lat - B.lat) * α = -((B.lat - A.lat) * (1 - α) + (C.lat - D.lat) * α) := by ring
  have e2 : A.lon + (D.lon - A.lon) * α - B.lon - (C.lon - B.lon) * α = -((B.lon - A.lon) * (1 - α) + (C.lon - D.lon) * α) := by ring
  simp only [diagnoseT, quadOf, fin_sub, fin_mul, fin_add, Fl.zero_def, e1, e2]
  by_cases h : (B.lat - A.lat) * (1 - α) + (C.lat - D.lat) * α = 0
  · have h' : (B.lon - A.lon) * (1 - α) + (C.lon - D.lon) * α ≠ 0 := by
      intro h'
      apply hJ
      simp only [orient, h, h', mul_zero, sub_zero]
    have h'' := neg_ne_zero.mpr h'
    rw [if_pos (by rw [feq_fin, h]; simp), assert_true' (by rw [fne_fin, decide_eq_false h'']; rfl), ok_bind, fin_div_of_ne _ h'']
    congr 2
    rw [hm.1, div_eq_iff h'']
    ring
  · have h'' := neg_ne_zero.mpr h
    rw [if_neg (by rw [feq_fin, decide_eq_false h'']; simp), fin_div_of_ne _ h'']
    congr 2
    rw [hm.2, div_eq_iff h'']
    ring

theorem diagnoseS_at (hJ : orient A B C D α β ≠ 0) :
    diagnoseS (fin m.lon) (fin m.lat) (quadOf A B C D) (fin (1 - β)) = ok (fin α) := by
  have e1 : C.lat + (D.lat - C.lat) * (1 - β) - B.lat - (A.lat - B.lat) * (1 - β) = (D.lat - A.lat) * (1 - β) + (C.lat - B.lat) * β := by ring
  have e2 : C.lon + (D.lon - C.lon) * (1 - β) - B.lon - (A.lon - B.lon) * (1 - β) = (D.lon - A.lon) * (1 - β) + (C.lon - B.lon) * β := by ring
  simp only [diagnoseS, quadOf, fin_sub, fin_mul, fin_add, Fl.zero_def, e1, e2]
  by_cases h : (D.lat - A.lat) * (1 - β) + (C.lat - B.lat) * β = 0
  · have h' : (D.lon - A.lon) * (1 - β) + (C.lon - B.lon) * β ≠ 0 := by
      intro h'
      apply hJ
      simp only [orient, h, h', zero_mul, sub_zero]
    rw [if_pos (by rw [feq_fin, h]; simp), assert_true' (by rw [fne_fin]; simpa using h'), ok_bind, fin_div_of_ne _ h']
    congr 2
    rw [hm.1, div_eq_iff h']
    ring
  · rw [if_neg (by rw [feq_fin]; simpa using h), fin_div_of_ne _ h]
    congr 2
    rw [hm.2, div_eq_iff h]
    ring

end coefs

theorem generalResult_unit {α β : K} (h0 : 0 ≤ α) (h1 : α ≤ 1) (h2 : 0 ≤ β) (h3 : β ≤ 1) :
    generalResult (fin α) (fin β) = ok (fin α, fin (1 - β)) := by
  unfold generalResult
  rw [assert_true' (isWithinRange_unit h0 h1), assert_true' (isWithinRange_unit h2 h3)]
  simp only [ok_bind, Fl.one_def, fin_sub]

/-- The general method finds the cell coordinates of a point of a positively oriented cell. -/
theorem calcGeneral_pos [LawfulSqrt K] {A B C D m : Pt K} {α β : K} (hm : AtCoords A B C D α β m)
    (h0 : 0 ≤ α) (h1 : α ≤ 1) (h2 : 0 ≤ β) (h3 : β ≤ 1) (hJ : 0 < orient A B C D α β)
    (hnp : crossV B C A D ≠ 0 ∨ crossV D C A B ≠ 0) :
    calcGeneral (fin m.lon) (fin m.lat) (quadOf A B C D) = ok (fin α, fin (1 - β)) := by
  have hres := generalResult_unit h0 h1 h2 h3
  have hg : ∀ v : K, ((fin (2 * v) : Fl K).feq 0 = true) ↔ v = 0 := by
    intro v; rw [Fl.zero_def, feq_fin]; simp
  have hn : ∀ v : K, ((fin (2 * v) : Fl K).fne 0 = true) ↔ v ≠ 0 := by
    intro v; rw [Fl.zero_def, fne_fin]; simp
  unfold calcGeneral
  simp only [alphaDiv_fin, betaDiv_fin, Bool.and_eq_true, hg, hn]
  by_cases hB : crossV D C A B = 0
  · have hA : crossV B C A D ≠ 0 := by rcases hnp with h | h; exacts [h, absurd hB h]
    rw [if_neg (by simp [hB]), if_pos hB, alpha_pos hm h0 h1 hJ.le hA, diagnoseT_at hm hJ.ne', ok_bind]
    rw [show ((1 : Fl K) - fin (1 - β)) = fin β by rw [Fl.one_def, fin_sub]; congr 1; ring]
    exact hres
  · have hb := beta_pos hm hJ.le hB
    by_cases hA : crossV B C A D = 0
    · rw [if_neg (by simp [hA]), if_neg hB, if_pos hA]
      have hbo : (coefs (fin m.lon) (fin m.lat) (quadOf A B C D)).betaOnly = fin β := by
        unfold Coefs.betaOnly; simp only [hb]; simp
      rw [hbo, Fl.one_def, fin_sub, diagnoseS_at hm hJ.ne', ok_bind]
      exact hres
    · rw [if_pos ⟨hA, hB⟩, alpha_pos hm h0 h1 hJ.le hA]
      have hbo : (coefs (fin m.lon) (fin m.lat) (quadOf A B C D)).beta = fin β := by
        unfold Coefs.beta; simp only [hb]; rw [if_pos (isWithinRange_unit h2 h3)]
      rw [hbo]
      exact hres

/-- The general method on a negatively oriented cell whose sides A–D and B–C are not parallel. -/
theorem calcGeneral_neg [LawfulSqrt K] {A B C D m : Pt K} {α β : K} (hm : AtCoords A B C D α β m)
    (h0 : 0 ≤ α) (h1 : α ≤ 1) (h2 : 0 ≤ β) (h3 : β ≤ 1) (hJ : orient A B C D α β < 0)
    (hA : crossV B C A D ≠ 0)
    (ha : ∀ α', OnAlphaLine A B C D α' m → α' ≠ α → ¬ (-(1 / 100) ≤ α' ∧ α' < 1 + 1 / 100))
    (hb : crossV D C A B ≠ 0 → ∀ β', OnBetaLine A B C D β' m → β' ≠ β → ¬ (-(1 / 100) ≤ β' ∧ β' < 1 + 1 / 100)) :
    calcGeneral (fin m.lon) (fin m.lat) (quadOf A B C D) = ok (fin α, fin (1 - β)) := by
  have hres := generalResult_unit h0 h1 h2 h3
  have hg : ∀ v : K, ((fin (2 * v) : Fl K).feq 0 = true) ↔ v = 0 := by
    intro v; rw [Fl.zero_def, feq_fin]; simp
  have hn : ∀ v : K, ((fin (2 * v) : Fl K).fne 0 = true) ↔ v ≠ 0 := by
    intro v; rw [Fl.zero_def, fne_fin]; simp
  have h2A : (2 * crossV B C A D) ≠ 0 := mul_ne_zero two_ne_zero hA
  have hal : (coefs (fin m.lon) (fin m.lat) (quadOf A B C D)).alpha = fin α := by
    unfold Coefs.alpha
    rw [alphaLin_at hm, root_at hm, alphaDiv_fin, abs_of_neg hJ]
    simp only [fin_add, fin_sub, fin_neg, fin_div_of_ne _ h2A]
    rw [show -(-orient A B C D α β - 2 * crossV B C A D * α + -orient A B C D α β) / (2 * crossV B C A D) =
      α + orient A B C D α β / crossV B C A D by field_simp; ring]
    rw [if_neg]
    · congr 1; field_simp; ring
    · rw [isWithinRange_fin]
      apply ha _ (other_alpha hm hA)
      intro h
      rw [add_eq_left, div_eq_zero_iff] at h
      rcases h with h | h
      · exact hJ.ne h
      · exact hA h
  unfold calcGeneral
  simp only [alphaDiv_fin, betaDiv_fin, Bool.and_eq_true, hg, hn]
  by_cases hB : crossV D C A B = 0
  · rw [if_neg (by simp [hB]), if_pos hB, hal, diagnoseT_at hm hJ.ne, ok_bind]
    rw [show ((1 : Fl K) - fin (1 - β)) = fin β by rw [Fl.one_def, fin_sub]; congr 1; ring]
    exact hres
  · have h2B : (2 * crossV D C A B) ≠ 0 := mul_ne_zero two_ne_zero hB
    rw [if_pos ⟨hA, hB⟩, hal]
    have hbe : (coefs (fin m.lon) (fin m.lat) (quadOf A B C D)).beta = fin β := by
      unfold Coefs.beta
      rw [betaLin_at hm, root_at hm, betaDiv_fin, abs_of_neg hJ]
      simp only [fin_add, fin_sub, fin_div_of_ne _ h2B]
      rw [show (-orient A B C D α β + 2 * crossV D C A B * β + -orient A B C D α β) / (2 * crossV D C A B) =
        β - orient A B C D α β / crossV D C A B by field_simp; ring]
      rw [if_neg]
      · congr 1; field_simp; ring
      · rw [isWithinRange_fin]
        apply hb hB _ (other_beta hm hB)
        intro h
        rw [sub_eq_self, div_eq_zero_iff] at h
        rcases h with h | h
        · exact hJ.ne h
        · exact hB h
    rw [hbe]
    exact hres

/-- The general method on a negatively oriented cell whose sides A–D and B–C are parallel: the assertion fails. -/
theorem calcGeneral_abort [LawfulSqrt K] {A B C D m : Pt K} {α β : K} (hm : AtCoords A B C D α β m)
    (hJ : orient A B C D α β < 0) (hA : crossV B C A D = 0) (hB : crossV D C A B ≠ 0)
    (hb : ∀ β', OnBetaLine A B C D β' m → β' ≠ β → ¬ (-(1 / 100) ≤ β' ∧ β' < 1 + 1 / 100)) :
    calcGeneral (fin m.lon) (fin m.lat) (quadOf A B C D) = abort := by
  have hg : ∀ v : K, ((fin (2 * v) : Fl K).feq 0 = true) ↔ v = 0 := by
    intro v; rw [Fl.zero_def, feq_fin]; simp
  have hn : ∀ v : K, ((fin (2 * v) : Fl K).fne 0 = true) ↔ v ≠ 0 := by
    intro v; rw [Fl.zero_def, fne_fin]; simp
  have h2B : (2 * crossV D C A B) ≠ 0 := mul_ne_zero two_ne_zero hB
  have hbe : (coefs (fin m.lon) (fin m.lat) (quadOf A B C D)).betaOnly = fin (β - orient A B C D α β / crossV D C A B) := by
    unfold Coefs.betaOnly
    rw [betaLin_at hm, root_at hm, betaDiv_fin, abs_of_neg hJ]
    simp only [fin_add, fin_div_of_ne _ h2B, ite_self]
    congr 1; field_simp; ring
  have hr : isWithinRange (fin (β - orient A B C D α β / crossV D C A B)) = false := by
    rw [Bool.eq_false_iff, Ne, isWithinRange_fin]
    apply hb _ (other_beta hm hB)
    intro h
    rw [sub_eq_self, div_eq_zero_iff] at h
    rcases h with h | h
    · exact hJ.ne h
    · exact hB h
  unfold calcGeneral
  simp only [alphaDiv_fin, betaDiv_fin, Bool.and_eq_true, hg, hn]
  rw [if_neg (by simp [hA]), if_neg hB, if_pos hA, hbe]
  have hS : ∀ t : Fl K, (∃ s, diagnoseS (fin m.lon) (fin m.lat) (quadOf A B C D) t = ok s) ∨
      diagnoseS (fin m.lon) (fin m.lat) (quadOf A B C D) t = abort := by
    intro t
    unfold diagnoseS
    simp only []
    split
    · cases h : ((quadOf A B C D).x3 + ((quadOf A B C D).x2 - (quadOf A B C D).x3) * t - (quadOf A B C D).x1 -
        ((quadOf A B C D).x0 - (quadOf A B C D).x1) * t).fne 0
      · right; rfl
      · left; exact ⟨_, rfl⟩
    · left; exact ⟨_, rfl⟩
  rcases hS (1 - fin (β - orient A B C D α β / crossV D C A B)) with ⟨s, hs⟩ | hs
  · rw [hs, ok_bind]
    unfold generalResult
    rw [hr]
    cases isWithinRange s <;> rfl
  · rw [hs]; rfl

/-- The parallelogram method on an exact parallelogram. -/
theorem calcParallelogram_at {A B C D m : Pt K} {α β : K} (hm : AtCoords A B C D α β m)
    (h1 : C.lon = B.lon + D.lon - A.lon) (h2 : C.lat = B.lat + D.lat - A.lat) (hJ : orient A B C D 0 0 ≠ 0) [HasSqrt K] :
    bilinearST (fin m.lon) (fin m.lat) (quadOf A B C D) = ok (fin α, fin (1 - β)) := by
  have hn : nearParallelogram (quadOf A B C D) = true := by
    simp only [nearParallelogram, quadOf, fin_sub, fin_mul, Fl.abs, le_fin, h1, h2, Bool.and_eq_true, decide_eq_true_eq]
    constructor
    · rw [show (A.lon - B.lon) * (D.lat - (B.lat + D.lat - A.lat)) - (D.lon - (B.lon + D.lon - A.lon)) * (A.lat - B.lat) = 0 by ring]
      simp
    · rw [show (B.lon + D.lon - A.lon - B.lon) * (D.lat - A.lat) - (D.lon - A.lon) * (B.lat + D.lat - A.lat - B.lat) = 0 by ring]
      simp
  unfold bilinearST
  rw [if_pos hn]
  have hne : (C.lon - B.lon) * (A.lat - B.lat) - (A.lon - B.lon) * (C.lat - B.lat) ≠ 0 := by
    rw [h1, h2]
    intro h
    apply hJ
    simp only [orient]
    linear_combination -h
  simp only [calcParallelogram, quadOf, fin_sub, fin_mul, fin_neg, fin_add, Fl.one_def]
  rw [assert_true' (by rw [fne_fin, decide_eq_false (fun h => hne (sub_eq_zero.mpr h))]; rfl), ok_bind, fin_div_of_ne _ hne]
  simp only [fin_mul]
  congr 3
  · rw [one_div, inv_mul_eq_iff_eq_mul₀ hne, hm.1, hm.2, h1, h2]; ring
  · rw [one_div, inv_mul_eq_iff_eq_mul₀ hne, hm.1, hm.2, h1, h2]; ring

/-- A quadratic that is non-negative at 0 and non-positive at 1 has a zero in between. -/
theorem quadratic_root [LawfulSqrt K] {u v w : K} (h0 : 0 ≤ w) (h1 : u + v + w ≤ 0) :
    ∃ x : K, 0 ≤ x ∧ x ≤ 1 ∧ u * x * x + v * x + w = 0 := by
  rcases h0.eq_or_lt with h0 | h0
  · exact ⟨0, le_refl _, zero_le_one, by rw [← h0]; ring⟩
  have hd : 0 ≤ v * v - 4 * u * w := by
    rcases le_or_gt u 0 with hu | hu
    · nlinarith [mul_self_nonneg v, mul_nonneg (neg_nonneg.mpr hu) h0.le]
    · have : 0 ≤ -v - (u + w) := by linarith
      nlinarith [mul_self_nonneg (u - w), mul_nonneg this (by linarith : 0 ≤ -v + (u + w))]
  obtain ⟨S, hS0, hS⟩ : ∃ S : K, 0 ≤ S ∧ S * S = v * v - 4 * u * w :=
    ⟨_, LawfulSqrt.sqrt_nonneg _ hd, LawfulSqrt.sqrt_mul_self _ hd⟩
  have hp : 0 < S - v := by
    by_contra hc
    push Not at hc
    have hv : 0 ≤ v := by linarith
    have hu : u < 0 := by linarith
    have : 0 < -u * w := mul_pos (by linarith) h0
    nlinarith [mul_nonneg hS0 hv, mul_nonneg hv (by linarith : 0 ≤ v - S), mul_nonneg hS0 (by linarith : 0 ≤ v - S)]
  refine ⟨2 * w / (S - v), by positivity, ?_, ?_⟩
  · rw [div_le_one hp]
    by_contra hc
    push Not at hc
    have h2 : 0 ≤ S := hS0
    nlinarith [mul_pos h0 (by linarith : 0 < 2 * w + v - S), mul_nonneg h0.le (by linarith : 0 ≤ -(u + v + w))]
  · have hne : S - v ≠ 0 := hp.ne'
    field_simp
    linear_combination w * hS

/-- The strictly convex quadrilateral A, B, C, D is run through with the interior on the right, as in a grid with rows
towards north and columns towards east. -/
def ConvexCell (A B C D : Pt K) : Prop := cross A B C < 0 ∧ cross B C D < 0 ∧ cross C D A < 0 ∧ cross D A B < 0

theorem orient_pos {A B C D : Pt K} (h : ConvexCell A B C D) {α β : K} (h0 : 0 ≤ α) (h1 : α ≤ 1) (h2 : 0 ≤ β) (h3 : β ≤ 1) :
    0 < orient A B C D α β := by
  obtain ⟨a, b, c, d⟩ := h
  have key : orient A B C D α β = (1 - α) * (1 - β) * (-cross D A B) + (1 - α) * β * (-cross A B C) +
      α * β * (-cross B C D) + α * (1 - β) * (-cross C D A) := by
    simp only [orient, cross]; ring
  rw [key]
  have e1 : 0 ≤ 1 - α := by linarith
  have e2 : 0 ≤ 1 - β := by linarith
  rcases h0.eq_or_lt with rfl | p1
  · rcases h2.eq_or_lt with rfl | p2
    · linarith
    · have := mul_pos p2 (neg_pos.mpr a)
      have := mul_nonneg e2 (neg_pos.mpr d).le
      linarith
  · rcases h2.eq_or_lt with rfl | p2
    · have := mul_pos p1 (neg_pos.mpr c)
      have := mul_nonneg e1 (neg_pos.mpr d).le
      linarith
    · have := mul_pos (mul_pos p1 p2) (neg_pos.mpr b)
      have := mul_nonneg (mul_nonneg e1 e2) (neg_pos.mpr d).le
      have := mul_nonneg (mul_nonneg e1 h2) (neg_pos.mpr a).le
      have := mul_nonneg (mul_nonneg h0 e2) (neg_pos.mpr c).le
      linarith

/-- Every location in a convex cell has cell coordinates in the unit square. -/
theorem convex_coords [LawfulSqrt K] {A B C D m : Pt K} (h : ConvexCell A B C D) (hm : InsideQuad A B C D m) :
    ∃ α β : K, 0 ≤ α ∧ α ≤ 1 ∧ 0 ≤ β ∧ β ≤ 1 ∧ AtCoords A B C D α β m := by
  have hsum : cross A B m + cross B C m + cross C D m + cross D A m = cross A B C + cross C D A := by
    simp only [cross]; ring
  obtain ⟨a, b, c, d⟩ := h
  rcases hm with ⟨m1, m2, m3, m4⟩ | ⟨m1, m2, m3, m4⟩
  · linarith
  -- the cross product with the line at `α`, a quadratic in `α`
  set w := -cross A B m with hw
  set f1 := cross C D m with hf1
  obtain ⟨u, hu⟩ : ∃ u : K, u = crossV B C A D := ⟨_, rfl⟩
  obtain ⟨α, α0, α1, hα⟩ := quadratic_root (u := u) (v := f1 - w - u) (w := w) (by linarith) (by linarith)
  -- the end points of that line
  set P : Pt K := ⟨A.lat + α * (D.lat - A.lat), A.lon + α * (D.lon - A.lon)⟩ with hP
  set Q : Pt K := ⟨B.lat + α * (C.lat - B.lat), B.lon + α * (C.lon - B.lon)⟩ with hQ
  have hline : cross P Q m = 0 := by
    have : cross P Q m = -(u * α * α + (f1 - w - u) * α + w) := by
      rw [hu, hf1, hw]; simp only [cross, crossV, hP, hQ]; ring
    rw [this, hα, neg_zero]
  have e1 : 0 ≤ 1 - α := by linarith
  have hQ' : cross D A Q < 0 := by
    have : cross D A Q = (1 - α) * cross D A B + α * cross C D A := by simp only [cross, hQ]; ring
    rw [this]
    rcases α0.eq_or_lt with rfl | p
    · linarith
    · nlinarith [mul_nonneg e1 (neg_pos.mpr d).le, mul_pos p (neg_pos.mpr c)]
  have hP' : cross B C P < 0 := by
    have : cross B C P = (1 - α) * cross A B C + α * cross B C D := by simp only [cross, hP]; ring
    rw [this]
    rcases α0.eq_or_lt with rfl | p
    · linarith
    · nlinarith [mul_nonneg e1 (neg_pos.mpr a).le, mul_pos p (neg_pos.mpr b)]
  -- the position on the line, from the distance to the side D–A
  set β := cross D A m / cross D A Q with hβ
  have hβ' : β * cross D A Q = cross D A m := by rw [hβ, div_mul_cancel₀ _ hQ'.ne]
  have i1 : cross D A Q = (A.lon - D.lon) * (Q.lat - P.lat) - (A.lat - D.lat) * (Q.lon - P.lon) := by
    simp only [cross, hP]; ring
  have i2 : cross D A m = (A.lon - D.lon) * (m.lat - P.lat) - (A.lat - D.lat) * (m.lon - P.lon) := by
    simp only [cross, hP]; ring
  have hne : cross D A Q ≠ 0 := hQ'.ne
  have c1 : m.lon - P.lon = β * (Q.lon - P.lon) := by
    apply mul_right_cancel₀ hne
    have : β * (Q.lon - P.lon) * cross D A Q = (Q.lon - P.lon) * cross D A m := by rw [← hβ']; ring
    rw [this, i1, i2]
    unfold cross at hline
    linear_combination (-(A.lon - D.lon)) * hline
  have c2 : m.lat - P.lat = β * (Q.lat - P.lat) := by
    apply mul_right_cancel₀ hne
    have : β * (Q.lat - P.lat) * cross D A Q = (Q.lat - P.lat) * cross D A m := by rw [← hβ']; ring
    rw [this, i1, i2]
    unfold cross at hline
    linear_combination (-(A.lat - D.lat)) * hline
  have hβ0 : 0 ≤ β := div_nonneg_of_nonpos m4 hQ'.le
  have hβ1 : β ≤ 1 := by
    have : cross B C m = (1 - β) * cross B C P := by
      have e : cross B C m = cross B C P + ((C.lon - B.lon) * (m.lat - P.lat) - (C.lat - B.lat) * (m.lon - P.lon)) := by
        simp only [cross]; ring
      rw [e, c1, c2]
      simp only [cross, hP, hQ]; ring
    by_contra hc
    push Not at hc
    nlinarith [mul_pos (by linarith : 0 < β - 1) (neg_pos.mpr hP')]
  refine ⟨α, β, α0, α1, hβ0, hβ1, ?_, ?_⟩
  · have : m.lon = P.lon + β * (Q.lon - P.lon) := by linarith
    rw [this, hP, hQ]; ring
  · have : m.lat = P.lat + β * (Q.lat - P.lat) := by linarith
    rw [this, hP, hQ]; ring

end Gridpp
