import Verif.Model.Util
import Mathlib.Tactic.LinearCombination

/-! # C10: point_in_rectangle -/

set_option linter.unusedSectionVars false

namespace Gridpp.Props
open Fl Res

variable {K : Type} [Field K] [LinearOrder K] [IsStrictOrderedRing K]

/-- A point with finite coordinates. -/
structure Pt (K : Type) where
  lat : K
  lon : K

/-- As a model point. -/
def Pt.toFl (p : Pt K) : LatLon K := ⟨fin p.lat, fin p.lon⟩

/-- Cross product of `q - p` and `m - p` in the (lon, lat) plane: which side of the line through `p`, `q` the point
`m` is on. -/
def cross (p q m : Pt K) : K := (q.lon - p.lon) * (m.lat - p.lat) - (q.lat - p.lat) * (m.lon - p.lon)

theorem sideValue_eq (p q m : Pt K) : sideValue p.toFl q.toFl m.toFl = fin (cross p q m) := by
  simp only [sideValue, vect2d, Pt.toFl, fin_sub, fin_mul, fin_add, cross]
  congr 1
  ring

/-- **C10** (general quadrilateral). The test is true exactly when `m` lies weakly on one common side of the four
edges A→B, B→C, C→D, D→A. -/
theorem c10_halfplanes (A B C D m : Pt K) :
    pointInRectangle A.toFl B.toFl C.toFl D.toFl m.toFl = true ↔
      (0 ≤ cross A B m ∧ 0 ≤ cross B C m ∧ 0 ≤ cross C D m ∧ 0 ≤ cross D A m) ∨
      (cross A B m ≤ 0 ∧ cross B C m ≤ 0 ∧ cross C D m ≤ 0 ∧ cross D A m ≤ 0) := by
  have hDA : cross A D m = - cross D A m := by simp only [cross]; ring
  simp only [pointInRectangle, sideValue_eq, Fl.zero_def, ge_fin, le_fin, Bool.or_eq_true, Bool.and_eq_true,
    decide_eq_true_eq, hDA]
  constructor
  · rintro (⟨⟨⟨h1, h2⟩, h3⟩, h4⟩ | ⟨⟨⟨h1, h2⟩, h3⟩, h4⟩)
    · exact Or.inr ⟨h1, h4, h2, by linarith⟩
    · exact Or.inl ⟨h1, h4, h2, by linarith⟩
  · rintro (⟨h1, h2, h3, h4⟩ | ⟨h1, h2, h3, h4⟩)
    · exact Or.inr ⟨⟨⟨h1, h3⟩, by linarith⟩, h2⟩
    · exact Or.inl ⟨⟨⟨h1, h3⟩, by linarith⟩, h2⟩

/-- **C10**. For a non-degenerate parallelogram `A, B, C, D` in drawing order (either orientation) the test decides
membership of the closed parallelogram. -/
theorem c10_parallelogram (A B C D m : Pt K)
    (hlat : C.lat = B.lat + D.lat - A.lat) (hlon : C.lon = B.lon + D.lon - A.lon)
    (hnd : (B.lon - A.lon) * (D.lat - A.lat) - (B.lat - A.lat) * (D.lon - A.lon) ≠ 0) :
    pointInRectangle A.toFl B.toFl C.toFl D.toFl m.toFl = true ↔
      ∃ s t : K, 0 ≤ s ∧ s ≤ 1 ∧ 0 ≤ t ∧ t ≤ 1 ∧
        m.lat = A.lat + s * (B.lat - A.lat) + t * (D.lat - A.lat) ∧
        m.lon = A.lon + s * (B.lon - A.lon) + t * (D.lon - A.lon) := by
  rw [c10_halfplanes]
  set c := (B.lon - A.lon) * (D.lat - A.lat) - (B.lat - A.lat) * (D.lon - A.lon) with hc
  -- coordinates of m in the basis (B - A, D - A)
  set t := cross A B m / c with ht
  set s := -(cross A D m) / c with hs
  have h1 : cross A B m = t * c := by rw [ht]; field_simp
  have h2 : cross A D m = -(s * c) := by rw [hs]; field_simp
  have hDA : cross D A m = s * c := by
    have : cross D A m = - cross A D m := by simp only [cross]; ring
    rw [this, h2]; ring
  have hBC : cross B C m = (1 - s) * c := by
    have : cross B C m = c + cross A D m := by simp only [cross, hlat, hlon, hc]; ring
    rw [this, h2]; ring
  have hCD : cross C D m = (1 - t) * c := by
    have : cross C D m = c - cross A B m := by simp only [cross, hlat, hlon, hc]; ring
    rw [this, h1]; ring
  have hmlat : m.lat = A.lat + s * (B.lat - A.lat) + t * (D.lat - A.lat) := by
    rw [hs, ht]; field_simp; simp only [cross, hc]; ring
  have hmlon : m.lon = A.lon + s * (B.lon - A.lon) + t * (D.lon - A.lon) := by
    rw [hs, ht]; field_simp; simp only [cross, hc]; ring
  have huniq : ∀ s' t' : K, m.lat = A.lat + s' * (B.lat - A.lat) + t' * (D.lat - A.lat) →
      m.lon = A.lon + s' * (B.lon - A.lon) + t' * (D.lon - A.lon) → s' = s ∧ t' = t := by
    intro s' t' e1 e2
    have e3 : s' * c = s * c := by
      rw [hc]; linear_combination (-(D.lon - A.lon)) * (e1.symm.trans hmlat) + (D.lat - A.lat) * (e2.symm.trans hmlon)
    have e4 : t' * c = t * c := by
      rw [hc]; linear_combination (B.lon - A.lon) * (e1.symm.trans hmlat) - (B.lat - A.lat) * (e2.symm.trans hmlon)
    exact ⟨mul_right_cancel₀ hnd e3, mul_right_cancel₀ hnd e4⟩
  rw [h1, hBC, hCD, hDA]
  constructor
  · rintro (⟨a1, a2, a3, a4⟩ | ⟨a1, a2, a3, a4⟩)
    · have hcpos : 0 < c := by
        rcases lt_or_gt_of_ne hnd with h | h
        · exfalso; nlinarith
        · exact h
      refine ⟨s, t, ?_, ?_, ?_, ?_, hmlat, hmlon⟩
      · exact nonneg_of_mul_nonneg_left a4 hcpos
      · linarith [nonneg_of_mul_nonneg_left a2 hcpos]
      · exact nonneg_of_mul_nonneg_left a1 hcpos
      · linarith [nonneg_of_mul_nonneg_left a3 hcpos]
    · have hcneg : c < 0 := by
        rcases lt_or_gt_of_ne hnd with h | h
        · exact h
        · exfalso; nlinarith
      have key : ∀ z : K, z * c ≤ 0 → 0 ≤ z := by intro z hz; by_contra h; push Not at h; nlinarith [mul_pos_of_neg_of_neg h hcneg]
      refine ⟨s, t, key _ a4, ?_, key _ a1, ?_, hmlat, hmlon⟩
      · linarith [key _ a2]
      · linarith [key _ a3]
  · rintro ⟨s', t', b1, b2, b3, b4, e1, e2⟩
    obtain ⟨rfl, rfl⟩ := huniq s' t' e1 e2
    rcases lt_or_gt_of_ne hnd with h | h
    · right
      refine ⟨?_, ?_, ?_, ?_⟩ <;> apply mul_nonpos_of_nonneg_of_nonpos <;> linarith
    · left
      refine ⟨?_, ?_, ?_, ?_⟩ <;> apply mul_nonneg <;> linarith

/-- A tilted square, with a point inside. -/
example : ∃ A B C D m : Pt ℚ, C.lat = B.lat + D.lat - A.lat ∧ C.lon = B.lon + D.lon - A.lon ∧
    (B.lon - A.lon) * (D.lat - A.lat) - (B.lat - A.lat) * (D.lon - A.lon) ≠ 0 ∧
    pointInRectangle A.toFl B.toFl C.toFl D.toFl m.toFl = true ∧
    pointInRectangle A.toFl B.toFl C.toFl D.toFl ⟨fin 5, fin 5⟩ = false :=
  ⟨⟨0, 0⟩, ⟨1, 1⟩, ⟨2, 0⟩, ⟨1, -1⟩, ⟨1, 0⟩, by decide +kernel⟩

end Gridpp.Props
