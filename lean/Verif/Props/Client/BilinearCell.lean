import Verif.Lemmas.Client.Bilinear
import Verif.Props.Bilinear

/-! # C115: bilinear interpolation of the client inside one cell

The cell has the corners `A` = (I1, J1), `B` = (I2, J1), `C` = (I2, J2), `D` = (I1, J2) with values `vA` … `vD`; `bilinearC` takes its
arguments in the order A, B, D, C. -/

set_option linter.unusedSectionVars false

namespace Gridpp.Props
open Fl hiding MV isValid
open Res Client

variable {K : Type} [Field K] [LinearOrder K] [IsStrictOrderedRing K]

/-- The nearest number in the unit interval. -/
def toUnit (v : K) : K := max 0 (min 1 v)

theorem toUnit_of {v : K} (h0 : 0 ≤ v) (h1 : v ≤ 1) : toUnit v = v := by
  unfold toUnit; rw [min_eq_right h1, max_eq_right h0]

theorem toUnit_range (v : K) : 0 ≤ toUnit v ∧ toUnit v ≤ 1 :=
  ⟨le_max_left _ _, max_le zero_le_one (min_le_left _ _)⟩

theorem toUnit_one_sub (v : K) : toUnit (1 - v) = 1 - toUnit v := by
  unfold toUnit
  rcases le_total v 0 with h | h
  · rw [min_eq_right (by linarith : v ≤ 1), max_eq_left h, min_eq_left (by linarith), max_eq_right zero_le_one]; ring
  · rcases le_total v 1 with h' | h'
    · rw [min_eq_right h', max_eq_right h, min_eq_right (by linarith), max_eq_right (by linarith)]
    · rw [min_eq_left h', max_eq_right zero_le_one, min_eq_right (by linarith), max_eq_left (by linarith)]; ring

/-- The cells that the two methods are made for: a parallelogram with an area, or a cell that does not pass for a parallelogram and whose
orientation at the coordinates is positive (rows towards north, columns towards east). -/
def Supported (A B C D : Pt K) (α β : K) : Prop :=
  (C.lon = B.lon + D.lon - A.lon ∧ C.lat = B.lat + D.lat - A.lat ∧ cross A B D ≠ 0) ∨
  (¬ PassesParallel A B C D ∧ 0 < orient A B C D α β)

theorem calcST_at [LawfulSqrt K] {A B C D m : Pt K} {α β : K} (hm : AtCoords A B C D α β m) (hc : Supported A B C D α β) :
    calcST (fin m.lon) (fin m.lat) (quadOf A B C D) = ok (fin α, fin (1 - β)) := by
  rcases hc with ⟨h1, h2, h3⟩ | ⟨h1, h2⟩
  · refine calcParallelogramC_at hm h1 h2 ?_
    intro h
    apply h3
    simp only [orient] at h
    simp only [cross]
    linear_combination -h
  · unfold calcST
    rw [if_neg (by rw [parallelC_iff]; exact h1)]
    exact calcGeneralC_pos hm h2 (PassesParallel.not h1)

/-- **C115** (convex combination). Whatever the cell and the place: if a value is returned at all, then there are weights, not negative and
with sum one, that do not depend on the values, and the result is the weighted sum. -/
theorem c115_convex [HasSqrt K] (x y : Fl K) (q : Quad K) (u0 u1 u2 u3 u : Fl K) (h : bilinearC x y q u0 u1 u2 u3 = ok u) :
    ∃ c0 c1 c2 c3 : K, 0 ≤ c0 ∧ 0 ≤ c1 ∧ 0 ≤ c2 ∧ 0 ≤ c3 ∧ c0 + c1 + c2 + c3 = 1 ∧
      ∀ v0 v1 v2 v3 : K, bilinearC x y q (fin v0) (fin v1) (fin v2) (fin v3) = ok (fin (c0 * v0 + c1 * v1 + c2 * v2 + c3 * v3)) := by
  unfold bilinearC at h ⊢
  obtain ⟨st, h1, h2⟩ := bind_eq_ok.mp h
  simp only at h2
  by_cases hu : unitRange (snapC st.1) (snapC st.2) = true
  · obtain ⟨s, t, es, et, hs0, hs1, ht0, ht1⟩ := unitRange_exists hu
    have hs1' : 0 ≤ 1 - s := by linarith
    have ht1' : 0 ≤ 1 - t := by linarith
    refine ⟨(1 - s) * t, (1 - s) * (1 - t), s * t, s * (1 - t), by positivity, by positivity, by positivity, by positivity, by ring, ?_⟩
    intro v0 v1 v2 v3
    rw [h1, ok_bind]
    simp only []
    rw [if_pos hu, es, et, bilinearSum_fin]
    congr 2; ring
  · rw [if_neg hu] at h2
    cases h2

/-- The value in terms of the result of `calcST`. -/
theorem bilinearC_of_st [HasSqrt K] {x y : Fl K} {q : Quad K} {α β : K} (hst : calcST x y q = ok (fin α, fin (1 - β)))
    (h : -(20 / 100) ≤ α ∧ α ≤ 117 / 100 ∧ -(17 / 100) ≤ β ∧ β ≤ 120 / 100) (vA vB vC vD : K) :
    bilinearC x y q (fin vA) (fin vB) (fin vD) (fin vC) = ok (fin (bilinearValue (toUnit α) (toUnit β) vA vB vC vD)) := by
  obtain ⟨h0, h1, h2, h3⟩ := h
  unfold bilinearC
  rw [hst, ok_bind]
  simp only []
  rw [snapC_fin h0 h1, snapC_fin (by linarith) (by linarith)]
  have hs := toUnit_range α
  have ht := toUnit_range (1 - β)
  rw [show max 0 (min 1 α) = toUnit α from rfl, show max 0 (min 1 (1 - β)) = toUnit (1 - β) from rfl,
    if_pos (unitRange_fin.mpr ⟨hs.1, hs.2, ht.1, ht.2⟩), bilinearSum_fin, toUnit_one_sub]
  unfold bilinearValue
  congr 2; ring

/-- **C115** (the cells the methods are made for). A place with cell coordinates α (columns) and β (rows) gets the bilinear interpolation
at the nearest coordinates of the cell if they are off by no more than the tolerance; otherwise the program ends. -/
theorem c115_value [LawfulSqrt K] (A B C D m : Pt K) (α β : K) (hm : AtCoords A B C D α β m) (hc : Supported A B C D α β) (vA vB vC vD : K) :
    ((-(20 / 100) ≤ α ∧ α ≤ 117 / 100 ∧ -(17 / 100) ≤ β ∧ β ≤ 120 / 100) →
      bilinearC (fin m.lon) (fin m.lat) (quadOf A B C D) (fin vA) (fin vB) (fin vD) (fin vC) =
        ok (fin (bilinearValue (toUnit α) (toUnit β) vA vB vC vD))) ∧
    (¬ (-(20 / 100) ≤ α ∧ α ≤ 117 / 100 ∧ -(17 / 100) ≤ β ∧ β ≤ 120 / 100) →
      bilinearC (fin m.lon) (fin m.lat) (quadOf A B C D) (fin vA) (fin vB) (fin vD) (fin vC) = .abort) := by
  refine ⟨fun h => bilinearC_of_st (calcST_at hm hc) h vA vB vC vD, ?_⟩
  unfold bilinearC
  rw [calcST_at hm hc, ok_bind]
  simp only []
  intro hn
  rw [if_neg]
  · rfl
  intro hu
  apply hn
  have hα : -(20 / 100) ≤ α ∧ α ≤ 117 / 100 := by
    by_contra hc
    obtain ⟨e, h⟩ := snapC_beyond (v := α) (by
      by_contra h
      push Not at h
      exact hc h)
    obtain ⟨a, b, ea, eb, h1, h2, -⟩ := unitRange_exists hu
    rw [e, Fl.fin.injEq] at ea
    subst ea
    exact h ⟨h1, h2⟩
  have hβ : -(20 / 100) ≤ 1 - β ∧ 1 - β ≤ 117 / 100 := by
    by_contra hc
    obtain ⟨e, h⟩ := snapC_beyond (v := 1 - β) (by
      by_contra h
      push Not at h
      exact hc h)
    obtain ⟨a, b, ea, eb, -, -, h1, h2⟩ := unitRange_exists hu
    rw [e, Fl.fin.injEq] at eb
    subst eb
    exact h ⟨h1, h2⟩
  exact ⟨hα.1, hα.2, by linarith, by linarith⟩

/-- **C115** (false for the opposite orientation). In a cell without parallel sides whose orientation is negative, as when rows are stored
from north to south, the other intersection of the two families of lines is taken. If that is outside the tolerance the program ends for
every place of the cell. -/
theorem c115_negative [LawfulSqrt K] (A B C D m : Pt K) (α β : K) (hm : AtCoords A B C D α β m) (hn : ¬ PassesParallel A B C D)
    (hJ : orient A B C D α β < 0) (hA : crossV B C A D ≠ 0) (hB : crossV D C A B ≠ 0)
    (ha : ∀ α', OnAlphaLine A B C D α' m → α' ≠ α → α' < -(20 / 100) ∨ 117 / 100 < α') (v0 v1 v2 v3 : Fl K) :
    bilinearC (fin m.lon) (fin m.lat) (quadOf A B C D) v0 v1 v2 v3 = .abort := by
  have hst : calcST (fin m.lon) (fin m.lat) (quadOf A B C D) =
      ok (fin (α + orient A B C D α β / crossV B C A D), fin (1 - (β - orient A B C D α β / crossV D C A B))) := by
    unfold calcST
    rw [if_neg (by rw [parallelC_iff]; exact hn)]
    exact calcGeneralC_neg hm hJ hA hB
  unfold bilinearC
  rw [hst, ok_bind]
  simp only []
  rw [if_neg]
  · rfl
  intro hu
  have hne : α + orient A B C D α β / crossV B C A D ≠ α := by
    intro h
    rw [add_eq_left, div_eq_zero_iff] at h
    rcases h with h | h
    · exact hJ.ne h
    · exact hA h
  obtain ⟨e, h⟩ := snapC_beyond (ha _ (other_alpha hm hA) hne)
  obtain ⟨a, b, ea, eb, h1, h2, -⟩ := unitRange_exists hu
  rw [e, Fl.fin.injEq] at ea
  subst ea
  exact h ⟨h1, h2⟩

/-- **C115** (small cells). A distorted cell with sides of a thousandth of a degree passes for a parallelogram. At its corner `D`, where
the value is 100 and 0 at the other corners, the result is 81. -/
theorem c115_corner_false :
    bilinearC (fin (9 / 10000 : ℚ)) (fin (9 / 10000))
      (quadOf ⟨1 / 1000, 0⟩ ⟨0, 0⟩ ⟨0, 1 / 1000⟩ ⟨9 / 10000, 9 / 10000⟩) (fin 0) (fin 0) (fin 100) (fin 0) = ok (fin 81) := by
  decide +kernel

/-- **C115** (a cell stored from north to south). A trapezoid, place in the middle: the program ends, while the same cell stored from south
to north gives the interpolated value. -/
theorem c115_trapezoid :
    bilinearC (fin (0 : ℚ)) (fin (1 / 2)) (quadOf ⟨1, -1⟩ ⟨0, -2⟩ ⟨0, 2⟩ ⟨1, 1⟩) (fin 0) (fin 4) (fin 0) (fin 4) = .abort ∧
    bilinearC (fin (0 : ℚ)) (fin (1 / 2)) (quadOf ⟨0, -2⟩ ⟨1, -1⟩ ⟨1, 1⟩ ⟨0, 2⟩) (fin 4) (fin 0) (fin 4) (fin 0) = ok (fin 2) := by
  decide +kernel

/-- The hypotheses of `c115_value` in a general cell. -/
example : Supported (K := ℚ) ⟨0, -2⟩ ⟨1, -1⟩ ⟨1, 1⟩ ⟨0, 2⟩ (1 / 2) (1 / 2) ∧
    AtCoords (K := ℚ) ⟨0, -2⟩ ⟨1, -1⟩ ⟨1, 1⟩ ⟨0, 2⟩ (1 / 2) (1 / 2) ⟨1 / 2, 0⟩ := by
  unfold Supported PassesParallel AtCoords cross crossV orient; decide +kernel

/-- The hypotheses of `c115_negative`: a cell without parallel sides, rows from north to south. -/
example : ∃ A B C D m : Pt ℚ, AtCoords A B C D (1 / 2) (1 / 2) m ∧ ¬ PassesParallel A B C D ∧
    orient A B C D (1 / 2) (1 / 2) < 0 ∧ crossV B C A D ≠ 0 ∧ crossV D C A B ≠ 0 ∧
    (∀ α', OnAlphaLine A B C D α' m → α' ≠ 1 / 2 → α' < -(20 / 100) ∨ 117 / 100 < α') := by
  refine ⟨⟨1, 0⟩, ⟨0, 0⟩, ⟨0, 1⟩, ⟨2, 2⟩, ⟨3 / 4, 3 / 4⟩, ?_, ?_, ?_, ?_, ?_, ?_⟩
  · unfold AtCoords; norm_num
  · unfold PassesParallel crossV; norm_num
  · unfold orient; norm_num
  · unfold crossV; norm_num
  · unfold crossV; norm_num
  · intro a h hne
    unfold OnAlphaLine cross at h
    simp only [] at h
    have : (a - 1 / 2) * (a + 3 / 2) = 0 := by linear_combination -h
    rcases mul_eq_zero.mp this with h | h
    · exact absurd (sub_eq_zero.mp h) hne
    · left; linarith

end Gridpp.Props
