import Verif.Lemmas.Bilinear
import Verif.Base.Inst
import Mathlib.Tactic.NormNum
import Mathlib.Tactic.Positivity

/-! # C43 and C73: bilinear interpolation inside one cell

The cell has the corners `A` = (I1, J1), `B` = (I2, J1), `C` = (I2, J2), `D` = (I1, J2) with values `vA` … `vD`;
`bilinear4` takes its arguments in the order A, B, D, C. -/

set_option linter.unusedSectionVars false

namespace Gridpp.Props
open Fl Res

variable {K : Type} [Field K] [LinearOrder K] [IsStrictOrderedRing K]

/-- The bilinear interpolation of the corner values at cell coordinates `α` (from A towards D), `β` (from A towards B). -/
def bilinearValue (α β vA vB vC vD : K) : K :=
  (1 - α) * (1 - β) * vA + (1 - α) * β * vB + α * β * vC + α * (1 - β) * vD

/-- **C43** (convex combination). Whatever the cell and the location: if `::bilinear` returns at all, then there are
non-negative weights with sum one, which do not depend on the values, such that the result is the weighted sum for all
corner values. -/
theorem c43_convex [HasSqrt K] (x y : Fl K) (q : Quad K) (u0 u1 u2 u3 u : Fl K) (h : bilinear4 x y q u0 u1 u2 u3 = ok u) :
    ∃ c0 c1 c2 c3 : K, 0 ≤ c0 ∧ 0 ≤ c1 ∧ 0 ≤ c2 ∧ 0 ≤ c3 ∧ c0 + c1 + c2 + c3 = 1 ∧
      ∀ v0 v1 v2 v3 : K, bilinear4 x y q (fin v0) (fin v1) (fin v2) (fin v3) = ok (fin (c0 * v0 + c1 * v1 + c2 * v2 + c3 * v3)) := by
  unfold bilinear4 at h ⊢
  obtain ⟨st, h1, h2⟩ := bind_eq_ok.mp h
  simp only at h2
  by_cases hu : unitRange (snap st.1) (snap st.2) = true
  · obtain ⟨s, t, es, et, hs0, hs1, ht0, ht1⟩ := unitRange_exists hu
    have hs1' : 0 ≤ 1 - s := by linarith
    have ht1' : 0 ≤ 1 - t := by linarith
    refine ⟨(1 - s) * t, (1 - s) * (1 - t), s * t, s * (1 - t), by positivity, by positivity, by positivity, by positivity, by ring, ?_⟩
    intro v0 v1 v2 v3
    rw [h1, ok_bind]
    simp only []
    rw [if_pos hu, es, et, bilinearSum_fin]
    congr 2; ring
  · rw [if_neg hu] at h2
    cases h2

/-- **C43** (bounds). The result lies between the smallest and the largest corner value. -/
theorem c43_between [HasSqrt K] (x y : Fl K) (q : Quad K) (v0 v1 v2 v3 lo hi : K) (u : Fl K)
    (h : bilinear4 x y q (fin v0) (fin v1) (fin v2) (fin v3) = ok u)
    (hlo : lo ≤ v0 ∧ lo ≤ v1 ∧ lo ≤ v2 ∧ lo ≤ v3) (hhi : v0 ≤ hi ∧ v1 ≤ hi ∧ v2 ≤ hi ∧ v3 ≤ hi) :
    ∃ v, u = fin v ∧ lo ≤ v ∧ v ≤ hi := by
  obtain ⟨c0, c1, c2, c3, p0, p1, p2, p3, hs, hall⟩ := c43_convex x y q _ _ _ _ _ h
  have := hall v0 v1 v2 v3
  rw [h] at this
  injection this with this
  refine ⟨_, this, ?_, ?_⟩
  · have e : (c0 + c1 + c2 + c3) * lo = lo := by rw [hs, one_mul]
    nlinarith [mul_nonneg p0 (sub_nonneg.mpr hlo.1), mul_nonneg p1 (sub_nonneg.mpr hlo.2.1),
      mul_nonneg p2 (sub_nonneg.mpr hlo.2.2.1), mul_nonneg p3 (sub_nonneg.mpr hlo.2.2.2)]
  · have e : (c0 + c1 + c2 + c3) * hi = hi := by rw [hs, one_mul]
    nlinarith [mul_nonneg p0 (sub_nonneg.mpr hhi.1), mul_nonneg p1 (sub_nonneg.mpr hhi.2.1),
      mul_nonneg p2 (sub_nonneg.mpr hhi.2.2.1), mul_nonneg p3 (sub_nonneg.mpr hhi.2.2.2)]

theorem bilinear4_of_st [HasSqrt K] {A B C D m : Pt K} {α β : K} (h0 : 0 ≤ α) (h1 : α ≤ 1) (h2 : 0 ≤ β) (h3 : β ≤ 1)
    (h : bilinearST (fin m.lon) (fin m.lat) (quadOf A B C D) = ok (fin α, fin (1 - β))) (vA vB vC vD : K) :
    bilinear4 (fin m.lon) (fin m.lat) (quadOf A B C D) (fin vA) (fin vB) (fin vD) (fin vC) =
      ok (fin (bilinearValue α β vA vB vC vD)) := by
  unfold bilinear4
  rw [h, ok_bind]
  simp only []
  rw [snap_unit h0 h1, snap_unit (by linarith) (by linarith), if_pos (unitRange_fin.mpr ⟨h0, h1, by linarith, by linarith⟩), bilinearSum_fin]
  unfold bilinearValue
  congr 2; ring

/-- **C43** (exact parallelogram cells). On a non-degenerate parallelogram of any size, shape and orientation the result
at cell coordinates `(α, β)` in the unit square is the bilinear interpolation. -/
theorem c43_parallelogram [HasSqrt K] (A B C D m : Pt K) (α β : K) (h0 : 0 ≤ α) (h1 : α ≤ 1) (h2 : 0 ≤ β) (h3 : β ≤ 1)
    (hm : AtCoords A B C D α β m) (hlon : C.lon = B.lon + D.lon - A.lon) (hlat : C.lat = B.lat + D.lat - A.lat)
    (hne : cross A B D ≠ 0) (vA vB vC vD : K) :
    bilinear4 (fin m.lon) (fin m.lat) (quadOf A B C D) (fin vA) (fin vB) (fin vD) (fin vC) =
      ok (fin (bilinearValue α β vA vB vC vD)) := by
  refine bilinear4_of_st h0 h1 h2 h3 (calcParallelogram_at hm hlon hlat ?_) vA vB vC vD
  intro h
  apply hne
  simp only [orient] at h
  simp only [cross]
  linear_combination -h

/-- The cell is treated as a parallelogram although it need not be one (tolerance 1e-4 on two cross products). -/
def NearlyParallelogram (A B C D : Pt K) : Prop := |crossV B A C D| ≤ 1 / 10000 ∧ |crossV B C A D| ≤ 1 / 10000

theorem nearParallelogram_iff (A B C D : Pt K) : nearParallelogram (quadOf A B C D) = true ↔ NearlyParallelogram A B C D := by
  simp only [nearParallelogram, quadOf, fin_sub, fin_mul, Fl.abs, le_fin, Bool.and_eq_true, decide_eq_true_eq, NearlyParallelogram, crossV]
  rw [show (A.lon - B.lon) * (D.lat - C.lat) - (D.lon - C.lon) * (A.lat - B.lat) =
      (A.lon - B.lon) * (D.lat - C.lat) - (A.lat - B.lat) * (D.lon - C.lon) by ring,
    show (C.lon - B.lon) * (D.lat - A.lat) - (D.lon - A.lon) * (C.lat - B.lat) =
      (C.lon - B.lon) * (D.lat - A.lat) - (C.lat - B.lat) * (D.lon - A.lon) by ring]

theorem not_parallel {A B C D : Pt K} (h : ¬ NearlyParallelogram A B C D) : crossV B C A D ≠ 0 ∨ crossV D C A B ≠ 0 := by
  by_contra hc
  push Not at hc
  apply h
  constructor
  · rw [show crossV B A C D = -crossV D C A B by simp only [crossV]; ring, hc.2]; simp
  · rw [hc.1]; simp

/-- **C43** (general cells, usual orientation). If row and column index grow like latitude and longitude (positive
orientation at the location), the result is the bilinear interpolation. -/
theorem c43_general [LawfulSqrt K] (A B C D m : Pt K) (α β : K) (h0 : 0 ≤ α) (h1 : α ≤ 1) (h2 : 0 ≤ β) (h3 : β ≤ 1)
    (hm : AtCoords A B C D α β m) (hn : ¬ NearlyParallelogram A B C D) (hJ : 0 < orient A B C D α β) (vA vB vC vD : K) :
    bilinear4 (fin m.lon) (fin m.lat) (quadOf A B C D) (fin vA) (fin vB) (fin vD) (fin vC) =
      ok (fin (bilinearValue α β vA vB vC vD)) := by
  refine bilinear4_of_st h0 h1 h2 h3 ?_ vA vB vC vD
  unfold bilinearST
  rw [if_neg (by rw [nearParallelogram_iff]; exact hn)]
  exact calcGeneral_pos hm h0 h1 h2 h3 hJ (not_parallel hn)

/-- **C43** (general cells, opposite orientation). Needs that the sides A–D and B–C are not parallel and that the second
line of constant `α` (`β`) through the location is outside the tolerance of the unit interval. -/
theorem c43_general_negative_partial [LawfulSqrt K] (A B C D m : Pt K) (α β : K) (h0 : 0 ≤ α) (h1 : α ≤ 1) (h2 : 0 ≤ β) (h3 : β ≤ 1)
    (hm : AtCoords A B C D α β m) (hn : ¬ NearlyParallelogram A B C D) (hJ : orient A B C D α β < 0)
    (hA : crossV B C A D ≠ 0)
    (ha : ∀ α', OnAlphaLine A B C D α' m → α' ≠ α → ¬ (-(1 / 100) ≤ α' ∧ α' < 1 + 1 / 100))
    (hb : crossV D C A B ≠ 0 → ∀ β', OnBetaLine A B C D β' m → β' ≠ β → ¬ (-(1 / 100) ≤ β' ∧ β' < 1 + 1 / 100)) (vA vB vC vD : K) :
    bilinear4 (fin m.lon) (fin m.lat) (quadOf A B C D) (fin vA) (fin vB) (fin vD) (fin vC) =
      ok (fin (bilinearValue α β vA vB vC vD)) := by
  refine bilinear4_of_st h0 h1 h2 h3 ?_ vA vB vC vD
  unfold bilinearST
  rw [if_neg (by rw [nearParallelogram_iff]; exact hn)]
  exact calcGeneral_neg hm h0 h1 h2 h3 hJ hA ha hb

/-- **C43**: what the interpolation formula says at the corners and for affine fields. -/
theorem c43_corners_affine (vA vB vC vD : K) :
    bilinearValue 0 0 vA vB vC vD = vA ∧ bilinearValue 0 1 vA vB vC vD = vB ∧ bilinearValue 1 1 vA vB vC vD = vC ∧
    bilinearValue 1 0 vA vB vC vD = vD ∧
    (∀ A B C D : Pt K, AtCoords A B C D 0 0 A ∧ AtCoords A B C D 0 1 B ∧ AtCoords A B C D 1 1 C ∧ AtCoords A B C D 1 0 D) ∧
    (∀ (A B C D m : Pt K) (α β k l n : K), AtCoords A B C D α β m →
      bilinearValue α β (k + l * A.lon + n * A.lat) (k + l * B.lon + n * B.lat) (k + l * C.lon + n * C.lat)
        (k + l * D.lon + n * D.lat) = k + l * m.lon + n * m.lat) := by
  refine ⟨?_, ?_, ?_, ?_, ?_, ?_⟩
  · simp [bilinearValue]
  · simp [bilinearValue]
  · simp [bilinearValue]
  · simp [bilinearValue]
  · intro A B C D
    refine ⟨⟨?_, ?_⟩, ⟨?_, ?_⟩, ⟨?_, ?_⟩, ⟨?_, ?_⟩⟩ <;> ring
  · intro A B C D m α β k l n hm
    rw [hm.1, hm.2]
    simp only [bilinearValue]
    ring

/-- **C43** is false for small distorted cells: a convex cell with sides of about 0.01 degrees passes as a parallelogram,
and at its corner `D` (value 100, the others 0) the result is 81. -/
theorem c43_corner_counterexample :
    bilinear4 (fin (9 / 1000 : ℚ)) (fin (9 / 1000))
      (quadOf ⟨1 / 100, 0⟩ ⟨0, 0⟩ ⟨0, 1 / 100⟩ ⟨9 / 1000, 9 / 1000⟩) (fin 0) (fin 0) (fin 100) (fin 0) = ok (fin 81) := by
  decide +kernel

/-- **C73** (false for cells with rows of constant latitude stored from north to south). If the sides A–D and B–C are
parallel, A–B and D–C are not, the orientation is negative and the second line of constant `β` is outside the tolerance,
then the assertion in `calcGeneral` fails for every location of the cell. -/
theorem c73_parallel_rows_abort [LawfulSqrt K] (A B C D m : Pt K) (α β : K)
    (hm : AtCoords A B C D α β m) (hn : ¬ NearlyParallelogram A B C D) (hJ : orient A B C D α β < 0)
    (hA : crossV B C A D = 0) (hB : crossV D C A B ≠ 0)
    (hb : ∀ β', OnBetaLine A B C D β' m → β' ≠ β → ¬ (-(1 / 100) ≤ β' ∧ β' < 1 + 1 / 100)) (v0 v1 v2 v3 : Fl K) :
    bilinear4 (fin m.lon) (fin m.lat) (quadOf A B C D) v0 v1 v2 v3 = abort := by
  unfold bilinear4 bilinearST
  rw [if_neg (by rw [nearParallelogram_iff]; exact hn), calcGeneral_abort hm hJ hA hB hb]
  rfl

/-- **C73** (what does hold). Let the cell be strictly convex with the interior on the right of A → B → C → D (rows towards
north, columns towards east) and either an exact parallelogram or outside the tolerance. Then every location of the cell
has cell coordinates in the unit square and the result is the bilinear interpolation there. Missing: the opposite
orientation and small distorted cells, see the counterexamples. -/
theorem c73_partial [LawfulSqrt K] (A B C D m : Pt K) (h : ConvexCell A B C D) (hm : InsideQuad A B C D m)
    (hp : ¬ NearlyParallelogram A B C D ∨ (C.lon = B.lon + D.lon - A.lon ∧ C.lat = B.lat + D.lat - A.lat)) :
    ∃ α β : K, 0 ≤ α ∧ α ≤ 1 ∧ 0 ≤ β ∧ β ≤ 1 ∧ AtCoords A B C D α β m ∧
      ∀ vA vB vC vD : K, bilinear4 (fin m.lon) (fin m.lat) (quadOf A B C D) (fin vA) (fin vB) (fin vD) (fin vC) =
        ok (fin (bilinearValue α β vA vB vC vD)) := by
  obtain ⟨α, β, h0, h1, h2, h3, hc⟩ := convex_coords h hm
  refine ⟨α, β, h0, h1, h2, h3, hc, fun vA vB vC vD => ?_⟩
  rcases hp with hp | ⟨e1, e2⟩
  · exact c43_general A B C D m α β h0 h1 h2 h3 hc hp (orient_pos h h0 h1 h2 h3) vA vB vC vD
  · refine c43_parallelogram A B C D m α β h0 h1 h2 h3 hc e1 e2 ?_ vA vB vC vD
    have := h.2.2.2
    rw [show cross D A B = cross A B D by simp only [cross]; ring] at this
    exact this.ne

/-- **C73** (small distorted cells). The corner `D` of a convex cell is refused with `runtime_error`. -/
theorem c73_small_cell_throws :
    bilinear4 (fin (7 / 1000 : ℚ)) (fin (7 / 1000))
      (quadOf ⟨5 / 1000, 0⟩ ⟨0, 0⟩ ⟨0, 5 / 1000⟩ ⟨7 / 1000, 7 / 1000⟩) (fin 0) (fin 0) (fin 100) (fin 0) = .throw .runtimeError := by
  decide +kernel

/-- **C73**: a trapezoid with its rows stored from north to south, location in the middle: the assertion fails. The same
cell with rows from south to north gives the interpolated value. -/
theorem c73_trapezoid_abort :
    bilinear4 (fin (0 : ℚ)) (fin (1 / 2)) (quadOf ⟨1, -1⟩ ⟨0, -2⟩ ⟨0, 2⟩ ⟨1, 1⟩) (fin 0) (fin 4) (fin 0) (fin 4) = abort ∧
    bilinear4 (fin (0 : ℚ)) (fin (1 / 2)) (quadOf ⟨0, -2⟩ ⟨1, -1⟩ ⟨1, 1⟩ ⟨0, 2⟩) (fin 4) (fin 0) (fin 4) (fin 0) = ok (fin 2) := by
  decide +kernel

/-- The hypotheses of `c43_general`, `c73_partial` hold for the trapezoid. -/
example : ConvexCell (K := ℚ) ⟨0, -2⟩ ⟨1, -1⟩ ⟨1, 1⟩ ⟨0, 2⟩ ∧ InsideQuad (K := ℚ) ⟨0, -2⟩ ⟨1, -1⟩ ⟨1, 1⟩ ⟨0, 2⟩ ⟨1 / 2, 0⟩ ∧
    ¬ NearlyParallelogram (K := ℚ) ⟨0, -2⟩ ⟨1, -1⟩ ⟨1, 1⟩ ⟨0, 2⟩ ∧ AtCoords (K := ℚ) ⟨0, -2⟩ ⟨1, -1⟩ ⟨1, 1⟩ ⟨0, 2⟩ (1 / 2) (1 / 2) ⟨1 / 2, 0⟩ := by
  unfold ConvexCell InsideQuad NearlyParallelogram AtCoords cross crossV; decide +kernel

/-- The hypotheses of `c43_general_negative_partial`: a cell without parallel sides, rows from north to south. -/
example : ∃ A B C D m : Pt ℚ, AtCoords A B C D (1 / 2) (1 / 2) m ∧ ¬ NearlyParallelogram A B C D ∧
    orient A B C D (1 / 2) (1 / 2) < 0 ∧ crossV B C A D ≠ 0 ∧
    (∀ α', OnAlphaLine A B C D α' m → α' ≠ 1 / 2 → ¬ (-(1 / 100) ≤ α' ∧ α' < 1 + 1 / 100)) ∧
    (∀ β', OnBetaLine A B C D β' m → β' ≠ 1 / 2 → ¬ (-(1 / 100) ≤ β' ∧ β' < 1 + 1 / 100)) := by
  refine ⟨⟨1, 0⟩, ⟨0, 0⟩, ⟨0, 1⟩, ⟨2, 2⟩, ⟨3 / 4, 3 / 4⟩, ?_, ?_, ?_, ?_, ?_, ?_⟩
  · unfold AtCoords; norm_num
  · unfold NearlyParallelogram crossV; norm_num
  · unfold orient; norm_num
  · unfold crossV; norm_num
  · intro a h hne
    unfold OnAlphaLine cross at h
    simp only [] at h
    have : (a - 1 / 2) * (a + 3 / 2) = 0 := by linear_combination -h
    rcases mul_eq_zero.mp this with h | h
    · exact absurd (sub_eq_zero.mp h) hne
    · rintro ⟨h1, h2⟩; linarith
  · intro b h hne
    unfold OnBetaLine cross at h
    simp only [] at h
    have : (b - 1 / 2) * (b - 5 / 2) = 0 := by linear_combination -h
    rcases mul_eq_zero.mp this with h | h
    · exact absurd (sub_eq_zero.mp h) hne
    · rintro ⟨h1, h2⟩; linarith

end Gridpp.Props
