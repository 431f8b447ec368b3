import Verif.Props.EnsiGrid
import Verif.Props.OICases

/-! Property C52: the assumptions can be met; cases on numbers. -/

set_option linter.unusedSectionVars false

namespace Gridpp.Props
open Fl Res

theorem Arma.exact_libraries {K : Type} [Field K] [LinearOrder K] [IsStrictOrderedRing K] : Libraries (Arma.exact : Arma K) := by
  refine ⟨Arma.exact_lawful.sort_perm, Arma.exact_lawful.sort_sorted, fun M => ?_⟩
  simp only [Arma.exact]
  split_ifs
  · exact Or.inr rfl
  · exact Or.inl ⟨_, rfl⟩
  · exact Or.inl ⟨_, rfl⟩

/-- Two output points and two observations on a line, three members, one of which has a missing value: the assumptions of the
theorems for points are met. -/
example : ∃ (bp points : Points ℝ) (s : SF ℝ) (L : Nat → Fl ℝ) (G P : Nat → Nat → ℝ),
    EnsPoints RTree.scan Arma.exact bp points s 5 L G ∧ Correlations RTree.scan s bp points L G P ∧
    bp.size = 2 ∧ points.size ≤ bp.size ∧
    Rect bp.size 3 [[fin 1, nan, fin 2], [fin 1, fin 2, fin (4 : ℝ)]] ∧ Rect points.size 3 [[fin 1, fin 3, fin 2], [fin 1, fin 2, fin (4 : ℝ)]] ∧
    ¬ Complete [[fin 1, nan, fin 2], [fin 1, fin 2, fin (4 : ℝ)]] 1 ∧ Complete [[fin 1, nan, fin 2], [fin 1, fin 2, fin (4 : ℝ)]] 2 ∧
    MemberGap [[fin 1, nan, fin 2], [fin 1, fin 2, fin (4 : ℝ)]] 3 := by
  obtain ⟨bp, hbp⟩ : ∃ bp : Points ℝ, Points.new [fin 0, fin 0] [fin 0, fin 9] [] [] .cartesian = ok bp := by
    simp [Points.new, KDTree.new, List.range_succ, mapM_cons, convertCoordinates, isValidLat, isValidLon, vget]
  obtain ⟨points, hpoints⟩ : ∃ points : Points ℝ, Points.new [fin 0, fin 0] [fin 1, fin 2] [] [] .cartesian = ok points := by
    simp [Points.new, KDTree.new, List.range_succ, mapM_cons, convertCoordinates, isValidLat, isValidLon, vget]
  have w1 := BuiltPoints.pointsWF ⟨_, _, hbp⟩
  have w2 := BuiltPoints.pointsWF ⟨_, _, hpoints⟩
  obtain ⟨e1, -, -, -, -, -, e3, -⟩ := Points.new_ok hbp
  obtain ⟨f1, -, -, -, -, -, f3, -⟩ := Points.new_ok hpoints
  have n1 : bp.size = 2 := by unfold Points.size; rw [e1]; rfl
  have n2 : points.size = 2 := by unfold Points.size; rw [f1]; rfl
  have c1 : ¬ Complete [[fin 1, nan, fin 2], [fin 1, fin 2, fin (4 : ℝ)]] 1 := by simp [Complete]
  have c2 : Complete [[fin 1, nan, fin 2], [fin 1, fin 2, fin (4 : ℝ)]] 2 := by simp [Complete]
  obtain ⟨L, G, P, hc⟩ := c51_correlations RTree.scan (SF.cressman (fin 3) (fin 0) (fin 0)) bp points w1 w2 (fun _ _ _ => trivial) (fun _ _ _ => trivial)
  refine ⟨bp, points, _, L, G, P, ⟨RTree.scan_lawful, Arma.exact_libraries, w1, w2, ?_, by omega, by omega, by norm_num, hc.toCell⟩, hc, n1,
    by omega, by rw [n1]; simp [Rect], by rw [n2]; simp [Rect], c1, c2, ?_⟩
  · unfold Points.type; rw [e3, f3]
  · exact ⟨2, by norm_num, c2, 1, by norm_num, c1⟩

/-- The same for a grid of one row and two columns. -/
example : ∃ (g : Grid ℝ) (lats lons : List (List (Fl ℝ))) (bp points : Points ℝ) (s : SF ℝ) (L : Nat → Fl ℝ) (G P : Nat → Nat → ℝ),
    BuiltGrid g 1 2 lats lons .cartesian ∧ g.toPoints = ok bp ∧
    EnsPoints RTree.scan Arma.exact bp points s 5 L G ∧ Correlations RTree.scan s bp points L G P ∧ points.size = 2 ∧
    Box 1 2 3 [[[fin 1, nan, fin 2], [fin 1, fin 2, fin (4 : ℝ)]]] := by
  obtain ⟨g, hgn⟩ : ∃ g : Grid ℝ, Grid.new [[fin 0, fin 0]] [[fin 0, fin 9]] [] [] .cartesian = ok g := by
    have r1 : Rect 1 2 [[fin (0 : ℝ), fin 0]] := by simp [Rect]
    have r2 : Rect 1 2 [[fin (0 : ℝ), fin 9]] := by simp [Rect]
    simp [Grid.new, grid2_copy r1, grid2_copy r2, KDTree.new, List.range_succ, mapM_cons, convertCoordinates, isValidLat, isValidLon, vget]
  have hg : BuiltGrid g 1 2 [[fin 0, fin 0]] [[fin 0, fin 9]] .cartesian :=
    ⟨by norm_num, by norm_num, by simp [Rect], by simp [Rect], [], [], Or.inl rfl, Or.inl rfl, hgn⟩
  obtain ⟨bp, h1, h2, h3, h4, h5, h6⟩ := hg.pointsWF
  obtain ⟨points, hpoints⟩ : ∃ points : Points ℝ, Points.new [fin 0, fin 0] [fin 1, fin 2] [] [] .cartesian = ok points := by
    simp [Points.new, KDTree.new, List.range_succ, mapM_cons, convertCoordinates, isValidLat, isValidLon, vget]
  have w2 := BuiltPoints.pointsWF ⟨_, _, hpoints⟩
  obtain ⟨f1, -, -, -, -, -, f3, -⟩ := Points.new_ok hpoints
  have n2 : points.size = 2 := by unfold Points.size; rw [f1]; rfl
  obtain ⟨L, G, P, hc⟩ := c51_correlations RTree.scan (SF.cressman (fin 3) (fin 0) (fin 0)) bp points h2 w2 (fun _ _ _ => trivial) (fun _ _ _ => trivial)
  refine ⟨g, _, _, bp, points, _, L, G, P, hg, h1, ⟨RTree.scan_lawful, Arma.exact_libraries, h2, w2, ?_, by omega, by omega, by norm_num,
    hc.toCell⟩, hc, n2, ?_⟩
  · rw [h4]; unfold Points.type; rw [f3]
  · constructor
    · simp [Rect]
    · simp

/-- A member with a missing value before a complete one: `ebesc` throws (`c52_ebesc_gap` on numbers). -/
example (A : Arma ℚ) (hA : A = ⟨fun _ => ok [], id⟩) :
    (do let bp ← Points.new [fin (0 : ℚ)] [fin 0] [] [] .cartesian
        let points ← Points.new [fin 0] [fin 1] [] [] .cartesian
        ebescPoints RTree.scan A bp [fin 1] [[nan, fin 2, fin 3]] points [[fin 1, fin 1, fin 1]] [fin 1] [[fin 1, fin 2, fin 3]]
          (.cressman (fin 3) (fin 0) (fin 0)) 0 true) = .throw .logicError := by
  subst hA
  decide +kernel

/-- Two observations and one output point: `ebe` writes out of range (`c52_ebe_out_of_range` on numbers). -/
example (A : Arma ℚ) (hA : A = ⟨fun _ => ok [], id⟩) :
    (do let bp ← Points.new [fin (0 : ℚ)] [fin 0] [] [] .cartesian
        let points ← Points.new [fin 0, fin 0] [fin 1, fin 2] [] [] .cartesian
        ebePoints RTree.scan A bp [fin 1] [[fin 1, fin 2]] [[fin 1, fin 2]] points [[fin 1, fin 1], [fin 1, fin 1]] [fin 1, fin 1]
          [[fin 1, fin 2], [fin 1, fin 2]] [[fin 1, fin 2], [fin 1, fin 2]] (.cressman (fin 3) (fin 0) (fin 0)) 0 true) = .ub := by
  subst hA
  decide +kernel

end Gridpp.Props
