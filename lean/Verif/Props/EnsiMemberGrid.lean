import Verif.Props.EnsiMember
import Verif.Props.EnsiCases

/-! Properties C78 and C79 for grids; the assumptions can be met. -/

set_option linter.unusedSectionVars false

namespace Gridpp.Props
open Fl Res

section
variable {K : Type} [Field K] [LinearOrder K] [IsStrictOrderedRing K] [HasGeo K] [LawfulSqrt K] [HasExp K]
variable {T : RTree K} {bp points : Points K} {s : SF K} {maxPoints : Int} {L : Nat → Fl K} {G P : Nat → Nat → K}
variable {pbg pobs : List (List (Fl K))} {pratios : List (Fl K)} {E n : Nat} {b p o : Nat → Nat → K} {ratio br : Nat → K}
variable {g : Grid K} {Y X : Nat} {lats lons : List (List (Fl K))} {type : CoordType} {background : List (List (List (Fl K)))}

/-- `Memberwise` for a grid: cell (y, x) is output point `y * X + x`. -/
def MemberwiseGrid (res : Res (List (List (List (Fl K))))) (background : List (List (List (Fl K)))) (Y X E n : Nat) (b : Nat → Nat → K)
    (br : Nat → K) (usable : Nat → Nat → Prop) (rho : Nat → Nat → K) (max : Nat) (g C : Nat → Nat → K) (ratio : Nat → K)
    (d : Nat → Nat → K) (extrap : Bool) : Prop :=
  (∃ out, res = ok out ∧ Box Y X E out ∧ ∀ y < Y, ∀ x < X, ∃ row brow, cell? out y x = some row ∧ cell? background y x = some brow ∧
    ∃ (m : Nat) (sel : Fin m → Nat) (inc : Nat → K), Spec.Selection (usable (y * X + x)) (rho (y * X + x)) max sel ∧
    Spec.MemberwiseOI sel (g (y * X + x)) C ratio d (br (y * X + x)) extrap n inc ∧
    (∀ e < n, row[e]? = some (fin (b (y * X + x) e + inc e))) ∧ ∀ e, n ≤ e → row[e]? = brow[e]?) ∨
  (res = .throw .runtimeError ∧ ∃ y < Y * X, ∃ (m : Nat) (sel : Fin m → Nat), Spec.Selection (usable y) (rho y) max sel ∧
    (Spec.system sel C ratio).det = 0)

theorem memberwise_grid {r : Res (List (List (Fl K)))} (hb : Box Y X E background) {usable : Nat → Nat → Prop}
    {rho : Nat → Nat → K} {max : Nat} {gc C : Nat → Nat → K} {d : Nat → Nat → K} {extrap : Bool}
    (h : Memberwise r background.flatten (Y * X) E n b br usable rho max gc C ratio d extrap) :
    MemberwiseGrid (do let o ← r; unflatten3 Y X E o) background Y X E n b br usable rho max gc C ratio d extrap := by
  rcases h with ⟨o1, h1, h2, h3⟩ | ⟨h1, h2⟩
  · left
    obtain ⟨out, g1, g2, g3⟩ := unflatten3_eq h2
    refine ⟨out, by rw [h1, ok_bind, g1], g2, fun y hy x hx => ?_⟩
    obtain ⟨c, g4, g5⟩ := g3 y hy x hx
    obtain ⟨brow, hb1⟩ := hb.1.cell?_some hy hx
    have hb2 := flatten_getElem? (y := y) hb.1 hx
    rw [hb1] at hb2
    obtain ⟨m, sel, inc, c1, c2, c3, c4⟩ := h3 (y * X + x) ((c15_bijection Y X).2 y hy x hx).1
    unfold cell? at c3 c4
    rw [g5] at c3 c4
    rw [hb2] at c4
    exact ⟨c, brow, g4, hb1, m, sel, inc, c1, c2, c3, c4⟩
  · right
    exact ⟨by rw [h1]; rfl, h2⟩

/-- `optimal_interpolation_ensi_multi_ebesc` for grids. -/
theorem c78_ebesc_grid {A : Arma K} (hA : A.Lawful) (hg : BuiltGrid g Y X lats lons type) (hbp : g.toPoints = ok bp)
    (h : EnsPoints T A bp points s maxPoints L G) (hc : Correlations T s bp points L G P) {bratios : List (List (Fl K))}
    (hbr : Rect Y X bratios) (hb : Box Y X E background)
    (hd : MultiData bp points (background.flatten ++ pbg) background.flatten pbg pobs pratios bratios.flatten E n b p o ratio br)
    (extrap : Bool) :
    MemberwiseGrid (ebescGrid T A g bratios background points pobs pratios pbg s maxPoints extrap) background Y X E n b br
      (fun y => UsableObs bp points (fun i => ∃ v, cell? pobs i 0 = some (fin v)) (L y) (G y) y) G maxPoints.toNat G P ratio
      (fun i e => o i e - p i e) extrap := by
  have s1 := (sizes_of_grid hg hbp h).1
  rw [ebescGrid_eq hg hbp h hbr hb hd.hpobs hd.hrat hd.hpbg extrap]
  apply memberwise_grid hb
  rw [← s1]
  exact c78_ebesc hA h hc hd extrap

/-- `optimal_interpolation_ensi_multi_ebe` for grids. -/
theorem c79_ebe_grid_partial {A : Arma K} (hA : A.Lawful) (hg : BuiltGrid g Y X lats lons type) (hbp : g.toPoints = ok bp)
    (h : EnsPoints T A bp points s maxPoints L G) (hc : Correlations T s bp points L G P) {bratios : List (List (Fl K))}
    {backgroundc : List (List (List (Fl K)))} {pbgc : List (List (Fl K))} {bc pc : Nat → Nat → K}
    (hbr : Rect Y X bratios) (hb : Box Y X E background) (hbc : Box Y X E backgroundc)
    (hd : MultiData bp points (background.flatten ++ backgroundc.flatten ++ pbg ++ pbgc) background.flatten pbg pobs pratios bratios.flatten
      E n b p o ratio br) (hpbgc : Rect points.size E pbgc) (hsize : points.size ≤ Y * X)
    (hbcv : ∀ y < bp.size, ∀ e < n, cell? backgroundc.flatten y e = some (fin (bc y e)))
    (hpcv : ∀ i < points.size, ∀ e < n, cell? pbgc i e = some (fin (pc i e))) (extrap : Bool) :
    MemberwiseGrid (ebeGrid T A g bratios background backgroundc points pobs pratios pbg pbgc s maxPoints extrap) background Y X E n b br
      (fun y => UsableObs bp points (fun i => ∃ v, cell? pobs i 0 = some (fin v)) (L y) (G y) y) G maxPoints.toNat
      (fun y i => G y i * ((n : K) / ((n : K) - 1) * Spec.ensCorrOr0 (Finset.range n) (bc y) (pc i)))
      (fun i j => P i j * ((n : K) / ((n : K) - 1) * Spec.ensCorrOr0 (Finset.range n) (pc i) (pc j))) ratio
      (fun i e => o i e - p i e) extrap := by
  have s1 := (sizes_of_grid hg hbp h).1
  rw [ebeGrid_eq hg hbp h hbr hb hbc hd.hpobs hd.hrat hd.hpbg hpbgc extrap]
  apply memberwise_grid hb
  rw [← s1]
  exact c79_ebe_partial hA h hc hd (by rw [s1]; exact hbc.flat) hpbgc (by rw [s1]; exact hsize) hbcv hpcv extrap

end

/-- Two output points and two observations on a line, three members, the last of which has a missing value; the second
observation is missing: the assumptions of the theorems for points are met, also with both ensembles the same. -/
example : ∃ (bp points : Points ℝ) (s : SF ℝ) (L : Nat → Fl ℝ) (G P : Nat → Nat → ℝ) (b p o : Nat → Nat → ℝ) (ratio br : Nat → ℝ),
    EnsPoints RTree.scan Arma.exact bp points s 5 L G ∧ Correlations RTree.scan s bp points L G P ∧ Arma.exact.Lawful (K := ℝ) ∧
    MultiData bp points ([[fin 1, fin 2, nan], [fin 1, fin 4, fin 7]] ++ [[fin 1, fin 3, fin 5], [fin 0, fin 2, fin 2]])
      [[fin 1, fin 2, nan], [fin 1, fin 4, fin 7]] [[fin 1, fin 3, fin 5], [fin 0, fin 2, fin 2]]
      [[fin 5, fin 6, fin 7], [nan, fin 1, fin 1]] [fin 1, nan] [fin 1, fin 2] 3 2 b p o ratio br ∧
    MultiData bp points ([[fin 1, fin 2, nan], [fin 1, fin 4, fin 7]] ++ [[fin 1, fin 2, nan], [fin 1, fin 4, fin 7]] ++
      [[fin 1, fin 3, fin 5], [fin 0, fin 2, fin 2]] ++ [[fin 1, fin 3, fin 5], [fin 0, fin 2, fin 2]])
      [[fin 1, fin 2, nan], [fin 1, fin 4, fin 7]] [[fin 1, fin 3, fin 5], [fin 0, fin 2, fin 2]]
      [[fin 5, fin 6, fin 7], [nan, fin 1, fin 1]] [fin 1, nan] [fin 1, fin 2] 3 2 b p o ratio br ∧
    bp.size = 2 ∧ points.size = 2 := by
  obtain ⟨bp, hbp⟩ : ∃ bp : Points ℝ, Points.new [fin 0, fin 0] [fin 0, fin 9] [] [] .cartesian = ok bp := by
    simp [Points.new, KDTree.new, List.range_succ, mapM_cons, convertCoordinates, isValidLat, isValidLon, vget]
  obtain ⟨points, hpoints⟩ : ∃ points : Points ℝ, Points.new [fin 0, fin 0] [fin 1, fin 2] [] [] .cartesian = ok points := by
    simp [Points.new, KDTree.new, List.range_succ, mapM_cons, convertCoordinates, isValidLat, isValidLon, vget]
  have w1 := BuiltPoints.pointsWF ⟨_, _, hbp⟩
  have w2 := BuiltPoints.pointsWF ⟨_, _, hpoints⟩
  obtain ⟨e1, -, -, -, -, -, e3, -⟩ := Points.new_ok hbp
  obtain ⟨f1, -, -, -, -, -, f3, -⟩ := Points.new_ok hpoints
  have n1 : bp.size = 2 := by unfold Points.size; rw [e1]; rfl
  have n2 : points.size = 2 := by unfold Points.size; rw [f1]; rfl
  obtain ⟨L, G, P, hc⟩ := c51_correlations RTree.scan (SF.cressman (fin 3) (fin 0) (fin 0)) bp points w1 w2 (fun _ _ _ => trivial) (fun _ _ _ => trivial)
  have hdata : ∀ all : List (List (Fl ℝ)), (∀ e, e < 2 ↔ e < 3 ∧ Complete all e) → MultiData bp points all
      [[fin 1, fin 2, nan], [fin 1, fin 4, fin 7]] [[fin 1, fin 3, fin 5], [fin 0, fin 2, fin 2]]
      [[fin 5, fin 6, fin 7], [nan, fin 1, fin 1]] [fin 1, nan] [fin 1, fin 2] 3 2
      (fun y e => if e = 0 then 1 else if y = 0 then 2 else 4) (fun i e => if i = 0 then (if e = 0 then 1 else 3) else (if e = 0 then 0 else 2))
      (fun _ e => if e = 0 then 5 else 6) (fun _ => 1) (fun y => if y = 0 then 1 else 2) := by
    intro all hall
    refine ⟨by norm_num, by rw [n1]; simp [Rect], by rw [n2]; simp [Rect], by rw [n2]; simp [Rect], by rw [n2]; rfl, by rw [n1]; rfl,
      hall, ?_, ?_, ?_, ?_, ?_⟩
    · rw [n1]
      intro y hy e he
      rcases y with _ | _ | y
      · rcases e with _ | _ | e
        · simp [cell?]
        · simp [cell?]
        · omega
      · rcases e with _ | _ | e
        · simp [cell?]
        · simp [cell?]
        · omega
      · omega
    · rw [n2]
      intro y hy e he
      rcases y with _ | _ | y
      · rcases e with _ | _ | e
        · simp [cell?]
        · simp [cell?]
        · omega
      · rcases e with _ | _ | e
        · simp [cell?]
        · simp [cell?]
        · omega
      · omega
    · rw [n2]
      rintro y hy ⟨v, hv⟩ e he
      rcases y with _ | _ | y
      · rcases e with _ | _ | e
        · simp [cell?]
        · simp [cell?]
        · omega
      · simp [cell?] at hv
      · omega
    · rw [n2]
      rintro y hy ⟨v, hv⟩
      rcases y with _ | _ | y
      · simp
      · simp [cell?] at hv
      · omega
    · rw [n1]
      intro y hy
      rcases y with _ | _ | y
      · simp
      · simp
      · omega
  refine ⟨bp, points, _, L, G, P, _, _, _, _, _, ⟨RTree.scan_lawful, Arma.exact_libraries, w1, w2, ?_, by omega, by omega, by norm_num, hc.toCell⟩,
    hc, Arma.exact_lawful, hdata _ ?_, hdata _ ?_, n1, n2⟩
  · unfold Points.type; rw [e3, f3]
  · intro e
    rcases e with _ | _ | _ | e <;> simp [Complete]
  · intro e
    rcases e with _ | _ | _ | e <;> simp [Complete]

/-- A quantity with a standard deviation above 0.0013. -/
example : (13 / 10000 : ℝ) < Spec.ensSpread (Finset.range 2) fun e => if e = 0 then 1 else 3 := by
  have : Spec.ensSpread (Finset.range 2) (fun e => if e = 0 then (1 : ℝ) else 3) = 1 := by
    unfold Spec.ensSpread
    apply sqrt_unique
    · simp [Finset.sum_range_succ, Spec.ensMean]; norm_num
    · norm_num
    · simp [Finset.sum_range_succ, Spec.ensMean]; norm_num
  rw [this]
  norm_num

end Gridpp.Props
