import Verif.Props.EnsiUnits
import Verif.Props.EnsiClamp
import Verif.Props.OICases

/-!
# C174 for grids, concrete cases and a counterexample

The ensembles in other units for the grid versions (oi_ensi.cpp:33-109; oi_ensi_multi.cpp:34-134, 137-223). The claim is false
of the second ensemble of `optimal_interpolation_ensi_multi_ebe`, because of the constant `default_min_std`
(oi_ensi_multi.cpp:361).
-/

set_option linter.unusedSectionVars false

namespace Gridpp.Props

open Gridpp Gridpp.Fl Gridpp.Res Gridpp.Spec

section
variable {K : Type} [Field K] [LinearOrder K] [IsStrictOrderedRing K]

theorem flatten3_map (f : Fl K → Fl K) (Y X E : Nat) (v : List (List (List (Fl K)))) :
    flatten3 Y X E (v.map (List.map (List.map f))) = List.map (List.map f) <$> flatten3 Y X E v := by
  unfold flatten3
  simp only [vget2_map, map_bind_eq, vget_map, mapM_map_eq]
  simp only [← bind_map_eq, grid2_map_eq, map_bind_eq]
  simp only [bind_map_eq, map_ok, List.map_flatten]

theorem unflatten3_map (f : Fl K → Fl K) (Y X E : Nat) (v : List (List (Fl K))) :
    unflatten3 Y X E (v.map (List.map f)) = List.map (List.map (List.map f)) <$> unflatten3 Y X E v := by
  unfold unflatten3
  simp only [map_bind_eq, vget_map, mapM_map_eq]
  simp only [← bind_map_eq, grid2_map_eq]

theorem ensInUnits_const (c d : K) (l : List (List (Fl K))) : ensInUnits c (fun _ => d) l = l.map (List.map (inUnits c d)) := by
  unfold ensInUnits
  apply List.ext_getElem <;> simp

theorem multiCheck2_units (c : K) (o : Nat → K) (a b : Nat) (v : List (List (Fl K))) : multiCheck2 a b (ensInUnits c o v) = multiCheck2 a b v := by
  have h0 : vget (ensInUnits c o v) 0 = (List.map (inUnits c (o 0))) <$> vget v 0 := vget_ensInUnits c o v 0
  unfold multiCheck2
  simp only [h0, map_bind_eq, List.length_map, length_ensInUnits]

theorem multiGridSizes_map (f : Fl K → Fl K) (g : Grid K) (points : Points K) (v : List (List (List (Fl K)))) :
    multiGridSizes g points (v.map (List.map (List.map f))) = multiGridSizes g points v := by
  unfold multiGridSizes
  simp only [vget_map, map_bind_eq, List.length_map]

/-- **C174**: `optimal_interpolation_ensi` for grids. -/
theorem c174_grid [HasGeo K] [HasSqrt K] [HasExp K] (c d : K) (hc : c ≠ 0) (o : Nat → K) (T : RTree K) (A : ArmaE K) (g : Grid K)
    (background : List (List (List (Fl K)))) (points : Points K) (pobs psigmas : List (Fl K)) (pbg : List (List (Fl K))) (s : SF K) (maxPoints : Int) (extrap : Bool) :
    ensiGrid T A g (background.map (List.map (List.map (inUnits c d)))) points (inUnitsEach c o pobs) (psigmas.map (fin |c| * ·)) (ensInUnits c o pbg) s maxPoints extrap =
      List.map (List.map (List.map (inUnits c d))) <$> ensiGrid T A g background points pobs psigmas pbg s maxPoints extrap := by
  have key := fun bp b => c174_points c hc (fun _ => d) o T A bp b points pobs psigmas pbg s maxPoints extrap
  have hu : (ensInUnits c fun _ => d) = List.map (List.map (inUnits c d)) := funext fun l => ensInUnits_const c d l
  have h0 : vget (ensInUnits c o pbg) 0 = (List.map (inUnits c (o 0))) <$> vget pbg 0 := vget_ensInUnits c o pbg 0
  simp only [ensInUnits_const, hu] at key
  unfold ensiGrid
  simp only [length_inUnitsEach, List.length_map, h0, vget_map, map_bind_eq, flatten3_map, key, unflatten3_map]
  by_cases h1 : maxPoints < 0
  · rw [if_pos h1, if_pos h1]; rfl
  rw [if_neg h1, if_neg h1]
  by_cases h2 : points.size = 0
  · rw [if_pos h2, if_pos h2]; rfl
  rw [if_neg h2, if_neg h2, bind_map_eq]
  congr 1
  funext n
  by_cases h3 : n.1 = 0 ∨ n.2 = 0
  · rw [if_pos h3, if_pos h3]; rfl
  rw [if_neg h3, if_neg h3]
  by_cases h4 : g.type ≠ points.type
  · rw [if_pos h4, if_pos h4]; rfl
  rw [if_neg h4, if_neg h4, bind_map_eq]
  congr 1
  funext b0
  by_cases h5 : background.length ≠ n.1 ∨ b0.length ≠ n.2
  · rw [if_pos h5, if_pos h5]; rfl
  rw [if_neg h5, if_neg h5, bind_map_eq]
  congr 1
  funext b00
  by_cases h6 : pobs.length ≠ points.size
  · rw [if_pos h6, if_pos h6]; rfl
  rw [if_neg h6, if_neg h6]
  by_cases h7 : psigmas.length ≠ points.size
  · rw [if_pos h7, if_pos h7]; rfl
  rw [if_neg h7, if_neg h7, bind_map_eq]
  congr 1
  funext p0
  by_cases h8 : b00.length ≠ p0.length
  · rw [if_pos h8, if_pos h8]; rfl
  rw [if_neg h8, if_neg h8]
  simp only [bind_map_eq]

/-- **C174**: `optimal_interpolation_ensi_multi_ebesc` for grids. -/
theorem c174_ebesc_grid [HasGeo K] [HasSqrt K] [HasExp K] (c d : K) (hc : c ≠ 0) (o : Nat → K) (T : RTree K) (A : Arma K) (g : Grid K) (bratios : List (List (Fl K)))
    (background : List (List (List (Fl K)))) (points : Points K) (pobs : List (List (Fl K))) (pratios : List (Fl K)) (pbg : List (List (Fl K))) (s : SF K) (maxPoints : Int)
    (extrap : Bool) :
    ebescGrid T A g bratios (background.map (List.map (List.map (inUnits c d)))) points (ensInUnits c o pobs) pratios (ensInUnits c o pbg) s maxPoints extrap =
      List.map (List.map (List.map (inUnits c d))) <$> ebescGrid T A g bratios background points pobs pratios pbg s maxPoints extrap := by
  have key := fun bp r b => c174_ebesc c hc (fun _ => d) o T A bp r b points pobs pratios pbg s maxPoints extrap
  have hu : (ensInUnits c fun _ => d) = List.map (List.map (inUnits c d)) := funext fun l => ensInUnits_const c d l
  simp only [ensInUnits_const, hu] at key
  unfold ebescGrid
  simp only [multiCheck2_units, multiGridSizes_map, map_bind_eq, flatten3_map, key, unflatten3_map]
  by_cases h1 : maxPoints < 0
  · rw [if_pos h1, if_pos h1]; rfl
  rw [if_neg h1, if_neg h1]
  by_cases h2 : points.size = 0
  · rw [if_pos h2, if_pos h2]; rfl
  rw [if_neg h2, if_neg h2]
  by_cases h3 : pratios.length ≠ points.size
  · simp only [if_pos h3, bind_map_eq]; rfl
  simp only [if_neg h3, bind_map_eq]

/-- **C174**: `optimal_interpolation_ensi_multi_ebe` for grids, the first ensemble in other units. -/
theorem c174_ebe_grid [HasGeo K] [HasSqrt K] [HasExp K] (c d : K) (hc : c ≠ 0) (o : Nat → K) (T : RTree K) (A : Arma K) (g : Grid K) (bratios : List (List (Fl K)))
    (background backgroundc : List (List (List (Fl K)))) (points : Points K) (pobs : List (List (Fl K))) (pratios : List (Fl K)) (pbg pbgc : List (List (Fl K))) (s : SF K)
    (maxPoints : Int) (extrap : Bool) :
    ebeGrid T A g bratios (background.map (List.map (List.map (inUnits c d)))) backgroundc points (ensInUnits c o pobs) pratios (ensInUnits c o pbg) pbgc s maxPoints extrap =
      List.map (List.map (List.map (inUnits c d))) <$> ebeGrid T A g bratios background backgroundc points pobs pratios pbg pbgc s maxPoints extrap := by
  have key := fun bp r b bc => c174_ebe c hc (fun _ => d) o T A bp r b bc points pobs pratios pbg pbgc s maxPoints extrap
  have hu : (ensInUnits c fun _ => d) = List.map (List.map (inUnits c d)) := funext fun l => ensInUnits_const c d l
  simp only [ensInUnits_const, hu] at key
  unfold ebeGrid
  simp only [multiCheck2_units, multiGridSizes_map, map_bind_eq, flatten3_map, key, unflatten3_map]
  by_cases h1 : maxPoints < 0
  · rw [if_pos h1, if_pos h1]; rfl
  rw [if_neg h1, if_neg h1]
  by_cases h2 : points.size = 0
  · rw [if_pos h2, if_pos h2]; rfl
  rw [if_neg h2, if_neg h2]
  by_cases h3 : pratios.length ≠ points.size
  · simp only [if_pos h3, bind_map_eq]; rfl
  simp only [if_neg h3, bind_map_eq]

end

/-! ### Concrete cases -/

/-- A library for matrices with one element. -/
def oneArma : Arma ℚ := ⟨fun m => match m with
  | [[fin q]] => ok [[fin (1 / q)]]
  | _ => ub, id⟩

/-- An output point and an observation beside it, and an ensemble of two members. -/
def lineEbe (background backgroundc pobs pbg pbgc : List (List (Fl ℚ))) : Res (List (List (Fl ℚ))) := do
  let bp ← Points.new [fin 0] [fin 0] [] [] .cartesian
  let points ← Points.new [fin 0] [fin 1] [] [] .cartesian
  ebePoints RTree.scan oneArma bp [fin 1] background backgroundc points pobs [fin 1] pbg pbgc (.cressman (fin 3) (fin 0) (fin 0)) 0 true

/-- The same for `ebesc`. -/
def lineEbesc (background pobs pbg : List (List (Fl ℚ))) : Res (List (List (Fl ℚ))) := do
  let bp ← Points.new [fin 0] [fin 0] [] [] .cartesian
  let points ← Points.new [fin 0] [fin 1] [] [] .cartesian
  ebescPoints RTree.scan oneArma bp [fin 1] background points pobs [fin 1] pbg (.cressman (fin 3) (fin 0) (fin 0)) 0 true

/-- The ensemble of `c77_wrong_member` with the values in other units: twice the values and the opposite sign. -/
def WrongMember.callUnits (extrap : Bool) : Res (List (List (Fl ℚ))) := do
  let bp ← Points.new [fin 0] [fin 0] [] [] .cartesian
  let points ← Points.new [fin 0, fin 0] [fin 1, fin (-1)] [] [] .cartesian
  ensiPoints RTree.scan WrongMember.lib bp [[fin (-24), fin (-24), fin (-16), fin (-16)]] points [fin (-10), fin (-10)] [fin (4 / 3), fin (8 / 3)]
    [[fin (-8), fin (-8), fin (-12), fin (-12)], [fin (-8), fin (-8), fin (-12), fin (-12)]] (.cressman (fin 3) (fin 0) (fin 0)) 0 extrap

example : WrongMember.call false = ok [[fin 12, fin 12, fin 9, fin 9]] ∧
    WrongMember.callUnits false = ok [[fin (-24), fin (-24), fin (-18), fin (-18)]] := by
  decide +kernel

/-- Members in degrees Celsius and in degrees Fahrenheit. -/
example : lineEbe [[fin 10, fin 20]] [[fin 1, fin 3]] [[fin 15, fin 15]] [[fin 0, fin 30]] [[fin 1, fin 3]] = ok [[fin 18, fin 12]] ∧
    lineEbe [[fin 50, fin 68]] [[fin 1, fin 3]] [[fin 59, fin 59]] [[fin 32, fin 86]] [[fin 1, fin 3]] = ok [[fin (322 / 5), fin (268 / 5)]] ∧
    ensInUnits (9 / 5) (fun _ => 32) [[fin 18, fin 12]] = ([[fin (322 / 5), fin (268 / 5)]] : List (List (Fl ℚ))) ∧
    lineEbesc [[fin 10, fin 20]] [[fin 15, fin 15]] [[fin 0, fin 30]] = ok [[fin 16, fin 14]] ∧
    lineEbesc [[fin 50, fin 68]] [[fin 59, fin 59]] [[fin 32, fin 86]] = ok [[fin (304 / 5), fin (286 / 5)]] := by
  decide +kernel

/-- The claim is false of the second ensemble: with its values divided by 1000 (metres in kilometres) the standard deviation falls below the constant
`default_min_std`, all correlations are 0 and the observation has no effect. -/
theorem c174_second_ensemble : lineEbe [[fin 10, fin 20]] [[fin 1, fin 3]] [[fin 15, fin 15]] [[fin 0, fin 30]] [[fin 1, fin 3]] = ok [[fin 18, fin 12]] ∧
    lineEbe [[fin 10, fin 20]] (ensInUnits (1 / 1000) (fun _ => 0) [[fin 1, fin 3]]) [[fin 15, fin 15]] [[fin 0, fin 30]]
      (ensInUnits (1 / 1000) (fun _ => 0) [[fin 1, fin 3]]) = ok [[fin 10, fin 20]] := by
  decide +kernel

end Gridpp.Props
