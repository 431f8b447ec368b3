import Verif.Base.Exp
import Verif.Model.Geo

/-!
# src/api/structure.cpp: correlation functions

Simplifications, common to the file:
* `BarnesStructure`, `SoarStructure`, `ToarStructure`, `PowerlawStructure` and `LinearStructure` are textual copies of each
  other but for the correlation function, the minimum correlation and the localization distance; they are one structure
  `Scaled` with a `Kind` here. The line numbers cited are those of Barnes;
* arithmetic is exact (the source mixes float and double);
* `abs(float)` in `linear_rho` is the floating-point overload (both overloads are visible through the headers).
-/

set_option linter.unusedSectionVars false

namespace Gridpp

open Fl Res

/-- The five classes with a horizontal, vertical and land-fraction scale that may vary in space. -/
inductive Kind where
  | barnes | soar | toar | powerlaw | linear
  deriving DecidableEq, Repr

section
variable {K : Type} [Field K] [LinearOrder K] [HasExp K] [HasSqrt K]

/-- `barnes_rho` (structure.cpp:26-34). -/
def barnesRho (dist length : Fl K) : Fl K :=
  if !length.isValid || length.feq 0 then 1
  else if !dist.isValid then 0
  else exp (fin (-(1 / 2)) * (dist / length) * (dist / length))

/-- `cressman_rho` (structure.cpp:35-44). -/
def cressmanRho (dist length : Fl K) : Fl K :=
  if !length.isValid || length.feq 0 then 1
  else if !dist.isValid then 0
  else if dist.ge length then 0
  else (length * length - dist * dist) / (length * length + dist * dist)

/-- `soar_rho` (structure.cpp:46-54). -/
def soarRho (dist length : Fl K) : Fl K :=
  if !length.isValid || length.feq 0 then 1
  else if !dist.isValid then 0
  else (1 + dist / length) * exp (-(dist / length))

/-- `toar_rho` (structure.cpp:56-64). -/
def toarRho (dist length : Fl K) : Fl K :=
  if !length.isValid || length.feq 0 then 1
  else if !dist.isValid then 0
  else (1 + dist / length + (dist / length * (dist / length)) / fin 3) * exp (-(dist / length))

/-- `powerlaw_rho` (structure.cpp:66-74). -/
def powerlawRho (dist length : Fl K) : Fl K :=
  if !length.isValid || length.feq 0 then 1
  else if !dist.isValid then 0
  else 1 / (1 + fin (1 / 2) * (dist / length) * (dist / length))

/-- `linear_rho` (structure.cpp:76-86). -/
def linearRho (diff minCorr : Fl K) : Fl K :=
  if !minCorr.isValid || minCorr.lt 0 then 1
  else if !diff.isValid then 0
  else 1 - (1 - minCorr) * (if diff.abs.gt 1 then 1 else diff.abs)

/-- The correlation function of each class. -/
def Kind.rho : Kind → Fl K → Fl K → Fl K
  | .barnes => barnesRho
  | .soar => soarRho
  | .toar => toarRho
  | .powerlaw => powerlawRho
  | .linear => linearRho

/-- `default_min_rho` (structure.cpp:5). -/
def defaultMinRho : Fl K := fin (13 / 10000)

/-- `m_min_rho` from `hmax` (structure.cpp:153-156, 328-331, 478-481, 629-632, 776-779). -/
def Kind.minRho (k : Kind) (h hmax : Fl K) : Fl K :=
  if !hmax.isValid then defaultMinRho
  else match k with
    | .barnes => exp ((hmax / h) * (hmax / h) / fin (-2))
    | .soar => (1 + hmax / h) * exp (-hmax / h)
    | .toar => (1 + hmax / h + (hmax / h) * (hmax / h) / fin 3) * exp (-hmax / h)
    | .powerlaw => 1 / (1 + fin (1 / 2) * ((hmax / h) * (hmax / h)))
    | .linear => defaultMinRho

/-- `localization_distance(float h)` (structure.cpp:281-283, 454-459, 604-610, 755-757, 902-904). -/
def Kind.locDist (k : Kind) (minRho h : Fl K) : Fl K :=
  match k with
  | .barnes => sqrt (fin (-2) * log minRho) * h
  | .soar => (-(log minRho) + log (-(log minRho))) * h
  | .toar => (-(log minRho) + log (-(log minRho)) + fin (1 / 2) * log (-(log minRho))) * h
  | .powerlaw => sqrt (fin 2 * (1 - minRho) / minRho) * h
  | .linear => 0

/-- The fields of the five classes (include/gridpp.h:2101-2360). -/
structure Scaled (K : Type) where
  kind : Kind
  grid : Grid K
  mH : List (List (Fl K))
  mV : List (List (Fl K))
  mW : List (List (Fl K))
  minRho : Fl K
  spatial : Bool

/-- `Grid()`. -/
def Grid.empty : Grid K := ⟨[], [], [], [], 0, KDTree.empty .geodetic⟩

/-- A parameter that must be a number `>= 0` (structure.cpp:146-151). -/
def badScale (x : Fl K) : Bool := !x.isValid || x.lt 0

/-- `BarnesStructure(float h, float v, float w, float hmax)` and its copies (structure.cpp:142-166). -/
def Scaled.new (k : Kind) (h v w hmax : Fl K) : Res (Scaled K) :=
  if hmax.isValid && hmax.lt 0 then throw .invalidArgument
  else if badScale h then throw .invalidArgument
  else if badScale v then throw .invalidArgument
  else if badScale w then throw .invalidArgument
  else ok ⟨k, Grid.empty, [[h]], [[v]], [[w]], k.minRho h hmax, false⟩

/-- `BarnesStructure(Grid, vec2 h, vec2 v, vec2 w, float min_rho)` and its copies (structure.cpp:167-183). The size
comparisons read `h[0]`, `v[0]`, `w[0]` of possibly empty vectors. -/
def Scaled.newSpatial (k : Kind) (grid : Grid K) (h v w : List (List (Fl K))) (minRho : Fl K) : Res (Scaled K) :=
  if h.length == 1 && (h.headD []).length == 1 && v.length == 1 && (v.headD []).length == 1 && w.length == 1 && (w.headD []).length == 1 then
    ok ⟨k, grid, h, v, w, minRho, false⟩
  else do
    let s ← grid.size
    if s.1 != h.length || s.1 != v.length || s.1 != w.length then throw .invalidArgument
    else do
      let h0 ← vget h 0
      let v0 ← vget v 0
      let w0 ← vget w 0
      if s.2 != h0.length || s.2 != v0.length || s.2 != w0.length then throw .invalidArgument
      else ok ⟨k, grid, h, v, w, minRho, true⟩

/-- `KDTree::calc_straight_distance(Point, Point)` (kdtree.cpp:189-194). -/
def Point.distance (p q : Point K) : Fl K :=
  sqrt ((p.x - q.x) * (p.x - q.x) + (p.y - q.y) * (p.y - q.y) + (p.z - q.z) * (p.z - q.z))

/-- The product of correlations (structure.cpp:205-213, 219-227). -/
def Kind.product (k : Kind) (p1 p2 : Point K) (hdist h v w : Fl K) : Fl K :=
  let rho := k.rho hdist h
  let rho := if p1.elev.isValid && p2.elev.isValid then rho * k.rho (p1.elev - p2.elev) v else rho
  if p1.laf.isValid && p2.laf.isValid then rho * k.rho (p1.laf - p2.laf) w else rho

/-- `I[0]`, `I[1]` of the nearest neighbour (structure.cpp:189, 234, 274): outside the vector if the grid is empty. -/
def Scaled.nearest [HasGeo K] (T : RTree K) (s : Scaled K) (p : Point K) : Res (Nat × Nat) := do
  let I ← s.grid.getNearestNeighbour T p.lat p.lon true
  match I with
  | none => ub
  | some i => ok i

/-- The scales at the nearest gridpoint (structure.cpp:189-197, 234-242): the tests use `>` instead of `>=`. -/
def Scaled.scales [HasGeo K] (T : RTree K) (s : Scaled K) (p : Point K) : Res (Fl K × Fl K × Fl K) := do
  let i ← s.nearest T p
  if s.mH.length < i.1 then throw .runtimeError
  else do
    let row ← vget s.mH (i.1 : Int)
    if row.length < i.2 then throw .runtimeError
    else do
      let h ← vget2 s.mH i.1 i.2
      let v ← vget2 s.mV i.1 i.2
      let w ← vget2 s.mW i.1 i.2
      ok (h, v, w)

/-- `localization_distance(const Point&)` (structure.cpp:272-280). -/
def Scaled.locDist [HasGeo K] (T : RTree K) (s : Scaled K) (p : Point K) : Res (Fl K) :=
  if s.spatial then do
    let i ← s.nearest T p
    let h ← vget2 s.mH i.1 i.2
    ok (s.kind.locDist s.minRho h)
  else do
    let h ← vget2 s.mH 0 0
    ok (s.kind.locDist s.minRho h)

/-- `corr(const Point&, const Point&)` (structure.cpp:184-230). -/
def Scaled.corr [HasGeo K] (T : RTree K) (s : Scaled K) (p1 p2 : Point K) : Res (Fl K) :=
  let hdist := p1.distance p2
  if s.spatial then do
    let hvw ← s.scales T p1
    if hdist.gt (s.kind.locDist s.minRho hvw.1) then ok 0
    else ok (s.kind.product p1 p2 hdist hvw.1 hvw.2.1 hvw.2.2)
  else do
    let loc ← s.locDist T p1
    if hdist.gt loc then ok 0
    else do
      let h ← vget2 s.mH 0 0
      let v ← vget2 s.mV 0 0
      let w ← vget2 s.mW 0 0
      ok (s.kind.product p1 p2 hdist h v w)

/-- `corr(const Point&, const std::vector<Point>&)` (structure.cpp:231-268). -/
def Scaled.corrVec [HasGeo K] (T : RTree K) (s : Scaled K) (p1 : Point K) (p2 : List (Point K)) : Res (List (Fl K)) :=
  if s.spatial then do
    let hvw ← s.scales T p1
    ok (p2.map fun p => if (p1.distance p).le (s.kind.locDist s.minRho hvw.1) then
        s.kind.product p1 p (p1.distance p) hvw.1 hvw.2.1 hvw.2.2
      else 0)
  else mapM (s.corr T p1) p2

/-- All structure functions (include/gridpp.h:2076-2400): `StructureFunction` is the abstract base class. -/
inductive SF (K : Type) where
  | scaled (s : Scaled K)
  | cressman (h v w : Fl K)
  | multiple (h v w : SF K)
  | crossval (s : SF K) (dist : Fl K)

/-- `CressmanStructure(float h, float v, float w)` (structure.cpp:288-297, 7-12). -/
def SF.newCressman (h v w : Fl K) : Res (SF K) :=
  if badScale h then throw .invalidArgument
  else if badScale v then throw .invalidArgument
  else if badScale w then throw .invalidArgument
  else ok (.cressman h v w)

/-- `clone()` (structure.cpp:269-271, 312-314, 136-138, 939-941), together with the constructors that it calls:
`MultipleStructure(...)` (90-94) and `CrossValidation(...)` (910-916) clone their arguments. -/
def SF.clone : SF K → Res (SF K)
  | .scaled s => do
    let c ← Scaled.newSpatial s.kind s.grid s.mH s.mV s.mW s.minRho
    ok (.scaled c)
  | .cressman h v w => SF.newCressman h v w
  | .multiple h v w => do
    let h ← h.clone
    let v ← v.clone
    let w ← w.clone
    ok (.multiple h v w)
  | .crossval s dist =>
    if badScale dist then throw .invalidArgument
    else do
      let s ← s.clone
      ok (.crossval s dist)

/-- `MultipleStructure(structure_h, structure_v, structure_w)` (structure.cpp:90-94). -/
def SF.newMultiple (h v w : SF K) : Res (SF K) := SF.clone (.multiple h v w)

/-- `CrossValidation(structure, dist)` (structure.cpp:910-916). -/
def SF.newCrossval (s : SF K) (dist : Fl K) : Res (SF K) := SF.clone (.crossval s dist)

/-- `CressmanStructure::corr` (structure.cpp:298-311). -/
def cressmanCorr (h v w : Fl K) (p1 p2 : Point K) : Fl K :=
  let rho := cressmanRho (p1.distance p2) h
  let rho := if p1.elev.isValid && p2.elev.isValid then rho * cressmanRho (p1.elev - p2.elev) v else rho
  if p1.laf.isValid && p2.laf.isValid then rho * cressmanRho (p1.laf - p2.laf) w else rho

/-- `p2_h`, `p2_v`, `p2_w` of `MultipleStructure::corr` (structure.cpp:101, 104, 107, 121-123). -/
def Point.perturbH (p1 p : Point K) : Point K := ⟨p.lat, p.lon, p1.elev, p1.laf, p1.type, p.x, p.y, p.z⟩
def Point.perturbV (p1 p : Point K) : Point K := ⟨p1.lat, p1.lon, p.elev, p1.laf, p1.type, p1.x, p1.y, p1.z⟩
def Point.perturbW (p1 p : Point K) : Point K := ⟨p1.lat, p1.lon, p1.elev, p.laf, p1.type, p1.x, p1.y, p1.z⟩

/-- The virtual function `corr(const Point&, const Point&)` (structure.cpp:184-230, 298-311, 98-112, 917-919). The copies
`p1_h`, `p1_v`, `p1_w` (100, 103, 106) equal `p1`. -/
def SF.corr [HasGeo K] (T : RTree K) : SF K → Point K → Point K → Res (Fl K)
  | .scaled s, p1, p2 => s.corr T p1 p2
  | .cressman h v w, p1, p2 => ok (cressmanCorr h v w p1 p2)
  | .multiple h v w, p1, p2 => do
    let ch ← h.corr T p1 (p1.perturbH p2)
    let cv ← v.corr T p1 (p1.perturbV p2)
    let cw ← w.corr T p1 (p1.perturbW p2)
    ok (ch * cv * cw)
  | .crossval s _, p1, p2 => s.corr T p1 p2

/-- The virtual function `corr(const Point&, const std::vector<Point>&)` (structure.cpp:231-268, 13-19, 113-135).
`CrossValidation` and `CressmanStructure` inherit that of the base class. -/
def SF.corrVec [HasGeo K] (T : RTree K) : SF K → Point K → List (Point K) → Res (List (Fl K))
  | .scaled s, p1, p2 => s.corrVec T p1 p2
  | .cressman h v w, p1, p2 => mapM ((SF.cressman h v w).corr T p1) p2
  | .multiple h v w, p1, p2 => do
    let ch ← h.corrVec T p1 (p2.map p1.perturbH)
    let cv ← v.corrVec T p1 (p2.map p1.perturbV)
    let cw ← w.corrVec T p1 (p2.map p1.perturbW)
    mapM (fun i : Nat => do
      let a ← vget ch (i : Int)
      let b ← vget cv (i : Int)
      let c ← vget cw (i : Int)
      ok (a * b * c)) (List.range p2.length)
  | .crossval s dist, p1, p2 => mapM ((SF.crossval s dist).corr T p1) p2

/-- The virtual function `corr_background(const Point&, const Point&)` (structure.cpp:20-22, 920-927). -/
def SF.corrBg [HasGeo K] (T : RTree K) : SF K → Point K → Point K → Res (Fl K)
  | .crossval s dist, p1, p2 =>
    if dist.isValid && (p1.distance p2).le dist then ok 0 else s.corrBg T p1 p2
  | s, p1, p2 => s.corr T p1 p2

/-- The virtual function `corr_background(const Point&, const std::vector<Point>&)` (structure.cpp:23-25, 928-938). -/
def SF.corrBgVec [HasGeo K] (T : RTree K) : SF K → Point K → List (Point K) → Res (List (Fl K))
  | .crossval s dist, p1, p2 => do
    let curr ← s.corrBgVec T p1 p2
    mapM (fun i : Nat => do
      let p ← vget p2 (i : Int)
      let c ← vget curr (i : Int)
      if dist.isValid && (p1.distance p).le dist then ok 0 else ok c) (List.range curr.length)
  | s, p1, p2 => s.corrVec T p1 p2

/-- The virtual function `localization_distance(const Point&)` (structure.cpp:272-280, 87-89, 95-97, 942-944). -/
def SF.locDist [HasGeo K] (T : RTree K) : SF K → Point K → Res (Fl K)
  | .scaled s, p => s.locDist T p
  | .cressman h _ _, _ => ok h
  | .multiple h _ _, p => h.locDist T p
  | .crossval s _, p => s.locDist T p

end
end Gridpp
