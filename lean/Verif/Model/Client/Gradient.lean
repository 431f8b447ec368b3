import Verif.Model.Client.Stencil

/-!
# src/client/Downscaler/Gradient.cpp

The arguments are those of the code as in `Model/Client/Downscaler.lean`. `calcBaseValues` and `calcNeighbourhoodMean` (lines 218-282) are
not used and not modelled.
-/

set_option linter.unusedSectionVars false

namespace Gridpp.Client
open Fl Res

variable {K : Type} [Field K] [LinearOrder K]

/-- Option `saveGradient` (src/client/Downscaler/Gradient.cpp:49, 156-162). -/
inductive SaveGradient where
  | value | elev | laf
  deriving DecidableEq, Repr

/-- The members of `DownscalerGradient` that are used (src/client/Downscaler/Gradient.h:23-42). `minLafGradient`, `maxLafGradient` and
`averageNeighbourhood` are never used. -/
structure GradientOptions (K : Type) where
  elevRadius : Int
  minElevGradient : Fl K
  maxElevGradient : Fl K
  logTransform : Bool
  constantElevGradient : Fl K
  defaultElevGradient : Fl K
  minElevDiff : Fl K
  minLafForElevGradient : Fl K
  minNumPoints : Int
  lafRadius : Int
  minLafDiff : Fl K
  minFracSeaPoints : Fl K
  lafSearchRadii : List Int
  lafWeights : List (Fl K)
  save : SaveGradient
  limit : Bool

/-! ### Elevation gradient -/

/-- What is read at a grid point (src/client/Downscaler/Gradient.cpp:407-411): elevation, value, land area fraction. -/
def elevRead (ielevs ilafs : List (List (Fl K))) (gfield : FieldC K) (e : Nat) (p : Int × Int) : Res (Fl K × Fl K × Fl K) := do
  assert (decide (p.1 < ielevs.length))
  let row ← vget ielevs p.1
  assert (decide (p.2 < row.length))
  let x ← vget row p.2
  let y ← gfield.getInt p.1 p.2 e
  let laf ← vget2 ilafs p.1 p.2
  ok (x, y, laf)

/-- `meanXY, meanX, meanY, meanXX, counter, min, max`. -/
structure ElevState (K : Type) where
  xy : Fl K
  x : Fl K
  y : Fl K
  xx : Fl K
  n : Nat
  min : Fl K
  max : Fl K

/-- One grid point (src/client/Downscaler/Gradient.cpp:412-427). -/
def elevUpdate [HasExp K] (o : GradientOptions K) (s : ElevState K) (a : Fl K × Fl K × Fl K) : ElevState K :=
  let x := a.1
  let y := if o.logTransform then Fl.log a.2.1 else a.2.1
  let laf := a.2.2
  if isValid x && isValid y && (!isValid laf || laf.ge o.minLafForElevGradient) then
    { xy := s.xy + x * y, x := s.x + x, y := s.y + y, xx := s.xx + x * x, n := s.n + 1,
      min := if !isValid s.min || x.lt s.min then x else s.min,
      max := if !isValid s.max || x.gt s.max then x else s.max }
  else s

/-- The loops over the neighbourhood (src/client/Downscaler/Gradient.cpp:398-429). -/
def elevLoop [HasExp K] (o : GradientOptions K) (nY nX : Nat) (ielevs ilafs : List (List (Fl K))) (gfield : FieldC K) (e : Nat) (c : Int × Int) :
    Res (ElevState K) :=
  foldM (fun s p => do
    let a ← elevRead ielevs ilafs gfield e p
    ok (elevUpdate o s a)) ⟨0, 0, 0, 0, 0, MV, MV⟩ (stencil nY nX o.elevRadius c)

/-- The gradient from the sums (src/client/Downscaler/Gradient.cpp:440-449). -/
def elevSlope (o : GradientOptions K) (s : ElevState K) (diff : Fl K) : Fl K :=
  if decide (o.minNumPoints ≤ (s.n : Int)) && isValid diff && diff.ge o.minElevDiff && !s.xx.feq (s.x * s.x) then
    let xy := s.xy / Fl.ofNat s.n
    let x := s.x / Fl.ofNat s.n
    let y := s.y / Fl.ofNat s.n
    let xx := s.xx / Fl.ofNat s.n
    if !(xx - x * x).feq 0 then (xy - x * y) / (xx - x * x) else MV
  else MV

/-- The rest of the branch without a constant gradient (src/client/Downscaler/Gradient.cpp:431-449). -/
def elevFit (o : GradientOptions K) (s : ElevState K) : Res (Fl K) :=
  if isValid s.min && isValid s.max then do
    assert (s.max.ge s.min)
    ok (elevSlope o s (s.max - s.min))
  else ok (elevSlope o s MV)

/-- The checks at the end (src/client/Downscaler/Gradient.cpp:452-460). -/
def elevCheck (o : GradientOptions K) (g : Fl K) : Fl K :=
  let g := if !isValid g then o.defaultElevGradient else g
  let g := if isValid o.minElevGradient && g.lt o.minElevGradient then o.minElevGradient else g
  if isValid o.maxElevGradient && g.gt o.maxElevGradient then o.maxElevGradient else g

/-- `DownscalerGradient::calcElevGradient` (src/client/Downscaler/Gradient.cpp:382-461). `nY`, `nX` are the sizes of `iField`. -/
def calcElevGradient [HasExp K] (o : GradientOptions K) (nY nX : Nat) (ielevs ilafs : List (List (Fl K))) (gfield : FieldC K) (e : Nat)
    (c : Int × Int) : Res (Fl K) :=
  if isValid o.constantElevGradient then ok (elevCheck o o.constantElevGradient)
  else do
    let s ← elevLoop o nY nX ielevs ilafs gfield e c
    let g ← elevFit o s
    ok (elevCheck o g)

/-! ### Gradient of the land area fraction -/

/-- What is read at a grid point (src/client/Downscaler/Gradient.cpp:305-307): land area fraction, elevation, value. -/
def lafRead (ielevs ilafs : List (List (Fl K))) (ifield : FieldC K) (e : Nat) (p : Int × Int) : Res (Fl K × Fl K × Fl K) := do
  let laf ← vget2 ilafs p.1 p.2
  let elev ← vget2 ielevs p.1 p.2
  let value ← ifield.getInt p.1 p.2 e
  ok (laf, elev, value)

/-- `minLaf, minElev, minT`, `maxLaf, maxElev, maxT`, `numSeaPoints, numPoints`. -/
structure LafState (K : Type) where
  min : Fl K × Fl K × Fl K
  max : Fl K × Fl K × Fl K
  sea : Nat
  n : Nat

/-- One grid point (src/client/Downscaler/Gradient.cpp:308-323). -/
def lafUpdate (s : LafState K) (a : Fl K × Fl K × Fl K) : LafState K :=
  let s1 := if isValid a.2.2 then { s with sea := s.sea + (if a.1.lt (fin (1 / 2)) then 1 else 0), n := s.n + 1 } else s
  if isValid a.2.2 && isValid a.1 then
    { s1 with
      min := if !isValid s1.min.1 || a.1.lt s1.min.1 then a else s1.min
      max := if !isValid s1.max.1 || a.1.gt s1.max.1 then a else s1.max }
  else s1

/-- The loops over the neighbourhood (src/client/Downscaler/Gradient.cpp:300-325); the minimum and the maximum come from the previous
radius. -/
def lafLoop (nY nX : Nat) (ielevs ilafs : List (List (Fl K))) (ifield : FieldC K) (e : Nat) (c : Int × Int) (radius : Int)
    (min max : Fl K × Fl K × Fl K) : Res (LafState K) :=
  foldM (fun s p => do
    let a ← lafRead ielevs ilafs ifield e p
    ok (lafUpdate s a)) ⟨min, max, 0, 0⟩ (stencil nY nX radius c)

/-- The gradient between the two points (src/client/Downscaler/Gradient.cpp:327-337), if it counts. -/
def lafSlope (o : GradientOptions K) (elevGradient : Fl K) (s : LafState K) : Option (Fl K) :=
  if isValid s.max.1 && isValid s.min.1 && (s.max.1 - s.min.1).ge o.minLafDiff && (Fl.ofNat s.sea / Fl.ofNat s.n : Fl K).ge o.minFracSeaPoints then
    if isValid s.max.2.1 && isValid s.min.2.1 then
      some ((s.max.2.2 - elevGradient * (s.max.2.1 - s.min.2.1) - s.min.2.2) / (s.max.1 - s.min.1))
    else none
  else none

/-- The extremes so far and `value, totalWeight, counter`. -/
structure LafSums (K : Type) where
  min : Fl K × Fl K × Fl K
  max : Fl K × Fl K × Fl K
  value : Fl K
  weight : Fl K
  n : Nat

/-- One radius (src/client/Downscaler/Gradient.cpp:299-370). -/
def lafRadius (o : GradientOptions K) (nY nX : Nat) (ielevs ilafs : List (List (Fl K))) (ifield : FieldC K) (e : Nat) (c : Int × Int)
    (elevGradient : Fl K) (t : LafSums K) (r : Nat) : Res (LafSums K) := do
  let radius ← vget o.lafSearchRadii r
  let s ← lafLoop nY nX ielevs ilafs ifield e c radius t.min t.max
  match lafSlope o elevGradient s with
  | some g => do
    let w ← vget o.lafWeights r
    ok ⟨s.min, s.max, t.value + g * w, t.weight + w, t.n + 1⟩
  | none => ok ⟨s.min, s.max, t.value, t.weight, t.n⟩

/-- `DownscalerGradient::calcLafGradient` (src/client/Downscaler/Gradient.cpp:283-381). -/
def calcLafGradient (o : GradientOptions K) (nY nX : Nat) (ielevs ilafs : List (List (Fl K))) (ifield : FieldC K) (e : Nat) (c : Int × Int)
    (elevGradient : Fl K) : Res (Fl K) := do
  let t ← foldM (lafRadius o nY nX ielevs ilafs ifield e c elevGradient) ⟨(MV, MV, MV), (MV, MV, MV), 0, 0, 0⟩
    (List.range o.lafSearchRadii.length)
  ok (if decide (t.n = 0) || !isValid t.value then MV else t.value / t.weight)

/-! ### The value -/

/-- `currLaf` (src/client/Downscaler/Gradient.cpp:115-133). -/
def smoothLaf (radius : Int) (olafs : List (List (Fl K))) (nY nX : Nat) (i j : Nat) : Res (Fl K) :=
  if radius = 0 then vget2 olafs i j
  else do
    let s ← foldM (fun (s : Fl K × Nat) (p : Int × Int) => do
      let v ← vget2 olafs p.1 p.2
      ok (if isValid v then (s.1 + v, s.2 + 1) else s)) (0, 0) (stencil nY nX radius ((i : Int), (j : Int)))
    ok (if 0 < s.2 then s.1 / Fl.ofNat s.2 else MV)

/-- One value in the loops of `limit` (src/client/Downscaler/Gradient.cpp:196-202): `min, max`. -/
def limitUpdate (s : Fl K × Fl K) (curr : Fl K) : Fl K × Fl K :=
  if isValid curr then
    if !isValid s.1 || curr.lt s.1 then (curr, s.2)
    else if !isValid s.2 || curr.gt s.2 then (s.1, curr)
    else s
  else s

/-- `limit` (src/client/Downscaler/Gradient.cpp:191-209). -/
def limitValue (radius : Int) (ifield : FieldC K) (c : Int × Int) (e : Nat) (value : Fl K) : Res (Fl K) := do
  let s ← foldM (fun s (p : Int × Int) => do
    let curr ← ifield.getInt p.1 p.2 e
    ok (limitUpdate s curr)) (MV, MV) (stencil ifield.nY ifield.nX radius c)
  let value := if value.gt s.2 then s.2 else value
  ok (if value.lt s.1 then s.1 else value)

/-- The value with both gradients (src/client/Downscaler/Gradient.cpp:170-184). -/
def applyGradients [HasExp K] (log : Bool) (baseValue currElev baseElev elevGradient currLaf baseLaf lafGradient : Fl K) : Fl K :=
  let value := if isValid currElev && isValid baseElev then
      if log then baseValue * Fl.exp ((currElev - baseElev) * elevGradient) else baseValue + (currElev - baseElev) * elevGradient
    else baseValue
  if isValid currLaf && isValid baseLaf && isValid lafGradient then value + (currLaf - baseLaf) * lafGradient else value

/-- The check against the range of the variable (src/client/Downscaler/Gradient.cpp:186-188). -/
def inDomain (minAllowed maxAllowed baseValue value : Fl K) : Fl K :=
  if (isValid minAllowed && value.lt minAllowed) || (isValid maxAllowed && value.gt maxAllowed) then baseValue else value

/-- `lafGradient` (src/client/Downscaler/Gradient.cpp:152-154). -/
def lafGradientOf (o : GradientOptions K) (nY nX : Nat) (ielevs ilafs : List (List (Fl K))) (ifield : FieldC K) (e : Nat) (c : Int × Int)
    (elevGradient : Fl K) : Res (Fl K) :=
  if 0 < o.lafSearchRadii.length then calcLafGradient o nY nX ielevs ilafs ifield e c elevGradient else ok MV

/-- What the loops use that does not depend on the grid point. -/
structure GradientInput (K : Type) where
  ielevs : List (List (Fl K))
  ilafs : List (List (Fl K))
  oelevs : List (List (Fl K))
  olafs : List (List (Fl K))
  elevsInterp : List (List (Fl K))
  lafsInterp : List (List (Fl K))
  ifield : FieldC K
  gfield : FieldC K
  minAllowed : Fl K
  maxAllowed : Fl K

/-- The value of a member that is not missing (src/client/Downscaler/Gradient.cpp:151-211). -/
def gradientValue [HasExp K] (o : GradientOptions K) (d : GradientInput K) (currLaf baseValue : Fl K) (i j e : Nat) (c : Int × Int) : Res (Fl K) := do
  let elevGradient ← calcElevGradient o d.ifield.nY d.ifield.nX d.ielevs d.ilafs d.gfield e c
  let lafGradient ← lafGradientOf o d.ifield.nY d.ifield.nX d.ielevs d.ilafs d.ifield e c elevGradient
  match o.save with
  | .elev => ok elevGradient
  | .laf => ok lafGradient
  | .value => do
    let baseElev ← vget2 d.elevsInterp i j
    let baseLaf ← vget2 d.lafsInterp i j
    let currElev ← vget2 d.oelevs i j
    let value := inDomain d.minAllowed d.maxAllowed baseValue
      (applyGradients o.logTransform baseValue currElev baseElev elevGradient currLaf baseLaf lafGradient)
    if o.limit then limitValue o.elevRadius d.ifield c e value else ok value

/-- One member (src/client/Downscaler/Gradient.cpp:115-212). -/
def gradientMember [HasExp K] (o : GradientOptions K) (d : GradientInput K) (nY nX : Nat) (i j : Nat) (c : Int × Int) (f : FieldC K) (e : Nat) :
    Res (FieldC K) := do
  let currLaf ← smoothLaf o.lafRadius d.olafs nY nX i j
  let baseValue ← f.get i j e
  if !isValid baseValue then ok f
  else do
    let v ← gradientValue o d currLaf baseValue i j e c
    f.set i j e v

/-- One grid point (src/client/Downscaler/Gradient.cpp:110-213). In the asserts a negative index becomes a large number. -/
def gradientCell [HasExp K] (o : GradientOptions K) (d : GradientInput K) (near : List (List (Int × Int))) (f : FieldC K) (i j : Nat) :
    Res (FieldC K) := do
  let c ← vget2 near i j
  assert (decide (0 ≤ c.1) && decide (c.1 < d.ielevs.length))
  let row ← vget d.ielevs c.1
  assert (decide (0 ≤ c.2) && decide (c.2 < row.length))
  foldM (gradientMember o d f.nY f.nX i j c) f (List.range f.nE)

/-- The loops over the grid (src/client/Downscaler/Gradient.cpp:107-215) on the field that the other downscaler has filled. -/
def gradientLoop [HasExp K] (o : GradientOptions K) (d : GradientInput K) (near : List (List (Int × Int))) (ofield : FieldC K) : Res (FieldC K) :=
  FieldC.forCells ofield.nY ofield.nX (gradientCell o d near) ofield

/-- One time step with `downscaler=nearestNeighbour` (src/client/Downscaler/Gradient.cpp:90-215). -/
def gradientField [HasExp K] (o : GradientOptions K) (near : List (List (Int × Int))) (ielevs ilafs olats oelevs olafs : List (List (Fl K)))
    (minAllowed maxAllowed : Fl K) (ifield gfield ofield : FieldC K) : Res (FieldC K) := do
  let elevsInterp ← nearestVec ielevs olats near
  let lafsInterp ← nearestVec ilafs olats near
  let base ← nearestField near ifield ofield
  gradientLoop o ⟨ielevs, ilafs, oelevs, olafs, elevsInterp, lafsInterp, ifield, gfield, minAllowed, maxAllowed⟩ near base

/-- `DownscalerGradient::downscaleCore` (src/client/Downscaler/Gradient.cpp:67-216) with `downscaler=nearestNeighbour`. -/
def gradientCore [HasArcC K] [HasExp K] (sort : Bool → List (Site K) → List (Site K)) (o : GradientOptions K)
    (ilats ilons ielevs ilafs olats olons oelevs olafs : List (List (Fl K))) (minAllowed maxAllowed : Fl K)
    (ifields gfields ofields : List (FieldC K)) : Res (List (FieldC K)) := do
  let near ← treeGrid sort ilats ilons olats olons
  mapM (fun t : Nat => do
    let ifield ← vget ifields t
    let ofield ← vget ofields t
    let gfield ← vget gfields t
    gradientField o near ielevs ilafs olats oelevs olafs minAllowed maxAllowed ifield gfield ofield) (List.range ifields.length)

end Gridpp.Client
