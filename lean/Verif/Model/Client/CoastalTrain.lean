import Verif.Model.Client.Coastal
import Verif.Model.Client.Matrix
import Verif.Model.Client.Qq

/-!
# src/client/Calibrator/Coastal.cpp: training

The output for one pair of indices (lines 157-159) is left out.
-/

set_option linter.unusedSectionVars false

namespace Gridpp.Client
open Fl Res

variable {K : Type} [Field K] [LinearOrder K]

/-- `(Imin, Jmin), (Imax, Jmax), minLaf, maxLaf`; `none` stands for the missing indices (src/client/Calibrator/Coastal.cpp:105-110). -/
structure CoastPlaces (K : Type) where
  lower : Option (Int × Int)
  upper : Option (Int × Int)
  minLaf : Fl K
  maxLaf : Fl K
  deriving DecidableEq

/-- One grid point around (src/client/Calibrator/Coastal.cpp:114-124). -/
def placesUpdate (s : CoastPlaces K) (laf : Fl K) (p : Int × Int) : CoastPlaces K :=
  let s1 := if laf.lt s.minLaf then { s with lower := some p, minLaf := laf } else s
  if laf.gt s1.maxLaf then { s1 with upper := some p, maxLaf := laf } else s1

/-- The loops over the grid points around (src/client/Calibrator/Coastal.cpp:112-126). -/
def coastPlaces (nY nX : Nat) (radius : Int) (lafs : List (List (Fl K))) (c : Int × Int) : Res (CoastPlaces K) :=
  foldM (fun s (p : Int × Int) => do
    let laf ← vget2 lafs p.1 p.2
    ok (placesUpdate s laf p)) ⟨none, none, fin 2, fin (-1)⟩ (stencil nY nX radius c)

/-- The mean of the members at a grid point (src/client/Calibrator/Coastal.cpp:140-145). The indices are `int` and converted to
`unsigned`, so that a negative or missing one fails the `assert` in `Field::getIndex`. -/
def meanAt (f : FieldC K) : Option (Int × Int) → Res (Fl K)
  | none => .abort
  | some p => if p.1 < 0 ∨ p.2 < 0 then .abort else do
    let ens ← f.ens p.1.toNat p.2.toNat
    ok (ensMean ens)

/-- The gradient of one case (src/client/Calibrator/Coastal.cpp:147-149). -/
def trainGradient (s : CoastPlaces K) (valueMin valueMax : Fl K) : Fl K :=
  if isValid valueMin && isValid valueMax then (valueMax - valueMin) / (s.maxLaf - s.minLaf) else 0

/-- One case (src/client/Calibrator/Coastal.cpp:139-160): what is added to `y` and `x[1]`. -/
def coastDatum (useNN : Bool) (s : CoastPlaces K) (iObs jObs : Nat) (c : Int × Int) (d : FieldC K × FieldC K) : Res (Option (Fl K × Fl K)) := do
  let obs ← d.1.get iObs jObs 0
  let valueMin ← meanAt d.2 s.lower
  let valueMax ← meanAt d.2 s.upper
  let valueNN ← meanAt d.2 (some c)
  if isValid obs && isValid valueNN then
    ok (some (if useNN then obs - valueNN else obs - valueMin, trainGradient s valueMin valueMax))
  else ok none

/-- With the gradient (src/client/Calibrator/Coastal.cpp:171-175). -/
def trainRange (rows : List (Fl K × Fl K)) : Res (List (Fl K)) := do
  let values2 ← utilRegression (rows.map Prod.fst) [rows.map fun _ => fin 1, rows.map Prod.snd] false
  let a ← vget values2 0
  let c ← vget values2 1
  ok [a, fin 1, c]

/-- Without the gradient (src/client/Calibrator/Coastal.cpp:181-197). -/
def trainOffset (rows : List (Fl K × Fl K)) : Res (List (Fl K)) := do
  let t := sumCount (rows.map Prod.fst)
  let a := if 0 < t.2 then t.1 / Fl.ofNat t.2 else fin 0
  assert (isValid a)
  ok [a, fin 1, fin 0]

/-- `CalibratorCoastal::train` (src/client/Calibrator/Coastal.cpp:96-202); `c` is the grid point `iIens, iJens`. -/
def coastTrain (radius : Int) (minLafDiff : Fl K) (useNN : Bool) (lafs : List (List (Fl K))) (iObs jObs : Nat) (c : Int × Int)
    (data : List (FieldC K × FieldC K)) : Res (List (Fl K)) := do
  let first ← vget data 0
  let s ← coastPlaces first.2.nY first.2.nX radius lafs c
  assert s.upper.isSome
  let cases ← mapM (coastDatum useNN s iObs jObs c) data
  let rows := cases.filterMap id
  if rows.length = 0 then error
  else if (s.maxLaf - s.minLaf).gt minLafDiff then trainRange rows
  else trainOffset rows

end Gridpp.Client
