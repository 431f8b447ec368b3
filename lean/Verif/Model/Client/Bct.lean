import Verif.Model.Client.Recalibrate
import Verif.Model.Client.WindDirection
import Verif.Model.Transform
import Verif.Base.Pow

/-!
# src/client/Calibrator/Bct.cpp: the Box-Cox t distribution

The t distribution of boost is the parameter `mk`, which takes the degrees of freedom.
-/

set_option linter.unusedSectionVars false

namespace Gridpp.Client
open Fl Res

variable {K : Type} [Field K] [LinearOrder K] [FloorRing K] [HasSqrt K] [HasExp K]

/-- The level in the t distribution (src/client/Calibrator/Bct.cpp:175-181). -/
def bctLevel (dist : Dist K) (q sigma nu : Fl K) : Res (Fl K) := do
  let c ← dist.cdf (1 / (sigma * nu.abs))
  ok (if nu.le 0 then q * c else 1 - (1 - q) * c)

/-- The value for the threshold `z` in the t distribution (src/client/Calibrator/Bct.cpp:187-192). -/
def bctValue (mu sigma nu z : Fl K) : Fl K :=
  if nu.fne 0 then mu * Fl.pow (1 + sigma * nu * z) (1 / nu) else mu * Fl.exp (sigma * z)

/-- `CalibratorBct::getInvCdf` (src/client/Calibrator/Bct.cpp:127-198). -/
def bctInvCdf (mk : Fl K → Dist K) (q mean std : Fl K) (p : List (Fl K)) : Res (Fl K) :=
  if q.lt 0 || q.ge 1 then ok MV
  else if !isValid mean || mean.lt 0 || !isValid std || std.lt 0 then ok MV
  else if !p.all isValid then ok MV
  else if q.feq 0 then ok 0
  else do
    let a ← parAt p 0
    let b ← parAt p 1
    let mu := a + b * mean
    let c ← parAt p 2
    let d ← parAt p 3
    let sigma := Fl.exp (c + d * Fl.pow std (fin (1 / 3)))
    let e ← parAt p 4
    let f ← parAt p 5
    let nu := e + f * mean
    let g ← parAt p 6
    let tau := Fl.exp (if g.gt (fin 10) then fin 10 else g)
    let qz ← bctLevel (mk tau) q sigma nu
    let z ← (mk tau).quantile qz
    let value := bctValue mu sigma nu z
    ok (if !isValid value then MV else value)

/-! ### The calibrator -/

/-- One member in the loops for the mean and for the deviation (src/client/Calibrator/Bct.cpp:46-53 and 64-71): the sum and the
counter. `term` is the number added. -/
def bctAdd (value term : Fl K) (s : Fl K × Nat) : Fl K × Nat :=
  if isValid value && isValid s.1 then (s.1 + term, s.2 + 1) else (MV, s.2)

/-- The ensemble mean and the counter (src/client/Calibrator/Bct.cpp:42-56). -/
def bctMean (E : Nat) (f : FieldC K) (i j : Nat) : Res (Fl K × Nat) := do
  let s ← foldM (fun s e => do
    let value ← f.get i j e
    ok (bctAdd value value s)) (fin 0, 0) (List.range E)
  ok (if isValid s.1 then s.1 / Fl.ofNat s.2 else s.1, s.2)

/-- The standard deviation (src/client/Calibrator/Bct.cpp:59-75). `pow(value - ensMean, 2)` is the product. -/
def bctStd (E : Nat) (f : FieldC K) (i j : Nat) (mean : Fl K) : Res (Fl K) :=
  if isValid mean then do
    let s ← foldM (fun s e => do
      let value ← f.get i j e
      ok (bctAdd value ((value - mean) * (value - mean)) s)) (fin 0, 0) (List.range E)
    ok (if isValid s.1 then Fl.sqrt (s.1 / Fl.ofNat s.2) else MV)
  else ok MV

/-- `ensMean > mMaxEnsMean` (src/client/Calibrator/Bct.cpp:85-87); the limit is 100 (line 11). -/
def bctLimit (mean : Fl K) : Fl K := if mean.gt (fin 100) then fin 100 else mean

/-- One grid point (src/client/Calibrator/Bct.cpp:41-120). -/
def bctCell (mk : Fl K → Dist K) (A : Arma K) (E : Nat) (p : List (Fl K)) (f : FieldC K) (i j : Nat) : Res (FieldC K) := do
  let m ← bctMean E f i j
  let std ← bctStd E f i j m.1
  let raw ← f.ens i j
  if isValid m.1 && isValid std && decide (0 < m.2) then
    recalibrate A E i j raw (fun q => bctInvCdf mk q (bctLimit m.1) std p) f
  else putMembers E i j raw f

/-- `CalibratorBct::calibrateCore` (src/client/Calibrator/Bct.cpp:15-125). `par t i j` are the parameters of a time and grid point. The
rows are handled by several threads in the code, here one after the other. -/
def bctCore (mk : Fl K → Dist K) (A : Arma K) (Y X E : Nat) (par : Nat → Nat → Nat → List (Fl K)) (fields : List (FieldC K)) :
    Res (List (FieldC K)) :=
  eachTime (fun t f => Res.omp (FieldC.forCells Y X (fun f i j => bctCell mk A E (par t i j) f i j) f)) fields

end Gridpp.Client
