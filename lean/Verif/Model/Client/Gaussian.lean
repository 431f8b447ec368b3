import Verif.Model.Client.Recalibrate
import Verif.Model.Client.Stencil
import Verif.Model.Client.WindDirection
import Verif.Model.Transform
import Verif.Base.Exp

/-!
# src/client/Calibrator/Gaussian.cpp

`getPdf`, the training and the constructor are left out. The normal distribution of boost is the parameter `mk`, which takes a mean and
a standard deviation.
-/

set_option linter.unusedSectionVars false

namespace Gridpp.Client
open Fl Res

variable {K : Type} [Field K] [LinearOrder K] [HasSqrt K] [HasExp K]

/-- The distribution (src/client/Calibrator/Gaussian.cpp:132-144 and 165-176); `none` where the functions return a missing value. -/
def gaussDist (mk : Fl K → Fl K → Dist K) (mean spread : Fl K) (p : List (Fl K)) : Res (Option (Dist K)) := do
  let sa ← parAt p 0
  let sb ← parAt p 1
  let sigma := Fl.exp (sa + sb * spread)
  ok (if mean.le 0 || sigma.le 0 then none
    else if !isValid mean || !isValid sigma then none
    else some (mk mean sigma))

/-- `CalibratorGaussian::getInvCdf` (src/client/Calibrator/Gaussian.cpp:115-149). -/
def gaussInvCdf (mk : Fl K → Fl K → Dist K) (q mean spread : Fl K) (p : List (Fl K)) : Res (Fl K) :=
  if q.lt 0 || q.ge 1 then ok MV
  else if !isValid mean || !isValid spread then ok MV
  else if mean.lt 0 || spread.lt 0 then ok MV
  else if !p.all isValid then ok MV
  else do
    let dist ← gaussDist mk mean spread p
    match dist with
    | none => ok MV
    | some dist => do
      let v ← dist.quantile q
      ok (if !isValid v then MV else v)

/-- `CalibratorGaussian::getCdf` (src/client/Calibrator/Gaussian.cpp:150-190). The unused `shape` and `scale` (lines 177-181) are left
out: for a positive finite `sigma` both are valid. -/
def gaussCdf (mk : Fl K → Fl K → Dist K) (x mean spread : Fl K) (p : List (Fl K)) : Res (Fl K) :=
  if !isValid x || !isValid mean || !isValid spread then ok MV
  else if mean.lt 0 || spread.lt 0 then ok MV
  else if !p.all isValid then ok MV
  else do
    let dist ← gaussDist mk mean spread p
    match dist with
    | none => ok MV
    | some dist => do
      let cdf ← dist.cdf x
      if !isValid cdf then ok MV
      else do
        assert (cdf.le 1)
        assert (cdf.ge 0)
        ok cdf

/-! ### The calibrator -/

/-- `total`, `total2` and `counter`. -/
structure GaussSums (K : Type) where
  total : Fl K
  total2 : Fl K
  counter : Nat

/-- One value (src/client/Calibrator/Gaussian.cpp:59-63). -/
def gaussAdd (value : Fl K) (s : GaussSums K) : GaussSums K :=
  if isValid value then ⟨s.total + value, s.total2 + value * value, s.counter + 1⟩ else s

/-- The loops over members and neighbours (src/client/Calibrator/Gaussian.cpp:49-67). -/
def gaussSums (nb Y X E : Nat) (f : FieldC K) (i j : Nat) : Res (GaussSums K) :=
  foldM (fun s e => foldM (fun s c => do
    let value ← f.getInt c.1 c.2 e
    ok (gaussAdd value s)) s (stencil Y X nb ((i : Int), (j : Int)))) ⟨fin 0, fin 0, 0⟩ (List.range E)

/-- `ensMean` (src/client/Calibrator/Gaussian.cpp:76). -/
def GaussSums.mean (s : GaussSums K) : Fl K := s.total / Fl.ofNat s.counter

/-- `ensSpread` (src/client/Calibrator/Gaussian.cpp:77). -/
def GaussSums.spread (s : GaussSums K) : Fl K := Fl.sqrt (s.total2 / Fl.ofNat s.counter - s.mean * s.mean)

/-- One grid point (src/client/Calibrator/Gaussian.cpp:49-108). -/
def gaussCell (mk : Fl K → Fl K → Dist K) (A : Arma K) (nb Y X E : Nat) (p : List (Fl K)) (f : FieldC K) (i j : Nat) : Res (FieldC K) := do
  let s ← gaussSums nb Y X E f i j
  let raw ← f.ens i j
  if 0 < s.counter then recalibrate A E i j raw (fun q => gaussInvCdf mk q s.mean s.spread p) f
  else putMembers E i j raw f

/-- `CalibratorGaussian::calibrateCore` (src/client/Calibrator/Gaussian.cpp:24-113). `par t i j` are the parameters of a time and grid
point. The rows are handled by several threads in the code, here one after the other. -/
def gaussCore (mk : Fl K → Fl K → Dist K) (A : Arma K) (nb Y X E : Nat) (par : Nat → Nat → Nat → List (Fl K)) (fields : List (FieldC K)) :
    Res (List (FieldC K)) :=
  eachTime (fun t f => Res.omp (FieldC.forCells Y X (fun f i j => gaussCell mk A nb Y X E (par t i j) f i j) f)) fields

end Gridpp.Client
