import Verif.Model.Client.Gaussian
import Verif.Model.Client.Zaga

/-!
# Training of the calibrators gaussian and zaga

src/client/Calibrator/Gaussian.cpp:192-325 and src/client/Calibrator/Zaga.cpp:355-383, 401-586 and 653-657. The densities of boost are the parameter
`pdf` (mean and standard deviation, or shape and scale, and the value). The search of gsl is the parameter `search`, which takes the function to be
made small and the point where to begin. Conversions between `float` and `double` are left out, so is the output on the terminal.
-/

set_option linter.unusedSectionVars false

namespace Gridpp.Client
open Fl Res

variable {K : Type} [Field K] [LinearOrder K] [FloorRing K] [HasExp K]

/-- What the function to be made small gets for one case: the observation, the mean of the members and their spread or the fraction of members
without precipitation (src/client/Calibrator/Gaussian.cpp:227-234, Zaga.cpp:430-437). -/
structure TrainCase (K : Type) where
  obs : Fl K
  mean : Fl K
  second : Fl K
  deriving DecidableEq

/-- A density for the logarithm (src/client/Calibrator/Gaussian.cpp:318-319, Zaga.cpp:578-579). -/
def someDensity (d : Fl K) : Fl K := if d.feq 0 || !isValid d then fin (1 / 100000) else d

/-- The logarithm of a density (src/client/Calibrator/Gaussian.cpp:318-321, Zaga.cpp:578-581). -/
def logDensity (d : Fl K) : Res (Fl K) := do
  assert ((someDensity d).gt 0)
  ok (Fl.log (someDensity d))

/-- The sum over the cases, with the sign changed (src/client/Calibrator/Gaussian.cpp:314-324, Zaga.cpp:545-585). -/
def minusSum (term : TrainCase K → Res (Fl K)) (cases : List (TrainCase K)) : Res (Fl K) := do
  let total ← foldM (fun t c => do
    let v ← term c
    ok (t + v)) (fin 0) cases
  ok (-total)

/-! ### Gaussian -/

/-- `CalibratorGaussian::getPdf` (src/client/Calibrator/Gaussian.cpp:192-208). -/
def gaussPdf (pdf : Fl K → Fl K → Fl K → Res (Fl K)) (x mean spread : Fl K) (p : List (Fl K)) : Res (Fl K) := do
  let sa ← parAt p 0
  let sb ← parAt p 1
  let sigma := Fl.exp (sa + sb * spread)
  if mean.le 0 || sigma.le 0 then ok MV
  else if !isValid mean || !isValid sigma then ok MV
  else pdf mean sigma x

/-- `CalibratorGaussian::my_f` (src/client/Calibrator/Gaussian.cpp:299-325). -/
def gaussObjective (pdf : Fl K → Fl K → Fl K → Res (Fl K)) (cases : List (TrainCase K)) (p : List (Fl K)) : Res (Fl K) :=
  minusSum (fun c => do
    let d ← gaussPdf pdf c.obs c.mean c.second p
    logDensity d) cases

/-- The predictors (src/client/Calibrator/Gaussian.cpp:220-225). -/
def gaussCase [HasSqrt K] (d : Fl K × List (Fl K)) : Res (TrainCase K) := do
  let m ← calculateStat d.2 .mean MV
  let s ← calculateStat d.2 .std MV
  ok ⟨d.1, m, s⟩

/-- `CalibratorGaussian::train` (src/client/Calibrator/Gaussian.cpp:210-297). The simplex search, its steps, its tolerance and its limit of 5000
iterations (lines 248-286) are `search`. -/
def gaussTrain [HasSqrt K] (pdf : Fl K → Fl K → Fl K → Res (Fl K)) (search : (List (Fl K) → Res (Fl K)) → List (Fl K) → Res (List (Fl K)))
    (data : List (Fl K × List (Fl K))) : Res (List (Fl K)) :=
  if data = [] then ok []
  else do
    let cases ← mapM gaussCase data
    search (gaussObjective pdf cases) [fin 0, fin 1]

/-! ### Zaga -/

/-- Shape and scale in `CalibratorZaga::getPdf` (src/client/Calibrator/Zaga.cpp:356-359 and 363-376); `none` where the function returns a missing value. -/
def zagaShape (mean : Fl K) (p : List (Fl K)) : Res (Option (Fl K × Fl K)) := do
  let mua ← parAt p 0
  let mub ← parAt p 1
  let sa ← parAt p 2
  let sb ← parAt p 3
  let mu := Fl.exp (mua + mub * Fl.pow mean (fin (1 / 3)))
  let sigma := Fl.exp (sa + sb * mean)
  let shape := 1 / (sigma * sigma)
  let scale := sigma * sigma * mu
  ok (if mu.le 0 || sigma.le 0 then none
    else if !isValid mu || !isValid sigma then none
    else if !isValid scale || !isValid shape then none
    else some (shape, scale))

/-- `CalibratorZaga::getPdf` (src/client/Calibrator/Zaga.cpp:355-383). -/
def zagaPdf (pdf : Fl K → Fl K → Fl K → Res (Fl K)) (x mean frac : Fl K) (p : List (Fl K)) : Res (Fl K) := do
  let P0 ← zagaP0 mean frac p
  let g ← zagaShape mean p
  match g with
  | none => ok MV
  | some (shape, scale) => do
    let d ← pdf shape scale x
    ok ((1 - P0) * d)

/-- `CalibratorZaga::my_f` (src/client/Calibrator/Zaga.cpp:524-586). -/
def zagaObjective (pdf : Fl K → Fl K → Fl K → Res (Fl K)) (cases : List (TrainCase K)) (p : List (Fl K)) : Res (Fl K) :=
  minusSum (fun c => do
    let P0 ← zagaP0 c.mean c.second p
    if c.obs.feq 0 then do
      assert (P0.gt 0)
      ok (Fl.log P0)
    else do
      let d ← zagaPdf pdf c.obs c.mean c.second p
      logDensity d) cases

/-- The predictors (src/client/Calibrator/Zaga.cpp:411-428). `total / valid` is a division of integers. -/
def zagaCase [HasSqrt K] (threshold : Fl K) (d : Fl K × List (Fl K)) : Res (TrainCase K) := do
  let m ← calculateStat d.2 .mean MV
  let total := (d.2.filter (fun v => isValid v && v.le threshold)).length
  let valid := (d.2.filter isValid).length
  if 0 < valid then do
    let frac : Fl K := Fl.ofNat (total / valid)
    assert (frac.ge 0 && frac.le 1)
    ok ⟨d.1, m, frac⟩
  else abort

/-- `CalibratorZaga::train` (src/client/Calibrator/Zaga.cpp:401-522). The simplex search (lines 451-511) is `search`. -/
def zagaTrain [HasSqrt K] (pdf : Fl K → Fl K → Fl K → Res (Fl K)) (search : (List (Fl K) → Res (Fl K)) → List (Fl K) → Res (List (Fl K)))
    (threshold : Fl K) (data : List (Fl K × List (Fl K))) : Res (List (Fl K)) :=
  if data = [] then ok []
  else do
    let cases ← mapM (zagaCase threshold) data
    search (zagaObjective pdf cases) (List.replicate 8 (fin (1 / 10)))

/-- `CalibratorZaga::logLikelihood` (src/client/Calibrator/Zaga.cpp:653-657). -/
def zagaLogLikelihood (mk : Fl K → Fl K → Dist K) (obs mean frac : Fl K) (p : List (Fl K)) : Res (Fl K) := do
  assert (isValid obs)
  let pdf ← zagaCdf mk obs mean frac p
  ok (Fl.log pdf)

end Gridpp.Client
