import Verif.Model.Client.Recalibrate
import Verif.Model.Client.Stencil
import Verif.Model.Client.WindDirection
import Verif.Model.Transform
import Verif.Base.Pow

/-!
# src/client/Calibrator/Zaga.cpp: precipitation with a zero-adjusted gamma distribution

`getPdf` and the training (lines 355-383 and 401-657) are in Likelihood.lean, the constructor is left out. The gamma distribution of boost is the parameter
`mk`, which takes a shape and a scale. Different variables are different fields.
-/

set_option linter.unusedSectionVars false

namespace Gridpp.Client
open Fl Res

variable {K : Type} [Field K] [LinearOrder K] [FloorRing K] [HasExp K]

/-- `Util::logit` (src/client/Util.cpp:261-265). -/
def logit (p : Fl K) : Fl K := if !isValid p || p.le 0 || p.ge 1 then MV else Fl.log (p / (1 - p))

/-- `Util::invLogit` (src/client/Util.cpp:266-270). -/
def invLogit (x : Fl K) : Fl K := if !isValid x then MV else Fl.exp x / (Fl.exp x + 1)

/-- `CalibratorZaga::getP0` (src/client/Calibrator/Zaga.cpp:384-399). -/
def zagaP0 (mean frac : Fl K) (p : List (Fl K)) : Res (Fl K) :=
  if !isValid mean || !isValid frac || mean.lt 0 || frac.lt 0 || frac.gt 1 then ok MV
  else if !p.all isValid then ok MV
  else do
    let a ← parAt p 4
    let b ← parAt p 5
    let c ← parAt p 6
    let d ← parAt p 7
    ok (invLogit (a + b * mean + c * frac + d * Fl.pow mean (fin (1 / 3))))

/-- The gamma distribution (src/client/Calibrator/Zaga.cpp:270-292 and 321-344); `none` where the functions return a missing value. -/
def zagaGamma (mk : Fl K → Fl K → Dist K) (mean : Fl K) (p : List (Fl K)) : Res (Option (Dist K)) := do
  let mua ← parAt p 0
  let mub ← parAt p 1
  let sa ← parAt p 2
  let sb ← parAt p 3
  let mu := Fl.exp (mua + mub * Fl.pow mean (fin (1 / 3)))
  let sigma := Fl.exp (sa + sb * mean)
  let shape := 1 / (sigma * sigma)
  let scale := sigma * sigma * mu
  ok (if mu.le 0 || sigma.le 0 then none
    else if !isValid mu || !isValid sigma then none
    else if !isValid scale || !isValid shape then none
    else some (mk shape scale))

/-- The continuous part of `getInvCdf` (src/client/Calibrator/Zaga.cpp:270-296). -/
def zagaInvCont (mk : Fl K → Fl K → Dist K) (q P0 mean : Fl K) (p : List (Fl K)) : Res (Fl K) := do
  let dist ← zagaGamma mk mean p
  match dist with
  | none => ok MV
  | some dist => do
    let v ← dist.quantile ((q - P0) / (1 - P0))
    ok (if !isValid v then MV else v)

/-- `CalibratorZaga::getInvCdf` (src/client/Calibrator/Zaga.cpp:243-297). -/
def zagaInvCdf (mk : Fl K → Fl K → Dist K) (q mean frac : Fl K) (p : List (Fl K)) : Res (Fl K) :=
  if q.lt 0 || q.ge 1 then ok MV
  else if !isValid mean || !isValid frac then ok MV
  else if mean.lt 0 || frac.lt 0 || frac.gt 1 then ok MV
  else if !p.all isValid then ok MV
  else if q.feq 0 then ok 0
  else do
    let P0 ← zagaP0 mean frac p
    if !isValid P0 then ok MV
    else if q.lt P0 then ok 0
    else zagaInvCont mk q P0 mean p

/-- The continuous part of `getCdf` (src/client/Calibrator/Zaga.cpp:321-352). -/
def zagaCdfCont (mk : Fl K → Fl K → Dist K) (x P0 mean : Fl K) (p : List (Fl K)) : Res (Fl K) := do
  let dist ← zagaGamma mk mean p
  match dist with
  | none => ok MV
  | some dist => do
    let c ← dist.cdf x
    let cdf := P0 + (1 - P0) * c
    if !isValid cdf then ok MV
    else do
      assert (cdf.le 1)
      assert (cdf.ge 0)
      ok cdf

/-- `CalibratorZaga::getCdf` (src/client/Calibrator/Zaga.cpp:298-353). -/
def zagaCdf (mk : Fl K → Fl K → Dist K) (x mean frac : Fl K) (p : List (Fl K)) : Res (Fl K) :=
  if !isValid x || !isValid mean || !isValid frac then ok MV
  else if mean.lt 0 || frac.lt 0 || frac.gt 1 then ok MV
  else if x.lt 0 then ok 0
  else if !p.all isValid then ok MV
  else do
    let P0 ← zagaP0 mean frac p
    if !isValid P0 then ok MV
    else if x.feq 0 then ok P0
    else zagaCdfCont mk x P0 mean p

/-! ### The calibrator -/

/-- The options (src/client/Calibrator/Zaga.cpp:11-35). `pop` says whether `popVariable` was given; the other names of variables are
not needed. -/
structure ZagaOpts (K : Type) where
  fracThreshold : Fl K
  nb : Nat
  popThreshold : Fl K
  low : Fl K
  middle : Fl K
  high : Fl K
  maxEnsMean : Fl K
  pop : Bool
  sixHours : Bool

/-- The fields of one time step. The ones that are not wanted are not looked at. -/
structure ZagaFields (K : Type) where
  precip : FieldC K
  pop : FieldC K
  low : FieldC K
  middle : FieldC K
  high : FieldC K

/-- `timeWindow` (src/client/Calibrator/Zaga.cpp:57-61); `startTime` is one less. -/
def ZagaOpts.window (o : ZagaOpts K) : Nat := if o.sixHours then 6 else 1

/-- The accumulation over the time window (src/client/Calibrator/Zaga.cpp:121-133). `precips` are the fields up to time `t`, those of
earlier times as the calibrator has left them. -/
def zagaTotal (window : Nat) (precips : List (FieldC K)) (t : Nat) (e : Nat) (c : Int × Int) : Res (Fl K) :=
  foldM (fun total tt => do
    let f ← vget precips tt
    let value ← f.getInt c.1 c.2 e
    ok (if isValid total && isValid value then total + value else MV)) (fin 0) (irange ((t : Int) - window + 1) t)

/-- `ensMean`, `ensFrac` and `counter` before the division. -/
structure ZagaSums (K : Type) where
  mean : Fl K
  frac : Fl K
  counter : Nat

/-- One neighbour (src/client/Calibrator/Zaga.cpp:134-142). -/
def zagaAdd (threshold total : Fl K) (s : ZagaSums K) : ZagaSums K :=
  if isValid total && isValid s.mean then ⟨s.mean + total, s.frac + (if total.le threshold then 1 else 0), s.counter + 1⟩
  else ⟨MV, MV, s.counter⟩

/-- The loops over members and neighbours (src/client/Calibrator/Zaga.cpp:112-145). -/
def zagaSums (o : ZagaOpts K) (Y X E : Nat) (precips : List (FieldC K)) (t i j : Nat) : Res (ZagaSums K) :=
  foldM (fun s e => foldM (fun s c => do
    let total ← zagaTotal o.window precips t e c
    ok (zagaAdd o.fracThreshold total s)) s (stencil Y X o.nb ((i : Int), (j : Int)))) ⟨fin 0, fin 0, 0⟩ (List.range E)

/-- Setting all members of a grid point (src/client/Calibrator/Zaga.cpp:106-108, 167-174, 176-178, 181-183 and 186-188); the value is
computed anew for each of them. -/
def setMembers (E i j : Nat) (value : Res (Fl K)) (f : FieldC K) : Res (FieldC K) :=
  foldM (fun f e => do
    let v ← value
    f.set i j e v) f (List.range E)

/-- One of the fields with a quantile (src/client/Calibrator/Zaga.cpp:175-189). -/
def zagaQuantile (E i j : Nat) (q : Fl K) (inv : Fl K → Res (Fl K)) (f : FieldC K) : Res (FieldC K) :=
  if isValid q then setMembers E i j (inv q) f else ok f

/-- The probability of precipitation and the quantiles (src/client/Calibrator/Zaga.cpp:166-190). -/
def zagaPop (o : ZagaOpts K) (mk : Fl K → Fl K → Dist K) (E i j : Nat) (mean frac : Fl K) (p : List (Fl K)) (s : ZagaFields K) :
    Res (ZagaFields K) := do
  let pop ← setMembers E i j (do
    let cdf ← zagaCdf mk o.popThreshold mean frac p
    ok (if isValid cdf then 1 - cdf else MV)) s.pop
  let low ← zagaQuantile E i j o.low (fun q => zagaInvCdf mk q mean frac p) s.low
  let middle ← zagaQuantile E i j o.middle (fun q => zagaInvCdf mk q mean frac p) s.middle
  let high ← zagaQuantile E i j o.high (fun q => zagaInvCdf mk q mean frac p) s.high
  ok ⟨s.precip, pop, low, middle, high⟩

/-- The mean that is used (src/client/Calibrator/Zaga.cpp:152 and 161-163). -/
def zagaMean (maxEnsMean : Fl K) (s : ZagaSums K) : Fl K :=
  let mean := s.mean / Fl.ofNat s.counter
  if isValid maxEnsMean && mean.gt maxEnsMean then maxEnsMean else mean

/-- What is done with the predictors (src/client/Calibrator/Zaga.cpp:151-223). -/
def zagaApply (o : ZagaOpts K) (mk : Fl K → Fl K → Dist K) (A : Arma K) (E i j : Nat) (p : List (Fl K)) (raw : List (Fl K))
    (sums : ZagaSums K) (s : ZagaFields K) : Res (ZagaFields K) :=
  if isValid sums.mean && decide (0 < sums.counter) then
    let mean := zagaMean o.maxEnsMean sums
    let frac := sums.frac / Fl.ofNat sums.counter
    if o.pop then zagaPop o mk E i j mean frac p s
    else do
      let precip ← recalibrate A E i j raw (fun q => zagaInvCdf mk q mean frac p) s.precip
      ok { s with precip := precip }
  else do
    let precip ← putMembers E i j raw s.precip
    ok { s with precip := precip }

/-- One grid point (src/client/Calibrator/Zaga.cpp:98-224); `before` are the fields of the earlier times. -/
def zagaCell (o : ZagaOpts K) (mk : Fl K → Fl K → Dist K) (A : Arma K) (Y X E : Nat) (before : List (FieldC K)) (t : Nat)
    (p : List (Fl K)) (s : ZagaFields K) (i j : Nat) : Res (ZagaFields K) :=
  if o.pop && decide (t + 1 < o.window) then do
    let pop ← setMembers E i j (ok MV) s.pop
    ok { s with pop := pop }
  else do
    let sums ← zagaSums o Y X E (before ++ [s.precip]) t i j
    let raw ← s.precip.ens i j
    zagaApply o mk A E i j p raw sums s

/-- The loops over the grid (src/client/Calibrator/Zaga.cpp:95-226). In the code the rows are handled by several threads, which also read
the rows next to their own; here one after the other. An exception inside of the loop ends the program. -/
def zagaTime (o : ZagaOpts K) (mk : Fl K → Fl K → Dist K) (A : Arma K) (Y X E : Nat) (par : Nat → Nat → Nat → List (Fl K))
    (before : List (FieldC K)) (t : Nat) (s : ZagaFields K) : Res (ZagaFields K) :=
  Res.omp (foldM (fun s i => foldM (fun s j => zagaCell o mk A Y X E before t (par t i j) s i j) s (List.range X)) s (List.range Y))

/-- `CalibratorZaga::calibrateCore` (src/client/Calibrator/Zaga.cpp:47-241): the fields of all times. `par t i j` are the parameters of a
time and grid point. -/
def zagaCore (o : ZagaOpts K) (mk : Fl K → Fl K → Dist K) (A : Arma K) (Y X E : Nat) (par : Nat → Nat → Nat → List (Fl K))
    (fields : List (ZagaFields K)) : Res (List (ZagaFields K)) :=
  buildM fields.length fun before t => do
    let s ← vget fields t
    zagaTime o mk A Y X E par (before.map ZagaFields.precip) t s

end Gridpp.Client
