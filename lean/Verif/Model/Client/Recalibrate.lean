import Verif.Model.Client.Calibrators

/-!
# The part that the calibrators zaga, gaussian and bct of the client have in common

Once its predictors are known, each of them replaces the members of a grid point by quantiles of a distribution, puts these into the
order of the old members and falls back on the old members if a quantile is missing. The code is written out in each of the three files.
-/

set_option linter.unusedSectionVars false

namespace Gridpp.Client
open Fl Res

variable {K : Type} [Field K] [LinearOrder K]

/-- `((float) e+0.5)/nEns` (src/client/Calibrator/Zaga.cpp:197, Gaussian.cpp:83, Bct.cpp:94). -/
def quantileLevel (E e : Nat) : Fl K := (Fl.ofNat e + fin (1 / 2)) / Fl.ofNat E

/-- The loops that write an array back to the members of a grid point (src/client/Calibrator/Zaga.cpp:206-208, 212-214 and 220-222,
Gaussian.cpp:92-94, 98-100 and 105-107, Bct.cpp:104-106, 110-112 and 117-119). -/
def putMembers (E y x : Nat) (vals : List (Fl K)) (f : FieldC K) : Res (FieldC K) :=
  foldM (fun f e => do
    let v ← vget vals (e : Nat)
    f.set y x e v) f (List.range E)

/-- The loop over the members with the flag `isValid` (src/client/Calibrator/Zaga.cpp:196-202, Gaussian.cpp:82-88, Bct.cpp:93-100);
`inv` is `getInvCdf` with the predictors and the parameters of the grid point. -/
def putQuantiles (E y x : Nat) (inv : Fl K → Res (Fl K)) (f : FieldC K) : Res (FieldC K × Bool) :=
  foldM (fun s e => do
    let v ← inv (quantileLevel E e)
    let g ← FieldC.set s.1 y x e v
    ok (g, s.2 && isValid v)) (f, true) (List.range E)

/-- src/client/Calibrator/Zaga.cpp:193-215, Gaussian.cpp:79-101, Bct.cpp:90-113; `raw` is the copy of the members that was made before. -/
def recalibrate (A : Arma K) (E y x : Nat) (raw : List (Fl K)) (inv : Fl K → Res (Fl K)) (f : FieldC K) : Res (FieldC K) := do
  let s ← putQuantiles E y x inv f
  if s.2 then do
    let cal ← s.1.ens y x
    let res ← shuffle A raw cal
    putMembers E y x res s.1
  else putMembers E y x raw s.1

end Gridpp.Client
