import Verif.Model.Client.FieldStore

/-!
# src/client/Downscaler: a downscaler and the fields of two files

The loops over the times of the downscalers nearestNeighbour, bilinear, smart, pressure and upscale are the same. What a downscaler does
to the two fields of a time is the argument `g` (the number of the time, the field of the input and the field of the output); for the five
downscalers it is modelled in Model/Client/Downscaler, Bilinear and Stencil. The loop of gradient also reads a third field and is not
covered.
-/

set_option linter.unusedSectionVars false

namespace Gridpp.Client
open Fl Res

variable {K : Type} [Field K] [LinearOrder K]

/-- One time of the loop (for example src/client/Downscaler/NearestNeighbour.cpp:24-41, Bilinear.cpp:24-30, Smart.cpp:27-59,
Pressure.cpp:29-56, Upscale.cpp:42-71) with an input and an output file that are different objects: the field of the variable `v` of the
input is read, the one of the variable `w` of the output is taken without reading it, and is changed. A null pointer is dereferenced. -/
def downscaleTime (di dt : FileData K) (v w : String) (g : Nat → FieldC K → FieldC K → Res (FieldC K)) (st : FileState K × FileState K)
    (t : Nat) : Res (FileState K × FileState K) := do
  let a ← getField di st.1 v t false
  let b ← getField dt st.2 w t true
  match a.2, b.2 with
  | some p, some q => do
    let x ← vget a.1.heap p
    let y ← vget b.1.heap q
    let z ← g t x y
    let h ← vset b.1.heap q z
    ok (a.1, { b.1 with heap := h })
  | _, _ => .ub

/-- The same if input and output are one object. For `v ≠ w` only: for `v = w` both fields are one, which `g` would change while it reads
it. -/
def downscaleTimeSelf (d : FileData K) (v w : String) (g : Nat → FieldC K → FieldC K → Res (FieldC K)) (s : FileState K) (t : Nat) :
    Res (FileState K) := do
  let a ← getField d s v t false
  let b ← getField d a.1 w t true
  match a.2, b.2 with
  | some p, some q => do
    let x ← vget b.1.heap p
    let y ← vget b.1.heap q
    let z ← g t x y
    let h ← vset b.1.heap q z
    ok { b.1 with heap := h }
  | _, _ => .ub

/-- `Downscaler::downscale` (src/client/Downscaler/Downscaler.cpp:15-21) with two objects: the new states and the result. -/
def downscaleFiles (di dt : FileData K) (v w : String) (g : Nat → FieldC K → FieldC K → Res (FieldC K)) (si so : FileState K) :
    Res ((FileState K × FileState K) × Bool) :=
  if di.nT ≠ dt.nT then ok ((si, so), false)
  else do
    let st ← foldM (downscaleTime di dt v w g) (si, so) (List.range di.nT)
    ok (st, true)

/-- `Downscaler::downscale` with one object (src/client/Downscaler/Downscaler.cpp:15-21). -/
def downscaleSelf (d : FileData K) (v w : String) (g : Nat → FieldC K → FieldC K → Res (FieldC K)) (s : FileState K) :
    Res (FileState K × Bool) := do
  let s ← foldM (downscaleTimeSelf d v w g) s (List.range d.nT)
  ok (s, true)

/-- `downscale` with `DownscalerBypass::downscaleCore` (src/client/Downscaler/Bypass.cpp:11-18): the new state of the output and the result. -/
def downscaleBypass (di dt : FileData K) (w : String) (so : FileState K) : Res (FileState K × Bool) :=
  if di.nT ≠ dt.nT then ok (so, false)
  else if !hasVariable dt so w then do
    let s ← initNewVariable dt so w
    ok (s, true)
  else ok (so, true)

end Gridpp.Client
