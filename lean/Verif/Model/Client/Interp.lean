import Verif.Model.Client.Util

/-! # src/client/Util.cpp: index search and interpolation -/

set_option linter.unusedSectionVars false

namespace Gridpp.Client
open Fl Res

variable {K : Type} [Field K] [LinearOrder K]

/-- The loop of `Util::getLowerIndex` (src/client/Util.cpp:643-657) from index `i` with the current `index`. -/
def lowerLoop (x : Fl K) : List (Fl K) → Nat → Option Nat → Option Nat
  | [], _, index => index
  | v :: t, i, index =>
    if isValid v then
      if v.lt x then lowerLoop x t (i + 1) (some i)
      else if v.feq x then some i
      else if v.gt x then index
      else lowerLoop x t (i + 1) index
    else lowerLoop x t (i + 1) index

/-- `Util::getLowerIndex` (src/client/Util.cpp:641-659); `none` stands for the index -999. -/
def getLowerIndex (x : Fl K) (values : List (Fl K)) : Option Nat := lowerLoop x values 0 none

/-- The loop of `Util::getUpperIndex` (src/client/Util.cpp:663-677); the list is the reversed prefix, so the head has
index `t.length`. -/
def upperLoop (x : Fl K) : List (Fl K) → Option Nat → Option Nat
  | [], index => index
  | v :: t, index =>
    if isValid v then
      if v.gt x then upperLoop x t (some t.length)
      else if v.feq x then some t.length
      else if v.lt x then index
      else upperLoop x t index
    else upperLoop x t index

/-- `Util::getUpperIndex` (src/client/Util.cpp:661-679). -/
def getUpperIndex (x : Fl K) (values : List (Fl K)) : Option Nat := upperLoop x values.reverse none

/-- The last part of `Util::interpolate` (src/client/Util.cpp:533-549), from the two indices. A search that found
nothing fails the first or third `assert`. -/
def interpolateAt (x : Fl K) (iX iY : List (Fl K)) : Option Nat → Option Nat → Res (Fl K)
  | some i0, some i1 => do
    assert (decide (i1 < iX.length))
    let x0 ← vget iX i0
    let x1 ← vget iX i1
    let y0 ← vget iY i0
    let y1 ← vget iY i1
    if x0.feq x1 then ok ((y0 + y1) / fin 2)
    else do
      assert (x1.ge x0)
      ok (y0 + (y1 - y0) * (x - x0) / (x1 - x0))
  | _, _ => .abort

/-- `Util::interpolate` (src/client/Util.cpp:523-550). The sizes are not checked: an empty `iX` is read at index -1. -/
def interpolate (x : Fl K) (iX iY : List (Fl K)) : Res (Fl K) := do
  let last ← vget iX ((iX.length : Int) - 1)
  if x.gt last then vget iY ((iX.length : Int) - 1)
  else do
    let first ← vget iX 0
    if x.lt first then vget iY 0
    else interpolateAt x iX iY (getLowerIndex x iX) (getUpperIndex x iX)

end Gridpp.Client
