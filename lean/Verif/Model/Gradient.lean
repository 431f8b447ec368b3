import Verif.Model.Bilinear
import Verif.Model.Curve

/-! Downscaling with and without gradients: `downscaling.cpp`, `simple_gradient.cpp` and `gradient.cpp`. -/

namespace Gridpp
open Fl Res

variable {K : Type} [Field K] [LinearOrder K] [HasGeo K] [HasSqrt K]

/-- `gridpp::Downscaler` (gridpp.h:132-135); `other` is any further integer cast to the enumeration. -/
inductive Downscaler where
  | nearest
  | bilinear
  | other
  deriving DecidableEq

/-- `gridpp::downscaling(const Grid&, const Points&, const vec2&, Downscaler)` (downscaling.cpp:7-19). -/
def downscalingGP2 (T : RTree K) (d : Downscaler) (ig : Grid K) (op : Points K) (iv : List (List (Fl K))) : Res (List (Fl K)) := do
  let c ← compatibleSizeG2 ig iv
  if c = false then throw .invalidArgument
  else match d with
    | .nearest => nearestGP2 T ig op iv
    | .bilinear => bilinearGP2 T ig op iv
    | .other => throw .invalidArgument

/-- `gridpp::downscaling(const Grid&, const Grid&, const vec2&, Downscaler)` (downscaling.cpp:21-33). -/
def downscalingGG2 (T : RTree K) (d : Downscaler) (ig og : Grid K) (iv : List (List (Fl K))) : Res (List (List (Fl K))) := do
  let c ← compatibleSizeG2 ig iv
  if c = false then throw .invalidArgument
  else match d with
    | .nearest => nearestGG2 T ig og iv
    | .bilinear => bilinearGG2 T ig og iv
    | .other => throw .invalidArgument

/-- `gridpp::downscaling(const Grid&, const Points&, const vec3&, Downscaler)` (downscaling.cpp:35-47). -/
def downscalingGP3 (T : RTree K) (d : Downscaler) (ig : Grid K) (op : Points K) (iv : List (List (List (Fl K)))) : Res (List (List (Fl K))) := do
  let c ← compatibleSizeG3 ig iv
  if c = false then throw .invalidArgument
  else match d with
    | .nearest => nearestGP3 T ig op iv
    | .bilinear => bilinearGP3 T ig op iv
    | .other => throw .invalidArgument

/-- `gridpp::downscaling(const Grid&, const Grid&, const vec3&, Downscaler)` (downscaling.cpp:49-61). -/
def downscalingGG3 (T : RTree K) (d : Downscaler) (ig og : Grid K) (iv : List (List (List (Fl K)))) : Res (List (List (List (Fl K)))) := do
  let c ← compatibleSizeG3 ig iv
  if c = false then throw .invalidArgument
  else match d with
    | .nearest => nearestGG3 T ig og iv
    | .bilinear => bilinearGG3 T ig og iv
    | .other => throw .invalidArgument

/-- `gridpp::simple_gradient(const Grid&, const Points&, const vec2&, float, Downscaler)` (simple_gradient.cpp:5-22). -/
def simpleGradientGP2 (T : RTree K) (d : Downscaler) (ig : Grid K) (op : Points K) (iv : List (List (Fl K))) (g : Fl K) : Res (List (Fl K)) := do
  let c ← compatibleSizeG2 ig iv
  if c = false then throw .invalidArgument
  else do
    let dvalues ← downscalingGP2 T d ig op iv
    let delevs ← downscalingGP2 T d ig op ig.elevs
    mapM (fun i : Int => do
      let oe ← vget op.elevs i
      let de ← vget delevs i
      let dv ← vget dvalues i
      ok (dv + (oe - de) * g)) (upto op.size)

/-- `gridpp::simple_gradient(const Grid&, const Grid&, const vec2&, float, Downscaler)` (simple_gradient.cpp:24-45). -/
def simpleGradientGG2 (T : RTree K) (d : Downscaler) (ig og : Grid K) (iv : List (List (Fl K))) (g : Fl K) : Res (List (List (Fl K))) := do
  let c ← compatibleSizeG2 ig iv
  if c = false then throw .invalidArgument
  else do
    let s ← og.size
    let dvalues ← downscalingGG2 T d ig og iv
    let delevs ← downscalingGG2 T d ig og ig.elevs
    grid2 s.1 s.2 fun i j => do
      let oe ← vget2 og.elevs i j
      let de ← vget2 delevs i j
      let dv ← vget2 dvalues i j
      ok (dv + (oe - de) * g)

/-- `gridpp::simple_gradient(const Grid&, const Points&, const vec3&, float, Downscaler)` (simple_gradient.cpp:47-68). The
loop over the times is the outer loop here and the inner loop there; every iteration writes one element and can only
succeed or read out of range. -/
def simpleGradientGP3 (T : RTree K) (d : Downscaler) (ig : Grid K) (op : Points K) (iv : List (List (List (Fl K)))) (g : Fl K) :
    Res (List (List (Fl K))) := do
  let c ← compatibleSizeG3 ig iv
  if c = false then throw .invalidArgument
  else do
    let dvalues ← downscalingGP3 T d ig op iv
    let delevs ← downscalingGP2 T d ig op ig.elevs
    omp (grid2 iv.length op.size fun t i => do
      let oe ← vget op.elevs i
      let de ← vget delevs i
      let dv ← vget2 dvalues t i
      ok (dv + (oe - de) * g))

/-- `gridpp::simple_gradient(const Grid&, const Grid&, const vec3&, float, Downscaler)` (simple_gradient.cpp:70-93). Loop
order as in `simpleGradientGP3`. -/
def simpleGradientGG3 (T : RTree K) (d : Downscaler) (ig og : Grid K) (iv : List (List (List (Fl K)))) (g : Fl K) :
    Res (List (List (List (Fl K)))) := do
  let c ← compatibleSizeG3 ig iv
  if c = false then throw .invalidArgument
  else do
    let s ← og.size
    let dvalues ← downscalingGG3 T d ig og iv
    let delevs ← downscalingGG2 T d ig og ig.elevs
    omp (mapM (fun t : Int => grid2 s.1 s.2 fun i j => do
      let oe ← vget2 og.elevs i j
      let de ← vget2 delevs i j
      let dt ← vget dvalues t
      let dv ← vget2 dt i j
      ok (dv + (oe - de) * g)) (upto iv.length))

/-- The correction for one of the two variables from the value of the output location, the downscaled value and the
downscaled gradient (gradient.cpp:65-68 and the other seven copies); the gradient is only read if both values are valid. -/
def correction (o i : Fl K) (g : Res (Fl K)) : Res (Fl K) :=
  if o.isValid && i.isValid then do
    let gv ← g
    ok (gv * (o - i))
  else ok 0

/-- The correction at a cell (gradient.cpp:61-69, 71-79, 149-157, 159-167): zero if the downscaled gradient is empty. -/
def correctionG (dgrad dvals ovals : List (List (Fl K))) (y x : Int) : Res (Fl K) :=
  if dgrad.length = 0 then ok 0
  else do
    let o ← vget2 ovals y x
    let i ← vget2 dvals y x
    correction o i (vget2 dgrad y x)

/-- The correction at a point (gradient.cpp:202-210, 212-220, 250-258, 260-268). -/
def correctionP (dgrad dvals ovals : List (Fl K)) (i : Int) : Res (Fl K) :=
  if dgrad.length = 0 then ok 0
  else do
    let o ← vget ovals i
    let d ← vget dvals i
    correction o d (vget dgrad i)

/-- The size check of a field against the input grid (gradient.cpp:10, 14, 19): the first row is read if the number of
rows is right. -/
def sizeMismatch (s : Nat × Nat) (f : List (List (Fl K))) : Res Bool :=
  if f.length ≠ s.1 then ok true
  else do
    let r ← vget f 0
    ok (decide (r.length ≠ s.2))

/-- The size check of an optional field (gradient.cpp:13-16, 18-20). -/
def sizeMismatchOpt (s : Nat × Nat) (f : List (List (Fl K))) : Res Bool :=
  if f.length = 0 then ok false else sizeMismatch s f

/-- The pair (downscaled gradient, downscaled values) read from the stack of downscaled fields at position `c`, or two
empty fields (gradient.cpp:41-55). -/
def stackPair (present : Bool) (fields : List (List (List (Fl K)))) (c : Int) : Res (List (List (Fl K)) × List (List (Fl K))) :=
  if present then do
    let a ← vget fields c
    let b ← vget fields (c + 1)
    ok (a, b)
  else ok ([], [])

/-- The fields to be downscaled for one of the two gradients (gradient.cpp:29-36). -/
def stackFields (grad vals : List (List (Fl K))) : List (List (List (Fl K))) := if grad.length = 0 then [] else [grad, vals]

/-- `gridpp::full_gradient(const Grid&, const Grid&, const vec2&, const vec2&, const vec2&, Downscaler)`
(gradient.cpp:5-85). -/
def fullGradientGG2 (T : RTree K) (d : Downscaler) (ig og : Grid K) (iv ge gl : List (List (Fl K))) : Res (List (List (Fl K))) := do
  let so ← og.size
  let si ← ig.size
  let m ← sizeMismatch si iv
  if m then throw .invalidArgument
  else do
    let ml ← sizeMismatchOpt si gl
    if ml then throw .invalidArgument
    else do
      let me ← sizeMismatchOpt si ge
      if me then throw .invalidArgument
      else do
        let fields ← downscalingGG3 T d ig og (iv :: (stackFields ge ig.elevs ++ stackFields gl ig.lafs))
        let output ← vget fields 0
        let e ← stackPair (decide (ge.length ≠ 0)) fields 1
        let l ← stackPair (decide (gl.length ≠ 0)) fields (if ge.length = 0 then 1 else 3)
        omp (grid2 so.1 so.2 fun y x => do
          let lc ← correctionG l.1 l.2 og.lafs y x
          let ec ← correctionG e.1 e.2 og.elevs y x
          let v ← vget2 output y x
          ok (v + (lc + ec)))

/-- The gradients of all times and the values, to be downscaled (gradient.cpp:102-115); `grad[t]` is read for the times of
the values. -/
def stackFields3 (grad : List (List (List (Fl K)))) (vals : List (List (Fl K))) (iv : List (List (List (Fl K)))) : Res (List (List (List (Fl K)))) :=
  if grad.length = 0 then ok []
  else do
    assert (compatibleSize33 grad iv)
    let gs ← mapM (fun t : Int => vget grad t) (upto iv.length)
    ok (gs ++ [vals])

/-- The downscaled gradients and values read back from the stack (gradient.cpp:126-133, 136-143). -/
def stackPair3 (present : Bool) (nT : Nat) (fields : List (List (List (Fl K)))) (c : Int) :
    Res (List (List (List (Fl K))) × List (List (Fl K))) :=
  if present then do
    let a ← mapM (fun t : Int => vget fields (c + t)) (upto nT)
    let b ← vget fields (c + nT)
    ok (a, b)
  else ok ([], [])

/-- The correction at a cell and time (gradient.cpp:149-157, 159-167). -/
def correctionG3 (dgrad : List (List (List (Fl K)))) (dvals ovals : List (List (Fl K))) (t y x : Int) : Res (Fl K) :=
  if dgrad.length = 0 then ok 0
  else do
    let o ← vget2 ovals y x
    let i ← vget2 dvals y x
    correction o i (do
      let gt ← vget dgrad t
      vget2 gt y x)

/-- `gridpp::full_gradient(const Grid&, const Grid&, const vec3&, const vec3&, const vec3&, Downscaler)`
(gradient.cpp:87-174). Loop order as in `simpleGradientGP3`. -/
def fullGradientGG3 (T : RTree K) (d : Downscaler) (ig og : Grid K) (iv ge gl : List (List (List (Fl K)))) : Res (List (List (List (Fl K)))) := do
  let so ← og.size
  let fe ← stackFields3 ge ig.elevs iv
  let fl ← stackFields3 gl ig.lafs iv
  let fields ← downscalingGG3 T d ig og (iv ++ (fe ++ fl))
  let output ← mapM (fun t : Int => vget fields t) (upto iv.length)
  let e ← stackPair3 (decide (ge.length ≠ 0)) iv.length fields iv.length
  let l ← stackPair3 (decide (gl.length ≠ 0)) iv.length fields (if ge.length = 0 then iv.length else 2 * iv.length + 1)
  omp (mapM (fun t : Int => grid2 so.1 so.2 fun y x => do
    let lc ← correctionG3 l.1 l.2 og.lafs t y x
    let ec ← correctionG3 e.1 e.2 og.elevs t y x
    let vt ← vget output t
    let v ← vget2 vt y x
    ok (v + (lc + ec))) (upto iv.length))

/-- The downscaled gradient and values of the overload for points (gradient.cpp:183-190, 191-198). -/
def pairGP2 (T : RTree K) (d : Downscaler) (ig : Grid K) (op : Points K) (grad vals iv : List (List (Fl K))) : Res (List (Fl K) × List (Fl K)) :=
  if grad.length = 0 then ok ([], [])
  else do
    assert (decide (grad.length = iv.length))
    let g0 ← vget grad 0
    let v0 ← vget iv 0
    assert (decide (g0.length = v0.length))
    let dg ← downscalingGP2 T d ig op grad
    let dv ← downscalingGP2 T d ig op vals
    ok (dg, dv)

/-- `gridpp::full_gradient(const Grid&, const Points&, const vec2&, const vec2&, const vec2&, Downscaler)`
(gradient.cpp:176-225). -/
def fullGradientGP2 (T : RTree K) (d : Downscaler) (ig : Grid K) (op : Points K) (iv ge gl : List (List (Fl K))) : Res (List (Fl K)) := do
  let output ← downscalingGP2 T d ig op iv
  let e ← pairGP2 T d ig op ge ig.elevs iv
  let l ← pairGP2 T d ig op gl ig.lafs iv
  mapM (fun i : Int => do
    let lc ← correctionP l.1 l.2 op.lafs i
    let ec ← correctionP e.1 e.2 op.elevs i
    let v ← vget output i
    ok (v + (lc + ec))) (upto op.size)

/-- The downscaled gradients and values of the overload for points and times (gradient.cpp:235-240, 241-246). -/
def pairGP3 (T : RTree K) (d : Downscaler) (ig : Grid K) (op : Points K) (grad : List (List (List (Fl K)))) (vals : List (List (Fl K))) :
    Res (List (List (Fl K)) × List (Fl K)) :=
  if grad.length = 0 then ok ([], [])
  else do
    let dg ← downscalingGP3 T d ig op grad
    let dv ← downscalingGP2 T d ig op vals
    ok (dg, dv)

/-- The correction at a point and time (gradient.cpp:250-258, 260-268). -/
def correctionP2 (dgrad : List (List (Fl K))) (dvals ovals : List (Fl K)) (t i : Int) : Res (Fl K) :=
  if dgrad.length = 0 then ok 0
  else do
    let o ← vget ovals i
    let d ← vget dvals i
    correction o d (vget2 dgrad t i)

/-- `gridpp::full_gradient(const Grid&, const Points&, const vec3&, const vec3&, const vec3&, Downscaler)`
(gradient.cpp:227-274). The sizes of the gradients are not compared with the number of times. Loop order as in
`simpleGradientGP3`. -/
def fullGradientGP3 (T : RTree K) (d : Downscaler) (ig : Grid K) (op : Points K) (iv ge gl : List (List (List (Fl K)))) : Res (List (List (Fl K))) := do
  let output ← downscalingGP3 T d ig op iv
  let e ← pairGP3 T d ig op ge ig.elevs
  let l ← pairGP3 T d ig op gl ig.lafs
  grid2 iv.length op.size fun t i => do
    let lc ← correctionP2 l.1 l.2 op.lafs t i
    let ec ← correctionP2 e.1 e.2 op.elevs t i
    let v ← vget2 output t i
    ok (v + (lc + ec))

/-- The downscaled gradient and values of the debug function (gradient.cpp:307-318). -/
def pairGG2 (T : RTree K) (d : Downscaler) (ig og : Grid K) (grad vals : List (List (Fl K))) : Res (List (List (Fl K)) × List (List (Fl K))) :=
  if grad.length = 0 then ok ([], [])
  else do
    let dg ← downscalingGG2 T d ig og grad
    let dv ← downscalingGG2 T d ig og vals
    ok (dg, dv)

/-- The correction in the debug function (gradient.cpp:332-338, 340-346), where the values have been read before. -/
def correctionD (dgrad : List (List (Fl K))) (o i : Fl K) (y x : Int) : Res (Fl K) :=
  if dgrad.length = 0 then ok 0 else correction o i (vget2 dgrad y x)

/-- `gridpp::full_gradient_debug` (gradient.cpp:276-366); the nine values of every cell. -/
def fullGradientDebug (T : RTree K) (d : Downscaler) (ig og : Grid K) (iv ge gl : List (List (Fl K))) : Res (List (List (List (Fl K)))) := do
  let so ← og.size
  let dvalues ← downscalingGG2 T d ig og iv
  let e ← pairGG2 T d ig og ge ig.elevs
  let l ← pairGG2 T d ig og gl ig.lafs
  grid2 so.1 so.2 fun y x => do
    let olaf ← vget2 og.lafs y x
    let ilaf ← vget2 l.2 y x
    let oelev ← vget2 og.elevs y x
    let ielev ← vget2 e.2 y x
    let lc ← correctionD l.1 olaf ilaf y x
    let ec ← correctionD e.1 oelev ielev y x
    let v ← vget2 dvalues y x
    ok [v + lc + ec, olaf - ilaf, oelev - ielev, lc, ec, olaf, ilaf, v + lc, v + ec]

end Gridpp
