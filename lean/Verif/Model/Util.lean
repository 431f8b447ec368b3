import Verif.Base.Fl
import Verif.Base.Res
import Mathlib.Data.List.Sort

/-!
# src/api/util.cpp
-/

set_option linter.unusedSectionVars false

namespace Gridpp

open Fl Res

/-- `gridpp::Statistic` (include/gridpp.h:90-102). -/
inductive Statistic where
  | mean | min | median | max | quantile | std | variance | sum | count | randomChoice | unknown
  deriving DecidableEq, Repr

/-- The value `rand()` returns when called for a given array. Simplification: an arbitrary function of the array
rather than a stateful generator. -/
abbrev Rnd (K : Type) := List (Fl K) → Nat

/-- The loop values `0 .. n-1` for `Int` indexing, and conversions used below. -/
def Fl.ofNat {K : Type} [Field K] (n : Nat) : Fl K := fin (n : K)
/-- `int` to `float` conversion. -/
def Fl.ofInt {K : Type} [Field K] (n : Int) : Fl K := fin (n : K)

section
variable {K : Type} [Field K] [LinearOrder K]

@[simp] theorem Fl.ofNat_def (n : Nat) : (Fl.ofNat n : Fl K) = fin (n : K) := rfl
@[simp] theorem Fl.ofInt_def (n : Int) : (Fl.ofInt n : Fl K) = fin (n : K) := rfl

/-- `a` is NaN. -/
def Fl.isNan : Fl K → Bool
  | nan => true
  | _ => false

/-- `std::sort` on floats: the sorted permutation; undefined behaviour when a NaN is present (`<` is then not a
strict weak ordering). -/
def stdSort (l : List (Fl K)) : Res (List (Fl K)) :=
  if l.any Fl.isNan then ub else ok (l.insertionSort (fun a b => Fl.le a b = true))

/-- `int(floor(q))` for a float; conversion of NaN/inf to int is undefined. -/
def Fl.floorInt [FloorRing K] : Fl K → Res Int
  | fin q => ok ⌊q⌋
  | _ => ub

/-- `int(ceil(q))`. -/
def Fl.ceilInt [FloorRing K] : Fl K → Res Int
  | fin q => ok ⌈q⌉
  | _ => ub

/-- Implicit conversion float -> int: truncation toward zero. -/
def Fl.truncInt [FloorRing K] : Fl K → Res Int
  | fin q => ok (if 0 ≤ q then ⌊q⌋ else ⌈q⌉)
  | _ => ub

/-- Minimum search, util.cpp:122-132. -/
def minStep (min val : Fl K) : Fl K :=
  if !val.isValid then min
  else if !min.isValid then val
  else if val.lt min then val
  else min

/-- Maximum search, util.cpp:135-145. -/
def maxStep (max val : Fl K) : Fl K :=
  if !val.isValid then max
  else if !max.isValid then val
  else if val.gt max then val
  else max

/-- `gridpp::calc_quantile(const vec&, float)` (util.cpp:111-178). -/
def calcQuantile [FloorRing K] (array : List (Fl K)) (quantile : Fl K) : Res (Fl K) :=
  if quantile.lt 0 || quantile.gt 1 then throw .invalidArgument
  else if !quantile.isValid then ok MV
  else if array.length = 0 then ok MV
  else if quantile.feq 0 then ok (array.foldl minStep MV)
  else if quantile.feq 1 then ok (array.foldl maxStep MV)
  else
    let cleanHood := array.filter isValid
    let N := cleanHood.length
    if 0 < N then do
      let sorted ← stdSort cleanHood
      let lowerIndex ← Fl.floorInt (quantile * Fl.ofInt (N - 1))
      let upperIndex ← Fl.ceilInt (quantile * Fl.ofInt (N - 1))
      let lowerQuantile := Fl.ofInt lowerIndex / Fl.ofInt (N - 1)
      let upperQuantile := Fl.ofInt upperIndex / Fl.ofInt (N - 1)
      let lowerValue ← vget sorted lowerIndex
      let upperValue ← vget sorted upperIndex
      if lowerIndex = upperIndex then ok lowerValue
      else do
        assert (upperQuantile.gt lowerQuantile)
        assert (quantile.ge lowerQuantile)
        let f := (quantile - lowerQuantile) / (upperQuantile - lowerQuantile)
        assert (f.ge 0)
        assert (f.le 1)
        ok (lowerValue + (upperValue - lowerValue) * f)
    else ok MV

/-- Loop of the Mean/Sum/Count branch, util.cpp:23-30: total and count of the valid values. -/
def sumCount (array : List (Fl K)) : Fl K × Nat :=
  array.foldl (fun s v => if v.isValid then (s.1 + v, s.2 + 1) else s) (0, 0)

/-- State of the Std/Variance loop, util.cpp:45-59: `total, total2, K, count`. -/
def varStep (s : Fl K × Fl K × Fl K × Nat) (v : Fl K) : Fl K × Fl K × Fl K × Nat :=
  if v.isValid then
    let k := if !s.2.2.1.isValid then v else s.2.2.1
    (s.1 + (v - k), s.2.1 + (v - k) * (v - k), k, s.2.2.2 + 1)
  else s

/-- Population variance, util.cpp:40-69; `MV` if there is no valid value. -/
def calcVariance (array : List (Fl K)) : Fl K :=
  let s := array.foldl varStep (0, 0, MV, 0)
  if 0 < s.2.2.2 then
    let mean := s.1 / Fl.ofNat s.2.2.2
    let mean2 := s.2.1 / Fl.ofNat s.2.2.2
    let var := mean2 - mean * mean
    if var.lt 0 then 0 else var
  else MV

/-- RandomChoice, util.cpp:75-96. `r` is the value of `rand()`. -/
def randomChoice (r : Nat) (array : List (Fl K)) : Res (Fl K) :=
  let numValid := (array.filter isValid).length
  if 0 < numValid then do
    let idx := r % numValid
    assert (idx < array.length)
    vget (array.filter isValid) (idx : Int)
  else ok MV

/-- `gridpp::calc_statistic(const vec&, Statistic)` (util.cpp:19-110). -/
def calcStatistic [FloorRing K] [HasSqrt K] (rnd : Rnd K) (array : List (Fl K)) (s : Statistic) : Res (Fl K) :=
  match s with
  | .mean =>
    let t := sumCount array
    ok (if 0 < t.2 then t.1 / Fl.ofNat t.2 else MV)
  | .sum =>
    let t := sumCount array
    ok (if 0 < t.2 then t.1 else MV)
  | .count => ok (Fl.ofNat (sumCount array).2)
  | .variance => ok (calcVariance array)
  | .std => ok (Fl.sqrt (calcVariance array))
  | .randomChoice => randomChoice (rnd array) array
  | .min => calcQuantile array 0
  | .median => calcQuantile array (fin (1 / 2))
  | .max => calcQuantile array 1
  | .quantile => throw .runtimeError
  | .unknown => throw .runtimeError

/-- `gridpp::calc_statistic(const vec2&, Statistic)` (util.cpp:209-216). -/
def calcStatistic2 [FloorRing K] [HasSqrt K] (rnd : Rnd K) (array : List (List (Fl K))) (s : Statistic) :
    Res (List (Fl K)) := mapM (fun r => calcStatistic rnd r s) array

/-- `gridpp::calc_quantile(const vec2&, float)` (util.cpp:179-186). -/
def calcQuantile2 [FloorRing K] (array : List (List (Fl K))) (q : Fl K) : Res (List (Fl K)) :=
  mapM (fun r => calcQuantile r q) array

/-- `gridpp::num_missing_values` (util.cpp:217-225). -/
def numMissingValues (a : List (List (Fl K))) : Nat :=
  a.foldl (fun c r => r.foldl (fun c v => if !v.isValid then c + 1 else c) c) 0

/-- Distinct values of a sorted list, util.cpp:274-278: an element is kept if it differs from its predecessor. -/
def uniqueRuns : Fl K → List (Fl K) → List (Fl K)
  | _, [] => []
  | prev, v :: t => if v.fne prev then v :: uniqueRuns v t else uniqueRuns v t

/-- Number of leading elements equal to `lowest`, util.cpp:288-293. -/
def countLower (lowest : Fl K) : List (Fl K) → Nat
  | [] => 0
  | v :: t => if v.fne lowest then 0 else countLower lowest t + 1

/-- Loop at util.cpp:314-317: distinct values greater than `last`. -/
def remainingUnique (last : Fl K) (sorted : List (Fl K)) : List (Fl K) :=
  sorted.foldl (fun acc v =>
    if v.gt last && (match acc.getLast? with
      | none => true
      | some w => v.fne w) then acc ++ [v] else acc) []

/-- `gridpp::calc_even_quantiles` (util.cpp:261-338). -/
def calcEvenQuantiles [FloorRing K] (values : List (Fl K)) (num : Int) : Res (List (Fl K)) :=
  let size : Int := values.length
  if num = 0 ∨ size = 0 then ok []
  else do
    let sorted ← stdSort values
    if num ≥ size then do
      let first ← vget sorted 0
      ok (first :: uniqueRuns first sorted.tail)
    else do
      let lowest ← vget sorted 0
      let highest ← vget sorted (size - 1)
      let countLow : Int := countLower lowest sorted
      -- quantiles.reserve(num), line 294: a negative num becomes a huge size_t
      if num < 0 then throw .lengthError
      else if num = 2 then
        ok (if lowest.fne highest then [lowest, highest] else [lowest])
      else do
        -- integer division, line 304
        let repeated : Bool := decide (countLow < size) && decide (countLow > size.tdiv num)
        let quantiles ← (if repeated then do
            let v ← vget sorted countLow
            ok [lowest, v]
          else ok [lowest] : Res (List (Fl K)))
        let lastAdded ← vget quantiles (quantiles.length - 1)
        let remaining := remainingUnique lastAdded sorted
        if 0 < remaining.length then do
          let numLeft : Int := num - quantiles.length
          let rest ← mapM (fun i : Int => do
            let f : Fl K := Fl.ofInt i / Fl.ofInt numLeft
            let index ← Fl.truncInt (Fl.ofNat remaining.length * f - 1)
            if index ≥ 0 then do
              assert (index < remaining.length)
              vget remaining index
            else throw .runtimeError) (irange 1 numLeft)
          ok (quantiles ++ rest)
        else ok quantiles

/-- Scan of `get_lower_index` (util.cpp:341-355) from index `i` with the current `index`. -/
def lowerScan (x : Fl K) : List (Fl K) → Nat → Option Nat → Option Nat
  | [], _, index => index
  | v :: t, i, index =>
    if v.isValid then
      if v.lt x then lowerScan x t (i + 1) (some i)
      else if v.feq x then some i
      else if v.gt x then index
      else lowerScan x t (i + 1) index
    else lowerScan x t (i + 1) index

/-- `gridpp::get_lower_index` (util.cpp:339-357). `none` stands for `int index = gridpp::MV`, i.e. NaN converted to
`int` (line 340), which is not a usable index. -/
def getLowerIndex (x : Fl K) (values : List (Fl K)) : Option Nat := lowerScan x values 0 none

/-- Scan of `get_upper_index` (util.cpp:360-374); the list is the reversed prefix, so the head has index
`t.length`. -/
def upperScan (x : Fl K) : List (Fl K) → Option Nat → Option Nat
  | [], index => index
  | v :: t, index =>
    if v.isValid then
      if v.gt x then upperScan x t (some t.length)
      else if v.feq x then some t.length
      else if v.lt x then index
      else upperScan x t index
    else upperScan x t index

/-- `gridpp::get_upper_index` (util.cpp:358-376). -/
def getUpperIndex (x : Fl K) (values : List (Fl K)) : Option Nat := upperScan x values.reverse none

/-- Indexing with the result of the searches: the not-found value is no valid index. -/
def vgetOpt {α : Type} (v : List α) : Option Nat → Res α
  | some i => vget v (i : Int)
  | none => ub

/-- `gridpp::interpolate(float, const vec&, const vec&)` (util.cpp:377-414). -/
def interpolate (x : Fl K) (iX iY : List (Fl K)) : Res (Fl K) :=
  if !x.isValid then ok MV
  else if iX.length ≠ iY.length then throw .invalidArgument
  else if iX.length = 0 then ok MV
  else do
    let last ← vget iX (iX.length - 1)
    if x.gt last then vget iY (iX.length - 1)
    else do
      let first ← vget iX 0
      if x.lt first then vget iY 0
      else do
        let i0 := getLowerIndex x iX
        let i1 := getUpperIndex x iX
        let x0 ← vgetOpt iX i0
        let x1 ← vgetOpt iX i1
        let y0 ← vgetOpt iY i0
        let y1 ← vgetOpt iY i1
        if x0.feq x1 then
          if i0 = some 0 ∧ i1 = some (iX.length - 1) then ok ((y0 + y1) / fin 2)
          else if i0 = some 0 then ok y1
          else if i1 = some (iX.length - 1) then ok y0
          else ok ((y0 + y1) / fin 2)
        else do
          assert (x1.ge x0)
          ok (y0 + (y1 - y0) * (x - x0) / (x1 - x0))

/-- `gridpp::interpolate(const vec&, const vec&, const vec&)` (util.cpp:415-426), a parallel loop. -/
def interpolateVec (x iX iY : List (Fl K)) : Res (List (Fl K)) :=
  if iX.length ≠ iY.length then throw .invalidArgument
  else omp (mapM (fun v => interpolate v iX iY) x)

/-- A point as used by `point_in_rectangle`: only `lat` and `lon` matter. -/
structure LatLon (K : Type) where
  lat : Fl K
  lon : Fl K

/-- `vect2d` (util.cpp:562-569). -/
def vect2d (p1 p2 : LatLon K) : LatLon K where
  lon := p2.lon - p1.lon
  lat := fin (-1) * (p2.lat - p1.lat)

/-- The line value `D` of `m` with respect to the side from `P` to `Q`, util.cpp:572-575. -/
def sideValue (P Q m : LatLon K) : Fl K :=
  let PQ := vect2d P Q
  let C := fin (-1) * (PQ.lat * P.lon + PQ.lon * P.lat)
  (PQ.lat * m.lon + PQ.lon * m.lat) + C

/-- `gridpp::point_in_rectangle` (util.cpp:571-581). -/
def pointInRectangle (A B C D m : LatLon K) : Bool :=
  let D1 := sideValue A B m
  let D2 := sideValue A D m
  let D3 := sideValue B C m
  let D4 := sideValue C D m
  let opt1 := Fl.ge 0 D1 && Fl.ge 0 D4 && Fl.le 0 D2 && Fl.ge 0 D3
  let opt2 := Fl.le 0 D1 && Fl.le 0 D4 && Fl.ge 0 D2 && Fl.le 0 D3
  opt1 || opt2

end
end Gridpp
