import Verif.Base.Fl
import Verif.Base.Res

/-! # Verification scores and the metric optimizer (src/api/metric_optimizer.cpp) -/

set_option linter.unusedSectionVars false

namespace Gridpp
open Fl Res

/-- `enum Metric` (include/gridpp.h:103-110). `other` stands for every value that is not an enumerator. -/
inductive Metric where
  | ets | ts | kss | pc | bias | hss | other
  deriving DecidableEq

variable {K : Type} [Field K] [LinearOrder K]

/-- `gridpp::calc_score(a, b, c, d, metric)` (src/api/metric_optimizer.cpp:204-244). Intermediate results in `double` are
exact like everything else. The unused variable `N` of `Ts` (line 213) is left out. -/
def calcScore (a b c d : Fl K) : Metric → Res (Fl K)
  | .ets =>
    if feq (a + b + c - (a + b) / fin 1 / (a + b + c + d) * (a + c)) (fin 0) then ok MV
    else ok ((a - (a + b) / fin 1 / (a + b + c + d) * (a + c)) / fin 1 / (a + b + c - (a + b) / fin 1 / (a + b + c + d) * (a + c)))
  | .ts => ok (a / fin 1 / (a + b + c))
  | .pc => ok ((a + d) / (a + b + c + d))
  | .kss =>
    if feq ((a + c) * (b + d)) (fin 0) then ok MV
    else ok ((a * d - b * c) * fin 1 / ((a + c) * (b + d)))
  | .bias =>
    if feq b c then ok (fin 1)
    else ok (fin 1 - Fl.abs (b - c) / (b + c))
  | .hss =>
    if feq ((a + c) * (c + d) + (a + b) * (b + d)) (fin 0) then ok MV
    else ok (fin 2 * (a * d - b * c) / ((a + c) * (c + d) + (a + b) * (b + d)))
  | .other => .throw .invalidArgument

/-- The four counters of `calc_score` (src/api/metric_optimizer.cpp:185). They are of type `float` in the code; that such
a counter stops at 2^24 is not modelled. -/
structure Counts (K : Type) where
  a : Fl K
  b : Fl K
  c : Fl K
  d : Fl K
  deriving DecidableEq

/-- The loop body (src/api/metric_optimizer.cpp:187-200). -/
def countPair (threshold fthreshold : Fl K) (n : Counts K) (f r : Fl K) : Counts K :=
  if gt f fthreshold then
    if gt r threshold then { n with a := n.a + fin 1 }
    else if le r threshold then { n with b := n.b + fin 1 }
    else n
  else
    if gt r threshold then { n with c := n.c + fin 1 }
    else if le r threshold then { n with d := n.d + fin 1 }
    else n

/-- The loop of `calc_score` (src/api/metric_optimizer.cpp:186-201): as many iterations as forecasts, and `ref[t]` is not
checked. -/
def countPairs (ref fcst : List (Fl K)) (threshold fthreshold : Fl K) : Res (Counts K) :=
  foldM (fun n t => do
    let f ← vget fcst t
    let r ← vget ref t
    ok (countPair threshold fthreshold n f r)) ⟨fin 0, fin 0, fin 0, fin 0⟩ (upto fcst.length)

/-- `gridpp::calc_score(ref, fcst, threshold, fthreshold, metric)` (src/api/metric_optimizer.cpp:184-203). -/
def calcScoreAt (ref fcst : List (Fl K)) (threshold fthreshold : Fl K) (metric : Metric) : Res (Fl K) := do
  let n ← countPairs ref fcst threshold fthreshold
  calcScore n.a n.b n.c n.d metric

/-- `gridpp::calc_score(ref, fcst, threshold, metric)` (src/api/metric_optimizer.cpp:181-183). -/
def calcScoreVec (ref fcst : List (Fl K)) (threshold : Fl K) (metric : Metric) : Res (Fl K) :=
  calcScoreAt ref fcst threshold threshold metric

/-- The smallest and the largest forecast as computed by the constructor of `Data`
(src/api/metric_optimizer.cpp:32-42): as many iterations as references, `fcst[i]` is not checked. -/
def fcstRange (ref fcst : List (Fl K)) : Res (Fl K × Fl K) :=
  foldM (fun (m : Fl K × Fl K) i => do
    let f ← vget fcst i
    ok (if !isValid m.1 || lt f m.1 then f else m.1, if !isValid m.2 || gt f m.2 then f else m.2)) (MV, MV) (upto ref.length)

/-- `Score_func::operator()` (src/api/metric_optimizer.cpp:70-76). -/
def scoreFunc (ref fcst : List (Fl K)) (threshold : Fl K) (metric : Metric) (x : Fl K) : Res (Fl K) := do
  let s ← calcScoreAt ref fcst threshold x metric
  ok (-s)

/-- `boost::math::tools::brent_find_minima(f, min, max, bits)` with 32 bits: an external function, it returns a position
and the value of `f` there. -/
structure Brent (K : Type) where
  minima : (Fl K → Fl K) → Fl K → Fl K → Fl K × Fl K

/-- What is assumed of it: the position is in the interval and the value is the value of `f` there. -/
structure Brent.Lawful (B : Brent K) : Prop where
  value : ∀ f lo hi, (B.minima f lo hi).2 = f (B.minima f lo hi).1
  inside : ∀ f (lo hi : K), lo ≤ hi → ∃ x, (B.minima f (fin lo) (fin hi)).1 = fin x ∧ lo ≤ x ∧ x ≤ hi

/-- The value of the function handed to Brent's method. Whether `calc_score` throws or reads outside `ref` depends on the
metric and the sizes only, so it has happened at the first evaluation (line 145) already. -/
def scoreValue (ref fcst : List (Fl K)) (threshold : Fl K) (metric : Metric) (x : Fl K) : Fl K :=
  match scoreFunc ref fcst threshold metric x with
  | ok v => v
  | _ => nan

/-- Bin `b` of ten (src/api/metric_optimizer.cpp:146,148). -/
def optimizerBin (lo hi : Fl K) (b : Nat) : Fl K :=
  if b = 0 then lo else lo + (hi - lo) / fin 9 * fin (b : K)

/-- One pass of the loop over the bins (src/api/metric_optimizer.cpp:147-156). -/
def optimizerStep (ref fcst : List (Fl K)) (threshold : Fl K) (metric : Metric) (lo hi : Fl K) (m : Nat × Fl K) (b : Nat) :
    Res (Nat × Fl K) := do
  let v ← scoreFunc ref fcst threshold metric (optimizerBin lo hi b)
  ok (if lt v m.2 then (b, v) else m)

/-- `gridpp::get_optimal_threshold` (src/api/metric_optimizer.cpp:127-180), with `remove_near_zero` and
`remove_at_boundary` on and `remove_uncertain` off as in lines 131-133. The constants 0.0001 and 0.001 are rational. -/
def getOptimalThreshold (B : Brent K) (ref fcst : List (Fl K)) (threshold : Fl K) (metric : Metric) : Res (Fl K) := do
  let r ← fcstRange ref fcst
  let v0 ← scoreFunc ref fcst threshold metric r.1
  let m ← foldM (optimizerStep ref fcst threshold metric r.1 r.2) (0, v0) [1, 2, 3, 4, 5, 6, 7, 8, 9]
  let left := if m.1 > 0 then m.1 - 1 else 0
  let right := if m.1 < 9 then m.1 + 1 else 9
  let q := B.minima (scoreValue ref fcst threshold metric) (optimizerBin r.1 r.2 left) (optimizerBin r.1 r.2 right)
  let f0 ← scoreFunc ref fcst threshold metric r.1
  let f1 ← scoreFunc ref fcst threshold metric r.2
  ok (if !isValid (-q.2) then MV
      else if le (-q.2) (fin (1 / 10000)) then MV
      else if lt (Fl.abs (q.2 - -f0)) (fin (1 / 1000)) || lt (Fl.abs (q.2 - -f1)) (fin (1 / 1000)) then MV
      else q.1)

/-- `gridpp::metric_optimizer_curve` (src/api/metric_optimizer.cpp:103-125): the returned values and `output_fcst`. -/
def metricOptimizerCurve (B : Brent K) (ref fcst thresholds : List (Fl K)) (metric : Metric) : Res (List (Fl K) × List (Fl K)) :=
  if ref.length ≠ fcst.length then .throw .invalidArgument
  else foldM (fun (o : List (Fl K) × List (Fl K)) t => do
    let v ← getOptimalThreshold B ref fcst t metric
    ok (if isValid v then (o.1 ++ [v], o.2 ++ [t]) else o)) ([], []) thresholds

end Gridpp
