import Verif.Model.Client.Util

/-! # src/client/Util.cpp: inverse, regression

`lu_factorize` and `lu_substitute` are functions of Boost uBLAS, which is not part of the repository. Here they are the usual
factorization with exchange of rows: the right hand sides are changed together with the matrix, instead of afterwards with the stored
factors, and the vector with the exchanges is therefore not needed. A singular matrix is reported for the first column without a
pivot; the code only uses that the result is not zero. -/

namespace Gridpp.Client
open Res
open Fl hiding MV isValid

section generic
variable {R : Type} [Sub R] [Mul R]

/-- A row minus a multiple of another one: the update with the outer product in `lu_factorize` (src/client/Util.cpp:492, 614). -/
def elimRow (f : R) (row pivot : List R) : List R := List.zipWith (fun x y => x - f * y) row pivot

/-- The right hand side of a row minus what the known rows of the solution contribute, from the last one to the first one: `lu_substitute`
with the upper triangle (src/client/Util.cpp:509, 625). -/
def backRow (coefs : List R) (X : List (List R)) (rhs : List R) : List R :=
  (coefs.zip X).foldr (fun p acc => elimRow p.1 acc p.2) rhs

end generic

variable {K : Type} [Field K] [LinearOrder K]

/-- `index_norm_inf`: the first index of the number that is largest without its sign (src/client/Util.cpp:492, 614). -/
def pivotFrom : List (Fl K) → Nat → Nat → Fl K → Nat
  | [], _, best, _ => best
  | x :: xs, i, best, t => if gt (Fl.abs x) t then pivotFrom xs (i + 1) i (Fl.abs x) else pivotFrom xs (i + 1) best t

/-- The rows after row `p` and the first one have been exchanged, without the new first row. -/
def exchangeRest {α : Type} (rows : List α) (p : Nat) : List α :=
  match rows with
  | [] => []
  | r :: t => ((r :: t).set p r).tail

/-- `lu_factorize` followed by `lu_substitute`: the solution of the equations with the coefficients and the right hand sides in `rows`;
`none` if the result of `lu_factorize` is not zero (src/client/Util.cpp:492-509, 614-625). -/
def luSolve : Nat → List (List (Fl K) × List (Fl K)) → Option (List (List (Fl K)))
  | 0, _ => some []
  | n + 1, rows =>
    let p := pivotFrom (rows.map fun r => r.1.headD (fin 0)) 0 0 (fin 0)
    match rows[p]? with
    | none => none
    | some pivot =>
      let a := pivot.1.headD (fin 0)
      if feq a (fin 0) then none
      else
        let rest := (exchangeRest rows p).map fun r =>
          let f := r.1.headD (fin 0) * (fin 1 / a)
          (elimRow f r.1.tail pivot.1.tail, elimRow f r.2 pivot.2)
        match luSolve n rest with
        | none => none
        | some X => some ((backRow pivot.1.tail X pivot.2).map (· / a) :: X)

/-- A row of `identity_matrix` (src/client/Util.cpp:506, 610). -/
def unitRow (N i : Nat) : List (Fl K) := (List.range N).map fun j => if j = i then fin 1 else fin 0

/-- `Util::inverse` (src/client/Util.cpp:457-521). A missing value is found before later rows are read. -/
def inverse (M : List (List (Fl K))) : Res (List (List (Fl K))) := do
  let N := M.length
  let missing := List.replicate N (List.replicate N MV)
  let valid ← foldM (fun (good : Bool) (i : Nat) => foldM (fun (good : Bool) (j : Nat) =>
      if good then do
        let value ← vget2 M i j
        ok (isValid value)
      else ok false) good (List.range N)) true (List.range N)
  if valid then
    match luSolve N (M.mapIdx fun i r => (r.take N, unitRow N i)) with
    | none => ok missing
    | some X => ok X
  else ok missing

/-- An element of `prod` (src/client/Util.cpp:598, 627-628). -/
def fdot (a b : List (Fl K)) : Fl K := (List.zipWith (· * ·) a b).foldl (· + ·) (fin 0)

/-- The columns of the matrix `A` (src/client/Util.cpp:567-582). -/
def regressionColumns (T : Nat) (predictors : List (List (Fl K))) (addConst : Bool) : List (List (Fl K)) :=
  if addConst then List.replicate T (fin 1) :: predictors else predictors

/-- `Util::regression` (src/client/Util.cpp:553-639). The result is rounded to `float` in the code. -/
def utilRegression (predictand : List (Fl K)) (predictors : List (List (Fl K))) (addConst : Bool) : Res (List (Fl K)) :=
  let T := predictand.length
  if T < 2 then error
  else if predictors.any (fun p => p.length != T) then error
  else
    let cols := regressionColumns T predictors addConst
    let N := cols.length
    match luSolve N (cols.mapIdx fun i c => (cols.map fun d => fdot c d, unitRow N i)) with
    | none => abort
    | some X => ok (X.map fun r => fdot ((List.range T).map fun t => fdot r (cols.map fun c => c.getD t (fin 0))) predictand)

end Gridpp.Client
