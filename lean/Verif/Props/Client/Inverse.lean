import Verif.Lemmas.Client.Matrix
import Mathlib.LinearAlgebra.Matrix.ToLinearEquiv
import Mathlib.LinearAlgebra.Matrix.NonsingularInverse

/-! # C158: the inverse of a matrix -/

set_option linter.unusedSectionVars false

namespace Gridpp.Props
open Fl hiding MV isValid
open Res Client Spec

variable {K : Type} [Field K] [LinearOrder K] [IsStrictOrderedRing K]

theorem kdot_sum : ∀ (n : Nat) (a b : List K), a.length = n → b.length = n → kdot a b = ∑ k : Fin n, a.getD k 0 * b.getD k 0
  | 0, [], [], _, _ => by simp
  | n + 1, x :: a, y :: b, h1, h2 => by
    rw [kdot_cons, kdot_sum n a b (by simpa using h1) (by simpa using h2), Fin.sum_univ_succ]
    simp

theorem column_length (l : Nat) (X : List (List K)) : (column l X).length = X.length := by simp [column]

theorem column_getD (l k : Nat) (X : List (List K)) : (column l X).getD k 0 = (X.getD k []).getD l 0 := by
  unfold column
  simp only [List.getD_eq_getElem?_getD, List.getElem?_map]
  cases X[k]? <;> simp

/-- A row of the unit matrix, as numbers. -/
def unitRowK (N i : Nat) : List K := (List.range N).map fun j => if j = i then 1 else 0

theorem unitRow_fin (N i : Nat) : unitRow N i = (unitRowK N i : List K).map fin := by
  unfold unitRow unitRowK
  rw [List.map_map]
  refine List.map_congr_left fun j _ => ?_
  simp only [Function.comp_apply]
  split_ifs <;> rfl

theorem unitRowK_getD {N i l : Nat} (hl : l < N) : (unitRowK N i : List K).getD l 0 = if l = i then 1 else 0 := by
  unfold unitRowK
  rw [List.getD_eq_getElem?_getD, List.getElem?_map, List.getElem?_range hl]
  rfl

theorem mapIdx_finRow (A : List (List K)) (N : Nat) :
    ((A.map (List.map fin)).mapIdx fun i r => ((r, unitRow N i) : List (Fl K) × List (Fl K))) = (A.mapIdx fun i r => (r, unitRowK N i)).map finRow := by
  apply List.ext_getElem?
  intro i
  simp only [List.getElem?_mapIdx, List.getElem?_map]
  cases A[i]? with
  | none => rfl
  | some r => simp [finRow, unitRow_fin]

/-- Equations with the unit matrix on the right: the solution is the inverse, or the determinant is 0. -/
theorem luSolve_unit {N : Nat} {A : List (List K)} (hA : Rect N N A) :
    ((matOf N N A).det ≠ 0 → ∃ X, Rect N N X ∧ luSolve N ((A.map (List.map fin)).mapIdx fun i r => (r, unitRow N i)) = some (X.map (List.map fin)) ∧
      matOf N N A * matOf N N X = 1) ∧
    ((matOf N N A).det = 0 → luSolve N ((A.map (List.map fin)).mapIdx fun i r => (r, unitRow N i)) = none) := by
  rw [mapIdx_finRow A N]
  have hrow : ∀ i : Fin N, ∃ r, A[(i : Nat)]? = some r ∧ r.length = N := by
    intro i
    have hi : (i : Nat) < A.length := by rw [hA.1]; exact i.2
    exact ⟨A[(i : Nat)], List.getElem?_eq_getElem hi, hA.2 _ (List.getElem_mem hi)⟩
  rcases luSolve_fin (m := N) N (A.mapIdx fun i r => (r, unitRowK N i)) (by rw [List.length_mapIdx]; exact hA.1) (by
    intro r hr
    obtain ⟨i, hi, rfl⟩ := List.mem_mapIdx.mp hr
    exact ⟨hA.2 _ (List.getElem_mem hi), by simp [unitRowK]⟩) with ⟨X, h1, h2, h3⟩ | ⟨h1, v, h2, ⟨x, h3, h4⟩, h5⟩
  · have hmul : matOf N N A * matOf N N X = 1 := by
      ext i l
      obtain ⟨r, r1, r2⟩ := hrow i
      have := h3 (r, unitRowK N i) (List.mem_mapIdx.mpr (by
        obtain ⟨hi, he⟩ := List.getElem?_eq_some_iff.mp r1
        exact ⟨i, hi, by rw [he]⟩)) l l.2
      simp only at this
      rw [unitRowK_getD l.2, kdot_sum N _ _ r2 (by rw [column_length]; exact h2.1)] at this
      rw [Matrix.mul_apply, Matrix.one_apply]
      rw [show (if i = l then (1 : K) else 0) = if (l : Nat) = (i : Nat) then 1 else 0 by
        by_cases hil : i = l
        · simp [hil]
        · rw [if_neg hil, if_neg (fun h => hil (Fin.ext h.symm))]]
      rw [← this]
      refine Finset.sum_congr rfl fun k _ => ?_
      unfold matOf
      rw [column_getD, show A.getD (i : Nat) [] = r by rw [List.getD_eq_getElem?_getD, r1]; rfl]
    refine ⟨fun _ => ⟨X, h2, h1, hmul⟩, fun h0 => ?_⟩
    have hd := congrArg Matrix.det hmul
    rw [Matrix.det_mul, Matrix.det_one, h0, zero_mul] at hd
    exact absurd hd zero_ne_one
  · have hdet : (matOf N N A).det = 0 := by
      rw [← Matrix.exists_mulVec_eq_zero_iff]
      refine ⟨fun k => v.getD k 0, ?_, ?_⟩
      · intro hz
        obtain ⟨k, hk, hxk⟩ := List.getElem_of_mem h3
        have := congrFun hz ⟨k, by omega⟩
        simp only [Pi.zero_apply] at this
        rw [List.getD_eq_getElem?_getD, List.getElem?_eq_getElem hk] at this
        exact h4 (hxk.symm.trans this)
      · funext i
        obtain ⟨r, r1, r2⟩ := hrow i
        have := h5 (r, unitRowK N i) (List.mem_mapIdx.mpr (by
          obtain ⟨hi, he⟩ := List.getElem?_eq_some_iff.mp r1
          exact ⟨i, hi, by rw [he]⟩))
        simp only at this
        rw [kdot_sum N _ _ r2 h2] at this
        rw [Pi.zero_apply]
        refine Eq.trans ?_ this
        unfold Matrix.mulVec dotProduct matOf
        refine Finset.sum_congr rfl fun k _ => ?_
        rw [show A.getD (i : Nat) [] = r by rw [List.getD_eq_getElem?_getD, r1]; rfl]
    exact ⟨fun h => absurd hdet h, fun _ => h1⟩

theorem foldM_and {α : Type} (step : Bool → α → Res Bool) (p : α → Bool) : ∀ (l : List α) (good : Bool), (∀ x ∈ l, ∀ good, step good x = ok (good && p x)) →
    foldM step good l = ok (good && l.all p)
  | [], good, _ => by simp [foldM]
  | x :: l, good, h => by
    rw [foldM_cons, h x (by simp), ok_bind, foldM_and step p l _ (fun y hy => h y (by simp [hy]))]
    simp [Bool.and_assoc]

/-- The test for missing values. -/
theorem inverse_valid {N : Nat} {M : List (List (Fl K))} (hM : Rect N N M) :
    foldM (fun (good : Bool) (i : Nat) => foldM (fun (good : Bool) (j : Nat) =>
      if good then do
        let value ← vget2 M i j
        ok (Client.isValid value)
      else ok false) good (List.range N)) true (List.range N) = ok (M.all fun r => r.all Client.isValid) := by
  have hinner : ∀ i ∈ List.range N, ∀ good : Bool, foldM (fun (good : Bool) (j : Nat) =>
      if good then do
        let value ← vget2 M i j
        ok (Client.isValid value)
      else ok false) good (List.range N) = ok (good && (M.getD i []).all Client.isValid) := by
    intro i hi good
    have hi' := List.mem_range.mp hi
    have hiM : i < M.length := by rw [hM.1]; exact hi'
    have hrow : M.getD i [] = M[i] := by rw [List.getD_eq_getElem?_getD, List.getElem?_eq_getElem hiM]; rfl
    have hlen : M[i].length = N := hM.2 _ (List.getElem_mem hiM)
    rw [foldM_and _ (fun j => Client.isValid ((M.getD i []).getD j .nan))]
    · congr 2
      rw [hrow, ← hlen]
      rw [Bool.eq_iff_iff, List.all_eq_true, List.all_eq_true]
      constructor
      · intro h x hx
        obtain ⟨j, hj, rfl⟩ := List.getElem_of_mem hx
        have := h j (List.mem_range.mpr hj)
        rwa [List.getD_eq_getElem?_getD, List.getElem?_eq_getElem hj] at this
      · intro h j hj
        have hj' := List.mem_range.mp hj
        rw [List.getD_eq_getElem?_getD, List.getElem?_eq_getElem hj']
        exact h _ (List.getElem_mem hj')
    · intro j hj g
      have hj' := List.mem_range.mp hj
      cases g with
      | false => simp
      | true =>
        obtain ⟨x, hx⟩ := hM.cell?_some hi' hj'
        simp only [if_true, Bool.true_and]
        rw [vget2_of_cell? hx, ok_bind]
        unfold cell? at hx
        rw [List.getElem?_eq_getElem hiM, Option.bind_some] at hx
        rw [hrow, List.getD_eq_getElem?_getD, hx]
        rfl
  rw [foldM_and _ (fun i => (M.getD i []).all Client.isValid) _ _ hinner, Bool.true_and]
  congr 1
  rw [Bool.eq_iff_iff, List.all_eq_true, List.all_eq_true]
  constructor
  · intro h x hx
    obtain ⟨j, hj, rfl⟩ := List.getElem_of_mem hx
    have := h j (List.mem_range.mpr (by rw [← hM.1]; exact hj))
    rwa [List.getD_eq_getElem?_getD, List.getElem?_eq_getElem hj] at this
  · intro h j hj
    have hj' : j < M.length := by rw [hM.1]; exact List.mem_range.mp hj
    rw [List.getD_eq_getElem?_getD, List.getElem?_eq_getElem hj']
    exact h _ (List.getElem_mem hj')

theorem inverse_eq {N : Nat} {M : List (List (Fl K))} (hM : Rect N N M) :
    inverse M = if M.all (fun r => r.all Client.isValid) then
        match luSolve N (M.mapIdx fun i r => (r, unitRow N i)) with
        | none => ok (List.replicate N (List.replicate N MV))
        | some X => ok X
      else ok (List.replicate N (List.replicate N MV)) := by
  unfold inverse
  simp only
  rw [hM.1, inverse_valid hM, ok_bind]
  have : (M.mapIdx fun i r => (r.take N, (unitRow N i : List (Fl K)))) = M.mapIdx fun i r => (r, unitRow N i) := by
    apply List.ext_getElem?
    intro i
    simp only [List.getElem?_mapIdx]
    cases h : M[i]? with
    | none => rfl
    | some r =>
      have := hM.2 r (List.mem_of_getElem? h)
      simp [← this]
  rw [this]
  rfl

/-- C158, no value is missing: the result is the inverse if there is one, and else all values of it are missing. -/
theorem c158_inverse {N : Nat} {A : List (List K)} (hA : Rect N N A) (hv : ∀ r ∈ A, -999 ∉ r) :
    ((matOf N N A).det ≠ 0 → ∃ X, Rect N N X ∧ inverse (A.map (List.map fin)) = ok (X.map (List.map fin)) ∧
      matOf N N A * matOf N N X = 1 ∧ matOf N N X * matOf N N A = 1) ∧
    ((matOf N N A).det = 0 → inverse (A.map (List.map fin)) = ok (List.replicate N (List.replicate N MV))) := by
  have hM : Rect N N (A.map (List.map (fin : K → Fl K))) := ⟨by rw [List.length_map]; exact hA.1, by
    intro r hr
    obtain ⟨s, hs, rfl⟩ := List.mem_map.mp hr
    rw [List.length_map]
    exact hA.2 s hs⟩
  have hall : (A.map (List.map (fin : K → Fl K))).all (fun r => r.all Client.isValid) = true := by
    simp only [List.all_eq_true, List.mem_map]
    rintro r ⟨s, hs, rfl⟩ x hx
    obtain ⟨q, hq, rfl⟩ := List.mem_map.mp hx
    have : q ≠ -999 := fun h => hv s hs (h ▸ hq)
    simp [Client.isValid, this]
  rw [inverse_eq hM, hall]
  simp only [if_true]
  obtain ⟨h1, h2⟩ := luSolve_unit hA
  constructor
  · intro h
    obtain ⟨X, x1, x2, x3⟩ := h1 h
    rw [x2]
    exact ⟨X, x1, rfl, x3, mul_eq_one_comm.mp x3⟩
  · intro h
    rw [h2 h]

/-- C158, a value is missing or not a number: all values of the result are missing. -/
theorem c158_missing {N : Nat} {M : List (List (Fl K))} (hM : Rect N N M) {r : List (Fl K)} (hr : r ∈ M) {x : Fl K} (hx : x ∈ r)
    (hm : ∀ q, x = fin q → q = -999) : inverse M = ok (List.replicate N (List.replicate N MV)) := by
  rw [inverse_eq hM, if_neg]
  intro h
  have := List.all_eq_true.mp (List.all_eq_true.mp h r hr) x hx
  cases x with
  | fin q => simp [Client.isValid, hm q rfl] at this
  | _ => simp [Client.isValid] at this

/-- C158 is false of the code for a matrix with a short row: it is read beyond its end before the size is tested. -/
theorem c158_ragged_false : inverse ([[fin 1, fin 0], [fin 2]] : List (List (Fl ℚ))) = .ub := by decide +kernel

/-- A matrix that needs an exchange of rows. -/
example : inverse ([[fin 0, fin 2], [fin 1, fin 3]] : List (List (Fl ℚ))) = ok [[fin (-3 / 2), fin 1], [fin (1 / 2), fin 0]] := by decide +kernel

/-- The hypotheses hold for it. -/
example : Rect 2 2 ([[0, 2], [1, 3]] : List (List ℚ)) ∧ (matOf 2 2 ([[0, 2], [1, 3]] : List (List ℚ))).det ≠ 0 := by
  refine ⟨⟨rfl, by simp⟩, ?_⟩
  rw [Matrix.det_fin_two]
  simp [matOf]

/-- A singular matrix. -/
example : inverse ([[fin 1, fin 2], [fin 2, fin 4]] : List (List (Fl ℚ))) = ok [[MV, MV], [MV, MV]] := by decide +kernel

end Gridpp.Props
