import Mathlib.Data.List.Basic
import Mathlib.Data.List.Forall2
import Mathlib.Tactic.Common

/-!
# Outcome of a C++ call, vectors and loops
-/

namespace Gridpp

/-- C++ exceptions thrown by the code. -/
inductive Exc where
  /-- `std::invalid_argument` -/
  | invalidArgument
  /-- `std::runtime_error` -/
  | runtimeError
  /-- `std::length_error` (e.g. `vector::reserve` with a huge size) -/
  | lengthError
  /-- `std::logic_error` / bounds check of armadillo's `operator()` -/
  | logicError
  deriving DecidableEq, Repr

/-- Outcome of a C++ call. `abort`: process terminated (failed `assert`, or exception leaving an OpenMP region).
`ub`: undefined behaviour. -/
inductive Res (α : Type) where
  | ok (a : α)
  | throw (e : Exc)
  | abort
  | ub
  deriving DecidableEq, Repr

namespace Res

variable {α β γ : Type}

/-- Sequencing: a failure stops the computation. -/
def bind : Res α → (α → Res β) → Res β
  | ok a, f => f a
  | throw e, _ => throw e
  | abort, _ => abort
  | ub, _ => ub

instance : Monad Res where
  pure := ok
  bind := bind

@[simp] theorem pure_def (a : α) : (pure a : Res α) = ok a := rfl
@[simp] theorem ok_bind (a : α) (f : α → Res β) : (ok a >>= f) = f a := rfl
@[simp] theorem throw_bind (e : Exc) (f : α → Res β) : (throw e >>= f) = throw e := rfl
@[simp] theorem abort_bind (f : α → Res β) : ((abort : Res α) >>= f) = abort := rfl
@[simp] theorem ub_bind (f : α → Res β) : ((ub : Res α) >>= f) = ub := rfl

instance : LawfulMonad Res := LawfulMonad.mk'
  (id_map := fun x => by cases x <;> rfl)
  (pure_bind := fun _ _ => rfl)
  (bind_assoc := fun x _ _ => by cases x <;> rfl)

@[simp] theorem map_ok (f : α → β) (a : α) : f <$> (ok a : Res α) = ok (f a) := rfl

theorem bind_eq_ok {x : Res α} {f : α → Res β} {b : β} :
    (x >>= f) = ok b ↔ ∃ a, x = ok a ∧ f a = ok b := by
  cases x <;> simp

/-- A normal return. -/
def isOk : Res α → Bool
  | ok _ => true
  | _ => false

/-- `assert(b)`. The release build does not define NDEBUG (CMakeLists.txt:47-54). -/
def assert (b : Bool) : Res Unit := if b then ok () else abort

@[simp] theorem assert_true : assert true = ok () := rfl
@[simp] theorem assert_false : assert false = abort := rfl

/-- Body of an OpenMP region: an exception that leaves it terminates the process. -/
def omp : Res α → Res α
  | throw _ => abort
  | r => r

@[simp] theorem omp_ok (a : α) : omp (ok a) = ok a := rfl
@[simp] theorem omp_throw (e : Exc) : omp (throw e : Res α) = abort := rfl
@[simp] theorem omp_abort : omp (abort : Res α) = abort := rfl
@[simp] theorem omp_ub : omp (ub : Res α) = ub := rfl

/-- A loop `for(...) out[i] = f(i)` over the given sequence of loop values. -/
def mapM (f : α → Res β) : List α → Res (List β)
  | [] => ok []
  | a :: t => do
    let b ← f a
    let bs ← mapM f t
    ok (b :: bs)

@[simp] theorem mapM_nil (f : α → Res β) : mapM f [] = ok [] := rfl
theorem mapM_cons (f : α → Res β) (a : α) (t : List α) :
    mapM f (a :: t) = (do let b ← f a; let bs ← mapM f t; ok (b :: bs)) := rfl

theorem mapM_ok {f : α → Res β} {g : α → β} {l : List α} (h : ∀ a ∈ l, f a = ok (g a)) :
    mapM f l = ok (l.map g) := by
  induction l with
  | nil => rfl
  | cons a t ih =>
    rw [mapM_cons, h a (by simp), ih (fun b hb => h b (by simp [hb]))]
    rfl

theorem mapM_congr {f g : α → Res β} {l : List α} (h : ∀ a ∈ l, f a = g a) : mapM f l = mapM g l := by
  induction l with
  | nil => rfl
  | cons a t ih =>
    rw [mapM_cons, mapM_cons, h a (by simp), ih (fun b hb => h b (by simp [hb]))]

/-- If the loop succeeds, each iteration succeeded, and the results are in order. -/
theorem mapM_eq_ok {f : α → Res β} {l : List α} {bs : List β} (h : mapM f l = ok bs) :
    List.Forall₂ (fun a b => f a = ok b) l bs := by
  induction l generalizing bs with
  | nil => cases h; exact .nil
  | cons a t ih =>
    rw [mapM_cons] at h
    obtain ⟨b, hb, h⟩ := bind_eq_ok.mp h
    obtain ⟨bs', hbs, h⟩ := bind_eq_ok.mp h
    cases h
    exact .cons hb (ih hbs)

theorem mapM_length {f : α → Res β} {l : List α} {bs : List β} (h : mapM f l = ok bs) :
    bs.length = l.length := (mapM_eq_ok h).length_eq.symm

/-- A loop with carried state. -/
def foldM (f : β → α → Res β) : β → List α → Res β
  | b, [] => ok b
  | b, a :: t => do
    let b' ← f b a
    foldM f b' t

@[simp] theorem foldM_nil (f : β → α → Res β) (b : β) : foldM f b [] = ok b := rfl
theorem foldM_cons (f : β → α → Res β) (b : β) (a : α) (t : List α) :
    foldM f b (a :: t) = (do let b' ← f b a; foldM f b' t) := rfl

theorem foldM_ok {f : β → α → Res β} {g : β → α → β} {l : List α} {b : β}
    (h : ∀ b, ∀ a ∈ l, f b a = ok (g b a)) : foldM f b l = ok (l.foldl g b) := by
  induction l generalizing b with
  | nil => rfl
  | cons a t ih =>
    rw [foldM_cons, h b a (by simp)]
    exact ih (fun b c hc => h b c (by simp [hc]))

/-- Invariant rule for a loop with carried state. -/
theorem foldM_inv {f : β → α → Res β} {P : β → Prop} {l : List α} {b c : β}
    (h0 : P b) (hs : ∀ b a b', a ∈ l → P b → f b a = ok b' → P b') (h : foldM f b l = ok c) : P c := by
  induction l generalizing b with
  | nil => cases h; exact h0
  | cons a t ih =>
    rw [foldM_cons] at h
    obtain ⟨b', hb, h⟩ := bind_eq_ok.mp h
    exact ih (hs b a b' (by simp) h0 hb) (fun b x b' hx => hs b x b' (by simp [hx])) h

end Res

open Res

variable {α β : Type}

/-- `v[i]` for a `std::vector`: undefined behaviour outside the vector. -/
def vget (v : List α) (i : Int) : Res α :=
  if i < 0 then ub else
    match v[i.toNat]? with
    | some a => ok a
    | none => ub

/-- `v[i][j]`. -/
def vget2 (v : List (List α)) (i j : Int) : Res α := do
  let r ← vget v i
  vget r j

theorem vget_nat (v : List α) (n : Nat) : vget v (n : Int) =
    match v[n]? with
    | some a => ok a
    | none => ub := by
  have : ¬ ((n : Int) < 0) := by omega
  simp [vget, this]

theorem vget_eq_ok_of_lt {v : List α} {n : Nat} (h : n < v.length) : vget v (n : Int) = ok v[n] := by
  rw [vget_nat, List.getElem?_eq_getElem h]

theorem vget_ub_of_le {v : List α} {n : Nat} (h : v.length ≤ n) : vget v (n : Int) = ub := by
  rw [vget_nat, List.getElem?_eq_none h]

@[simp] theorem vget_zero_cons (a : α) (t : List α) : vget (a :: t) 0 = ok a := rfl
@[simp] theorem vget_nil (i : Int) : vget ([] : List α) i = ub := by
  unfold vget; split <;> simp

theorem vget_neg {v : List α} {i : Int} (h : i < 0) : vget v i = ub := by
  unfold vget; rw [if_pos h]

/-- Indexing succeeds exactly inside the vector. -/
theorem vget_eq_ok {v : List α} {i : Int} {a : α} :
    vget v i = ok a ↔ ∃ n : Nat, i = n ∧ v[n]? = some a := by
  constructor
  · intro h
    by_cases hi : i < 0
    · rw [vget_neg hi] at h; cases h
    · refine ⟨i.toNat, by omega, ?_⟩
      rw [vget, if_neg hi] at h
      cases hv : v[i.toNat]? with
      | none => rw [hv] at h; cases h
      | some b => rw [hv] at h; cases h; rfl
  · rintro ⟨n, rfl, h⟩
    rw [vget_nat, h]

/-- The loop values of `for(int i = lo; i <= hi; i++)`. -/
def irange (lo hi : Int) : List Int := (List.range (hi + 1 - lo).toNat).map (fun k : Nat => lo + (k : Int))

theorem mem_irange {lo hi i : Int} : i ∈ irange lo hi ↔ lo ≤ i ∧ i ≤ hi := by
  simp only [irange, List.mem_map, List.mem_range]
  constructor
  · rintro ⟨k, hk, rfl⟩; omega
  · rintro ⟨h1, h2⟩; exact ⟨(i - lo).toNat, by omega, by omega⟩

theorem length_irange (lo hi : Int) : (irange lo hi).length = (hi + 1 - lo).toNat := by simp [irange]

theorem irange_empty {lo hi : Int} (h : hi < lo) : irange lo hi = [] := by
  have : (hi + 1 - lo).toNat = 0 := by omega
  simp [irange, this]

/-- The loop values of `for(int i = 0; i < n; i++)`, as `Int`. -/
def upto (n : Nat) : List Int := (List.range n).map (fun k : Nat => (k : Int))

/-- A rectangular `Y x X` field. -/
def Rect (Y X : Nat) (a : List (List α)) : Prop := a.length = Y ∧ ∀ r ∈ a, r.length = X

instance (Y X : Nat) (a : List (List α)) : Decidable (Rect Y X a) := by unfold Rect; infer_instance

/-- Value at `(y, x)` of a field, `none` outside. -/
def cell? (a : List (List α)) (y x : Nat) : Option α := (a[y]?).bind (·[x]?)

theorem Rect.row_length {Y X : Nat} {a : List (List α)} (h : Rect Y X a) {y : Nat} (hy : y < a.length) :
    (a[y]).length = X := h.2 _ (List.getElem_mem hy)

theorem Rect.cell?_some {Y X : Nat} {a : List (List α)} (h : Rect Y X a) {y x : Nat} (hy : y < Y) (hx : x < X) :
    ∃ v, cell? a y x = some v := by
  have hy' : y < a.length := by rw [h.1]; exact hy
  have hx' : x < a[y].length := by rw [h.row_length hy']; exact hx
  exact ⟨a[y][x], by simp [cell?, hy', hx']⟩

theorem vget2_of_cell? {a : List (List α)} {y x : Nat} {v : α} (h : cell? a y x = some v) :
    vget2 a (y : Int) (x : Int) = ok v := by
  unfold cell? at h
  unfold vget2
  cases hr : a[y]? with
  | none => rw [hr] at h; simp at h
  | some r =>
    rw [hr] at h
    simp only [Option.bind_some] at h
    rw [vget_nat, hr]
    simp only [ok_bind]
    rw [vget_nat, h]

/-- A field given by a function of the cell. -/
def tabulate (Y X : Nat) (f : Nat → Nat → α) : List (List α) :=
  (List.range Y).map fun y => (List.range X).map fun x => f y x

theorem rect_tabulate (Y X : Nat) (f : Nat → Nat → α) : Rect Y X (tabulate Y X f) := by
  constructor
  · simp [tabulate]
  · intro r hr
    simp only [tabulate, List.mem_map] at hr
    obtain ⟨y, _, rfl⟩ := hr
    simp

theorem cell?_tabulate {Y X : Nat} (f : Nat → Nat → α) {y x : Nat} (hy : y < Y) (hx : x < X) :
    cell? (tabulate Y X f) y x = some (f y x) := by
  simp [cell?, tabulate, hy, hx]

theorem eq_tabulate {Y X : Nat} {a : List (List α)} (h : Rect Y X a) (d : α) :
    a = tabulate Y X (fun y x => (cell? a y x).getD d) := by
  apply List.ext_getElem
  · simp [tabulate, h.1]
  · intro y h1 h2
    have hr := h.row_length h1
    apply List.ext_getElem
    · simp [tabulate, hr]
    · intro x h3 h4
      simp [tabulate, cell?, h1, h3]

/-- Two rectangular fields are equal when they agree cell by cell. -/
theorem Rect.ext {Y X : Nat} {a b : List (List α)} (ha : Rect Y X a) (hb : Rect Y X b)
    (h : ∀ y < Y, ∀ x < X, cell? a y x = cell? b y x) : a = b := by
  apply List.ext_getElem
  · rw [ha.1, hb.1]
  · intro y h1 h2
    apply List.ext_getElem
    · rw [ha.row_length h1, hb.row_length h2]
    · intro x h3 h4
      have := h y (by rw [← ha.1]; exact h1) x (by rw [← ha.row_length h1]; exact h3)
      simpa [cell?, h1, h2, h3, h4] using this

/-- `gridpp::init_vec2(Y, X, value)` (src/api/util.cpp:475-480). -/
def initVec2 (Y X : Nat) (v : α) : List (List α) := List.replicate Y (List.replicate X v)

end Gridpp

namespace Gridpp
open Res
variable {α β : Type}

theorem mapM_upto {f : Int → Res β} {g : Nat → β} {n : Nat} (h : ∀ k < n, f (k : Int) = ok (g k)) :
    mapM f (upto n) = ok ((List.range n).map g) := by
  unfold upto
  have : ∀ l : List Nat, (∀ k ∈ l, f (k : Int) = ok (g k)) → mapM f (l.map fun k : Nat => (k : Int)) = ok (l.map g) := by
    intro l
    induction l with
    | nil => intro _; rfl
    | cons a t ih =>
      intro hl
      rw [List.map_cons, mapM_cons, hl a (by simp), ih (fun k hk => hl k (by simp [hk]))]
      rfl
  exact this _ (fun k hk => h k (List.mem_range.mp hk))

theorem mapM_upto_eq_ok {f : Int → Res β} {n : Nat} {out : List β} (h : mapM f (upto n) = ok out) :
    out.length = n ∧ ∀ k, (hk : k < out.length) → f (k : Int) = ok out[k] := by
  have hf := mapM_eq_ok h
  have hl := hf.length_eq
  simp [upto] at hl
  refine ⟨hl.symm, fun k hk => ?_⟩
  have := (List.forall₂_iff_get.mp hf).2 k (by simp [upto]; omega) hk
  simpa [upto] using this

/-- `for(y < Y) for(x < X) out[y][x] = f(y, x)`. -/
def grid2 (Y X : Nat) (f : Int → Int → Res β) : Res (List (List β)) :=
  mapM (fun y => mapM (fun x => f y x) (upto X)) (upto Y)

theorem grid2_ok {Y X : Nat} {f : Int → Int → Res β} {g : Nat → Nat → β}
    (h : ∀ y < Y, ∀ x < X, f (y : Int) (x : Int) = ok (g y x)) : grid2 Y X f = ok (tabulate Y X g) := by
  unfold grid2 tabulate
  exact mapM_upto (fun y hy => mapM_upto (fun x hx => h y hy x hx))

theorem grid2_eq_ok {Y X : Nat} {f : Int → Int → Res β} {out : List (List β)} (h : grid2 Y X f = ok out) :
    Rect Y X out ∧ ∀ y < Y, ∀ x < X, ∃ v, cell? out y x = some v ∧ f (y : Int) (x : Int) = ok v := by
  obtain ⟨hl, hr⟩ := mapM_upto_eq_ok h
  refine ⟨⟨hl, fun r hr' => ?_⟩, fun y hy x hx => ?_⟩
  · obtain ⟨k, hk, rfl⟩ := List.getElem_of_mem hr'
    exact (mapM_upto_eq_ok (hr k hk)).1
  · have hy' : y < out.length := by omega
    obtain ⟨h1, h2⟩ := mapM_upto_eq_ok (hr y hy')
    have hx' : x < out[y].length := by omega
    exact ⟨out[y][x], by simp [cell?, hy', hx'], h2 x hx'⟩

/-- A loop that appends one element per iteration, each computed from the elements so far. -/
def buildM (n : Nat) (f : List β → Nat → Res β) : Res (List β) :=
  foldM (fun acc k => do
    let b ← f acc k
    ok (acc ++ [b])) [] (List.range n)

theorem foldM_append (f : β → α → Res β) (b : β) (l l' : List α) :
    foldM f b (l ++ l') = (do let b' ← foldM f b l; foldM f b' l') := by
  induction l generalizing b with
  | nil => rfl
  | cons a t ih =>
    rw [List.cons_append, foldM_cons, foldM_cons]
    cases f b a with
    | ok c => simpa using ih c
    | _ => rfl

theorem buildM_ok {n : Nat} {f : List β → Nat → Res β} {g : Nat → β}
    (h : ∀ k < n, f ((List.range k).map g) k = ok (g k)) : buildM n f = ok ((List.range n).map g) := by
  unfold buildM
  induction n with
  | zero => rfl
  | succ n ih =>
    rw [List.range_succ, foldM_append, ih (fun k hk => h k (by omega))]
    simp [foldM_cons, h n (by omega)]

theorem vget2_of_rect {Y X : Nat} {a : List (List α)} (h : Rect Y X a) {y x : Nat} (hy : y < Y) (hx : x < X) :
    ∃ v, cell? a y x = some v ∧ vget2 a (y : Int) (x : Int) = ok v := by
  obtain ⟨v, hv⟩ := h.cell?_some hy hx
  exact ⟨v, hv, vget2_of_cell? hv⟩

theorem upto_succ (n : Nat) : upto (n + 1) = 0 :: (upto n).map (· + 1) := by
  simp [upto, List.range_succ_eq_map, List.map_map, Function.comp_def]

theorem mapM_upto_first_throw {n : Nat} (hn : 0 < n) {f : Int → Res β} {e : Exc} (h : f 0 = throw e) : mapM f (upto n) = throw e := by
  obtain ⟨n, rfl⟩ : ∃ k, n = k + 1 := ⟨n - 1, by omega⟩
  rw [upto_succ, mapM_cons, h]; rfl

theorem mapM_upto_first_ub {n : Nat} (hn : 0 < n) {f : Int → Res β} (h : f 0 = ub) : mapM f (upto n) = ub := by
  obtain ⟨n, rfl⟩ : ∃ k, n = k + 1 := ⟨n - 1, by omega⟩
  rw [upto_succ, mapM_cons, h]; rfl

theorem mapM_upto_first_abort {n : Nat} (hn : 0 < n) {f : Int → Res β} (h : f 0 = abort) : mapM f (upto n) = abort := by
  obtain ⟨n, rfl⟩ : ∃ k, n = k + 1 := ⟨n - 1, by omega⟩
  rw [upto_succ, mapM_cons, h]; rfl

theorem grid2_first_throw {Y X : Nat} (hY : 0 < Y) (hX : 0 < X) {f : Int → Int → Res β} {e : Exc} (h : f 0 0 = throw e) :
    grid2 Y X f = throw e := mapM_upto_first_throw hY (mapM_upto_first_throw hX h)

end Gridpp
