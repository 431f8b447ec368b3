import Verif.Model.Client.Matrix
import Verif.Spec.Matrix
import Mathlib.Tactic.Ring
import Mathlib.Tactic.LinearCombination
import Mathlib.Tactic.FieldSimp

/-! # Solving equations by elimination -/

set_option linter.unusedSectionVars false

namespace Gridpp.Client
open Fl hiding MV isValid
open Res Spec

variable {K : Type} [Field K] [LinearOrder K] [IsStrictOrderedRing K]

@[simp] theorem kdot_nil (v : List K) : kdot [] v = 0 := by simp [kdot]
@[simp] theorem kdot_nil' (v : List K) : kdot v [] = 0 := by simp [kdot]
@[simp] theorem kdot_cons (a b : K) (v w : List K) : kdot (a :: v) (b :: w) = a * b + kdot v w := by simp [kdot]

theorem kdot_comm (a b : List K) : kdot a b = kdot b a := by
  unfold kdot
  rw [List.zipWith_comm]
  congr 2
  funext x y
  exact mul_comm _ _

theorem kdot_elimRow (f : K) : ∀ (a b v : List K), a.length = b.length → kdot (elimRow f a b) v = kdot a v - f * kdot b v
  | [], [], v, _ => by simp [elimRow]
  | x :: a, y :: b, [], _ => by simp
  | x :: a, y :: b, z :: v, h => by
    have := kdot_elimRow f a b v (by simpa using h)
    unfold elimRow at this ⊢
    rw [List.zipWith_cons_cons, kdot_cons, kdot_cons, kdot_cons, this]
    ring

theorem elimRow_length {f : K} {a b : List K} (h : a.length = b.length) : (elimRow f a b).length = a.length := by
  unfold elimRow
  rw [List.length_zipWith, h, Nat.min_self]

theorem elimRow_getD {f : K} {a b : List K} (h : a.length = b.length) (l : Nat) : (elimRow f a b).getD l 0 = a.getD l 0 - f * b.getD l 0 := by
  unfold elimRow
  simp only [List.getD_eq_getElem?_getD, List.getElem?_zipWith]
  by_cases hl : l < a.length
  · simp [hl, h ▸ hl]
  · rw [List.getElem?_eq_none (by omega), List.getElem?_eq_none (by omega)]
    simp

theorem elimRow_fin (f : K) (a b : List K) : elimRow (fin f) (a.map fin) (b.map fin) = (elimRow f a b).map fin := by
  unfold elimRow
  rw [List.zipWith_map, List.map_zipWith]
  congr 1
  funext x y
  rw [fin_mul, fin_sub]

theorem backRow_fin : ∀ (coefs : List K) (X : List (List K)) (rhs : List K), backRow (coefs.map fin) (X.map (List.map fin)) (rhs.map fin) = (backRow coefs X rhs).map fin
  | [], X, rhs => by simp [backRow]
  | c :: cs, [], rhs => by simp [backRow]
  | c :: cs, x :: X, rhs => by
    have := backRow_fin cs X rhs
    unfold backRow at this ⊢
    simp only [List.map_cons, List.zip_cons_cons, List.foldr_cons]
    rw [this, elimRow_fin]

/-- The values of the solution for one right hand side. -/
def column (l : Nat) (X : List (List K)) : List K := X.map fun r => r.getD l 0

theorem backRow_length {m : Nat} : ∀ (coefs : List K) (X : List (List K)) (rhs : List K), (∀ r ∈ X, r.length = m) → rhs.length = m → (backRow coefs X rhs).length = m
  | [], X, rhs, _, h => by simpa [backRow] using h
  | c :: cs, [], rhs, _, h => by simpa [backRow] using h
  | c :: cs, x :: X, rhs, hX, h => by
    have := backRow_length cs X rhs (fun r hr => hX r (by simp [hr])) h
    unfold backRow at this ⊢
    simp only [List.zip_cons_cons, List.foldr_cons]
    rw [elimRow_length (by rw [this, hX x (by simp)]), this]

theorem backRow_getD {m l : Nat} : ∀ (coefs : List K) (X : List (List K)) (rhs : List K), (∀ r ∈ X, r.length = m) → rhs.length = m →
    (backRow coefs X rhs).getD l 0 = rhs.getD l 0 - kdot coefs (column l X)
  | [], X, rhs, _, _ => by simp [backRow]
  | c :: cs, [], rhs, _, _ => by simp [backRow, column]
  | c :: cs, x :: X, rhs, hX, h => by
    have hl := backRow_length cs X rhs (fun r hr => hX r (by simp [hr])) h
    have := backRow_getD (l := l) cs X rhs (fun r hr => hX r (by simp [hr])) h
    unfold backRow at this hl ⊢
    simp only [List.zip_cons_cons, List.foldr_cons]
    rw [elimRow_getD (by rw [hl, hX x (by simp)]), this]
    simp only [column, List.map_cons, kdot_cons]
    ring

/-- The pivot is one of the numbers, and if it is 0 all of them are. -/
theorem pivotFrom_ok : ∀ (xs before : List K) (best : Nat) (t : K), 0 ≤ t → (best < before.length ∧ |before.getD best 0| = t ∨ t = 0 ∧ best = 0) → (∀ x ∈ before, |x| ≤ t) →
    pivotFrom (xs.map fin) before.length best (fin t) < (before ++ xs).length ∧
      (∀ x ∈ before ++ xs, |x| ≤ |(before ++ xs).getD (pivotFrom (xs.map fin) before.length best (fin t)) 0|) ∨ before ++ xs = [] ∨
      pivotFrom (xs.map fin) before.length best (fin t) = 0 ∧ ∀ x ∈ before ++ xs, x = 0
  | [], before, best, t, ht, hb, hm => by
    simp only [List.map_nil, pivotFrom, List.append_nil]
    rcases hb with ⟨h1, h2⟩ | ⟨h1, h2⟩
    · exact .inl ⟨h1, fun x hx => by rw [h2]; exact hm x hx⟩
    · refine .inr (.inr ⟨h2, fun x hx => ?_⟩)
      have := hm x hx
      rw [h1] at this
      exact abs_eq_zero.mp (le_antisymm this (abs_nonneg x))
  | x :: xs, before, best, t, ht, hb, hm => by
    have hlen : before.length + 1 = (before ++ [x]).length := by simp
    simp only [List.map_cons, pivotFrom, Fl.abs, gt_fin, decide_eq_true_eq]
    rw [hlen, show before ++ x :: xs = before ++ [x] ++ xs by simp]
    by_cases h : t < |x|
    · rw [if_pos h]
      refine pivotFrom_ok xs (before ++ [x]) before.length |x| (abs_nonneg x) (.inl ⟨by simp, by simp⟩) ?_
      intro y hy
      rcases List.mem_append.mp hy with hy | hy
      · exact (hm y hy).trans h.le
      · rw [List.mem_singleton.mp hy]
    · rw [if_neg h]
      refine pivotFrom_ok xs (before ++ [x]) best t ht ?_ ?_
      · rcases hb with ⟨h1, h2⟩ | h1
        · refine .inl ⟨by simp; omega, ?_⟩
          rw [List.getD_eq_getElem?_getD, List.getElem?_append_left h1, ← List.getD_eq_getElem?_getD]
          exact h2
        · exact .inr h1
      · intro y hy
        rcases List.mem_append.mp hy with hy | hy
        · exact hm y hy
        · rw [List.mem_singleton.mp hy]
          exact not_lt.mp h

theorem exchangeRest_sub {α : Type} {rows : List α} {p : Nat} {r : α} (h : r ∈ exchangeRest rows p) : r ∈ rows := by
  cases rows with
  | nil => exact h
  | cons a t =>
    unfold exchangeRest at h
    have := List.mem_of_mem_tail h
    rcases List.mem_or_eq_of_mem_set this with h' | h'
    · exact h'
    · rw [h']; simp

theorem exchangeRest_length {α : Type} (rows : List α) (p : Nat) : (exchangeRest rows p).length = rows.length - 1 := by
  cases rows with
  | nil => rfl
  | cons a t => simp [exchangeRest]

theorem exchangeRest_mem {α : Type} {rows : List α} {p : Nat} {q r : α} (hp : rows[p]? = some q) (h : r ∈ rows) : r = q ∨ r ∈ exchangeRest rows p := by
  cases rows with
  | nil => simp at h
  | cons a t =>
    unfold exchangeRest
    cases p with
    | zero =>
      simp only [List.getElem?_cons_zero, Option.some.injEq] at hp
      subst hp
      simpa using h
    | succ p =>
      simp only [List.getElem?_cons_succ] at hp
      simp only [List.set_cons_succ, List.tail_cons]
      obtain ⟨hlt, hq⟩ := List.getElem?_eq_some_iff.mp hp
      rcases List.mem_cons.mp h with rfl | h
      · exact .inr (List.mem_set hlt _)
      · obtain ⟨k, hk, hr⟩ := List.getElem_of_mem h
        by_cases hkp : k = p
        · subst hkp
          exact .inl (hr.symm.trans hq)
        · right
          rw [List.mem_iff_getElem]
          exact ⟨k, by simpa using hk, by rw [List.getElem_set_ne (by omega)]; exact hr⟩

theorem exchangeRest_map {α β : Type} (f : α → β) (rows : List α) (p : Nat) : exchangeRest (rows.map f) p = (exchangeRest rows p).map f := by
  cases rows with
  | nil => rfl
  | cons a t =>
    unfold exchangeRest
    simp only [List.map_cons]
    rw [← List.map_cons, ← List.map_set, List.map_tail]

/-- Rows of numbers. -/
def finRow (r : List K × List K) : List (Fl K) × List (Fl K) := (r.1.map fin, r.2.map fin)

theorem headD_fin (l : List K) : (l.map fin).headD (fin 0) = fin (l.headD 0) := by cases l <;> rfl

/-- Either there is a solution for all right hand sides, or a combination of the columns is 0. -/
theorem luSolve_fin {m : Nat} : ∀ (n : Nat) (rows : List (List K × List K)), rows.length = n → (∀ r ∈ rows, r.1.length = n ∧ r.2.length = m) →
    (∃ X : List (List K), luSolve n (rows.map finRow) = some (X.map (List.map fin)) ∧ Rect n m X ∧
      ∀ r ∈ rows, ∀ l < m, kdot r.1 (column l X) = r.2.getD l 0) ∨
    luSolve n (rows.map finRow) = none ∧ ∃ v : List K, v.length = n ∧ (∃ x ∈ v, x ≠ 0) ∧ ∀ r ∈ rows, kdot r.1 v = 0
  | 0, rows, hlen, _ => by
    have : rows = [] := List.length_eq_zero_iff.mp hlen
    subst this
    exact .inl ⟨[], rfl, ⟨rfl, by simp⟩, by simp⟩
  | n + 1, rows, hlen, hr => by
    have hheads : (rows.map finRow).map (fun r => r.1.headD (fin 0)) = (rows.map fun r => r.1.headD 0).map fin := by
      simp [finRow]
    have hp := pivotFrom_ok (rows.map fun r => r.1.headD 0) [] 0 0 (le_refl 0) (.inr ⟨rfl, rfl⟩) (by simp)
    simp only [List.nil_append, List.length_nil, List.length_map] at hp
    set p := pivotFrom ((rows.map fun r => r.1.headD 0).map fin) 0 0 (fin 0) with hpdef
    have hne : rows ≠ [] := by
      intro h
      rw [h] at hlen
      simp at hlen
    have hplt : p < rows.length := by
      rcases hp with h | h | h
      · exact h.1
      · exact absurd (by simpa using h) hne
      · rw [h.1]
        omega
    obtain ⟨pivot, hpiv⟩ : ∃ q, rows[p]? = some q := ⟨rows[p], List.getElem?_eq_getElem hplt⟩
    have hpm : pivot ∈ rows := List.mem_of_getElem? hpiv
    have hget : (rows.map finRow)[p]? = some (finRow pivot) := by rw [List.getElem?_map, hpiv]; rfl
    obtain ⟨a, as, has⟩ : ∃ a as, pivot.1 = a :: as := by
      have := (hr pivot hpm).1
      match h : pivot.1 with
      | [] => rw [h] at this; simp at this
      | a :: as => exact ⟨a, as, rfl⟩
    have ha : (finRow pivot).1.headD (fin 0) = fin a := by
      unfold finRow
      rw [has]
      rfl
    have hasl : as.length = n := by
      have := (hr pivot hpm).1
      rw [has] at this
      simpa using this
    unfold luSolve
    simp only
    rw [hheads, ← hpdef, hget]
    simp only
    rw [ha]
    by_cases h0 : a = 0
    · rw [if_pos (by simp [h0])]
      refine .inr ⟨rfl, 1 :: List.replicate n 0, by simp, ⟨1, by simp, one_ne_zero⟩, fun r hrm => ?_⟩
      have hall : ∀ x ∈ rows.map (fun r => r.1.headD 0), x = 0 := by
        rcases hp with h | h | h
        · intro x hx
          have := h.2 x hx
          have hz : (rows.map fun r => r.1.headD 0).getD p 0 = 0 := by
            rw [List.getD_eq_getElem?_getD, List.getElem?_map, hpiv]
            simp [has, h0]
          rw [hz, abs_zero] at this
          exact abs_eq_zero.mp (le_antisymm this (abs_nonneg x))
        · exact absurd (by simpa using h) hne
        · exact h.2
      have hz := hall _ (List.mem_map_of_mem hrm)
      have hl := (hr r hrm).1
      match h : r.1 with
      | [] => simp
      | c :: cs =>
        rw [h] at hz
        simp only [List.headD_cons] at hz
        rw [kdot_cons, hz, zero_mul, zero_add]
        unfold kdot
        apply List.sum_eq_zero
        intro x hx
        obtain ⟨k, hk, hxk⟩ := List.getElem_of_mem hx
        rw [← hxk]
        simp
    · rw [if_neg (by simpa using h0)]
      set rest : List (List K × List K) := (exchangeRest rows p).map fun r =>
        (elimRow (r.1.headD 0 * (1 / a)) r.1.tail as, elimRow (r.1.headD 0 * (1 / a)) r.2 pivot.2) with hrest
      have hlift : (exchangeRest (rows.map finRow) p).map (fun r => (elimRow (r.1.headD (fin 0) * (fin 1 / fin a)) r.1.tail (finRow pivot).1.tail,
          elimRow (r.1.headD (fin 0) * (fin 1 / fin a)) r.2 (finRow pivot).2)) = rest.map finRow := by
        rw [exchangeRest_map, hrest, List.map_map, List.map_map]
        refine List.map_congr_left fun r _ => ?_
        simp only [Function.comp_apply]
        unfold finRow
        simp only
        rw [headD_fin, fin_div_of_ne _ h0, fin_mul, has, List.map_cons, List.tail_cons, ← List.map_tail, elimRow_fin, elimRow_fin]
      rw [hlift]
      have hrl : ∀ r ∈ rest, r.1.length = n ∧ r.2.length = m := by
        intro r hrm
        obtain ⟨s, hs, rfl⟩ := List.mem_map.mp hrm
        have hs' := hr s (exchangeRest_sub hs)
        simp only
        rw [elimRow_length (by rw [List.length_tail, hs'.1, hasl]; rfl), elimRow_length (by rw [hs'.2, (hr pivot hpm).2]), List.length_tail]
        omega
      have hbt : (finRow pivot).1.tail = as.map fin := by
        unfold finRow
        rw [has]
        rfl
      rcases luSolve_fin n rest (by rw [hrest, List.length_map, exchangeRest_length]; omega) hrl with ⟨X, h1, h2, h3⟩ | ⟨h1, v, h2, ⟨x, h3, h4⟩, h5⟩
      · left
        rw [h1]
        have hb2 := (hr pivot hpm).2
        have hXl : ∀ r ∈ X, r.length = m := h2.2
        refine ⟨(backRow as X pivot.2).map (· / a) :: X, ?_, ⟨by simp [h2.1], ?_⟩, ?_⟩
        · simp only [Option.some.injEq, List.map_cons, List.cons.injEq, and_true]
          rw [hbt, show (finRow pivot).2 = pivot.2.map fin from rfl, backRow_fin, List.map_map, List.map_map]
          refine List.map_congr_left fun y _ => ?_
          simp only [Function.comp_apply]
          rw [fin_div_of_ne _ h0]
        · intro r hrm
          rcases List.mem_cons.mp hrm with rfl | hrm
          · rw [List.length_map, backRow_length as X pivot.2 hXl hb2]
          · exact hXl r hrm
        · intro r hrm l hl
          have hx0 : ((backRow as X pivot.2).map (· / a)).getD l 0 = (pivot.2.getD l 0 - kdot as (column l X)) / a := by
            rw [← backRow_getD as X pivot.2 hXl hb2]
            simp only [List.getD_eq_getElem?_getD, List.getElem?_map]
            cases (backRow as X pivot.2)[l]? <;> simp
          have hcol : column l ((backRow as X pivot.2).map (· / a) :: X) = (pivot.2.getD l 0 - kdot as (column l X)) / a :: column l X := by
            unfold column
            rw [List.map_cons, hx0]
            rfl
          rw [hcol]
          rcases exchangeRest_mem hpiv hrm with rfl | hrm'
          · rw [has, kdot_cons]
            field_simp
            ring
          · have := h3 _ (List.mem_map_of_mem hrm') l hl
            simp only at this
            have hs' := hr r hrm
            rw [kdot_elimRow _ _ _ _ (by rw [List.length_tail, hs'.1, hasl]; rfl), elimRow_getD (by rw [hs'.2, hb2])] at this
            match h : r.1 with
            | [] => rw [h] at hs'; simp at hs'
            | c :: cs =>
              rw [h] at this
              simp only [List.headD_cons, List.tail_cons] at this
              rw [kdot_cons]
              have he : kdot cs (column l X) = r.2.getD l 0 - c * (1 / a) * pivot.2.getD l 0 + c * (1 / a) * kdot as (column l X) := by
                linear_combination this
              rw [he]
              field_simp
              ring
      · right
        rw [h1]
        refine ⟨rfl, -(kdot as v) / a :: v, by simp [h2], ⟨x, by simp [h3], h4⟩, fun r hrm => ?_⟩
        rcases exchangeRest_mem hpiv hrm with rfl | hrm'
        · rw [has, kdot_cons]
          field_simp
          ring
        · have := h5 _ (List.mem_map_of_mem hrm')
          simp only at this
          have hs' := hr r hrm
          rw [kdot_elimRow _ _ _ _ (by rw [List.length_tail, hs'.1, hasl]; rfl)] at this
          match h : r.1 with
          | [] => simp
          | c :: cs =>
            rw [h] at this
            simp only [List.headD_cons, List.tail_cons] at this
            rw [kdot_cons]
            have he : kdot cs v = c * (1 / a) * kdot as v := by linear_combination this
            rw [he]
            field_simp
            ring

end Gridpp.Client
