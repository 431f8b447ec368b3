import Verif.Lemmas.Client.Field
import Mathlib.Algebra.Order.Ring.Rat
import Mathlib.Algebra.Field.Rat
import Mathlib.Data.Rat.Floor

/-! # C84: class Field of the client is a three dimensional array -/

set_option linter.unusedSectionVars false

namespace Gridpp.Props
open Fl hiding MV isValid
open Res Client

variable {K : Type} [Field K] [LinearOrder K] [IsStrictOrderedRing K]

/-- **C84** (construction). A field is created exactly for sizes that are not negative; it then has these sizes and the
fill value everywhere. -/
theorem c84_new (nY nX nE : Int) (fill : Fl K) :
    (0 ≤ nY ∧ 0 ≤ nX ∧ 0 ≤ nE → ∃ f, FieldC.new nY nX nE fill = ok f ∧ Sized nY.toNat nX.toNat nE.toNat f ∧
      ∀ y < nY.toNat, ∀ x < nX.toNat, ∀ e < nE.toNat, f.get y x e = ok fill) ∧
    (¬ (0 ≤ nY ∧ 0 ≤ nX ∧ 0 ≤ nE) → FieldC.new nY nX nE fill = .abort) := by
  constructor
  · rintro ⟨h1, h2, h3⟩
    have := FieldC.new_sized nY.toNat nX.toNat nE.toNat fill
    rwa [Int.toNat_of_nonneg h1, Int.toNat_of_nonneg h2, Int.toNat_of_nonneg h3] at this
  · intro h
    unfold FieldC.new
    rw [if_neg]
    · rfl
    · simp only [Bool.and_eq_true, decide_eq_true_eq]
      rintro ⟨⟨⟨-, h1⟩, h2⟩, h3⟩
      exact h ⟨h1, h2, h3⟩

/-- **C84** (access). Inside the sizes every coordinate can be read; writing a coordinate changes what is read there to
the value written and nothing that is read at any other coordinate; outside the sizes the program is aborted. -/
theorem c84_access (Y X E : Nat) (f : FieldC K) (hf : Sized Y X E f) (y x e : Nat) :
    (y < Y ∧ x < X ∧ e < E →
      (∃ v, f.get y x e = ok v) ∧
      ∀ v, ∃ f', f.set y x e v = ok f' ∧ Sized Y X E f' ∧ f'.get y x e = ok v ∧
        ∀ y' x' e', ¬ (y' = y ∧ x' = x ∧ e' = e) → f'.get y' x' e' = f.get y' x' e') ∧
    (¬ (y < Y ∧ x < X ∧ e < E) → f.get y x e = .abort ∧ ∀ v, f.set y x e v = .abort) := by
  refine ⟨fun ⟨h1, h2, h3⟩ => ⟨hf.exists_get h1 h2 h3, fun v => hf.set h1 h2 h3 v⟩, fun h => ⟨hf.get_abort h, fun v => ?_⟩⟩
  have : (decide (y < f.nY) && decide (x < f.nX) && decide (e < f.nE)) = false := by
    rw [hf.nY, hf.nX, hf.nE]
    simpa only [Bool.and_eq_false_iff, decide_eq_false_iff_not, not_and_or, or_assoc] using h
  simp [FieldC.set, FieldC.getIndex, this]

/-- **C84** (members). The vector of members of a grid point holds the values read at that grid point in order; without
members the program is aborted. -/
theorem c84_members (Y X E : Nat) (f : FieldC K) (hf : Sized Y X E f) (y x : Nat) (hy : y < Y) (hx : x < X) :
    (0 < E → ∃ l, f.ens y x = ok l ∧ l.length = E ∧ ∀ (e : Nat) v, l[e]? = some v ↔ f.get y x e = ok v) ∧
    (E = 0 → f.ens y x = .abort) := by
  refine ⟨hf.ens hy hx, ?_⟩
  rintro rfl
  exact hf.ens_none y x

/-- **C84** (comparison, partial). Fields of one size compare equal exactly if every value read from one equals (as C++
numbers, so that NaN equals nothing) the value read from the other. Missing: fields of different sizes, which can
compare equal (`c84_shape_ignored`). -/
theorem c84_equal_partial (Y X E : Nat) (f g : FieldC K) (hf : Sized Y X E f) (hg : Sized Y X E g) :
    f.eqv g = true ↔ ∀ y < Y, ∀ x < X, ∀ e < E, ∃ v w, f.get y x e = ok v ∧ g.get y x e = ok w ∧ v.feq w = true := by
  have hl : f.values.length = g.values.length := by rw [hf.len, hg.len]
  have h0 : f.eqv g = true ↔ ∀ i (h : i < f.values.length), (f.values[i]).feq (g.values[i]'(by omega)) = true := by
    unfold FieldC.eqv
    rw [Bool.and_eq_true, decide_eq_true_eq, List.all_eq_true]
    constructor
    · rintro ⟨-, h⟩ i hi
      have := h (f.values[i], g.values[i]'(by omega)) (by
        rw [List.mem_iff_getElem]
        exact ⟨i, by simp; omega, by simp⟩)
      exact this
    · intro h
      refine ⟨hl, fun p hp => ?_⟩
      obtain ⟨i, hi, rfl⟩ := List.mem_iff_getElem.mp hp
      simp only [List.getElem_zip]
      exact h i (by simp at hi; omega)
  rw [h0]
  constructor
  · intro h y hy x hx e he
    refine ⟨_, _, hf.get hy hx he, hg.get hy hx he, h _ _⟩
  · intro h i hi
    have h1 := hi
    rw [hf.len] at h1
    have hE : 0 < E := by
      rcases Nat.eq_zero_or_pos E with rfl | h'
      · simp at h1
      · exact h'
    have hX : 0 < X := by
      rcases Nat.eq_zero_or_pos X with rfl | h'
      · simp at h1
      · exact h'
    have hi' : i = i % E + (i / E % X) * E + (i / E / X) * X * E := by
      have e1 := Nat.mod_add_div i E
      have e2 := Nat.mod_add_div (i / E) X
      calc i = i % E + E * (i / E) := e1.symm
        _ = i % E + E * (i / E % X + X * (i / E / X)) := by rw [e2]
        _ = _ := by ring
    have hy : i / E / X < Y := by
      rw [Nat.div_div_eq_div_mul]
      apply Nat.div_lt_of_lt_mul
      calc i < Y * X * E := h1
        _ = E * X * Y := by ring
    obtain ⟨v, w, g1, g2, g3⟩ := h (i / E / X) hy (i / E % X) (Nat.mod_lt _ hX) (i % E) (Nat.mod_lt _ hE)
    rw [hf.get hy (Nat.mod_lt _ hX) (Nat.mod_lt _ hE), Res.ok.injEq] at g1
    rw [hg.get hy (Nat.mod_lt _ hX) (Nat.mod_lt _ hE), Res.ok.injEq] at g2
    simp only [← hi'] at g1 g2
    rw [g1, g2]
    exact g3

/-- A field of one row and two columns equals a field of two rows and one column. -/
theorem c84_shape_ignored : ∃ f g : FieldC ℚ, Sized 1 2 1 f ∧ Sized 2 1 1 g ∧ f.eqv g = true :=
  ⟨⟨[fin 1, fin 2], 1, 2, 1⟩, ⟨[fin 1, fin 2], 2, 1, 1⟩, ⟨rfl, rfl, rfl, rfl⟩, ⟨rfl, rfl, rfl, rfl⟩, by decide +kernel⟩

example : ∃ f : FieldC ℚ, Sized 2 1 2 f ∧ f.get 1 0 0 = ok (fin 3) ∧ f.ens 1 0 = ok [fin 3, fin 4] :=
  ⟨⟨[fin 1, fin 2, fin 3, fin 4], 2, 1, 2⟩, ⟨rfl, rfl, rfl, rfl⟩, by decide +kernel, by decide +kernel⟩

end Gridpp.Props
