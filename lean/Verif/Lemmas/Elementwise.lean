import Verif.Base.Res
import Mathlib.Data.List.Forall2

/-! Loops over vectors. -/

namespace Gridpp
open Res

theorem mapM_map {α β γ : Type} (g : γ → α) (f : α → Res β) (l : List γ) : mapM f (l.map g) = mapM (fun c => f (g c)) l := by
  induction l with
  | nil => rfl
  | cons a t ih => rw [List.map_cons, mapM_cons, mapM_cons, ih]

theorem vget_succ {α : Type} (a : α) (l : List α) (k : Nat) : vget (a :: l) ((k : Int) + 1) = vget l k := by
  have : ((k : Int) + 1) = ((k + 1 : Nat) : Int) := by push_cast; rfl
  rw [this, vget_nat, vget_nat, List.getElem?_cons_succ]

/-- A loop over the indices of a vector is a loop over its elements. -/
theorem mapM_vget {α β : Type} (f : α → Res β) (l : List α) :
    mapM (fun i => do let v ← vget l i; f v) (upto l.length) = mapM f l := by
  induction l with
  | nil => rfl
  | cons a t ih =>
    rw [List.length_cons, upto_succ, mapM_cons, mapM_cons, mapM_map]
    rw [vget_zero_cons, ok_bind, ← ih]
    congr 1
    funext b
    congr 1
    refine mapM_congr ?_
    intro i hi
    obtain ⟨k, -, rfl⟩ := List.mem_map.mp hi
    rw [vget_succ]

theorem mapM_ok_iff {α β : Type} {f : α → Res β} {l : List α} {out : List β} :
    mapM f l = ok out ↔ List.Forall₂ (fun a b => f a = ok b) l out := by
  constructor
  · exact mapM_eq_ok
  · intro h
    induction h with
    | nil => rfl
    | cons h1 _ ih => rw [mapM_cons, h1, ok_bind, ih, ok_bind]

/-- A loop over the indices of a vector succeeds exactly if every element does. -/
theorem mapM_upto_ok_iff {β : Type} {f : Int → Res β} {n : Nat} {out : List β} :
    mapM f (upto n) = ok out ↔ out.length = n ∧ ∀ i < n, ∃ v, out[i]? = some v ∧ f i = ok v := by
  constructor
  · intro h
    have h' := mapM_ok_iff.mp h
    have hl : out.length = n := by simpa [upto] using h'.length_eq.symm
    refine ⟨hl, fun i hi => ⟨out[i], List.getElem?_eq_getElem (by omega), ?_⟩⟩
    have := (List.forall₂_iff_get.mp h').2 i (by simpa [upto] using hi) (by omega)
    simpa [upto] using this
  · rintro ⟨hl, h⟩
    refine mapM_ok_iff.mpr (List.forall₂_iff_get.mpr ⟨by simp [upto, hl], ?_⟩)
    intro i h1 h2
    obtain ⟨v, hv, hf⟩ := h i (by omega)
    rw [List.getElem?_eq_getElem h2] at hv
    cases hv
    simpa [upto] using hf

end Gridpp
