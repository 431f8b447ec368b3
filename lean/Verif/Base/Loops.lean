import Verif.Base.Res

/-! Loops whose iterations all succeed. -/

namespace Gridpp
open Res

theorem mapM_upto_exists {β : Type} {f : Int → Res β} {n : Nat} {P : Nat → β → Prop} (h : ∀ k < n, ∃ v, f (k : Int) = ok v ∧ P k v) :
    ∃ out, mapM f (upto n) = ok out ∧ out.length = n ∧ ∀ k < n, ∃ v, out[k]? = some v ∧ f (k : Int) = ok v ∧ P k v := by
  have hex : ∃ out, mapM f (upto n) = ok out := by
    have : ∀ l : List Int, (∀ a ∈ l, ∃ b, f a = ok b) → ∃ bs, mapM f l = ok bs := by
      intro l
      induction l with
      | nil => exact fun _ => ⟨[], rfl⟩
      | cons a t ih =>
        intro hl
        obtain ⟨b, hb⟩ := hl a (by simp)
        obtain ⟨bs, hbs⟩ := ih fun x hx => hl x (by simp [hx])
        exact ⟨b :: bs, by rw [mapM_cons, hb, hbs]; rfl⟩
    apply this
    intro a ha
    simp only [upto, List.mem_map, List.mem_range] at ha
    obtain ⟨k, hk, rfl⟩ := ha
    obtain ⟨v, hv, -⟩ := h k hk
    exact ⟨v, hv⟩
  obtain ⟨out, ho⟩ := hex
  obtain ⟨hl, hr⟩ := mapM_upto_eq_ok ho
  refine ⟨out, ho, hl, fun k hk => ?_⟩
  obtain ⟨v, hv, hp⟩ := h k hk
  have hk' : k < out.length := by omega
  have := hr k hk'
  rw [hv] at this
  cases this
  exact ⟨_, List.getElem?_eq_getElem hk', hv, hp⟩

theorem grid2_exists {β : Type} {Y X : Nat} {f : Int → Int → Res β} {P : Nat → Nat → β → Prop}
    (h : ∀ y < Y, ∀ x < X, ∃ v, f (y : Int) (x : Int) = ok v ∧ P y x v) :
    ∃ out, grid2 Y X f = ok out ∧ Rect Y X out ∧ ∀ y < Y, ∀ x < X, ∃ v, cell? out y x = some v ∧ f (y : Int) (x : Int) = ok v ∧ P y x v := by
  have hrow : ∀ y < Y, ∃ r : List β, mapM (fun x => f (y : Int) x) (upto X) = ok r ∧ r.length = X := fun y hy => by
    obtain ⟨r, h1, h2, -⟩ := mapM_upto_exists (f := fun x => f (y : Int) x) (n := X) (P := P y) (h y hy)
    exact ⟨r, h1, h2⟩
  obtain ⟨out, ho, -, -⟩ := mapM_upto_exists (f := fun y => mapM (fun x => f y x) (upto X)) (n := Y) (P := fun _ r => r.length = X) hrow
  have ho' : grid2 Y X f = ok out := ho
  obtain ⟨hR, hc⟩ := grid2_eq_ok ho'
  refine ⟨out, ho', hR, fun y hy x hx => ?_⟩
  obtain ⟨v, h1, h2⟩ := hc y hy x hx
  obtain ⟨w, h3, h4⟩ := h y hy x hx
  rw [h2] at h3
  cases h3
  exact ⟨v, h1, h2, h4⟩

end Gridpp
