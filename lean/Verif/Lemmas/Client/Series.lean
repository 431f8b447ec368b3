import Verif.Lemmas.Client.Field
import Verif.Model.Client.Calibrators

/-! # Fields in order of time -/

set_option linter.unusedSectionVars false

namespace Gridpp.Client
open Fl Res

variable {K : Type} [Field K] [LinearOrder K] [IsStrictOrderedRing K]

/-- Fields of one size. -/
def Series (Y X E : Nat) (fields : List (FieldC K)) : Prop := ∀ f ∈ fields, Sized Y X E f

/-- The value at time `t`, grid point `y`, `x`, member `e` is `v`. -/
def At (fields : List (FieldC K)) (t y x e : Nat) (v : Fl K) : Prop := ∃ f, fields[t]? = some f ∧ f.get y x e = ok v

/-- A number that the client does not take for missing. -/
def Present (v : Fl K) : Prop := ∃ q, v = fin q ∧ q ≠ -999

theorem isValid_iff_present {v : Fl K} : isValid v = true ↔ Present v := by
  cases v with
  | fin q => simp [isValid, Present]
  | _ => simp [isValid, Present]

theorem isValid_false_iff {v : Fl K} : isValid v = false ↔ ¬ Present v := by
  rw [← isValid_iff_present, Bool.not_eq_true]

theorem not_present_MV : ¬ Present (MV : Fl K) := by
  rintro ⟨q, h, hq⟩
  simp only [MV, Fl.fin.injEq] at h
  exact hq h.symm

theorem At.unique {fields : List (FieldC K)} {t y x e : Nat} {v w : Fl K} (h : At fields t y x e v) (h' : At fields t y x e w) : v = w := by
  obtain ⟨f, h1, h2⟩ := h
  obtain ⟨g, h3, h4⟩ := h'
  rw [h1, Option.some.injEq] at h3
  subst h3
  rw [h2, Res.ok.injEq] at h4
  exact h4

theorem Series.get? {Y X E : Nat} {fields : List (FieldC K)} (h : Series Y X E fields) {t : Nat} (ht : t < fields.length) :
    ∃ f, fields[t]? = some f ∧ vget fields (t : Int) = ok f ∧ Sized Y X E f :=
  ⟨fields[t], List.getElem?_eq_getElem ht, vget_eq_ok_of_lt ht, h _ (List.getElem_mem _)⟩

theorem Series.exists_at {Y X E : Nat} {fields : List (FieldC K)} (h : Series Y X E fields) {t y x e : Nat} (ht : t < fields.length)
    (hy : y < Y) (hx : x < X) (he : e < E) : ∃ v, At fields t y x e v := by
  obtain ⟨f, h1, -, h2⟩ := h.get? ht
  obtain ⟨v, hv⟩ := h2.exists_get hy hx he
  exact ⟨v, f, h1, hv⟩

theorem series_iff {Y X E : Nat} {fields : List (FieldC K)} :
    Series Y X E fields ↔ ∀ t < fields.length, ∃ f, fields[t]? = some f ∧ Sized Y X E f := by
  constructor
  · intro h t ht
    obtain ⟨f, h1, -, h2⟩ := h.get? ht
    exact ⟨f, h1, h2⟩
  · intro h f hf
    obtain ⟨t, ht, rfl⟩ := List.mem_iff_getElem.mp hf
    obtain ⟨f, h1, h2⟩ := h t ht
    rw [List.getElem?_eq_getElem ht, Option.some.injEq] at h1
    rwa [h1]

theorem mapM_range_exists {β : Type} {f : Nat → Res β} {n : Nat} {P : Nat → β → Prop} (h : ∀ k < n, ∃ v, f k = ok v ∧ P k v) :
    ∃ out, mapM f (List.range n) = ok out ∧ out.length = n ∧ ∀ k < n, ∃ v, out[k]? = some v ∧ P k v := by
  induction n with
  | zero => exact ⟨[], rfl, rfl, by simp⟩
  | succ n ih =>
    obtain ⟨out, h1, h2, h3⟩ := ih fun k hk => h k (by omega)
    obtain ⟨v, h4, h5⟩ := h n (by omega)
    refine ⟨out ++ [v], ?_, by simp [h2], fun k hk => ?_⟩
    · rw [List.range_succ]
      have : ∀ l : List Nat, ∀ bs, mapM f l = ok bs → mapM f (l ++ [n]) = ok (bs ++ [v]) := by
        intro l
        induction l with
        | nil => intro bs hb; cases hb; simp [mapM_cons, h4]
        | cons a t iht =>
          intro bs hb
          rw [List.cons_append, mapM_cons]
          rw [mapM_cons] at hb
          obtain ⟨b, hb1, hb2⟩ := bind_eq_ok.mp hb
          obtain ⟨bs', hb3, hb4⟩ := bind_eq_ok.mp hb2
          cases hb4
          rw [hb1, ok_bind, iht bs' hb3]
          rfl
      exact this _ _ h1
    · by_cases hkn : k < n
      · obtain ⟨w, g1, g2⟩ := h3 k hkn
        exact ⟨w, by rw [List.getElem?_append_left (by omega)]; exact g1, g2⟩
      · obtain rfl : k = n := by omega
        exact ⟨v, by rw [List.getElem?_append_right (by omega)]; simp [h2], h5⟩

theorem eachTime_spec {body : Nat → FieldC K → Res (FieldC K)} {fields : List (FieldC K)} {P : Nat → FieldC K → FieldC K → Prop}
    (h : ∀ t f, fields[t]? = some f → ∃ out, body t f = ok out ∧ P t f out) :
    ∃ out, eachTime body fields = ok out ∧ out.length = fields.length ∧
      ∀ t f, fields[t]? = some f → ∃ g, out[t]? = some g ∧ P t f g := by
  unfold eachTime
  obtain ⟨out, h1, h2, h3⟩ := mapM_range_exists (n := fields.length) (f := fun t : Nat => do
    let f ← vget fields t
    body t f) (P := fun t g => ∀ f, fields[t]? = some f → P t f g) (by
      intro t ht
      obtain ⟨g, h1, h2⟩ := h t fields[t] (List.getElem?_eq_getElem ht)
      refine ⟨g, by rw [vget_eq_ok_of_lt ht, ok_bind]; exact h1, fun f hf => ?_⟩
      rw [List.getElem?_eq_getElem ht, Option.some.injEq] at hf
      subst hf
      exact h2)
  refine ⟨out, h1, h2, fun t f hf => ?_⟩
  obtain ⟨g, g1, g2⟩ := h3 t (List.getElem?_eq_some_iff.mp hf).1
  exact ⟨g, g1, g2 f hf⟩

/-- Changing every value of every time by itself. -/
theorem eachTime_forAll {Y X E : Nat} {body : Nat → FieldC K → Nat → Nat → Nat → Res (FieldC K)} {fields : List (FieldC K)}
    (hs : Series Y X E fields) {P : Nat → Nat → Nat → Nat → Fl K → Fl K → Prop}
    (hb : ∀ t < fields.length, ∀ f, Sized Y X E f → ∀ y < Y, ∀ x < X, ∀ e < E, ∀ v, f.get y x e = ok v →
      ∃ f' w, body t f y x e = ok f' ∧ Sized Y X E f' ∧ f'.get y x e = ok w ∧ P t y x e v w ∧
      ∀ y' x' e', ¬ (y' = y ∧ x' = x ∧ e' = e) → f'.get y' x' e' = f.get y' x' e') :
    ∃ out, eachTime (fun t => FieldC.forAll Y X E (body t)) fields = ok out ∧ out.length = fields.length ∧ Series Y X E out ∧
      ∀ t < fields.length, ∀ y < Y, ∀ x < X, ∀ e < E, ∃ v w, At fields t y x e v ∧ At out t y x e w ∧ P t y x e v w := by
  obtain ⟨out, h1, h2, h3⟩ := eachTime_spec (body := fun t => FieldC.forAll Y X E (body t)) (fields := fields)
    (P := fun t f g => Sized Y X E g ∧ ∀ y < Y, ∀ x < X, ∀ e < E, ∃ v w, f.get y x e = ok v ∧ g.get y x e = ok w ∧ P t y x e v w) (by
      intro t f hf
      have ht := (List.getElem?_eq_some_iff.mp hf).1
      have hsz : Sized Y X E f := hs f (List.mem_of_getElem? hf)
      obtain ⟨g, g1, g2, g3⟩ := forAll_spec (Y := Y) (X := X) (E := E) (body t)
        (fun y x e u u' => ∀ v, u = ok v → ∃ w, u' = ok w ∧ P t y x e v w) (by
          intro f hf y hy x hx e he
          obtain ⟨v, hv⟩ := hf.exists_get hy hx he
          obtain ⟨f', w, g1, g2, g3, g4, g5⟩ := hb t ht f hf y hy x hx e he v hv
          refine ⟨f', g1, g2, fun v' hv' => ⟨w, g3, ?_⟩, g5⟩
          rw [hv, Res.ok.injEq] at hv'
          rwa [← hv']) f hsz
      refine ⟨g, g1, g2, fun y hy x hx e he => ?_⟩
      obtain ⟨v, hv⟩ := hsz.exists_get hy hx he
      obtain ⟨w, hw, hP⟩ := g3 y hy x hx e he v hv
      exact ⟨v, w, hv, hw, hP⟩)
  refine ⟨out, h1, h2, series_iff.mpr fun t ht => ?_, fun t ht y hy x hx e he => ?_⟩
  · obtain ⟨g, g1, g2, -⟩ := h3 t fields[t] (List.getElem?_eq_getElem (by omega))
    exact ⟨g, g1, g2⟩
  · obtain ⟨g, g1, -, g2⟩ := h3 t fields[t] (List.getElem?_eq_getElem ht)
    obtain ⟨v, w, g3, g4, g5⟩ := g2 y hy x hx e he
    exact ⟨v, w, ⟨_, List.getElem?_eq_getElem ht, g3⟩, ⟨g, g1, g4⟩, g5⟩

/-- Writing every value of a new field. -/
theorem forAll_write {Y X E : Nat} {body : FieldC K → Nat → Nat → Nat → Res (FieldC K)} {val : Nat → Nat → Nat → Fl K}
    (hb : ∀ f, Sized Y X E f → ∀ y < Y, ∀ x < X, ∀ e < E, body f y x e = f.set y x e (val y x e)) (f : FieldC K) (hf : Sized Y X E f) :
    ∃ out, FieldC.forAll Y X E body f = ok out ∧ Sized Y X E out ∧ ∀ y < Y, ∀ x < X, ∀ e < E, out.get y x e = ok (val y x e) := by
  obtain ⟨out, h1, h2, h3⟩ := forAll_spec (Y := Y) (X := X) (E := E) body (fun y x e _ u => u = ok (val y x e)) (by
    intro f hf y hy x hx e he
    rw [hb f hf y hy x hx e he]
    exact hf.set hy hx he _) f hf
  exact ⟨out, h1, h2, h3⟩

/-- If the first value cannot be computed, neither can the field. -/
theorem forAll_ub {Y X E : Nat} {body : FieldC K → Nat → Nat → Nat → Res (FieldC K)} {f : FieldC K} (hY : 0 < Y) (hX : 0 < X) (hE : 0 < E)
    (h : body f 0 0 0 = .ub) : FieldC.forAll Y X E body f = .ub := by
  obtain ⟨Y, rfl⟩ : ∃ n, Y = n + 1 := ⟨Y - 1, by omega⟩
  obtain ⟨X, rfl⟩ : ∃ n, X = n + 1 := ⟨X - 1, by omega⟩
  obtain ⟨E, rfl⟩ : ∃ n, E = n + 1 := ⟨E - 1, by omega⟩
  simp only [FieldC.forAll, FieldC.forCells, List.range_succ_eq_map, foldM_cons, h]
  rfl

theorem buildM_exists {β : Type} {f : List β → Nat → Res β} {n : Nat} {Q : List β → Prop} (h0 : Q [])
    (hs : ∀ acc, acc.length < n → Q acc → ∃ b, f acc acc.length = ok b ∧ Q (acc ++ [b])) :
    ∃ out, buildM n f = ok out ∧ out.length = n ∧ Q out := by
  unfold buildM
  have : ∀ m ≤ n, ∃ out, foldM (fun acc k => do
      let b ← f acc k
      ok (acc ++ [b])) [] (List.range m) = ok out ∧ out.length = m ∧ Q out := by
    intro m
    induction m with
    | zero => intro _; exact ⟨[], rfl, rfl, h0⟩
    | succ m ih =>
      intro hm
      obtain ⟨out, h1, h2, h3⟩ := ih (by omega)
      obtain ⟨b, h4, h5⟩ := hs out (by omega) h3
      rw [h2] at h4
      refine ⟨out ++ [b], ?_, by simp [h2], h5⟩
      rw [List.range_succ, foldM_append, h1, ok_bind, foldM_cons, h4]
      rfl
  exact this n le_rfl

end Gridpp.Client
