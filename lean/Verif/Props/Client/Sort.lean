import Verif.Lemmas.Client.Sort
import Mathlib.Algebra.Order.Ring.Rat
import Mathlib.Algebra.Field.Rat
import Mathlib.Data.Rat.Floor

/-! # C87: sort puts the members in ascending order and missing members last -/

set_option linter.unusedSectionVars false

namespace Gridpp.Props
open Fl hiding MV isValid
open Res Client Spec

variable {K : Type} [Field K] [LinearOrder K] [IsStrictOrderedRing K]

/-- The members of one grid point at one time. -/
def MembersAt (E : Nat) (fields : List (FieldC K)) (t y x : Nat) (m : List (Fl K)) : Prop :=
  m.length = E ∧ ∀ (e : Nat) v, m[e]? = some v → At fields t y x e v

/-- The treatment of one grid point in `sort`. -/
def sortCell (E : Nat) (f : FieldC K) (y x : Nat) : Res (FieldC K) := do
  let values ← f.ens y x
  let sorted ← stdSort values
  let ml := missingLast E sorted
  foldM (fun f e => do
    let v ← vget ml (e : Nat)
    f.set y x e v) f (List.range E)

theorem sortCell_ok (Y X E : Nat) (hE : 0 < E) (f : FieldC K) (hf : Sized Y X E f) (y x : Nat) (hy : y < Y) (hx : x < X)
    (hn : ¬ ∃ e, f.get y x e = ok nan) :
    ∃ f', sortCell E f y x = ok f' ∧ Sized Y X E f' ∧
      (∀ m : List (Fl K), m.length = E → (∀ (e : Nat) v, m[e]? = some v → f.get y x e = ok v) →
        ∃ s : List K, s.Perm (present m) ∧ s.Pairwise (· ≤ ·) ∧
          ∀ (e : Nat) v, (s.map fin ++ List.replicate (E - s.length) MV)[e]? = some v → f'.get y x e = ok v) ∧
      ∀ y' x', ¬ (y' = y ∧ x' = x) → f'.get y' x' = f.get y' x' := by
  obtain ⟨l, h1, h2, h3⟩ := hf.ens hy hx hE
  obtain ⟨s, g1, g2, g3, g4⟩ := stdSort_present l (fun v hv hc => by
    obtain ⟨e, he, rfl⟩ := List.mem_iff_getElem.mp hv
    exact hn ⟨e, (h3 e nan).mp (by rw [List.getElem?_eq_getElem he, hc])⟩)
  have hml : missingLast E s = (present s).map fin ++ List.replicate (E - (present s).length) MV := by
    simp only [missingLast, List.take_of_length_le (show s.length ≤ E by omega), filter_isValid_eq, List.length_map]
  have hlen : (missingLast E s).length = E := by
    have := length_present_le s
    rw [hml]; simp; omega
  unfold sortCell
  simp only [h1, ok_bind, g1]
  obtain ⟨f', p1, p2, p3, -, p5⟩ := forMembers_spec (Y := Y) (X := X) (E := E) y x E (fun f e => do
      let v ← vget (missingLast E s) (e : Nat)
      f.set y x e v) (fun e _ u => ∀ v, (missingLast E s)[e]? = some v → u = ok v) (by
      intro f hf e he
      have hlt : e < (missingLast E s).length := by omega
      rw [vget_eq_ok_of_lt hlt, ok_bind]
      obtain ⟨f', q1, q2, q3, q4⟩ := hf.set hy hx he (missingLast E s)[e]
      refine ⟨f', q1, q2, fun v hv => ?_, q4⟩
      rw [List.getElem?_eq_getElem hlt, Option.some.injEq] at hv
      rw [q3, hv]) f hf
  refine ⟨f', p1, p2, ?_, p5⟩
  intro m hm1 hm2
  have hml' : m = l := by
    apply List.ext_getElem?
    intro e
    by_cases he : e < E
    · have := hm2 e _ (List.getElem?_eq_getElem (by omega))
      rw [List.getElem?_eq_getElem (by omega)]
      exact ((h3 e _).mpr this).symm
    · rw [List.getElem?_eq_none (by omega), List.getElem?_eq_none (by omega)]
  subst hml'
  refine ⟨present s, g3, g4, fun e v hv => ?_⟩
  rw [← hml] at hv
  have he : e < E := by rw [← hlen]; exact (List.getElem?_eq_some_iff.mp hv).1
  exact p3 e he v hv

/-- **C87**. With members and without NaN, `sort` leaves at every time and grid point the values that are not missing in
ascending order, followed by missing values. -/
theorem c87_sort (Y X E : Nat) (hE : 0 < E) (fields : List (FieldC K)) (hf : Series Y X E fields)
    (hn : ∀ t y x e, ¬ At fields t y x e nan) :
    ∃ out, Client.sort Y X E fields = ok out ∧ out.length = fields.length ∧ Series Y X E out ∧
      ∀ t < fields.length, ∀ y < Y, ∀ x < X, ∀ m, MembersAt E fields t y x m →
        ∃ s : List K, s.Perm (present m) ∧ s.Pairwise (· ≤ ·) ∧
          MembersAt E out t y x (s.map fin ++ List.replicate (E - s.length) MV) := by
  obtain ⟨out, h1, h2, h3⟩ := eachTime_spec (body := fun _ => FieldC.forCells Y X (sortCell E)) (fields := fields)
    (P := fun _ f g => Sized Y X E g ∧ ∀ y < Y, ∀ x < X, ∀ m : List (Fl K), m.length = E →
        (∀ (e : Nat) v, m[e]? = some v → f.get y x e = ok v) →
        ∃ s : List K, s.Perm (present m) ∧ s.Pairwise (· ≤ ·) ∧
          ∀ (e : Nat) v, (s.map fin ++ List.replicate (E - s.length) MV)[e]? = some v → g.get y x e = ok v) (by
      intro t f ht
      have hsz := hf f (List.mem_of_getElem? ht)
      obtain ⟨g, g1, g2, g3⟩ := forCells_pre (Y := Y) (X := X) (E := E) (sortCell E) (fun _ _ u => ¬ ∃ e, u e = ok nan)
        (fun _ _ u w => ∀ m : List (Fl K), m.length = E → (∀ (e : Nat) v, m[e]? = some v → u e = ok v) →
          ∃ s : List K, s.Perm (present m) ∧ s.Pairwise (· ≤ ·) ∧
            ∀ (e : Nat) v, (s.map fin ++ List.replicate (E - s.length) MV)[e]? = some v → w e = ok v)
        (fun f hf y hy x hx hp => sortCell_ok Y X E hE f hf y x hy hx hp) f hsz (fun y _ x _ ⟨e, he⟩ => hn t y x e ⟨f, ht, he⟩)
      exact ⟨g, g1, g2, g3⟩)
  refine ⟨out, h1, h2, series_iff.mpr fun t ht => ?_, fun t ht y hy x hx m hm => ?_⟩
  · obtain ⟨g, g1, g2, -⟩ := h3 t fields[t] (List.getElem?_eq_getElem (by omega))
    exact ⟨g, g1, g2⟩
  · obtain ⟨g, g1, -, g2⟩ := h3 t fields[t] (List.getElem?_eq_getElem ht)
    obtain ⟨s, p1, p2, p3⟩ := g2 y hy x hx m hm.1 (fun e v hv => by
      obtain ⟨f, q1, q2⟩ := hm.2 e v hv
      rw [List.getElem?_eq_getElem ht, Option.some.injEq] at q1
      rwa [q1])
    refine ⟨s, p1, p2, ?_, fun e v hv => ⟨g, g1, p3 e v hv⟩⟩
    have := length_present_le m
    have := p1.length_eq
    have := hm.1
    simp; omega

/-- **C87** (NaN). A NaN among the members is undefined behaviour: `std::sort` needs an order. -/
theorem c87_nan (Y X E : Nat) (fields : List (FieldC K)) (hf : Series Y X E fields) (t y x e : Nat) (hy : y < Y) (hx : x < X) (he : e < E)
    (h : At fields t y x e nan) : Client.sort Y X E fields = .ub := by
  have hE : 0 < E := by omega
  have hbad : ∀ f : FieldC K, Sized Y X E f → (∃ y < Y, ∃ x < X, ∃ e, f.get y x e = ok nan) → FieldC.forCells Y X (sortCell E) f = .ub := by
    intro f hf h
    refine forCells_ub (E := E) (sortCell E) (fun _ _ u => ∃ e, u e = ok nan) ?_ ?_ f hf h
    · intro f hf y hy x hx ⟨e, he⟩
      obtain ⟨l, h1, h2, h3⟩ := hf.ens hy hx hE
      unfold sortCell
      rw [h1, ok_bind, stdSort_nan l (List.mem_of_getElem? ((h3 e nan).mpr he))]
      rfl
    · intro f hf y hy x hx hn
      obtain ⟨f', g1, g2, -, g3⟩ := sortCell_ok Y X E hE f hf y x hy hx hn
      exact ⟨f', g1, g2, g3⟩
  have hgood : ∀ f : FieldC K, Sized Y X E f → (¬ ∃ y < Y, ∃ x < X, ∃ e, f.get y x e = ok nan) → ∃ g, FieldC.forCells Y X (sortCell E) f = ok g := by
    intro f hf h
    obtain ⟨g, g1, -, -⟩ := forCells_pre (Y := Y) (X := X) (E := E) (sortCell E) (fun _ _ u => ¬ ∃ e, u e = ok nan) (fun _ _ _ _ => True)
      (fun f hf y hy x hx hp => by
        obtain ⟨f', g1, g2, -, g3⟩ := sortCell_ok Y X E hE f hf y x hy hx hp
        exact ⟨f', g1, g2, trivial, g3⟩) f hf (fun y hy x hx hc => h ⟨y, hy, x, hx, hc⟩)
    exact ⟨g, g1⟩
  obtain ⟨f0, hf0, hget⟩ := h
  have ht := (List.getElem?_eq_some_iff.mp hf0).1
  have key : ∀ l : List Nat, (∀ t ∈ l, t < fields.length) → t ∈ l →
      mapM (fun t : Nat => do
        let f ← vget fields t
        FieldC.forCells Y X (sortCell E) f) l = .ub := by
    intro l
    induction l with
    | nil => simp
    | cons a l ih =>
      intro hl hmem
      obtain ⟨fa, a1, a2, a3⟩ := hf.get? (hl a (by simp))
      rw [mapM_cons, a2, ok_bind]
      by_cases hb : ∃ y < Y, ∃ x < X, ∃ e, fa.get y x e = ok nan
      · rw [hbad fa a3 hb]; rfl
      · obtain ⟨g, hg⟩ := hgood fa a3 hb
        rw [hg, ok_bind, ih (fun t ht => hl t (by simp [ht])) (by
          rcases List.mem_cons.mp hmem with rfl | hm
          · rw [hf0, Option.some.injEq] at a1
            subst a1
            exact absurd ⟨y, hy, x, hx, e, hget⟩ hb
          · exact hm)]
        rfl
  exact key _ (fun t ht => List.mem_range.mp ht) (List.mem_range.mpr ht)

/-- **C87** (no members). Without members but with grid points and times the program is aborted. -/
theorem c87_no_members (Y X : Nat) (hY : 0 < Y) (hX : 0 < X) (fields : List (FieldC K)) (hf : Series Y X 0 fields) (hT : fields ≠ []) :
    Client.sort Y X 0 fields = .abort := by
  have hbad : ∀ f : FieldC K, Sized Y X 0 f → FieldC.forCells Y X (sortCell 0) f = .abort := by
    intro f hf
    obtain ⟨Y, rfl⟩ : ∃ n, Y = n + 1 := ⟨Y - 1, by omega⟩
    obtain ⟨X, rfl⟩ : ∃ n, X = n + 1 := ⟨X - 1, by omega⟩
    have : sortCell 0 f 0 0 = .abort := by
      unfold sortCell
      rw [hf.ens_none]
      rfl
    simp only [FieldC.forCells, List.range_succ_eq_map, foldM_cons, this]
    rfl
  unfold Client.sort eachTime
  obtain ⟨f, l, rfl⟩ := List.exists_cons_of_ne_nil hT
  rw [List.length_cons, List.range_succ_eq_map, mapM_cons]
  have := hbad f (hf f (by simp))
  unfold sortCell at this
  simp only [vget_eq_ok_of_lt (show 0 < (f :: l).length by simp), ok_bind, List.getElem_cons_zero, this]
  rfl

example : Client.sort 1 1 4 [⟨[fin 3, MV, pinf, fin (1 : ℚ)], 1, 1, 4⟩] = ok [⟨[fin 1, fin 3, MV, MV], 1, 1, 4⟩] := by decide +kernel

example : Series 1 1 3 [(⟨[fin 3, MV, fin (1 : ℚ)], 1, 1, 3⟩ : FieldC ℚ)] := by
  intro f hf
  simp only [List.mem_cons, List.not_mem_nil, or_false] at hf
  rcases hf with rfl
  exact ⟨rfl, rfl, rfl, rfl⟩

end Gridpp.Props
