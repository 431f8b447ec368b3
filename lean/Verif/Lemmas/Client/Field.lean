import Verif.Model.Client.Field
import Verif.Lemmas.Fill

/-! # Lemmas on class Field of the client -/

set_option linter.unusedSectionVars false

namespace Gridpp.Client
open Fl Res

variable {K : Type} [Field K] [LinearOrder K]

/-! ### Loops over distinct keys, each changing what belongs to its key -/

theorem foldM_cells {S ι V : Type} (WF : S → Prop) (get : S → ι → V) (body : S → ι → Res S) (P : ι → V → V → Prop) (l : List ι)
    (hnd : l.Nodup)
    (hb : ∀ s, WF s → ∀ i ∈ l, ∃ s', body s i = ok s' ∧ WF s' ∧ P i (get s i) (get s' i) ∧ ∀ j, j ≠ i → get s' j = get s j)
    (s : S) (hs : WF s) :
    ∃ s', foldM body s l = ok s' ∧ WF s' ∧ (∀ i ∈ l, P i (get s i) (get s' i)) ∧ ∀ j, j ∉ l → get s' j = get s j := by
  induction l generalizing s with
  | nil => exact ⟨s, rfl, hs, by simp, by simp⟩
  | cons i t ih =>
    obtain ⟨s1, h1, h2, h3, h4⟩ := hb s hs i (by simp)
    have hi : i ∉ t := (List.nodup_cons.mp hnd).1
    obtain ⟨s2, g1, g2, g3, g4⟩ := ih (List.nodup_cons.mp hnd).2 (fun s hs j hj => hb s hs j (by simp [hj])) s1 h2
    refine ⟨s2, by rw [foldM_cons, h1, ok_bind, g1], g2, fun j hj => ?_, fun j hj => ?_⟩
    · rcases List.mem_cons.mp hj with rfl | hj'
      · rw [g4 _ hi]; exact h3
      · have hne : j ≠ i := by rintro rfl; exact hi hj'
        have := g3 j hj'
        rwa [h4 j hne] at this
    · rw [g4 j (fun h => hj (by simp [h])), h4 j (fun h => hj (by simp [h]))]

/-- A field of the given size. -/
structure Sized (Y X E : Nat) (f : FieldC K) : Prop where
  nY : f.nY = Y
  nX : f.nX = X
  nE : f.nE = E
  len : f.values.length = Y * X * E

theorem index_lt {Y X E y x e : Nat} (hy : y < Y) (hx : x < X) (he : e < E) : e + x * E + y * X * E < Y * X * E := by
  have h1 : e + x * E < X * E := by
    calc e + x * E < E + x * E := by omega
      _ = (x + 1) * E := by ring
      _ ≤ X * E := Nat.mul_le_mul_right _ hx
  calc e + x * E + y * X * E < X * E + y * X * E := by omega
    _ = (y + 1) * (X * E) := by ring
    _ ≤ Y * (X * E) := Nat.mul_le_mul_right _ hy
    _ = Y * X * E := by ring

theorem index_inj {X E y x e y' x' e' : Nat} (hx : x < X) (he : e < E) (hx' : x' < X) (he' : e' < E)
    (h : e + x * E + y * X * E = e' + x' * E + y' * X * E) : y = y' ∧ x = x' ∧ e = e' := by
  have hE : 0 < E := by omega
  have h1 : e = e' := by
    have := congrArg (· % E) h
    simp only [show e + x * E + y * X * E = e + E * (x + y * X) by ring, show e' + x' * E + y' * X * E = e' + E * (x' + y' * X) by ring,
      Nat.add_mul_mod_self_left, Nat.mod_eq_of_lt he, Nat.mod_eq_of_lt he'] at this
    exact this
  subst h1
  have h2 : x + y * X = x' + y' * X := by
    have : E * (x + y * X) = E * (x' + y' * X) := by
      have e1 : e + x * E + y * X * E = e + E * (x + y * X) := by ring
      have e2 : e + x' * E + y' * X * E = e + E * (x' + y' * X) := by ring
      omega
    exact Nat.eq_of_mul_eq_mul_left hE this
  have hX : 0 < X := by omega
  have h3 : x = x' := by
    have := congrArg (· % X) h2
    simp only [Nat.add_mul_mod_self_right, Nat.mod_eq_of_lt hx, Nat.mod_eq_of_lt hx'] at this
    exact this
  subst h3
  have h4 : y * X = y' * X := by omega
  exact ⟨Nat.eq_of_mul_eq_mul_right hX h4, rfl, rfl⟩

section
variable {Y X E : Nat} {f : FieldC K}

theorem Sized.getIndex (h : Sized Y X E f) {y x e : Nat} (hy : y < Y) (hx : x < X) (he : e < E) :
    f.getIndex y x e = ok (e + x * E + y * X * E) := by
  simp [FieldC.getIndex, h.nY, h.nX, h.nE, hy, hx, he]

theorem Sized.get (h : Sized Y X E f) {y x e : Nat} (hy : y < Y) (hx : x < X) (he : e < E) :
    f.get y x e = ok (f.values[e + x * E + y * X * E]'(by rw [h.len]; exact index_lt hy hx he)) := by
  unfold FieldC.get
  rw [h.getIndex hy hx he, ok_bind, vget_eq_ok_of_lt]

theorem Sized.get_abort (h : Sized Y X E f) {y x e : Nat} (hn : ¬ (y < Y ∧ x < X ∧ e < E)) : f.get y x e = .abort := by
  have : (decide (y < f.nY) && decide (x < f.nX) && decide (e < f.nE)) = false := by
    rw [h.nY, h.nX, h.nE]
    simpa only [Bool.and_eq_false_iff, decide_eq_false_iff_not, not_and_or, or_assoc] using hn
  simp [FieldC.get, FieldC.getIndex, this]

theorem Sized.exists_get (h : Sized Y X E f) {y x e : Nat} (hy : y < Y) (hx : x < X) (he : e < E) : ∃ v, f.get y x e = ok v :=
  ⟨_, h.get hy hx he⟩

theorem Sized.set (h : Sized Y X E f) {y x e : Nat} (hy : y < Y) (hx : x < X) (he : e < E) (v : Fl K) :
    ∃ f', f.set y x e v = ok f' ∧ Sized Y X E f' ∧ f'.get y x e = ok v ∧
      ∀ y' x' e', ¬ (y' = y ∧ x' = x ∧ e' = e) → f'.get y' x' e' = f.get y' x' e' := by
  have hlt : e + x * E + y * X * E < f.values.length := by rw [h.len]; exact index_lt hy hx he
  refine ⟨{ f with values := f.values.set (e + x * E + y * X * E) v }, ?_, ?_, ?_, ?_⟩
  · unfold FieldC.set
    rw [h.getIndex hy hx he, ok_bind, vset_nat v hlt, ok_bind]
  · exact ⟨h.nY, h.nX, h.nE, by simp [h.len]⟩
  · have hs : Sized Y X E { f with values := f.values.set (e + x * E + y * X * E) v } := ⟨h.nY, h.nX, h.nE, by simp [h.len]⟩
    rw [hs.get hy hx he]
    simp
  · intro y' x' e' hne
    have hs : Sized Y X E { f with values := f.values.set (e + x * E + y * X * E) v } := ⟨h.nY, h.nX, h.nE, by simp [h.len]⟩
    by_cases hin : y' < Y ∧ x' < X ∧ e' < E
    · obtain ⟨h1, h2, h3⟩ := hin
      rw [hs.get h1 h2 h3, h.get h1 h2 h3]
      have hi : e + x * E + y * X * E ≠ e' + x' * E + y' * X * E := by
        intro hc
        obtain ⟨rfl, rfl, rfl⟩ := index_inj hx he h2 h3 hc
        exact hne ⟨rfl, rfl, rfl⟩
      simp [hi]
    · rw [hs.get_abort hin, h.get_abort hin]

/-- The members at a grid point are the values of the array at that point, in order. -/
theorem Sized.ens (h : Sized Y X E f) {y x : Nat} (hy : y < Y) (hx : x < X) (hE : 0 < E) :
    ∃ l, f.ens y x = ok l ∧ l.length = E ∧ ∀ (e : Nat) v, l[e]? = some v ↔ f.get y x e = ok v := by
  have h1 : x * E + y * X * E + E ≤ f.values.length := by
    have := index_lt hy hx (show E - 1 < E by omega)
    rw [h.len]; omega
  refine ⟨(f.values.drop (x * E + y * X * E)).take E, ?_, ?_, ?_⟩
  · unfold FieldC.ens
    rw [h.getIndex hy hx hE, ok_bind, h.nE, h.getIndex hy hx (by omega), ok_bind, if_pos ⟨by omega, by omega⟩]
    congr 2
    · omega
    · simp
  · simp; omega
  · intro e v
    by_cases he : e < E
    · rw [h.get hy hx he, List.getElem?_take, if_pos he, List.getElem?_drop,
        List.getElem?_eq_getElem (by omega), Option.some.injEq, Res.ok.injEq]
      simp only [show x * E + y * X * E + e = e + x * E + y * X * E by omega]
    · rw [h.get_abort (by simp [he]), List.getElem?_take, if_neg he]
      simp

theorem Sized.ens_none (h : Sized Y X 0 f) (y x : Nat) : f.ens y x = .abort := by
  simp [FieldC.ens, FieldC.getIndex, h.nE]

/-- Two fields of one size with equal values are equal. -/
theorem Sized.ext {g : FieldC K} (h : Sized Y X E f) (hg : Sized Y X E g)
    (heq : ∀ y < Y, ∀ x < X, ∀ e < E, f.get y x e = g.get y x e) : f = g := by
  have hv : f.values = g.values := by
    apply List.ext_getElem
    · rw [h.len, hg.len]
    · intro i h1 h2
      rw [h.len] at h1
      have hE : 0 < E := by
        rcases Nat.eq_zero_or_pos E with rfl | h'
        · simp at h1
        · exact h'
      have hX : 0 < X := by
        rcases Nat.eq_zero_or_pos X with rfl | h'
        · simp at h1
        · exact h'
      have hi : i = i % E + (i / E % X) * E + (i / E / X) * X * E := by
        have e1 := Nat.mod_add_div i E
        have e2 := Nat.mod_add_div (i / E) X
        calc i = i % E + E * (i / E) := e1.symm
          _ = i % E + E * (i / E % X + X * (i / E / X)) := by rw [e2]
          _ = _ := by ring
      have hy : i / E / X < Y := by
        rw [Nat.div_div_eq_div_mul]
        apply Nat.div_lt_of_lt_mul
        calc i < Y * X * E := h1
          _ = E * X * Y := by ring
      have := heq (i / E / X) hy (i / E % X) (Nat.mod_lt _ hX) (i % E) (Nat.mod_lt _ hE)
      rw [h.get hy (Nat.mod_lt _ hX) (Nat.mod_lt _ hE), hg.get hy (Nat.mod_lt _ hX) (Nat.mod_lt _ hE), Res.ok.injEq] at this
      simp only [← hi] at this
      exact this
  have h1 := h.nY; have h2 := h.nX; have h3 := h.nE
  have g1 := hg.nY; have g2 := hg.nX; have g3 := hg.nE
  cases f; cases g
  simp only at *
  subst h1 h2 h3 g1 g2 g3 hv
  rfl

end

/-- Loop over all grid points: every iteration treats only the members of its own grid point. -/
theorem forCells_spec {Y X E : Nat} (body : FieldC K → Nat → Nat → Res (FieldC K)) (P : Nat → Nat → (Nat → Res (Fl K)) → (Nat → Res (Fl K)) → Prop)
    (hb : ∀ f, Sized Y X E f → ∀ y < Y, ∀ x < X, ∃ f', body f y x = ok f' ∧ Sized Y X E f' ∧ P y x (f.get y x) (f'.get y x) ∧
      ∀ y' x', ¬ (y' = y ∧ x' = x) → f'.get y' x' = f.get y' x')
    (f : FieldC K) (hf : Sized Y X E f) :
    ∃ out, FieldC.forCells Y X body f = ok out ∧ Sized Y X E out ∧ ∀ y < Y, ∀ x < X, P y x (f.get y x) (out.get y x) := by
  have hrow : ∀ f, Sized Y X E f → ∀ y ∈ List.range Y, ∃ f', foldM (fun f x => body f y x) f (List.range X) = ok f' ∧ Sized Y X E f' ∧
      (∀ x < X, P y x (f.get y x) (f'.get y x)) ∧ ∀ y', y' ≠ y → f'.get y' = f.get y' := by
    intro f hf y hy
    have hy := List.mem_range.mp hy
    obtain ⟨f', h1, ⟨h2, h5⟩, h3, -⟩ := foldM_cells (fun s => Sized Y X E s ∧ ∀ y', y' ≠ y → s.get y' = f.get y') (fun s x => s.get y x)
      (fun f x => body f y x) (fun x u v => P y x u v) (List.range X) List.nodup_range (by
        intro s ⟨hs, hs'⟩ x hx
        obtain ⟨s', h1, h2, h3, h4⟩ := hb s hs y hy x (List.mem_range.mp hx)
        exact ⟨s', h1, ⟨h2, fun y' hy' => by
          rw [← hs' y' hy']; funext x'; exact h4 y' x' (by simp [hy'])⟩, h3, fun j hj => h4 y j (by simp [hj])⟩) f ⟨hf, fun _ _ => rfl⟩
    exact ⟨f', h1, h2, fun x hx => h3 x (List.mem_range.mpr hx), h5⟩
  obtain ⟨out, h1, h2, h3, -⟩ := foldM_cells (Sized Y X E) (fun s y => s.get y)
    (fun f y => foldM (fun f x => body f y x) f (List.range X)) (fun y u v => ∀ x < X, P y x (u x) (v x)) (List.range Y) List.nodup_range
    (fun s hs y hy => hrow s hs y hy) f hf
  exact ⟨out, h1, h2, fun y hy x hx => h3 y (List.mem_range.mpr hy) x hx⟩

/-- Loop over the members of one grid point. -/
theorem forMembers_spec {Y X E : Nat} (y x n : Nat) (body : FieldC K → Nat → Res (FieldC K)) (P : Nat → Res (Fl K) → Res (Fl K) → Prop)
    (hb : ∀ f, Sized Y X E f → ∀ e < n, ∃ f', body f e = ok f' ∧ Sized Y X E f' ∧ P e (f.get y x e) (f'.get y x e) ∧
      ∀ y' x' e', ¬ (y' = y ∧ x' = x ∧ e' = e) → f'.get y' x' e' = f.get y' x' e')
    (f : FieldC K) (hf : Sized Y X E f) :
    ∃ out, foldM body f (List.range n) = ok out ∧ Sized Y X E out ∧ (∀ e < n, P e (f.get y x e) (out.get y x e)) ∧
      (∀ e, n ≤ e → out.get y x e = f.get y x e) ∧ ∀ y' x', ¬ (y' = y ∧ x' = x) → out.get y' x' = f.get y' x' := by
  obtain ⟨f', h1, ⟨h2, h5⟩, h3, h4⟩ := foldM_cells (fun s => Sized Y X E s ∧ ∀ y' x', ¬ (y' = y ∧ x' = x) → s.get y' x' = f.get y' x')
    (fun s e => s.get y x e) body P (List.range n) List.nodup_range (by
      intro s ⟨hs, hs'⟩ e he
      obtain ⟨s', h1, h2, h3, h4⟩ := hb s hs e (List.mem_range.mp he)
      refine ⟨s', h1, ⟨h2, fun y' x' h => ?_⟩, h3, fun j hj => h4 y x j (by simp [hj])⟩
      rw [← hs' y' x' h]
      funext e'
      exact h4 y' x' e' (fun hc => h ⟨hc.1, hc.2.1⟩)) f ⟨hf, fun _ _ _ => rfl⟩
  exact ⟨f', h1, h2, fun e he => h3 e (List.mem_range.mpr he), fun e he => h4 e (by simp; omega), h5⟩

/-- Loop over all members of all grid points: every iteration treats only its own value. -/
theorem forAll_spec {Y X E : Nat} (body : FieldC K → Nat → Nat → Nat → Res (FieldC K)) (P : Nat → Nat → Nat → Res (Fl K) → Res (Fl K) → Prop)
    (hb : ∀ f, Sized Y X E f → ∀ y < Y, ∀ x < X, ∀ e < E, ∃ f', body f y x e = ok f' ∧ Sized Y X E f' ∧
      P y x e (f.get y x e) (f'.get y x e) ∧ ∀ y' x' e', ¬ (y' = y ∧ x' = x ∧ e' = e) → f'.get y' x' e' = f.get y' x' e')
    (f : FieldC K) (hf : Sized Y X E f) :
    ∃ out, FieldC.forAll Y X E body f = ok out ∧ Sized Y X E out ∧
      ∀ y < Y, ∀ x < X, ∀ e < E, P y x e (f.get y x e) (out.get y x e) := by
  obtain ⟨out, h1, h2, h3⟩ := forCells_spec (E := E) (fun f y x => foldM (fun f e => body f y x e) f (List.range E))
    (fun y x u v => ∀ e < E, P y x e (u e) (v e)) (by
      intro f hf y hy x hx
      obtain ⟨f', h1, h2, h3, -, h5⟩ := forMembers_spec y x E (fun f e => body f y x e) (P y x)
        (fun s hs e he => hb s hs y hy x hx e he) f hf
      exact ⟨f', h1, h2, h3, h5⟩) f hf
  exact ⟨out, h1, h2, fun y hy x hx e he => h3 y hy x hx e he⟩

/-- The constructor of `Field` for sizes that are not negative. -/
theorem FieldC.new_sized [IsStrictOrderedRing K] (Y X E : Nat) (fill : Fl K) :
    ∃ f, FieldC.new (Y : Int) (X : Int) (E : Int) fill = ok f ∧ Sized Y X E f ∧ ∀ y < Y, ∀ x < X, ∀ e < E, f.get y x e = ok fill := by
  have hv : ∀ n : Nat, isValid (Fl.ofInt (n : Int) : Fl K) = true := by
    intro n
    simp only [Fl.ofInt, isValid, decide_eq_true_eq]
    have : (0 : K) ≤ ((n : Int) : K) := by exact_mod_cast Nat.cast_nonneg n
    linarith
  have hs : Sized Y X E (⟨List.replicate (Y * X * E) fill, Y, X, E⟩ : FieldC K) := ⟨rfl, rfl, rfl, by simp⟩
  refine ⟨⟨List.replicate (Y * X * E) fill, Y, X, E⟩, ?_, hs, ?_⟩
  · unfold FieldC.new
    have : ((Y : Int) * X * E).toNat = Y * X * E := by
      rw [show (Y : Int) * X * E = ((Y * X * E : Nat) : Int) by push_cast; ring, Int.toNat_natCast]
    rw [hv, hv, hv, this]
    simp
  · intro y hy x hx e he
    rw [hs.get hy hx he]
    simp

end Gridpp.Client
