import Verif.Model.Client.Stencil
import Verif.Lemmas.Client.Downscaler
import Verif.Lemmas.Client.Stat

/-! # Lemmas about the downscalers pressure, upscale and smart of the client -/

set_option linter.unusedSectionVars false

namespace Gridpp.Client
open Fl hiding MV isValid
open Res

variable {K : Type} [Field K] [LinearOrder K] [IsStrictOrderedRing K]

theorem fill_spec {S : Type} {Y X E : Nat} {setup : Nat → Nat → Res S} {val : S → Nat → Res (Fl K)} {P : Nat → Nat → Nat → Fl K → Prop}
    (h : ∀ y < Y, ∀ x < X, ∃ s, setup y x = ok s ∧ ∀ e < E, ∃ v, val s e = ok v ∧ P y x e v) {f : FieldC K} (hf : Sized Y X E f) :
    ∃ out, FieldC.fill f.nY f.nX f.nE setup val f = ok out ∧ Sized Y X E out ∧
      ∀ y < Y, ∀ x < X, ∀ e < E, ∃ v, out.get y x e = ok v ∧ P y x e v := by
  unfold FieldC.fill
  rw [hf.nY, hf.nX, hf.nE]
  obtain ⟨out, h1, h2, h3⟩ := forCells_spec (Y := Y) (X := X) (E := E) (fun f i j => do
    let s ← setup i j
    foldM (fun f e => do
      let v ← val s e
      f.set i j e v) f (List.range E))
    (fun y x _ r => ∀ e < E, ∃ v, r e = ok v ∧ P y x e v) (by
      intro f hf y hy x hx
      obtain ⟨s, hs, hv⟩ := h y hy x hx
      simp only [hs, ok_bind]
      obtain ⟨f', g1, g2, g3, -, g5⟩ := forMembers_spec (Y := Y) (X := X) (E := E) y x E (fun f e => do
          let v ← val s e
          f.set y x e v) (fun e _ r => ∃ v, r = ok v ∧ P y x e v) (by
          intro f hf e he
          obtain ⟨v, e1, e2⟩ := hv e he
          obtain ⟨f', k1, k2, k3, k4⟩ := hf.set hy hx he v
          rw [e1]
          exact ⟨f', k1, k2, ⟨v, k3, e2⟩, k4⟩) f hf
      exact ⟨f', g1, g2, g3, g5⟩) f hf
  exact ⟨out, h1, h2, h3⟩

/-- If the preparation of the first cell fails, nothing is set. -/
theorem fill_abort {S : Type} {Y X E : Nat} {setup : Nat → Nat → Res S} {val : S → Nat → Res (Fl K)}
    (h : ∀ y < Y, ∀ x < X, (∃ s, setup y x = ok s ∧ ∀ e < E, ∃ v, val s e = ok v) ∨ setup y x = .abort)
    (hex : ∃ y < Y, ∃ x < X, setup y x = .abort) {f : FieldC K} (hf : Sized Y X E f) : FieldC.fill f.nY f.nX f.nE setup val f = .abort := by
  have hbody : ∀ f, Sized Y X E f → ∀ y < Y, ∀ x < X, (∃ s, setup y x = ok s ∧ ∀ e < E, ∃ v, val s e = ok v) →
      ∃ f', (do
        let s ← setup y x
        foldM (fun f e => do
          let v ← val s e
          f.set y x e v) f (List.range E)) = ok f' ∧ Sized Y X E f' := by
    rintro f hf y hy x hx ⟨s, hs, hv⟩
    rw [hs, ok_bind]
    obtain ⟨f', g1, g2, -⟩ := forMembers_spec (Y := Y) (X := X) (E := E) y x E (fun f e => do
          let v ← val s e
          f.set y x e v) (fun _ _ _ => True) (by
          intro f hf e he
          obtain ⟨v, e1⟩ := hv e he
          obtain ⟨f', k1, k2, k3, k4⟩ := hf.set hy hx he v
          rw [e1]
          exact ⟨f', k1, k2, trivial, k4⟩) f hf
    exact ⟨f', g1, g2⟩
  -- one row
  have hrow : ∀ y < Y, ∀ n ≤ X, ∀ f, Sized Y X E f →
      (∃ f', foldM (fun f x => do
        let s ← setup y x
        foldM (fun f e => do
          let v ← val s e
          f.set y x e v) f (List.range E)) f (List.range n) = ok f' ∧ Sized Y X E f' ∧ ∀ x < n, ∃ s, setup y x = ok s) ∨
      foldM (fun f x => do
        let s ← setup y x
        foldM (fun f e => do
          let v ← val s e
          f.set y x e v) f (List.range E)) f (List.range n) = .abort := by
    intro y hy n
    induction n with
    | zero => exact fun _ f hf => .inl ⟨f, rfl, hf, by simp⟩
    | succ n ih =>
      intro hn f hf
      rw [List.range_succ, foldM_append]
      rcases ih (by omega) f hf with ⟨f', e1, e2, e3⟩ | e
      · rw [e1, ok_bind]
        rcases h y hy n (by omega) with hs | hs
        · obtain ⟨f'', k1, k2⟩ := hbody f' e2 y hy n (by omega) hs
          refine .inl ⟨f'', ?_, k2, fun x hx => ?_⟩
          · rw [foldM_cons, k1, ok_bind]
            rfl
          · rcases Nat.lt_succ_iff_lt_or_eq.mp hx with hx | rfl
            · exact e3 x hx
            · exact ⟨_, hs.choose_spec.1⟩
        · refine .inr ?_
          rw [foldM_cons, hs]
          rfl
      · rw [e]
        exact .inr rfl
  have hall : ∀ n ≤ Y, ∀ f, Sized Y X E f →
      (∃ f', foldM (fun f y => foldM (fun f x => do
        let s ← setup y x
        foldM (fun f e => do
          let v ← val s e
          f.set y x e v) f (List.range E)) f (List.range X)) f (List.range n) = ok f' ∧ Sized Y X E f' ∧ ∀ y < n, ∀ x < X, ∃ s, setup y x = ok s) ∨
      foldM (fun f y => foldM (fun f x => do
        let s ← setup y x
        foldM (fun f e => do
          let v ← val s e
          f.set y x e v) f (List.range E)) f (List.range X)) f (List.range n) = .abort := by
    intro n
    induction n with
    | zero => exact fun _ f hf => .inl ⟨f, rfl, hf, by simp⟩
    | succ n ih =>
      intro hn f hf
      rw [List.range_succ, foldM_append]
      rcases ih (by omega) f hf with ⟨f', e1, e2, e3⟩ | e
      · rw [e1, ok_bind]
        rcases hrow n (by omega) X le_rfl f' e2 with ⟨f'', k1, k2, k3⟩ | k
        · refine .inl ⟨f'', ?_, k2, fun y hy => ?_⟩
          · rw [foldM_cons, k1, ok_bind]
            rfl
          · rcases Nat.lt_succ_iff_lt_or_eq.mp hy with hy | rfl
            · exact e3 y hy
            · exact k3
        · refine .inr ?_
          rw [foldM_cons, k]
          rfl
      · rw [e]
        exact .inr rfl
  unfold FieldC.fill FieldC.forCells
  rw [hf.nY, hf.nX, hf.nE]
  rcases hall Y le_rfl f hf with ⟨f', -, -, e⟩ | e
  · obtain ⟨y, hy, x, hx, ha⟩ := hex
    obtain ⟨s, hs⟩ := e y hy x hx
    rw [ha] at hs
    exact absurd hs (by simp)
  · exact e

theorem getInt_nat {Y X E : Nat} {f : FieldC K} (hf : Sized Y X E f) {i j e : Nat} (hi : i < Y) (hj : j < X) (he : e < E) :
    ∃ v, f.getInt (i : Int) (j : Int) e = ok v ∧ f.get i j e = ok v := by
  obtain ⟨v, hv⟩ := hf.exists_get hi hj he
  refine ⟨v, ?_, hv⟩
  unfold FieldC.getInt
  rw [if_neg (by omega)]
  simpa using hv

theorem forall₂_mem_right {α β : Type} {R : α → β → Prop} {l : List α} {m : List β} (h : List.Forall₂ R l m) : ∀ b ∈ m, ∃ a ∈ l, R a b := by
  induction h with
  | nil => simp
  | cons h _ ih =>
    intro b hb
    rcases List.mem_cons.mp hb with rfl | hb
    · exact ⟨_, List.mem_cons_self, h⟩
    · obtain ⟨a, ha, hr⟩ := ih b hb
      exact ⟨a, List.mem_cons_of_mem _ ha, hr⟩

/-! ### Upscale -/

/-- The values that are collected: those present at the places that belong to the output point. -/
theorem upscaleValues_spec {Y X E : Nat} {table : List (List (Int × Int))} {ifield : FieldC K} (hi : Sized Y X E ifield) (ht : Rect Y X table)
    (i j : Nat) {e : Nat} (he : e < E) :
    ∃ (places : List (Nat × Nat)) (vals : List (Fl K)), upscaleValues table ifield i j e = ok (vals.filter isValid) ∧ places.Nodup ∧
      (∀ p, p ∈ places ↔ cell? table p.1 p.2 = some ((i : Int), (j : Int))) ∧
      List.Forall₂ (fun (p : Nat × Nat) v => ifield.get p.1 p.2 e = ok v) places vals := by
  -- what has been collected when the rows below `a` and the first `b` points of row `a` have been seen
  let Seen : Nat → Nat → Nat × Nat → Prop := fun a b p => p.1 < a ∨ p.1 = a ∧ p.2 < b
  let Good : Nat → Nat → List (Fl K) → Prop := fun a b acc => ∃ (places : List (Nat × Nat)) (vals : List (Fl K)), acc = vals.filter isValid ∧
    places.Nodup ∧ (∀ p, p ∈ places ↔ (Seen a b p ∧ cell? table p.1 p.2 = some ((i : Int), (j : Int)))) ∧
    List.Forall₂ (fun (p : Nat × Nat) v => ifield.get p.1 p.2 e = ok v) places vals
  have hstep : ∀ a < Y, ∀ b < X, ∀ acc, Good a b acc → ∃ acc', upscaleStep table ifield i j e acc a b = ok acc' ∧ Good a (b + 1) acc' := by
    rintro a ha b hb acc ⟨places, vals, rfl, hnd, hmem, hvals⟩
    obtain ⟨c, hc, hc'⟩ := vget2_of_rect ht ha hb
    unfold upscaleStep
    rw [hc', ok_bind]
    by_cases hm : c.1 = (i : Int) ∧ c.2 = (j : Int)
    · rw [if_pos hm]
      obtain ⟨v, hv⟩ := hi.exists_get ha hb he
      rw [hv, ok_bind]
      refine ⟨_, rfl, places ++ [(a, b)], vals ++ [v], ?_, ?_, ?_, ?_⟩
      · rw [List.filter_append]
        by_cases hv' : isValid v = true
        · simp [hv']
        · simp [hv']
      · rw [List.nodup_append]
        refine ⟨hnd, by simp, ?_⟩
        intro p hp q hq hpq
        rw [List.mem_singleton] at hq
        rw [hpq, hq] at hp
        have := ((hmem (a, b)).mp hp).1
        rcases this with h | h
        · exact absurd h (lt_irrefl _)
        · exact absurd h.2 (lt_irrefl _)
      · intro p
        rw [List.mem_append, List.mem_singleton, hmem]
        constructor
        · rintro (⟨h1, h2⟩ | rfl)
          · refine ⟨?_, h2⟩
            rcases h1 with h | h
            · exact .inl h
            · exact .inr ⟨h.1, h.2.trans (Nat.lt_succ_self _)⟩
          · refine ⟨.inr ⟨rfl, Nat.lt_succ_self _⟩, ?_⟩
            rw [hc, ← hm.1, ← hm.2]
        · rintro ⟨h1, h2⟩
          rcases h1 with h | ⟨h, h'⟩
          · exact .inl ⟨.inl h, h2⟩
          · rcases Nat.lt_succ_iff_lt_or_eq.mp h' with h' | h'
            · exact .inl ⟨.inr ⟨h, h'⟩, h2⟩
            · exact .inr (Prod.ext h h')
      · exact List.rel_append hvals (.cons hv .nil)
    · rw [if_neg hm]
      refine ⟨_, rfl, places, vals, rfl, hnd, ?_, hvals⟩
      intro p
      rw [hmem]
      constructor
      · rintro ⟨h1, h2⟩
        refine ⟨?_, h2⟩
        rcases h1 with h | h
        · exact .inl h
        · exact .inr ⟨h.1, h.2.trans (Nat.lt_succ_self _)⟩
      · rintro ⟨h1, h2⟩
        refine ⟨?_, h2⟩
        rcases h1 with h | ⟨h, h'⟩
        · exact .inl h
        · rcases Nat.lt_succ_iff_lt_or_eq.mp h' with h' | h'
          · exact .inr ⟨h, h'⟩
          · rw [h, h', hc, Option.some.injEq] at h2
            exact absurd ⟨by rw [h2], by rw [h2]⟩ hm
  have hrow : ∀ a < Y, ∀ acc, Good a 0 acc → ∃ acc', (do
      let row ← vget table 0
      foldM (fun acc jj => upscaleStep table ifield i j e acc a jj) acc (List.range row.length)) = ok acc' ∧ Good (a + 1) 0 acc' := by
    intro a ha acc hacc
    have hl : 0 < table.length := by rw [ht.1]; omega
    have hv0 : vget table 0 = ok table[0] := vget_eq_ok_of_lt (n := 0) hl
    rw [hv0, ok_bind, ht.2 _ (List.getElem_mem hl)]
    have : ∀ n ≤ X, ∃ acc', foldM (fun acc jj => upscaleStep table ifield i j e acc a jj) acc (List.range n) = ok acc' ∧ Good a n acc' := by
      intro n
      induction n with
      | zero => exact fun _ => ⟨acc, rfl, hacc⟩
      | succ n ih =>
        intro hn
        obtain ⟨acc1, e1, e2⟩ := ih (by omega)
        obtain ⟨acc2, e3, e4⟩ := hstep a ha n (by omega) acc1 e2
        refine ⟨acc2, ?_, e4⟩
        rw [List.range_succ, foldM_append, e1, ok_bind, foldM_cons, e3]
        rfl
    obtain ⟨acc', e1, places, vals, e2, e3, e4, e5⟩ := this X le_rfl
    refine ⟨acc', e1, places, vals, e2, e3, fun p => ?_, e5⟩
    rw [e4]
    constructor
    · rintro ⟨h1, h2⟩
      refine ⟨.inl ?_, h2⟩
      rcases h1 with h | h
      · omega
      · omega
    · rintro ⟨h1, h2⟩
      refine ⟨?_, h2⟩
      have := (cell?_lt ht h2).2
      rcases h1 with h | h
      · rcases Nat.lt_succ_iff_lt_or_eq.mp h with h | h
        · exact .inl h
        · exact .inr ⟨h, this⟩
      · exact absurd h.2 (by omega)
  have : ∀ n ≤ Y, ∃ acc', foldM (fun acc ii => do
      let row ← vget table 0
      foldM (fun acc jj => upscaleStep table ifield i j e acc ii jj) acc (List.range row.length)) [] (List.range n) = ok acc' ∧ Good n 0 acc' := by
    intro n
    induction n with
    | zero => exact fun _ => ⟨[], rfl, [], [], rfl, List.nodup_nil, by simp [Seen], .nil⟩
    | succ n ih =>
      intro hn
      obtain ⟨acc1, e1, e2⟩ := ih (by omega)
      obtain ⟨acc2, e3, e4⟩ := hrow n (by omega) acc1 e2
      refine ⟨acc2, ?_, e4⟩
      rw [List.range_succ, foldM_append, e1, ok_bind, foldM_cons]
      simp only [e3, ok_bind]
      rfl
  obtain ⟨acc', e1, places, vals, e2, e3, e4, e5⟩ := this Y le_rfl
  refine ⟨places, vals, ?_, e3, fun p => ?_, e5⟩
  · unfold upscaleValues
    rw [ht.1, e1, e2]
  · rw [e4]
    constructor
    · exact fun h => h.2
    · exact fun h => ⟨.inl (cell?_lt ht h).1, h⟩

/-! ### Smart -/

/-- The points within `radius` rows and columns. -/
theorem mem_stencil {nY nX : Nat} {radius : Int} {c p : Int × Int} :
    p ∈ stencil nY nX radius c ↔ 0 ≤ p.1 ∧ p.1 < nY ∧ 0 ≤ p.2 ∧ p.2 < nX ∧ c.1 - radius ≤ p.1 ∧ p.1 ≤ c.1 + radius ∧
      c.2 - radius ≤ p.2 ∧ p.2 ≤ c.2 + radius := by
  unfold stencil
  simp only [List.mem_flatMap, List.mem_map, mem_irange]
  constructor
  · rintro ⟨a, ha, b, hb, rfl⟩
    simp only
    omega
  · intro h
    exact ⟨p.1, by omega, p.2, by omega, rfl⟩

theorem irange_nodup (lo hi : Int) : (irange lo hi).Nodup := by
  unfold irange
  refine List.Nodup.map ?_ List.nodup_range
  intro a b h
  simp only at h
  omega

theorem stencil_nodup (nY nX : Nat) (radius : Int) (c : Int × Int) : (stencil nY nX radius c).Nodup := by
  unfold stencil
  rw [List.nodup_flatMap]
  refine ⟨fun a _ => (irange_nodup _ _).map (fun x y h => by simpa using h), ?_⟩
  refine (irange_nodup _ _).imp ?_
  intro a b hab p hp hq
  rw [List.mem_map] at hp hq
  obtain ⟨x, -, rfl⟩ := hp
  obtain ⟨y, -, h⟩ := hq
  exact hab (by rw [Prod.mk.injEq] at h; exact h.1.symm)

/-- What `std::sort` by the second component does. -/
def SortsSecond (sort : List (Nat × Fl K) → List (Nat × Fl K)) : Prop :=
  ∀ l, (∀ p ∈ l, ∃ q, p.2 = fin q) → (sort l).Perm l ∧ (sort l).Pairwise fun a b => num a.2 ≤ num b.2

/-- `d` is the difference of the elevation `o` and that of the input point `p`, 10^10 if the latter is missing. -/
def Level (ielevs : List (List (Fl K))) (o : K) (p : Int × Int) (d : K) : Prop :=
  ∃ (i j : Nat) (u : Fl K), p = ((i : Int), (j : Int)) ∧ cell? ielevs i j = some u ∧ (∀ q, u = fin q → q ≠ -999 → d = |q - o|) ∧
    (¬ Present u → d = 10000000000)

theorem elevDiff_spec {o : K} (ho : o ≠ -999) (u : Fl K) :
    ∃ d, elevDiff (fin o) u = fin d ∧ (∀ q, u = fin q → q ≠ -999 → d = |q - o|) ∧ (¬ Present u → d = 10000000000) := by
  have hv : isValid (fin o : Fl K) = true := isValid_iff_present.mpr ⟨o, rfl, ho⟩
  unfold elevDiff
  by_cases hu : Present u
  · obtain ⟨q, rfl, hq⟩ := hu
    rw [hv, isValid_iff_present.mpr ⟨q, rfl, hq⟩]
    refine ⟨|q - o|, by simp [Fl.abs], ?_, fun h => absurd ⟨q, rfl, hq⟩ h⟩
    intro q' h _
    rw [Fl.fin.injEq] at h
    rw [h]
  · rw [isValid_false_iff.mpr hu]
    refine ⟨10000000000, by simp, ?_, fun _ => rfl⟩
    intro q h hq
    exact absurd ⟨q, h, hq⟩ hu

/-- The points chosen from the stencil. -/
theorem smartChoice {sort : List (Nat × Fl K) → List (Nat × Fl K)} (hsort : SortsSecond sort) {points : List (Int × Int)} (hnd : points.Nodup)
    {diffs : List (Fl K)} {D : Int × Int → K → Prop} (hd : List.Forall₂ (fun p v => ∃ d, v = fin d ∧ D p d) points diffs) {N : Nat}
    (hN : N ≤ points.length) :
    ∃ out, mapM (fun n : Nat => do
        let p ← vget (sort ((List.range diffs.length).zip diffs)) n
        vget points p.1) (List.range N) = ok out ∧ out.length = N ∧ out.Nodup ∧ (∀ p ∈ out, p ∈ points) ∧
      ∀ p ∈ out, ∀ q ∈ points, q ∉ out → ∃ d d', D p d ∧ D q d' ∧ d ≤ d' := by
  have hlen : points.length = diffs.length := hd.length_eq
  have hentry : ∀ (k m : Nat) v, ((List.range diffs.length).zip diffs)[k]? = some (m, v) → m = k ∧ diffs[k]? = some v := by
    intro k m v h
    rw [List.getElem?_zip_eq_some] at h
    obtain ⟨h1, h2⟩ := h
    rw [List.getElem?_range (List.getElem?_eq_some_iff.mp h2).1, Option.some.injEq] at h1
    exact ⟨h1.symm, h2⟩
  have hD : ∀ (k : Nat) v, diffs[k]? = some v → ∃ p d, points[k]? = some p ∧ v = fin d ∧ D p d := by
    intro k v h
    obtain ⟨hk, e⟩ := List.getElem?_eq_some_iff.mp h
    have := (List.forall₂_iff_get.mp hd).2 k (by omega) hk
    obtain ⟨d, h1, h2⟩ := this
    exact ⟨points[k]'(by omega), d, List.getElem?_eq_getElem _, by rw [← e]; exact h1, h2⟩
  obtain ⟨hperm, hpw⟩ := hsort ((List.range diffs.length).zip diffs) (by
    rintro ⟨m, v⟩ hp
    obtain ⟨k, hk⟩ := List.mem_iff_getElem?.mp hp
    obtain ⟨-, h2⟩ := hentry k m v hk
    obtain ⟨-, d, -, e, -⟩ := hD k v h2
    exact ⟨d, e⟩)
  generalize hS : sort ((List.range diffs.length).zip diffs) = S at hperm hpw ⊢
  have hSl : S.length = points.length := by
    rw [hperm.length_eq, List.length_zip, List.length_range, hlen, min_self]
  have hSe : ∀ a ∈ S, ∃ p d, points[a.1]? = some p ∧ a.2 = fin d ∧ D p d := by
    rintro ⟨m, v⟩ ha
    obtain ⟨k, hk⟩ := List.mem_iff_getElem?.mp (hperm.mem_iff.mp ha)
    obtain ⟨h1, h2⟩ := hentry k m v hk
    obtain ⟨p, d, e1, e2, e3⟩ := hD k v h2
    exact ⟨p, d, by rw [h1]; exact e1, e2, e3⟩
  have hfst : (S.map (·.1)).Nodup := by
    have h1 : (S.map (·.1)).Perm (((List.range diffs.length).zip diffs).map (·.1)) := hperm.map _
    rw [h1.nodup_iff, List.map_fst_zip (by simp)]
    exact List.nodup_range
  obtain ⟨out, h1, h2, h3⟩ := mapM_range_exists (n := N) (f := fun n : Nat => do
        let p ← vget S n
        vget points p.1) (P := fun k v => ∃ a, S[k]? = some a ∧ points[a.1]? = some v) (by
      intro k hk
      have hkS : k < S.length := by omega
      obtain ⟨p, d, e1, -⟩ := hSe _ (List.getElem_mem hkS)
      refine ⟨p, ?_, _, List.getElem?_eq_getElem hkS, e1⟩
      rw [vget_eq_ok_of_lt hkS, ok_bind, vget_nat, e1])
  have hout : ∀ (k : Nat) p, out[k]? = some p → k < N ∧ ∃ a, S[k]? = some a ∧ points[a.1]? = some p := by
    intro k p h
    have hk : k < N := by rw [← h2]; exact (List.getElem?_eq_some_iff.mp h).1
    obtain ⟨v, e1, e2⟩ := h3 k hk
    rw [h, Option.some.injEq] at e1
    rw [e1]
    exact ⟨hk, e2⟩
  refine ⟨out, h1, h2, ?_, ?_, ?_⟩
  · rw [List.nodup_iff_getElem?_ne_getElem?]
    intro k k' hlt hk' he
    have hk : k < out.length := hlt.trans hk'
    obtain ⟨-, a, e1, e2⟩ := hout k _ (List.getElem?_eq_getElem hk)
    obtain ⟨-, b, e3, e4⟩ := hout k' _ (List.getElem?_eq_getElem hk')
    rw [List.getElem?_eq_getElem hk, List.getElem?_eq_getElem hk', Option.some.injEq] at he
    rw [he] at e2
    have hab : a.1 = b.1 := by
      have l1 := (List.getElem?_eq_some_iff.mp e2)
      have l2 := (List.getElem?_eq_some_iff.mp e4)
      obtain ⟨l1a, l1b⟩ := l1
      obtain ⟨l2a, l2b⟩ := l2
      exact (List.Nodup.getElem_inj_iff hnd).mp (l1b.trans l2b.symm)
    have m1 : (S.map (·.1))[k]? = some a.1 := by rw [List.getElem?_map, e1]; rfl
    have m2 : (S.map (·.1))[k']? = some a.1 := by rw [List.getElem?_map, e3, hab]; rfl
    obtain ⟨c1, d1⟩ := List.getElem?_eq_some_iff.mp m1
    obtain ⟨c2, d2⟩ := List.getElem?_eq_some_iff.mp m2
    have := (List.Nodup.getElem_inj_iff hfst).mp (d1.trans d2.symm)
    omega
  · intro p hp
    obtain ⟨k, hk⟩ := List.mem_iff_getElem?.mp hp
    obtain ⟨-, a, -, e⟩ := hout k p hk
    exact List.mem_of_getElem? e
  · intro p hp q hq hqn
    obtain ⟨k, hk⟩ := List.mem_iff_getElem?.mp hp
    obtain ⟨hkN, a, e1, e2⟩ := hout k p hk
    obtain ⟨m, hm⟩ := List.mem_iff_getElem?.mp hq
    have hml : m < points.length := (List.getElem?_eq_some_iff.mp hm).1
    have hz : ((List.range diffs.length).zip diffs)[m]? = some (m, diffs[m]'(by omega)) := by
      rw [List.getElem?_zip_eq_some]
      exact ⟨List.getElem?_range (by omega), List.getElem?_eq_getElem _⟩
    obtain ⟨k', hk'⟩ := List.mem_iff_getElem?.mp (hperm.mem_iff.mpr (List.mem_of_getElem? hz))
    have hk'N : N ≤ k' := by
      by_contra hc
      obtain ⟨v, f1, b, f2, f3⟩ := h3 k' (by omega)
      rw [hk', Option.some.injEq] at f2
      rw [← f2] at f3
      rw [show ((m, diffs[m]'(by omega)) : Nat × Fl K).1 = m from rfl, hm, Option.some.injEq] at f3
      rw [← f3] at f1
      exact hqn (List.mem_of_getElem? f1)
    obtain ⟨p', d, g1, g2, g3⟩ := hSe a (List.mem_of_getElem? e1)
    rw [e2, Option.some.injEq] at g1
    rw [← g1] at g3
    obtain ⟨q', d', g4, g5, g6⟩ := hSe _ (List.mem_of_getElem? hk')
    rw [show ((m, diffs[m]'(by omega)) : Nat × Fl K).1 = m from rfl, hm, Option.some.injEq] at g4
    rw [← g4] at g6
    refine ⟨d, d', g3, g6, ?_⟩
    obtain ⟨r1, r2⟩ := List.getElem?_eq_some_iff.mp e1
    obtain ⟨r3, r4⟩ := List.getElem?_eq_some_iff.mp hk'
    have := List.pairwise_iff_getElem.mp hpw k k' r1 r3 (by omega)
    rw [r2, r4, g2] at this
    rw [g5] at this
    simpa [num] using this

/-- What is used for an output point: at most `num` points at most `radius` rows and columns away, all of them if there are not more, else
those with the least differences of elevation. -/
structure Chosen (ielevs : List (List (Fl K))) (Y X : Nat) (radius num : Int) (c : Int × Int) (o : K) (out : List (Int × Int)) : Prop where
  count : (out.length : Int) ≤ num
  all : (out.length : Int) < num → ∀ q : Int × Int, 0 ≤ q.1 → q.1 < Y → 0 ≤ q.2 → q.2 < X → |q.1 - c.1| ≤ radius → |q.2 - c.2| ≤ radius → q ∈ out
  nodup : out.Nodup
  near : ∀ p ∈ out, 0 ≤ p.1 ∧ p.1 < Y ∧ 0 ≤ p.2 ∧ p.2 < X ∧ |p.1 - c.1| ≤ radius ∧ |p.2 - c.2| ≤ radius
  best : ∀ p ∈ out, ∀ q : Int × Int, 0 ≤ q.1 → q.1 < Y → 0 ≤ q.2 → q.2 < X → |q.1 - c.1| ≤ radius → |q.2 - c.2| ≤ radius → q ∉ out →
    ∃ d d', Level ielevs o p d ∧ Level ielevs o q d' ∧ d ≤ d'

theorem within_iff {radius : Int} {c p : Int × Int} {nY nX : Nat} : p ∈ stencil nY nX radius c ↔
    0 ≤ p.1 ∧ p.1 < nY ∧ 0 ≤ p.2 ∧ p.2 < nX ∧ |p.1 - c.1| ≤ radius ∧ |p.2 - c.2| ≤ radius := by
  rw [mem_stencil, abs_le, abs_le]
  omega

theorem smartPoints_far {sort : List (Nat × Fl K) → List (Nat × Fl K)} (hsort : SortsSecond sort) {Y X : Nat} {ielevs oelevs : List (List (Fl K))}
    (hie : Rect Y X ielevs) {near : List (List (Int × Int))} {i j ci cj : Nat} (hc : cell? near i j = some ((ci : Int), (cj : Int)))
    (hci : ci < Y) (hcj : cj < X) {o : K} (ho : cell? oelevs i j = some (fin o)) (hm : o ≠ -999) {radius num : Int} (hr : 0 ≤ radius) (hn : 0 ≤ num)
    {minElevDiff : Fl K} (hfar : ∀ q m, cell? ielevs ci cj = some (fin q) → q ≠ -999 → minElevDiff = fin m → m ≠ -999 → m < |o - q|) :
    ∃ out, smartPoints sort radius num minElevDiff Y X ielevs oelevs near i j = ok out ∧ Chosen ielevs Y X radius num ((ci : Int), (cj : Int)) o out := by
  obtain ⟨u, hu, hu'⟩ := vget2_of_rect hie hci hcj
  unfold smartPoints
  rw [vget2_of_cell? hc, ok_bind, vget2_of_cell? ho, ok_bind]
  simp only [hu', ok_bind]
  have hvo : isValid (fin o : Fl K) = true := isValid_iff_present.mpr ⟨o, rfl, hm⟩
  have hwithin : (isValid (fin o : Fl K) && isValid u && isValid minElevDiff && (Fl.abs (fin o - u)).le minElevDiff) = false := by
    by_contra hw
    rw [Bool.not_eq_false, Bool.and_eq_true, Bool.and_eq_true, Bool.and_eq_true] at hw
    obtain ⟨⟨⟨-, h1⟩, h2⟩, h3⟩ := hw
    obtain ⟨q, rfl, hq⟩ := isValid_iff_present.mp h1
    obtain ⟨m, rfl, hm'⟩ := isValid_iff_present.mp h2
    have := hfar q m hu hq rfl hm'
    rw [fin_sub, show Fl.abs (fin (o - q) : Fl K) = fin |o - q| from rfl, le_fin, decide_eq_true_eq] at h3
    linarith
  rw [hwithin, hvo]
  simp only [Bool.not_true, Bool.or_self, Bool.false_eq_true, if_false]
  -- the differences
  obtain ⟨diffs, hd1, hd2⟩ : ∃ diffs, mapM (fun p : Int × Int => do
      let ielev ← vget2 ielevs p.1 p.2
      ok (elevDiff (fin o) ielev)) (stencil Y X radius ((ci : Int), (cj : Int))) = ok diffs ∧
      List.Forall₂ (fun p v => ∃ d, v = fin d ∧ Level ielevs o p d) (stencil Y X radius ((ci : Int), (cj : Int))) diffs := by
    have : ∀ l : List (Int × Int), (∀ p ∈ l, 0 ≤ p.1 ∧ p.1 < Y ∧ 0 ≤ p.2 ∧ p.2 < X) → ∃ diffs, mapM (fun p : Int × Int => do
      let ielev ← vget2 ielevs p.1 p.2
      ok (elevDiff (fin o) ielev)) l = ok diffs ∧
      List.Forall₂ (fun p v => ∃ d, v = fin d ∧ Level ielevs o p d) l diffs := by
      intro l
      induction l with
      | nil => exact fun _ => ⟨[], rfl, .nil⟩
      | cons p l ih =>
        intro h
        obtain ⟨p1, p2⟩ := p
        obtain ⟨a1, a2, a3, a4⟩ := h _ List.mem_cons_self
        obtain ⟨m, rfl⟩ : ∃ m : Nat, p1 = (m : Int) := ⟨p1.toNat, by simp only at a1; omega⟩
        obtain ⟨n, rfl⟩ : ∃ n : Nat, p2 = (n : Int) := ⟨p2.toNat, by simp only at a3; omega⟩
        obtain ⟨w, hw, hw'⟩ := vget2_of_rect hie (show m < Y by simp only at a2; omega) (show n < X by simp only at a4; omega)
        obtain ⟨d, k1, k2, k3⟩ := elevDiff_spec hm w
        obtain ⟨ds, e1, e2⟩ := ih fun q hq => h q (List.mem_cons_of_mem _ hq)
        refine ⟨fin d :: ds, ?_, .cons ⟨d, rfl, m, n, w, rfl, hw, k2, k3⟩ e2⟩
        rw [mapM_cons]
        simp only [hw', ok_bind, k1, e1]
    exact this _ fun p hp => by
      have := mem_stencil.mp hp
      exact ⟨this.1, this.2.1, this.2.2.1, this.2.2.2.1⟩
  simp only [hd1, ok_bind]
  have hlen := hd2.length_eq
  have hsl : (sort ((List.range diffs.length).zip diffs)).length = (stencil Y X radius ((ci : Int), (cj : Int))).length := by
    have := (hsort ((List.range diffs.length).zip diffs) (by
      rintro ⟨m, v⟩ hp
      have := List.of_mem_zip hp
      obtain ⟨p, -, d, hd, -⟩ := forall₂_mem_right hd2 v this.2
      exact ⟨d, hd⟩)).1.length_eq
    rw [this, List.length_zip, List.length_range, hlen, min_self]
  have hpos : 0 < (stencil Y X radius ((ci : Int), (cj : Int))).length := by
    refine List.length_pos_of_mem (a := ((ci : Int), (cj : Int))) ?_
    rw [mem_stencil]
    simp only
    omega
  rw [if_neg (by rw [hsl]; omega), if_neg (by rw [hsl]; omega), hsl]
  obtain ⟨out, k1, k2, k3, k4, k5⟩ := smartChoice hsort (stencil_nodup Y X radius ((ci : Int), (cj : Int))) hd2
    (N := (min ((stencil Y X radius ((ci : Int), (cj : Int))).length : Int) num).toNat) (by omega)
  refine ⟨out, k1, ⟨by rw [k2]; omega, ?_, k3, fun p hp => within_iff.mp (k4 p hp), ?_⟩⟩
  · intro hlt q a1 a2 a3 a4 a5 a6
    have hle : (stencil Y X radius ((ci : Int), (cj : Int))).length ≤ out.length := by rw [k2] at hlt ⊢; omega
    have hsub : out.Subperm (stencil Y X radius ((ci : Int), (cj : Int))) := List.subperm_of_subset k3 k4
    exact (hsub.perm_of_length_le hle).mem_iff.mpr (within_iff.mpr ⟨a1, a2, a3, a4, a5, a6⟩)
  intro p hp q a1 a2 a3 a4 a5 a6 hq
  exact k5 p hp q (within_iff.mpr ⟨a1, a2, a3, a4, a5, a6⟩) hq

theorem present_cons_fin {q : K} (h : q ≠ -999) (l : List (Fl K)) : Spec.present (fin q :: l) = q :: Spec.present l := by
  simp [Spec.present, Fl.vals, h]

theorem present_cons_missing {v : Fl K} (h : ¬ Present v) (l : List (Fl K)) : Spec.present (v :: l) = Spec.present l := by
  cases v with
  | fin q =>
    have : q = -999 := by
      by_contra hq
      exact h ⟨q, rfl, hq⟩
    simp [Spec.present, Fl.vals, this]
  | _ => simp [Spec.present, Fl.vals]

theorem present_filter (l : List (Fl K)) : Spec.present (l.filter isValid) = Spec.present l := by
  induction l with
  | nil => rfl
  | cons v l ih =>
    by_cases hv : Present v
    · rw [List.filter_cons_of_pos (isValid_iff_present.mpr hv)]
      obtain ⟨q, rfl, hq⟩ := hv
      rw [present_cons_fin hq, present_cons_fin hq, ih]
    · rw [List.filter_cons_of_neg (by rw [isValid_iff_present]; exact hv), present_cons_missing hv, ih]

theorem smartAdd_fold {Y X E : Nat} {ifield : FieldC K} (hi : Sized Y X E ifield) {e : Nat} (he : e < E) (points : List (Int × Int))
    (hp : ∀ p ∈ points, ∃ i j : Nat, p = ((i : Int), (j : Int)) ∧ i < Y ∧ j < X) (t : K) (n : Nat) :
    ∃ vals : List (Fl K), foldM (smartAdd ifield e) (fin t, n) points =
        ok (fin (t + (Spec.present vals).sum), n + (Spec.present vals).length) ∧
      List.Forall₂ (fun p v => ∃ i j : Nat, p = ((i : Int), (j : Int)) ∧ ifield.get i j e = ok v) points vals := by
  induction points generalizing t n with
  | nil => exact ⟨[], by simp [foldM, Spec.present], .nil⟩
  | cons p l ih =>
    obtain ⟨i, j, rfl, hiY, hjX⟩ := hp p List.mem_cons_self
    obtain ⟨v, hv, hv'⟩ := getInt_nat hi hiY hjX he
    have hadd : smartAdd ifield e (fin t, n) ((i : Int), (j : Int)) = ok (if isValid v then (fin t + v, n + 1) else (fin t, n)) := by
      unfold smartAdd isValidInt
      rw [if_pos (by simp), hv, ok_bind]
    rw [foldM_cons, hadd, ok_bind]
    by_cases hpres : Present v
    · obtain ⟨q, rfl, hq⟩ := hpres
      rw [if_pos (isValid_iff_present.mpr ⟨q, rfl, hq⟩)]
      obtain ⟨vals, e1, e2⟩ := ih (fun r hr => hp r (List.mem_cons_of_mem _ hr)) (t + q) (n + 1)
      refine ⟨fin q :: vals, ?_, .cons ⟨i, j, rfl, hv'⟩ e2⟩
      rw [fin_add, e1, present_cons_fin hq, List.sum_cons, List.length_cons, add_assoc, Nat.add_assoc, Nat.add_comm 1]
    · rw [if_neg (by rw [isValid_iff_present]; exact hpres)]
      obtain ⟨vals, e1, e2⟩ := ih (fun r hr => hp r (List.mem_cons_of_mem _ hr)) t n
      refine ⟨v :: vals, ?_, .cons ⟨i, j, rfl, hv'⟩ e2⟩
      rw [e1, present_cons_missing hpres]

/-- One member of one output point: the mean of what is present at the points. -/
theorem smartValue_spec {Y X E : Nat} {ifield : FieldC K} (hi : Sized Y X E ifield) {e : Nat} (he : e < E) (points : List (Int × Int))
    (hp : ∀ p ∈ points, ∃ i j : Nat, p = ((i : Int), (j : Int)) ∧ i < Y ∧ j < X) :
    ∃ (vals : List (Fl K)) (v : Fl K), smartValue ifield points e = ok v ∧
      List.Forall₂ (fun p v => ∃ i j : Nat, p = ((i : Int), (j : Int)) ∧ ifield.get i j e = ok v) points vals ∧
      (Spec.present vals = [] → v = fin (-999)) ∧ (Spec.present vals ≠ [] → v = fin (Spec.mean (Spec.present vals))) := by
  obtain ⟨vals, h1, h2⟩ := smartAdd_fold hi he points hp 0 0
  rw [zero_add, Nat.zero_add] at h1
  unfold smartValue
  rw [h1, ok_bind]
  refine ⟨vals, _, rfl, h2, fun h => by simp [h, MV], fun h => ?_⟩
  have hpos : 0 < (Spec.present vals).length := List.length_pos_iff.mpr h
  have hne : (((Spec.present vals).length : Nat) : K) ≠ 0 := by
    have : (0 : K) < ((Spec.present vals).length : Nat) := by exact_mod_cast hpos
    exact this.ne'
  rw [if_pos hpos, ofNat_def, fin_div_of_ne _ hne]
  rfl

end Gridpp.Client
