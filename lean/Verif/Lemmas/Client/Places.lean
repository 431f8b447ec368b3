import Verif.Model.Client.Places
import Verif.Lemmas.Client.Series
import Verif.Lemmas.Client.ParameterNearest
import Verif.Base.Loops

/-! # Lemmas on the calibrators that use places -/

set_option linter.unusedSectionVars false

namespace Gridpp.Client
open Fl Res

variable {K : Type} [Field K] [LinearOrder K] [IsStrictOrderedRing K]

/-! ### Loops that write one value -/

/-- `f'` is `f` with `v` written where `S` holds. -/
def Writes (Y X E : Nat) (v : Fl K) (S : Nat → Nat → Nat → Prop) (f f' : FieldC K) : Prop :=
  Sized Y X E f' ∧ ∀ y x e, (S y x e → f'.get y x e = ok v) ∧ (¬ S y x e → f'.get y x e = f.get y x e)

theorem writes_none {Y X E : Nat} {v : Fl K} {f : FieldC K} (hf : Sized Y X E f) {S : Nat → Nat → Nat → Prop} (h : ∀ y x e, ¬ S y x e) :
    Writes Y X E v S f f := ⟨hf, fun y x e => ⟨fun hs => absurd hs (h y x e), fun _ => rfl⟩⟩

theorem writes_set {Y X E : Nat} {v : Fl K} {f : FieldC K} (hf : Sized Y X E f) {y x e : Nat} (hy : y < Y) (hx : x < X) (he : e < E) :
    ∃ f', f.set y x e v = ok f' ∧ Writes Y X E v (fun y' x' e' => y' = y ∧ x' = x ∧ e' = e) f f' := by
  obtain ⟨f', h1, h2, h3, h4⟩ := hf.set hy hx he v
  refine ⟨f', h1, h2, fun y' x' e' => ⟨?_, h4 y' x' e'⟩⟩
  rintro ⟨rfl, rfl, rfl⟩
  exact h3

theorem foldM_writes {ι : Type} {Y X E : Nat} {v : Fl K} {body : FieldC K → ι → Res (FieldC K)} {S : ι → Nat → Nat → Nat → Prop} (l : List ι)
    (h : ∀ i ∈ l, ∀ f, Sized Y X E f → ∃ f', body f i = ok f' ∧ Writes Y X E v (S i) f f') (f : FieldC K) (hf : Sized Y X E f) :
    ∃ f', foldM body f l = ok f' ∧ Writes Y X E v (fun y x e => ∃ i ∈ l, S i y x e) f f' := by
  induction l generalizing f with
  | nil => exact ⟨f, rfl, writes_none hf (by simp)⟩
  | cons i l ih =>
    obtain ⟨f1, h1, h2, h3⟩ := h i (by simp) f hf
    obtain ⟨f2, g1, g2, g3⟩ := ih (fun j hj => h j (by simp [hj])) f1 h2
    refine ⟨f2, by rw [foldM_cons, h1, ok_bind, g1], g2, fun y x e => ⟨?_, ?_⟩⟩
    · rintro ⟨j, hj, hS⟩
      by_cases hl : ∃ k ∈ l, S k y x e
      · exact (g3 y x e).1 hl
      · rw [(g3 y x e).2 hl]
        rcases List.mem_cons.mp hj with rfl | hj
        · exact (h3 y x e).1 hS
        · exact absurd ⟨j, hj, hS⟩ hl
    · intro hn
      rw [(g3 y x e).2 fun ⟨k, hk, hS⟩ => hn ⟨k, by simp [hk], hS⟩, (h3 y x e).2 fun hS => hn ⟨i, by simp, hS⟩]

theorem Writes.congr {Y X E : Nat} {v : Fl K} {S T : Nat → Nat → Nat → Prop} {f f' : FieldC K} (h : Writes Y X E v S f f')
    (hST : ∀ y x e, S y x e ↔ T y x e) : Writes Y X E v T f f' :=
  ⟨h.1, fun y x e => ⟨fun ht => (h.2 y x e).1 ((hST y x e).mpr ht), fun ht => (h.2 y x e).2 fun hs => ht ((hST y x e).mp hs)⟩⟩

/-! ### override -/

/-- The elevation lets the value of a place with elevation `a` be written at a grid point with elevation `b`. -/
def LevelWith (maxElevDiff : Fl K) (a b : Fl K) : Prop :=
  ¬ Present maxElevDiff ∨ ∃ p q d, a = fin p ∧ b = fin q ∧ maxElevDiff = fin d ∧ p ≠ -999 ∧ q ≠ -999 ∧ |q - p| < d

theorem overrideCell_spec {Y X E : Nat} (maxElevDiff : Fl K) {elevs : List (List (Fl K))} (hel : Rect Y X elevs) (a value : Fl K) {f : FieldC K}
    (hf : Sized Y X E f) {y x e : Nat} (hy : y < Y) (hx : x < X) (he : e < E) :
    ∃ f', overrideCell maxElevDiff elevs a value f (y : Int) (x : Int) e = ok f' ∧
      Writes Y X E value (fun y' x' e' => (y' = y ∧ x' = x ∧ e' = e) ∧ ∀ b, cell? elevs y x = some b → LevelWith maxElevDiff a b) f f' := by
  obtain ⟨f', h1, h2⟩ := writes_set (v := value) hf hy hx he
  obtain ⟨b, hb1, hb2⟩ := vget2_of_rect hel hy hx
  unfold overrideCell
  simp only [Int.toNat_natCast, hb2, ok_bind]
  by_cases hm : Present maxElevDiff
  · rw [isValid_iff_present.mpr hm]
    obtain ⟨d, rfl, hd⟩ := hm
    simp only [Bool.not_true, Bool.false_eq_true, if_false]
    by_cases hl : LevelWith (fin d) a b
    · rcases id hl with hl' | ⟨p, q, d', rfl, rfl, hd', hp, hq, hlt⟩
      · exact absurd ⟨d, rfl, hd⟩ hl'
      · cases hd'
        rw [isValid_iff_present.mpr ⟨q, rfl, hq⟩, isValid_iff_present.mpr ⟨p, rfl, hp⟩, fin_sub]
        simp only [Bool.and_self, Fl.abs, lt_fin, decide_eq_true hlt, if_true]
        refine ⟨f', h1, h2.congr fun y' x' e' => ⟨fun h => ⟨h, fun b hb => ?_⟩, fun h => h.1⟩⟩
        rw [hb1, Option.some.injEq] at hb
        rwa [← hb]
    · have hfalse : (isValid b && isValid a && (Fl.abs (b - a)).lt (fin d)) = false := by
        rw [← Bool.not_eq_true, Bool.and_eq_true, Bool.and_eq_true, isValid_iff_present, isValid_iff_present]
        rintro ⟨⟨⟨q, rfl, hq⟩, ⟨p, rfl, hp⟩⟩, hlt⟩
        rw [fin_sub] at hlt
        simp only [Fl.abs, lt_fin, decide_eq_true_eq] at hlt
        exact hl (Or.inr ⟨p, q, d, rfl, rfl, rfl, hp, hq, hlt⟩)
      rw [hfalse]
      exact ⟨f, rfl, writes_none hf fun y' x' e' h => hl (h.2 b hb1)⟩
  · rw [isValid_false_iff.mpr hm]
    exact ⟨f', h1, h2.congr fun y' x' e' => ⟨fun h => ⟨h, fun b _ => Or.inl hm⟩, fun h => h.1⟩⟩

/-- A place writes at `y`, `x`: it has a value, its nearest grid point `i`, `j` is not at the border, the grid point is in the box around
it and the elevation fits. -/
def Covers (Y X : Nat) (radius : Int) (maxElevDiff : Fl K) (elevs : List (List (Fl K))) (a value : Fl K) (i j : Nat) (y x : Nat) : Prop :=
  Present value ∧ (0 < i ∧ i + 1 < Y ∧ 0 < j ∧ j + 1 < X) ∧ (y < Y ∧ x < X) ∧ |(y : Int) - i| ≤ radius ∧ |(x : Int) - j| ≤ radius ∧
    ∀ b, cell? elevs y x = some b → LevelWith maxElevDiff a b

theorem overridePlace_spec {Y X E : Nat} (radius : Int) (maxElevDiff : Fl K) {elevs : List (List (Fl K))} (hel : Rect Y X elevs) (a value : Fl K)
    (i j : Nat) {f : FieldC K} (hf : Sized Y X E f) :
    ∃ f', overridePlace Y X E radius maxElevDiff elevs a value ((i : Int), (j : Int)) f = ok f' ∧
      Writes Y X E value (fun y x e => e < E ∧ Covers Y X radius maxElevDiff elevs a value i j y x) f f' := by
  unfold overridePlace
  by_cases hc : (isValid value && decide ((i : Int) > 0 ∧ (i : Int) < Y - 1 ∧ (j : Int) > 0 ∧ (j : Int) < X - 1)) = true
  · rw [if_pos hc]
    rw [Bool.and_eq_true, decide_eq_true_eq, isValid_iff_present] at hc
    obtain ⟨f', h1, h2⟩ := foldM_writes (List.range E) (Y := Y) (X := X) (E := E) (v := value)
      (body := fun f (e : Nat) => foldM (fun f (y : Int) => foldM (fun f (x : Int) => overrideCell maxElevDiff elevs a value f y x e) f
        (irange (max 0 ((j : Int) - radius)) (min (X - 1) ((j : Int) + radius)))) f
        (irange (max 0 ((i : Int) - radius)) (min (Y - 1) ((i : Int) + radius))))
      (S := fun e y' x' e' => ∃ y ∈ irange (max 0 ((i : Int) - radius)) (min (Y - 1) ((i : Int) + radius)),
        ∃ x ∈ irange (max 0 ((j : Int) - radius)) (min (X - 1) ((j : Int) + radius)),
          (y' = y.toNat ∧ x' = x.toNat ∧ e' = e) ∧ ∀ b, cell? elevs y.toNat x.toNat = some b → LevelWith maxElevDiff a b) (by
      intro e he f hf
      have he := List.mem_range.mp he
      refine foldM_writes _ ?_ f hf
      intro y hy f hf
      refine foldM_writes _ ?_ f hf
      intro x hx f hf
      rw [mem_irange] at hy hx
      obtain ⟨y, rfl⟩ : ∃ n : Nat, y = n := ⟨y.toNat, by omega⟩
      obtain ⟨x, rfl⟩ : ∃ n : Nat, x = n := ⟨x.toNat, by omega⟩
      simp only [Int.toNat_natCast]
      exact overrideCell_spec maxElevDiff hel a value hf (by omega) (by omega) he) f hf
    refine ⟨f', h1, h2.congr fun y x e => ⟨?_, ?_⟩⟩
    · rintro ⟨e', he', y', hy', x', hx', ⟨rfl, rfl, rfl⟩, hl⟩
      rw [mem_irange] at hy' hx'
      refine ⟨List.mem_range.mp he', hc.1, by omega, by omega, ?_, ?_, hl⟩
      · rw [abs_le]; omega
      · rw [abs_le]; omega
    · rintro ⟨he, -, -, hyx, h3, h4, hl⟩
      rw [abs_le] at h3 h4
      refine ⟨e, List.mem_range.mpr he, (y : Int), mem_irange.mpr (by omega), (x : Int), mem_irange.mpr (by omega), ⟨by simp, by simp, rfl⟩, ?_⟩
      simpa using hl
  · rw [if_neg hc]
    refine ⟨f, rfl, writes_none hf ?_⟩
    rintro y x e ⟨-, h1, h2, -⟩
    refine hc ?_
    rw [isValid_iff_present.mpr h1, Bool.true_and, decide_eq_true_eq]
    omega

/-- All places: the last place that writes at a grid point gives its value. -/
theorem overrideField_spec {Y X E : Nat} (radius : Int) (maxElevDiff : Fl K) {elevs : List (List (Fl K))} (hel : Rect Y X elevs)
    (pars : Loc K → Pars K) (places : List (Loc K × (Nat × Nat))) (hpar : ∀ p ∈ places, pars p.1 ≠ []) (f : FieldC K) (hf : Sized Y X E f) :
    ∃ f', overrideField Y X E radius maxElevDiff elevs pars (places.map fun p => (p.1, ((p.2.1 : Int), (p.2.2 : Int)))) f = ok f' ∧
      Sized Y X E f' ∧ ∀ y x e, e < E →
        ((∀ p ∈ places, ¬ Covers Y X radius maxElevDiff elevs p.1.elev ((pars p.1).headD MV) p.2.1 p.2.2 y x) → f'.get y x e = f.get y x e) ∧
        ∀ before p after, places = before ++ p :: after →
          Covers Y X radius maxElevDiff elevs p.1.elev ((pars p.1).headD MV) p.2.1 p.2.2 y x →
          (∀ p' ∈ after, ¬ Covers Y X radius maxElevDiff elevs p'.1.elev ((pars p'.1).headD MV) p'.2.1 p'.2.2 y x) →
          f'.get y x e = ok ((pars p.1).headD MV) := by
  unfold overrideField
  induction places generalizing f with
  | nil => exact ⟨f, rfl, hf, fun y x e he => ⟨fun _ => rfl, fun before p after h => by simp at h⟩⟩
  | cons p places ih =>
    have hp : parAt (pars p.1) 0 = ok ((pars p.1).headD MV) := by
      have := hpar p (by simp)
      cases hq : pars p.1 with
      | nil => exact absurd hq this
      | cons a t => rfl
    obtain ⟨f1, h1, h2, h3⟩ := overridePlace_spec radius maxElevDiff hel p.1.elev ((pars p.1).headD MV) p.2.1 p.2.2 hf
    obtain ⟨f2, g1, g2, g3⟩ := ih (fun q hq => hpar q (by simp [hq])) f1 h2
    refine ⟨f2, ?_, g2, fun y x e he => ⟨?_, ?_⟩⟩
    · rw [List.map_cons, foldM_cons]
      simp only [hp, ok_bind, h1]
      exact g1
    · intro hnone
      rw [(g3 y x e he).1 fun q hq => hnone q (by simp [hq]), (h3 y x e).2 fun h => hnone p (by simp) h.2]
    · intro before q after hsplit hcov hafter
      cases before with
      | nil =>
        simp only [List.nil_append, List.cons.injEq] at hsplit
        obtain ⟨rfl, rfl⟩ := hsplit
        rw [(g3 y x e he).1 hafter, (h3 y x e).1 ⟨he, hcov⟩]
      | cons b before =>
        simp only [List.cons_append, List.cons.injEq] at hsplit
        exact (g3 y x e he).2 before q after hsplit.2 hcov hafter

/-! ### mask -/

theorem maskPoint_spec [HasArcC K] (hpos : ∀ a b c d : K, 0 ≤ HasArcC.arc a b c d) (pars : Loc K → Pars K) {a b : K} (hq : OnGlobe a b)
    (locs : List (Loc K)) (hloc : ∀ l ∈ locs, OnGlobe l.lat l.lon) (hpar : ∀ l ∈ locs, pars l ≠ []) (within : Bool) :
    ∃ r, maskPoint (fin a) (fin b) pars locs within = ok r ∧
      (r = true ↔ within = true ∨ ∃ l ∈ locs, (fin (gap a b l.lat l.lon)).lt ((pars l).headD MV) = true) := by
  induction locs generalizing within with
  | nil => exact ⟨within, rfl, by simp⟩
  | cons l locs ih =>
    have hp : parAt (pars l) 0 = ok ((pars l).headD MV) := by
      have := hpar l (by simp)
      cases hq : pars l with
      | nil => exact absurd hq this
      | cons a t => rfl
    obtain ⟨r, h1, h2⟩ := ih (fun l hl => hloc l (by simp [hl])) (fun l hl => hpar l (by simp [hl]))
      (within || (fin (gap a b l.lat l.lon)).lt ((pars l).headD MV))
    refine ⟨r, ?_, ?_⟩
    · rw [maskPoint, getDistance_ok hq (hloc l (by simp)), ok_bind, if_pos (isValid_of_nonneg (gap_nonneg hpos _ _ _ _)), hp, ok_bind, h1]
    · rw [h2, Bool.or_eq_true]
      simp [or_assoc]

/-- Without coordinates no place is near. -/
theorem maskPoint_missing [HasArcC K] (pars : Loc K → Pars K) {lat lon : Fl K} (h : ¬ (Present lat ∧ Present lon)) (locs : List (Loc K))
    (within : Bool) : maskPoint lat lon pars locs within = ok within := by
  induction locs with
  | nil => rfl
  | cons l locs ih =>
    have hd : getDistance lat lon (fin l.lat) (fin l.lon) = ok MV := by
      unfold getDistance
      rw [if_pos]
      rw [← isValid_iff_present, ← isValid_iff_present, not_and_or, Bool.not_eq_true, Bool.not_eq_true] at h
      rcases h with h | h <;> simp [h]
    rw [maskPoint, hd, ok_bind, isValid_MV]
    exact ih

theorem maskField_spec {Y X E : Nat} (keep : Bool) {within : List (List Bool)} (hw : Rect Y X within) (f : FieldC K) (hf : Sized Y X E f) :
    ∃ f', maskField Y X E keep within f = ok f' ∧ Sized Y X E f' ∧ ∀ y < Y, ∀ x < X, ∀ e < E, ∀ b, cell? within y x = some b →
      f'.get y x e = if keep = b then f.get y x e else ok MV := by
  unfold maskField
  obtain ⟨f', h1, h2, h3⟩ := forCells_spec (Y := Y) (X := X) (E := E) (fun f y x => do
      let inside ← vget2 within (y : Int) (x : Int)
      if keep != inside then foldM (fun f e => f.set y x e MV) f (List.range E) else ok f)
    (fun y x u v => ∀ e < E, ∀ b, cell? within y x = some b → v e = if keep = b then u e else ok MV) (by
      intro f hf y hy x hx
      obtain ⟨b, hb1, hb2⟩ := vget2_of_rect hw hy hx
      simp only [hb2, ok_bind]
      by_cases hkb : keep = b
      · subst hkb
        simp only [bne_self_eq_false, Bool.false_eq_true, if_false]
        refine ⟨f, rfl, hf, fun e he b hb => ?_, fun _ _ _ => rfl⟩
        rw [hb1, Option.some.injEq] at hb
        rw [if_pos hb]
      · rw [if_pos (by simpa using hkb)]
        obtain ⟨f', g1, g2, g3, -, g5⟩ := forMembers_spec (Y := Y) (X := X) (E := E) y x E (fun f e => f.set y x e MV) (fun _ _ v => v = ok MV) (by
          intro f hf e he
          exact hf.set hy hx he MV) f hf
        refine ⟨f', g1, g2, fun e he b' hb' => ?_, g5⟩
        rw [hb1, Option.some.injEq] at hb'
        rw [if_neg (by rw [← hb']; exact hkb)]
        exact g3 e he) f hf
  exact ⟨f', h1, h2, fun y hy x hx e he b hb => h3 y hy x hx e he b hb⟩

end Gridpp.Client
