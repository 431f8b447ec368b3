import Verif.Model.Client.Coastal
import Verif.Spec.ClientCoastal
import Verif.Lemmas.Client.Series
import Verif.Lemmas.Client.Stencil

/-! # Lemmas about the coastal correction -/

set_option linter.unusedSectionVars false

namespace Gridpp.Client
open Fl hiding MV isValid
open Res

/-- Places are changed one after the other, each by a rule that looks at the whole state: at its turn, those before it have their final
values and the others their first ones. -/
theorem foldM_sequential {S ι V : Type} [DecidableEq ι] (WF : S → Prop) (get : S → ι → V) (body : S → ι → Res S) (P : ι → (ι → V) → V → Prop)
    (l : List ι) (hnd : l.Nodup)
    (hb : ∀ s s' i, WF s → i ∈ l → body s i = ok s' → WF s' ∧ P i (get s) (get s' i) ∧ ∀ j, j ≠ i → get s' j = get s j)
    (s s' : S) (hs : WF s) (h : foldM body s l = ok s') :
    WF s' ∧ (∀ pre i post, l = pre ++ i :: post → P i (fun j => if j ∈ pre then get s' j else get s j) (get s' i)) ∧
      ∀ j, j ∉ l → get s' j = get s j := by
  induction l generalizing s with
  | nil =>
    simp only [foldM_nil, Res.ok.injEq] at h
    subst h
    exact ⟨hs, by simp, fun _ _ => rfl⟩
  | cons i t ih =>
    rw [foldM_cons, bind_eq_ok] at h
    obtain ⟨s1, h1, h2⟩ := h
    obtain ⟨hi, ht⟩ := List.nodup_cons.mp hnd
    obtain ⟨w1, p1, f1⟩ := hb s s1 i hs (by simp) h1
    obtain ⟨w2, p2, f2⟩ := ih ht (fun s s' j hw hj => hb s s' j hw (by simp [hj])) s1 w1 h2
    refine ⟨w2, ?_, ?_⟩
    · intro pre k post hk
      cases pre with
      | nil =>
        simp only [List.nil_append, List.cons.injEq] at hk
        obtain ⟨rfl, rfl⟩ := hk
        rw [f2 i hi]
        simpa using p1
      | cons a pre =>
        simp only [List.cons_append, List.cons.injEq] at hk
        obtain ⟨rfl, rfl⟩ := hk
        have := p2 pre k post rfl
        convert this using 2 with j
        by_cases hj : j = i
        · subst hj
          rw [if_pos (by simp)]
          split_ifs
          · rfl
          · exact f2 j hi
        · simp only [List.mem_cons, hj, false_or]
          split_ifs
          · rfl
          · exact (f1 j hj).symm
    · intro j hj
      simp only [List.mem_cons, not_or] at hj
      rw [f2 j hj.2, f1 j hj.1]

theorem foldM_flatMap {α β γ : Type} (f : β → γ → Res β) (g : α → List γ) (l : List α) (b : β) :
    foldM (fun b a => foldM f b (g a)) b l = foldM f b (l.flatMap g) := by
  induction l generalizing b with
  | nil => rfl
  | cons a t ih =>
    rw [List.flatMap_cons, foldM_append, foldM_cons]
    cases foldM f b (g a) with
    | ok b' => simp only [ok_bind]; exact ih b'
    | _ => rfl

theorem foldM_map' {α β γ : Type} (f : β → γ → Res β) (g : α → γ) (l : List α) (b : β) :
    foldM f b (l.map g) = foldM (fun b a => f b (g a)) b l := by
  induction l generalizing b with
  | nil => rfl
  | cons a t ih =>
    rw [List.map_cons, foldM_cons, foldM_cons]
    cases f b (g a) with
    | ok b' => simp only [ok_bind]; exact ih b'
    | _ => rfl

variable {K : Type} [Field K] [LinearOrder K] [IsStrictOrderedRing K]

/-- The point that a search for the smallest `L` ends with. -/
def pick {P : Type} (L : P → K) (p : P) (t : List P) : P := t.foldl (fun p a => if L a < L p then a else p) p

theorem pick_spec {P : Type} (R : P → P → Prop) (L : P → K) (t : List P) : ∀ p, (∀ r ∈ t, R p r) → t.Pairwise R →
    (pick L p t = p ∨ pick L p t ∈ t) ∧ (L (pick L p t) < L p ∨ pick L p t = p) ∧
    ∀ r ∈ t, L (pick L p t) < L r ∨ (L (pick L p t) = L r ∧ (pick L p t = r ∨ R (pick L p t) r)) := by
  induction t with
  | nil => intro p _ _; simp [pick]
  | cons a t ih =>
    intro p hp hR
    rw [List.pairwise_cons] at hR
    by_cases h : L a < L p
    · have e : pick L p (a :: t) = pick L a t := by simp [pick, h]
      rw [e]
      obtain ⟨h1, h2, h3⟩ := ih a hR.1 hR.2
      refine ⟨Or.inr ?_, Or.inl ?_, ?_⟩
      · rcases h1 with h1 | h1 <;> simp [h1]
      · rcases h2 with h2 | h2
        · exact h2.trans h
        · rw [h2]; exact h
      · intro r hr
        rcases List.mem_cons.mp hr with rfl | hr
        · rcases h2 with h2 | h2
          · exact Or.inl h2
          · exact Or.inr ⟨by rw [h2], Or.inl h2⟩
        · exact h3 r hr
    · have e : pick L p (a :: t) = pick L p t := by simp [pick, h]
      rw [e]
      push Not at h
      obtain ⟨h1, h2, h3⟩ := ih p (fun r hr => hp r (by simp [hr])) hR.2
      refine ⟨?_, h2, ?_⟩
      · rcases h1 with h1 | h1
        · exact Or.inl h1
        · exact Or.inr (by simp [h1])
      · intro r hr
        rcases List.mem_cons.mp hr with rfl | hr
        · rcases h2 with h2 | h2
          · exact Or.inl (h2.trans_le h)
          · rw [h2]
            rcases h.lt_or_eq with h | h
            · exact Or.inl h
            · exact Or.inr ⟨h, Or.inr (hp r (by simp))⟩
        · exact h3 r hr

theorem coast_foldl {P : Type} (L v : P → K) (t : List P) : ∀ p q,
    t.foldl (fun s a => coastUpdate s (fin (L a)) (fin (v a))) ⟨fin (v p), fin (v q), fin (L p), fin (L q)⟩ =
      ⟨fin (v (pick L p t)), fin (v (pick (fun a => -L a) q t)), fin (L (pick L p t)), fin (L (pick (fun a => -L a) q t))⟩ := by
  induction t with
  | nil => intro p q; rfl
  | cons a t ih =>
    intro p q
    have h : coastUpdate ⟨fin (v p), fin (v q), fin (L p), fin (L q)⟩ (fin (L a)) (fin (v a)) =
        ⟨fin (v (if L a < L p then a else p)), fin (v (if -L a < -L q then a else q)), fin (L (if L a < L p then a else p)),
          fin (L (if -L a < -L q then a else q))⟩ := by
      unfold coastUpdate
      simp only [lt_fin, decide_eq_true_eq, neg_lt_neg_iff]
      split_ifs <;> simp_all
    rw [List.foldl_cons, h, ih]
    rfl

theorem irange_pairwise (lo hi : Int) : (irange lo hi).Pairwise (· < ·) := by
  unfold irange
  rw [List.pairwise_map]
  refine List.pairwise_lt_range.imp ?_
  intro a b h
  omega

theorem stencil_pairwise (nY nX : Nat) (radius : Int) (c : Int × Int) :
    (stencil nY nX radius c).Pairwise fun p q => p.1 < q.1 ∨ (p.1 = q.1 ∧ p.2 < q.2) := by
  unfold stencil
  rw [List.pairwise_flatMap]
  refine ⟨fun a _ => ?_, ?_⟩
  · rw [List.pairwise_map]
    exact (irange_pairwise _ _).imp fun h => Or.inr ⟨rfl, h⟩
  · refine (irange_pairwise _ _).imp ?_
    intro a b h p hp q hq
    simp only [List.mem_map] at hp hq
    obtain ⟨_, _, rfl⟩ := hp
    obtain ⟨_, _, rfl⟩ := hq
    exact Or.inl h

theorem firstLeast_pick {Y X : Nat} {r : Int} {y x : Nat} {L : Nat → Nat → K} {p0 : Int × Int} {t : List (Int × Int)}
    (hst : stencil Y X r ((y : Int), (x : Int)) = p0 :: t) :
    let p := pick (fun q : Int × Int => L q.1.toNat q.2.toNat) p0 t
    p ∈ p0 :: t ∧ Spec.FirstLeast Y X r y x L p.1.toNat p.2.toNat := by
  have hpw := stencil_pairwise Y X r ((y : Int), (x : Int))
  rw [hst, List.pairwise_cons] at hpw
  obtain ⟨h1, h2, h3⟩ := pick_spec (fun p q : Int × Int => p.1 < q.1 ∨ (p.1 = q.1 ∧ p.2 < q.2)) (fun q : Int × Int => L q.1.toNat q.2.toNat) t p0
    hpw.1 hpw.2
  intro p
  have hmem : p ∈ p0 :: t := by
    rcases h1 with h1 | h1
    · exact List.mem_cons.mpr (Or.inl h1)
    · exact List.mem_cons.mpr (Or.inr h1)
  have hp := hmem
  rw [← hst, within_iff] at hp
  refine ⟨hmem, ⟨by omega, by omega, ?_, ?_⟩, ?_⟩
  · rw [Int.toNat_of_nonneg hp.1]; exact hp.2.2.2.2.1
  · rw [Int.toNat_of_nonneg hp.2.2.1]; exact hp.2.2.2.2.2
  · rintro k l ⟨hk, hl, hk', hl'⟩
    have hq : ((k : Int), (l : Int)) ∈ p0 :: t := by
      rw [← hst, within_iff]
      exact ⟨by simp, by simpa using hk, by simp, by simpa using hl, hk', hl'⟩
    have key : L p.1.toNat p.2.toNat < L k l ∨ (L p.1.toNat p.2.toNat = L k l ∧ (p = ((k : Int), (l : Int)) ∨
        (p.1 < (k : Int) ∨ (p.1 = (k : Int) ∧ p.2 < (l : Int))))) := by
      rcases List.mem_cons.mp hq with hq | hq
      · rcases h2 with h2 | h2
        · left
          have h2' : L p.1.toNat p.2.toNat < L p0.1.toNat p0.2.toNat := h2
          rw [← hq] at h2'
          simpa using h2'
        · right
          have h2' : p = p0 := h2
          rw [← hq] at h2'
          exact ⟨by rw [h2']; simp, Or.inl h2'⟩
      · have := h3 _ hq
        simpa using this
    rcases key with h | ⟨h, h'⟩
    · exact Or.inl h
    · refine Or.inr ⟨h, ?_⟩
      unfold Spec.RowOrder
      rcases h' with h' | h' | h'
      · rw [h']; simp
      · left; omega
      · right; omega

theorem coastLoop_ok {Y X E : Nat} {r : Int} (hr : 0 ≤ r) {lafs : List (List (Fl K))} (hl : Rect Y X lafs) {L : Nat → Nat → K}
    (hL : ∀ i < Y, ∀ j < X, cell? lafs i j = some (fin (L i j)) ∧ 0 ≤ L i j ∧ L i j ≤ 1) {f : FieldC K} (hf : Sized Y X E f) {e : Nat}
    (he : e < E) {v : Nat → Nat → K} (hv : ∀ i < Y, ∀ j < X, f.get i j e = ok (fin (v i j))) {y x : Nat} (hy : y < Y) (hx : x < X) :
    ∃ i j k l, Spec.FirstLeast Y X r y x L i j ∧ Spec.FirstLeast Y X r y x (fun k l => -L k l) k l ∧
      coastLoop Y X r lafs f e ((y : Int), (x : Int)) = ok ⟨fin (v i j), fin (v k l), fin (L i j), fin (L k l)⟩ := by
  have hself : ((y : Int), (x : Int)) ∈ stencil Y X r ((y : Int), (x : Int)) := by
    rw [within_iff]
    simp [hy, hx, hr]
  obtain ⟨p0, t, hst⟩ := List.exists_cons_of_ne_nil (List.ne_nil_of_mem hself)
  have hloop : coastLoop Y X r lafs f e ((y : Int), (x : Int)) = ok ((p0 :: t).foldl
      (fun s (a : Int × Int) => coastUpdate s (fin (L a.1.toNat a.2.toNat)) (fin (v a.1.toNat a.2.toNat))) ⟨MV, MV, fin 2, fin (-1)⟩) := by
    unfold coastLoop
    rw [hst]
    apply foldM_ok
    intro s p hp
    rw [← hst, within_iff] at hp
    obtain ⟨i, hi⟩ := Int.eq_ofNat_of_zero_le hp.1
    obtain ⟨j, hj⟩ := Int.eq_ofNat_of_zero_le hp.2.2.1
    have hi' : i < Y := by omega
    have hj' : j < X := by omega
    obtain ⟨u, hu, hu'⟩ := vget2_of_rect hl hi' hj'
    obtain ⟨w, hw, hw'⟩ := getInt_nat hf hi' hj' he
    rw [(hL i hi' j hj').1, Option.some.injEq] at hu
    rw [hv i hi' j hj', Res.ok.injEq] at hw'
    rw [hi, hj, hu', ok_bind, hw, ok_bind, ← hu, ← hw']
    simp
  have hp0 : p0 ∈ stencil Y X r ((y : Int), (x : Int)) := by rw [hst]; simp
  rw [within_iff] at hp0
  have hb := (hL p0.1.toNat (by omega) p0.2.toNat (by omega)).2
  have hfirst : coastUpdate ⟨MV, MV, fin 2, fin (-1)⟩ (fin (L p0.1.toNat p0.2.toNat)) (fin (v p0.1.toNat p0.2.toNat)) =
      (⟨fin (v p0.1.toNat p0.2.toNat), fin (v p0.1.toNat p0.2.toNat), fin (L p0.1.toNat p0.2.toNat), fin (L p0.1.toNat p0.2.toNat)⟩ : CoastState K) := by
    unfold coastUpdate
    have h1 : L p0.1.toNat p0.2.toNat < 2 := by linarith
    have h2 : -1 < L p0.1.toNat p0.2.toNat := by linarith
    simp [lt_fin, gt_fin, h1, h2]
  rw [List.foldl_cons, hfirst, coast_foldl (fun a : Int × Int => L a.1.toNat a.2.toNat) (fun a : Int × Int => v a.1.toNat a.2.toNat)] at hloop
  have m1 := (firstLeast_pick (L := L) hst).2
  have m2 := (firstLeast_pick (L := fun k l => -L k l) hst).2
  exact ⟨_, _, _, _, m1, m2, hloop⟩

end Gridpp.Client
