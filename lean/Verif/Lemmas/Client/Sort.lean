import Verif.Lemmas.Client.Series
import Verif.Lemmas.Quantile
import Verif.Spec.Client

/-! # Sorting members -/

set_option linter.unusedSectionVars false

namespace Gridpp.Client
open Fl hiding MV isValid
open Res Spec

variable {K : Type} [Field K] [LinearOrder K] [IsStrictOrderedRing K]

theorem filter_isValid_eq (l : List (Fl K)) : l.filter isValid = (present l).map fin := by
  induction l with
  | nil => rfl
  | cons v t ih =>
    cases v with
    | fin q =>
      by_cases hq : q = -999
      · simpa [present, isValid, hq] using ih
      · simpa [present, isValid, hq] using ih
    | _ => simpa [present, isValid] using ih

theorem present_perm {a b : List (Fl K)} (h : a.Perm b) : (present a).Perm (present b) := (vals_perm h).filter _

theorem present_map_fin (l : List K) (h : ∀ q ∈ l, q ≠ -999) : present (l.map fin) = l := by
  unfold present
  rw [vals_map_fin, List.filter_eq_self]
  simpa using h

theorem mem_present {l : List (Fl K)} {q : K} : q ∈ present l ↔ fin q ∈ l ∧ q ≠ -999 := by
  simp [present, mem_vals]

theorem present_append (a b : List (Fl K)) : present (a ++ b) = present a ++ present b := by
  simp [present, vals_append]

theorem present_replicate_MV (n : Nat) : present (List.replicate n (MV : Fl K)) = [] := by
  induction n with
  | zero => rfl
  | succ n ih => rw [List.replicate_succ]; simpa [present, MV] using ih

theorem length_present_le (l : List (Fl K)) : (present l).length ≤ l.length := by
  have := congrArg List.length (filter_isValid_eq l)
  rw [List.length_map] at this
  rw [← this]
  exact List.length_filter_le _ _

/-- The order of C++ on values that are not NaN. -/
def toExt : Fl K → WithBot (WithTop K)
  | nan => ⊥
  | ninf => ⊥
  | fin q => ((q : WithTop K) : WithBot (WithTop K))
  | pinf => ((⊤ : WithTop K) : WithBot (WithTop K))

theorem le_iff_toExt {a b : Fl K} (ha : a ≠ nan) (hb : b ≠ nan) : a.le b = true ↔ toExt a ≤ toExt b := by
  cases a <;> cases b <;> first | (simp_all [toExt]; done) | simp_all [toExt, Fl.le, Fl.lt, Fl.feq]

/-- The valid values of a sorted list of members, in order. -/
theorem stdSort_present (l : List (Fl K)) (h : ∀ v ∈ l, v ≠ nan) :
    ∃ s, stdSort l = ok s ∧ s.length = l.length ∧ (present s).Perm (present l) ∧ (present s).Pairwise (· ≤ ·) := by
  have hn : l.any Fl.isNan = false := by
    rw [List.any_eq_false]
    intro v hv
    have := h v hv
    cases v <;> simp_all [Fl.isNan]
  refine ⟨l.insertionSort (fun a b => Fl.le a b = true), by simp [stdSort, hn], List.length_insertionSort _ _,
    present_perm (List.perm_insertionSort _ _), ?_⟩
  have h1 : (l.insertionSort fun a b => Fl.le a b = true).map toExt = (l.map toExt).insertionSort (· ≤ ·) :=
    List.map_insertionSort (r := fun a b => Fl.le a b = true) (s := (· ≤ ·)) toExt l
      (fun a ha b hb => le_iff_toExt (h a ha) (h b hb))
  have h2 : ((l.map toExt).insertionSort (· ≤ ·)).Pairwise (· ≤ ·) := List.pairwise_insertionSort _ _
  rw [← h1, List.pairwise_map] at h2
  have h3 := h2.sublist (List.filter_sublist (p := isValid))
  rw [filter_isValid_eq, List.pairwise_map] at h3
  refine h3.imp ?_
  intro a b hab
  simpa [toExt] using hab

theorem stdSort_nan (l : List (Fl K)) (h : nan ∈ l) : stdSort l = .ub := by
  have : l.any Fl.isNan = true := List.any_eq_true.mpr ⟨nan, h, rfl⟩
  simp [stdSort, this]

/-- A loop over distinct keys in which an iteration cannot complete from some values at its key. -/
theorem foldM_cells_ub {S ι V : Type} (WF : S → Prop) (get : S → ι → V) (body : S → ι → Res S) (Bad : ι → V → Prop) (l : List ι)
    (hnd : l.Nodup) (hbad : ∀ s, WF s → ∀ i ∈ l, Bad i (get s i) → body s i = .ub)
    (hok : ∀ s, WF s → ∀ i ∈ l, ¬ Bad i (get s i) → ∃ s', body s i = ok s' ∧ WF s' ∧ ∀ j, j ≠ i → get s' j = get s j)
    (s : S) (hs : WF s) (h : ∃ i ∈ l, Bad i (get s i)) : foldM body s l = .ub := by
  induction l generalizing s with
  | nil => simp at h
  | cons i t ih =>
    rw [foldM_cons]
    by_cases hi : Bad i (get s i)
    · rw [hbad s hs i (by simp) hi]; rfl
    · obtain ⟨s', h1, h2, h3⟩ := hok s hs i (by simp) hi
      rw [h1, ok_bind]
      refine ih (List.nodup_cons.mp hnd).2 (fun s hs j hj => hbad s hs j (by simp [hj])) (fun s hs j hj => hok s hs j (by simp [hj])) s' h2 ?_
      obtain ⟨j, hj, hb⟩ := h
      rcases List.mem_cons.mp hj with rfl | hj'
      · exact absurd hb hi
      · refine ⟨j, hj', ?_⟩
        rw [h3 j (fun hc => (List.nodup_cons.mp hnd).1 (hc ▸ hj'))]
        exact hb

/-- If no iteration meets such values, the loop completes. -/
theorem foldM_cells_ok {S ι V : Type} (WF : S → Prop) (get : S → ι → V) (body : S → ι → Res S) (Bad : ι → V → Prop) (l : List ι)
    (hnd : l.Nodup)
    (hok : ∀ s, WF s → ∀ i ∈ l, ¬ Bad i (get s i) → ∃ s', body s i = ok s' ∧ WF s' ∧ ∀ j, j ≠ i → get s' j = get s j)
    (s : S) (hs : WF s) (h : ∀ i ∈ l, ¬ Bad i (get s i)) : ∃ s', foldM body s l = ok s' ∧ WF s' := by
  induction l generalizing s with
  | nil => exact ⟨s, rfl, hs⟩
  | cons i t ih =>
    rw [foldM_cons]
    obtain ⟨s', h1, h2, h3⟩ := hok s hs i (by simp) (h i (by simp))
    rw [h1, ok_bind]
    refine ih (List.nodup_cons.mp hnd).2 (fun s hs j hj => hok s hs j (by simp [hj])) s' h2 ?_
    intro j hj
    rw [h3 j (fun hc => (List.nodup_cons.mp hnd).1 (hc ▸ hj))]
    exact h j (by simp [hj])

/-- A loop over distinct keys whose iterations complete from the values they start with. -/
theorem foldM_cells_pre {S ι V : Type} (WF : S → Prop) (get : S → ι → V) (body : S → ι → Res S) (Pre : ι → V → Prop)
    (P : ι → V → V → Prop) (l : List ι) (hnd : l.Nodup)
    (hb : ∀ s, WF s → ∀ i ∈ l, Pre i (get s i) →
      ∃ s', body s i = ok s' ∧ WF s' ∧ P i (get s i) (get s' i) ∧ ∀ j, j ≠ i → get s' j = get s j)
    (s : S) (hs : WF s) (hp : ∀ i ∈ l, Pre i (get s i)) :
    ∃ s', foldM body s l = ok s' ∧ WF s' ∧ (∀ i ∈ l, P i (get s i) (get s' i)) ∧ ∀ j, j ∉ l → get s' j = get s j := by
  induction l generalizing s with
  | nil => exact ⟨s, rfl, hs, by simp, by simp⟩
  | cons i t ih =>
    obtain ⟨s1, h1, h2, h3, h4⟩ := hb s hs i (by simp) (hp i (by simp))
    have hi : i ∉ t := (List.nodup_cons.mp hnd).1
    obtain ⟨s2, g1, g2, g3, g4⟩ := ih (List.nodup_cons.mp hnd).2 (fun s hs j hj => hb s hs j (by simp [hj])) s1 h2 (fun j hj => by
      rw [h4 j (fun hc => hi (hc ▸ hj))]
      exact hp j (by simp [hj]))
    refine ⟨s2, by rw [foldM_cons, h1, ok_bind, g1], g2, fun j hj => ?_, fun j hj => ?_⟩
    · rcases List.mem_cons.mp hj with rfl | hj'
      · rw [g4 j hi]; exact h3
      · have := g3 j hj'
        rwa [h4 j (fun hc => hi (hc ▸ hj'))] at this
    · rw [List.mem_cons, not_or] at hj
      rw [g4 j hj.2, h4 j hj.1]

theorem forCells_pre {Y X E : Nat} (body : FieldC K → Nat → Nat → Res (FieldC K)) (Pre : Nat → Nat → (Nat → Res (Fl K)) → Prop)
    (P : Nat → Nat → (Nat → Res (Fl K)) → (Nat → Res (Fl K)) → Prop)
    (hb : ∀ f, Sized Y X E f → ∀ y < Y, ∀ x < X, Pre y x (f.get y x) → ∃ f', body f y x = ok f' ∧ Sized Y X E f' ∧
      P y x (f.get y x) (f'.get y x) ∧ ∀ y' x', ¬ (y' = y ∧ x' = x) → f'.get y' x' = f.get y' x')
    (f : FieldC K) (hf : Sized Y X E f) (hp : ∀ y < Y, ∀ x < X, Pre y x (f.get y x)) :
    ∃ out, FieldC.forCells Y X body f = ok out ∧ Sized Y X E out ∧ ∀ y < Y, ∀ x < X, P y x (f.get y x) (out.get y x) := by
  have hrow : ∀ f, Sized Y X E f → ∀ y ∈ List.range Y, (∀ x < X, Pre y x (f.get y x)) →
      ∃ f', foldM (fun f x => body f y x) f (List.range X) = ok f' ∧ Sized Y X E f' ∧
      (∀ x < X, P y x (f.get y x) (f'.get y x)) ∧ ∀ y', y' ≠ y → f'.get y' = f.get y' := by
    intro f hf y hy hp
    have hy := List.mem_range.mp hy
    obtain ⟨f', h1, ⟨h2, h5⟩, h3, -⟩ := foldM_cells_pre (fun s => Sized Y X E s ∧ ∀ y', y' ≠ y → s.get y' = f.get y') (fun s x => s.get y x)
      (fun f x => body f y x) (fun x u => Pre y x u) (fun x u v => P y x u v) (List.range X) List.nodup_range (by
        intro s ⟨hs, hs'⟩ x hx hpx
        obtain ⟨s', h1, h2, h3, h4⟩ := hb s hs y hy x (List.mem_range.mp hx) hpx
        exact ⟨s', h1, ⟨h2, fun y' hy' => by
          rw [← hs' y' hy']; funext x'; exact h4 y' x' (by simp [hy'])⟩, h3, fun j hj => h4 y j (by simp [hj])⟩) f ⟨hf, fun _ _ => rfl⟩
      (fun x hx => hp x (List.mem_range.mp hx))
    exact ⟨f', h1, h2, fun x hx => h3 x (List.mem_range.mpr hx), h5⟩
  obtain ⟨out, h1, h2, h3, -⟩ := foldM_cells_pre (Sized Y X E) (fun s y => s.get y)
    (fun f y => foldM (fun f x => body f y x) f (List.range X)) (fun y u => ∀ x < X, Pre y x (u x))
    (fun y u v => ∀ x < X, P y x (u x) (v x)) (List.range Y) List.nodup_range
    (fun s hs y hy => hrow s hs y hy) f hf (fun y hy => hp y (List.mem_range.mp hy))
  exact ⟨out, h1, h2, fun y hy x hx => h3 y (List.mem_range.mpr hy) x hx⟩

theorem forCells_ub {Y X E : Nat} (body : FieldC K → Nat → Nat → Res (FieldC K)) (Bad : Nat → Nat → (Nat → Res (Fl K)) → Prop)
    (hbad : ∀ f, Sized Y X E f → ∀ y < Y, ∀ x < X, Bad y x (f.get y x) → body f y x = .ub)
    (hok : ∀ f, Sized Y X E f → ∀ y < Y, ∀ x < X, ¬ Bad y x (f.get y x) → ∃ f', body f y x = ok f' ∧ Sized Y X E f' ∧
      ∀ y' x', ¬ (y' = y ∧ x' = x) → f'.get y' x' = f.get y' x')
    (f : FieldC K) (hf : Sized Y X E f) (h : ∃ y < Y, ∃ x < X, Bad y x (f.get y x)) : FieldC.forCells Y X body f = .ub := by
  unfold FieldC.forCells
  refine foldM_cells_ub (Sized Y X E) (fun s y => s.get y) _ (fun y u => ∃ x < X, Bad y x (u x)) (List.range Y) List.nodup_range
    ?_ ?_ f hf ?_
  · intro s hs y hy ⟨x, hx, hB⟩
    have hy := List.mem_range.mp hy
    refine foldM_cells_ub (Sized Y X E) (fun s x => s.get y x) _ (fun x u => Bad y x u) (List.range X) List.nodup_range ?_ ?_ s hs
      ⟨x, List.mem_range.mpr hx, hB⟩
    · intro s hs x hx hB
      exact hbad s hs y hy x (List.mem_range.mp hx) hB
    · intro s hs x hx hB
      obtain ⟨s', h1, h2, h3⟩ := hok s hs y hy x (List.mem_range.mp hx) hB
      exact ⟨s', h1, h2, fun j hj => h3 y j (by simp [hj])⟩
  · intro s hs y hy hB
    have hy := List.mem_range.mp hy
    obtain ⟨s', h1, h2, h2'⟩ := foldM_cells_ok (fun s' => Sized Y X E s' ∧ ∀ y', y' ≠ y → s'.get y' = s.get y')
      (fun s x => s.get y x) (fun f x => body f y x) (fun x u => Bad y x u) (List.range X) List.nodup_range (by
        intro s1 ⟨hs1, hs2⟩ x hx hB
        obtain ⟨s', h1, h2, h3⟩ := hok s1 hs1 y hy x (List.mem_range.mp hx) hB
        refine ⟨s', h1, ⟨h2, fun y' hy' => ?_⟩, fun j hj => h3 y j (by simp [hj])⟩
        rw [← hs2 y' hy']
        funext x'
        exact h3 y' x' (by simp [hy'])) s ⟨hs, fun _ _ => rfl⟩ (fun x hx hc => hB ⟨x, List.mem_range.mp hx, hc⟩)
    exact ⟨s', h1, h2, h2'⟩
  · obtain ⟨y, hy, x, hx, hB⟩ := h
    exact ⟨y, List.mem_range.mpr hy, x, hx, hB⟩

end Gridpp.Client
