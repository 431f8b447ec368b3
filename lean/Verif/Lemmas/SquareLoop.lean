import Verif.Lemmas.Neighbourhood2

/-! Loops over the clipped square around a cell, as loops over a list of positions. -/

set_option linter.unusedSectionVars false

namespace Gridpp
open Fl Res Spec

/-- The field of positions. -/
def positions (Y X : Nat) : List (List (Nat × Nat)) := tabulate Y X fun y x => (y, x)

theorem mem_positions {Y X hw y x : Nat} {p : Nat × Nat} :
    p ∈ square (positions Y X) hw y x ↔ p.1 < Y ∧ p.2 < X ∧ y - hw ≤ p.1 ∧ p.1 ≤ y + hw ∧ x - hw ≤ p.2 ∧ p.2 ≤ x + hw := by
  rw [mem_square]
  constructor
  · rintro ⟨i, j, h1, h2, h3, h4, h5⟩
    have hi : i < Y ∧ j < X := by
      by_contra hc
      unfold cell? positions tabulate at h5
      rw [List.getElem?_map] at h5
      by_cases hy : i < Y
      · rw [List.getElem?_range hy] at h5
        simp only [Option.map_some, Option.bind_some] at h5
        have hx : ¬ j < X := fun h => hc ⟨hy, h⟩
        simp [hx] at h5
      · simp [hy] at h5
    rw [show cell? (positions Y X) i j = some (i, j) from cell?_tabulate _ hi.1 hi.2] at h5
    cases h5
    exact ⟨hi.1, hi.2, h1, h2, h3, h4⟩
  · rintro ⟨h1, h2, h3, h4, h5, h6⟩
    exact ⟨p.1, p.2, h3, h4, h5, h6, cell?_tabulate _ h1 h2⟩

theorem foldM_map {α β γ : Type} (g : γ → α) (f : β → α → Res β) (b : β) (l : List γ) : foldM f b (l.map g) = foldM (fun b c => f b (g c)) b l := by
  induction l generalizing b with
  | nil => rfl
  | cons a t ih =>
    rw [List.map_cons, foldM_cons, foldM_cons]
    congr 1
    funext b'
    exact ih b'

theorem foldM_flatMap {α β γ : Type} (g : γ → List α) (f : β → α → Res β) (b : β) (l : List γ) :
    foldM f b (l.flatMap g) = foldM (fun b c => foldM f b (g c)) b l := by
  induction l generalizing b with
  | nil => rfl
  | cons a t ih =>
    rw [List.flatMap_cons, foldM_append, foldM_cons]
    congr 1
    funext b'
    exact ih b'

theorem foldM_congr {α β : Type} {f g : β → α → Res β} {l : List α} (h : ∀ a ∈ l, ∀ b, f b a = g b a) (b : β) : foldM f b l = foldM g b l := by
  induction l generalizing b with
  | nil => rfl
  | cons a t ih =>
    rw [foldM_cons, foldM_cons, h a (by simp)]
    congr 1
    funext b'
    exact ih (fun a ha b => h a (by simp [ha]) b) b'

/-- Slices of a range. -/
theorem slice_range_map {α : Type} (n lo hi : Nat) (f : Nat → α) (hhi : hi < n) :
    slice lo hi ((List.range n).map f) = (irange (lo : Int) (hi : Int)).map fun i => f i.toNat := by
  have h := mapM_irange_slice (l := (List.range n).map f) (f := fun i : Int => ok (f i.toNat)) (g := id) (lo := lo) (hi := hi) (by simpa using hhi)
    (fun i h1 _ _ => by simp)
  rw [List.map_id] at h
  have h2 : mapM (fun i : Int => ok (f i.toNat)) (irange (lo : Int) (hi : Int)) = ok ((irange (lo : Int) (hi : Int)).map fun i => f i.toNat) :=
    mapM_ok (fun _ _ => rfl)
  rw [h2] at h
  injection h with h
  exact h.symm

/-- The two nested loops over the square are one loop over the positions. -/
theorem foldM_square {S : Type} {Y X hw y x : Nat} (hy : y < Y) (hx : x < X) (f : S → Int → Int → Res S) (s : S) :
    foldM (fun s ii => foldM (fun s jj => f s ii jj) s (irange (max 0 ((x : Int) - hw)) (min ((X : Int) - 1) (x + hw)))) s
      (irange (max 0 ((y : Int) - hw)) (min ((Y : Int) - 1) (y + hw))) =
    foldM (fun s p => f s (p.1 : Int) (p.2 : Int)) s (square (positions Y X) hw y x) := by
  obtain ⟨Y, rfl⟩ : ∃ k, Y = k + 1 := ⟨Y - 1, by omega⟩
  obtain ⟨X, rfl⟩ : ∃ k, X = k + 1 := ⟨X - 1, by omega⟩
  rw [clip_lo, clip_lo, clip_hi, clip_hi]
  unfold square
  rw [foldM_flatMap, ← slice_min _ _ (positions (Y + 1) (X + 1)) Y (by simp [positions, tabulate])]
  unfold positions tabulate
  rw [slice_range_map _ _ _ _ (by omega), foldM_map]
  refine foldM_congr (fun ii hii s => ?_) s
  rw [mem_irange] at hii
  rw [← slice_min _ _ ((List.range (X + 1)).map fun x => (ii.toNat, x)) X (by simp), slice_range_map _ _ _ _ (by omega), foldM_map]
  refine foldM_congr (fun jj hjj s => ?_) s
  rw [mem_irange] at hjj
  have e1 : ((ii.toNat : Nat) : Int) = ii := by omega
  have e2 : ((jj.toNat : Nat) : Int) = jj := by omega
  simp only [e1, e2]

/-- Invariant rule for a loop over a list, in terms of the elements done. -/
theorem foldM_list_inv {α S : Type} {f : S → α → Res S} {P : List α → S → Prop} {l : List α} {s : S} (h0 : P [] s)
    (hs : ∀ d a s, a ∈ l → P d s → ∃ s', f s a = ok s' ∧ P (d ++ [a]) s') : ∃ s', foldM f s l = ok s' ∧ P l s' := by
  have : ∀ t d s, (∀ a ∈ t, a ∈ l) → P d s → ∃ s', foldM f s t = ok s' ∧ P (d ++ t) s' := by
    intro t
    induction t with
    | nil => intro d s _ h; exact ⟨s, rfl, by rwa [List.append_nil]⟩
    | cons a t ih =>
      intro d s hm h
      obtain ⟨s', e, h'⟩ := hs d a s (hm a (by simp)) h
      obtain ⟨s'', e', h''⟩ := ih (d ++ [a]) s' (fun b hb => hm b (by simp [hb])) h'
      exact ⟨s'', by rw [foldM_cons, e, ok_bind, e'], by rwa [List.append_assoc] at h''⟩
  simpa using this l [] s (fun _ h => h) h0

/-- Two fields as one field of pairs. -/
def pairField {α β : Type} (a : List (List α)) (b : List (List β)) : List (List (α × β)) := List.zipWith List.zip a b

theorem rect_pairField {α β : Type} {Y X : Nat} {a : List (List α)} {b : List (List β)} (ha : Rect Y X a) (hb : Rect Y X b) : Rect Y X (pairField a b) := by
  constructor
  · simp [pairField, ha.1, hb.1]
  · intro r hr
    unfold pairField at hr
    obtain ⟨k, hk, rfl⟩ := List.getElem_of_mem hr
    simp only [List.length_zipWith] at hk
    rw [List.getElem_zipWith, List.length_zip, ha.row_length (by omega), hb.row_length (by omega), Nat.min_self]

theorem cell?_pairField {α β : Type} {a : List (List α)} {b : List (List β)} {y x : Nat} {u : α} {v : β} (hu : cell? a y x = some u)
    (hv : cell? b y x = some v) : cell? (pairField a b) y x = some (u, v) := by
  unfold cell? pairField at *
  cases h1 : a[y]? with
  | none => rw [h1] at hu; cases hu
  | some r =>
    cases h2 : b[y]? with
    | none => rw [h2] at hv; cases hv
    | some r' =>
      rw [h1] at hu; rw [h2] at hv
      simp only [Option.bind_some] at hu hv
      rw [List.getElem?_zipWith, h1, h2]
      simp only [Option.bind_some]
      rw [List.zip, List.getElem?_zipWith, hu, hv]

/-- The pair at a position. -/
def pairAt {α β : Type} (a : List (List α)) (b : List (List β)) (d : α × β) (p : Nat × Nat) : α × β := (cell? (pairField a b) p.1 p.2).getD d

theorem pairField_eq {α β : Type} {Y X : Nat} {a : List (List α)} {b : List (List β)} (ha : Rect Y X a) (hb : Rect Y X b) (d : α × β) :
    pairField a b = (positions Y X).map (List.map (pairAt a b d)) := by
  refine Rect.ext (rect_pairField ha hb) (rect_map _ (rect_tabulate Y X _)) fun y hy x hx => ?_
  rw [cell?_map]
  unfold positions
  rw [cell?_tabulate _ hy hx]
  obtain ⟨v, hv⟩ := (rect_pairField ha hb).cell?_some hy hx
  rw [hv, Option.map_some]
  unfold pairAt
  rw [hv, Option.getD_some]

theorem square_pairField {α β : Type} {Y X : Nat} {a : List (List α)} {b : List (List β)} (ha : Rect Y X a) (hb : Rect Y X b) (d : α × β) (hw y x : Nat) :
    square (pairField a b) hw y x = (square (positions Y X) hw y x).map (pairAt a b d) := by
  rw [pairField_eq ha hb d, square_map]

/-- Reading both fields at a position. -/
theorem read_pairAt {α β : Type} {Y X : Nat} {a : List (List α)} {b : List (List β)} (ha : Rect Y X a) (hb : Rect Y X b) (d : α × β) {p : Nat × Nat}
    (h1 : p.1 < Y) (h2 : p.2 < X) : vget2 a (p.1 : Int) (p.2 : Int) = ok (pairAt a b d p).1 ∧ vget2 b (p.1 : Int) (p.2 : Int) = ok (pairAt a b d p).2 := by
  obtain ⟨u, u1, u2⟩ := vget2_of_rect ha h1 h2
  obtain ⟨v, v1, v2⟩ := vget2_of_rect hb h1 h2
  unfold pairAt
  rw [cell?_pairField u1 v1, u2, v2]
  exact ⟨rfl, rfl⟩

end Gridpp
