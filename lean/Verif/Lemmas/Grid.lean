import Verif.Lemmas.Geo

/-! Lemmas about `Grid`. -/

set_option linter.unusedSectionVars false

namespace Gridpp
open Fl Res

theorem flatten_getElem? {α : Type} {Y X : Nat} {a : List (List α)} (h : Rect Y X a) {y x : Nat} (hx : x < X) :
    a.flatten[y * X + x]? = cell? a y x := by
  induction a generalizing y Y with
  | nil => simp [cell?]
  | cons r t ih =>
    have hr : r.length = X := h.2 r (by simp)
    have ht : Rect (Y - 1) X t := ⟨by have := h.1; simp at this; omega, fun r' hr' => h.2 r' (by simp [hr'])⟩
    rw [List.flatten_cons]
    cases y with
    | zero =>
      rw [List.getElem?_append_left (by omega)]
      simp [cell?]
    | succ y =>
      have e : (y + 1) * X + x = X + (y * X + x) := by rw [Nat.add_mul]; omega
      rw [List.getElem?_append_right (by rw [hr, e]; omega), hr, e, Nat.add_sub_cancel_left, ih ht]
      simp [cell?]

theorem flatten_length {α : Type} {Y X : Nat} {a : List (List α)} (h : Rect Y X a) : a.flatten.length = Y * X := by
  induction a generalizing Y with
  | nil => have := h.1; simp at this; simp [← this]
  | cons r t ih =>
    have hr : r.length = X := h.2 r (by simp)
    have hl : t.length + 1 = Y := by simpa using h.1
    have ht : Rect t.length X t := ⟨rfl, fun r' hr' => h.2 r' (by simp [hr'])⟩
    rw [List.flatten_cons, List.length_append, hr, ih ht, ← hl, Nat.add_mul]; omega

theorem flatten_getElem?_div {α : Type} {Y X : Nat} {a : List (List α)} (h : Rect Y X a) (hX : 0 < X) (i : Nat) :
    a.flatten[i]? = cell? a (i / X) (i % X) := by
  rw [← flatten_getElem? h (Nat.mod_lt i hX)]
  congr 1
  rw [Nat.mul_comm]; exact (Nat.div_add_mod i X).symm

theorem cell?_lt {α : Type} {Y X : Nat} {a : List (List α)} (h : Rect Y X a) {y x : Nat} {v : α} (hv : cell? a y x = some v) :
    y < Y ∧ x < X := by
  unfold cell? at hv
  cases hr : a[y]? with
  | none => rw [hr] at hv; cases hv
  | some r =>
    rw [hr] at hv
    obtain ⟨hy, rfl⟩ := List.getElem?_eq_some_iff.mp hr
    simp only [Option.bind_some] at hv
    obtain ⟨hx, -⟩ := List.getElem?_eq_some_iff.mp hv
    exact ⟨h.1 ▸ hy, (h.row_length hy) ▸ hx⟩

theorem rect_initVec2 {α : Type} (Y X : Nat) (v : α) : Rect Y X (initVec2 Y X v) := by
  constructor
  · simp [initVec2]
  · intro r hr
    simp only [initVec2, List.mem_replicate] at hr
    simp [hr.2]

theorem cell?_initVec2 {α : Type} {Y X : Nat} (v : α) {y x : Nat} (hy : y < Y) (hx : x < X) :
    cell? (initVec2 Y X v) y x = some v := by
  simp [cell?, initVec2, hy, hx]

theorem mapM_exists {α β : Type} {f : α → Res β} (l : List α) (h : ∀ a ∈ l, ∃ b, f a = ok b) : ∃ bs, mapM f l = ok bs := by
  induction l with
  | nil => exact ⟨[], rfl⟩
  | cons a t ih =>
    obtain ⟨b, hb⟩ := h a (by simp)
    obtain ⟨bs, hbs⟩ := ih fun x hx => h x (by simp [hx])
    exact ⟨b :: bs, by rw [mapM_cons, hb, hbs]; rfl⟩

/-- `grid2` of reads copies the field. -/
theorem grid2_copy {α : Type} {Y X : Nat} {a : List (List α)} (h : Rect Y X a) :
    grid2 Y X (fun i j => vget2 a i j) = ok a := by
  cases hY : Y with
  | zero =>
    subst hY
    have : a = [] := List.length_eq_zero_iff.mp h.1
    subst this; rfl
  | succ Y' =>
    by_cases hX : X = 0
    · subst hX
      have : a = List.replicate Y ([] : List α) := by
        refine List.eq_replicate_iff.mpr ⟨h.1, fun r hr => List.length_eq_zero_iff.mp (h.2 r hr)⟩
      rw [this, ← hY]
      unfold grid2
      have h0 : ∀ i : Int, mapM (fun j => vget2 (List.replicate Y ([] : List α)) i j) (upto 0) = ok [] := fun i => rfl
      simp only [h0]
      rw [mapM_ok (g := fun _ => [])]
      · · congr 1
          rw [List.map_const']; simp [upto]
      · intro _ _; rfl
    · subst hY
      obtain ⟨d, -⟩ := h.cell?_some (show 0 < Y' + 1 by omega) (show 0 < X by omega)
      rw [grid2_ok (g := fun y x => (cell? a y x).getD d), ← eq_tabulate h d]
      intro y hy x hx
      obtain ⟨v, hv⟩ := h.cell?_some hy hx
      rw [vget2_of_cell? hv, hv]; rfl

section
variable {K : Type} [Field K] [LinearOrder K] [IsStrictOrderedRing K] [HasGeo K]

/-- Cell `(y, x)` of the coordinate fields is located at `q`. -/
def CellAt (lats lons : List (List (Fl K))) (type : CoordType) (c : Nat × Nat) (q : Pt3 K) : Prop :=
  ∃ la lo, cell? lats c.1 c.2 = some la ∧ cell? lons c.1 c.2 = some lo ∧ convertCoordinates la lo type = ok q

/-- What is true of a grid with `Y > 0` rows of `X > 0` cells made by its constructor. -/
structure Grid.WF (g : Grid K) (Y X : Nat) : Prop where
  hY : 0 < Y
  hX : 0 < X
  lats : Rect Y X g.lats
  lons : Rect Y X g.lons
  elevs : Rect Y X g.elevs
  lafs : Rect Y X g.lafs
  nx : g.nx = X
  tlats : g.tree.lats = g.lats.flatten
  tlons : g.tree.lons = g.lons.flatten
  tree : g.tree.WF

theorem gridMeta_rect {Y X : Nat} {m : List (List (Fl K))} (h : m = [] ∨ Rect Y X m) (hY : 0 < Y) :
    Rect Y X (gridMeta Y X m) ∧ (m = [] → gridMeta Y X m = initVec2 Y X MV) ∧ (Rect Y X m → gridMeta Y X m = m) := by
  have h1 : m = [] → gridMeta Y X m = initVec2 Y X MV := by
    rintro rfl; unfold gridMeta; rw [if_pos (by simp; omega)]
  have h2 : Rect Y X m → gridMeta Y X m = m := by
    intro hr
    unfold gridMeta
    rw [if_neg]
    push Not
    refine ⟨hr.1, ?_⟩
    cases m with
    | nil => have := hr.1; simp at this; omega
    | cons r t => exact hr.2 r (by simp)
  refine ⟨?_, h1, h2⟩
  rcases h with h | h
  · rw [h1 h]; exact rect_initVec2 _ _ _
  · rw [h2 h]; exact h

theorem Grid.new_ok {lats lons elevs lafs : List (List (Fl K))} {type : CoordType} {g : Grid K} {Y X : Nat}
    (hY : 0 < Y) (hX : 0 < X) (h1 : Rect Y X lats) (h2 : Rect Y X lons) (h3 : elevs = [] ∨ Rect Y X elevs)
    (h4 : lafs = [] ∨ Rect Y X lafs) (h : Grid.new lats lons elevs lafs type = ok g) :
    g.WF Y X ∧ g.lats = lats ∧ g.lons = lons ∧ g.tree.type = type ∧ g.elevs = gridMeta Y X elevs ∧ g.lafs = gridMeta Y X lafs := by
  unfold Grid.new at h
  rw [if_neg (by rw [h1.1]; omega)] at h
  obtain ⟨row0, hr, h⟩ := bind_eq_ok.mp h
  have hlen : row0.length = X := by
    have := (vget_nat_eq_ok (n := 0)).mp hr
    obtain ⟨hlt, rfl⟩ := List.getElem?_eq_some_iff.mp this
    exact h1.row_length hlt
  simp only [h1.1, hlen, grid2_copy h1, grid2_copy h2, ok_bind] at h
  obtain ⟨t, ht, h⟩ := bind_eq_ok.mp h
  cases h
  obtain ⟨e1, e2, e3, hw⟩ := KDTree.new_ok ht
  exact ⟨⟨hY, hX, h1, h2, (gridMeta_rect h3 hY).1, (gridMeta_rect h4 hY).1, rfl, e1, e2, hw⟩, rfl, rfl, e3, rfl, rfl⟩

theorem Grid.WF.tree_size {g : Grid K} {Y X : Nat} (h : g.WF Y X) : g.tree.size = Y * X := by
  unfold KDTree.size
  rw [h.tlats, flatten_length h.lats]

theorem Grid.WF.getIndices {g : Grid K} {Y X : Nat} (h : g.WF Y X) {i : Nat} (hi : i < Y * X) :
    g.getIndices i = ok (i / X, i % X) := by
  unfold Grid.getIndices
  rw [h.tree_size, h.nx]
  simp only [hi, decide_true, assert_true, ok_bind]
  rw [if_neg (by have := h.hX; omega)]

theorem Grid.WF.size {g : Grid K} {Y X : Nat} (h : g.WF Y X) : g.size = ok (Y, X) := by
  have hp : 0 < Y * X := Nat.mul_pos h.hY h.hX
  unfold Grid.size
  rw [h.tree_size, if_pos hp, h.getIndices (by omega)]
  simp only [ok_bind]
  have e : Y * X - 1 = (X - 1) + X * (Y - 1) := by
    obtain ⟨y, rfl⟩ : ∃ y, Y = y + 1 := ⟨Y - 1, by have := h.hY; omega⟩
    obtain ⟨x, rfl⟩ : ∃ x, X = x + 1 := ⟨X - 1, by have := h.hX; omega⟩
    simp only [Nat.add_sub_cancel]
    rw [Nat.add_mul, Nat.mul_comm (x + 1) y]; omega
  have hX := h.hX
  have hY := h.hY
  rw [e, Nat.add_mul_div_left _ _ hX, Nat.add_mul_mod_self_left, Nat.div_eq_of_lt (by omega), Nat.mod_eq_of_lt (by omega)]
  congr 2 <;> omega

theorem Grid.WF.located {g : Grid K} {Y X : Nat} (h : g.WF Y X) {i : Nat} {q : Pt3 K} :
    Located g.tree.lats g.tree.lons g.tree.type i q ↔ CellAt g.lats g.lons g.tree.type (i / X, i % X) q := by
  unfold Located CellAt
  rw [h.tlats, h.tlons, flatten_getElem?_div h.lats h.hX, flatten_getElem?_div h.lons h.hX]

theorem Grid.WF.cellAt_lt {g : Grid K} {Y X : Nat} (h : g.WF Y X) {c : Nat × Nat} {q : Pt3 K} (hc : CellAt g.lats g.lons g.tree.type c q) :
    c.1 < Y ∧ c.2 < X := by
  obtain ⟨la, lo, h1, -, -⟩ := hc
  exact cell?_lt h.lats h1

theorem div_mod_of_lt {X y x : Nat} (hx : x < X) : ((y * X + x) / X, (y * X + x) % X) = (y, x) := by
  have hX : 0 < X := by omega
  rw [Nat.add_comm, Nat.mul_comm, Nat.add_mul_div_left _ _ hX, Nat.add_mul_mod_self_left, Nat.div_eq_of_lt hx, Nat.mod_eq_of_lt hx]
  simp

theorem Grid.WF.cellAt_located {g : Grid K} {Y X : Nat} (h : g.WF Y X) {c : Nat × Nat} {q : Pt3 K} (hc : CellAt g.lats g.lons g.tree.type c q) :
    Located g.tree.lats g.tree.lons g.tree.type (c.1 * X + c.2) q := by
  rw [h.located, div_mod_of_lt (h.cellAt_lt hc).2]
  exact hc

theorem Grid.WF.exists_cellAt {g : Grid K} {Y X : Nat} (h : g.WF Y X) {y x : Nat} (hy : y < Y) (hx : x < X) :
    ∃ q, CellAt g.lats g.lons g.tree.type (y, x) q := by
  have hlt : y * X + x < g.tree.lats.length := by
    rw [h.tlats, flatten_length h.lats]
    calc y * X + x < y * X + X := by omega
      _ = (y + 1) * X := by rw [Nat.add_mul]; omega
      _ ≤ Y * X := Nat.mul_le_mul_right _ hy
  obtain ⟨q, hq⟩ := h.tree.exists_located hlt
  rw [h.located, div_mod_of_lt hx] at hq
  exact ⟨q, hq⟩

end
end Gridpp
