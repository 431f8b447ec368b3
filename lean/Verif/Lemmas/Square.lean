import Verif.Model.Neighbourhood
import Verif.Spec.Square
import Verif.Lemmas.Quantile

/-! Lemmas about `neighbourhood`: the collected square and the accumulated tables. -/

set_option linter.unusedSectionVars false

namespace Gridpp
open Fl Res Spec

theorem mapM_of_forall₂ {α β : Type} {f : α → Res β} {l : List α} {bs : List β}
    (h : List.Forall₂ (fun a b => f a = ok b) l bs) : mapM f l = ok bs := by
  induction h with
  | nil => rfl
  | cons h1 _ ih => rw [mapM_cons, h1, ih]; rfl

/-- Reading the indices `lo..hi` of a list gives the slice. -/
theorem mapM_irange_slice {α β : Type} {l : List α} {f : Int → Res β} {g : α → β} {lo hi : Nat} (hhi : hi < l.length)
    (hf : ∀ i, (h : i < l.length) → lo ≤ i → i ≤ hi → f (i : Int) = ok (g l[i])) :
    mapM f (irange (lo : Int) (hi : Int)) = ok ((slice lo hi l).map g) := by
  apply mapM_of_forall₂
  rw [List.forall₂_iff_get]
  have hlen : (slice lo hi l).length = hi + 1 - lo := by
    simp only [slice, List.length_drop, List.length_take]; omega
  constructor
  · rw [length_irange, List.length_map, hlen]; omega
  · intro k h1 h2
    rw [length_irange] at h1
    have e1 : (irange (lo : Int) (hi : Int)).get ⟨k, by rw [length_irange]; exact h1⟩ = ((lo + k : Nat) : Int) := by
      simp [irange]
    have e2 : ((slice lo hi l).map g).get ⟨k, h2⟩ = g (l[lo + k]'(by omega)) := by
      simp [slice]
    rw [e1, e2]
    exact hf _ _ (by omega) (by omega)

theorem slice_min {α : Type} (lo hi : Nat) (l : List α) (n : Nat) (hn : l.length = n + 1) :
    slice lo (min n hi) l = slice lo hi l := by
  unfold slice
  rcases Nat.le_total n hi with h | h
  · rw [Nat.min_eq_left h, List.take_of_length_le (by omega), List.take_of_length_le (by omega)]
  · rw [Nat.min_eq_right h]

/-- Bounds of the loops as natural numbers. -/
theorem clip_lo (i hw : Nat) : max 0 ((i : Int) - (hw : Int)) = ((i - hw : Nat) : Int) := by omega
theorem clip_hi (n i hw : Nat) : min (((n + 1 : Nat) : Int) - 1) ((i : Int) + (hw : Int)) = ((min n (i + hw) : Nat) : Int) := by
  omega

section
variable {α : Type}

theorem collectSquare_ok {Y X : Nat} {a : List (List α)} (h : Rect Y X a) {hw y x : Nat} (hy : y < Y) (hx : x < X) :
    collectSquare a Y X (hw : Int) (y : Int) (x : Int) = ok (square a hw y x) := by
  obtain ⟨Y, rfl⟩ : ∃ k, Y = k + 1 := ⟨Y - 1, by omega⟩
  obtain ⟨X, rfl⟩ : ∃ k, X = k + 1 := ⟨X - 1, by omega⟩
  unfold collectSquare
  rw [clip_lo, clip_lo, clip_hi, clip_hi]
  have hrow : ∀ i, (hi : i < a.length) → y - hw ≤ i → i ≤ min Y (y + hw) →
      mapM (fun jj => vget2 a (i : Int) jj) (irange ((x - hw : Nat) : Int) ((min X (x + hw) : Nat) : Int))
        = ok (slice (x - hw) (x + hw) a[i]) := by
    intro i hi _ _
    have hl := h.row_length hi
    have := mapM_irange_slice (l := a[i]) (f := fun jj => vget2 a (i : Int) jj) (g := id) (lo := x - hw) (hi := min X (x + hw))
      (by omega) (by
        intro j hj _ _
        simp only [vget2]
        rw [vget_eq_ok_of_lt hi, ok_bind, vget_eq_ok_of_lt hj]; rfl)
    rw [this, List.map_id, slice_min _ _ _ X hl]
  have hl : a.length = Y + 1 := h.1
  rw [mapM_irange_slice (l := a) (g := slice (x - hw) (x + hw)) (by omega) hrow]
  simp only [ok_bind]
  rw [slice_min _ _ _ Y hl, square, List.flatMap_def]

theorem length_square_row {X : Nat} (x hw : Nat) (hx : x < X) (r : List α) (hr : r.length = X) :
    ((slice (x - hw) (x + hw) r).length : Int) = min ((X : Int) - 1) (x + hw) - max 0 ((x : Int) - hw) + 1 := by
  simp only [slice, List.length_drop, List.length_take]; omega

theorem length_square {Y X : Nat} {a : List (List α)} (h : Rect Y X a) {hw y x : Nat} (hy : y < Y) (hx : x < X) :
    ((square a hw y x).length : Int) = (min ((Y : Int) - 1) (y + hw) - max 0 ((y : Int) - hw) + 1) *
      (min ((X : Int) - 1) (x + hw) - max 0 ((x : Int) - hw) + 1) := by
  rw [← length_square_row (X := Y) y hw hy a h.1]
  unfold square
  have : ∀ l : List (List α), (∀ r ∈ l, r.length = X) →
      ((l.flatMap (slice (x - hw) (x + hw))).length : Int) = l.length * (min ((X : Int) - 1) (x + hw) - max 0 ((x : Int) - hw) + 1) := by
    intro l
    induction l with
    | nil => intro _; simp
    | cons r t ih =>
      intro hr
      rw [List.flatMap_cons, List.length_append, Nat.cast_add, length_square_row x hw hx r (hr r (by simp)),
        ih (fun r' hr' => hr r' (by simp [hr']))]
      rw [List.length_cons]; push_cast; ring
  apply this
  intro r hr
  apply h.2
  unfold slice at hr
  exact List.mem_of_mem_take (List.mem_of_mem_drop hr)

theorem squareSize_ok {Y X : Nat} {hw y x : Nat} (hy : y < Y) (hx : x < X) :
    squareSize Y X (hw : Int) (y : Int) (x : Int) = ok ((min ((Y : Int) - 1) (y + hw) - max 0 ((y : Int) - hw) + 1) *
      (min ((X : Int) - 1) (x + hw) - max 0 ((x : Int) - hw) + 1)) := by
  unfold squareSize
  have h1 : decide (min ((Y : Int) - 1) ((y : Int) + hw) - max 0 ((y : Int) - hw) + 1 > 0) = true := by
    rw [decide_eq_true_eq]; omega
  have h2 : decide (min ((X : Int) - 1) ((x : Int) + hw) - max 0 ((x : Int) - hw) + 1 > 0) = true := by
    rw [decide_eq_true_eq]; omega
  simp only [h1, h2, assert_true, ok_bind]

end

section sat
variable {K : Type} [Field K] [LinearOrder K] [IsStrictOrderedRing K]

/-- Sum and number of valid values. -/
def tot (l : List (Fl K)) : K × Int := ((vals l).sum, ((vals l).length : Int))

/-- A table entry. -/
def enc (t : K × Int) : Fl K × Int := (fin t.1, t.2)

theorem tot_nil : tot ([] : List (Fl K)) = 0 := rfl
theorem tot_append (a b : List (Fl K)) : tot (a ++ b) = tot a + tot b := by
  simp [tot, vals_append]

theorem tot_singleton (v : Fl K) : tot [v] = if v.isValid then (match v with | fin q => q | _ => 0, 1) else 0 := by
  cases v <;> simp [tot]

theorem satCell_inner (l u d : K × Int) (v : Fl K) :
    satCell (some (enc l)) (some (enc u)) (some (enc d)) v = enc (l + u - d + tot [v]) := by
  cases v <;> simp [satCell, enc, tot]

theorem satCell_left (l : K × Int) (v : Fl K) : satCell (some (enc l)) none none v = enc (l + tot [v]) := by
  cases v <;> simp [satCell, enc, tot]

theorem satCell_up (u : K × Int) (v : Fl K) : satCell none (some (enc u)) none v = enc (u + tot [v]) := by
  cases v <;> simp [satCell, enc, tot]

theorem satCell_corner (v : Fl K) : satCell none none none v = enc (tot [v]) := by
  cases v <;> simp [satCell, enc, tot]

theorem take_succ_tot {l : List (Fl K)} {j : Nat} (h : j < l.length) : tot (l.take (j + 1)) = tot (l.take j) + tot [l[j]] := by
  rw [← tot_append, List.take_append_getElem h]

theorem satRow_none {row : List (Fl K)} {nX : Nat} (h : row.length = nX) :
    satRow nX none row = ok ((List.range nX).map fun j => enc (tot (row.take (j + 1)))) := by
  apply buildM_ok
  intro j hj
  rw [vget_eq_ok_of_lt (by omega : j < row.length)]
  cases j with
  | zero =>
    simp only [ok_bind, if_true, satCell_corner]
    rw [take_succ_tot (by omega)]; simp [tot_nil]
  | succ j =>
    have e : ((j + 1 : Nat) : Int) - 1 = (j : Int) := by omega
    rw [e, vget_eq_ok_of_lt (by simp)]
    simp only [ok_bind, Nat.add_eq_zero_iff, one_ne_zero, and_false, if_false, List.getElem_map, List.getElem_range, satCell_left]
    rw [take_succ_tot (j := j + 1) (by omega)]

theorem satRow_some {row : List (Fl K)} {nX : Nat} (h : row.length = nX) (p : Nat → K × Int) :
    satRow nX (some ((List.range nX).map fun j => enc (p (j + 1)))) row
      = ok ((List.range nX).map fun j => enc (p (j + 1) + tot (row.take (j + 1)))) := by
  apply buildM_ok
  intro j hj
  rw [vget_eq_ok_of_lt (by omega : j < row.length)]
  have hup : vget ((List.range nX).map fun j => enc (p (j + 1))) (j : Int) = ok (enc (p (j + 1))) := by
    rw [vget_eq_ok_of_lt (by simpa using hj)]; simp
  cases j with
  | zero =>
    simp only [ok_bind, if_true, hup, satCell_up]
    rw [take_succ_tot (by omega)]; simp [tot_nil]
  | succ j =>
    have e : ((j + 1 : Nat) : Int) - 1 = (j : Int) := by omega
    have hdi : vget ((List.range nX).map fun j => enc (p (j + 1))) (j : Int) = ok (enc (p (j + 1))) := by
      rw [vget_eq_ok_of_lt (by simp; omega)]; simp
    have hle : vget ((List.range (j + 1)).map fun j => enc (p (j + 1) + tot (row.take (j + 1)))) (j : Int)
        = ok (enc (p (j + 1) + tot (row.take (j + 1)))) := by
      rw [vget_eq_ok_of_lt (by simp)]; simp
    rw [e]
    simp only [ok_bind, Nat.add_eq_zero_iff, one_ne_zero, and_false, if_false, hup, hdi, hle, satCell_inner]
    rw [take_succ_tot (j := j + 1) (by omega)]
    congr 2
    abel

/-- Totals of the rectangle `[0,i) x [0,j)`. -/
def pre (a : List (List (Fl K))) (i j : Nat) : K × Int := tot ((a.take i).flatMap (·.take j))

theorem pre_zero_left (a : List (List (Fl K))) (j : Nat) : pre a 0 j = 0 := by simp [pre, tot_nil]
theorem pre_zero_right (a : List (List (Fl K))) (i : Nat) : pre a i 0 = 0 := by
  have : (a.take i).flatMap (·.take 0) = [] := by simp
  rw [pre, this, tot_nil]

theorem pre_succ {a : List (List (Fl K))} {i : Nat} (h : i < a.length) (j : Nat) :
    pre a (i + 1) j = pre a i j + tot (a[i].take j) := by
  unfold pre
  rw [← List.take_append_getElem h, List.flatMap_append, tot_append]
  simp

theorem satTable_ok {Y X : Nat} {a : List (List (Fl K))} (h : Rect Y X a) :
    satTable Y X a = ok (tabulate Y X fun i j => enc (pre a (i + 1) (j + 1))) := by
  unfold satTable tabulate
  apply buildM_ok
  intro i hi
  have hia : i < a.length := by rw [h.1]; exact hi
  rw [vget_eq_ok_of_lt hia]
  simp only [ok_bind]
  cases i with
  | zero =>
    simp only [List.range_zero, List.map_nil, List.getLast?_nil]
    rw [satRow_none (h.row_length hia)]
    congr 2
    funext j
    rw [pre_succ hia, pre_zero_left, zero_add]
  | succ i =>
    rw [List.range_succ, List.map_append, List.map_cons, List.map_nil, List.getLast?_concat]
    rw [satRow_some (h.row_length hia) (fun j => pre a (i + 1) j)]
    congr 2
    funext j
    rw [pre_succ hia]

/-- Totals of a slice as a difference of prefix totals. -/
theorem tot_slice (r : List (Fl K)) (lo hi : Nat) (h : lo ≤ hi + 1) : tot (slice lo hi r) = tot (r.take (hi + 1)) - tot (r.take lo) := by
  have : r.take (hi + 1) = r.take lo ++ slice lo hi r := by
    unfold slice
    conv_lhs => rw [← List.take_append_drop lo (r.take (hi + 1))]
    rw [List.take_take, Nat.min_eq_left h]
  rw [this, tot_append]; abel

theorem tot_flatMap_slice (l : List (List (Fl K))) (lo hi : Nat) (h : lo ≤ hi + 1) :
    tot (l.flatMap (slice lo hi)) = tot (l.flatMap (·.take (hi + 1))) - tot (l.flatMap (·.take lo)) := by
  induction l with
  | nil => simp [tot_nil]
  | cons r t ih =>
    simp only [List.flatMap_cons, tot_append, ih, tot_slice r lo hi h]; abel

theorem pre_slice (a : List (List (Fl K))) (lo hi j : Nat) (h : lo ≤ hi + 1) :
    tot ((slice lo hi a).flatMap (·.take j)) = pre a (hi + 1) j - pre a lo j := by
  have : a.take (hi + 1) = a.take lo ++ slice lo hi a := by
    unfold slice
    conv_lhs => rw [← List.take_append_drop lo (a.take (hi + 1))]
    rw [List.take_take, Nat.min_eq_left h]
  unfold pre
  rw [this, List.flatMap_append, tot_append]; abel

/-- The four-corner formula. -/
theorem tot_square (a : List (List (Fl K))) (hw y x : Nat) :
    tot (square a hw y x) = pre a (y + hw + 1) (x + hw + 1) + pre a (y - hw) (x - hw) - pre a (y + hw + 1) (x - hw)
      - pre a (y - hw) (x + hw + 1) := by
  unfold square
  rw [tot_flatMap_slice _ _ _ (by omega), pre_slice _ _ _ _ (by omega), pre_slice _ _ _ _ (by omega)]
  abel

theorem pre_min_left {Y X : Nat} {a : List (List (Fl K))} (h : Rect (Y + 1) X a) (i j : Nat) : pre a (min Y i + 1) j = pre a (i + 1) j := by
  unfold pre
  have hl : a.length = Y + 1 := h.1
  rcases Nat.le_total Y i with h' | h'
  · rw [Nat.min_eq_left h', List.take_of_length_le (by omega), List.take_of_length_le (by omega)]
  · rw [Nat.min_eq_right h']

theorem pre_min_right {Y X : Nat} {a : List (List (Fl K))} (h : Rect Y (X + 1) a) (i j : Nat) : pre a i (min X j + 1) = pre a i (j + 1) := by
  unfold pre
  congr 1
  rw [List.flatMap_def, List.flatMap_def]
  congr 1
  apply List.map_congr_left
  intro r hr
  have hl : r.length = X + 1 := h.2 r (List.mem_of_mem_take hr)
  rcases Nat.le_total X j with h' | h'
  · rw [Nat.min_eq_left h', List.take_of_length_le (by omega), List.take_of_length_le (by omega)]
  · rw [Nat.min_eq_right h']

end sat
end Gridpp
