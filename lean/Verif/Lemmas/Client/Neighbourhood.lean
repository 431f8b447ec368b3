import Verif.Model.Client.Neighbourhood
import Verif.Lemmas.Client.Stat
import Verif.Lemmas.Neighbourhood2

/-! # Lemmas about the neighbourhood of the client: the tables, the columns and the box -/

set_option linter.unusedSectionVars false

namespace Gridpp.Client
open Fl hiding MV isValid
open Res Spec

variable {K : Type} [Field K] [LinearOrder K] [IsStrictOrderedRing K] [FloorRing K]

/-- What the library takes for missing, where the client does. -/
def clean (v : Fl K) : Fl K := if isValid v then v else nan

theorem isValid_clean (v : Fl K) : Fl.isValid (clean v) = isValid v := by
  unfold clean
  cases v with
  | fin q => by_cases h : q = -999 <;> simp [isValid, h]
  | _ => simp [isValid]

theorem vals_clean (l : List (Fl K)) : vals (l.map clean) = present l := by
  induction l with
  | nil => rfl
  | cons v t ih =>
    cases v with
    | fin q =>
      by_cases h : q = -999
      · simpa [present, clean, isValid, h] using ih
      · simpa [present, clean, isValid, h] using ih
    | _ => simpa [present, clean, isValid] using ih

theorem nbCell_eq (l u d : Option (Fl K × Int)) (v : Fl K) : nbCell l u d v = satCell l u d (clean v) := by
  have h : isValid v = true → clean v = v := by intro h; simp [clean, h]
  unfold nbCell satCell
  rw [isValid_clean]
  cases l <;> cases u <;> cases d <;> cases hv : isValid v <;> simp [h, hv]

theorem vget_map {α β : Type} (f : α → β) (l : List α) (i : Int) : vget (l.map f) i = (do let v ← vget l i; ok (f v) : Res β) := by
  unfold vget
  split_ifs
  · rfl
  · rw [List.getElem?_map]
    cases l[i.toNat]? <;> rfl

theorem nbRow_eq (X : Nat) (prev : Option (List (Fl K × Int))) (row : List (Fl K)) : nbRow X prev row = satRow X prev (row.map clean) := by
  unfold nbRow satRow
  congr 1
  funext acc j
  rw [vget_map]
  cases vget row (j : Int) with
  | ok v =>
    simp only [ok_bind, nbCell_eq]
    cases prev <;> rfl
  | _ => rfl

theorem nbTable_eq (Y X : Nat) (a : List (List (Fl K))) : nbTable Y X a = satTable Y X (a.map (·.map clean)) := by
  unfold nbTable satTable
  congr 1
  funext acc i
  rw [vget_map]
  cases vget a (i : Int) with
  | ok v => simp only [ok_bind, nbRow_eq]
  | _ => rfl

theorem rect_map {α β : Type} (f : α → β) {Y X : Nat} {a : List (List α)} (h : Rect Y X a) : Rect Y X (a.map (·.map f)) := by
  refine ⟨by simpa using h.1, fun r hr => ?_⟩
  obtain ⟨r', h1, rfl⟩ := List.mem_map.mp hr
  simpa using h.2 r' h1

/-- Sum and count of the box from the four corners. -/
theorem nbCorners_ok {Y X : Nat} {a : List (List (Fl K))} (h : Rect Y X a) (r : Nat) {y x : Nat} (hy : y < Y) (hx : x < X) :
    ∃ c11 c, vget2 (tabulate Y X fun i j => enc (pre a (i + 1) (j + 1))) (min ((Y : Int) - 1) (y + r)) (min ((X : Int) - 1) (x + r)) = ok c11 ∧
      nbCorners (tabulate Y X fun i j => enc (pre a (i + 1) (j + 1))) ((y : Int) - r - 1) ((x : Int) - r - 1)
        (min ((Y : Int) - 1) (y + r)) (min ((X : Int) - 1) (x + r)) = ok c ∧
      c11.1 + c.1.1 - c.2.1.1 - c.2.2.1 = fin (tot (square a r y x)).1 ∧ c11.2 + c.1.2 - c.2.1.2 - c.2.2.2 = (tot (square a r y x)).2 := by
  obtain ⟨Y, rfl⟩ : ∃ k, Y = k + 1 := ⟨Y - 1, by omega⟩
  obtain ⟨X, rfl⟩ : ∃ k, X = k + 1 := ⟨X - 1, by omega⟩
  have hY : min Y (y + r) < Y + 1 := by omega
  have hX : min X (x + r) < X + 1 := by omega
  rw [clip_hi, clip_hi]
  unfold nbCorners
  simp only [vget2_tabulate _ hY hX]
  have e11 : pre a (min Y (y + r) + 1) (min X (x + r) + 1) = pre a (y + r + 1) (x + r + 1) := by
    rw [pre_min_left h, pre_min_right h]
  rw [e11, tot_square]
  by_cases hi : r + 1 ≤ y
  · have ei : (y : Int) - r - 1 = ((y - r - 1 : Nat) : Int) := by omega
    have ei' : y - r - 1 + 1 = y - r := by omega
    by_cases hj : r + 1 ≤ x
    · have ej : (x : Int) - r - 1 = ((x - r - 1 : Nat) : Int) := by omega
      have ej' : x - r - 1 + 1 = x - r := by omega
      rw [ei, ej]
      rw [if_pos ⟨by omega, by omega⟩]
      rw [vget2_tabulate _ (by omega : y - r - 1 < Y + 1) (by omega : x - r - 1 < X + 1),
        vget2_tabulate _ hY (by omega : x - r - 1 < X + 1),
        vget2_tabulate _ (by omega : y - r - 1 < Y + 1) hX]
      refine ⟨_, _, rfl, rfl, ?_, ?_⟩
      · simp only [enc, fin_add, fin_sub, ei', ej', pre_min_left h, pre_min_right h]
        rfl
      · simp only [enc, ei', ej', pre_min_left h, pre_min_right h]
        rfl
    · rw [ei, if_neg (by omega), if_neg (by omega), if_pos (by omega)]
      rw [vget2_tabulate _ (by omega : y - r - 1 < Y + 1) hX]
      have : x - r = 0 := by omega
      refine ⟨_, _, rfl, rfl, ?_, ?_⟩
      · simp only [enc, fin_add, fin_sub, ei', this, pre_min_right h, pre_zero_right, Fl.zero_def]
        simp
      · simp only [enc, ei', this, pre_min_right h, pre_zero_right]
        simp
  · have hy0 : y - r = 0 := by omega
    by_cases hj : r + 1 ≤ x
    · have ej : (x : Int) - r - 1 = ((x - r - 1 : Nat) : Int) := by omega
      have ej' : x - r - 1 + 1 = x - r := by omega
      rw [ej, if_neg (by omega), if_pos (by omega), vget2_tabulate _ hY (by omega : x - r - 1 < X + 1)]
      refine ⟨_, _, rfl, rfl, ?_, ?_⟩
      · simp only [enc, fin_add, fin_sub, ej', hy0, pre_min_left h, pre_zero_left, Fl.zero_def]
        simp
      · simp only [enc, ej', hy0, pre_min_left h, pre_zero_left]
        simp
    · have hx0 : x - r = 0 := by omega
      rw [if_neg (by omega), if_neg (by omega), if_neg (by omega)]
      refine ⟨_, _, rfl, rfl, ?_, ?_⟩
      · simp only [enc, fin_add, fin_sub, hx0, hy0, pre_zero_left, pre_zero_right, Fl.zero_def]
        simp
      · simp only [enc, hx0, hy0, pre_zero_left, pre_zero_right]
        simp

theorem nbTable_ok {Y X : Nat} {a : List (List (Fl K))} (h : Rect Y X a) : ∃ table, nbTable Y X a = ok table :=
  ⟨_, by rw [nbTable_eq, satTable_ok (rect_map clean h)]⟩

/-- One cell of the mean or sum: the statistic of the box, if a value of it is present. -/
theorem nbSumCell_ok [HasSqrt K] {Y X : Nat} {a : List (List (Fl K))} (h : Rect Y X a) (r : Nat) (s : StatType) (e : Nat) (f : FieldC K)
    {y x : Nat} (hy : y < Y) (hx : x < X) {table : List (List (Fl K × Int))} (ht : nbTable Y X a = ok table) :
      nbSumCell table Y X (r : Int) s e f y x = if present (square a r y x) = [] then ok f else
        f.set y x e (fin (if s = .mean then (present (square a r y x)).sum / ((present (square a r y x)).length : K) else
          (present (square a r y x)).sum)) := by
  have h' := rect_map clean h
  rw [nbTable_eq, satTable_ok h', Res.ok.injEq] at ht
  subst ht
  obtain ⟨c11, c, h1, h2, h3, h4⟩ := nbCorners_ok h' r hy hx
  have htot : tot (square (a.map (·.map clean)) r y x) = ((present (square a r y x)).sum, ((present (square a r y x)).length : Int)) := by
    rw [square_map, tot, vals_clean]
  rw [htot] at h3 h4
  unfold nbSumCell
  simp only [h1, h2, ok_bind, h3, h4]
  by_cases hp : present (square a r y x) = []
  · simp [hp]
  · have hlen : 0 < (present (square a r y x)).length := List.length_pos_iff.mpr hp
    have hne : ((present (square a r y x)).length : K) ≠ 0 := by exact_mod_cast hlen.ne'
    rw [if_neg hp, if_pos (by exact_mod_cast hlen)]
    congr 1
    split_ifs
    · simp only [ofInt_def, Int.cast_natCast, fin_div_of_ne _ hne]
    · rfl

/-- The statistic of the box, value by value. -/
theorem nbBoxStat_ok [HasSqrt K] (o : NbOpts K) {Y X : Nat} {a : List (List (Fl K))} (h : Rect Y X a) (r : Nat) {y x : Nat} (hy : y < Y)
    (hx : x < X) : nbBoxStat o a Y X (r : Int) (y : Int) (x : Int) = calculateStat (square a r y x) o.stat o.quantile := by
  unfold nbBoxStat
  rw [squareSize_ok hy hx, ok_bind, collectSquare_ok h hy hx, ok_bind, ← length_square h hy hx]
  simp

/-- The statistic of a column. -/
theorem nbSliver_ok [HasSqrt K] (o : NbOpts K) {Y X : Nat} {a : List (List (Fl K))} (h : Rect Y X a) {r y : Nat} (hr : r ≤ y) (hr' : y + r < Y)
    {x : Nat} (hx : x < X) : nbSliver o a (r : Int) (y : Int) (x : Int) = calculateStat (column a (y - r) (y + r) x) o.stat o.quantile := by
  unfold nbSliver
  rw [if_neg (by omega)]
  have hYl : a.length = Y := h.1
  have e1 : (y : Int) - r = ((y - r : Nat) : Int) := by omega
  have e2 : (y : Int) + r = ((y + r : Nat) : Int) := by omega
  rw [e1, e2, mapM_irange_slice (l := a) (g := fun row => (row[x]?).getD nan) (by omega)]
  · rw [ok_bind]
    congr 1
    unfold column
    symm
    apply filterMap_eq_map_of_some
    intro row hrow
    have hrl : row.length = X := h.2 row (by unfold slice at hrow; exact List.mem_of_mem_take (List.mem_of_mem_drop hrow))
    rw [List.getElem?_eq_getElem (by omega)]
    rfl
  · intro i hi _ _
    have hrl := h.row_length hi
    simp only [vget2]
    rw [vget_eq_ok_of_lt hi, ok_bind, vget_eq_ok_of_lt (by omega), List.getElem?_eq_getElem (by omega)]
    rfl

/-- The statistic of the statistics `sv` of the columns. -/
theorem nbOfSlivers_ok [HasSqrt K] (o : NbOpts K) {X : Nat} (sv : Nat → Fl K) (r : Nat) {x : Nat} (hx : x < X) :
    nbOfSlivers o ((List.range X).map sv) X (r : Int) (x : Int) =
      calculateStat ((slice (x - r) (x + r) (List.range X)).map sv) o.stat o.quantile := by
  unfold nbOfSlivers
  obtain ⟨X, rfl⟩ : ∃ k, X = k + 1 := ⟨X - 1, by omega⟩
  rw [clip_lo, clip_hi]
  rw [mapM_irange_slice (l := (List.range (X + 1)).map sv) (g := id) (by simp) (fun i hi _ _ => by
    rw [vget_eq_ok_of_lt hi]; rfl)]
  rw [ok_bind, List.map_id, slice_min _ _ _ X (by simp), slice_map]

theorem mem_slice_range {lo hi n j : Nat} : j ∈ slice lo hi (List.range n) ↔ lo ≤ j ∧ j ≤ hi ∧ j < n := by
  rw [mem_slice]
  constructor
  · rintro ⟨k, h1, h2, h3⟩
    obtain ⟨h4, h5⟩ := List.getElem?_eq_some_iff.mp h3
    simp only [List.getElem_range, List.length_range] at h4 h5
    omega
  · rintro ⟨h1, h2, h3⟩
    exact ⟨j, h1, h2, by simp [h3]⟩

/-- The values of the box are those of its columns. -/
theorem mem_square_columns [HasSqrt K] {Y X : Nat} {a : List (List (Fl K))} (h : Rect Y X a) {r y x : Nat} {v : Fl K} :
    v ∈ square a r y x ↔ ∃ j ∈ slice (x - r) (x + r) (List.range X), v ∈ column a (y - r) (y + r) j := by
  rw [mem_square]
  constructor
  · rintro ⟨i, j, h1, h2, h3, h4, h5⟩
    have hj : j < X := by
      unfold cell? at h5
      cases hr : a[i]? with
      | none => rw [hr] at h5; simp at h5
      | some row =>
        rw [hr] at h5
        simp only [Option.bind_some] at h5
        rw [← h.2 row (List.mem_of_getElem? hr)]
        exact (List.getElem?_eq_some_iff.mp h5).1
    exact ⟨j, mem_slice_range.mpr ⟨h3, h4, hj⟩, mem_column.mpr ⟨i, h1, h2, h5⟩⟩
  · rintro ⟨j, hj, hv⟩
    obtain ⟨h3, h4, -⟩ := mem_slice_range.mp hj
    obtain ⟨i, h1, h2, h5⟩ := mem_column.mp hv
    exact ⟨i, j, h1, h2, h3, h4, h5⟩

/-- Writing a matrix into one member. -/
theorem nbWrite_ok [HasSqrt K] {Y X E : Nat} (g : Nat → Nat → Fl K) {e : Nat} (he : e < E) {f : FieldC K} (hf : Sized Y X E f) :
    ∃ f', nbWrite (tabulate Y X g) Y X e f = ok f' ∧ Sized Y X E f' ∧ (∀ y < Y, ∀ x < X, f'.get y x e = ok (g y x)) ∧
      ∀ y x e', e' ≠ e → f'.get y x e' = f.get y x e' := by
  unfold nbWrite
  obtain ⟨out, h1, h2, h3⟩ := forCells_spec (Y := Y) (X := X) (E := E) (fun f i j => do
    let v ← vget2 (tabulate Y X g) (i : Int) (j : Int)
    f.set i j e v) (fun y x u v => v e = ok (g y x) ∧ ∀ e', e' ≠ e → v e' = u e') (by
      intro f hf y hy x hx
      obtain ⟨f', g1, g2, g3, g4⟩ := hf.set hy hx he (g y x)
      refine ⟨f', by rw [vget2_tabulate _ hy hx, ok_bind]; exact g1, g2, ⟨g3, fun e' h => g4 _ _ _ (by simp [h])⟩, fun y' x' h => ?_⟩
      funext e'
      exact g4 _ _ _ (fun hc => h ⟨hc.1, hc.2.1⟩)) f hf
  refine ⟨out, h1, h2, fun y hy x hx => (h3 y hy x hx).1, fun y x e' he' => ?_⟩
  by_cases hin : y < Y ∧ x < X
  · exact (h3 y hin.1 x hin.2).2 e' he'
  · rw [h2.get_abort (fun hc => hin ⟨hc.1, hc.2.1⟩), hf.get_abort (fun hc => hin ⟨hc.1, hc.2.1⟩)]

end Gridpp.Client
