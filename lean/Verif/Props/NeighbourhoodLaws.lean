import Verif.Props.Neighbourhood
import Verif.Spec.Units
import Mathlib.Data.List.ProdSigma

/-!
C170: minima and maxima of minima and maxima. C171: units. C172: mirror images. Laws that relate several calls of the neighbourhood functions.
-/

set_option linter.unusedSectionVars false

namespace Gridpp.Props
open Fl Res Spec

section
variable {K : Type} [Field K] [LinearOrder K] [IsStrictOrderedRing K] [FloorRing K] [HasSqrt K]

/-- The result of a function for fields is found from the values in the square around each cell. -/
def FromSquares (op : List (List (Fl K)) → Nat → Res (List (List (Fl K)))) (f : List (Fl K) → Fl K) : Prop :=
  ∀ (Y X : Nat) (a : List (List (Fl K))), Rect Y X a → 0 < Y → 0 < X → ∀ hw, op a hw = ok (tabulate Y X fun y x => f (square a hw y x))

theorem fromSquares_neighbourhood (rnd : Rnd K) {s : Statistic} (hs : Deterministic s) :
    ∃ f, (∀ l, calcStatistic rnd l s = ok (f l)) ∧ FromSquares (fun a hw => neighbourhood rnd a (hw : Int) s) f := by
  choose f hf using fun l => c01_missing_iff rnd l s hs
  refine ⟨f, fun l => (hf l).1, fun Y X a h hY hX hw => ?_⟩
  obtain ⟨out, h1, h2, -⟩ := neighbourhood_total rnd h hY hX hw hs
  show neighbourhood rnd a (hw : Int) s = _
  rw [h1]
  congr 1
  refine h2.1.ext (rect_tabulate _ _ _) fun y hy x hx => ?_
  obtain ⟨v, h3, h4⟩ := h2.2 y hy x hx
  rw [h3, cell?_tabulate _ hy hx]
  have := (hf (square a hw y x)).1
  rw [h4] at this
  cases this
  rfl

theorem fromSquares_quantile (rnd : Rnd K) {q : K} (h0 : 0 ≤ q) (h1 : q ≤ 1) :
    ∃ f, (∀ l, calcQuantile l (fin q) = ok (f l)) ∧ FromSquares (fun a hw => neighbourhoodQuantile rnd a (fin q) (hw : Int)) f := by
  have hq : ∀ l : List (Fl K), ∃ v, calcQuantile l (fin q) = ok v := fun l =>
    (c04_throws_iff l (fin q)).2.mpr (by simp [Fl.zero_def, Fl.one_def, not_lt.mpr h0, not_lt.mpr h1])
  choose f hf using hq
  refine ⟨f, hf, fun Y X a h hY hX hw => ?_⟩
  show neighbourhoodQuantile rnd a (fin q) (hw : Int) = _
  unfold neighbourhoodQuantile
  rw [neighbourhoodBrute_quantile rnd h hY hX hw, grid2_ok (g := fun y x => f (square a hw y x))]
  · rfl
  · intro y hy x hx
    rw [collectSquare_ok h hy hx, ok_bind]; exact hf _

/-! ## C170 -/

theorem stat_max (rnd : Rnd K) (l : List (Fl K)) (v : Fl K) :
    calcStatistic rnd l .max = ok v → (v = nan ∧ vals l = []) ∨ ∃ m, v = fin m ∧ MaxOf m (vals l) := by
  intro h
  by_cases hl : vals l = []
  · rw [calcStatistic_minmax_none rnd l hl _ (Or.inr rfl)] at h; cases h; exact Or.inl ⟨rfl, hl⟩
  · obtain ⟨q, hq⟩ := List.exists_mem_of_ne_nil _ hl
    obtain ⟨_, _, m, _, -, -, -, -, -, -, h1, h2, -⟩ := c02_mean_sum_count_min_max rnd l ⟨fin q, mem_vals.mp hq, rfl⟩
    rw [h1] at h; cases h
    exact Or.inr ⟨m, rfl, h2⟩

theorem stat_min (rnd : Rnd K) (l : List (Fl K)) (v : Fl K) :
    calcStatistic rnd l .min = ok v → (v = nan ∧ vals l = []) ∨ ∃ m, v = fin m ∧ MinOf m (vals l) := by
  intro h
  by_cases hl : vals l = []
  · rw [calcStatistic_minmax_none rnd l hl _ (Or.inl rfl)] at h; cases h; exact Or.inl ⟨rfl, hl⟩
  · obtain ⟨q, hq⟩ := List.exists_mem_of_ne_nil _ hl
    obtain ⟨_, m, _, _, -, -, -, -, h1, h2, -⟩ := c02_mean_sum_count_min_max rnd l ⟨fin q, mem_vals.mp hq, rfl⟩
    rw [h1] at h; cases h
    exact Or.inr ⟨m, rfl, h2⟩

/-- A cell at most `h1 + h2` away is at most `h1` away from one that is at most `h2` away. -/
theorem between {n y i h1 h2 : Nat} (hy : y < n) (hi : i < n) (ha : y ≤ i + (h1 + h2)) (hb : i ≤ y + (h1 + h2)) :
    ∃ k < n, y ≤ k + h2 ∧ k ≤ y + h2 ∧ k ≤ i + h1 ∧ i ≤ k + h1 := by
  rcases le_total y i with h | h
  · exact ⟨min i (y + h2), by omega, by omega, by omega, by omega, by omega⟩
  · exact ⟨max i (y - h2), by omega, by omega, by omega, by omega, by omega⟩

theorem cell?_lt {α : Type} {Y X : Nat} {a : List (List α)} (h : Rect Y X a) {i j : Nat} {v : α} (hv : cell? a i j = some v) : i < Y ∧ j < X := by
  unfold cell? at hv
  obtain ⟨r, hr, hj⟩ := Option.bind_eq_some_iff.mp hv
  obtain ⟨hi, rfl⟩ := List.getElem?_eq_some_iff.mp hr
  obtain ⟨hj, -⟩ := List.getElem?_eq_some_iff.mp hj
  rw [h.2 _ (List.getElem_mem hi)] at hj
  exact ⟨h.1 ▸ hi, hj⟩

/-- The numbers in the larger square are those in the squares around the cells of a smaller square. -/
theorem vals_square_add {Y X : Nat} {a : List (List (Fl K))} (h : Rect Y X a) (h1 h2 : Nat) {y x : Nat} (hy : y < Y) (hx : x < X) (q : K) :
    q ∈ vals (square a (h1 + h2) y x) ↔
      ∃ i < Y, ∃ j < X, y ≤ i + h2 ∧ i ≤ y + h2 ∧ x ≤ j + h2 ∧ j ≤ x + h2 ∧ q ∈ vals (square a h1 i j) := by
  rw [mem_vals, (square_spec h (h1 + h2) hy hx).1]
  constructor
  · rintro ⟨i, j, a1, a2, a3, a4, hv⟩
    obtain ⟨hi, hj⟩ := cell?_lt h hv
    obtain ⟨k, hk, b1, b2, b3, b4⟩ := between hy hi a1 a2
    obtain ⟨l, hl, c1, c2, c3, c4⟩ := between hx hj a3 a4
    exact ⟨k, hk, l, hl, b1, b2, c1, c2, mem_vals.mpr (((square_spec h h1 hk hl).1 _).mpr ⟨i, j, b3, b4, c3, c4, hv⟩)⟩
  · rintro ⟨k, hk, l, hl, b1, b2, c1, c2, hq⟩
    obtain ⟨i, j, a1, a2, a3, a4, hv⟩ := ((square_spec h h1 hk hl).1 _).mp (mem_vals.mp hq)
    exact ⟨i, j, by omega, by omega, by omega, by omega, hv⟩

/-- **C170**: the maximum over squares of the maximum over squares is the maximum over the squares of the sum of the half widths; the same for the minimum. This
holds up to the borders, and with any missing values. -/
theorem c170_compose (rnd : Rnd K) (Y X : Nat) (a : List (List (Fl K))) (h : Rect Y X a) (hY : 0 < Y) (hX : 0 < X) (h1 h2 : Nat) (s : Statistic)
    (hs : s = .min ∨ s = .max) :
    ∃ b out, neighbourhood rnd a (h1 : Int) s = ok b ∧ neighbourhood rnd b (h2 : Int) s = ok out ∧
      neighbourhood rnd a ((h1 : Int) + h2) s = ok out := by
  have hd : Deterministic s := by rcases hs with rfl | rfl <;> simp [Deterministic]
  obtain ⟨f, hf, hop⟩ := fromSquares_neighbourhood rnd hd
  have e1 := hop Y X a h hY hX h1
  have e2 := hop Y X _ (rect_tabulate Y X fun y x => f (square a h1 y x)) hY hX h2
  have e3 := hop Y X a h hY hX (h1 + h2)
  push_cast at e3
  refine ⟨_, _, e1, e2, ?_⟩
  rw [e3]
  congr 1
  refine (rect_tabulate _ _ _).ext (rect_tabulate _ _ _) fun y hy x hx => ?_
  rw [cell?_tabulate _ hy hx, cell?_tabulate _ hy hx]
  congr 1
  -- the numbers in the second square
  have hin : ∀ q, q ∈ vals (square (tabulate Y X fun y x => f (square a h1 y x)) h2 y x) ↔
      ∃ i < Y, ∃ j < X, y ≤ i + h2 ∧ i ≤ y + h2 ∧ x ≤ j + h2 ∧ j ≤ x + h2 ∧ f (square a h1 i j) = fin q := by
    intro q
    rw [mem_vals, (square_spec (rect_tabulate _ _ _) h2 hy hx).1]
    constructor
    · rintro ⟨i, j, a1, a2, a3, a4, hv⟩
      obtain ⟨hi, hj⟩ := cell?_lt (rect_tabulate _ _ _) hv
      rw [cell?_tabulate _ hi hj] at hv
      exact ⟨i, hi, j, hj, a1, a2, a3, a4, Option.some.inj hv⟩
    · rintro ⟨i, hi, j, hj, a1, a2, a3, a4, hv⟩
      exact ⟨i, j, a1, a2, a3, a4, by rw [cell?_tabulate _ hi hj, hv]⟩
  have hout := vals_square_add h h1 h2 hy hx
  rcases hs with rfl | rfl
  · rcases stat_min rnd _ _ (hf (square a (h1 + h2) y x)) with ⟨e, hn⟩ | ⟨m, e, hm, hle⟩ <;>
    rcases stat_min rnd _ _ (hf (square (tabulate Y X fun y x => f (square a h1 y x)) h2 y x)) with ⟨e', hn'⟩ | ⟨m', e', hm', hle'⟩
    · rw [e, e']
    · obtain ⟨i, hi, j, hj, a1, a2, a3, a4, hv⟩ := (hin m').mp hm'
      rcases stat_min rnd _ _ (hf (square a h1 i j)) with ⟨e1, -⟩ | ⟨m1, e1, hm1, -⟩
      · rw [e1] at hv; cases hv
      · rw [e1] at hv; cases hv
        have := (hout m').mpr ⟨i, hi, j, hj, a1, a2, a3, a4, hm1⟩
        rw [hn] at this; cases this
    · obtain ⟨i, hi, j, hj, a1, a2, a3, a4, hv⟩ := (hout m).mp hm
      rcases stat_min rnd _ _ (hf (square a h1 i j)) with ⟨-, e1⟩ | ⟨m1, e1, -, -⟩
      · rw [e1] at hv; cases hv
      · have := (hin m1).mpr ⟨i, hi, j, hj, a1, a2, a3, a4, e1⟩
        rw [hn'] at this; cases this
    · rw [e, e']
      congr 1
      apply le_antisymm
      · obtain ⟨i, hi, j, hj, a1, a2, a3, a4, hv⟩ := (hin m').mp hm'
        rcases stat_min rnd _ _ (hf (square a h1 i j)) with ⟨e1, -⟩ | ⟨m1, e1, hm1, -⟩
        · rw [e1] at hv; cases hv
        · rw [e1] at hv; cases hv
          exact hle _ ((hout m').mpr ⟨i, hi, j, hj, a1, a2, a3, a4, hm1⟩)
      · obtain ⟨i, hi, j, hj, a1, a2, a3, a4, hv⟩ := (hout m).mp hm
        rcases stat_min rnd _ _ (hf (square a h1 i j)) with ⟨-, e1⟩ | ⟨m1, e1, -, hle1⟩
        · rw [e1] at hv; cases hv
        · exact (hle' _ ((hin m1).mpr ⟨i, hi, j, hj, a1, a2, a3, a4, e1⟩)).trans (hle1 _ hv)
  · rcases stat_max rnd _ _ (hf (square a (h1 + h2) y x)) with ⟨e, hn⟩ | ⟨m, e, hm, hle⟩ <;>
    rcases stat_max rnd _ _ (hf (square (tabulate Y X fun y x => f (square a h1 y x)) h2 y x)) with ⟨e', hn'⟩ | ⟨m', e', hm', hle'⟩
    · rw [e, e']
    · obtain ⟨i, hi, j, hj, a1, a2, a3, a4, hv⟩ := (hin m').mp hm'
      rcases stat_max rnd _ _ (hf (square a h1 i j)) with ⟨e1, -⟩ | ⟨m1, e1, hm1, -⟩
      · rw [e1] at hv; cases hv
      · rw [e1] at hv; cases hv
        have := (hout m').mpr ⟨i, hi, j, hj, a1, a2, a3, a4, hm1⟩
        rw [hn] at this; cases this
    · obtain ⟨i, hi, j, hj, a1, a2, a3, a4, hv⟩ := (hout m).mp hm
      rcases stat_max rnd _ _ (hf (square a h1 i j)) with ⟨-, e1⟩ | ⟨m1, e1, -, -⟩
      · rw [e1] at hv; cases hv
      · have := (hin m1).mpr ⟨i, hi, j, hj, a1, a2, a3, a4, e1⟩
        rw [hn'] at this; cases this
    · rw [e, e']
      congr 1
      apply le_antisymm
      · obtain ⟨i, hi, j, hj, a1, a2, a3, a4, hv⟩ := (hout m).mp hm
        rcases stat_max rnd _ _ (hf (square a h1 i j)) with ⟨-, e1⟩ | ⟨m1, e1, -, hle1⟩
        · rw [e1] at hv; cases hv
        · exact (hle1 _ hv).trans (hle' _ ((hin m1).mpr ⟨i, hi, j, hj, a1, a2, a3, a4, e1⟩))
      · obtain ⟨i, hi, j, hj, a1, a2, a3, a4, hv⟩ := (hin m').mp hm'
        rcases stat_max rnd _ _ (hf (square a h1 i j)) with ⟨e1, -⟩ | ⟨m1, e1, hm1, -⟩
        · rw [e1] at hv; cases hv
        · rw [e1] at hv; cases hv
          exact hle _ ((hout m').mpr ⟨i, hi, j, hj, a1, a2, a3, a4, hm1⟩)

/-- **C170**: with a larger half width the maximum does not decrease, the minimum does not increase, and a cell with a value keeps one. -/
theorem c170_grows (rnd : Rnd K) (Y X : Nat) (a : List (List (Fl K))) (h : Rect Y X a) (hY : 0 < Y) (hX : 0 < X) (hw hw' : Nat) (hle : hw ≤ hw') :
    ∃ lo hi lo' hi', neighbourhood rnd a (hw : Int) .min = ok lo ∧ neighbourhood rnd a (hw : Int) .max = ok hi ∧
      neighbourhood rnd a (hw' : Int) .min = ok lo' ∧ neighbourhood rnd a (hw' : Int) .max = ok hi' ∧
      ∀ y < Y, ∀ x < X, (cell? lo y x = some nan ∧ cell? hi y x = some nan) ∨
        ∃ l u l' u', cell? lo y x = some (fin l) ∧ cell? hi y x = some (fin u) ∧ cell? lo' y x = some (fin l') ∧ cell? hi' y x = some (fin u') ∧
          l' ≤ l ∧ l ≤ u ∧ u ≤ u' := by
  obtain ⟨f, hf, hop⟩ := fromSquares_neighbourhood rnd (s := .min) (by simp [Deterministic])
  obtain ⟨g, hg, hop'⟩ := fromSquares_neighbourhood rnd (s := .max) (by simp [Deterministic])
  refine ⟨_, _, _, _, hop Y X a h hY hX hw, hop' Y X a h hY hX hw, hop Y X a h hY hX hw', hop' Y X a h hY hX hw', fun y hy x hx => ?_⟩
  simp only [cell?_tabulate _ hy hx]
  have hsub : ∀ q, q ∈ vals (square a hw y x) → q ∈ vals (square a hw' y x) := by
    intro q hq
    rw [mem_vals, (square_spec h _ hy hx).1] at hq ⊢
    obtain ⟨i, j, a1, a2, a3, a4, hv⟩ := hq
    exact ⟨i, j, by omega, by omega, by omega, by omega, hv⟩
  rcases stat_min rnd _ _ (hf (square a hw y x)) with ⟨e, hn⟩ | ⟨l, e, hl, hl'⟩
  · rcases stat_max rnd _ _ (hg (square a hw y x)) with ⟨e', -⟩ | ⟨u, e', hu, -⟩
    · exact Or.inl ⟨by rw [e], by rw [e']⟩
    · rw [hn] at hu; cases hu
  · rcases stat_max rnd _ _ (hg (square a hw y x)) with ⟨e', hn⟩ | ⟨u, e', hu, hu'⟩
    · rw [hn] at hl; cases hl
    rcases stat_min rnd _ _ (hf (square a hw' y x)) with ⟨-, hn⟩ | ⟨l2, e2, hl2, hl2'⟩
    · have := hsub _ hl; rw [hn] at this; cases this
    rcases stat_max rnd _ _ (hg (square a hw' y x)) with ⟨-, hn⟩ | ⟨u2, e2', hu2, hu2'⟩
    · have := hsub _ hl; rw [hn] at this; cases this
    exact Or.inr ⟨l, u, l2, u2, by rw [e], by rw [e'], by rw [e2], by rw [e2'], hl2' _ (hsub _ hl), hl' _ hu, hu2' _ (hsub _ hu)⟩

example : (do let b ← neighbourhood (fun _ => 0) demo 1 .max; neighbourhood (fun _ => 0) b 1 .max) = neighbourhood (fun _ => 0) demo 2 .max ∧
    neighbourhood (fun _ => 0) demo 1 .max ≠ neighbourhood (fun _ => 0) demo 2 .max := by
  decide +kernel

/-! ## C171 -/

omit [FloorRing K] [HasSqrt K] in
theorem vals_inUnits (c d : K) (l : List (Fl K)) : vals (l.map (inUnits c d)) = (vals l).map fun v => c * v + d := by
  have hs : ∀ (b : K) (t : List (Fl K)), vals ((infOfSign b + fin d) :: t) = vals t := by
    intro b t
    unfold infOfSign
    split_ifs <;> rfl
  induction l with
  | nil => rfl
  | cons v t ih =>
    rw [List.map_cons]
    cases v with
    | fin q => simp [inUnits, ih]
    | nan => exact ih
    | pinf => exact (hs c _).trans ih
    | ninf => exact (hs (-c) _).trans ih

theorem square_mapped {α β : Type} (f : α → β) (a : List (List α)) (hw y x : Nat) : square (a.map (List.map f)) hw y x = (square a hw y x).map f := by
  unfold square slice
  rw [← List.map_take, ← List.map_drop, List.flatMap_map, List.map_flatMap]
  congr 1
  funext r
  rw [← List.map_take, ← List.map_drop]

theorem polyline_affine {s : List K} {p v : K} (c d : K) (h : OnPolyline s p v) : OnPolyline (s.map fun x => c * x + d) p (c * v + d) := by
  rcases h with ⟨i, hi, h1, h2⟩ | ⟨i, hi, h1, h2, h3⟩
  · exact Or.inl ⟨i, by simpa using hi, h1, by rw [List.getElem_map, h2]⟩
  · refine Or.inr ⟨i, by simpa using hi, h1, h2, ?_⟩
    rw [List.getElem_map, List.getElem_map, h3]
    ring

theorem polyline_reverse {s : List K} {p v : K} (h : OnPolyline s p v) : OnPolyline s.reverse ((s.length : K) - 1 - p) v := by
  rcases h with ⟨i, hi, h1, h2⟩ | ⟨i, hi, h1, h2, h3⟩
  · refine Or.inl ⟨s.length - 1 - i, by rw [List.length_reverse]; omega, ?_, ?_⟩
    · rw [Nat.cast_sub (by omega), Nat.cast_sub (by omega), h1]; simp
    · rw [List.getElem_reverse, h2]
      congr 1
      omega
  · have e : ((s.length - 1 - (i + 1) : Nat) : K) = (s.length : K) - 1 - (i + 1) := by
      rw [Nat.cast_sub (by omega), Nat.cast_sub (by omega)]; push_cast; ring
    refine Or.inr ⟨s.length - 1 - (i + 1), by rw [List.length_reverse]; omega, ?_, ?_, ?_⟩
    · rw [e]; linarith
    · rw [e]; linarith
    · have a1 : s.length - 1 - (s.length - 1 - (i + 1)) = i + 1 := by omega
      have a2 : s.length - 1 - (s.length - 1 - (i + 1) + 1) = i := by omega
      rw [List.getElem_reverse, List.getElem_reverse, e, h3]
      simp only [a1, a2]
      ring

theorem sorted_unique {xs ys : List K} (h : ys.Perm xs) (hs : ys.Pairwise (· ≤ ·)) : sorted xs = ys :=
  ((sorted_perm xs).trans h.symm).eq_of_pairwise (fun _ _ _ _ h1 h2 => le_antisymm h1 h2) (pairwise_sorted xs) hs

/-- The quantile in other units: the same level for a positive factor, the level from the other end for a negative one. -/
theorem quantile_inUnits (c d : K) (l : List (Fl K)) {q : K} (h0 : 0 ≤ q) (h1 : q ≤ 1) {v : Fl K} (hv : calcQuantile l (fin q) = ok v) :
    (0 ≤ c → calcQuantile (l.map (inUnits c d)) (fin q) = ok (inUnits c d v)) ∧
    (c ≤ 0 → calcQuantile (l.map (inUnits c d)) (fin (1 - q)) = ok (inUnits c d v)) := by
  by_cases hl : vals l = []
  · have hl' : vals (l.map (inUnits c d)) = [] := by rw [vals_inUnits, hl]; rfl
    rw [calcQuantile_none l hl h0 h1] at hv
    cases hv
    exact ⟨fun _ => calcQuantile_none _ hl' h0 h1, fun _ => calcQuantile_none _ hl' (by linarith) (by linarith)⟩
  · have hl' : vals (l.map (inUnits c d)) ≠ [] := by rw [vals_inUnits]; simpa using hl
    obtain ⟨m, e, hm⟩ := calcQuantile_polyline l hl h0 h1
    rw [e] at hv; cases hv
    have hlen : (vals (l.map (inUnits c d))).length = (vals l).length := by rw [vals_inUnits, List.length_map]
    have hm1 := polyline_affine c d hm
    constructor
    · intro hc
      obtain ⟨m', e', hm'⟩ := calcQuantile_polyline _ hl' h0 h1
      have hs : sorted (vals (l.map (inUnits c d))) = (sorted (vals l)).map fun x => c * x + d := by
        refine sorted_unique (by rw [vals_inUnits]; exact (sorted_perm _).map _) (List.pairwise_map.mpr ((pairwise_sorted (vals l)).imp fun {a b} hab => ?_))
        have := mul_le_mul_of_nonneg_left hab hc
        linarith
      rw [hlen, hs] at hm'
      rw [e', polyline_unique (hs ▸ pairwise_sorted _) hm' hm1]
      simp [inUnits]
    · intro hc
      obtain ⟨m', e', hm'⟩ := calcQuantile_polyline _ hl' (q := 1 - q) (by linarith) (by linarith)
      have hs : sorted (vals (l.map (inUnits c d))) = ((sorted (vals l)).map fun x => c * x + d).reverse := by
        refine sorted_unique ((List.reverse_perm _).trans (by rw [vals_inUnits]; exact (sorted_perm _).map _)) ?_
        rw [List.pairwise_reverse]
        refine List.pairwise_map.mpr ((pairwise_sorted (vals l)).imp fun {a b} hab => ?_)
        have := mul_le_mul_of_nonpos_left hab hc
        linarith
      have hm2 := polyline_reverse hm1
      rw [hlen, hs] at hm'
      rw [List.length_map, length_sorted] at hm2
      rw [show (1 - q) * (((vals l).length : K) - 1) = ((vals l).length : K) - 1 - q * (((vals l).length : K) - 1) by ring] at hm'
      rw [e', polyline_unique (hs ▸ pairwise_sorted _) hm' hm2]
      simp [inUnits]

theorem variance_affine (c d : K) {xs : List K} (h : xs ≠ []) : Spec.variance (xs.map fun v => c * v + d) = c ^ 2 * Spec.variance xs := by
  have hm : Spec.mean (xs.map fun v => c * v + d) = c * Spec.mean xs + d := by
    unfold Spec.mean
    have hl : (xs.length : K) ≠ 0 := length_ne_zero h
    have hsum : (xs.map fun v => c * v + d).sum = c * xs.sum + xs.length * d := by
      clear h hl
      induction xs with
      | nil => simp
      | cons a t ih => simp only [List.map_cons, List.sum_cons, ih, List.length_cons]; push_cast; ring
    rw [hsum, List.length_map]
    field_simp
  unfold Spec.variance
  rw [hm, List.map_map, List.length_map]
  have : ((xs.map ((fun x => (x - (c * Spec.mean xs + d)) ^ 2) ∘ fun v => c * v + d))).sum = c ^ 2 * (xs.map fun x => (x - Spec.mean xs) ^ 2).sum := by
    rw [← List.sum_map_mul_left]
    congr 2
    funext x
    simp only [Function.comp]
    ring
  rw [this, mul_div_assoc]

/-- Statistics in other units. -/
theorem stat_inUnits (rnd : Rnd K) (c d : K) (l : List (Fl K)) :
    (∀ v, calcStatistic rnd l .mean = ok v → calcStatistic rnd (l.map (inUnits c d)) .mean = ok (inUnits c d v)) ∧
    (∀ v, calcStatistic rnd l .count = ok v → calcStatistic rnd (l.map (inUnits c d)) .count = ok v) ∧
    (∀ v n, calcStatistic rnd l .sum = ok v → calcStatistic rnd l .count = ok n →
      calcStatistic rnd (l.map (inUnits c d)) .sum = ok (fin c * v + n * fin d)) ∧
    (∀ v, calcStatistic rnd l .variance = ok v → calcStatistic rnd (l.map (inUnits c d)) .variance = ok (fin (c ^ 2) * v)) := by
  have hsum : ∀ xs : List K, (xs.map fun v => c * v + d).sum = c * xs.sum + xs.length * d := by
    intro xs
    induction xs with
    | nil => simp
    | cons a t ih => simp only [List.map_cons, List.sum_cons, ih, List.length_cons]; push_cast; ring
  by_cases hl : vals l = []
  · have hl' : vals (l.map (inUnits c d)) = [] := by rw [vals_inUnits, hl]; rfl
    refine ⟨fun v h => ?_, fun v h => ?_, fun v n h h' => ?_, fun v h => ?_⟩
    · simp [calcStatistic, sumCount_eq, hl] at h
      simp [calcStatistic, sumCount_eq, hl', ← h, inUnits]
    · simp [calcStatistic, sumCount_eq, hl] at h
      simp [calcStatistic, sumCount_eq, hl', ← h]
    · simp [calcStatistic, sumCount_eq, hl] at h
      simp [calcStatistic, sumCount_eq, hl', ← h]
    · simp [calcStatistic, calcVariance_none l hl] at h
      simp [calcStatistic, calcVariance_none _ hl', ← h]
  · have hn := length_ne_zero hl
    have hp : 0 < (vals l).length := List.length_pos_iff.mpr hl
    have hl' : vals (l.map (inUnits c d)) ≠ [] := by rw [vals_inUnits]; simpa using hl
    refine ⟨fun v h => ?_, fun v h => ?_, fun v n h h' => ?_, fun v h => ?_⟩
    · simp only [calcStatistic, sumCount_eq, hp, if_true, ofNat_def, fin_div_of_ne _ hn] at h
      cases h
      simp only [calcStatistic, sumCount_eq, vals_inUnits, List.length_map, hp, if_true, ofNat_def, fin_div_of_ne _ hn, hsum, inUnits, fin_mul, fin_add]
      congr 2
      field_simp
    · simp only [calcStatistic, sumCount_eq, vals_inUnits, List.length_map] at h ⊢
      exact h
    · simp only [calcStatistic, sumCount_eq, hp, if_true, ofNat_def] at h h'
      cases h
      cases h'
      simp only [calcStatistic, sumCount_eq, vals_inUnits, List.length_map, hp, if_true, hsum, fin_mul, fin_add]
    · simp only [calcStatistic, calcVariance_eq l hl] at h
      cases h
      simp only [calcStatistic, calcVariance_eq _ hl', vals_inUnits, variance_affine c d hl, fin_mul]

/-- From statistics of lists to fields. -/
theorem fromSquares_inUnits {op op' : List (List (Fl K)) → Nat → Res (List (List (Fl K)))} {f f' : List (Fl K) → Fl K} (h : FromSquares op f)
    (h' : FromSquares op' f') {g : Fl K → Fl K} {c d : K} (hg : ∀ l, f' (l.map (inUnits c d)) = g (f l)) {Y X : Nat} {a : List (List (Fl K))}
    (ha : Rect Y X a) (hY : 0 < Y) (hX : 0 < X) (hw : Nat) :
    ∃ out, op a hw = ok out ∧ op' (a.map (List.map (inUnits c d))) hw = ok (out.map (List.map g)) := by
  refine ⟨_, h Y X a ha hY hX hw, ?_⟩
  rw [h' Y X _ (rect_map _ ha) hY hX hw]
  congr 1
  simp only [tabulate, List.map_map, Function.comp_def, square_mapped, hg]

/-- **C171**: neighbourhood statistics of a field in other units, `c` times the value plus `d`: the mean is in the other units, the count is the same, the variance
is multiplied by the square of the factor; for a factor that is not negative the minimum, median, maximum and quantiles are in the other units; for one that is not
positive the minimum and the maximum change places, and a level is taken from the other end. -/
theorem c171_units (rnd : Rnd K) (Y X : Nat) (a : List (List (Fl K))) (h : Rect Y X a) (hY : 0 < Y) (hX : 0 < X) (hw : Nat) (c d : K) :
    let b := a.map (List.map (inUnits c d))
    let u := fun out : List (List (Fl K)) => out.map (List.map (inUnits c d))
    (∃ out, neighbourhood rnd a (hw : Int) .mean = ok out ∧ neighbourhood rnd b (hw : Int) .mean = ok (u out)) ∧
    (∃ out, neighbourhood rnd a (hw : Int) .count = ok out ∧ neighbourhood rnd b (hw : Int) .count = ok out) ∧
    (∃ out, neighbourhood rnd a (hw : Int) .variance = ok out ∧ neighbourhood rnd b (hw : Int) .variance = ok (out.map (List.map (fin (c ^ 2) * ·)))) ∧
    (0 ≤ c → ∀ s, s = .min ∨ s = .median ∨ s = .max →
      ∃ out, neighbourhood rnd a (hw : Int) s = ok out ∧ neighbourhood rnd b (hw : Int) s = ok (u out)) ∧
    (0 ≤ c → ∀ q : K, 0 ≤ q → q ≤ 1 →
      ∃ out, neighbourhoodQuantile rnd a (fin q) (hw : Int) = ok out ∧ neighbourhoodQuantile rnd b (fin q) (hw : Int) = ok (u out)) ∧
    (c ≤ 0 → ∀ s s', (s, s') = (.min, .max) ∨ (s, s') = (.median, .median) ∨ (s, s') = (.max, .min) →
      ∃ out, neighbourhood rnd a (hw : Int) s = ok out ∧ neighbourhood rnd b (hw : Int) s' = ok (u out)) ∧
    (c ≤ 0 → ∀ q : K, 0 ≤ q → q ≤ 1 →
      ∃ out, neighbourhoodQuantile rnd a (fin q) (hw : Int) = ok out ∧ neighbourhoodQuantile rnd b (fin (1 - q)) (hw : Int) = ok (u out)) := by
  intro b u
  have half0 : (0 : K) ≤ 1 / 2 := by norm_num
  have half1 : (1 / 2 : K) ≤ 1 := by norm_num
  have lev : ∀ s, s = .min ∨ s = .median ∨ s = .max → ∃ q : K, 0 ≤ q ∧ q ≤ 1 ∧ (∀ l, calcStatistic rnd l s = calcQuantile l (fin q)) ∧
      (s = .min → q = 0) ∧ (s = .median → q = 1 / 2) ∧ (s = .max → q = 1) := by
    rintro s (rfl | rfl | rfl)
    · exact ⟨0, le_rfl, zero_le_one, fun l => by simp [calcStatistic, Fl.zero_def], fun _ => rfl, (by simp), (by simp)⟩
    · exact ⟨1 / 2, half0, half1, fun l => by simp [calcStatistic], (by simp), fun _ => rfl, (by simp)⟩
    · exact ⟨1, zero_le_one, le_rfl, fun l => by simp [calcStatistic, Fl.one_def], (by simp), (by simp), fun _ => rfl⟩
  refine ⟨?_, ?_, ?_, fun hc s hs => ?_, fun hc q h0 h1 => ?_, fun hc s s' hs => ?_, fun hc q h0 h1 => ?_⟩
  · obtain ⟨f, hf, hop⟩ := fromSquares_neighbourhood rnd (s := .mean) (by simp [Deterministic])
    refine fromSquares_inUnits hop hop (fun l => ?_) h hY hX hw
    have := (stat_inUnits rnd c d l).1 _ (hf l)
    rw [hf] at this; exact Res.ok.inj this
  · obtain ⟨f, hf, hop⟩ := fromSquares_neighbourhood rnd (s := .count) (by simp [Deterministic])
    obtain ⟨out, e1, e2⟩ := fromSquares_inUnits hop hop (g := id) (c := c) (d := d) (fun l => by
      have := (stat_inUnits rnd c d l).2.1 _ (hf l)
      rw [hf] at this; exact Res.ok.inj this) h hY hX hw
    exact ⟨out, e1, by simpa using e2⟩
  · obtain ⟨f, hf, hop⟩ := fromSquares_neighbourhood rnd (s := .variance) (by simp [Deterministic])
    refine fromSquares_inUnits hop hop (fun l => ?_) h hY hX hw
    have := (stat_inUnits rnd c d l).2.2.2 _ (hf l)
    rw [hf] at this; exact Res.ok.inj this
  · obtain ⟨f, hf, hop⟩ := fromSquares_neighbourhood rnd (s := s) (by rcases hs with rfl | rfl | rfl <;> simp [Deterministic])
    obtain ⟨q, h0, h1, hq, -⟩ := lev s hs
    refine fromSquares_inUnits hop hop (fun l => ?_) h hY hX hw
    have := (quantile_inUnits c d l h0 h1 ((hq l).symm.trans (hf l))).1 hc
    rw [← hq, hf] at this; exact Res.ok.inj this
  · obtain ⟨f, hf, hop⟩ := fromSquares_quantile rnd h0 h1
    refine fromSquares_inUnits hop hop (fun l => ?_) h hY hX hw
    have := (quantile_inUnits c d l h0 h1 (hf l)).1 hc
    rw [hf] at this; exact Res.ok.inj this
  · have hs1 : s = .min ∨ s = .median ∨ s = .max := by rcases hs with hs | hs | hs <;> cases hs <;> simp
    have hs2 : s' = .min ∨ s' = .median ∨ s' = .max := by rcases hs with hs | hs | hs <;> cases hs <;> simp
    obtain ⟨f, hf, hop⟩ := fromSquares_neighbourhood rnd (s := s) (by rcases hs1 with rfl | rfl | rfl <;> simp [Deterministic])
    obtain ⟨f', hf', hop'⟩ := fromSquares_neighbourhood rnd (s := s') (by rcases hs2 with rfl | rfl | rfl <;> simp [Deterministic])
    obtain ⟨q, h0, h1, hq, c1, c2, c3⟩ := lev s hs1
    obtain ⟨q', h0', h1', hq', c1', c2', c3'⟩ := lev s' hs2
    have e : q' = 1 - q := by
      rcases hs with hs | hs | hs <;> cases hs
      · rw [c1 rfl, c3' rfl]; norm_num
      · rw [c2 rfl, c2' rfl]; norm_num
      · rw [c3 rfl, c1' rfl]; norm_num
    refine fromSquares_inUnits hop hop' (fun l => ?_) h hY hX hw
    have := (quantile_inUnits c d l h0 h1 ((hq l).symm.trans (hf l))).2 hc
    rw [← e, ← hq', hf'] at this; exact Res.ok.inj this
  · obtain ⟨f, hf, hop⟩ := fromSquares_quantile rnd h0 h1
    obtain ⟨f', hf', hop'⟩ := fromSquares_quantile rnd (q := 1 - q) (by linarith) (by linarith)
    refine fromSquares_inUnits hop hop' (fun l => ?_) h hY hX hw
    have := (quantile_inUnits c d l h0 h1 (hf l)).2 hc
    rw [hf'] at this; exact Res.ok.inj this

/-- **C171** (sum): `d` is added once for each value. -/
theorem c171_sum (rnd : Rnd K) (Y X : Nat) (a : List (List (Fl K))) (h : Rect Y X a) (hY : 0 < Y) (hX : 0 < X) (hw : Nat) (c d : K) :
    ∃ sum count out, neighbourhood rnd a (hw : Int) .sum = ok sum ∧ neighbourhood rnd a (hw : Int) .count = ok count ∧
      neighbourhood rnd (a.map (List.map (inUnits c d))) (hw : Int) .sum = ok out ∧
      ∀ y < Y, ∀ x < X, ∃ v n, cell? sum y x = some v ∧ cell? count y x = some n ∧ cell? out y x = some (fin c * v + n * fin d) := by
  obtain ⟨f, hf, hop⟩ := fromSquares_neighbourhood rnd (s := .sum) (by simp [Deterministic])
  obtain ⟨g, hg, hop'⟩ := fromSquares_neighbourhood rnd (s := .count) (by simp [Deterministic])
  refine ⟨_, _, _, hop Y X a h hY hX hw, hop' Y X a h hY hX hw, hop Y X _ (rect_map _ h) hY hX hw, fun y hy x hx =>
    ⟨_, _, cell?_tabulate _ hy hx, cell?_tabulate _ hy hx, ?_⟩⟩
  rw [cell?_tabulate _ hy hx, square_mapped]
  have := (stat_inUnits rnd c d (square a hw y x)).2.2.1 _ _ (hf _) (hg _)
  rw [hf] at this
  rw [Res.ok.inj this]

end

section
variable {K : Type} [Field K] [LinearOrder K] [IsStrictOrderedRing K] [FloorRing K] [LawfulSqrt K]

/-- **C171** (standard deviation): it is multiplied by the size of the factor. -/
theorem c171_std (rnd : Rnd K) (Y X : Nat) (a : List (List (Fl K))) (h : Rect Y X a) (hY : 0 < Y) (hX : 0 < X) (hw : Nat) (c d : K) :
    ∃ out, neighbourhood rnd a (hw : Int) .std = ok out ∧
      neighbourhood rnd (a.map (List.map (inUnits c d))) (hw : Int) .std = ok (out.map (List.map (fin |c| * ·))) := by
  obtain ⟨f, hf, hop⟩ := fromSquares_neighbourhood rnd (s := .std) (by simp [Deterministic])
  refine fromSquares_inUnits hop hop (fun l => ?_) h hY hX hw
  have e := hf l
  have e' := hf (l.map (inUnits c d))
  by_cases hl : vals l = []
  · have hl' : vals (l.map (inUnits c d)) = [] := by rw [vals_inUnits, hl]; rfl
    simp only [calcStatistic, calcVariance_none l hl, sqrt_nan] at e
    simp only [calcStatistic, calcVariance_none _ hl', sqrt_nan] at e'
    rw [← Res.ok.inj e, ← Res.ok.inj e']
    simp
  · have hl' : vals (l.map (inUnits c d)) ≠ [] := by rw [vals_inUnits]; simpa using hl
    have h0 := variance_nonneg (vals l)
    have h1 := variance_nonneg (vals (l.map (inUnits c d)))
    simp only [calcStatistic, calcVariance_eq l hl, sqrt_fin h0] at e
    simp only [calcStatistic, calcVariance_eq _ hl', sqrt_fin h1] at e'
    rw [← Res.ok.inj e, ← Res.ok.inj e', fin_mul]
    congr 1
    have a1 := LawfulSqrt.sqrt_nonneg _ h0
    have a2 := LawfulSqrt.sqrt_nonneg _ h1
    have b1 := LawfulSqrt.sqrt_mul_self _ h0
    have b2 := LawfulSqrt.sqrt_mul_self _ h1
    have hv : Spec.variance (vals (l.map (inUnits c d))) = c ^ 2 * Spec.variance (vals l) := by rw [vals_inUnits, variance_affine c d hl]
    refine (mul_self_inj a2 (mul_nonneg (abs_nonneg c) a1)).mp ?_
    rw [b2, hv, mul_mul_mul_comm, abs_mul_abs_self, b1, sq]

end

section
variable {K : Type} [Field K] [LinearOrder K] [IsStrictOrderedRing K] [FloorRing K] [HasSqrt K]

/-- Temperatures in another scale: the field has missing and infinite values, and the results differ. -/
example : neighbourhood (fun _ => 0) (demo.map (List.map (inUnits (9 / 5) 32))) 1 .max =
      ok [[fin (169 / 5), fin (187 / 5), fin (223 / 5), fin (223 / 5)], [fin 41, fin 41, fin (223 / 5), fin (223 / 5)],
        [fin 41, fin 41, fin (223 / 5), fin (223 / 5)]] := by
  decide +kernel

/-! ## C172 -/

/-- The cells of a `Y x X` field that are at most `hw` rows and columns away from `(y, x)`. -/
def NearCell (Y X hw y x : Nat) (p : Nat × Nat) : Prop := p.1 < Y ∧ p.2 < X ∧ y ≤ p.1 + hw ∧ p.1 ≤ y + hw ∧ x ≤ p.2 + hw ∧ p.2 ≤ x + hw

/-- The cells in the order in which they are in `square`. -/
def nearList (Y X hw y x : Nat) : List (Nat × Nat) :=
  (List.range' (y - hw) (min (y + hw + 1) Y - (y - hw))).product (List.range' (x - hw) (min (x + hw + 1) X - (x - hw)))

theorem mem_nearList {Y X hw y x : Nat} {p : Nat × Nat} : p ∈ nearList Y X hw y x ↔ NearCell Y X hw y x p := by
  obtain ⟨i, j⟩ := p
  unfold nearList NearCell
  rw [List.pair_mem_product, List.mem_range'_1, List.mem_range'_1]
  simp only
  omega

theorem nodup_nearList (Y X hw y x : Nat) : (nearList Y X hw y x).Nodup := List.Nodup.product List.nodup_range' List.nodup_range'

theorem slice_eq {α : Type} (lo hi : Nat) (l : List α) (g : Nat → α) (hg : ∀ i v, l[i]? = some v → g i = v) :
    slice lo hi l = (List.range' lo (min (hi + 1) l.length - lo)).map g := by
  unfold slice
  apply List.ext_getElem?
  intro k
  rw [List.getElem?_drop, List.getElem?_map]
  by_cases hk : k < min (hi + 1) l.length - lo
  · rw [List.getElem?_take, if_pos (by omega), List.getElem?_range' hk, List.getElem?_eq_getElem (by omega), Option.map_some]
    rw [Nat.one_mul, hg (lo + k) _ (List.getElem?_eq_getElem (by omega))]
  · rw [List.getElem?_eq_none (by rw [List.length_take]; omega), List.getElem?_eq_none (by rw [List.length_range']; omega)]
    rfl

theorem square_eq {α : Type} {Y X : Nat} {a : List (List α)} (h : Rect Y X a) (g : Nat × Nat → α) (hg : ∀ i j v, cell? a i j = some v → g (i, j) = v) (hw y x : Nat) :
    square a hw y x = (nearList Y X hw y x).map g := by
  unfold square nearList
  have hrow : ∀ i r, a[i]? = some r → slice (x - hw) (x + hw) r = (List.range' (x - hw) (min (x + hw + 1) X - (x - hw))).map fun j => g (i, j) := by
    intro i r hr
    rw [slice_eq _ _ r (fun j => g (i, j)) fun j v hv => hg i j v (by unfold cell?; rw [hr]; exact hv), h.2 r (List.mem_of_getElem? hr)]
  rw [slice_eq (y - hw) (y + hw) a (fun i => a.getD i []) fun i r hr => by simp [hr], h.1, List.flatMap_map]
  rw [show (List.range' (y - hw) (min (y + hw + 1) Y - (y - hw))).product (List.range' (x - hw) (min (x + hw + 1) X - (x - hw))) =
    (List.range' (y - hw) (min (y + hw + 1) Y - (y - hw))).flatMap fun i => (List.range' (x - hw) (min (x + hw + 1) X - (x - hw))).map (Prod.mk i) from rfl, List.map_flatMap]
  refine List.flatMap_congr fun i hi => ?_
  rw [List.mem_range'_1] at hi
  have hi' : i < a.length := by rw [h.1]; omega
  rw [hrow i (a.getD i []) (by simp [hi']), List.map_map]
  rfl

/-- Two fields that have the same values in corresponding cells, where cells of one are near each other exactly if the corresponding ones are, have the same
numbers in corresponding squares. -/
theorem square_perm {α : Type} {Y X Y' X' : Nat} {a b : List (List α)} (ha : Rect Y X a) (hb : Rect Y' X' b) {σ : Nat × Nat → Nat × Nat} {hw : Nat}
    (hval : ∀ i < Y, ∀ j < X, cell? b (σ (i, j)).1 (σ (i, j)).2 = cell? a i j) {y x : Nat} (hy : y < Y) (hx : x < X)
    (hnear : ∀ p', NearCell Y' X' hw (σ (y, x)).1 (σ (y, x)).2 p' ↔ ∃ p, NearCell Y X hw y x p ∧ σ p = p')
    (hinj : ∀ p q, NearCell Y X hw y x p → NearCell Y X hw y x q → σ p = σ q → p = q) :
    (square b hw (σ (y, x)).1 (σ (y, x)).2).Perm (square a hw y x) := by
  obtain ⟨d, -⟩ := ha.cell?_some hy hx
  rw [square_eq ha (fun p => (cell? a p.1 p.2).getD d) (fun i j v hv => by simp [hv]) hw y x,
    square_eq hb (fun p => (cell? b p.1 p.2).getD d) (fun i j v hv => by simp [hv]) hw]
  have hp : (nearList Y' X' hw (σ (y, x)).1 (σ (y, x)).2).Perm ((nearList Y X hw y x).map σ) := by
    refine (List.perm_ext_iff_of_nodup (nodup_nearList _ _ _ _ _) ?_).mpr fun p' => ?_
    · refine (nodup_nearList _ _ _ _ _).map_on fun p hp q hq => ?_
      exact hinj p q (mem_nearList.mp hp) (mem_nearList.mp hq)
    · rw [mem_nearList, hnear, List.mem_map]
      simp only [mem_nearList]
  refine (hp.map _).trans ?_
  rw [List.map_map]
  refine List.Perm.of_eq (List.map_congr_left fun p hp => ?_)
  have := mem_nearList.mp hp
  simp only [Function.comp]
  rw [hval p.1 this.1 p.2 this.2.1]

/-- `b` is `a` upside down, with left and right exchanged, or with rows and columns exchanged. -/
inductive Mirrored {α : Type} (Y X : Nat) (a b : List (List α)) : Nat → Nat → (Nat × Nat → Nat × Nat) → Prop
  | rows : (∀ y < Y, ∀ x < X, cell? b (Y - 1 - y) x = cell? a y x) → Mirrored Y X a b Y X fun p => (Y - 1 - p.1, p.2)
  | columns : (∀ y < Y, ∀ x < X, cell? b y (X - 1 - x) = cell? a y x) → Mirrored Y X a b Y X fun p => (p.1, X - 1 - p.2)
  | transposed : (∀ y < Y, ∀ x < X, cell? b x y = cell? a y x) → Mirrored Y X a b X Y fun p => (p.2, p.1)

theorem Mirrored.perm {α : Type} {Y X Y' X' : Nat} {a b : List (List α)} {σ : Nat × Nat → Nat × Nat} (h : Mirrored Y X a b Y' X' σ) (ha : Rect Y X a)
    (hb : Rect Y' X' b) (hw : Nat) {y x : Nat} (hy : y < Y) (hx : x < X) :
    (square b hw (σ (y, x)).1 (σ (y, x)).2).Perm (square a hw y x) ∧ (σ (y, x)).1 < Y' ∧ (σ (y, x)).2 < X' := by
  cases h with
  | rows h =>
    refine ⟨square_perm ha hb (σ := fun p => (Y - 1 - p.1, p.2)) h hy hx ?_ ?_, by simp only; omega, hx⟩
    · rintro ⟨i, j⟩
      simp only [NearCell, Prod.exists, Prod.mk.injEq]
      exact ⟨fun hh => ⟨Y - 1 - i, j, by omega, by omega, rfl⟩, by rintro ⟨i', j', h1, h2, h3⟩; omega⟩
    · rintro ⟨i, j⟩ ⟨i', j'⟩ h1 h2 h3
      simp only [NearCell, Prod.mk.injEq] at h1 h2 h3 ⊢
      omega
  | columns h =>
    refine ⟨square_perm ha hb (σ := fun p => (p.1, X - 1 - p.2)) h hy hx ?_ ?_, hy, by simp only; omega⟩
    · rintro ⟨i, j⟩
      simp only [NearCell, Prod.exists, Prod.mk.injEq]
      exact ⟨fun hh => ⟨i, X - 1 - j, by omega, rfl, by omega⟩, by rintro ⟨i', j', h1, h2, h3⟩; omega⟩
    · rintro ⟨i, j⟩ ⟨i', j'⟩ h1 h2 h3
      simp only [NearCell, Prod.mk.injEq] at h1 h2 h3 ⊢
      omega
  | transposed h =>
    refine ⟨square_perm ha hb (σ := fun p => (p.2, p.1)) h hy hx ?_ ?_, hx, hy⟩
    · rintro ⟨i, j⟩
      simp only [NearCell, Prod.exists, Prod.mk.injEq]
      exact ⟨fun hh => ⟨j, i, by omega, rfl, rfl⟩, by rintro ⟨i', j', h1, h2, h3⟩; omega⟩
    · rintro ⟨i, j⟩ ⟨i', j'⟩ h1 h2 h3
      simp only [NearCell, Prod.mk.injEq] at h1 h2 h3 ⊢
      omega

/-- **C172**: the neighbourhood statistics of a mirror image, or with rows and columns exchanged, are the mirror image of the statistics. The fast methods go through
the field in one direction, and treat the borders differently. -/
theorem c172_mirror (rnd : Rnd K) {Y X Y' X' : Nat} {a b : List (List (Fl K))} {σ : Nat × Nat → Nat × Nat} (hm : Mirrored Y X a b Y' X' σ) (ha : Rect Y X a)
    (hb : Rect Y' X' b) (hY : 0 < Y) (hX : 0 < X) (hw : Nat) :
    (∀ s, Deterministic s → ∃ out out', neighbourhood rnd a (hw : Int) s = ok out ∧ neighbourhood rnd b (hw : Int) s = ok out' ∧ Rect Y X out ∧ Rect Y' X' out' ∧
      Mirrored Y X out out' Y' X' σ) ∧
    (∀ q : K, 0 ≤ q → q ≤ 1 → ∃ out out', neighbourhoodQuantile rnd a (fin q) (hw : Int) = ok out ∧ neighbourhoodQuantile rnd b (fin q) (hw : Int) = ok out' ∧
      Rect Y X out ∧ Rect Y' X' out' ∧ Mirrored Y X out out' Y' X' σ) := by
  have hpos : 0 < Y' ∧ 0 < X' := by
    obtain ⟨-, h1, h2⟩ := hm.perm ha hb hw hY hX
    omega
  have main : ∀ {op : List (List (Fl K)) → Nat → Res (List (List (Fl K)))} {f : List (Fl K) → Fl K}, FromSquares op f →
      (∀ l l' : List (Fl K), l.Perm l' → f l = f l') → ∃ out out', op a hw = ok out ∧ op b hw = ok out' ∧ Rect Y X out ∧ Rect Y' X' out' ∧ Mirrored Y X out out' Y' X' σ := by
    intro op f hop hf
    refine ⟨_, _, hop Y X a ha hY hX hw, hop Y' X' b hb hpos.1 hpos.2 hw, rect_tabulate _ _ _, rect_tabulate _ _ _, ?_⟩
    have key : ∀ y < Y, ∀ x < X, cell? (tabulate Y' X' fun y x => f (square b hw y x)) (σ (y, x)).1 (σ (y, x)).2 =
        cell? (tabulate Y X fun y x => f (square a hw y x)) y x := by
      intro y hy x hx
      obtain ⟨h1, h2, h3⟩ := hm.perm ha hb hw hy hx
      rw [cell?_tabulate _ h2 h3, cell?_tabulate _ hy hx, hf _ _ h1]
    cases hm with
    | rows h => exact .rows key
    | columns h => exact .columns key
    | transposed h => exact .transposed key
  constructor
  · intro s hs
    obtain ⟨f, hf, hop⟩ := fromSquares_neighbourhood rnd hs
    refine main hop fun l l' h => ?_
    have := c01_only_valid_multiset rnd l l' s hs (h.filter _)
    rw [hf, hf] at this
    exact Res.ok.inj this
  · intro q h0 h1
    obtain ⟨f, hf, hop⟩ := fromSquares_quantile rnd h0 h1
    refine main hop fun l l' h => ?_
    have := calcQuantile_perm (vals_perm h) (fin q)
    rw [hf, hf] at this
    exact Res.ok.inj this

/-- The case of C21 to C23 from right to left, and from top to bottom. -/
example : Mirrored 3 4 demo (demo.map List.reverse) 3 4 (fun p => (p.1, 4 - 1 - p.2)) ∧ Mirrored 3 4 demo demo.reverse 3 4 (fun p => (3 - 1 - p.1, p.2)) ∧
    neighbourhood (fun _ => 0) (demo.map List.reverse) 1 .max ≠ neighbourhood (fun _ => 0) demo 1 .max :=
  ⟨.columns (by decide +kernel), .rows (by decide +kernel), by decide +kernel⟩

end
end Gridpp.Props
