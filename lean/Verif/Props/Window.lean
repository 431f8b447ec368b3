import Verif.Lemmas.Window
import Verif.Props.Stats

/-! # C29, C30: time windows -/

set_option linter.unusedSectionVars false

namespace Gridpp.Props
open Fl Res Spec

variable {K : Type} [Field K] [LinearOrder K] [IsStrictOrderedRing K] [FloorRing K] [HasSqrt K]

/-- The value `window` should have at position `x` of a row: missing if `keep_missing` and the clipped window has a
missing value, missing if `missing_edges` and the window reaches beyond the row, otherwise the statistic of the clipped
window. -/
def WindowValue (rnd : Rnd K) (s : Statistic) (before keep edges : Bool) (L x : Nat) (row : List (Fl K)) (v : Fl K) : Prop :=
  ((keep = true ∧ ∃ u ∈ windowAt before L x row, u.isValid = false) ∨ (edges = true ∧ overshoots before L x row.length) → v = nan) ∧
  (¬ ((keep = true ∧ ∃ u ∈ windowAt before L x row, u.isValid = false) ∨ (edges = true ∧ overshoots before L x row.length)) →
    calcStatistic rnd (windowAt before L x row) s = ok v)

/-- The window consists of the elements at the stated positions. -/
theorem mem_windowAt (before : Bool) (L x : Nat) (row : List (Fl K)) (v : Fl K) :
    v ∈ windowAt before L x row ↔ ∃ i, row[i]? = some v ∧
      (before = true → i ≤ x ∧ x < i + L) ∧ (before = false → x ≤ i + L / 2 ∧ i ≤ x + L / 2) := by
  unfold windowAt
  cases before with
  | true =>
    simp only [if_true, mem_slice]
    constructor
    · rintro ⟨i, h1, h2, h3⟩; exact ⟨i, h3, fun _ => by omega, by simp⟩
    · rintro ⟨i, h1, h2, -⟩; exact ⟨i, by have := h2 trivial; omega, (h2 trivial).1, h1⟩
  | false =>
    simp only [Bool.false_eq_true, if_false, mem_slice]
    constructor
    · rintro ⟨i, h1, h2, h3⟩; exact ⟨i, h3, by simp, fun _ => by omega⟩
    · rintro ⟨i, h1, -, h2⟩; exact ⟨i, by have := h2 trivial; omega, (h2 trivial).2, h1⟩

theorem winExpected_ok (rnd : Rnd K) {s : Statistic} (hs : Deterministic s) (before keep edges : Bool) (L x : Nat) (row : List (Fl K)) :
    ∃ v, winExpected rnd s before keep edges L x row = ok v ∧ WindowValue rnd s before keep edges L x row v := by
  unfold winExpected WindowValue
  obtain ⟨w, hw, -⟩ := c01_missing_iff rnd (windowAt before L x row) s hs
  split
  · next h => exact ⟨nan, rfl, fun _ => rfl, fun hc => absurd h hc⟩
  · next h => exact ⟨w, hw, fun hc => absurd hc h, fun _ => hw⟩

theorem window_rows_ok (rnd : Rnd K) {Y X L : Nat} {a : List (List (Fl K))} (h : Rect Y X a) (hY : 0 < Y) (hX : 0 < X) (hL : 0 < L)
    {s : Statistic} {before keep edges : Bool} (hodd : before = true ∨ L % 2 = 1) {g : List (Fl K) → Nat → Fl K}
    (hg : ∀ row ∈ a, ∀ x < X, (if s = .mean ∨ s = .sum ∨ s = .count then
        windowAccCell ((List.range row.length).map fun x => enc2 (tot (row.take (x + 1)))) row.length row.length (L : Int) s before keep edges (x : Int)
      else windowStatCell rnd row row.length (L : Int) s before keep edges (x : Int)) = ok (g row x)) :
    window rnd a (L : Int) s before keep edges = ok (a.map fun row => (List.range X).map (g row)) := by
  have hne' : a ≠ [] := by rintro rfl; exact absurd h.1 (by simp; omega)
  obtain ⟨r, l, rfl⟩ := List.exists_cons_of_ne_nil hne'
  have hr : r.length = X := h.2 r (by simp)
  unfold window
  rw [if_neg (by omega)]
  simp only [hr]
  rw [if_neg (by omega), if_neg (by
    rintro ⟨h1, h2⟩
    rcases hodd with h3 | h3
    · rw [h2] at h3; cases h3
    · rw [Int.tmod_eq_emod_of_nonneg (by omega)] at h1; omega)]
  rw [mapM_ok (g := fun row => (List.range X).map (g row))]
  · rfl
  · intro row hrow
    have hrl : row.length = X := h.2 row hrow
    have hcell := hg row hrow
    unfold windowRow
    simp only [windowTable_ok]
    have ht : (if decide (s = .mean ∨ s = .sum ∨ s = .count) = true then ok ((List.range row.length).map fun x => enc2 (tot (row.take (x + 1)))) else ok [] :
        Res (List (Fl K × Fl K))) = ok (if s = .mean ∨ s = .sum ∨ s = .count then (List.range row.length).map fun x => enc2 (tot (row.take (x + 1))) else []) := by
      simp only [decide_eq_true_eq]; split <;> rfl
    rw [ht, ok_bind, mapM_upto (g := g row)]
    · simp [hrl]
    · intro x hx
      have := hcell x (by omega)
      simp only [decide_eq_true_eq]
      split at this
      · next hsc => rw [if_pos hsc, if_pos hsc, ← hrl, this, ok_bind, if_pos (by omega)]
      · next hsc => rw [if_neg hsc, ← hrl, this, ok_bind, if_pos (by omega)]

theorem window_of_expected (rnd : Rnd K) {Y X L : Nat} {a : List (List (Fl K))} (h : Rect Y X a) (hY : 0 < Y) (hX : 0 < X) (hL : 0 < L)
    {s : Statistic} (hs : Deterministic s) {before keep edges : Bool} (hodd : before = true ∨ L % 2 = 1)
    (hg : ∀ row ∈ a, ∀ x < X, (if s = .mean ∨ s = .sum ∨ s = .count then
        windowAccCell ((List.range row.length).map fun x => enc2 (tot (row.take (x + 1)))) row.length row.length (L : Int) s before keep edges (x : Int)
      else windowStatCell rnd row row.length (L : Int) s before keep edges (x : Int)) = winExpected rnd s before keep edges L x row) :
    ∃ out, window rnd a (L : Int) s before keep edges = ok out ∧ Rect Y X out ∧
      ∀ (y : Nat) (row : List (Fl K)), a[y]? = some row → ∀ x < X, ∃ v, cell? out y x = some v ∧ WindowValue rnd s before keep edges L x row v := by
  choose g hg1 hg2 using fun (p : List (Fl K) × Nat) => winExpected_ok rnd hs before keep edges L p.2 p.1
  have := window_rows_ok rnd h hY hX hL hodd (g := fun row x => g (row, x)) (fun row hrow x hx => by rw [hg row hrow x hx]; exact hg1 (row, x))
  refine ⟨_, this, ⟨by simp [h.1], by intro r hr; obtain ⟨q, _, rfl⟩ := List.mem_map.mp hr; simp⟩, fun y row hy x hx => ⟨g (row, x), ?_, hg2 (row, x)⟩⟩
  simp [cell?, hy, hx]

/-- **C30**. The running sum (without `keep_missing`) has no invalid read and is the sum of the valid values in the
clipped window, for every rectangular array, every odd length (any length with `before`), with or without
`missing_edges`. -/
theorem c30_window_sum (rnd : Rnd K) (Y X L : Nat) (a : List (List (Fl K))) (h : Rect Y X a) (hY : 0 < Y) (hX : 0 < X) (hL : 0 < L)
    (before edges : Bool) (hodd : before = true ∨ L % 2 = 1) :
    ∃ out, window rnd a (L : Int) .sum before false edges = ok out ∧ Rect Y X out ∧
      ∀ (y : Nat) (row : List (Fl K)), a[y]? = some row → ∀ x < X, ∃ v, cell? out y x = some v ∧
        (edges = true ∧ overshoots before L x X → v = nan) ∧
        (¬ (edges = true ∧ overshoots before L x X) →
          v = if vals (windowAt before L x row) = [] then nan else fin (vals (windowAt before L x row)).sum) := by
  obtain ⟨out, h1, h2, h3⟩ := window_of_expected rnd h hY hX hL (s := .sum) (by simp [Deterministic]) (keep := false) (edges := edges) hodd
    (fun row hrow x hx => by
      rw [if_pos (by simp)]
      exact windowAccCell_ok rnd row (.inr rfl) before false edges hL (by rw [h.2 row hrow]; exact hx) (.inl ⟨rfl, rfl⟩))
  refine ⟨out, h1, h2, fun y row hy x hx => ?_⟩
  obtain ⟨v, hv, hv1, hv2⟩ := h3 y row hy x hx
  have hrl : row.length = X := h.2 row (List.mem_of_getElem? hy)
  rw [hrl] at hv1 hv2
  refine ⟨v, hv, fun he => hv1 (.inr he), fun he => ?_⟩
  have := hv2 (by simpa using he)
  rw [calcStatistic_sum] at this
  simpa using this.symm

/-- **C29** (partial). For Min, Median, Max, Std and Variance, and for Sum without `keep_missing`, every flag
combination gives the stated value at every position, with no invalid read. Missing: Mean, Count and
`keep_missing` with Sum, whose code reads `counts[-1]` when the window starts at the first element
(`c29_mean_reads_outside`, `c29_count_reads_outside`); `c29_inner_partial` covers their other positions. -/
theorem c29_window_partial (rnd : Rnd K) (Y X L : Nat) (a : List (List (Fl K))) (h : Rect Y X a) (hY : 0 < Y) (hX : 0 < X) (hL : 0 < L)
    (s : Statistic) (hs : Deterministic s) (before keep edges : Bool) (hodd : before = true ∨ L % 2 = 1)
    (hok : (s ≠ .mean ∧ s ≠ .sum ∧ s ≠ .count) ∨ (s = .sum ∧ keep = false)) :
    ∃ out, window rnd a (L : Int) s before keep edges = ok out ∧ Rect Y X out ∧
      ∀ (y : Nat) (row : List (Fl K)), a[y]? = some row → ∀ x < X, ∃ v, cell? out y x = some v ∧ WindowValue rnd s before keep edges L x row v := by
  apply window_of_expected rnd h hY hX hL hs hodd
  intro row hrow x hx
  have hx' : x < row.length := by rw [h.2 row hrow]; exact hx
  rcases hok with ⟨h1, h2, h3⟩ | ⟨rfl, rfl⟩
  · rw [if_neg (by tauto)]
    exact windowStatCell_ok rnd row s before keep edges hL hx'
  · rw [if_pos (by simp)]
    exact windowAccCell_ok rnd row (.inr rfl) before false edges hL hx' (.inl ⟨rfl, rfl⟩)

example : Rect 1 4 ([[fin 1, nan, fin 3, fin 4]] : List (List (Fl ℚ))) ∧ (0 < 3) ∧ Deterministic .median ∧
    (false = true ∨ 3 % 2 = 1) ∧
    window (fun _ => 0) ([[fin 1, nan, fin 3, fin 4]] : List (List (Fl ℚ))) 3 .sum false false false =
      ok [[fin 1, fin 4, fin 7, fin 7]] := by
  refine ⟨by simp [Rect], by omega, by simp [Deterministic], by simp, by decide +kernel⟩

/-- **C29** (Mean and Sum away from the start). Where the window does not start at the first element, Mean and Sum
give the stated value for every flag combination. -/
theorem c29_inner_partial (rnd : Rnd K) (row : List (Fl K)) (L x : Nat) (s : Statistic) (hs : s = .mean ∨ s = .sum)
    (before keep edges : Bool) (hL : 0 < L) (hx : x < row.length) (hin : if before then L ≤ x else L / 2 < x) :
    ∃ t v, windowTable row = ok t ∧ windowAccCell t row.length row.length (L : Int) s before keep edges (x : Int) = ok v ∧
      WindowValue rnd s before keep edges L x row v := by
  obtain ⟨v, h1, h2⟩ := winExpected_ok rnd (s := s) (by rcases hs with rfl | rfl <;> simp [Deterministic]) before keep edges L x row
  refine ⟨_, v, windowTable_ok row, ?_, h2⟩
  rw [windowAccCell_ok rnd row hs before keep edges hL hx (.inr (by cases before <;> simp at hin ⊢ <;> omega)), h1]

example : (0 < 3) ∧ 2 < ([fin 1, nan, fin 3, fin 4] : List (Fl ℚ)).length ∧ (if false then 3 ≤ 2 else 3 / 2 < 2) := by decide

theorem mapM_ub_of_first {α β : Type} {f : α → Res β} {a : α} {l : List α} (h : f a = ub) : mapM f (a :: l) = ub := by
  rw [mapM_cons, h]; rfl

theorem window_first_ub (rnd : Rnd K) {r : List (Fl K)} {l : List (List (Fl K))} (hr : 0 < r.length) {L : Nat} (hL : 0 < L)
    {s : Statistic} (hacc : s = .mean ∨ s = .sum ∨ s = .count) {before keep edges : Bool} (hodd : before = true ∨ L % 2 = 1)
    (hs : s = .count ∨ (s = .mean ∧ ∃ v ∈ windowAt before L 0 r, v.isValid = true) ∨ (s ≠ .count ∧ keep = true)) :
    window rnd (r :: l) (L : Int) s before keep edges = ub := by
  unfold window
  rw [if_neg (by omega)]
  simp only []
  rw [if_neg (by omega), if_neg (by
    rintro ⟨h1, h2⟩
    rcases hodd with h3 | h3
    · rw [h2] at h3; cases h3
    · rw [Int.tmod_eq_emod_of_nonneg (by omega)] at h1; omega)]
  rw [mapM_ub_of_first]
  · rfl
  · unfold windowRow
    simp only [windowTable_ok, hacc, decide_true, if_true, ok_bind]
    rw [mapM_upto_first_ub hr]
    · rfl
    · rw [show (0 : Int) = ((0 : Nat) : Int) from rfl, windowAccCell_ub r before keep edges hL hr (by cases before <;> simp <;> omega) hs]
      rfl

/-- **C29** is false for Mean: whenever the first window of the first row has a valid value, the call reads
`counts[-1]` (window.cpp:88). -/
theorem c29_mean_reads_outside (rnd : Rnd K) (r : List (Fl K)) (l : List (List (Fl K))) (L : Nat) (hL : 0 < L) (before keep edges : Bool)
    (hodd : before = true ∨ L % 2 = 1) (hr : 0 < r.length) (hv : ∃ v ∈ windowAt before L 0 r, v.isValid = true) :
    window rnd (r :: l) (L : Int) .mean before keep edges = ub :=
  window_first_ub rnd hr hL (.inl rfl) hodd (.inr (.inl ⟨rfl, hv⟩))

/-- **C29** is false for Count on every non-empty array (window.cpp:83), and for Sum with `keep_missing` (line 92). -/
theorem c29_count_reads_outside (rnd : Rnd K) (r : List (Fl K)) (l : List (List (Fl K))) (L : Nat) (hL : 0 < L) (before keep edges : Bool)
    (hodd : before = true ∨ L % 2 = 1) (hr : 0 < r.length) :
    window rnd (r :: l) (L : Int) .count before keep edges = ub ∧ window rnd (r :: l) (L : Int) .sum before true edges = ub :=
  ⟨window_first_ub rnd hr hL (.inr (.inr rfl)) hodd (.inl rfl), window_first_ub rnd hr hL (.inr (.inl rfl)) hodd (.inr (.inr ⟨by simp, rfl⟩))⟩

example : window (fun _ => 0) ([[fin 1, fin 2, fin 3]] : List (List (Fl ℚ))) 3 .mean false false false = ub ∧
    (∃ v ∈ windowAt false 3 0 ([fin 1, fin 2, fin 3] : List (Fl ℚ)), v.isValid = true) := by
  refine ⟨by decide +kernel, fin 1, by decide, rfl⟩

/-- **C29** (contract). A non-positive length throws; an even centred length throws unless the array is empty; empty
arrays give empty results of the same shape. -/
theorem c29_contract (rnd : Rnd K) (a : List (List (Fl K))) (length : Int) (s : Statistic) (before keep edges : Bool) :
    (length ≤ 0 → window rnd a length s before keep edges = .throw .invalidArgument) ∧
    (0 < length → a = [] → window rnd a length s before keep edges = ok []) ∧
    (0 < length → ∀ Y, 0 < Y → Rect Y 0 a → window rnd a length s before keep edges = ok a) ∧
    (0 < length → length % 2 = 0 → before = false → ∀ Y X, 0 < Y → 0 < X → Rect Y X a →
      window rnd a length s before keep edges = .throw .invalidArgument) := by
  refine ⟨fun h => by simp [window, h], fun h ha => ?_, fun h Y hY hr => ?_, fun h h2 hb Y X hY hX hr => ?_⟩
  · subst ha; unfold window; rw [if_neg (by omega)]; rfl
  · have hne' : a ≠ [] := by rintro rfl; exact absurd hr.1 (by simp; omega)
    have ha : a = initVec2 a.length 0 MV := by
      unfold initVec2
      rw [List.eq_replicate_iff]
      exact ⟨rfl, fun r hr' => by simpa using hr.2 r hr'⟩
    obtain ⟨r, l, rfl⟩ := List.exists_cons_of_ne_nil hne'
    unfold window
    rw [if_neg (by omega)]
    simp only []
    rw [if_pos (hr.2 r (by simp)), ← ha]
  · have hne' : a ≠ [] := by rintro rfl; exact absurd hr.1 (by simp; omega)
    obtain ⟨r, l, rfl⟩ := List.exists_cons_of_ne_nil hne'
    unfold window
    rw [if_neg (by omega)]
    simp only []
    have := hr.2 r (by simp)
    rw [if_neg (by omega), if_pos ⟨by rw [Int.tmod_eq_emod_of_nonneg (by omega)]; exact h2, hb⟩]

end Gridpp.Props
