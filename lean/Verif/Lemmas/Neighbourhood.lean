import Verif.Lemmas.Square

/-! Lemmas about `neighbourhood`: each fast branch against the collected square. -/

set_option linter.unusedSectionVars false

namespace Gridpp
open Fl Res Spec

variable {K : Type} [Field K] [LinearOrder K] [IsStrictOrderedRing K] [FloorRing K] [HasSqrt K]

theorem vget2_tabulate {α : Type} {Y X : Nat} (f : Nat → Nat → α) {y x : Nat} (hy : y < Y) (hx : x < X) :
    vget2 (tabulate Y X f) (y : Int) (x : Int) = ok (f y x) := vget2_of_cell? (cell?_tabulate f hy hx)

theorem enc_zero : ((0, 0) : Fl K × Int) = enc 0 := rfl

/-- What `neighbourhoodSum` computes from the totals of a window. -/
theorem sumStat_eq (rnd : Rnd K) (w : List (Fl K)) (s : Statistic) (hs : s = .mean ∨ s = .sum ∨ s = .count) :
    (if s = .count then ok (Fl.ofInt (tot w).2)
      else if (tot w).2 > 0 then ok (if s = .mean then fin (tot w).1 / Fl.ofInt (tot w).2 else fin (tot w).1)
      else ok MV : Res (Fl K)) = calcStatistic rnd w s := by
  rcases hs with rfl | rfl | rfl <;> simp only [calcStatistic, sumCount_eq, tot]
  · by_cases h : (vals w).length = 0
    · simp [h]
    · have h' : 0 < (vals w).length := by omega
      simp [h']
  · by_cases h : (vals w).length = 0
    · simp [h]
    · have h' : 0 < (vals w).length := by omega
      simp [h']
  · simp

theorem neighbourhoodSum_ok (rnd : Rnd K) {Y X : Nat} {a : List (List (Fl K))} (h : Rect Y X a) (hw : Nat) {s : Statistic}
    (hs : s = .mean ∨ s = .sum ∨ s = .count) {g : Nat → Nat → Fl K}
    (hg : ∀ y < Y, ∀ x < X, calcStatistic rnd (square a hw y x) s = ok (g y x)) :
    neighbourhoodSum a Y X (hw : Int) s = ok (tabulate Y X g) := by
  unfold neighbourhoodSum
  rw [satTable_ok h, ok_bind]
  rw [grid2_ok (g := g)]
  · rfl
  intro y hy x hx
  obtain ⟨Y, rfl⟩ : ∃ k, Y = k + 1 := ⟨Y - 1, by omega⟩
  obtain ⟨X, rfl⟩ : ∃ k, X = k + 1 := ⟨X - 1, by omega⟩
  have hY : min Y (y + hw) < Y + 1 := by omega
  have hX : min X (x + hw) < X + 1 := by omega
  rw [clip_hi, clip_hi]
  simp only [vget2_tabulate _ hY hX, ok_bind]
  rw [← hg y hy x hx, ← sumStat_eq rnd _ s hs, tot_square]
  have e11 : pre a (min Y (y + hw) + 1) (min X (x + hw) + 1) = pre a (y + hw + 1) (x + hw + 1) := by
    rw [pre_min_left h, pre_min_right h]
  rw [e11]
  by_cases hi : hw + 1 ≤ y
  · have ei : (y : Int) - hw - 1 = ((y - hw - 1 : Nat) : Int) := by omega
    have ei' : y - hw - 1 + 1 = y - hw := by omega
    by_cases hj : hw + 1 ≤ x
    · have ej : (x : Int) - hw - 1 = ((x - hw - 1 : Nat) : Int) := by omega
      have ej' : x - hw - 1 + 1 = x - hw := by omega
      rw [ei, ej]
      rw [if_pos ⟨by omega, by omega⟩]
      rw [vget2_tabulate _ (by omega : y - hw - 1 < Y + 1) (by omega : x - hw - 1 < X + 1),
        vget2_tabulate _ hY (by omega : x - hw - 1 < X + 1),
        vget2_tabulate _ (by omega : y - hw - 1 < Y + 1) hX]
      simp only [ok_bind, enc, fin_add, fin_sub, ei', ej', pre_min_left h, pre_min_right h]
      rfl
    · rw [ei, if_neg (by omega), if_neg (by omega), if_pos (by omega)]
      rw [vget2_tabulate _ (by omega : y - hw - 1 < Y + 1) hX]
      have : x - hw = 0 := by omega
      simp only [ok_bind, enc, fin_add, fin_sub, ei', this, pre_min_right h, pre_zero_right, Fl.zero_def]
      simp
  · have hy0 : y - hw = 0 := by omega
    by_cases hj : hw + 1 ≤ x
    · have ej : (x : Int) - hw - 1 = ((x - hw - 1 : Nat) : Int) := by omega
      have ej' : x - hw - 1 + 1 = x - hw := by omega
      rw [ej, if_neg (by omega), if_pos (by omega), vget2_tabulate _ hY (by omega : x - hw - 1 < X + 1)]
      simp only [ok_bind, enc, fin_add, fin_sub, ej', hy0, pre_min_left h, pre_zero_left, Fl.zero_def]
      simp
    · have hx0 : x - hw = 0 := by omega
      rw [if_neg (by omega), if_neg (by omega), if_neg (by omega)]
      simp only [ok_bind, enc, fin_add, fin_sub, hx0, hy0, pre_zero_left, pre_zero_right, Fl.zero_def]
      simp

/-- Value of a statistic that cannot fail. -/
theorem neighbourhoodBrute_ok (rnd : Rnd K) {Y X : Nat} {a : List (List (Fl K))} (h : Rect Y X a) (hY : 0 < Y) (hX : 0 < X)
    (hw : Nat) {s : Statistic} (hs : s ≠ .quantile) (q : Fl K) {g : Nat → Nat → Fl K}
    (hg : ∀ y < Y, ∀ x < X, calcStatistic rnd (square a hw y x) s = ok (g y x)) :
    neighbourhoodBrute rnd a (hw : Int) s q = ok (tabulate Y X g) := by
  unfold neighbourhoodBrute
  rw [if_neg (by omega)]
  obtain ⟨r, t, rfl⟩ : ∃ r t, a = r :: t := by
    cases a with
    | nil => have := h.1; simp at this; omega
    | cons r t => exact ⟨r, t, rfl⟩
  have hr : r.length = X := h.2 r (by simp)
  have hl : (r :: t).length = Y := h.1
  simp only []
  rw [if_neg (by omega), hr, hl, grid2_ok (g := g)]
  · rfl
  intro y hy x hx
  rw [squareSize_ok hy hx, ok_bind, collectSquare_ok h hy hx, ok_bind, ← length_square h hy hx]
  simp only [decide_true, assert_true, ok_bind, if_neg hs]
  exact hg y hy x hx

theorem neighbourhoodBrute_quantile (rnd : Rnd K) {Y X : Nat} {a : List (List (Fl K))} (h : Rect Y X a) (hY : 0 < Y) (hX : 0 < X)
    (hw : Nat) (q : Fl K) :
    neighbourhoodBrute rnd a (hw : Int) .quantile q
      = omp (grid2 Y X fun y x => do
        let sq ← collectSquare a Y X (hw : Int) y x
        calcQuantile sq q) := by
  unfold neighbourhoodBrute
  rw [if_neg (by omega)]
  obtain ⟨r, t, rfl⟩ : ∃ r t, a = r :: t := by
    cases a with
    | nil => have := h.1; simp at this; omega
    | cons r t => exact ⟨r, t, rfl⟩
  have hr : r.length = X := h.2 r (by simp)
  have hl : (r :: t).length = Y := h.1
  simp only []
  rw [if_neg (by omega), hr, hl]
  unfold grid2
  congr 1
  apply mapM_congr
  intro y hy
  apply mapM_congr
  intro x hx
  simp only [upto, List.mem_map, List.mem_range] at hy hx
  obtain ⟨y, hy, rfl⟩ := hy
  obtain ⟨x, hx, rfl⟩ := hx
  simp only []
  rw [squareSize_ok hy hx, ok_bind, collectSquare_ok h hy hx, ok_bind, ← length_square h hy hx]
  simp

/-! ### Min / Max -/

/-- Result of the minimum (maximum) as an optional extreme of a list. -/
theorem calcStatistic_min (rnd : Rnd K) (a : List (Fl K)) (h : vals a ≠ []) :
    ∃ m, calcStatistic rnd a .min = ok (fin m) ∧ MinOf m (vals a) := by
  obtain ⟨m, h1, h2⟩ := calcQuantile_zero a h
  exact ⟨m, by simpa [calcStatistic] using h1, h2⟩
theorem calcStatistic_max (rnd : Rnd K) (a : List (Fl K)) (h : vals a ≠ []) :
    ∃ m, calcStatistic rnd a .max = ok (fin m) ∧ MaxOf m (vals a) := by
  obtain ⟨m, h1, h2⟩ := calcQuantile_one a h
  exact ⟨m, by simpa [calcStatistic] using h1, h2⟩
theorem calcStatistic_minmax_none (rnd : Rnd K) (a : List (Fl K)) (h : vals a = []) (s : Statistic) (hs : s = .min ∨ s = .max) :
    calcStatistic rnd a s = ok nan := by
  rcases hs with rfl | rfl
  · simpa [calcStatistic] using calcQuantile_none a h (le_refl 0) zero_le_one
  · simpa [calcStatistic] using calcQuantile_none a h zero_le_one (le_refl 1)

/-- The minimum (maximum) as a total function. -/
theorem calcStatistic_minmax_ok (rnd : Rnd K) (a : List (Fl K)) (s : Statistic) (hs : s = .min ∨ s = .max) :
    ∃ v, calcStatistic rnd a s = ok v ∧ (v = nan ↔ vals a = []) ∧ (∀ m, v = fin m → (s = .min → MinOf m (vals a)) ∧ (s = .max → MaxOf m (vals a)))
      ∧ (v = nan ∨ ∃ m, v = fin m) := by
  by_cases h : vals a = []
  · exact ⟨nan, calcStatistic_minmax_none rnd a h s hs, by simp [h], by simp, Or.inl rfl⟩
  · rcases hs with rfl | rfl
    · obtain ⟨m, h1, h2⟩ := calcStatistic_min rnd a h
      exact ⟨fin m, h1, by simp [h], by simpa using h2, Or.inr ⟨m, rfl⟩⟩
    · obtain ⟨m, h1, h2⟩ := calcStatistic_max rnd a h
      exact ⟨fin m, h1, by simp [h], by simpa using h2, Or.inr ⟨m, rfl⟩⟩

/-- Extremes only depend on the set of valid values. -/
theorem calcStatistic_minmax_congr (rnd : Rnd K) (a b : List (Fl K)) (s : Statistic) (hs : s = .min ∨ s = .max)
    (h : ∀ q, q ∈ vals a ↔ q ∈ vals b) : calcStatistic rnd a s = calcStatistic rnd b s := by
  obtain ⟨va, ha, hna, hma, hfa⟩ := calcStatistic_minmax_ok rnd a s hs
  obtain ⟨vb, hb, hnb, hmb, hfb⟩ := calcStatistic_minmax_ok rnd b s hs
  have hnil : vals a = [] ↔ vals b = [] := by
    constructor
    · intro h0; apply List.eq_nil_iff_forall_not_mem.mpr; intro q hq; have := (h q).mpr hq; rw [h0] at this; simp at this
    · intro h0; apply List.eq_nil_iff_forall_not_mem.mpr; intro q hq; have := (h q).mp hq; rw [h0] at this; simp at this
  rw [ha, hb]
  congr 1
  rcases hfa with rfl | ⟨m, rfl⟩
  · exact (hnb.mpr (hnil.mp (hna.mp rfl))).symm
  · rcases hfb with rfl | ⟨m', rfl⟩
    · exact hna.mpr (hnil.mpr (hnb.mp rfl))
    · congr 1
      rcases hs with rfl | rfl
      · have h1 := (hma m rfl).1 rfl
        have h2 := (hmb m' rfl).1 rfl
        exact le_antisymm (h1.2 _ ((h _).mpr h2.1)) (h2.2 _ ((h _).mp h1.1))
      · have h1 := (hma m rfl).2 rfl
        have h2 := (hmb m' rfl).2 rfl
        exact le_antisymm (h2.2 _ ((h _).mp h1.1)) (h1.2 _ ((h _).mpr h2.1))

/-- The extreme of the extremes of several lists is the extreme of their union. -/
theorem calcStatistic_minmax_nested (rnd : Rnd K) (ls : List (List (Fl K))) (s : Statistic) (hs : s = .min ∨ s = .max)
    {ms : List (Fl K)} (h : mapM (fun l => calcStatistic rnd l s) ls = ok ms) :
    calcStatistic rnd ms s = calcStatistic rnd ls.flatten s := by
  have hf := mapM_eq_ok h
  -- extreme of both
  have hmem : ∀ q, q ∈ vals ms → q ∈ vals ls.flatten := by
    intro q hq
    rw [mem_vals] at hq ⊢
    obtain ⟨l, hl, hlq⟩ : ∃ l ∈ ls, calcStatistic rnd l s = ok (fin q) := by
      clear h
      induction hf with
      | nil => simp at hq
      | cons h1 _ ih =>
        rcases List.mem_cons.mp hq with rfl | hq
        · exact ⟨_, by simp, h1⟩
        · obtain ⟨l, hl, h2⟩ := ih hq; exact ⟨l, by simp [hl], h2⟩
    obtain ⟨v, h1, -, h3, -⟩ := calcStatistic_minmax_ok rnd l s hs
    rw [hlq] at h1; cases h1
    have : q ∈ vals l := by
      rcases hs with rfl | rfl
      · exact ((h3 q rfl).1 rfl).1
      · exact ((h3 q rfl).2 rfl).1
    exact List.mem_flatten.mpr ⟨l, hl, mem_vals.mp this⟩
  have hdom : ∀ q, q ∈ vals ls.flatten → ∃ m ∈ vals ms, (s = .min → m ≤ q) ∧ (s = .max → q ≤ m) := by
    intro q hq
    rw [mem_vals] at hq
    obtain ⟨l, hl, hlq⟩ := List.mem_flatten.mp hq
    have hlv : q ∈ vals l := mem_vals.mpr hlq
    obtain ⟨v, h1, h2, h3, h4⟩ := calcStatistic_minmax_ok rnd l s hs
    have hv : v ∈ ms := by
      clear h hmem
      induction hf with
      | nil => simp at hl
      | cons h5 _ ih =>
        rcases List.mem_cons.mp hl with rfl | hl
        · rw [h1] at h5; cases h5; simp
        · exact List.mem_cons_of_mem _ (ih (List.mem_flatten.mpr ⟨l, hl, hlq⟩) hl)
    rcases h4 with rfl | ⟨m, rfl⟩
    · rw [h2.mp rfl] at hlv; simp at hlv
    · refine ⟨m, mem_vals.mpr hv, fun hs' => ((h3 m rfl).1 hs').2 q hlv, fun hs' => ((h3 m rfl).2 hs').2 q hlv⟩
  obtain ⟨va, ha, hna, hma, hfa⟩ := calcStatistic_minmax_ok rnd ms s hs
  obtain ⟨vb, hb, hnb, hmb, hfb⟩ := calcStatistic_minmax_ok rnd ls.flatten s hs
  rw [ha, hb]
  congr 1
  have hnil : vals ms = [] ↔ vals ls.flatten = [] := by
    constructor
    · intro h0; apply List.eq_nil_iff_forall_not_mem.mpr; intro q hq
      obtain ⟨m, hm, -⟩ := hdom q hq; rw [h0] at hm; simp at hm
    · intro h0; apply List.eq_nil_iff_forall_not_mem.mpr; intro q hq; have := hmem q hq; rw [h0] at this; simp at this
  rcases hfa with rfl | ⟨m, rfl⟩
  · exact (hnb.mpr (hnil.mp (hna.mp rfl))).symm
  · rcases hfb with rfl | ⟨m', rfl⟩
    · exact hna.mpr (hnil.mpr (hnb.mp rfl))
    · congr 1
      rcases hs with rfl | rfl
      · have h1 := (hma m rfl).1 rfl
        have h2 := (hmb m' rfl).1 rfl
        obtain ⟨m2, hm2, hle, -⟩ := hdom _ h2.1
        exact le_antisymm (le_trans (h1.2 _ hm2) (hle rfl)) (h2.2 _ (hmem _ h1.1))
      · have h1 := (hma m rfl).2 rfl
        have h2 := (hmb m' rfl).2 rfl
        obtain ⟨m2, hm2, -, hle⟩ := hdom _ h2.1
        exact le_antisymm (h2.2 _ (hmem _ h1.1)) (le_trans (hle rfl) (h1.2 _ hm2))

/-- Column `j` of the rows `lo..hi`. -/
def column (a : List (List (Fl K))) (lo hi j : Nat) : List (Fl K) := (slice lo hi a).filterMap (·[j]?)

theorem mem_column {a : List (List (Fl K))} {lo hi j : Nat} {v : Fl K} :
    v ∈ column a lo hi j ↔ ∃ i, lo ≤ i ∧ i ≤ hi ∧ cell? a i j = some v := by
  unfold column
  simp only [List.mem_filterMap, mem_slice, cell?]
  constructor
  · rintro ⟨r, ⟨i, h1, h2, h3⟩, h4⟩; exact ⟨i, h1, h2, by rw [h3]; exact h4⟩
  · rintro ⟨i, h1, h2, h3⟩
    cases hr : a[i]? with
    | none => rw [hr] at h3; simp at h3
    | some r => rw [hr] at h3; exact ⟨r, ⟨i, h1, h2, hr⟩, h3⟩

theorem mem_square {α : Type} {a : List (List α)} {hw y x : Nat} {v : α} :
    v ∈ square a hw y x ↔ ∃ i j, y - hw ≤ i ∧ i ≤ y + hw ∧ x - hw ≤ j ∧ j ≤ x + hw ∧ cell? a i j = some v := by
  unfold square
  simp only [List.mem_flatMap, mem_slice, cell?]
  constructor
  · rintro ⟨r, ⟨i, h1, h2, h3⟩, j, h4, h5, h6⟩; exact ⟨i, j, h1, h2, h4, h5, by rw [h3]; exact h6⟩
  · rintro ⟨i, j, h1, h2, h4, h5, h6⟩
    cases hr : a[i]? with
    | none => rw [hr] at h6; simp at h6
    | some r => rw [hr] at h6; exact ⟨r, ⟨i, h1, h2, hr⟩, j, h4, h5, h6⟩

theorem filterMap_eq_map_of_some {α β : Type} {f : α → Option β} {g : α → β} {l : List α} (h : ∀ a ∈ l, f a = some (g a)) :
    l.filterMap f = l.map g := by
  induction l with
  | nil => rfl
  | cons a t ih => rw [List.filterMap_cons, h a (by simp), List.map_cons, ih (fun b hb => h b (by simp [hb]))]

theorem neighbourhoodMinMax_ok (rnd : Rnd K) {Y X : Nat} {a : List (List (Fl K))} (h : Rect Y X a) (hw : Nat) {s : Statistic}
    (hs : s = .min ∨ s = .max) {g : Nat → Nat → Fl K}
    (hg : ∀ y < Y, ∀ x < X, calcStatistic rnd (square a hw y x) s = ok (g y x)) :
    neighbourhoodMinMax rnd a Y X (hw : Int) s = ok (tabulate Y X g) := by
  unfold neighbourhoodMinMax
  rw [show tabulate Y X g = (List.range Y).map (fun y => (List.range X).map fun x => g y x) from rfl]
  rw [mapM_upto]
  · rfl
  intro y hy
  split
  · apply mapM_upto
    intro x hx
    rw [squareSize_ok hy hx, ok_bind, collectSquare_ok h hy hx, ok_bind, ← length_square h hy hx]
    have : decide ((((square a hw y x).filter isValid).length : Int) ≤ ((square a hw y x).length : Int)) = true := by
      rw [decide_eq_true_eq]; exact_mod_cast List.length_filter_le _ _
    simp only [this, assert_true, ok_bind]
    rw [← hg y hy x hx]
    apply calcStatistic_minmax_congr rnd _ _ s hs
    intro q; rw [vals_filter_isValid]
  · rename_i hc
    have hc1 : hw ≤ y := by omega
    have hc2 : y + hw < Y := by omega
    have hYl : a.length = Y := h.1
    -- slivers
    have hsl : ∀ x < X, mapM (fun ii => vget2 a ii (x : Int)) (irange ((y : Int) - hw) ((y : Int) + hw))
        = ok (column a (y - hw) (y + hw) x) := by
      intro x hx
      have e1 : (y : Int) - hw = ((y - hw : Nat) : Int) := by omega
      have e2 : (y : Int) + hw = ((y + hw : Nat) : Int) := by omega
      rw [e1, e2]
      rw [mapM_irange_slice (l := a) (g := fun r => (r[x]?).getD nan) (by omega)]
      · congr 1
        unfold column
        symm
        apply filterMap_eq_map_of_some
        intro r hr
        have hrl : r.length = X := h.2 r (by unfold slice at hr; exact List.mem_of_mem_take (List.mem_of_mem_drop hr))
        rw [List.getElem?_eq_getElem (by omega)]; rfl
      · intro i hi _ _
        have hrl := h.row_length hi
        simp only [vget2]
        rw [vget_eq_ok_of_lt hi, ok_bind, vget_eq_ok_of_lt (by omega)]
        rw [List.getElem?_eq_getElem (by omega)]; rfl
    choose sv hsv using fun x => calcStatistic_minmax_ok rnd (column a (y - hw) (y + hw) x) s hs
    have hsl2 : mapM (fun j => do
        let sliver ← mapM (fun ii => vget2 a ii j) (irange ((y : Int) - hw) ((y : Int) + hw))
        calcStatistic rnd sliver s) (upto X) = ok ((List.range X).map sv) := by
      apply mapM_upto
      intro x hx
      rw [hsl x hx, ok_bind, (hsv x).1]
    rw [hsl2, ok_bind]
    apply mapM_upto
    intro x hx
    obtain ⟨X, rfl⟩ : ∃ k, X = k + 1 := ⟨X - 1, by omega⟩
    rw [clip_lo, clip_hi]
    rw [mapM_irange_slice (l := (List.range (X + 1)).map sv) (g := id) (by simp) (fun i hi _ _ => by
      rw [vget_eq_ok_of_lt hi]; rfl)]
    rw [ok_bind, List.map_id, slice_min _ _ _ X (by simp), ← hg y hy x hx]
    -- nested
    have hn := calcStatistic_minmax_nested rnd ((slice (x - hw) (x + hw) (List.range (X + 1))).map (column a (y - hw) (y + hw))) s hs
      (ms := slice (x - hw) (x + hw) ((List.range (X + 1)).map sv)) (by
        rw [show slice (x - hw) (x + hw) ((List.range (X + 1)).map sv) = ((slice (x - hw) (x + hw) (List.range (X + 1))).map sv) by
          unfold slice; rw [List.map_drop, List.map_take]]
        clear hg hsl hsl2
        generalize slice (x - hw) (x + hw) (List.range (X + 1)) = l
        induction l with
        | nil => rfl
        | cons c t ih => rw [List.map_cons, List.map_cons, mapM_cons, (hsv c).1, ih]; rfl)
    rw [hn]
    apply calcStatistic_minmax_congr rnd _ _ s hs
    intro q
    rw [mem_vals, mem_vals, mem_square, List.mem_flatten]
    simp only [List.mem_map]
    constructor
    · rintro ⟨l, ⟨j, hj, rfl⟩, hq⟩
      obtain ⟨k, hk1, hk2, hk3⟩ := mem_slice.mp hj
      obtain ⟨i, h1, h2, h3⟩ := mem_column.mp hq
      have : k = j := by
        have hk : k < X + 1 := by
          by_contra hc'
          rw [List.getElem?_eq_none (by simp; omega)] at hk3; cases hk3
        rw [List.getElem?_eq_getElem (by simpa using hk)] at hk3
        simpa using hk3
      subst this
      exact ⟨i, k, h1, h2, hk1, hk2, h3⟩
    · rintro ⟨i, j, h1, h2, h3, h4, h5⟩
      have hj : j < X + 1 := by
        unfold cell? at h5
        cases hr : a[i]? with
        | none => rw [hr] at h5; simp at h5
        | some r =>
          rw [hr] at h5
          simp only [Option.bind_some] at h5
          have hrl := h.2 r (List.mem_of_getElem? hr)
          rw [← hrl]
          exact (List.getElem?_eq_some_iff.mp h5).1
      refine ⟨_, ⟨j, mem_slice.mpr ⟨j, h3, h4, by simp [hj]⟩, rfl⟩, mem_column.mpr ⟨i, h1, h2, h5⟩⟩

end Gridpp
