import Verif.Lemmas.Neighbourhood

/-! Lemmas about `neighbourhood`: variance, dispatch, and the ensemble version. -/

set_option linter.unusedSectionVars false

namespace Gridpp
open Fl Res Spec

variable {K : Type} [Field K] [LinearOrder K] [IsStrictOrderedRing K] [FloorRing K] [HasSqrt K]

theorem slice_map {α β : Type} (f : α → β) (lo hi : Nat) (l : List α) : slice lo hi (l.map f) = (slice lo hi l).map f := by
  unfold slice; rw [List.map_drop, List.map_take]

theorem square_map {α β : Type} (f : α → β) (a : List (List α)) (hw y x : Nat) :
    square (a.map (List.map f)) hw y x = (square a hw y x).map f := by
  unfold square
  rw [slice_map, List.flatMap_map, List.map_flatMap]
  congr 1
  funext r
  exact slice_map f _ _ r

theorem rect_map {α β : Type} (f : α → β) {Y X : Nat} {a : List (List α)} (h : Rect Y X a) : Rect Y X (a.map (List.map f)) := by
  refine ⟨by simp [h.1], ?_⟩
  intro r hr
  obtain ⟨r', hr', rfl⟩ := List.mem_map.mp hr
  simp [h.2 r' hr']

theorem cell?_map {α β : Type} (f : α → β) (a : List (List α)) (y x : Nat) : cell? (a.map (List.map f)) y x = (cell? a y x).map f := by
  unfold cell?
  rw [List.getElem?_map]
  cases a[y]? <;> simp

theorem mapM_upto_list {α β : Type} {n : Nat} {l : List α} (hl : l.length = n) {g : Int → Res β} {f : α → β}
    (hg : ∀ i, (h : i < l.length) → g (i : Int) = ok (f l[i])) : mapM g (upto n) = ok (l.map f) := by
  apply mapM_of_forall₂
  rw [List.forall₂_iff_get]
  refine ⟨by simp [upto, hl], fun i h1 h2 => ?_⟩
  have h3 : i < l.length := by simpa using h2
  have := hg i h3
  simpa [upto] using this

/-- `for(y,x) out[y][x] = f(in[y][x])`. -/
theorem grid2_map {α β : Type} {Y X : Nat} {a : List (List α)} (h : Rect Y X a) {g : Int → Int → Res β} {f : α → β}
    (hg : ∀ (y x : Nat) v, cell? a y x = some v → g (y : Int) (x : Int) = ok (f v)) :
    grid2 Y X g = ok (a.map (List.map f)) := by
  unfold grid2
  apply mapM_upto_list h.1
  intro y hy
  apply mapM_upto_list (h.row_length hy)
  intro x hx
  exact hg y x _ (by simp [cell?, hy, hx])

theorem vals_map_sq (l : List (Fl K)) : vals (l.map fun v => v * v) = (vals l).map (· ^ 2) := by
  induction l with
  | nil => rfl
  | cons v t ih =>
    cases v with
    | fin q => simp [ih, sq]
    | nan => simpa using ih
    | pinf => rw [List.map_cons, show (pinf * pinf : Fl K) = pinf from rfl]; simpa using ih
    | ninf => rw [List.map_cons, show (ninf * ninf : Fl K) = pinf from rfl]; simpa using ih

theorem neighbourhoodBasic_ok (rnd : Rnd K) {Y X : Nat} {a : List (List (Fl K))} (h : Rect Y X a) (hY : 0 < Y) (hX : 0 < X)
    (hw : Nat) {s : Statistic} (hs : s ≠ .quantile) {g : Nat → Nat → Fl K}
    (hg : ∀ y < Y, ∀ x < X, calcStatistic rnd (square a hw y x) s = ok (g y x)) :
    neighbourhoodBasic rnd a (hw : Int) s = ok (tabulate Y X g) := by
  unfold neighbourhoodBasic
  rw [if_neg (by omega), if_neg hs]
  obtain ⟨r, t, rfl⟩ : ∃ r t, a = r :: t := by
    cases a with
    | nil => have := h.1; simp at this; omega
    | cons r t => exact ⟨r, t, rfl⟩
  have hr : r.length = X := h.2 r (by simp)
  have hl : (r :: t).length = Y := h.1
  simp only []
  rw [if_neg (by omega), hr, hl]
  split
  · next h1 => exact neighbourhoodSum_ok rnd h hw h1 hg
  · split
    · next h1 => exact neighbourhoodMinMax_ok rnd h hw h1 hg
    · exact neighbourhoodBrute_ok rnd h hY hX hw hs 0 hg

theorem calcStatistic_mean (rnd : Rnd K) (a : List (Fl K)) :
    calcStatistic rnd a .mean = ok (if vals a = [] then nan else fin (mean (vals a))) := by
  simp only [calcStatistic, sumCount_eq]
  by_cases h : vals a = []
  · simp [h]
  · have hp : 0 < (vals a).length := List.length_pos_iff.mpr h
    rw [if_pos hp, if_neg h, Fl.ofNat_def, fin_div_of_ne _ (length_ne_zero h)]; rfl

theorem calcStatistic_sum (rnd : Rnd K) (a : List (Fl K)) :
    calcStatistic rnd a .sum = ok (if vals a = [] then nan else fin (vals a).sum) := by
  simp only [calcStatistic, sumCount_eq]
  by_cases h : vals a = []
  · simp [h]
  · have hp : 0 < (vals a).length := List.length_pos_iff.mpr h
    rw [if_pos hp, if_neg h]

theorem calcVariance_cases (a : List (Fl K)) : calcVariance a = if vals a = [] then nan else fin (Spec.variance (vals a)) := by
  by_cases h : vals a = []
  · rw [if_pos h, calcVariance_none a h]
  · rw [if_neg h, calcVariance_eq a h]

theorem neighbourhoodVar_ok (rnd : Rnd K) {Y X : Nat} {a : List (List (Fl K))} (h : Rect Y X a) (hY : 0 < Y) (hX : 0 < X)
    (hw : Nat) {s : Statistic} (hs : s = .std ∨ s = .variance) {g : Nat → Nat → Fl K}
    (hg : ∀ y < Y, ∀ x < X, calcStatistic rnd (square a hw y x) s = ok (g y x)) :
    neighbourhood rnd a (hw : Int) s = ok (tabulate Y X g) := by
  have h1 := neighbourhoodBasic_ok rnd h hY hX hw (s := .mean) (by decide)
    (g := fun y x => if vals (square a hw y x) = [] then nan else fin (mean (vals (square a hw y x))))
    (fun y _ x _ => calcStatistic_mean rnd _)
  have h2 := neighbourhoodBasic_ok rnd (rect_map (fun v : Fl K => v * v) h) hY hX hw (s := .mean) (by decide)
    (g := fun y x => if vals (square a hw y x) = [] then nan else fin (mean ((vals (square a hw y x)).map (· ^ 2))))
    (fun y _ x _ => by rw [calcStatistic_mean, square_map, vals_map_sq]; simp)
  unfold neighbourhood
  rw [if_pos hs, if_neg (by omega)]
  obtain ⟨r, t, rfl⟩ : ∃ r t, a = r :: t := by
    cases a with
    | nil => have := h.1; simp at this; omega
    | cons r t => exact ⟨r, t, rfl⟩
  have hr : r.length = X := h.2 r (by simp)
  have hl : (r :: t).length = Y := h.1
  simp only []
  rw [if_neg (by omega), hr, hl, h1, ok_bind, grid2_map h (f := fun v => v * v) (by
    intro y x v hv
    rw [vget2_of_cell? hv]; rfl), ok_bind, h2, ok_bind]
  apply grid2_ok
  intro y hy x hx
  rw [vget2_tabulate _ hy hx, vget2_tabulate _ hy hx, ok_bind, ok_bind, ← hg y hy x hx]
  have hv : ((if vals (square (r :: t) hw y x) = [] then nan else fin (mean ((vals (square (r :: t) hw y x)).map (· ^ 2))) : Fl K)
      - (if vals (square (r :: t) hw y x) = [] then nan else fin (mean (vals (square (r :: t) hw y x)))) *
        (if vals (square (r :: t) hw y x) = [] then nan else fin (mean (vals (square (r :: t) hw y x)))))
      = calcVariance (square (r :: t) hw y x) := by
    rw [calcVariance_cases]
    by_cases hn : vals (square (r :: t) hw y x) = []
    · simp [hn]
    · simp only [if_neg hn, fin_mul, fin_sub]
      rw [← shifted_variance _ 0 hn]
      simp [mean, pow_two]
  rw [hv]
  rcases hs with rfl | rfl <;> simp [calcStatistic]

/-- Every statistic other than Quantile: `neighbourhood` is the statistic over the square. -/
theorem neighbourhood_ok (rnd : Rnd K) {Y X : Nat} {a : List (List (Fl K))} (h : Rect Y X a) (hY : 0 < Y) (hX : 0 < X)
    (hw : Nat) {s : Statistic} (hs : s ≠ .quantile) {g : Nat → Nat → Fl K}
    (hg : ∀ y < Y, ∀ x < X, calcStatistic rnd (square a hw y x) s = ok (g y x)) :
    neighbourhood rnd a (hw : Int) s = ok (tabulate Y X g) := by
  by_cases hv : s = .std ∨ s = .variance
  · exact neighbourhoodVar_ok rnd h hY hX hw hv hg
  · unfold neighbourhood
    rw [if_neg hv]
    exact neighbourhoodBasic_ok rnd h hY hX hw hs hg

/-! ### Ensemble -/

theorem sum_nested (rnd : Rnd K) (ls : List (List (Fl K))) {ms : List (Fl K)}
    (h : mapM (fun l => calcStatistic rnd l .sum) ls = ok ms) :
    calcStatistic rnd ms .sum = calcStatistic rnd ls.flatten .sum := by
  have hf := mapM_eq_ok h
  have : (vals ms).sum = (vals ls.flatten).sum ∧ (vals ms = [] ↔ vals ls.flatten = []) := by
    clear h
    induction hf with
    | nil => simp
    | @cons l m ls ms h1 _ ih =>
      rw [calcStatistic_sum] at h1
      rw [List.flatten_cons, vals_append, List.sum_append, ← ih.1]
      by_cases hl : vals l = []
      · rw [if_pos hl] at h1; cases h1
        simp [hl, ih.2]
      · rw [if_neg hl] at h1; cases h1
        simp [hl]
  rw [calcStatistic_sum, calcStatistic_sum, this.1]
  by_cases hn : vals ms = []
  · rw [if_pos hn, if_pos (this.2.mp hn)]
  · rw [if_neg hn, if_neg (fun h' => hn (this.2.mpr h'))]

theorem mean_nested (rnd : Rnd K) (ls : List (List (Fl K))) (E : Nat) (hE : 0 < E) (hls : ∀ l ∈ ls, (vals l).length = E) {ms : List (Fl K)}
    (h : mapM (fun l => calcStatistic rnd l .mean) ls = ok ms) :
    calcStatistic rnd ms .mean = calcStatistic rnd ls.flatten .mean := by
  have hf := mapM_eq_ok h
  have hE' : (E : K) ≠ 0 := by exact_mod_cast hE.ne'
  have : (vals ms).sum * E = (vals ls.flatten).sum ∧ (vals ms).length * E = (vals ls.flatten).length := by
    clear h
    induction hf with
    | nil => simp
    | @cons l m ls ms h1 _ ih =>
      rw [calcStatistic_mean] at h1
      have hl := hls l (by simp)
      have hn : vals l ≠ [] := by intro h0; rw [h0] at hl; simp at hl; omega
      rw [if_neg hn] at h1; cases h1
      have ih := ih (fun l' hl' => hls l' (by simp [hl']))
      rw [List.flatten_cons, vals_append, List.sum_append, List.length_append, ← ih.1, ← ih.2, hl]
      simp only [vals_fin, List.sum_cons, List.length_cons, mean, hl]
      constructor
      · field_simp
      · ring
  rw [calcStatistic_mean, calcStatistic_mean]
  by_cases hn : vals ms = []
  · have : vals ls.flatten = [] := by
      apply List.eq_nil_of_length_eq_zero; rw [← this.2, hn]; simp
    rw [if_pos hn, if_pos this]
  · have hn' : vals ls.flatten ≠ [] := by
      intro h0
      have h2 := this.2
      rw [h0] at h2
      simp at h2
      rcases h2 with h2 | h2
      · exact hn h2
      · omega
    rw [if_neg hn, if_neg hn']
    congr 2
    unfold mean
    rw [← this.1, ← this.2]
    push_cast
    rw [mul_div_mul_right _ _ hE']

/-- `neighbourhood(vec3)`: the statistic over the cells' statistics. -/
theorem neighbourhood3_ok (rnd : Rnd K) {Y X : Nat} {a : List (List (List (Fl K)))} (h : Rect Y X a) (hY : 0 < Y) (hX : 0 < X)
    (hw : Nat) {s : Statistic} (hs : s ≠ .quantile) {st : List (Fl K) → Fl K} (hst : ∀ l, calcStatistic rnd l s = ok (st l)) :
    neighbourhood3 rnd a (hw : Int) s = ok (tabulate Y X fun y x => st ((square a hw y x).map st)) := by
  unfold neighbourhood3
  obtain ⟨r, t, rfl⟩ : ∃ r t, a = r :: t := by
    cases a with
    | nil => have := h.1; simp at this; omega
    | cons r t => exact ⟨r, t, rfl⟩
  have hr : r.length = X := h.2 r (by simp)
  have hl : (r :: t).length = Y := h.1
  obtain ⟨c, u, rfl⟩ : ∃ c u, r = c :: u := by
    cases r with
    | nil => simp at hr; omega
    | cons r t => exact ⟨r, t, rfl⟩
  rw [vget_zero_cons, ok_bind, vget_zero_cons, ok_bind, hr, hl, grid2_map h (f := st) (by
    intro y x v hv
    rw [vget2_of_cell? hv, ok_bind, hst]), ok_bind]
  apply neighbourhood_ok rnd (rect_map st h) hY hX hw hs
  intro y _ x _
  rw [square_map, hst]

theorem mapM_st {rnd : Rnd K} {s : Statistic} {st : List (Fl K) → Fl K} (hst : ∀ l, calcStatistic rnd l s = ok (st l))
    (ls : List (List (Fl K))) : mapM (fun l => calcStatistic rnd l s) ls = ok (ls.map st) := mapM_ok fun l _ => hst l

end Gridpp
