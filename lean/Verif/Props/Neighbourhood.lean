import Verif.Lemmas.Neighbourhood2
import Verif.Props.Stats

/-! # C21–C25, C28: neighbourhood statistics -/

set_option linter.unusedSectionVars false

namespace Gridpp.Props
open Fl Res Spec

variable {K : Type} [Field K] [LinearOrder K] [IsStrictOrderedRing K] [FloorRing K] [HasSqrt K]

/-- `out` is a `Y x X` field whose value at each cell is the statistic over the clipped square around the cell. -/
def IsNeighbourhood (rnd : Rnd K) (Y X : Nat) (a : List (List (Fl K))) (hw : Nat) (s : Statistic) (out : List (List (Fl K))) : Prop :=
  Rect Y X out ∧ ∀ y < Y, ∀ x < X, ∃ v, cell? out y x = some v ∧ calcStatistic rnd (square a hw y x) s = ok v

theorem neighbourhood_total (rnd : Rnd K) {Y X : Nat} {a : List (List (Fl K))} (h : Rect Y X a) (hY : 0 < Y) (hX : 0 < X)
    (hw : Nat) {s : Statistic} (hs : Deterministic s) :
    ∃ out, neighbourhood rnd a (hw : Int) s = ok out ∧ IsNeighbourhood rnd Y X a hw s out ∧
      neighbourhoodBruteForce rnd a (hw : Int) s = ok out := by
  choose v hv using fun l => c01_missing_iff rnd l s hs
  have hq : s ≠ .quantile := by rintro rfl; simp [Deterministic] at hs
  have hg : ∀ y < Y, ∀ x < X, calcStatistic rnd (square a hw y x) s = ok (v (square a hw y x)) := fun y _ x _ => (hv _).1
  refine ⟨_, neighbourhood_ok rnd h hY hX hw hq hg, ⟨rect_tabulate _ _ _, fun y hy x hx => ⟨_, cell?_tabulate _ hy hx, hg y hy x hx⟩⟩,
    neighbourhoodBrute_ok rnd h hY hX hw hq 0 hg⟩

/-- The clipped square contains exactly the cells at most `hw` rows and columns away, and has as many entries as
there are such cells. -/
theorem square_spec {Y X : Nat} {a : List (List (Fl K))} (h : Rect Y X a) (hw : Nat) {y x : Nat} (hy : y < Y) (hx : x < X) :
    (∀ v, v ∈ square a hw y x ↔ ∃ i j, y ≤ i + hw ∧ i ≤ y + hw ∧ x ≤ j + hw ∧ j ≤ x + hw ∧ cell? a i j = some v) ∧
    ((square a hw y x).length : Int) = (min ((Y : Int) - 1) (y + hw) - max 0 ((y : Int) - hw) + 1) *
      (min ((X : Int) - 1) (x + hw) - max 0 ((x : Int) - hw) + 1) := by
  refine ⟨fun v => ?_, length_square h hy hx⟩
  rw [mem_square]
  constructor
  · rintro ⟨i, j, h1, h2, h3, h4, h5⟩; exact ⟨i, j, by omega, h2, by omega, h4, h5⟩
  · rintro ⟨i, j, h1, h2, h3, h4, h5⟩; exact ⟨i, j, by omega, h2, by omega, h4, h5⟩

/-- **C21**. Mean, Sum and Count by accumulated tables: every half width, any missing values, no invalid read; equal
to the brute force version. -/
theorem c21_sum_mean_count (rnd : Rnd K) (Y X : Nat) (a : List (List (Fl K))) (h : Rect Y X a) (hY : 0 < Y) (hX : 0 < X)
    (hw : Nat) (s : Statistic) (hs : s = .mean ∨ s = .sum ∨ s = .count) :
    ∃ out, neighbourhood rnd a (hw : Int) s = ok out ∧ IsNeighbourhood rnd Y X a hw s out ∧
      neighbourhoodBruteForce rnd a (hw : Int) s = ok out :=
  neighbourhood_total rnd h hY hX hw (by rcases hs with rfl | rfl | rfl <;> simp [Deterministic])

/-- **C22**. Min and Max by column slivers. -/
theorem c22_min_max (rnd : Rnd K) (Y X : Nat) (a : List (List (Fl K))) (h : Rect Y X a) (hY : 0 < Y) (hX : 0 < X)
    (hw : Nat) (s : Statistic) (hs : s = .min ∨ s = .max) :
    ∃ out, neighbourhood rnd a (hw : Int) s = ok out ∧ IsNeighbourhood rnd Y X a hw s out ∧
      neighbourhoodBruteForce rnd a (hw : Int) s = ok out :=
  neighbourhood_total rnd h hY hX hw (by rcases hs with rfl | rfl <;> simp [Deterministic])

/-- **C23**. Variance and Std as mean of squares minus square of mean. -/
theorem c23_variance_std (rnd : Rnd K) (Y X : Nat) (a : List (List (Fl K))) (h : Rect Y X a) (hY : 0 < Y) (hX : 0 < X)
    (hw : Nat) (s : Statistic) (hs : s = .variance ∨ s = .std) :
    ∃ out, neighbourhood rnd a (hw : Int) s = ok out ∧ IsNeighbourhood rnd Y X a hw s out ∧
      neighbourhoodBruteForce rnd a (hw : Int) s = ok out :=
  neighbourhood_total rnd h hY hX hw (by rcases hs with rfl | rfl <;> simp [Deterministic])

/-- A 3 x 4 field with missing values, used to exercise the hypotheses. -/
def demo : List (List (Fl ℚ)) := [[fin 1, nan, fin 3, fin 0], [nan, nan, fin 2, fin 7], [fin 4, fin 5, pinf, fin (-2)]]

example : Rect 3 4 demo ∧
    neighbourhood (fun _ => 0) demo 1 .sum =
      ok [[fin 1, fin 6, fin 12, fin 12], [fin 10, fin 15, fin 15, fin 10], [fin 9, fin 11, fin 12, fin 7]] ∧
    neighbourhood (fun _ => 0) demo 1 .max =
      ok [[fin 1, fin 3, fin 7, fin 7], [fin 5, fin 5, fin 7, fin 7], [fin 5, fin 5, fin 7, fin 7]] ∧
    neighbourhood (fun _ => 0) demo 5 .count = ok (List.replicate 3 (List.replicate 4 (fin 8))) ∧
    neighbourhood (fun _ => 0) demo 0 .variance =
      ok [[fin 0, nan, fin 0, fin 0], [nan, nan, fin 0, fin 0], [fin 0, fin 0, nan, fin 0]] := by
  decide +kernel

/-- **C24** (errors, empty input, size). -/
theorem c24_contract (rnd : Rnd K) (a : List (List (Fl K))) (hw : Int) (s : Statistic) :
    (hw < 0 → neighbourhood rnd a hw s = .throw .invalidArgument) ∧
    neighbourhood rnd a hw .quantile = .throw .invalidArgument ∧
    (0 ≤ hw → s ≠ .quantile → neighbourhood rnd [] hw s = ok [] ∧ ∀ t, neighbourhood rnd ([] :: t) hw s = ok []) ∧
    (0 ≤ hw → Deterministic s → ∀ Y X, 0 < Y → 0 < X → Rect Y X a → ∃ out, neighbourhood rnd a hw s = ok out ∧ Rect Y X out) := by
  refine ⟨fun h => ?_, ?_, fun h hs => ⟨?_, fun t => ?_⟩, fun h hs Y X hY hX hr => ?_⟩
  · unfold neighbourhood neighbourhoodBasic
    simp [h]
  · unfold neighbourhood neighbourhoodBasic
    simp
  · unfold neighbourhood neighbourhoodBasic
    have h' := not_lt.mpr h
    simp [h', hs]
  · unfold neighbourhood neighbourhoodBasic
    have h' := not_lt.mpr h
    simp [h', hs]
  · obtain ⟨n, rfl⟩ := Int.eq_ofNat_of_zero_le h
    obtain ⟨out, h1, h2, -⟩ := neighbourhood_total rnd hr hY hX n hs
    exact ⟨out, h1, h2.1⟩

theorem square_zero {Y X : Nat} {a : List (List (Fl K))} (h : Rect Y X a) {y x : Nat} (hy : y < Y) (hx : x < X) :
    ∃ v, cell? a y x = some v ∧ square a 0 y x = [v] := by
  obtain ⟨v, hv⟩ := h.cell?_some hy hx
  refine ⟨v, hv, ?_⟩
  have hl : (square a 0 y x).length = 1 := by
    have := (square_spec h 0 hy hx).2
    have e1 : min ((Y : Int) - 1) (y + (0 : Nat)) - max 0 ((y : Int) - (0 : Nat)) + 1 = 1 := by omega
    have e2 : min ((X : Int) - 1) (x + (0 : Nat)) - max 0 ((x : Int) - (0 : Nat)) + 1 = 1 := by omega
    rw [e1, e2] at this; omega
  have hm := ((square_spec h 0 hy hx).1 v).mpr ⟨y, x, by omega, by omega, by omega, by omega, hv⟩
  obtain ⟨w, hw⟩ := List.length_eq_one_iff.mp hl
  rw [hw] at hm ⊢
  rw [List.mem_singleton.mp hm]

/-- **C24** (half width 0). The input with invalid values replaced by missing. -/
theorem c24_zero (rnd : Rnd K) (Y X : Nat) (a : List (List (Fl K))) (h : Rect Y X a) (hY : 0 < Y) (hX : 0 < X)
    (s : Statistic) (hs : s ∈ [Statistic.mean, .sum, .min, .max, .median]) :
    neighbourhood rnd a 0 s = ok (a.map (List.map fun v => if v.isValid then v else nan)) := by
  have hd : Deterministic s := by
    simp only [List.mem_cons, List.not_mem_nil, or_false] at hs
    rcases hs with rfl | rfl | rfl | rfl | rfl <;> simp [Deterministic]
  obtain ⟨out, h1, h2, -⟩ := neighbourhood_total rnd h hY hX 0 hd
  rw [show ((0 : Nat) : Int) = 0 from rfl] at h1
  rw [h1]
  congr 1
  refine Rect.ext h2.1 (rect_map _ h) (fun y hy x hx => ?_)
  obtain ⟨w, hw1, hw2⟩ := h2.2 y hy x hx
  obtain ⟨v, hv1, hv2⟩ := square_zero h hy hx
  rw [hw1, cell?_map, hv1]
  rw [hv2] at hw2
  simp only [Option.map_some, Option.some.injEq]
  cases v with
  | fin q =>
    have hex : ∃ x ∈ [fin q], x.isValid = true := ⟨fin q, by simp, rfl⟩
    obtain ⟨mean, mn, mx, med, a1, a2, a3, a4, a5, a6, a7, a8, a9, a10, a11, -, -⟩ := c02_mean_sum_count_min_max rnd [fin q] hex
    have e6 : mn = q := by simpa [MinOf] using a6.1
    have e8 : mx = q := by simpa [MaxOf] using a8.1
    have e9 : med = q := le_antisymm (e8 ▸ a11) (e6 ▸ a10)
    have e4 : mean = q := by simpa [filter_isValid] using a4
    subst e6 e8 e9
    simp only [List.mem_cons, List.not_mem_nil, or_false] at hs
    rcases hs with rfl | rfl | rfl | rfl | rfl
    · rw [a3] at hw2; cases hw2; simp [e4]
    · rw [a1] at hw2; cases hw2; simp
    · rw [a5] at hw2; cases hw2; simp
    · rw [a7] at hw2; cases hw2; simp
    · rw [a9] at hw2; cases hw2; simp
  | _ =>
    obtain ⟨v', b1, b2, -⟩ := c01_missing_iff rnd _ s hd
    rw [hw2] at b1; cases b1
    have hc : s ≠ .count := by rintro rfl; simp at hs
    have hnv := (b2 hc).mpr (by simp)
    -- the result is missing, i.e. NaN
    simp only [List.mem_cons, List.not_mem_nil, or_false] at hs
    rcases hs with rfl | rfl | rfl | rfl | rfl
    · simp [calcStatistic, sumCount] at hw2; simp [← hw2]
    · simp [calcStatistic, sumCount] at hw2; simp [← hw2]
    · rw [calcStatistic_minmax_none rnd _ (by simp) _ (Or.inl rfl)] at hw2; cases hw2; simp
    · rw [calcStatistic_minmax_none rnd _ (by simp) _ (Or.inr rfl)] at hw2; cases hw2; simp
    · simp only [calcStatistic] at hw2
      rw [calcQuantile_none _ (by simp) (by norm_num) (by norm_num)] at hw2; cases hw2; simp

/-- **C25** negation: with a missing member the mean of cell means is not the pooled mean, the count counts cells
instead of members, and an empty ensemble field is read out of range. -/
theorem c25_not_pooled :
    neighbourhood3 (fun _ => 0) ([[[fin 1, nan], [fin 4, fin 7]]] : List (List (List (Fl ℚ)))) 1 .mean
      = ok [[fin (13/4), fin (13/4)]] ∧
    calcStatistic (fun _ => 0) ([fin 1, nan, fin 4, fin 7] : List (Fl ℚ)) .mean = ok (fin 4) ∧
    neighbourhood3 (fun _ => 0) ([[[fin 1, nan], [fin 4, fin 7]]] : List (List (List (Fl ℚ)))) 1 .count = ok [[fin 2, fin 2]] ∧
    calcStatistic (fun _ => 0) ([fin 1, nan, fin 4, fin 7] : List (Fl ℚ)) .count = ok (fin 3) ∧
    neighbourhood3 (fun _ => 0) ([[[fin 1, fin 2], [fin 2, fin 7]]] : List (List (List (Fl ℚ)))) 1 .variance ≠
      (do let v ← calcStatistic (fun _ => 0) ([fin 1, fin 2, fin 2, fin 7] : List (Fl ℚ)) .variance; ok [[v, v]]) ∧
    neighbourhood3 (fun _ => 0) ([] : List (List (List (Fl ℚ)))) 1 .mean = ub := by
  decide +kernel

/-- **C25** partial: Min, Max and Sum pool all members; Mean does when every cell has the same positive number of
valid members. Missing: Mean otherwise, Count, Median, Std and Variance (false, see `c25_not_pooled`). -/
theorem c25_pooled_partial (rnd : Rnd K) (Y X : Nat) (a : List (List (List (Fl K)))) (h : Rect Y X a) (hY : 0 < Y) (hX : 0 < X)
    (hw : Nat) (s : Statistic) (hs : s = .min ∨ s = .max ∨ s = .sum ∨
      (s = .mean ∧ ∃ E, 0 < E ∧ ∀ r ∈ a, ∀ c ∈ r, (c.filter isValid).length = E)) :
    ∃ out, neighbourhood3 rnd a (hw : Int) s = ok out ∧ Rect Y X out ∧ ∀ y < Y, ∀ x < X,
      ∃ v, cell? out y x = some v ∧ calcStatistic rnd (square a hw y x).flatten s = ok v := by
  have hd : Deterministic s := by
    rcases hs with rfl | rfl | rfl | ⟨rfl, -⟩ <;> simp [Deterministic]
  have hq : s ≠ .quantile := by rintro rfl; simp [Deterministic] at hd
  choose st hst using fun l => c01_missing_iff rnd l s hd
  have hst := fun l => (hst l).1
  refine ⟨_, neighbourhood3_ok rnd h hY hX hw hq hst, rect_tabulate _ _ _, fun y hy x hx => ⟨_, cell?_tabulate _ hy hx, ?_⟩⟩
  rw [← hst]
  rcases hs with rfl | rfl | rfl | ⟨rfl, E, hE, hc⟩
  · exact (calcStatistic_minmax_nested rnd _ _ (Or.inl rfl) (mapM_st hst _)).symm
  · exact (calcStatistic_minmax_nested rnd _ _ (Or.inr rfl) (mapM_st hst _)).symm
  · exact (sum_nested rnd _ (mapM_st hst _)).symm
  · refine (mean_nested rnd _ E hE ?_ (mapM_st hst _)).symm
    intro l hl
    obtain ⟨i, j, -, -, -, -, hc'⟩ := mem_square.mp hl
    unfold cell? at hc'
    cases hr : a[i]? with
    | none => rw [hr] at hc'; simp at hc'
    | some r =>
      rw [hr] at hc'
      have := hc r (List.mem_of_getElem? hr) l (List.mem_of_getElem? hc')
      rw [filter_isValid, List.length_map] at this; exact this

example : Rect 1 2 ([[[fin 1, fin 3], [fin 4, fin 7]]] : List (List (List (Fl ℚ)))) ∧
    (∀ r ∈ ([[[fin 1, fin 3], [fin 4, fin 7]]] : List (List (List (Fl ℚ)))), ∀ c ∈ r, (c.filter isValid).length = 2) := by
  decide

/-- **C28**. `neighbourhood_quantile` at a level in [0, 1]: missing exactly when the window has no valid value, else
within the valid window values, and non-decreasing in the level. -/
theorem c28_quantile (rnd : Rnd K) (Y X : Nat) (a : List (List (Fl K))) (h : Rect Y X a) (hY : 0 < Y) (hX : 0 < X)
    (hw : Nat) (q : K) (h0 : 0 ≤ q) (h1 : q ≤ 1) :
    ∃ out, neighbourhoodQuantile rnd a (fin q) (hw : Int) = ok out ∧ Rect Y X out ∧ ∀ y < Y, ∀ x < X,
      ∃ v, cell? out y x = some v ∧
        (v.isValid = false ↔ ∀ w ∈ square a hw y x, w.isValid = false) ∧
        (∀ r, v = fin r → (∃ lo ∈ vals (square a hw y x), lo ≤ r) ∧ (∃ hi ∈ vals (square a hw y x), r ≤ hi)) ∧
        (∀ q', q ≤ q' → q' ≤ 1 → ∃ out', neighbourhoodQuantile rnd a (fin q') (hw : Int) = ok out' ∧
          ∃ v', cell? out' y x = some v' ∧ ∀ r r', v = fin r → v' = fin r' → r ≤ r') := by
  have hnone : ∀ l : List (Fl K), (∀ w ∈ l, w.isValid = false) ↔ vals l = [] := by
    intro l
    constructor
    · intro h
      by_contra hc
      obtain ⟨q, hq⟩ := List.exists_mem_of_ne_nil _ hc
      have := h _ (mem_vals.mp hq)
      simp at this
    · intro h x hx
      cases x with
      | fin q => have := mem_vals.mpr hx; rw [h] at this; simp at this
      | _ => rfl
  have hq : ∀ p : K, 0 ≤ p → p ≤ 1 → ∀ l : List (Fl K), ∃ v, calcQuantile l (fin p) = ok v ∧ (v = nan ∧ vals l = [] ∨
      ∃ r, v = fin r ∧ vals l ≠ [] ∧ OnPolyline (sorted (vals l)) (p * ((vals l).length - 1)) r) := by
    intro p hp0 hp1 l
    by_cases hl : vals l = []
    · exact ⟨nan, calcQuantile_none l hl hp0 hp1, Or.inl ⟨rfl, hl⟩⟩
    · obtain ⟨m, hm1, hm2⟩ := calcQuantile_polyline l hl hp0 hp1
      exact ⟨fin m, hm1, Or.inr ⟨m, rfl, hl, hm2⟩⟩
  have hrun : ∀ p : K, 0 ≤ p → p ≤ 1 → ∃ f : List (Fl K) → Fl K, (∀ l, calcQuantile l (fin p) = ok (f l)) ∧
      neighbourhoodQuantile rnd a (fin p) (hw : Int) = ok (tabulate Y X fun y x => f (square a hw y x)) := by
    intro p hp0 hp1
    choose f hf using hq p hp0 hp1
    refine ⟨f, fun l => (hf l).1, ?_⟩
    unfold neighbourhoodQuantile
    rw [neighbourhoodBrute_quantile rnd h hY hX hw, grid2_ok (g := fun y x => f (square a hw y x))]
    · rfl
    · intro y hy x hx
      rw [collectSquare_ok h hy hx, ok_bind]; exact (hf _).1
  obtain ⟨f, hf, hout⟩ := hrun q h0 h1
  refine ⟨_, hout, rect_tabulate _ _ _, fun y hy x hx => ⟨_, cell?_tabulate _ hy hx, ?_, ?_, ?_⟩⟩
  · rw [hnone]
    obtain ⟨v, hv, hc⟩ := hq q h0 h1 (square a hw y x)
    rw [hf] at hv; cases hv
    rcases hc with ⟨h2, h3⟩ | ⟨r, h2, h3, -⟩ <;> simp [h2, h3]
  · intro r hr
    obtain ⟨v, hv, hc⟩ := hq q h0 h1 (square a hw y x)
    rw [hf] at hv; cases hv
    rcases hc with ⟨h2, h3⟩ | ⟨r', h2, h3, h4⟩
    · rw [h2] at hr; cases hr
    · rw [h2] at hr; cases hr
      obtain ⟨m0, a1, a2⟩ := calcQuantile_zero _ h3
      obtain ⟨m1, b1, b2⟩ := calcQuantile_one _ h3
      obtain ⟨m0', a1', a2'⟩ := calcQuantile_polyline _ h3 (le_refl (0 : K)) zero_le_one
      obtain ⟨m1', b1', b2'⟩ := calcQuantile_polyline _ h3 (zero_le_one : (0 : K) ≤ 1) (le_refl 1)
      rw [a1] at a1'; cases a1'
      rw [b1] at b1'; cases b1'
      have hp : 0 < (vals (square a hw y x)).length := List.length_pos_iff.mpr h3
      have hN : (1 : K) ≤ (vals (square a hw y x)).length := by exact_mod_cast hp
      exact ⟨⟨m0, a2.1, polyline_mono (pairwise_sorted _) (by nlinarith) a2' h4⟩,
        ⟨m1, b2.1, polyline_mono (pairwise_sorted _) (by nlinarith) h4 b2'⟩⟩
  · intro q' hqq hq1
    obtain ⟨f', hf', hout'⟩ := hrun q' (h0.trans hqq) hq1
    refine ⟨_, hout', _, cell?_tabulate _ hy hx, fun r r' hr hr' => ?_⟩
    obtain ⟨v, hv, hc⟩ := hq q h0 h1 (square a hw y x)
    obtain ⟨v', hv', hc'⟩ := hq q' (h0.trans hqq) hq1 (square a hw y x)
    rw [hf, hr] at hv; cases hv
    rw [hf', hr'] at hv'; cases hv'
    rcases hc with ⟨h2, -⟩ | ⟨s, h2, h3, h4⟩
    · cases h2
    rcases hc' with ⟨h2', -⟩ | ⟨s', h2', -, h4'⟩
    · cases h2'
    cases h2; cases h2'
    have hp : 0 < (vals (square a hw y x)).length := List.length_pos_iff.mpr h3
    have hN : (1 : K) ≤ (vals (square a hw y x)).length := by exact_mod_cast hp
    exact polyline_mono (pairwise_sorted _) (by nlinarith) h4 h4'

/-- **C28** (invalid level). A level below 0 or above 1 never returns normally: the exception is thrown inside the
parallel region and terminates the process. -/
theorem c28_invalid_level (rnd : Rnd K) (Y X : Nat) (a : List (List (Fl K))) (h : Rect Y X a) (hY : 0 < Y) (hX : 0 < X)
    (hw : Nat) (q : Fl K) (hq : q.lt 0 = true ∨ q.gt 1 = true) :
    neighbourhoodQuantile rnd a q (hw : Int) = abort := by
  unfold neighbourhoodQuantile
  rw [neighbourhoodBrute_quantile rnd h hY hX hw]
  rw [grid2_first_throw hY hX (e := .invalidArgument)]
  · rfl
  · have := collectSquare_ok h (hw := hw) hY hX
    simp only [Nat.cast_zero] at this
    rw [this, ok_bind, calcQuantile_invalid_level _ q hq]

example : Rect 3 4 demo ∧ Fl.gt (fin (3/2) : Fl ℚ) 1 = true ∧
    neighbourhoodQuantile (fun _ => 0) demo (fin (1/2)) 1 =
      ok [[fin 1, fin 2, fin (5/2), fin (5/2)], [fin 4, fin 3, fin (5/2), fin 2], [fin (9/2), fin 4, fin (7/2), fin 2]] := by
  decide +kernel

end Gridpp.Props
