import Verif.Model.QuantileFast
import Verif.Spec.Ecdf
import Verif.Lemmas.Neighbourhood2
import Verif.Lemmas.Interp

/-! Lemmas about `neighbourhood_quantile_fast`. -/

set_option linter.unusedSectionVars false

namespace Gridpp
open Fl Res Spec

variable {K : Type} [Field K] [LinearOrder K] [IsStrictOrderedRing K] [FloorRing K] [HasSqrt K]

theorem fractionBelow_nonneg (w : List K) (t : K) : 0 ≤ fractionBelow w t := div_nonneg (by positivity) (by positivity)

theorem fractionBelow_le_one (w : List K) (t : K) : fractionBelow w t ≤ 1 := by
  unfold fractionBelow
  apply div_le_one_of_le₀ _ (by positivity)
  exact_mod_cast List.length_filter_le _ _

theorem fractionBelow_mono (w : List K) {t t' : K} (h : t ≤ t') : fractionBelow w t ≤ fractionBelow w t' := by
  unfold fractionBelow
  apply div_le_div_of_nonneg_right _ (by positivity)
  have : (w.filter fun v => decide (v ≤ t)).length ≤ (w.filter fun v => decide (v ≤ t')).length := by
    induction w with
    | nil => simp
    | cons a l ih =>
      by_cases h1 : a ≤ t
      · simp [h1, h1.trans h, ih]
      · by_cases h2 : a ≤ t'
        · simp [h1, h2]; omega
        · simp [h1, h2, ih]
  exact_mod_cast this

theorem meanFraction_nonneg (c : List (List K)) (t : K) : 0 ≤ meanFraction c t := by
  unfold meanFraction mean
  apply div_nonneg _ (by positivity)
  apply List.sum_nonneg
  intro v hv
  obtain ⟨d, _, rfl⟩ := List.mem_map.mp hv
  exact fractionBelow_nonneg _ _

theorem meanFraction_le_one (c : List (List K)) (t : K) : meanFraction c t ≤ 1 := by
  unfold meanFraction mean
  apply div_le_one_of_le₀ _ (by positivity)
  generalize c.filter (fun c => !c.isEmpty) = d
  induction d with
  | nil => simp
  | cons a l ih =>
    have := fractionBelow_le_one a t
    simp only [List.map_cons, List.sum_cons, List.length_cons, Nat.cast_add, Nat.cast_one]
    linarith

theorem meanFraction_mono (c : List (List K)) {t t' : K} (h : t ≤ t') : meanFraction c t ≤ meanFraction c t' := by
  unfold meanFraction mean
  rw [List.length_map, List.length_map]
  apply div_le_div_of_nonneg_right _ (by positivity)
  generalize c.filter (fun c => !c.isEmpty) = d
  induction d with
  | nil => simp
  | cons a l ih =>
    have := fractionBelow_mono a h
    simp only [List.map_cons, List.sum_cons]
    linarith

/-- When all non-empty cells have the same number of values, the fraction is that of the pooled values. -/
theorem meanFraction_pooled {c : List (List K)} {n : Nat} (hn : 0 < n) (h : ∀ d ∈ c, d = [] ∨ d.length = n) (t : K) :
    meanFraction c t = fractionBelow c.flatten t := by
  have hn' : (n : K) ≠ 0 := by exact_mod_cast hn.ne'
  have key : (((c.filter fun c => !c.isEmpty).map fun c => fractionBelow c t).sum * n = ((c.flatten.filter fun v => decide (v ≤ t)).length : K))
      ∧ (c.filter fun c => !c.isEmpty).length * n = c.flatten.length := by
    induction c with
    | nil => simp
    | cons d l ih =>
      obtain ⟨ih1, ih2⟩ := ih fun e he => h e (List.mem_cons_of_mem _ he)
      rcases h d List.mem_cons_self with rfl | hd
      · exact ⟨ih1, ih2⟩
      · have hne : d.isEmpty = false := by
          cases d with
          | nil => simp at hd; omega
          | cons => rfl
        constructor
        · simp only [List.filter_cons, hne, Bool.not_false, if_true, List.map_cons, List.sum_cons, List.flatten_cons, List.filter_append,
            List.length_append, Nat.cast_add, add_mul, ih1]
          congr 1
          unfold fractionBelow
          rw [hd, div_mul_cancel₀ _ hn']
        · simp only [List.filter_cons, hne, Bool.not_false, if_true, List.length_cons, List.flatten_cons, List.length_append, hd, add_mul]
          omega
  unfold meanFraction mean fractionBelow at *
  rw [List.length_map, ← key.1, ← key.2]
  push_cast
  rw [mul_div_mul_right _ _ hn']

theorem fracBelow_eq (t : K) (m : List (Fl K)) :
    fracBelow (fin t) m = if vals m = [] then nan else fin (fractionBelow (vals m) t) := by
  have h1 : (m.filter isValid).length = (vals m).length := by
    induction m with
    | nil => rfl
    | cons v l ih => cases v <;> simp [List.filter_cons, ih]
  have h2 : ((m.filter isValid).filter fun v => v.le (fin t)).length = ((vals m).filter fun v => decide (v ≤ t)).length := by
    clear h1
    induction m with
    | nil => rfl
    | cons v l ih =>
      cases v with
      | fin q => by_cases h : q ≤ t <;> simp_all
      | _ => simpa using ih
  unfold fracBelow
  simp only [h1, h2]
  by_cases h : vals m = []
  · simp [h]
  · have h3 : 0 < (vals m).length := List.length_pos_iff.mpr h
    have h4 : ((vals m).length : K) ≠ 0 := by exact_mod_cast h3.ne'
    rw [if_pos h3, if_neg h, Fl.ofNat_def, Fl.ofNat_def, fin_div_of_ne _ h4]
    rfl

theorem vals_map_fracBelow (t : K) (l : List (List (Fl K))) :
    vals (l.map (fracBelow (fin t))) = ((l.map vals).filter fun c => !c.isEmpty).map fun c => fractionBelow c t := by
  induction l with
  | nil => rfl
  | cons v l ih =>
    rw [List.map_cons, fracBelow_eq]
    by_cases h : vals v = []
    · simp [h, ih]
    · have : (vals v).isEmpty = false := by simpa using h
      simp [h, ih]

theorem filter_nonempty_eq_nil (c : List (List K)) : (c.filter fun c => !c.isEmpty) = [] ↔ c.flatten = [] := by
  induction c with
  | nil => simp
  | cons a l ih => cases a <;> simp_all

/-- Values of the members in each cell of the square around `(y, x)`. -/
def cells (b : List (List (List (Fl K)))) (hw y x : Nat) : List (List K) := (square b hw y x).map vals

/-- `stats[t]`. -/
def statOf (c : List (List K)) (t : K) : Fl K := if c.flatten = [] then nan else fin (meanFraction c t)

theorem fastStats_ok (rnd : Rnd K) {Y X : Nat} {b : List (List (List (Fl K)))} (h : Rect Y X b) (hY : 0 < Y) (hX : 0 < X) (hw : Nat)
    {members : Int → Int → Res (List (Fl K))} (hm : ∀ (y x : Nat) v, cell? b y x = some v → members (y : Int) (x : Int) = ok v)
    (ts : List K) :
    fastStats rnd members Y X (hw : Int) (ts.map fin) =
      ok (ts.map fun t => tabulate Y X fun y x => statOf (cells b hw y x) t) := by
  have key : ∀ t : K, (do
        let temp ← grid2 Y X fun y x => do
          let m ← members y x
          ok (fracBelow (fin t) m)
        neighbourhood rnd temp (hw : Int) .mean) = ok (tabulate Y X fun y x => statOf (cells b hw y x) t) := by
      intro t
      rw [grid2_map h (f := fracBelow (fin t)) (by
        intro y x v hv
        rw [hm _ _ _ hv]; rfl), ok_bind]
      apply neighbourhood_ok rnd (rect_map _ h) hY hX hw (by decide)
      intro y _ x _
      rw [calcStatistic_mean, square_map, vals_map_fracBelow]
      simp only [List.map_eq_nil_iff, filter_nonempty_eq_nil]
      rfl
  have hmap : mapM (fun t => do
    let temp ← grid2 Y X fun y x => do
      let m ← members y x
      ok (fracBelow t m)
    neighbourhood rnd temp (hw : Int) .mean) (ts.map fin) = ok (ts.map fun t => tabulate Y X fun y x => statOf (cells b hw y x) t) := by
    induction ts with
    | nil => rfl
    | cons t l ih => rw [List.map_cons, mapM_cons, key, ok_bind, ih, ok_bind]; rfl
  unfold fastStats
  rw [hmap]
  rfl

theorem fastProb_nan (c : Nat) : fastProb c (nan : Fl K) = none := by simp [fastProb]

theorem fastProb_fin {c : Nat} (hc : 0 < c) {p : K} (h0 : 0 ≤ p) (h1 : p ≤ 1) : fastProb c (fin p) = some (fin p) := by
  have hsum : ∀ (n : Nat) (s : K), (List.replicate n (fin p)).foldl (fun s v => if v.isValid then s + v else s) (fin s) = fin (s + n * p) := by
    intro n
    induction n with
    | zero => intro s; simp
    | succ n ih => intro s; rw [List.replicate_succ, List.foldl_cons]; simp only [isValid_fin, if_true, fin_add, ih]; push_cast; ring_nf
  have hc' : (c : K) ≠ 0 := by exact_mod_cast hc.ne'
  unfold fastProb
  rw [Fl.zero_def, hsum]
  simp only [isValid_fin, if_true, hc, Fl.ofNat_def, fin_div_of_ne _ hc', zero_add, mul_div_cancel_left₀ _ hc', Fl.one_def, gt_fin, lt_fin]
  simp [not_lt.mpr h1, not_lt.mpr h0]

/-- What an iteration writes, given the cells of the window and the three values read. -/
def fastValue (ts : List K) (c : List (List K)) (q1 q2 q3 : Fl K) : Res (Fl K) :=
  if c.flatten = [] then ok nan
  else fastCell (ts.map fin) (ts.map fun t => fin (meanFraction c t)) q1 q2 q3

theorem fastIter_ok {Y X : Nat} (ts : List K) (C : Nat → Nat → List (List K)) {c : Nat} (hc : 0 < c) (hts : ts ≠ []) {y x : Nat} (hy : y < Y) (hx : x < X)
    (q1 q2 q3 : Fl K) :
    fastIter c (ts.map fin) (ts.map fun t => tabulate Y X fun y x => statOf (C y x) t) y x q1 q2 q3 = fastValue ts (C y x) q1 q2 q3 := by
  unfold fastIter fastValue
  have hst : mapM (fun s => vget2 s (y : Int) (x : Int)) (ts.map fun t => tabulate Y X fun y x => statOf (C y x) t)
      = ok (ts.map fun t => statOf (C y x) t) := by
    clear hts
    induction ts with
    | nil => rfl
    | cons t l ih => rw [List.map_cons, mapM_cons, vget2_tabulate _ hy hx, ok_bind, ih, ok_bind]; rfl
  rw [hst, ok_bind]
  unfold statOf
  by_cases hn : (C y x).flatten = []
  · rw [if_pos hn]
    simp only [hn, if_true]
    obtain ⟨t, l, rfl⟩ := List.exists_cons_of_ne_nil hts
    simp [fastProb_nan]
  · rw [if_neg hn]
    simp only [if_neg hn, List.map_map]
    have hp : ts.map (fastProb c ∘ fun t => fin (meanFraction (C y x) t)) = ts.map fun t => some (fin (meanFraction (C y x) t)) := by
      apply List.map_congr_left
      intro t _
      exact fastProb_fin hc (meanFraction_nonneg _ _) (meanFraction_le_one _ _)
    rw [hp, if_neg (by simp)]
    rw [show (ts.map fun t => some (fin (meanFraction (C y x) t))).filterMap id = ts.map fun t => fin (meanFraction (C y x) t) by
      rw [List.filterMap_map]; exact filterMap_eq_map_of_some (fun t _ => rfl)]

end Gridpp
