import Verif.Props.Exceptions
import Verif.Model.Distribution
import Verif.Model.Search
import Verif.Model.CalcGradient
import Verif.Model.CorrPoints
import Verif.Model.Fill
import Verif.Model.NeighbourhoodScore
import Verif.Model.LocalDistribution

/-!
C67, continued: the functions that check sizes, widths, levels or coordinate types before they start. For each it is shown
exactly which calls raise an exception; every other failure of these functions is a termination or undefined.
-/

set_option linter.unusedSectionVars false

namespace Gridpp.Props
open Fl Res

theorem not_raises_abort {α : Type} : ¬ Raises (abort : Res α) := by rintro ⟨e, h⟩; cases h

theorem raises_if {α : Type} {p : Prop} [Decidable p] {e : Exc} {r : Res α} : Raises (if p then .throw e else r) ↔ p ∨ Raises r := by
  split_ifs with h
  · exact ⟨fun _ => Or.inl h, fun _ => ⟨_, rfl⟩⟩
  · exact ⟨Or.inr, fun h' => h'.resolve_left h⟩

theorem raises_iff_of_not {α : Type} {p : Prop} {r : Res α} (h : ¬ Raises r) : (p ∨ Raises r) ↔ p :=
  ⟨fun h' => h'.resolve_right h, Or.inl⟩

theorem not_raises_assert (b : Bool) : ¬ Raises (assert b) := by
  cases b
  · exact not_raises_abort
  · exact not_raises_ok _

theorem not_raises_vset {α : Type} (v : List α) (i : Int) (a : α) : ¬ Raises (vset v i a) := by
  unfold vset
  split_ifs
  · exact not_raises_ub
  · exact not_raises_ok _
  · exact not_raises_ub

theorem not_raises_vset2 {α : Type} (v : List (List α)) (i j : Int) (a : α) : ¬ Raises (vset2 v i j a) := by
  unfold vset2
  exact not_raises_bind (not_raises_vget _ _) fun _ => not_raises_bind (not_raises_vset _ _ _) fun _ => not_raises_vset _ _ _

/-- Discharges that a sequence of reads, writes, loops and parallel loops raises no exception. -/
macro "no_raise" : tactic => `(tactic| repeat' (first
  | exact not_raises_ok _ | exact not_raises_ub | exact not_raises_abort | exact c67_parallel _ | exact not_raises_vget _ _
  | exact not_raises_vget2 _ _ _ | exact not_raises_vset _ _ _ | exact not_raises_vset2 _ _ _ _ | exact not_raises_assert _
  | refine not_raises_mapM _ fun _ => ?_ | refine not_raises_grid2 _ _ fun _ _ => ?_ | refine not_raises_foldM _ _ fun _ _ => ?_
  | refine not_raises_bind ?_ fun _ => ?_ | split))

section
variable {K : Type} [Field K] [LinearOrder K] [IsStrictOrderedRing K] [FloorRing K]

/-! ## Vectors -/

/-- The element-wise functions of vectors raise an exception exactly for different sizes. -/
theorem c67_vectors [HasExp K] [HasSqrt K] [HasAtan2 K] (a b c d : List (Fl K)) :
    (Raises (dewpointVec a b) ↔ a.length ≠ b.length) ∧
    (Raises (relativeHumidityVec a b) ↔ a.length ≠ b.length) ∧
    (Raises (wetbulbVec a b c) ↔ a.length ≠ b.length ∨ a.length ≠ c.length) ∧
    (Raises (pressureVec a b c d) ↔ b.length ≠ a.length ∨ c.length ≠ a.length ∨ d.length ≠ a.length) ∧
    (Raises (qnhVec a b) ↔ a.length ≠ b.length) ∧
    (Raises (windSpeedVec a b) ↔ a.length ≠ b.length) ∧
    (Raises (windDirectionVec a b) ↔ a.length ≠ b.length) ∧
    (Raises (interpolateVec a b c) ↔ b.length ≠ c.length) := by
  refine ⟨?_, ?_, ?_, ?_, ?_, ?_, ?_, ?_⟩
  · unfold dewpointVec; rw [raises_if, raises_iff_of_not (c67_parallel _)]
  · unfold relativeHumidityVec; rw [raises_if, raises_iff_of_not (c67_parallel _)]
  · unfold wetbulbVec; rw [raises_if, raises_if, raises_iff_of_not (c67_parallel _)]
  · unfold pressureVec; rw [raises_if, raises_iff_of_not (c67_parallel _)]
  · unfold qnhVec; rw [raises_if, raises_iff_of_not (c67_parallel _)]
  · unfold windSpeedVec; rw [raises_if, raises_iff_of_not (c67_parallel _)]
  · unfold windDirectionVec; rw [raises_if, raises_iff_of_not (c67_parallel _)]
  · unfold interpolateVec; rw [raises_if, raises_iff_of_not (c67_parallel _)]

/-! ## Curves -/

theorem not_raises_stdSort (l : List (Fl K)) : ¬ Raises (stdSort l) := by
  unfold stdSort
  no_raise

theorem not_raises_truncInt (x : Fl K) : ¬ Raises (Fl.truncInt x) := by
  cases x <;> first | exact not_raises_ok _ | exact not_raises_ub

theorem not_raises_monoPop (fcst : List (Fl K)) (xmin : Fl K) (l : List Nat) : ¬ Raises (monoPop fcst xmin l) := by
  induction l with
  | nil => unfold monoPop; no_raise
  | cons a t ih =>
    unfold monoPop
    refine not_raises_bind (not_raises_vget _ _) fun _ => ?_
    split
    · exact not_raises_ok _
    · exact ih

theorem not_raises_monoFinish (fcst : List (Fl K)) (xmin : Fl K) (n : Nat) (l : List Nat) : ¬ Raises (monoFinish fcst xmin n l) := by
  induction n generalizing l with
  | zero => exact not_raises_ok _
  | succ j ih =>
    unfold monoFinish
    refine not_raises_bind (not_raises_vget _ _) fun _ => not_raises_bind (not_raises_vget _ _) fun _ => ?_
    split
    · exact ih _
    · exact ih _

/-- The functions of curves raise an exception exactly for curves of different or no size, and for levels outside [0, 1].
In particular no value of the policies of extrapolation does. -/
theorem c67_curves (fcst ref curve quantiles : List (Fl K)) (field : List (List (Fl K))) (below above : Extrapolation) :
    (Raises (applyCurveVec fcst ref curve below above) ↔ ref.length ≠ curve.length ∨ ref = []) ∧
    (Raises (applyCurveVec2 field ref curve below above) ↔ ref.length ≠ curve.length ∨ ref = []) ∧
    (Raises (monotonizeCurve ref curve) ↔ ref.length ≠ curve.length ∨ ref = []) ∧
    (Raises (quantileMappingCurve ref fcst quantiles) ↔
      ref.length ≠ fcst.length ∨ ∃ q ∈ quantiles, q.isValid = false ∨ q.gt 1 = true ∨ q.lt 0 = true) := by
  refine ⟨?_, ?_, ?_, ?_⟩
  · unfold applyCurveVec
    rw [raises_if, raises_if, raises_iff_of_not (c67_parallel _), List.length_eq_zero_iff]
  · unfold applyCurveVec2
    rw [raises_if]
    by_cases h1 : ref.length ≠ curve.length
    · simp [h1]
    · rw [raises_if]
      by_cases h2 : ref.length = 0
      · simp [List.length_eq_zero_iff.mp h2]
      · rw [raises_iff_of_not, List.length_eq_zero_iff]
        refine not_raises_mapM _ fun _ => ?_
        unfold applyCurveVec
        rw [if_neg h1, if_neg h2]
        exact c67_parallel _
  · unfold monotonizeCurve
    rw [raises_if, raises_if, raises_iff_of_not, List.length_eq_zero_iff]
    refine not_raises_bind (not_raises_vget _ _) fun _ => not_raises_bind (not_raises_foldM _ _ fun _ _ => ?_) fun _ => ?_
    · unfold monoStep
      refine not_raises_bind (not_raises_vget _ _) fun _ => not_raises_bind (not_raises_vget _ _) fun _ =>
        not_raises_bind (not_raises_assert _) fun _ => not_raises_bind (not_raises_assert _) fun _ => ?_
      split
      · simp only []
        split_ifs
        · exact not_raises_bind (not_raises_monoPop (K := K) _ _ _) fun _ => not_raises_ok _
        · exact not_raises_bind (not_raises_monoPop (K := K) _ _ _) fun _ => not_raises_ok _
        · exact not_raises_ok _
        · exact not_raises_ok _
      · split <;> exact not_raises_ok _
    · refine not_raises_bind ?_ fun _ => ?_
      · split
        · exact not_raises_monoFinish _ _ _ _
        · exact not_raises_ok _
      · no_raise
  · unfold quantileMappingCurve
    rw [raises_if, raises_if, raises_iff_of_not]
    · simp [or_assoc]
    · split
      · exact not_raises_ok _
      · split
        · exact not_raises_ok _
        · refine not_raises_bind (not_raises_stdSort _) fun _ => not_raises_bind (not_raises_stdSort _) fun _ => ?_
          split
          · exact not_raises_ok _
          · refine not_raises_bind (not_raises_mapM _ fun _ => not_raises_bind (not_raises_truncInt _) fun _ => ?_) fun _ => not_raises_ok _
            no_raise

/-! ## Windows -/

/-- The exceptions of `neighbourhood_search`, for fields of at least one row. -/
theorem c67_search (a s : List (List (Fl K))) (r0 s0 : List (Fl K)) (hw : Int) (tmin tmax delta : Fl K) (apply : List (List Int)) :
    Raises (neighbourhoodSearch (r0 :: a) (s0 :: s) hw tmin tmax delta apply) ↔
      tmin.gt tmax = true ∨ hw < 0 ∨ s.length ≠ a.length ∨ s0.length ≠ r0.length ∨
        (1 < apply.length ∧ (apply.length ≠ a.length + 1 ∨ ∀ p ∈ apply.head?, p.length ≠ r0.length)) := by
  have hrow : ∀ (row0 : List (Fl K)), ¬ Raises (mapM (searchRow (r0 :: a) (s0 :: s) (r0 :: a).length row0.length hw tmin tmax delta apply)
      (upto (r0 :: a).length)) := by
    intro row0
    refine not_raises_mapM _ fun _ => ?_
    unfold searchRow
    refine not_raises_bind (not_raises_vget _ _) fun _ => not_raises_bind (not_raises_mapM _ fun _ => ?_) fun _ => by no_raise
    unfold searchCell
    have hwin : ∀ here active y x, ¬ Raises (searchWindow (r0 :: a) (s0 :: s) (r0 :: a).length row0.length hw tmin tmax delta here active y x) := by
      intro here active y x
      unfold searchWindow
      refine not_raises_bind (not_raises_foldM _ _ fun _ _ => not_raises_foldM _ _ fun _ _ => ?_) fun _ => by no_raise
      unfold searchStep
      no_raise
    refine not_raises_bind (not_raises_vget2 _ _ _) fun _ => ?_
    split
    · exact not_raises_vget2 _ _ _
    · split
      · exact hwin _ _ _ _
      · refine not_raises_bind (not_raises_vget2 _ _ _) fun _ => ?_
        split
        · exact not_raises_vget2 _ _ _
        · exact hwin _ _ _ _
  have hs : searchSizeOk (r0 :: a) (s0 :: s) = ok (decide (s.length = a.length ∧ s0.length = r0.length)) := by
    unfold searchSizeOk
    by_cases h : s.length = a.length
    · rw [if_neg (by simp [h])]
      simp [vget, h]
    · rw [if_pos (by simpa using h)]
      simp [h]
  have ha : applySizeOk (r0 :: a) apply =
      ok (decide (¬ (1 < apply.length ∧ (apply.length ≠ a.length + 1 ∨ ∀ p ∈ apply.head?, p.length ≠ r0.length)))) := by
    unfold applySizeOk
    cases apply with
    | nil => simp
    | cons p t =>
      by_cases h1 : (p :: t).length ≤ 1
      · rw [if_pos h1]
        simp only [ok.injEq]
        rw [eq_comm, decide_eq_true_eq]
        omega
      · rw [if_neg h1]
        by_cases h2 : (p :: t).length = (r0 :: a).length
        · rw [if_neg (by simpa using h2)]
          simp only [vget]
          simp only [List.length_cons] at h1 h2
          have h3 : t.length = a.length := by omega
          have h4 : 0 < a.length := by omega
          simp [h3, h4]
        · rw [if_pos h2]
          simp only [List.length_cons] at h1 h2
          have h3 : ¬ t.length = a.length := by omega
          have h4 : 0 < t.length := by omega
          simp [h3, h4]
  unfold neighbourhoodSearch
  rw [raises_if, raises_if, hs, ok_bind, raises_if, ha, ok_bind, raises_if, raises_iff_of_not]
  · simp only [decide_eq_false_iff_not, not_not]
    rw [not_and_or]
    simp only [or_assoc, ne_eq]
  · exact not_raises_bind (not_raises_vget _ _) fun _ => hrow _

/-- The exceptions of `calc_gradient`. -/
theorem c67_calc_gradient [HasSqrt K] (rnd : Rnd K) (base values : List (List (Fl K))) (type : GradientType) (hw numMin : Int)
    (minRange default : Fl K) :
    Raises (calcGradient rnd base values type hw numMin minRange default) ↔
      hw ≤ 0 ∨ (minRange.isValid = true ∧ minRange.lt (fin 0) = true) ∨ numMin < 0 ∨ base = [] ∨
        base.map List.length ≠ values.map List.length := by
  unfold calcGradient
  rw [raises_if]
  by_cases hh : hw ≤ 0
  · simp [hh]
  · rw [raises_if, raises_if, raises_if, raises_if, raises_iff_of_not]
    · simp [compatibleSize22, List.length_eq_zero_iff]
    · refine not_raises_bind (not_raises_vget _ _) fun row0 => ?_
      cases type with
      | minMax =>
        refine not_raises_mapM _ fun _ => ?_
        unfold minMaxRow
        refine not_raises_bind (not_raises_vget _ _) fun _ => not_raises_bind (not_raises_mapM _ fun _ => ?_) fun _ => by no_raise
        unfold minMaxCell
        refine not_raises_bind (not_raises_foldM _ _ fun _ _ => not_raises_foldM _ _ fun _ _ => ?_) fun _ => by no_raise
        unfold minMaxStep
        no_raise
      | linearRegression =>
        have hn : ∀ (f : List (List (Fl K))) s, s ≠ .quantile → ¬ Raises (neighbourhood rnd f hw s) := by
          intro f s hs
          rw [c67_neighbourhood_raises]
          rintro (h | h)
          · omega
          · exact hs h
        show ¬ Raises (regression rnd base values base.length row0.length hw numMin minRange default)
        unfold regression
        refine not_raises_bind (c67_parallel _) fun _ => not_raises_bind (hn _ _ (by decide)) fun _ => not_raises_bind (hn _ _ (by decide)) fun _ =>
          not_raises_bind (hn _ _ (by decide)) fun _ => not_raises_bind (hn _ _ (by decide)) fun _ =>
          not_raises_bind (hn _ _ (by decide)) fun _ => c67_parallel _
      | other => exact not_raises_ok _

/-- The exceptions of the fast quantile of a field: the width, a level field of the wrong size, a level outside [0, 1]. With an
empty field only the width is looked at. -/
theorem c67_quantile_fast [HasSqrt K] (rnd : Rnd K) (input quantile : List (List (Fl K))) (hw : Int) (thresholds : List (Fl K)) :
    Raises (neighbourhoodQuantileFast rnd input quantile hw thresholds) ↔
      hw < 0 ∨ ((∃ r ∈ input.head?, r ≠ []) ∧
        (((∀ q, quantile ≠ [[q]]) ∧ ∀ r ∈ input.head?, ∀ l ∈ quantile.head?, quantile.length ≠ input.length ∨ l.length ≠ r.length) ∨
          ∃ r ∈ quantile, ∃ q ∈ r, q.isValid = true ∧ (q.lt 0 = true ∨ q.gt 1 = true))) := by
  unfold neighbourhoodQuantileFast
  rw [raises_if]
  refine or_congr_right ?_
  cases input with
  | nil => simp [not_raises_ok]
  | cons row0 rows =>
    simp only []
    by_cases h0 : row0.length = 0
    · rw [if_pos h0]
      simp [not_raises_ok, List.length_eq_zero_iff.mp h0]
    · rw [if_neg h0]
      have hne : row0 ≠ [] := by intro h; simp [h] at h0
      unfold quantileFastCore
      rw [raises_if, raises_if, raises_iff_of_not]
      · have h1 : levelFixed quantile = false ↔ ∀ q, quantile ≠ [[q]] := by
          unfold levelFixed
          split
          · simp
          · rename_i hq
            simp only [true_iff]
            exact fun q => hq q
        have h2 : levelSameSize (row0 :: rows).length row0.length quantile = false ↔
            ∀ l ∈ quantile.head?, quantile.length ≠ (row0 :: rows).length ∨ l.length ≠ row0.length := by
          unfold levelSameSize
          cases quantile with
          | nil => simp
          | cons l t =>
            simp only [List.head?_cons, Option.mem_def, Option.some.injEq, forall_eq']
            simp [imp_iff_not_or]
        simp only [Bool.and_eq_true, Bool.not_eq_true', h1, h2, List.any_eq_true, Bool.or_eq_true]
        simp [hne]
      · split
        · exact not_raises_ok _
        · unfold fastStats
          exact not_raises_bind (c67_parallel _) fun _ => c67_parallel _

end
/-! ## Concrete cases -/

/-- One call with an exception and one without. -/
theorem c67_case_more :
    relativeHumidityVec [fin (280 : ℚ)] [] = .throw .invalidArgument ∧
    monotonizeCurve ([fin 1] : List (Fl ℚ)) [] = .throw .invalidArgument ∧
    quantileMappingCurve ([fin 2, fin 1] : List (Fl ℚ)) [fin 3, fin 4] [fin 2] = .throw .invalidArgument ∧
    quantileMappingCurve ([fin 2, fin 1] : List (Fl ℚ)) [fin 3, fin 4] [fin 1] = ok ([fin 1], [fin 4]) ∧
    neighbourhoodSearch ([[fin 1, fin 2]] : List (List (Fl ℚ))) [[fin 1]] 1 (fin 0) (fin 1) (fin 0) [] = .throw .invalidArgument ∧
    neighbourhoodSearch ([[fin 1, fin 2]] : List (List (Fl ℚ))) [[fin 1, fin 1]] 1 (fin 0) (fin 1) (fin 0) [] = ok [[fin (3 / 2), fin (3 / 2)]] ∧
    calcGradient (fun _ => 0) ([[fin 1, fin 2]] : List (List (Fl ℚ))) [[fin 1]] .minMax 1 0 (fin 0) (fin 0) = .throw .invalidArgument ∧
    calcGradient (fun _ => 0) ([[fin 1, fin 2]] : List (List (Fl ℚ))) [[fin 5, fin 9]] .minMax 1 0 (fin 0) (fin 0) = ok [[fin 4, fin 4]] := by
  decide +kernel

end Gridpp.Props
