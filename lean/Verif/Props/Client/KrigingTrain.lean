import Verif.Lemmas.Client.Stat
import Verif.Props.Client.Kriging

/-! # C119: training of kriging -/

set_option linter.unusedSectionVars false

namespace Gridpp.Props
open Fl hiding MV isValid
open Res Client Spec

variable {K : Type} [Field K] [LinearOrder K] [IsStrictOrderedRing K]

/-- An observation and the mean of the members, if both are there (and the mean is not -999). -/
def trainingCase (d : Fl K × List (Fl K)) : Option (K × K) :=
  match d.1 with
  | fin o =>
    if o = -999 ∨ present d.2 = [] ∨ (present d.2).sum / ((present d.2).length : K) = -999 then none
    else some (o, (present d.2).sum / ((present d.2).length : K))
  | _ => none

/-- The cases that can be used. -/
def trainingCases (data : List (Fl K × List (Fl K))) : List (K × K) := data.filterMap trainingCase

theorem krigSums_eq (data : List (Fl K × List (Fl K))) :
    krigSums data = (fin ((trainingCases data).map Prod.fst).sum, fin ((trainingCases data).map Prod.snd).sum,
      (trainingCases data).length) := by
  unfold krigSums trainingCases
  have step : ∀ (d : Fl K × List (Fl K)) (s : Fl K × Fl K × Nat),
      (let t := Client.sumCount d.2
       let mean := if 0 < t.2 then t.1 / Fl.ofNat t.2 else Client.MV
       if Client.isValid d.1 && Client.isValid mean then (s.1 + d.1, s.2.1 + mean, s.2.2 + 1) else s) =
      (trainingCase d).elim s fun p => (s.1 + fin p.1, s.2.1 + fin p.2, s.2.2 + 1) := by
    intro d s
    obtain ⟨o, ens⟩ := d
    simp only
    rw [Client.sumCount_eq]
    simp only
    unfold trainingCase
    by_cases he : present ens = []
    · have hv : Client.isValid (Client.MV : Fl K) = false := by simp [Client.isValid, Client.MV]
      simp only [he, List.length_nil, lt_irrefl, if_false, hv, Bool.and_false, Bool.false_eq_true]
      cases o <;> simp
    · have hl : 0 < (present ens).length := List.length_pos_iff.mpr he
      have hl' : ((present ens).length : K) ≠ 0 := by exact_mod_cast hl.ne'
      rw [if_pos hl, ofNat_def, fin_div_of_ne _ hl']
      cases o with
      | fin q =>
        simp only [Client.isValid, he, false_or]
        by_cases h1 : q = -999
        · simp [h1]
        · by_cases h2 : (present ens).sum / ((present ens).length : K) = -999
          · simp [h2]
          · simp [h1, h2]
      | _ => simp [Client.isValid]
  have key : ∀ (data : List (Fl K × List (Fl K))) (a b : K) (n : Nat), data.foldl (fun s d =>
      let t := Client.sumCount d.2
      let mean := if 0 < t.2 then t.1 / Fl.ofNat t.2 else Client.MV
      if Client.isValid d.1 && Client.isValid mean then (s.1 + d.1, s.2.1 + mean, s.2.2 + 1) else s) (fin a, fin b, n) =
      (fin (a + ((data.filterMap trainingCase).map Prod.fst).sum), fin (b + ((data.filterMap trainingCase).map Prod.snd).sum),
        n + (data.filterMap trainingCase).length) := by
    intro data
    induction data with
    | nil => intro a b n; simp
    | cons d t ih =>
      intro a b n
      rw [List.foldl_cons, step]
      cases h : trainingCase d with
      | none => rw [List.filterMap_cons_none h]; exact ih a b n
      | some p =>
        rw [List.filterMap_cons_some h]
        simp only [Option.elim, fin_add]
        rw [ih]
        simp only [List.map_cons, List.sum_cons, List.length_cons, Prod.mk.injEq, Fl.fin.injEq]
        exact ⟨by ring, by ring, by omega⟩
  have := key data 0 0 0
  simpa only [zero_add, zero_def] using this

theorem sum_shift (l : List (K × K)) (b : K) :
    (l.map fun p => p.2 + b).sum = (l.map Prod.snd).sum + (l.length : K) * b := by
  induction l with
  | nil => simp
  | cons p t ih => simp only [List.map_cons, List.sum_cons, ih, List.length_cons]; push_cast; ring

theorem sum_squares_shift (l : List (K × K)) (b d : K) :
    (l.map fun p => (p.2 + (b + d) - p.1) ^ 2).sum = (l.map fun p => (p.2 + b - p.1) ^ 2).sum +
      2 * d * ((l.map fun p => p.2 + b).sum - (l.map Prod.fst).sum) + (l.length : K) * d ^ 2 := by
  induction l with
  | nil => simp
  | cons p t ih => simp only [List.map_cons, List.sum_cons, ih, List.length_cons]; push_cast; ring

/-- **C119** (addition). The trained bias makes the mean of the corrected forecasts that of the observations, and no other one has a
smaller sum of squared errors. -/
theorem c119_add (data : List (Fl K × List (Fl K))) (h : trainingCases data ≠ []) :
    ∃ b, krigTrain .add data = fin b ∧
      ((trainingCases data).map fun p => p.2 + b).sum = ((trainingCases data).map Prod.fst).sum ∧
      ∀ b', ((trainingCases data).map fun p => (p.2 + b - p.1) ^ 2).sum ≤ ((trainingCases data).map fun p => (p.2 + b' - p.1) ^ 2).sum := by
  have hl : 0 < (trainingCases data).length := List.length_pos_iff.mpr h
  have hl' : ((trainingCases data).length : K) ≠ 0 := by exact_mod_cast hl.ne'
  unfold krigTrain
  rw [krigSums_eq]
  simp only
  rw [if_neg hl.ne', fin_sub, ofNat_def, fin_div_of_ne _ hl']
  refine ⟨_, rfl, ?_, fun b' => ?_⟩
  · rw [sum_shift, mul_div_cancel₀ _ hl']; ring
  · set b := (((trainingCases data).map Prod.fst).sum - ((trainingCases data).map Prod.snd).sum) / ((trainingCases data).length : K) with hb
    have hz : ((trainingCases data).map fun p => p.2 + b).sum - ((trainingCases data).map Prod.fst).sum = 0 := by
      rw [sum_shift, hb, mul_div_cancel₀ _ hl']; ring
    have := sum_squares_shift (trainingCases data) b (b' - b)
    rw [hz, add_sub_cancel] at this
    rw [this, mul_zero, add_zero]
    have : 0 ≤ ((trainingCases data).length : K) * (b' - b) ^ 2 := mul_nonneg (Nat.cast_nonneg _) (sq_nonneg _)
    linarith

/-- **C119** (subtraction). The same with the opposite sign. -/
theorem c119_subtract (data : List (Fl K × List (Fl K))) (h : trainingCases data ≠ []) :
    ∃ b, krigTrain .subtract data = fin b ∧ krigTrain .add data = fin (-b) ∧
      ((trainingCases data).map fun p => p.2 - b).sum = ((trainingCases data).map Prod.fst).sum := by
  have hl : 0 < (trainingCases data).length := List.length_pos_iff.mpr h
  have hl' : ((trainingCases data).length : K) ≠ 0 := by exact_mod_cast hl.ne'
  obtain ⟨b, h1, h2, -⟩ := c119_add data h
  refine ⟨-b, ?_, by rw [neg_neg]; exact h1, by simpa [sub_neg_eq_add] using h2⟩
  unfold krigTrain at h1 ⊢
  rw [krigSums_eq] at h1 ⊢
  simp only at h1 ⊢
  rw [if_neg hl.ne', fin_sub, ofNat_def, fin_div_of_ne _ hl', Fl.fin.injEq] at h1
  rw [if_neg hl.ne', fin_sub, ofNat_def, fin_div_of_ne _ hl', ← h1, ← neg_div, neg_sub]

/-- **C119** (multiplication, division). The trained factor makes the sum of the corrected forecasts that of the observations; if the sum
of the forecasts is 0 the factor is no number, and then it counts as missing. The divisor likewise. -/
theorem c119_factor (data : List (Fl K × List (Fl K))) (h : trainingCases data ≠ []) :
    (((trainingCases data).map Prod.snd).sum ≠ 0 → ∃ r, krigTrain .multiply data = fin r ∧
      ((trainingCases data).map fun p => p.2 * r).sum = ((trainingCases data).map Prod.fst).sum) ∧
    (((trainingCases data).map Prod.snd).sum = 0 → ¬ Present (krigTrain .multiply data)) ∧
    (((trainingCases data).map Prod.fst).sum ≠ 0 → ((trainingCases data).map Prod.snd).sum ≠ 0 → ∃ r, krigTrain .divide data = fin r ∧
      r ≠ 0 ∧ ((trainingCases data).map fun p => p.2 / r).sum = ((trainingCases data).map Prod.fst).sum) ∧
    (((trainingCases data).map Prod.fst).sum = 0 → ¬ Present (krigTrain .divide data)) := by
  have hl : 0 < (trainingCases data).length := List.length_pos_iff.mpr h
  have hnp : ∀ a : K, ¬ Present ((fin a : Fl K) / fin 0) := by
    rintro a ⟨q, hq, -⟩
    rw [fin_div, if_pos rfl] at hq
    unfold infOfSign at hq
    split_ifs at hq
  unfold krigTrain
  rw [krigSums_eq]
  simp only
  rw [if_neg hl.ne', if_neg hl.ne']
  refine ⟨fun h0 => ?_, fun h0 => ?_, fun h0 h1 => ?_, fun h0 => ?_⟩
  · rw [fin_div_of_ne _ h0]
    refine ⟨_, rfl, ?_⟩
    rw [List.sum_map_mul_right]
    exact mul_div_cancel₀ _ h0
  · rw [h0]; exact hnp _
  · rw [fin_div_of_ne _ h0]
    refine ⟨_, rfl, div_ne_zero h1 h0, ?_⟩
    simp only [div_eq_mul_inv]
    rw [List.sum_map_mul_right, mul_inv, inv_inv, ← mul_assoc]
    exact (congrArg (· * _) (mul_inv_cancel₀ h1)).trans (one_mul _)
  · rw [h0]; exact hnp _

/-- **C119** (no data). Without usable cases the parameter is 0 for each operator. -/
theorem c119_no_data_partial (op : KrigOp) (data : List (Fl K × List (Fl K))) (h : trainingCases data = []) : krigTrain op data = fin 0 := by
  unfold krigTrain
  rw [krigSums_eq, h]
  rfl

/-- **C119** is false of factors without data ("no correction will be made"): the parameter 0 is a factor 0 and the forecast 7 at the
station becomes 0. -/
theorem c119_no_data_false : kriging twoOptions lineDist (fun m => m) .multiply false none 1 1 1 (fun _ _ => ⟨fin 0, fin 0, fin 0⟩) true
    (twoStations.take 1) (fun _ _ => [krigTrain .multiply []]) [⟨[fin 7], 1, 1, 1⟩] = ok [⟨[fin 0], 1, 1, 1⟩] := by decide +kernel

/-- Two cases can be used; the third has no observation, the fourth no members. -/
example : trainingCases [((fin 3 : Fl ℚ), [fin 1, fin 2, fin (-999)]), (fin 4, [fin 2]), (fin (-999), [fin 1]), (fin 1, [nan])] =
    [(3, 3 / 2), (4, 2)] := by decide +kernel

example : krigTrain .add [((fin 3 : Fl ℚ), [fin 1, fin 2, fin (-999)]), (fin 4, [fin 2]), (fin (-999), [fin 1]), (fin 1, [nan])] =
    fin (7 / 4) := by decide +kernel

end Gridpp.Props
