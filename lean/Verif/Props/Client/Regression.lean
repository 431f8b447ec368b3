import Verif.Lemmas.Client.Regression
import Mathlib.Algebra.Order.Ring.Rat
import Mathlib.Algebra.Field.Rat

/-! # C108: the regression of the client -/

set_option linter.unusedSectionVars false

namespace Gridpp.Props
open Fl hiding MV isValid
open Res Client Spec

variable {K : Type} [Field K] [LinearOrder K] [IsStrictOrderedRing K]

/-- **C108**, the polynomial: a value that is present becomes the value of the polynomial with the parameters of the time and the point
as coefficients, missing if one of them is missing; a missing value stays missing. -/
theorem c108_polynomial {Y X E : Nat} (numParameters : Int) (hn : numParameters ≠ 0) (preds : Nat → List (Option (FieldC K)))
    (params : Nat → Nat → Nat → List (Fl K)) {fields : List (FieldC K)} (hs : Series Y X E fields) :
    ∃ out, regression Y X E 0 numParameters preds params fields = ok out ∧ out.length = fields.length ∧ Series Y X E out ∧
      ∀ t < fields.length, ∀ y < Y, ∀ x < X, ∀ e < E, ∃ v w, At fields t y x e v ∧ At out t y x e w ∧ (¬ Present v → w = Client.MV) ∧
        ∀ q, v = fin q → q ≠ -999 → ((∃ c ∈ params t y x, ¬ Present c) → w = Client.MV) ∧
          ∀ as : List K, params t y x = as.map fin → (∀ a ∈ as, a ≠ -999) → w = fin (polyValue as q) := by
  unfold regression
  rw [if_neg hn, if_neg (by simp)]
  refine eachTime_forAll hs ?_
  intro t ht f hf y hy x hx e he v hv
  by_cases hp : Present v
  · obtain ⟨f', h1, h2, h3, h4⟩ := hf.set hy hx he (polyLoop v (params t y x) 0 0)
    refine ⟨f', _, ?_, h2, h3, ⟨fun h => absurd hp h, ?_⟩, h4⟩
    · unfold regressionMember regressionValue
      rw [hv]
      simp only [ok_bind, isValid_iff_present.mpr hp, if_true, lt_irrefl, if_false]
      exact h1
    · rintro q rfl hq
      refine ⟨fun hc => polyLoop_missing _ _ hc _ _, fun as has hne => ?_⟩
      rw [has, zero_def, polyLoop_eq q as hne]
      simp
  · obtain ⟨f', h1, h2, h3, h4⟩ := hf.set hy hx he Client.MV
    refine ⟨f', Client.MV, ?_, h2, h3, ⟨fun _ => rfl, ?_⟩, h4⟩
    · unfold regressionMember
      rw [hv]
      simp only [ok_bind, isValid_false_iff.mpr hp, Bool.false_eq_true, if_false]
      exact h1
    · rintro q rfl hq
      exact absurd ⟨q, rfl, hq⟩ hp

/-- **C108**, with variables, as far as it holds: a value that is present becomes the sum of the products of parameters and predictors.
Missing: a missing predictor is used as the number -999 (`c108_missing_predictor_false`). A predictor `none` is the field itself. -/
theorem c108_variables_partial {Y X E : Nat} (numVariables : Nat) (hn : 0 < numVariables) (preds : Nat → List (Option (FieldC K)))
    (params : Nat → Nat → Nat → List (Fl K)) {fields : List (FieldC K)} (hs : Series Y X E fields)
    (hlen : ∀ t < fields.length, ∀ y < Y, ∀ x < X, (params t y x).length ≤ (preds t).length)
    (hpred : ∀ t < fields.length, ∀ g, some g ∈ preds t → Sized Y X E g) :
    ∃ out, regression Y X E numVariables numVariables preds params fields = ok out ∧ out.length = fields.length ∧ Series Y X E out ∧
      ∀ t < fields.length, ∀ y < Y, ∀ x < X, ∀ e < E, ∃ v w, At fields t y x e v ∧ At out t y x e w ∧ (¬ Present v → w = Client.MV) ∧
        (Present v → ((∃ c ∈ params t y x, ¬ Present c) → w = Client.MV) ∧
          ∀ as bs : List K, params t y x = as.map fin → (∀ a ∈ as, a ≠ -999) →
            List.Forall₂ (fun p b => (p = none → v = fin b) ∧ ∀ g, p = some g → g.get y x e = ok (fin b)) (preds t) bs →
            w = fin (weightedSum as bs)) := by
  unfold regression
  rw [if_neg (by exact_mod_cast hn.ne'), if_neg (by simp)]
  refine eachTime_forAll hs ?_
  intro t ht f hf y hy x hx e he v hv
  by_cases hp : Present v
  · have hall : ∀ p ∈ preds t, ∃ u, PredictorIs f y x e p u := by
      intro p hp
      cases p with
      | none => exact ⟨v, hv⟩
      | some g => exact (hpred t ht g hp).exists_get hy hx he
    obtain ⟨u, hu⟩ := multiLoop_ok (params t y x) (preds t) hall (hlen t ht y hy x hx) 0
    obtain ⟨f', h1, h2, h3, h4⟩ := hf.set hy hx he u
    refine ⟨f', u, ?_, h2, h3, ⟨fun h => absurd hp h, fun _ => ⟨fun hc => ?_, ?_⟩⟩, h4⟩
    · unfold regressionMember regressionValue
      rw [hv]
      simp only [ok_bind, isValid_iff_present.mpr hp, if_true, hn, hu]
      exact h1
    · rw [multiLoop_missing _ _ hc hall (hlen t ht y hy x hx)] at hu
      exact (Res.ok.inj hu).symm
    · intro as bs has hne hb
      have hb' : List.Forall₂ (fun p b => PredictorIs f y x e p (fin b)) (preds t) bs := by
        refine hb.imp ?_
        rintro p b ⟨g1, g2⟩
        cases p with
        | none => rw [← g1 rfl]; exact hv
        | some g => exact g2 g rfl
      have hl := hlen t ht y hy x hx
      rw [has, List.length_map, hb.length_eq] at hl
      rw [has, zero_def, multiLoop_eq as bs (preds t) hne hb' hl, zero_add] at hu
      exact (Res.ok.inj hu).symm
  · obtain ⟨f', h1, h2, h3, h4⟩ := hf.set hy hx he Client.MV
    refine ⟨f', Client.MV, ?_, h2, h3, ⟨fun _ => rfl, fun h => absurd h hp⟩, h4⟩
    unfold regressionMember
    rw [hv]
    simp only [ok_bind, isValid_false_iff.mpr hp, Bool.false_eq_true, if_false]
    exact h1

/-- **C108**: what stops the program. -/
theorem c108_errors (Y X E : Nat) (preds : Nat → List (Option (FieldC K))) (params : Nat → Nat → Nat → List (Fl K)) (fields : List (FieldC K)) :
    (∀ n, regression Y X E n 0 preds params fields = .abort) ∧
      ∀ (n : Nat) (m : Int), 0 < n → m ≠ n → regression Y X E n m preds params fields = .abort := by
  refine ⟨fun n => rfl, fun n m hn hm => ?_⟩
  unfold regression
  by_cases h0 : m = 0
  · rw [if_pos h0]; rfl
  · rw [if_neg h0, if_pos ⟨hn, hm⟩]; rfl

/-! ### Training -/

theorem train_eq (intercept : Bool) (data : List (Fl K × List (Fl K))) (hne : usableCases data ≠ []) (order : Int) (ho : order = 0 ∨ order = 1) :
    regressionTrain order intercept 0 data =
      (let l := usableCases data
       let n : K := l.length
       if order = 0 then ok [fin (sumObs l / n)]
       else if intercept then
         ok [fin (sumObs l / n) - (fin (sumObsFcst l / n - sumFcst l / n * (sumObs l / n)) : Fl K) / fin (sumFcst2 l / n - sumFcst l / n * (sumFcst l / n)) * fin (sumFcst l / n),
           (fin (sumObsFcst l / n - sumFcst l / n * (sumObs l / n)) : Fl K) / fin (sumFcst2 l / n - sumFcst l / n * (sumFcst l / n))]
       else ok [fin 0, (fin (sumObsFcst l / n) : Fl K) / fin (sumFcst2 l / n)]) := by
  have hp : 0 < (usableCases data).length := List.length_pos_iff.mpr hne
  have hn : ((usableCases data).length : K) ≠ 0 := by exact_mod_cast hp.ne'
  unfold regressionTrain
  rw [if_neg (by omega), if_neg (by simp), trainPairs_eq]
  simp only [regressionSums_eq, List.length_map, hp.ne', if_false, ofNat_def, fin_div_of_ne _ hn, fin_mul, fin_sub]
  rcases ho with rfl | rfl
  · rfl
  · rfl

/-- **C108**: training of the line: if two forecasts differ, the line with the least sum of squared errors, and the only one. -/
theorem c108_train_line (data : List (Fl K × List (Fl K))) (hvar : ∃ c ∈ usableCases data, ∃ d ∈ usableCases data, c.2 ≠ d.2) :
    ∃ a b : K, regressionTrain 1 true 0 data = ok [fin a, fin b] ∧
      ∀ a' b', squareError (usableCases data) a b ≤ squareError (usableCases data) a' b' ∧
        (squareError (usableCases data) a' b' = squareError (usableCases data) a b → a' = a ∧ b' = b) := by
  obtain ⟨c, hc, d, hd, hcd⟩ := hvar
  have hne : usableCases data ≠ [] := List.ne_nil_of_mem hc
  have hp : 0 < (usableCases data).length := List.length_pos_iff.mpr hne
  rw [train_eq true data hne 1 (.inr rfl)]
  generalize usableCases data = l at *
  have hn : (0 : K) < (l.length : K) := by exact_mod_cast hp
  have hV : sumFcst l ^ 2 < (l.length : K) * sumFcst2 l :=
    lt_of_le_of_ne (Client.variance_nonneg l) fun h => hcd (Client.variance_zero h c hc d hd)
  obtain ⟨n, hn'⟩ : ∃ n : K, n = l.length := ⟨_, rfl⟩
  simp only [← hn'] at hn hV ⊢
  have hdne : sumFcst2 l / n - sumFcst l / n * (sumFcst l / n) ≠ 0 := by
    have : sumFcst2 l / n - sumFcst l / n * (sumFcst l / n) = (n * sumFcst2 l - sumFcst l ^ 2) / n ^ 2 := by field_simp
    rw [this]
    exact (div_pos (by linarith) (by positivity)).ne'
  simp only [one_ne_zero, if_false, if_true, fin_div_of_ne _ hdne, fin_mul, fin_sub]
  refine ⟨_, _, rfl, ?_⟩
  obtain ⟨b, hb⟩ : ∃ b, b = (sumObsFcst l / n - sumFcst l / n * (sumObs l / n)) / (sumFcst2 l / n - sumFcst l / n * (sumFcst l / n)) := ⟨_, rfl⟩
  rw [← hb]
  -- the normal equations
  have hb1 : b * (n * sumFcst2 l - sumFcst l ^ 2) = n * sumObsFcst l - sumFcst l * sumObs l := by
    have h := (eq_div_iff hdne).mp hb
    have hn0 := hn.ne'
    field_simp at h
    linear_combination h
  intro a' b'
  have hdiff : n * (squareError l a' b' - squareError l (sumObs l / n - b * (sumFcst l / n)) b) =
      (n * (a' - (sumObs l / n - b * (sumFcst l / n))) + (b' - b) * sumFcst l) ^ 2 + (b' - b) ^ 2 * (n * sumFcst2 l - sumFcst l ^ 2) := by
    rw [squareError_eq l a' b', squareError_eq l (sumObs l / n - b * (sumFcst l / n)) b, ← hn']
    have hn0 := hn.ne'
    field_simp
    linear_combination 2 * (b' - b) * hb1
  have h1 := sq_nonneg (n * (a' - (sumObs l / n - b * (sumFcst l / n))) + (b' - b) * sumFcst l)
  have h2 : 0 ≤ (b' - b) ^ 2 * (n * sumFcst2 l - sumFcst l ^ 2) := mul_nonneg (sq_nonneg _) (by linarith)
  refine ⟨?_, fun heq => ?_⟩
  · have : 0 ≤ n * (squareError l a' b' - squareError l (sumObs l / n - b * (sumFcst l / n)) b) := by rw [hdiff]; linarith
    have := nonneg_of_mul_nonneg_right this hn
    linarith
  · rw [heq, sub_self, mul_zero] at hdiff
    have h3 : (b' - b) ^ 2 * (n * sumFcst2 l - sumFcst l ^ 2) = 0 := by linarith
    have h4 : (n * (a' - (sumObs l / n - b * (sumFcst l / n))) + (b' - b) * sumFcst l) ^ 2 = 0 := by linarith
    have hb2 : b' - b = 0 := by
      rcases mul_eq_zero.mp h3 with h | h
      · exact pow_eq_zero_iff two_ne_zero |>.mp h
      · linarith
    have h5 := pow_eq_zero_iff two_ne_zero |>.mp h4
    rw [hb2, zero_mul, add_zero] at h5
    rcases mul_eq_zero.mp h5 with h | h
    · exact absurd h hn.ne'
    · exact ⟨by linarith, by linarith⟩

/-- **C108**: training without intercept: if a forecast is not zero, the line through the origin with the least sum of squared errors. -/
theorem c108_train_slope (data : List (Fl K × List (Fl K))) (hvar : ∃ c ∈ usableCases data, c.2 ≠ 0) :
    ∃ b : K, regressionTrain 1 false 0 data = ok [fin 0, fin b] ∧
      ∀ b', squareError (usableCases data) 0 b ≤ squareError (usableCases data) 0 b' ∧
        (squareError (usableCases data) 0 b' = squareError (usableCases data) 0 b → b' = b) := by
  obtain ⟨c, hc, hc0⟩ := hvar
  have hne : usableCases data ≠ [] := List.ne_nil_of_mem hc
  have hp : 0 < (usableCases data).length := List.length_pos_iff.mpr hne
  rw [train_eq false data hne 1 (.inr rfl)]
  generalize usableCases data = l at *
  have hn : (0 : K) < (l.length : K) := by exact_mod_cast hp
  have hS : 0 < sumFcst2 l := by
    have h1 : ∀ l : List (K × K), 0 ≤ sumFcst2 l := fun l => List.sum_nonneg (by
      intro z hz
      obtain ⟨u, -, rfl⟩ := List.mem_map.mp hz
      exact mul_self_nonneg _)
    clear hne hp hn
    induction l with
    | nil => simp at hc
    | cons p l ih =>
      have e3 : sumFcst2 (p :: l) = p.2 * p.2 + sumFcst2 l := rfl
      rw [e3]
      rcases List.mem_cons.mp hc with rfl | hc
      · have := mul_self_pos.mpr hc0
        linarith [h1 l]
      · linarith [ih hc, mul_self_nonneg p.2]
  have hdne : sumFcst2 l / (l.length : K) ≠ 0 := (div_pos hS hn).ne'
  simp only [one_ne_zero, if_false, Bool.false_eq_true, fin_div_of_ne _ hdne]
  refine ⟨_, rfl, ?_⟩
  intro b'
  obtain ⟨b, hb⟩ : ∃ b, b = sumObsFcst l / (l.length : K) / (sumFcst2 l / (l.length : K)) := ⟨_, rfl⟩
  rw [← hb]
  have hb1 : b * sumFcst2 l = sumObsFcst l := by
    have hn0 := hn.ne'
    have hs0 := hS.ne'
    rw [hb]
    field_simp
  have hdiff : squareError l 0 b' - squareError l 0 b = (b' - b) ^ 2 * sumFcst2 l := by
    rw [squareError_eq l 0 b', squareError_eq l 0 b]
    linear_combination 2 * (b' - b) * hb1
  refine ⟨?_, fun heq => ?_⟩
  · have := mul_nonneg (sq_nonneg (b' - b)) hS.le
    linarith
  · rw [heq, sub_self] at hdiff
    rcases mul_eq_zero.mp hdiff.symm with h | h
    · have := pow_eq_zero_iff two_ne_zero |>.mp h
      linarith
    · exact absurd h hS.ne'

/-- **C108**: training of order 0: the constant with the least sum of squared errors. -/
theorem c108_train_constant (intercept : Bool) (data : List (Fl K × List (Fl K))) (hne : usableCases data ≠ []) :
    ∃ a : K, regressionTrain 0 intercept 0 data = ok [fin a] ∧
      ∀ a', squareError (usableCases data) a 0 ≤ squareError (usableCases data) a' 0 ∧
        (squareError (usableCases data) a' 0 = squareError (usableCases data) a 0 → a' = a) := by
  have hp : 0 < (usableCases data).length := List.length_pos_iff.mpr hne
  rw [train_eq intercept data hne 0 (.inl rfl)]
  generalize usableCases data = l at *
  have hn : (0 : K) < (l.length : K) := by exact_mod_cast hp
  refine ⟨_, if_pos rfl, fun a' => ?_⟩
  have hdiff : squareError l a' 0 - squareError l (sumObs l / (l.length : K)) 0 = (l.length : K) * (a' - sumObs l / (l.length : K)) ^ 2 := by
    rw [squareError_eq l a' 0, squareError_eq l (sumObs l / (l.length : K)) 0]
    have hn0 := hn.ne'
    field_simp
    ring
  refine ⟨?_, fun heq => ?_⟩
  · have := mul_nonneg hn.le (sq_nonneg (a' - sumObs l / (l.length : K)))
    linarith
  · rw [heq, sub_self] at hdiff
    rcases mul_eq_zero.mp hdiff.symm with h | h
    · exact absurd h hn.ne'
    · have := pow_eq_zero_iff two_ne_zero |>.mp h
      linarith

/-- **C108**: what stops the training. -/
theorem c108_train_errors (order : Int) (intercept : Bool) (numVariables : Nat) (data : List (Fl K × List (Fl K)))
    (h : order < 0 ∨ 1 < order ∨ 0 < numVariables ∨ usableCases data = []) : regressionTrain order intercept numVariables data = .abort := by
  unfold regressionTrain
  by_cases h1 : order > 1
  · rw [if_pos h1]; rfl
  rw [if_neg h1]
  by_cases h2 : 0 < numVariables
  · rw [if_pos h2]; rfl
  rw [if_neg h2, trainPairs_eq]
  simp only [List.length_map]
  by_cases h3 : (usableCases data).length = 0
  · rw [if_pos h3]; rfl
  rw [if_neg h3, if_neg, if_neg]
  · have : usableCases data ≠ [] := fun h' => h3 (by rw [h']; rfl)
    rcases h with h | h | h | h
    · omega
    · omega
    · omega
    · exact absurd h this
  · have : usableCases data ≠ [] := fun h' => h3 (by rw [h']; rfl)
    rcases h with h | h | h | h
    · omega
    · omega
    · omega
    · exact absurd h this

/-- **C108**: if all forecasts are equal, the parameters are undefined, although the observations have a best constant. -/
theorem c108_train_equal_false (data : List (Fl K × List (Fl K))) (hne : usableCases data ≠ [])
    (heq : ∀ c ∈ usableCases data, ∀ d ∈ usableCases data, c.2 = d.2) : regressionTrain 1 true 0 data = ok [nan, nan] := by
  have hp : 0 < (usableCases data).length := List.length_pos_iff.mpr hne
  rw [train_eq true data hne 1 (.inr rfl)]
  generalize usableCases data = l at *
  have hn : ((l.length : Nat) : K) ≠ 0 := by exact_mod_cast hp.ne'
  obtain ⟨m, h1, h2, h3⟩ := variance_const heq
  have e1 : sumFcst2 l / (l.length : K) - sumFcst l / (l.length : K) * (sumFcst l / (l.length : K)) = 0 := by
    rw [h1, h2]; field_simp; ring
  have e2 : sumObsFcst l / (l.length : K) - sumFcst l / (l.length : K) * (sumObs l / (l.length : K)) = 0 := by
    rw [h1, h3]; field_simp; ring
  simp only [e1, e2]
  have e3 : (fin 0 : Fl K) / fin 0 = nan := by simp [fin_div, infOfSign]
  simp only [one_ne_zero, if_false, if_true, e3]
  rfl

/-! ### Examples -/

/-- The value 2 with the coefficients 1, 3, 5; a missing value; a missing coefficient. -/
example : Series 1 2 1 [(⟨[fin 2, fin (-999)], 1, 2, 1⟩ : FieldC ℚ)] ∧
    (regression 1 2 1 0 3 (fun _ => []) (fun _ _ _ => [fin 1, fin 3, fin 5]) [⟨[fin 2, fin (-999)], 1, 2, 1⟩] : Res (List (FieldC ℚ))) =
      ok [⟨[fin 27, fin (-999)], 1, 2, 1⟩] ∧ polyValue [1, 3, 5] (2 : ℚ) = 27 := by
  refine ⟨?_, by decide +kernel, by decide +kernel⟩
  intro f hf
  rw [List.mem_singleton.mp hf]
  exact ⟨rfl, rfl, rfl, rfl⟩

/-- A constant and the field itself as predictors. -/
example : (regression 1 1 1 2 2 (fun _ => [some ⟨[fin 1], 1, 1, 1⟩, none]) (fun _ _ _ => [fin 10, fin 3]) [⟨[fin 2], 1, 1, 1⟩] : Res (List (FieldC ℚ))) =
      ok [⟨[fin 16], 1, 1, 1⟩] ∧ weightedSum [10, 3] [1, (2 : ℚ)] = 16 := by decide +kernel

/-- The hypotheses of the training theorems hold. -/
example : usableCases [((fin 1 : Fl ℚ), [fin 0, fin 2]), (fin (-999), [fin 3]), (fin 5, [fin (-999), fin 3])] = [(1, 1), (5, 3)] ∧
    (regressionTrain 1 true 0 [((fin 1 : Fl ℚ), [fin 0, fin 2]), (fin (-999), [fin 3]), (fin 5, [fin (-999), fin 3])]) = ok [fin (-1), fin 2] := by
  decide +kernel

/-- **C108**: a missing predictor is used as the number -999. -/
theorem c108_missing_predictor_false : (regression 1 1 1 1 1 (fun _ => [some ⟨[fin (-999)], 1, 1, 1⟩]) (fun _ _ _ => [fin 2])
    [⟨[fin 7], 1, 1, 1⟩] : Res (List (FieldC ℚ))) = ok [⟨[fin (-1998)], 1, 1, 1⟩] := by decide +kernel

end Gridpp.Props
