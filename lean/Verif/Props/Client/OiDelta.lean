import Verif.Model.Client.OiAnalysis
import Verif.Spec.Kalman
import Verif.Lemmas.EnsiEtkf
import Verif.Lemmas.Client.OiSingle
import Verif.Props.Client.OiRho

/-! # C139: the inflation factor of the calibrator `oi` -/

set_option linter.unusedSectionVars false

namespace Gridpp.Props
open Fl hiding MV isValid
open Res Client Matrix

variable {K : Type} [Field K] [LinearOrder K] [IsStrictOrderedRing K]

/-- The mean over the stations of the variance of the members at the station. -/
def meanVariance (nE nS : Nat) (p : Nat → Nat → K) : K := (∑ s ∈ Finset.range nS, Spec.ensCov (Finset.range nE) (p s) (p s)) / (nS : K)

theorem oiSquares_eq (l : List K) (h : ∀ v ∈ l, v ≠ -999) (a : K) (n : Nat) :
    (l.map fin).foldl (fun s v => if Client.isValid v then (s.1 + v * v, s.2 + 1) else s) ((fin a : Fl K), n) = (fin (a + (l.map fun v => v * v).sum), n + l.length) := by
  induction l generalizing a n with
  | nil => simp
  | cons v l ih =>
    have hv : Client.isValid (fin v) = true := by simp [Client.isValid, h v (by simp)]
    simp only [List.map_cons, List.foldl_cons, hv, if_true, fin_mul, fin_add]
    rw [ih (fun w hw => h w (by simp [hw]))]
    simp only [List.sum_cons, List.length_cons]
    refine Prod.ext ?_ ?_
    · simp only; congr 1; ring
    · simp only; omega

theorem oiTrace_eq {nE : Nat} (hE : 2 ≤ nE) (rows : List (List K)) (h : ∀ r ∈ rows, r.length = nE ∧ ∀ v ∈ r, v ≠ -999) (a : K) (n : Nat) :
    (rows.map fun r => r.map fin).foldl (fun t row =>
      let s := oiSquares row
      if 1 < s.2 then (t.1 + s.1 / Fl.ofInt ((s.2 : Int) - 1), t.2 + 1) else t) ((fin a : Fl K), n) =
      (fin (a + (rows.map fun r => (r.map fun v => v * v).sum / ((nE : K) - 1)).sum), n + rows.length) := by
  have hn : (nE : K) - 1 ≠ 0 := by
    have : (2 : K) ≤ (nE : K) := by exact_mod_cast hE
    intro h0
    linarith
  induction rows generalizing a n with
  | nil => simp
  | cons r rows ih =>
    obtain ⟨h1, h2⟩ := h r (by simp)
    have e : oiSquares (r.map (fin : K → Fl K)) = (fin ((r.map fun v => v * v).sum), nE) := by
      unfold oiSquares
      rw [zero_def, oiSquares_eq r h2, h1]
      simp
    simp only [List.map_cons, List.foldl_cons, e]
    rw [if_pos (by omega), ofInt_def, fin_div_of_ne _ (by push_cast; exact hn), fin_add, ih (fun w hw => h w (by simp [hw]))]
    simp only [List.sum_cons, List.length_cons]
    refine Prod.ext ?_ ?_
    · simp only; congr 1; push_cast; ring
    · simp only; omega

/-- C139: with at least one station and two members, whose forecasts `p` at the stations are all valid: the new inflation factor is the mean of the old one, with
the weight `v`, and of the ratio between the variance of the background `(sigma / epsilon)^2` and the mean variance of the members at the stations, with the
weight `c - 1`. It lies between the two. Partial: the claim is false with missing members (`c139_missing_false`), and undefined without stations or
with one member (`c139_none`, `c139_one_false`). -/
theorem c139_delta_partial {o : OiOptions K} {sg eps c v : K} (h1 : o.sigma = fin sg) (h2 : o.epsilon = fin eps) (h2' : eps ≠ 0) (h3 : o.c = fin c) (h4 : o.newDeltaVar = fin v)
    (hc : 1 < c) (hv : 0 < v) {nE nS : Nat} (hE : 2 ≤ nE) (hS : 0 < nS) (p : Nat → Nat → K)
    (hp : ∀ s < nS, ∀ e < nE, p s e - Spec.ensMean (Finset.range nE) (p s) ≠ -999) (hpos : meanVariance nE nS p ≠ 0) (old : K) :
    ∃ d r, oiCalcDelta o (fin old) ((List.range nS).map fun s => (List.range nE).map fun e => fin (p s e - Spec.ensMean (Finset.range nE) (p s))) = ok (fin d) ∧
      r = (sg / eps) ^ 2 / meanVariance nE nS p ∧ d = (v * old + (c - 1) * r) / (v + (c - 1)) ∧ min old r ≤ d ∧ d ≤ max old r := by
  have hw : 0 < v + (c - 1) := by linarith
  refine ⟨_, _, ?_, rfl, rfl, ?_, ?_⟩
  · have e0 : ((List.range nS).map fun s => (List.range nE).map fun e => (fin (p s e - Spec.ensMean (Finset.range nE) (p s)) : Fl K)) =
        (((List.range nS).map fun s => (List.range nE).map fun e => p s e - Spec.ensMean (Finset.range nE) (p s)).map fun r => r.map fin) := by
      simp [List.map_map, Function.comp_def]
    have e1 : oiTrace ((List.range nS).map fun s => (List.range nE).map fun e => (fin (p s e - Spec.ensMean (Finset.range nE) (p s)) : Fl K)) =
        (fin (∑ s ∈ Finset.range nS, Spec.ensCov (Finset.range nE) (p s) (p s)), nS) := by
      unfold oiTrace
      rw [e0, zero_def, oiTrace_eq hE _ (fun r hr => by
        obtain ⟨s, hs, rfl⟩ := List.mem_map.mp hr
        refine ⟨by simp, fun w hw => ?_⟩
        obtain ⟨e, he, rfl⟩ := List.mem_map.mp hw
        exact hp s (by simpa using hs) e (by simpa using he))]
      refine Prod.ext ?_ (by simp)
      simp only [zero_add, List.map_map, Function.comp_def]
      congr 1
      rw [Finset.sum_range, ← List.sum_ofFn]
      congr 1
      apply List.ext_getElem
      · simp
      · intro s hs1 hs2
        simp only [List.getElem_map, List.getElem_range, List.getElem_ofFn, Spec.ensCov, Finset.card_range]
        congr 1
    have hne : ¬ ((List.range nS).map fun s => (List.range nE).map fun e => (fin (p s e - Spec.ensMean (Finset.range nE) (p s)) : Fl K)).isEmpty = true := by
      simp [hS.ne']
    have hT : (∑ s ∈ Finset.range nS, Spec.ensCov (Finset.range nE) (p s) (p s)) ≠ 0 := fun h0 => hpos (by unfold meanVariance; rw [h0, zero_div])
    have hn : (nS : K) ≠ 0 := by exact_mod_cast hS.ne'
    unfold oiCalcDelta
    rw [if_neg hne]
    simp only [e1]
    rw [h1, h2, h3, h4, fin_mul sg, fin_div_of_ne _ h2', fin_div_of_ne _ h2', one_def, ofNat_def, fin_div_of_ne _ hn, fin_mul (1 / (nS : K)),
      fin_div_of_ne _ (mul_ne_zero (one_div_ne_zero hn) hT), fin_sub, fin_mul old, fin_mul _ (c - 1), fin_add, fin_add (c - 1),
      fin_div_of_ne _ (by linarith)]
    congr 2
    unfold meanVariance
    field_simp
    ring
  · rw [le_div_iff₀ hw]
    rcases min_cases old ((sg / eps) ^ 2 / meanVariance nE nS p) with ⟨h, h'⟩ | ⟨h, h'⟩ <;> rw [h] <;> nlinarith
  · rw [div_le_iff₀ hw]
    rcases max_cases old ((sg / eps) ^ 2 / meanVariance nE nS p) with ⟨h, h'⟩ | ⟨h, h'⟩ <;> rw [h] <;> nlinarith

/-- C139: without stations the program reads outside the array. -/
theorem c139_none (o : OiOptions K) (old : Fl K) : oiCalcDelta o old [] = .ub := rfl

/-- C139: it is false that members without a value are left out: with the values 4 and 6 at the station, the factor 1 becomes 106/103 (the variance is 2 and the ratio 2);
with a third member that is missing there it becomes 908/927, as the member counts with the deviation -5. -/
theorem c139_missing_false :
    oiForecast oiDefault (fin 50) (fin 50) none [fin 4, fin 6, fin (-999)] = ok ([fin (-1), fin 1, fin (-5)], fin 5) ∧
    oiCalcDelta oiDefault (fin 1) [[fin (-1), fin 1]] = ok (fin (106 / 103)) ∧
    oiCalcDelta oiDefault (fin 1) [[fin (-1), fin 1, fin (-5)]] = ok (fin (908 / 927)) := by
  refine ⟨by decide +kernel, by decide +kernel, by decide +kernel⟩

/-- C139: it is false that the factor is a number: with one member it becomes NaN. -/
theorem c139_one_false : oiForecast oiDefault (fin 50) (fin 50) none [fin 4] = ok ([fin 0], fin 4) ∧ oiCalcDelta oiDefault (fin 1) [[fin 0]] = ok nan := by
  refine ⟨by decide +kernel, by decide +kernel⟩

/-- Two stations and three members. -/
example : ∃ d r, oiCalcDelta oiDefault (fin 1) ((List.range 2).map fun s => (List.range 3).map fun e => fin (((s * e : Nat) : ℚ) - Spec.ensMean (Finset.range 3) fun e => ((s * e : Nat) : ℚ))) = ok (fin d) ∧
    r = (1 / (1 / 2)) ^ 2 / meanVariance 3 2 (fun s e => ((s * e : Nat) : ℚ)) ∧ d = (1 * 1 + (103 / 100 - 1) * r) / (1 + (103 / 100 - 1)) ∧ min 1 r ≤ d ∧ d ≤ max 1 r :=
  c139_delta_partial (o := oiDefault) rfl rfl (by norm_num) rfl rfl (by norm_num) (by norm_num) (by omega) (by omega) (fun s e => ((s * e : Nat) : ℚ))
    (by decide +kernel) (by decide +kernel) 1

end Gridpp.Props
