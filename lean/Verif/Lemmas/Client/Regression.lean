import Verif.Model.Client.Regression
import Verif.Spec.ClientRegression
import Verif.Lemmas.Client.Qq
import Mathlib.Tactic.LinearCombination
import Mathlib.Tactic.FieldSimp

/-! # Lemmas for the regression -/

set_option linter.unusedSectionVars false

namespace Gridpp.Client
open Fl hiding MV isValid
open Res Spec

variable {K : Type} [Field K] [LinearOrder K] [IsStrictOrderedRing K]

theorem polyValue_cons (a : K) (as : List K) (x : K) : polyValue (a :: as) x = a + x * polyValue as x := by
  unfold polyValue
  rw [show (∑ i : Fin (a :: as).length, (a :: as)[i] * x ^ (i : ℕ)) = ∑ i : Fin (as.length + 1), (a :: as)[i] * x ^ (i : ℕ) from rfl,
    Fin.sum_univ_succ, Finset.mul_sum]
  congr 1
  · simp
  · refine Finset.sum_congr rfl fun i _ => ?_
    simp only [Fin.getElem_fin, Fin.val_succ, List.getElem_cons_succ]
    rw [pow_succ]
    ring

theorem polyLoop_eq (x : K) (as : List K) (h : ∀ a ∈ as, a ≠ -999) (p : Nat) (t : K) :
    polyLoop (fin x) (as.map fin) p (fin t) = fin (t + x ^ p * polyValue as x) := by
  induction as generalizing p t with
  | nil => simp [polyLoop, polyValue]
  | cons a as ih =>
    have ha : Client.isValid (fin a : Fl K) = true := isValid_fin_of_ne (h a (by simp))
    simp only [List.map_cons, polyLoop, ha, if_true, powNat, fin_mul, fin_add]
    rw [ih (fun b hb => h b (by simp [hb])), polyValue_cons]
    congr 1
    ring

theorem polyLoop_missing (x : Fl K) (cs : List (Fl K)) (h : ∃ c ∈ cs, ¬ Present c) (p : Nat) (t : Fl K) : polyLoop x cs p t = Client.MV := by
  induction cs generalizing p t with
  | nil => simp at h
  | cons c cs ih =>
    rw [polyLoop]
    by_cases hc : Present c
    · rw [if_pos (isValid_iff_present.mpr hc)]
      refine ih ?_ _ _
      obtain ⟨d, hd, hd'⟩ := h
      rcases List.mem_cons.mp hd with rfl | hd
      · exact absurd hc hd'
      · exact ⟨d, hd, hd'⟩
    · rw [if_neg (by rw [isValid_iff_present]; exact hc)]

/-- The value of a predictor at a place; `none` stands for the field `f` itself. -/
def PredictorIs (f : FieldC K) (y x e : Nat) (p : Option (FieldC K)) (v : Fl K) : Prop := (p.getD f).get y x e = ok v

theorem multiLoop_eq {f : FieldC K} {y x e : Nat} (as bs : List K) (ps : List (Option (FieldC K))) (h : ∀ a ∈ as, a ≠ -999)
    (hb : List.Forall₂ (fun p b => PredictorIs f y x e p (fin b)) ps bs) (hlen : as.length ≤ bs.length) (t : K) :
    multiLoop f y x e (as.map fin) ps (fin t) = ok (fin (t + weightedSum as bs)) := by
  induction as generalizing bs ps t with
  | nil => simp [multiLoop, weightedSum]
  | cons a as ih =>
    have ha : Client.isValid (fin a : Fl K) = true := isValid_fin_of_ne (h a (by simp))
    cases hb with
    | nil => simp at hlen
    | @cons p b ps bs hp hb =>
      unfold PredictorIs at hp
      simp only [List.map_cons, multiLoop, ha, if_true, hp, ok_bind, fin_mul, fin_add]
      rw [ih bs ps (fun b hb => h b (by simp [hb])) hb (by simpa using hlen)]
      congr 2
      simp only [weightedSum, List.zipWith_cons_cons, List.sum_cons]
      ring

theorem multiLoop_missing {f : FieldC K} {y x e : Nat} (cs : List (Fl K)) (ps : List (Option (FieldC K))) (h : ∃ c ∈ cs, ¬ Present c)
    (hp : ∀ p ∈ ps, ∃ v, PredictorIs f y x e p v) (hlen : cs.length ≤ ps.length) (t : Fl K) : multiLoop f y x e cs ps t = ok Client.MV := by
  induction cs generalizing ps t with
  | nil => simp at h
  | cons c cs ih =>
    cases ps with
    | nil => simp at hlen
    | cons p ps =>
      by_cases hc : Present c
      · obtain ⟨v, hv⟩ := hp p (by simp)
        unfold PredictorIs at hv
        simp only [multiLoop, isValid_iff_present.mpr hc, if_true, hv, ok_bind]
        refine ih ps ?_ (fun q hq => hp q (by simp [hq])) (by simpa using hlen) _
        obtain ⟨d, hd, hd'⟩ := h
        rcases List.mem_cons.mp hd with rfl | hd
        · exact absurd hc hd'
        · exact ⟨d, hd, hd'⟩
      · simp only [multiLoop, isValid_false_iff.mpr hc, Bool.false_eq_true, if_false]

/-- For any values a sum comes out. -/
theorem multiLoop_ok {f : FieldC K} {y x e : Nat} (cs : List (Fl K)) (ps : List (Option (FieldC K)))
    (hp : ∀ p ∈ ps, ∃ v, PredictorIs f y x e p v) (hlen : cs.length ≤ ps.length) (t : Fl K) : ∃ v, multiLoop f y x e cs ps t = ok v := by
  induction cs generalizing ps t with
  | nil => exact ⟨t, rfl⟩
  | cons c cs ih =>
    cases ps with
    | nil => simp at hlen
    | cons p ps =>
      by_cases hc : Present c
      · obtain ⟨v, hv⟩ := hp p (by simp)
        unfold PredictorIs at hv
        simp only [multiLoop, isValid_iff_present.mpr hc, if_true, hv, ok_bind]
        exact ih ps (fun q hq => hp q (by simp [hq])) (by simpa using hlen) _
      · simp only [multiLoop, isValid_false_iff.mpr hc, Bool.false_eq_true, if_false]
        exact ⟨_, rfl⟩

/-! ### Training -/

/-- The sums over the cases. -/
def sumObs (l : List (K × K)) : K := (l.map fun c => c.1).sum
def sumFcst (l : List (K × K)) : K := (l.map fun c => c.2).sum
def sumFcst2 (l : List (K × K)) : K := (l.map fun c => c.2 * c.2).sum
def sumObsFcst (l : List (K × K)) : K := (l.map fun c => c.1 * c.2).sum

theorem regressionSums_eq (l : List (K × K)) :
    regressionSums (l.map fun p => ((fin p.1 : Fl K), (fin p.2 : Fl K))) = (fin (sumObs l), fin (sumFcst l), fin (sumFcst2 l), fin (sumObsFcst l)) := by
  have key : ∀ (l : List (K × K)) (a b c d : K), (l.map fun p => ((fin p.1 : Fl K), (fin p.2 : Fl K))).foldl
      (fun s p => (s.1 + p.1, s.2.1 + p.2, s.2.2.1 + p.2 * p.2, s.2.2.2 + p.1 * p.2)) (fin a, fin b, fin c, fin d) =
      (fin (a + sumObs l), fin (b + sumFcst l), fin (c + sumFcst2 l), fin (d + sumObsFcst l)) := by
    intro l
    induction l with
    | nil => intro a b c d; simp [sumObs, sumFcst, sumFcst2, sumObsFcst]
    | cons p l ih =>
      intro a b c d
      simp only [List.map_cons, List.foldl_cons, fin_mul, fin_add, ih]
      simp only [sumObs, sumFcst, sumFcst2, sumObsFcst, List.map_cons, List.sum_cons, add_assoc]
  have := key l 0 0 0 0
  simp only [zero_add] at this
  exact this

theorem squareError_eq (l : List (K × K)) (a b : K) :
    squareError l a b = squareError l 0 0 - 2 * a * sumObs l - 2 * b * sumObsFcst l + (l.length : K) * a ^ 2 + 2 * a * b * sumFcst l + b ^ 2 * sumFcst2 l := by
  induction l with
  | nil => simp [squareError, sumObs, sumObsFcst, sumFcst, sumFcst2]
  | cons p l ih =>
    have e : ∀ a b : K, squareError (p :: l) a b = (p.1 - (a + b * p.2)) ^ 2 + squareError l a b := fun _ _ => rfl
    have e1 : sumObs (p :: l) = p.1 + sumObs l := rfl
    have e2 : sumFcst (p :: l) = p.2 + sumFcst l := rfl
    have e3 : sumFcst2 (p :: l) = p.2 * p.2 + sumFcst2 l := rfl
    have e4 : sumObsFcst (p :: l) = p.1 * p.2 + sumObsFcst l := rfl
    rw [e, e, ih, e1, e2, e3, e4, List.length_cons]
    push_cast
    ring

theorem squareError_nonneg (l : List (K × K)) (a b : K) : 0 ≤ squareError l a b := by
  unfold squareError
  apply List.sum_nonneg
  intro x hx
  obtain ⟨c, -, rfl⟩ := List.mem_map.mp hx
  exact sq_nonneg _

theorem squareError_zero {l : List (K × K)} {a b : K} (h : squareError l a b = 0) : ∀ c ∈ l, c.1 = a + b * c.2 := by
  induction l with
  | nil => simp
  | cons p l ih =>
    have e : squareError (p :: l) a b = (p.1 - (a + b * p.2)) ^ 2 + squareError l a b := rfl
    rw [e] at h
    have h1 := sq_nonneg (p.1 - (a + b * p.2))
    have h2 := squareError_nonneg l a b
    have h3 : (p.1 - (a + b * p.2)) ^ 2 = 0 := by linarith
    have h4 : squareError l a b = 0 := by linarith
    intro c hc
    rcases List.mem_cons.mp hc with rfl | hc
    · have := pow_eq_zero_iff (two_ne_zero) |>.mp h3
      linarith
    · exact ih h4 c hc

/-- The variance of the forecasts, times the square of their number. -/
theorem variance_nonneg (l : List (K × K)) : sumFcst l ^ 2 ≤ (l.length : K) * sumFcst2 l := by
  by_cases h0 : l = []
  · subst h0; simp [sumFcst]
  · have hn : (0 : K) < l.length := by exact_mod_cast List.length_pos_iff.mpr h0
    -- the error of the constant sumFcst / n as a model of the forecasts
    have h := squareError_nonneg (l.map fun c => (c.2, c.2)) (sumFcst l / l.length) 0
    rw [squareError_eq] at h
    have e1 : sumObs (l.map fun c => (c.2, c.2)) = sumFcst l := by simp [sumObs, sumFcst, List.map_map, Function.comp_def]
    have e2 : squareError (l.map fun c => (c.2, c.2)) 0 0 = sumFcst2 l := by
      simp only [squareError, sumFcst2, List.map_map, Function.comp_def]
      congr 1
      apply List.map_congr_left
      intro c _
      ring
    rw [e1, e2, List.length_map] at h
    have h' := mul_nonneg hn.le h
    have e3 : (l.length : K) * (sumFcst2 l - 2 * (sumFcst l / l.length) * sumFcst l - 2 * 0 * sumObsFcst (l.map fun c => (c.2, c.2)) +
        (l.length : K) * (sumFcst l / l.length) ^ 2 + 2 * (sumFcst l / l.length) * 0 * sumFcst (l.map fun c => (c.2, c.2)) +
        0 ^ 2 * sumFcst2 (l.map fun c => (c.2, c.2))) = (l.length : K) * sumFcst2 l - sumFcst l ^ 2 := by
      field_simp
      ring
    rw [e3] at h'
    linarith

theorem variance_zero {l : List (K × K)} (h : sumFcst l ^ 2 = (l.length : K) * sumFcst2 l) : ∀ c ∈ l, ∀ d ∈ l, c.2 = d.2 := by
  by_cases h0 : l = []
  · subst h0; simp
  · have hn : (0 : K) < l.length := by exact_mod_cast List.length_pos_iff.mpr h0
    have hz : squareError (l.map fun c => (c.2, c.2)) (sumFcst l / l.length) 0 = 0 := by
      rw [squareError_eq]
      have e1 : sumObs (l.map fun c => (c.2, c.2)) = sumFcst l := by simp [sumObs, sumFcst, List.map_map, Function.comp_def]
      have e2 : squareError (l.map fun c => (c.2, c.2)) 0 0 = sumFcst2 l := by
        simp only [squareError, sumFcst2, List.map_map, Function.comp_def]
        congr 1
        apply List.map_congr_left
        intro c _
        ring
      rw [e1, e2, List.length_map]
      field_simp
      linear_combination -h
    have := squareError_zero hz
    intro c hc d hd
    have hc' := this (c.2, c.2) (List.mem_map.mpr ⟨c, hc, rfl⟩)
    have hd' := this (d.2, d.2) (List.mem_map.mpr ⟨d, hd, rfl⟩)
    simp only [zero_mul, add_zero] at hc' hd'
    rw [hc', hd']

theorem variance_const {l : List (K × K)} (h : ∀ c ∈ l, ∀ d ∈ l, c.2 = d.2) : ∃ m, sumFcst l = l.length * m ∧ sumFcst2 l = l.length * m ^ 2 ∧
    sumObsFcst l = m * sumObs l := by
  cases l with
  | nil => exact ⟨0, by simp [sumFcst], by simp [sumFcst2], by simp [sumObsFcst]⟩
  | cons p l =>
    refine ⟨p.2, ?_⟩
    have : ∀ l : List (K × K), (∀ c ∈ l, c.2 = p.2) → sumFcst l = l.length * p.2 ∧ sumFcst2 l = l.length * p.2 ^ 2 ∧ sumObsFcst l = p.2 * sumObs l := by
      intro l
      induction l with
      | nil => intro _; simp [sumFcst, sumFcst2, sumObsFcst, sumObs]
      | cons q l ih =>
        intro hq
        obtain ⟨h1, h2, h3⟩ := ih fun c hc => hq c (by simp [hc])
        have hq' := hq q (by simp)
        have e1 : sumObs (q :: l) = q.1 + sumObs l := rfl
        have e2 : sumFcst (q :: l) = q.2 + sumFcst l := rfl
        have e3 : sumFcst2 (q :: l) = q.2 * q.2 + sumFcst2 l := rfl
        have e4 : sumObsFcst (q :: l) = q.1 * q.2 + sumObsFcst l := rfl
        rw [e1, e2, e3, e4, h1, h2, h3, hq', List.length_cons]
        push_cast
        exact ⟨by ring, by ring, by ring⟩
    exact this (p :: l) fun c hc => h c hc p (by simp)

end Gridpp.Client
