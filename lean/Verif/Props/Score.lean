import Verif.Model.Score
import Verif.Spec.Score
import Verif.Base.Inst

/-! # C53, C54: verification scores -/

set_option linter.unusedSectionVars false

namespace Gridpp.Props
open Fl Res Spec.Score

variable {K : Type} [Field K] [LinearOrder K] [IsStrictOrderedRing K]

theorem div_zero_zero : (fin (0 : K) / fin 0 : Fl K) = nan := by simp [fin_div, infOfSign]

theorem div_one (x : K) : (fin x / fin 1 : Fl K) = fin x := by rw [fin_div_of_ne _ one_ne_zero, _root_.div_one]

theorem rate_bounds {x y : K} (hx : 0 ≤ x) (hy : 0 ≤ y) : 0 ≤ x / (x + y) ∧ x / (x + y) ≤ 1 := by
  refine ⟨div_nonneg hx (by linarith), ?_⟩
  rcases eq_or_lt_of_le (add_nonneg hx hy) with h | h
  · rw [← h, div_zero]; exact zero_le_one
  · exact (div_le_one h).mpr (by linarith)

section
variable {a b c d : K} (ha : 0 ≤ a) (hb : 0 ≤ b) (hc : 0 ≤ c) (hd : 0 ≤ d)
include ha hb hc hd

/-- **C53**, threat score: missing exactly if the event was neither observed nor forecast, otherwise the textbook value,
which is in [0,1]. -/
theorem c53_ts : calcScore (fin a) (fin b) (fin c) (fin d) .ts = ok (if a + b + c = 0 then MV else fin (threat a b c)) ∧
    (a + b + c ≠ 0 → 0 ≤ threat a b c ∧ threat a b c ≤ 1) := by
  constructor
  · simp only [calcScore, fin_add, div_one]
    split_ifs with h
    · have : a = 0 := by linarith
      rw [h, this, div_zero_zero]
    · rw [fin_div_of_ne _ h]; rfl
  · intro h
    have hp : 0 < a + b + c := lt_of_le_of_ne (by linarith) (Ne.symm h)
    exact ⟨div_nonneg ha hp.le, (div_le_one hp).mpr (by linarith)⟩

/-- **C53**, proportion correct. -/
theorem c53_pc : calcScore (fin a) (fin b) (fin c) (fin d) .pc = ok (if a + b + c + d = 0 then MV else fin (correct a b c d)) ∧
    (a + b + c + d ≠ 0 → 0 ≤ correct a b c d ∧ correct a b c d ≤ 1) := by
  constructor
  · simp only [calcScore, fin_add]
    split_ifs with h
    · have : a + d = 0 := by linarith
      rw [h, this, div_zero_zero]
    · rw [fin_div_of_ne _ h]; rfl
  · intro h
    have hp : 0 < a + b + c + d := lt_of_le_of_ne (by linarith) (Ne.symm h)
    exact ⟨div_nonneg (by linarith) hp.le, (div_le_one hp).mpr (by linarith)⟩

/-- **C53**, Hanssen-Kuipers: missing exactly if the event or the non-event was never observed. -/
theorem c53_kss : calcScore (fin a) (fin b) (fin c) (fin d) .kss =
      ok (if a + c = 0 ∨ b + d = 0 then MV else fin (hanssenKuipers a b c d)) ∧
    -1 ≤ hanssenKuipers a b c d ∧ hanssenKuipers a b c d ≤ 1 := by
  refine ⟨?_, ?_⟩
  · simp only [calcScore, fin_add, fin_mul, fin_sub, feq_fin, decide_eq_true_eq, mul_eq_zero, mul_one]
    split_ifs with h
    · rfl
    · rw [not_or] at h
      rw [fin_div_of_ne _ (mul_ne_zero h.1 h.2)]
      congr 2
      unfold hanssenKuipers hitRate falseAlarmRate
      rw [div_sub_div _ _ h.1 h.2]
      congr 1
      ring
  · have h1 := rate_bounds ha hc
    have h2 := rate_bounds hb hd
    unfold hanssenKuipers hitRate falseAlarmRate
    constructor <;> linarith [h1.1, h1.2, h2.1, h2.2]

/-- What is left after removing the chance hits. -/
theorem ets_denominator (hN : a + b + c + d ≠ 0) :
    a + b + c - chanceHits a b c d = (b * b + c * c + b * c + a * b + a * c + (a + b + c) * d) / (a + b + c + d) := by
  unfold chanceHits
  rw [eq_div_iff hN, sub_mul, div_mul_cancel₀ _ hN]
  ring

/-- The equitable threat score is undefined for tables with only hits or only correct negatives, and for the empty one. -/
theorem ets_undefined : (a + b + c + d = 0 ∨ a + b + c - chanceHits a b c d = 0) ↔ (b = 0 ∧ c = 0 ∧ (a = 0 ∨ d = 0)) := by
  by_cases hN : a + b + c + d = 0
  · have : a = 0 ∧ b = 0 ∧ c = 0 ∧ d = 0 := ⟨by linarith, by linarith, by linarith, by linarith⟩
    simp [this]
  · simp only [hN, false_or]
    rw [ets_denominator ha hb hc hd hN, div_eq_zero_iff]
    simp only [hN, or_false]
    have h1 := mul_nonneg hb hb
    have h2 := mul_nonneg hc hc
    have h3 := mul_nonneg hb hc
    have h4 := mul_nonneg ha hb
    have h5 := mul_nonneg ha hc
    have h6 := mul_nonneg ha hd
    have h7 := mul_nonneg hb hd
    have h8 := mul_nonneg hc hd
    constructor
    · intro h
      have e : b * b + c * c + b * c + a * b + a * c + (a * d + b * d + c * d) = 0 := by rw [← h]; ring
      have e1 : b * b = 0 := by linarith
      have e2 : c * c = 0 := by linarith
      have e3 : a * d = 0 := by linarith
      exact ⟨mul_self_eq_zero.mp e1, mul_self_eq_zero.mp e2, mul_eq_zero.mp e3⟩
    · rintro ⟨rfl, rfl, h | h⟩ <;> simp [h]

/-- **C53**, equitable threat score: missing exactly if all cases are hits or all are correct negatives, otherwise the
textbook value, which is at most 1 (and at least -1/3). -/
theorem c53_ets : calcScore (fin a) (fin b) (fin c) (fin d) .ets =
      ok (if b = 0 ∧ c = 0 ∧ (a = 0 ∨ d = 0) then MV else fin (equitableThreat a b c d)) ∧
    (¬(b = 0 ∧ c = 0 ∧ (a = 0 ∨ d = 0)) → -(1 / 3) ≤ equitableThreat a b c d ∧ equitableThreat a b c d ≤ 1) := by
  have key := ets_undefined ha hb hc hd
  constructor
  · by_cases hN : a + b + c + d = 0
    · rw [if_pos (key.mp (Or.inl hN))]
      have e : a = 0 ∧ b = 0 ∧ c = 0 ∧ d = 0 := ⟨by linarith, by linarith, by linarith, by linarith⟩
      obtain ⟨rfl, rfl, rfl, rfl⟩ := e
      simp [calcScore, div_zero_zero]
    · have e : (fin a + fin b) / fin 1 / (fin a + fin b + fin c + fin d) * (fin a + fin c) = fin (chanceHits a b c d) := by
        simp only [fin_add, div_one]
        rw [fin_div_of_ne _ hN, fin_mul]
        unfold chanceHits
        rw [div_mul_eq_mul_div]
      simp only [calcScore, e]
      simp only [fin_add, fin_sub, feq_fin, decide_eq_true_eq, div_one]
      by_cases h : a + b + c - chanceHits a b c d = 0
      · rw [if_pos h, if_pos (key.mp (Or.inr h))]
      · rw [if_neg h, if_neg (fun h' => (key.mpr h').elim hN h), fin_div_of_ne _ h]; rfl
  · intro h
    have hN : a + b + c + d ≠ 0 := fun hN => h (key.mp (Or.inl hN))
    have hD : a + b + c - chanceHits a b c d ≠ 0 := fun h' => h (key.mp (Or.inr h'))
    have hNp : 0 < a + b + c + d := lt_of_le_of_ne (by linarith) (Ne.symm hN)
    have hDp : 0 < a + b + c - chanceHits a b c d := by
      refine lt_of_le_of_ne ?_ (Ne.symm hD)
      rw [ets_denominator ha hb hc hd hN]
      exact div_nonneg (by positivity) hNp.le
    unfold equitableThreat
    constructor
    · rw [le_div_iff₀ hDp]
      have e := ets_denominator ha hb hc hd hN
      have e2 : a - chanceHits a b c d = (a * d - b * c) / (a + b + c + d) := by
        unfold chanceHits
        rw [eq_div_iff hN, sub_mul, div_mul_cancel₀ _ hN]
        ring
      rw [e, e2, ← mul_div_assoc]
      refine div_le_div_of_nonneg_right ?_ hNp.le
      nlinarith [mul_nonneg ha hb, mul_nonneg ha hc, mul_nonneg ha hd, mul_nonneg hb hd, mul_nonneg hc hd, sq_nonneg (b - c)]
    · rw [div_le_one hDp]
      linarith

theorem hss_denominator (hN : a + b + c + d ≠ 0) :
    1 - chanceCorrect a b c d = ((a + c) * (c + d) + (a + b) * (b + d)) / ((a + b + c + d) * (a + b + c + d)) := by
  unfold chanceCorrect chanceHits chanceNegatives
  field_simp
  ring

/-- **C53**, Heidke skill score: missing exactly if all cases are hits or all are correct negatives (chance agreement is
complete), otherwise the textbook value, which is in [-1,1]. -/
theorem c53_hss : calcScore (fin a) (fin b) (fin c) (fin d) .hss =
      ok (if b = 0 ∧ c = 0 ∧ (a = 0 ∨ d = 0) then MV else fin (heidke a b c d)) ∧
    (¬(b = 0 ∧ c = 0 ∧ (a = 0 ∨ d = 0)) → -1 ≤ heidke a b c d ∧ heidke a b c d ≤ 1) := by
  have h1 := mul_nonneg hb hb
  have h2 := mul_nonneg hc hc
  have h4 := mul_nonneg ha hb
  have h5 := mul_nonneg ha hc
  have h6 := mul_nonneg ha hd
  have h7 := mul_nonneg hb hd
  have h8 := mul_nonneg hc hd
  have h9 := mul_nonneg hb hc
  have key : (a + c) * (c + d) + (a + b) * (b + d) = 0 ↔ (b = 0 ∧ c = 0 ∧ (a = 0 ∨ d = 0)) := by
    constructor
    · intro h
      have e1 : b * b = 0 := by nlinarith
      have e2 : c * c = 0 := by nlinarith
      have e3 : a * d = 0 := by nlinarith
      exact ⟨mul_self_eq_zero.mp e1, mul_self_eq_zero.mp e2, mul_eq_zero.mp e3⟩
    · rintro ⟨rfl, rfl, h | h⟩ <;> simp [h]
  have value : (a + c) * (c + d) + (a + b) * (b + d) ≠ 0 →
      heidke a b c d = 2 * (a * d - b * c) / ((a + c) * (c + d) + (a + b) * (b + d)) := by
    intro h
    have hN : a + b + c + d ≠ 0 := by
      intro hN
      have e : a = 0 ∧ b = 0 ∧ c = 0 ∧ d = 0 := ⟨by linarith, by linarith, by linarith, by linarith⟩
      exact h (by simp [e])
    unfold heidke
    rw [hss_denominator ha hb hc hd hN]
    have e : correct a b c d - chanceCorrect a b c d = 2 * (a * d - b * c) / ((a + b + c + d) * (a + b + c + d)) := by
      unfold correct chanceCorrect chanceHits chanceNegatives
      field_simp
      ring
    rw [e, div_div_div_cancel_right₀ (mul_ne_zero hN hN)]
  constructor
  · simp only [calcScore, fin_add, fin_mul, fin_sub, feq_fin, decide_eq_true_eq]
    by_cases h : (a + c) * (c + d) + (a + b) * (b + d) = 0
    · rw [if_pos h, if_pos (key.mp h)]
    · rw [if_neg h, if_neg (fun h' => h (key.mpr h')), fin_div_of_ne _ h, value h]
  · intro h
    have hD : (a + c) * (c + d) + (a + b) * (b + d) ≠ 0 := fun h' => h (key.mp h')
    have hDp : 0 < (a + c) * (c + d) + (a + b) * (b + d) := lt_of_le_of_ne (by positivity) (Ne.symm hD)
    rw [value hD]
    constructor
    · rw [le_div_iff₀ hDp]; nlinarith [sq_nonneg (b - c)]
    · rw [div_le_one hDp]; nlinarith [sq_nonneg (b - c)]

/-- **C53**, bias: never missing, and in [0,1]. -/
theorem c53_bias : ∃ v, calcScore (fin a) (fin b) (fin c) (fin d) .bias = ok (fin v) ∧ 0 ≤ v ∧ v ≤ 1 ∧ (v = 1 ↔ b = c) := by
  simp only [calcScore, feq_fin, decide_eq_true_eq, fin_add, fin_sub, Fl.abs]
  by_cases h : b = c
  · rw [if_pos h]; exact ⟨1, rfl, zero_le_one, le_refl _, by simp [h]⟩
  · have hs : 0 < b + c := by
      refine lt_of_le_of_ne (by linarith) (fun e => h ?_)
      have h1 : b = 0 := by linarith
      have h2 : c = 0 := by linarith
      rw [h1, h2]
    rw [if_neg h, fin_div_of_ne _ hs.ne', fin_sub]
    refine ⟨_, rfl, ?_, ?_, ?_⟩
    · rw [sub_nonneg, div_le_one hs, abs_le]
      constructor <;> linarith
    · have := div_nonneg (abs_nonneg (b - c)) hs.le
      linarith
    · constructor
      · intro e
        have : |b - c| / (b + c) = 0 := by linarith
        rw [div_eq_zero_iff] at this
        rcases this with t | t
        · exact absurd (sub_eq_zero.mp (abs_eq_zero.mp t)) h
        · exact absurd t hs.ne'
      · intro e; exact absurd e h

end

/-- **C53**, perfect forecasts: no false alarms or misses, some hits and some correct negatives give 1 for every metric. -/
theorem c53_perfect {a d : K} (ha : 0 < a) (hd : 0 < d) (metric : Metric) (hm : metric ≠ .other) :
    calcScore (fin a) (fin 0) (fin 0) (fin d) metric = ok (fin 1) := by
  have hN : a + d ≠ 0 := by positivity
  cases metric with
  | ets =>
    rw [(c53_ets ha.le (le_refl 0) (le_refl 0) hd.le).1, if_neg (by simp [ha.ne', hd.ne'])]
    congr 2
    unfold equitableThreat
    simp only [add_zero]
    refine div_self ?_
    intro h
    have := (ets_undefined ha.le (le_refl 0) (le_refl 0) hd.le).mp (Or.inr (by simpa using h))
    simp [ha.ne', hd.ne'] at this
  | ts =>
    rw [(c53_ts ha.le (le_refl 0) (le_refl 0) hd.le).1, if_neg (by simp [ha.ne'])]
    simp [threat, ha.ne']
  | pc =>
    rw [(c53_pc ha.le (le_refl 0) (le_refl 0) hd.le).1, if_neg (by simpa using hN)]
    simp [correct, hN]
  | kss =>
    rw [(c53_kss ha.le (le_refl 0) (le_refl 0) hd.le).1, if_neg (by simp [ha.ne', hd.ne'])]
    simp [hanssenKuipers, hitRate, falseAlarmRate, ha.ne']
  | bias => simp [calcScore]
  | hss =>
    rw [(c53_hss ha.le (le_refl 0) (le_refl 0) hd.le).1, if_neg (by simp [ha.ne', hd.ne'])]
    congr 2
    unfold heidke
    have e : correct a 0 0 d = 1 := by simp [correct, hN]
    rw [e]
    refine div_self ?_
    rw [hss_denominator ha.le (le_refl 0) (le_refl 0) hd.le (by simpa using hN)]
    simp [ha.ne', hd.ne', hN]
  | other => exact absurd rfl hm

/-- A value that is not a metric is reported. -/
theorem c53_unknown (a b c d : Fl K) : calcScore a b c d .other = .throw .invalidArgument := rfl

/-- Concrete case: 3 hits, 1 false alarm, 1 miss, 5 correct negatives. -/
example : calcScore (fin (3 : ℚ)) (fin 1) (fin 1) (fin 5) .ets = ok (fin (7 / 17)) ∧
    calcScore (fin (3 : ℚ)) (fin 1) (fin 1) (fin 5) .hss = ok (fin (7 / 12)) ∧
    calcScore (fin (0 : ℚ)) (fin 0) (fin 0) (fin 5) .ts = ok nan := by decide +kernel

/-! ### Counting -/

/-- How often an outcome occurs among the pairs of forecast and reference. -/
def tally (threshold fthreshold : Fl K) (o : Outcome) (pairs : List (Fl K × Fl K)) : Nat :=
  pairs.countP (fun p => outcome threshold fthreshold p = some o)

theorem gt_or_le {r t : Fl K} (hr : r ≠ nan) (ht : t ≠ nan) : le r t = !gt r t := by
  cases r <;> cases t <;> simp_all [le, gt, lt, feq]
  rename_i x y
  rw [← Bool.decide_or, ← decide_not]
  congr 1
  rw [not_lt]
  exact propext le_iff_lt_or_eq.symm

theorem countPair_outcome (threshold fthreshold : Fl K) (n : Counts K) (f r : Fl K) :
    countPair threshold fthreshold n f r = match outcome threshold fthreshold (f, r) with
      | some .hit => { n with a := n.a + fin 1 }
      | some .falseAlarm => { n with b := n.b + fin 1 }
      | some .miss => { n with c := n.c + fin 1 }
      | some .correctNegative => { n with d := n.d + fin 1 }
      | none => n := by
  unfold countPair outcome
  by_cases hr : r = nan
  · subst hr; simp
  · by_cases ht : threshold = nan
    · subst ht; simp
    · simp only [hr, ht, or_self, if_false, gt_or_le hr ht]
      cases gt f fthreshold <;> cases gt r threshold <;> simp

theorem countPairs_eq {ref fcst : List (Fl K)} (h : fcst.length ≤ ref.length) (threshold fthreshold : Fl K) :
    countPairs ref fcst threshold fthreshold = ok ⟨fin (tally threshold fthreshold .hit (fcst.zip ref) : K),
      fin (tally threshold fthreshold .falseAlarm (fcst.zip ref) : K), fin (tally threshold fthreshold .miss (fcst.zip ref) : K),
      fin (tally threshold fthreshold .correctNegative (fcst.zip ref) : K)⟩ := by
  have key : ∀ k ≤ fcst.length, foldM (fun (n : Counts K) t => do
      let f ← vget fcst t
      let r ← vget ref t
      ok (countPair threshold fthreshold n f r)) ⟨fin 0, fin 0, fin 0, fin 0⟩ (upto k) =
      ok ⟨fin (tally threshold fthreshold .hit ((fcst.zip ref).take k) : K),
        fin (tally threshold fthreshold .falseAlarm ((fcst.zip ref).take k) : K), fin (tally threshold fthreshold .miss ((fcst.zip ref).take k) : K),
        fin (tally threshold fthreshold .correctNegative ((fcst.zip ref).take k) : K)⟩ := by
    intro k
    induction k with
    | zero => intro _; simp [upto, tally]
    | succ k ih =>
      intro hk
      have h1 : k < fcst.length := hk
      have h2 : k < ref.length := by omega
      have e : upto (k + 1) = upto k ++ [(k : Int)] := by simp [upto, List.range_succ]
      rw [e, foldM_append, ih (by omega), ok_bind, foldM_cons, vget_eq_ok_of_lt h1, vget_eq_ok_of_lt h2]
      simp only [ok_bind, foldM_nil, List.take_add_one]
      have e2 : (fcst.zip ref)[k]? = some (fcst[k], ref[k]) := by
        rw [List.getElem?_eq_getElem (by simp; omega), List.getElem_zip]
      rw [e2, countPair_outcome]
      cases ho : outcome threshold fthreshold (fcst[k], ref[k]) with
      | none => simp [tally, List.countP_append, ho]
      | some o => cases o <;> simp [tally, List.countP_append, ho]
  unfold countPairs
  rw [key _ (le_refl _), List.take_of_length_le (by simp)]

/-- **C54**: the score is that of the table which has, for every kind of outcome, the number of pairs with that outcome;
every pair with a reference is counted exactly once, pairs without a reference are not counted. -/
theorem c54_counts {ref fcst : List (Fl K)} (h : fcst.length ≤ ref.length) {threshold : Fl K} (ht : threshold ≠ nan) (fthreshold : Fl K)
    (metric : Metric) : ∃ hits falseAlarms misses negatives : Nat,
      calcScoreAt ref fcst threshold fthreshold metric =
        calcScore (fin (hits : K)) (fin (falseAlarms : K)) (fin (misses : K)) (fin (negatives : K)) metric ∧
      hits = (fcst.zip ref).countP (fun p => gt p.1 fthreshold && gt p.2 threshold) ∧
      falseAlarms = (fcst.zip ref).countP (fun p => gt p.1 fthreshold && le p.2 threshold) ∧
      misses = (fcst.zip ref).countP (fun p => !gt p.1 fthreshold && gt p.2 threshold) ∧
      negatives = (fcst.zip ref).countP (fun p => !gt p.1 fthreshold && le p.2 threshold) ∧
      hits + falseAlarms + misses + negatives = (ref.take fcst.length).countP (· ≠ nan) := by
  refine ⟨_, _, _, _, ?_, rfl, rfl, rfl, rfl, ?_⟩
  · unfold calcScoreAt
    rw [countPairs_eq h, ok_bind]
    have e : ∀ o q, (∀ p : Fl K × Fl K, decide (outcome threshold fthreshold p = some o) = q p) →
        (fin (tally threshold fthreshold o (fcst.zip ref) : K) : Fl K) = fin ((fcst.zip ref).countP q : K) := by
      intro o q hq
      unfold tally
      congr 3
      exact funext hq
    have hle : ∀ r, r ≠ nan → le r threshold = !gt r threshold := fun r hr => gt_or_le hr ht
    congr 1 <;> refine e _ _ ?_ <;> intro p <;> by_cases hp : p.2 = nan <;>
      cases h1 : gt p.1 fthreshold <;> cases h2 : gt p.2 threshold <;> simp_all [outcome]
  · have e2 : ref.take fcst.length = (fcst.zip ref).map Prod.snd := by
      apply List.ext_getElem
      · simp
      · intro i h1 h2; simp
    rw [e2, List.countP_map]
    have hle : ∀ r, r ≠ nan → le r threshold = !gt r threshold := fun r hr => gt_or_le hr ht
    generalize fcst.zip ref = l
    clear e2
    induction l with
    | nil => rfl
    | cons p t ih =>
      simp only [List.countP_cons] at ih ⊢
      by_cases hp : p.2 = nan
      · simp [hp]; simpa using ih
      · cases h1 : gt p.1 fthreshold <;> cases h2 : gt p.2 threshold <;> simp [hp, h2, hle _ hp] <;> simp at ih <;> omega

/-- **C54** needs a threshold: nothing is counted for a missing one. -/
theorem c54_no_threshold {ref fcst : List (Fl K)} (h : fcst.length ≤ ref.length) (fthreshold : Fl K) (metric : Metric) :
    calcScoreAt ref fcst nan fthreshold metric = calcScore (fin 0) (fin 0) (fin 0) (fin 0) metric := by
  unfold calcScoreAt
  rw [countPairs_eq h, ok_bind]
  have : ∀ o, tally nan fthreshold o (fcst.zip ref) = 0 := by
    intro o
    unfold tally
    rw [List.countP_eq_zero]
    intro p _
    simp [outcome]
  simp [this]

/-- **C54** also needs enough references: they are not checked, and the code reads outside them. -/
theorem c54_reads_outside {ref fcst : List (Fl K)} (h : ref.length < fcst.length) (threshold fthreshold : Fl K) (metric : Metric) :
    calcScoreAt ref fcst threshold fthreshold metric = ub := by
  have key : ∀ k, ref.length < k → k ≤ fcst.length → foldM (fun (n : Counts K) t => do
      let f ← vget fcst t
      let r ← vget ref t
      ok (countPair threshold fthreshold n f r)) ⟨fin 0, fin 0, fin 0, fin 0⟩ (upto k) = ub := by
    intro k
    induction k with
    | zero => intro h; omega
    | succ k ih =>
      intro h1 h2
      have e : upto (k + 1) = upto k ++ [(k : Int)] := by simp [upto, List.range_succ]
      rw [e, foldM_append]
      by_cases hk : ref.length < k
      · rw [ih hk (by omega), ub_bind]
      · have : ref.length = k := by omega
        have h3 : k < fcst.length := h2
        have hu : ∀ n : Counts K, foldM (fun (n : Counts K) t => do
            let f ← vget fcst t
            let r ← vget ref t
            ok (countPair threshold fthreshold n f r)) n [(k : Int)] = ub := by
          intro n
          rw [foldM_cons, vget_eq_ok_of_lt h3, vget_ub_of_le (by omega)]
          rfl
        have hp := countPairs_eq (ref := ref) (fcst := fcst.take k) (by simp; omega) threshold fthreshold
        unfold countPairs at hp
        have hl : (fcst.take k).length = k := by simp; omega
        rw [hl] at hp
        have hc : ∀ (l : List Int) (n : Counts K), (∀ t ∈ l, ∃ m : Nat, t = m ∧ m < k) → foldM (fun (n : Counts K) t => do
            let f ← vget fcst t
            let r ← vget ref t
            ok (countPair threshold fthreshold n f r)) n l = foldM (fun (n : Counts K) t => do
            let f ← vget (fcst.take k) t
            let r ← vget ref t
            ok (countPair threshold fthreshold n f r)) n l := by
          intro l
          induction l with
          | nil => intro n _; rfl
          | cons t l ihl =>
            intro n hm
            obtain ⟨m, rfl, hm'⟩ := hm t (by simp)
            have e1 : vget (fcst.take k) (m : Int) = vget fcst (m : Int) := by
              rw [vget_eq_ok_of_lt (by omega), vget_eq_ok_of_lt (by omega)]
              simp
            have e2 : m < fcst.length := by omega
            have e3 : m < ref.length := by omega
            simp only [foldM_cons, e1, vget_eq_ok_of_lt e2, vget_eq_ok_of_lt e3, ok_bind]
            exact ihl _ (fun t ht => hm t (by simp [ht]))
        rw [hc (upto k) _ (by intro t ht; simp [upto] at ht; obtain ⟨m, hm, rfl⟩ := ht; exact ⟨m, rfl, hm⟩), hp, ok_bind, hu]
  unfold calcScoreAt countPairs
  rw [key _ h (le_refl _), ub_bind]

/-- The version with one threshold. -/
theorem c54_one_threshold (ref fcst : List (Fl K)) (threshold : Fl K) (metric : Metric) :
    calcScoreVec ref fcst threshold metric = calcScoreAt ref fcst threshold threshold metric := rfl

/-- Concrete case: one missing reference, one missing forecast (a miss). -/
example : calcScoreVec [fin (1 : ℚ), fin 5, nan, fin 7, fin 2] [fin 4, fin 6, fin 9, nan, fin 0] (fin 3) .ts = ok (fin (1 / 3)) := by
  decide +kernel

end Gridpp.Props
