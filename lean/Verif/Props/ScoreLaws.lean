import Verif.Props.NeighbourhoodScore
import Verif.Props.Optimizer
import Verif.Props.ProbabilityUnits

/-! C182: laws of the scores and of the metric optimizer; the test of `get_optimal_threshold` at the ends of the range (C74). -/

set_option linter.unusedSectionVars false

namespace Gridpp.Spec

/-- What `get_optimal_threshold` keeps: a threshold whose score is a number above 0.0001, and the sum of that score and of
the score at either end of the range of forecasts is not within 0.001 of 0. (The difference is meant; C74.) -/
def KeptScore {K : Type} [Field K] [LinearOrder K] (s s0 s1 : Fl K) : Prop :=
  ∃ q, s = Fl.fin q ∧ 1 / 10000 < q ∧ ∀ e, (s0 = Fl.fin e ∨ s1 = Fl.fin e) → 1 / 1000 ≤ |q + e|

end Gridpp.Spec

namespace Gridpp.Props
open Fl Res Spec Spec.Score

section
variable {K : Type} [Field K] [LinearOrder K] [IsStrictOrderedRing K]

/-! ### Other units -/

theorem countPair_units {c1 c2 : K} (h1 : 0 < c1) (h2 : 0 < c2) (d1 d2 : K) (t ft : Fl K) (n : Counts K) (f r : Fl K) :
    countPair (inUnits c1 d1 t) (inUnits c2 d2 ft) n (inUnits c2 d2 f) (inUnits c1 d1 r) = countPair t ft n f r := by
  unfold countPair
  rw [inUnits_gt h2, inUnits_gt h1, inUnits_le h1]

/-- **C182**, units: a score does not depend on the units of references and forecasts (which may differ). -/
theorem c182_units {c1 c2 : K} (h1 : 0 < c1) (h2 : 0 < c2) (d1 d2 : K) (ref fcst : List (Fl K)) (t ft : Fl K) (m : Metric) :
    calcScoreAt (ref.map (inUnits c1 d1)) (fcst.map (inUnits c2 d2)) (inUnits c1 d1 t) (inUnits c2 d2 ft) m = calcScoreAt ref fcst t ft m := by
  unfold calcScoreAt countPairs
  simp only [vget_map, map_bind_eq, countPair_units h1 h2, List.length_map]

/-! ### The order of the pairs, and repeated pairs -/

theorem calcScoreAt_tally {ref fcst : List (Fl K)} (h : fcst.length ≤ ref.length) (t ft : Fl K) (m : Metric) :
    calcScoreAt ref fcst t ft m = calcScore (fin (tally t ft .hit (fcst.zip ref) : K)) (fin (tally t ft .falseAlarm (fcst.zip ref) : K))
      (fin (tally t ft .miss (fcst.zip ref) : K)) (fin (tally t ft .correctNegative (fcst.zip ref) : K)) m := by
  unfold calcScoreAt
  rw [countPairs_eq h, ok_bind]

/-- **C182**, order: the order of the pairs of forecast and reference does not matter. -/
theorem c182_order {ref fcst ref' fcst' : List (Fl K)} (h : fcst.length ≤ ref.length) (h' : fcst'.length ≤ ref'.length)
    (hp : (fcst.zip ref).Perm (fcst'.zip ref')) (t ft : Fl K) (m : Metric) : calcScoreAt ref fcst t ft m = calcScoreAt ref' fcst' t ft m := by
  rw [calcScoreAt_tally h, calcScoreAt_tally h']
  unfold tally
  rw [hp.countP_eq, hp.countP_eq, hp.countP_eq, hp.countP_eq]

theorem zip_copies {α β : Type} {l : List α} {k : List β} (h : l.length = k.length) (n : Nat) :
    (List.replicate n l).flatten.zip (List.replicate n k).flatten = (List.replicate n (l.zip k)).flatten := by
  induction n with
  | zero => rfl
  | succ n ih =>
    rw [List.replicate_succ, List.replicate_succ, List.replicate_succ, List.flatten_cons, List.flatten_cons, List.flatten_cons,
      List.zip_append h, ih]

theorem countP_copies {α : Type} (p : α → Bool) (l : List α) (n : Nat) : (List.replicate n l).flatten.countP p = n * l.countP p := by
  induction n with
  | zero => simp
  | succ n ih => rw [List.replicate_succ, List.flatten_cons, List.countP_append, ih]; ring

theorem textbookScore_copies (a b c d : K) {n : K} (hn : 0 < n) (m : Metric) :
    textbookScore (n * a) (n * b) (n * c) (n * d) m = textbookScore a b c d m := by
  rw [← textbookScore_div (n * a) (n * b) (n * c) (n * d) hn]
  simp only [mul_div_cancel_left₀ _ hn.ne']

/-- **C182**, repeated pairs: any number of copies of the data has the score of the data. -/
theorem c182_copies {ref fcst : List (Fl K)} (h : fcst.length = ref.length) {n : Nat} (hn : 0 < n) (t ft : Fl K) (m : Metric) :
    calcScoreAt (List.replicate n ref).flatten (List.replicate n fcst).flatten t ft m = calcScoreAt ref fcst t ft m := by
  by_cases hm : m = .other
  · subst hm
    rw [calcScoreAt_tally (by simp [h]), calcScoreAt_tally h.le]
    rfl
  · rw [calcScoreAt_tally (by simp [h]), calcScoreAt_tally h.le, zip_copies h,
      calcScore_textbook (by positivity) (by positivity) (by positivity) (by positivity) hm,
      calcScore_textbook (by positivity) (by positivity) (by positivity) (by positivity) hm]
    unfold tally
    rw [countP_copies, countP_copies, countP_copies, countP_copies]
    push_cast
    rw [textbookScore_copies _ _ _ _ (by exact_mod_cast hn)]

/-! ### Forecasts and references exchanged -/

theorem textbookScore_exchange (a b c d : K) {m : Metric} (hm : m ≠ .kss) : textbookScore a c b d m = textbookScore a b c d m := by
  have e1 : chanceHits a c b d = chanceHits a b c d := by unfold chanceHits; rw [mul_comm, add_right_comm a c b]
  have e2 : chanceNegatives a c b d = chanceNegatives a b c d := by unfold chanceNegatives; rw [mul_comm, add_right_comm a c b]
  have e3 : (c = 0 ∧ b = 0 ∧ (a = 0 ∨ d = 0)) ↔ (b = 0 ∧ c = 0 ∧ (a = 0 ∨ d = 0)) := by tauto
  cases m with
  | ets => simp only [textbookScore, equitableThreat, e1, e3, add_right_comm a c b]
  | ts => simp only [textbookScore, threat, add_right_comm a c b]
  | pc => simp only [textbookScore, correct, add_right_comm a c b]
  | kss => exact absurd rfl hm
  | bias => simp only [textbookScore, abs_sub_comm c b, add_comm c b, eq_comm (a := c)]
  | hss => simp only [textbookScore, heidke, chanceCorrect, correct, e1, e2, e3, add_right_comm a c b]
  | other => rfl

/-- The outcome with forecast and reference exchanged. -/
def exchanged : Outcome → Outcome
  | .hit => .hit
  | .falseAlarm => .miss
  | .miss => .falseAlarm
  | .correctNegative => .correctNegative

theorem tally_exchange {ref fcst : List (Fl K)} (hr : ∀ r ∈ ref, r ≠ nan) (hf : ∀ f ∈ fcst, f ≠ nan) {t ft : Fl K} (ht : t ≠ nan)
    (hft : ft ≠ nan) (o : Outcome) : tally ft t o (ref.zip fcst) = tally t ft (exchanged o) (fcst.zip ref) := by
  unfold tally
  rw [← List.zip_swap fcst ref, List.countP_map]
  refine List.countP_congr fun p hp => ?_
  obtain ⟨f, r⟩ := p
  have h1 := hf f (List.of_mem_zip hp).1
  have h2 := hr r (List.of_mem_zip hp).2
  simp only [Function.comp, Prod.swap, decide_eq_true_eq]
  unfold outcome
  simp only [h1, h2, ht, hft, or_self, if_false]
  cases gt f ft <;> cases gt r t <;> cases o <;> simp [exchanged]

/-- **C182**, exchange: without missing values, every score but `Kss` is the same with references and forecasts exchanged. -/
theorem c182_exchange {ref fcst : List (Fl K)} (h : fcst.length = ref.length) (hr : ∀ r ∈ ref, r ≠ nan) (hf : ∀ f ∈ fcst, f ≠ nan)
    {t ft : Fl K} (ht : t ≠ nan) (hft : ft ≠ nan) {m : Metric} (hm : m ≠ .kss) : calcScoreAt fcst ref ft t m = calcScoreAt ref fcst t ft m := by
  by_cases ho : m = .other
  · subst ho
    rw [calcScoreAt_tally h.ge, calcScoreAt_tally h.le]
    rfl
  · rw [calcScoreAt_tally h.ge, calcScoreAt_tally h.le,
      calcScore_textbook (by positivity) (by positivity) (by positivity) (by positivity) ho,
      calcScore_textbook (by positivity) (by positivity) (by positivity) (by positivity) ho]
    simp only [tally_exchange hr hf ht hft, exchanged]
    rw [textbookScore_exchange _ _ _ _ hm]

/-- `Kss` is different with references and forecasts exchanged, and with missing values the other scores are too: a missing
reference is left out, a missing forecast is a forecast of no event. -/
theorem c182_exchange_not : calcScoreAt [fin (2 : ℚ), fin 0, fin 2, fin 2] [fin 0, fin 0, fin 2, fin 2] (fin 1) (fin 1) .kss = ok (fin (2 / 3)) ∧
    calcScoreAt [fin (0 : ℚ), fin 0, fin 2, fin 2] [fin 2, fin 0, fin 2, fin 2] (fin 1) (fin 1) .kss = ok (fin (1 / 2)) ∧
    calcScoreAt [fin (2 : ℚ), fin 2] [fin 2, nan] (fin 1) (fin 1) .ts = ok (fin (1 / 2)) ∧
    calcScoreAt [fin (2 : ℚ), nan] [fin 2, fin 2] (fin 1) (fin 1) .ts = ok (fin 1) := by decide +kernel

/-! ### Events and non-events exchanged -/

theorem textbookScore_events {a b c d : K} (ha : 0 ≤ a) (hb : 0 ≤ b) (hc : 0 ≤ c) (hd : 0 ≤ d) {m : Metric} (h2 : m ≠ .ts) : textbookScore d c b a m = textbookScore a b c d m := by
  have es : d + c + b + a = a + b + c + d := by ring
  have e1 : chanceHits d c b a = chanceNegatives a b c d := by
    unfold chanceHits chanceNegatives; rw [es, mul_comm]
  have e2 : chanceNegatives d c b a = chanceHits a b c d := by
    unfold chanceHits chanceNegatives; rw [es, mul_comm]
  have e3 : (c = 0 ∧ b = 0 ∧ (d = 0 ∨ a = 0)) ↔ (b = 0 ∧ c = 0 ∧ (a = 0 ∨ d = 0)) := by tauto
  cases m with
  | ets =>
    simp only [textbookScore, e3]
    by_cases hN : a + b + c + d = 0
    · obtain ⟨rfl, rfl, rfl, rfl⟩ : a = 0 ∧ b = 0 ∧ c = 0 ∧ d = 0 := ⟨by linarith, by linarith, by linarith, by linarith⟩
      rfl
    · have k1 : d - chanceHits d c b a = a - chanceHits a b c d := by
        unfold chanceHits
        rw [es, sub_eq_sub_iff_add_eq_add, div_eq_mul_inv, div_eq_mul_inv]
        have hi : (a + b + c + d) * (a + b + c + d)⁻¹ = 1 := mul_inv_cancel₀ hN
        linear_combination (a - d) * hi
      have k2 : d + c + b - chanceHits d c b a = a + b + c - chanceHits a b c d := by linear_combination k1
      rw [equitableThreat, equitableThreat, k1, k2]
  | ts => exact absurd rfl h2
  | pc => simp only [textbookScore, correct, es, add_comm d a]
  | kss =>
    simp only [textbookScore]
    by_cases h : a + c = 0 ∨ b + d = 0
    · rw [if_pos h, if_pos (by rw [add_comm d b, add_comm c a]; exact h.symm)]
    · rw [if_neg h, if_neg (by rw [add_comm d b, add_comm c a]; exact fun k => h k.symm)]
      rw [not_or] at h
      congr 1
      unfold hanssenKuipers hitRate falseAlarmRate
      have g1 := h.1
      have g2 := h.2
      have g3 : d + b ≠ 0 := by rwa [add_comm]
      have g4 : c + a ≠ 0 := by rwa [add_comm]
      field_simp
      ring
  | bias => simp only [textbookScore, abs_sub_comm c b, add_comm c b, eq_comm (a := c)]
  | hss => simp only [textbookScore, heidke, chanceCorrect, correct, e1, e2, e3, es, add_comm d a, add_comm (chanceNegatives a b c d)]
  | other => rfl

/-- The outcome with events and non-events exchanged. -/
def reversedOutcome : Outcome → Outcome
  | .hit => .correctNegative
  | .falseAlarm => .miss
  | .miss => .falseAlarm
  | .correctNegative => .hit

theorem gt_mirror {c : K} (hc : c < 0) (d : K) {x t : Fl K} (hx : x ≠ nan) (ht : t ≠ nan) (hne : x ≠ t) :
    gt (inUnits c d x) (inUnits c d t) = !gt x t := by
  unfold gt
  rw [inUnits_lt_neg hc]
  cases x <;> cases t <;> simp_all [lt]
  rename_i p q
  rw [← decide_not]
  congr 1
  rw [not_lt]
  exact propext ⟨le_of_lt, fun h => lt_of_le_of_ne h hne⟩

theorem inUnits_ne_missing {c : K} (hc : c ≠ 0) (d : K) {x : Fl K} (hx : x ≠ nan) : inUnits c d x ≠ nan := by
  unfold inUnits
  rcases scale_cases hc with ⟨h, h1, h2⟩ | ⟨h, h1, h2⟩
  all_goals
    cases x with
    | nan => exact absurd rfl hx
    | pinf => rw [h1]; intro k; cases k
    | ninf => rw [h2]; intro k; cases k
    | fin q => intro k; cases k

theorem tally_events {c1 c2 : K} (h1 : c1 < 0) (h2 : c2 < 0) (d1 d2 : K) {ref fcst : List (Fl K)} {t ft : Fl K}
    (hr : ∀ r ∈ ref, r ≠ nan ∧ r ≠ t) (hf : ∀ f ∈ fcst, f ≠ nan ∧ f ≠ ft) (ht : t ≠ nan) (hft : ft ≠ nan) (o : Outcome) :
    tally (inUnits c1 d1 t) (inUnits c2 d2 ft) o ((fcst.map (inUnits c2 d2)).zip (ref.map (inUnits c1 d1))) =
      tally t ft (reversedOutcome o) (fcst.zip ref) := by
  unfold tally
  rw [List.zip_map, List.countP_map]
  refine List.countP_congr fun p hp => ?_
  obtain ⟨f, r⟩ := p
  have g1 := hf f (List.of_mem_zip hp).1
  have g2 := hr r (List.of_mem_zip hp).2
  simp only [Function.comp, Prod.map, decide_eq_true_eq]
  unfold outcome
  simp only [gt_mirror h2 d2 g1.1 hft g1.2, gt_mirror h1 d1 g2.1 ht g2.2, g2.1, ht, inUnits_ne_missing h1.ne d1 g2.1, inUnits_ne_missing h1.ne d1 ht,
    or_self, if_false]
  cases gt f ft <;> cases gt r t <;> cases o <;> simp [reversedOutcome]

/-- **C182**, direction: in units that count in the opposite direction, where events become non-events, every score but `Ts`
is the same if no value is missing and none is on its threshold. -/
theorem c182_direction {c1 c2 : K} (h1 : c1 < 0) (h2 : c2 < 0) (d1 d2 : K) {ref fcst : List (Fl K)} (h : fcst.length = ref.length)
    {t ft : Fl K} (hr : ∀ r ∈ ref, r ≠ nan ∧ r ≠ t) (hf : ∀ f ∈ fcst, f ≠ nan ∧ f ≠ ft) (ht : t ≠ nan) (hft : ft ≠ nan)
    {m : Metric} (m2 : m ≠ .ts) :
    calcScoreAt (ref.map (inUnits c1 d1)) (fcst.map (inUnits c2 d2)) (inUnits c1 d1 t) (inUnits c2 d2 ft) m = calcScoreAt ref fcst t ft m := by
  by_cases ho : m = .other
  · subst ho
    rw [calcScoreAt_tally (by simp [h]), calcScoreAt_tally h.le]
    rfl
  · rw [calcScoreAt_tally (by simp [h]), calcScoreAt_tally h.le,
      calcScore_textbook (by positivity) (by positivity) (by positivity) (by positivity) ho,
      calcScore_textbook (by positivity) (by positivity) (by positivity) (by positivity) ho]
    simp only [tally_events h1 h2 d1 d2 hr hf ht hft, reversedOutcome]
    exact congrArg ok (textbookScore_events (by positivity) (by positivity) (by positivity) (by positivity) m2)

/-- `Ts` is different then, and so are the others with a reference on the threshold. -/
theorem c182_direction_not : calcScoreAt [fin (0 : ℚ), fin 2, fin 2] [fin 2, fin 2, fin 2] (fin 1) (fin 1) .ts = ok (fin (2 / 3)) ∧
    calcScoreAt [fin (0 : ℚ), fin (-2), fin (-2)] [fin (-2), fin (-2), fin (-2)] (fin (-1)) (fin (-1)) .ts = ok (fin 0) ∧
    calcScoreAt [fin (1 : ℚ), fin 2] [fin 0, fin 2] (fin 1) (fin 1) .pc = ok (fin 1) ∧
    calcScoreAt [fin (-1 : ℚ), fin (-2)] [fin 0, fin (-2)] (fin (-1)) (fin (-1)) .pc = ok (fin (1 / 2)) := by decide +kernel

/-! ### The optimizer -/

theorem nearBoundary (q : K) (e : Fl K) : lt (Fl.abs (-fin q - e)) (fin (1 / 1000)) = true ↔ ∃ e', e = fin e' ∧ |q + e'| < 1 / 1000 := by
  cases e with
  | nan =>
    rw [show lt (Fl.abs (-fin q - nan : Fl K)) (fin (1 / 1000)) = false from rfl]; simp
  | pinf =>
    rw [show lt (Fl.abs (-fin q - pinf : Fl K)) (fin (1 / 1000)) = false from rfl]; simp
  | ninf =>
    rw [show lt (Fl.abs (-fin q - ninf : Fl K)) (fin (1 / 1000)) = false from rfl]; simp
  | fin e =>
    rw [show (-fin q - fin e : Fl K) = fin (-(q + e)) by rw [fin_neg, fin_sub]; congr 1; ring, Fl.abs, lt_fin, decide_eq_true_eq, abs_neg]
    simp

/-- **C74**, the result in full: Brent's method returns a place in the range of the forecasts, and that place is the result
exactly if it is kept; otherwise the result is missing. -/
theorem c74_result {B : Brent K} (hB : B.Lawful) {ref fcst : List (Fl K)} (h : ref.length = fcst.length)
    (hf : ∀ f ∈ fcst, f ≠ pinf ∧ f ≠ ninf) {lo hi : K} (hr : ForecastRange fcst lo hi) (threshold : Fl K) {metric : Metric} (hm : metric ≠ .other) :
    ∃ (x : K) (s s0 s1 : Fl K), lo ≤ x ∧ x ≤ hi ∧ calcScoreAt ref fcst threshold (fin x) metric = ok s ∧
      calcScoreAt ref fcst threshold (fin lo) metric = ok s0 ∧ calcScoreAt ref fcst threshold (fin hi) metric = ok s1 ∧
      (KeptScore s s0 s1 → getOptimalThreshold B ref fcst threshold metric = ok (fin x)) ∧
      (¬ KeptScore s s0 s1 → getOptimalThreshold B ref fcst threshold metric = ok MV) := by
  have e1 : fcstRange ref fcst = ok (fin lo, fin hi) := by
    rw [fcstRange_eq h]
    rcases foldl_rangeStep fcst hf with ⟨lo', hi', hr', e⟩ | ⟨hn, -⟩
    · rw [e]
      have a1 := (hr.bounds _ hr'.lo_mem).1
      have a2 := (hr'.bounds _ hr.lo_mem).1
      have a3 := (hr.bounds _ hr'.hi_mem).2
      have a4 := (hr'.bounds _ hr.hi_mem).2
      rw [le_antisymm a1 a2, le_antisymm a4 a3]
    · exact absurd (hn _ hr.lo_mem) (by simp)
  obtain ⟨s0, g0, f0, -⟩ := scoreFunc_ok h threshold hm (fin lo)
  obtain ⟨s1, g1, f1, -⟩ := scoreFunc_ok h threshold hm (fin hi)
  obtain ⟨m, hl, hm9⟩ := optimizer_loop h threshold hm (fin lo) (fin hi) [1, 2, 3, 4, 5, 6, 7, 8, 9] (by simp) (0, -s0) (by simp)
  unfold getOptimalThreshold
  rw [e1, ok_bind]
  simp only [f0, f1, ok_bind, hl, optimizerBin_fin]
  generalize hlb : (if m.1 > 0 then m.1 - 1 else 0) = left
  generalize hrb : (if m.1 < 9 then m.1 + 1 else 9) = right
  have hlr : left ≤ right ∧ right ≤ 9 := by
    constructor <;> (subst hlb; subst hrb; split_ifs <;> omega)
  have hle := hr.le
  have hstep : 0 ≤ (hi - lo) / 9 := div_nonneg (by linarith) (by norm_num)
  have c1 : ((left : Nat) : K) ≤ (right : K) := by exact_mod_cast hlr.1
  have c2 : ((right : Nat) : K) ≤ 9 := by exact_mod_cast hlr.2
  have c3 : (0 : K) ≤ (left : K) := Nat.cast_nonneg _
  obtain ⟨x, hx, x1, x2⟩ := hB.inside (scoreValue ref fcst threshold metric) (lo + (hi - lo) / 9 * left) (lo + (hi - lo) / 9 * right)
    (by nlinarith)
  have hv := hB.value (scoreValue ref fcst threshold metric) (fin (lo + (hi - lo) / 9 * left)) (fin (lo + (hi - lo) / 9 * right))
  generalize hq : B.minima (scoreValue ref fcst threshold metric) (fin (lo + (hi - lo) / 9 * left)) (fin (lo + (hi - lo) / 9 * right)) = q at hx hv ⊢
  obtain ⟨s, hs, -, hsv⟩ := scoreFunc_ok h threshold hm (fin x)
  rw [hx, hsv] at hv
  rw [hv, hx, neg_neg_fl, neg_neg_fl, neg_neg_fl]
  refine ⟨x, s, s0, s1, ?_, ?_, hs, g0, g1, ?_, ?_⟩
  · nlinarith [mul_nonneg hstep c3]
  · have : (hi - lo) / 9 * right ≤ (hi - lo) / 9 * 9 := mul_le_mul_of_nonneg_left c2 hstep
    have e9 : (hi - lo) / 9 * 9 = hi - lo := by field_simp
    linarith
  · rintro ⟨p, rfl, hp, hk⟩
    have n0 : ¬ (lt (Fl.abs (-fin p - s0)) (fin (1 / 1000)) = true) := fun k => by
      obtain ⟨e, he, hl⟩ := (nearBoundary p s0).mp k
      exact absurd (hk e (Or.inl he)) (not_le.mpr hl)
    have n1 : ¬ (lt (Fl.abs (-fin p - s1)) (fin (1 / 1000)) = true) := fun k => by
      obtain ⟨e, he, hl⟩ := (nearBoundary p s1).mp k
      exact absurd (hk e (Or.inr he)) (not_le.mpr hl)
    rw [if_neg (by simp), if_neg (by simpa using hp), if_neg (by rw [Bool.or_eq_true, not_or]; exact ⟨n0, n1⟩)]
  · intro hk
    by_cases v1 : isValid s
    · obtain ⟨p, rfl⟩ := exists_fin_of_valid v1
      rw [if_neg (by simp)]
      by_cases v2 : p ≤ 1 / 10000
      · rw [if_pos (by simpa using v2)]
      · rw [if_neg (by simpa using v2)]
        rw [if_pos ?_]
        rw [Bool.or_eq_true]
        by_contra hn
        rw [not_or] at hn
        refine hk ⟨p, rfl, not_le.mp v2, fun e he => ?_⟩
        by_contra hl
        rw [not_le] at hl
        rcases he with he | he
        · exact hn.1 ((nearBoundary p s0).mpr ⟨e, he, hl⟩)
        · exact hn.2 ((nearBoundary p s1).mpr ⟨e, he, hl⟩)
    · rw [if_pos (by simpa using v1)]

theorem scoreFunc_units {c1 c2 : K} (h1 : 0 < c1) (h2 : 0 < c2) (d1 d2 : K) (ref fcst : List (Fl K)) (t : Fl K) (m : Metric) (x : Fl K) :
    scoreFunc (ref.map (inUnits c1 d1)) (fcst.map (inUnits c2 d2)) (inUnits c1 d1 t) m (inUnits c2 d2 x) = scoreFunc ref fcst t m x := by
  unfold scoreFunc
  rw [c182_units h1 h2]

theorem fcstRange_units (c1 : K) {c2 : K} (h2 : 0 < c2) (d1 d2 : K) (ref fcst : List (Fl K)) :
    fcstRange (ref.map (inUnits c1 d1)) (fcst.map (inUnits c2 d2)) =
      (fun r : Fl K × Fl K => (inUnits c2 d2 r.1, inUnits c2 d2 r.2)) <$> fcstRange ref fcst := by
  unfold fcstRange
  rw [List.length_map]
  refine foldM_sim2 (fun r : Fl K × Fl K => (inUnits c2 d2 r.1, inUnits c2 d2 r.2)) (fun m i => ?_) (MV, MV) _
  rw [vget_map, map_bind_eq, bind_map_eq]
  refine congrArg (vget fcst i >>= ·) (funext fun f => ?_)
  show ok _ = ok _
  simp only [inUnits_isValid h2.ne', inUnits_lt h2, inUnits_gt h2]
  congr 2 <;> split_ifs <;> rfl

theorem optimizerBin_units {c : K} (hc : 0 < c) (d : K) (lo hi : Fl K) (b : Nat) :
    optimizerBin (inUnits c d lo) (inUnits c d hi) b = inUnits c d (optimizerBin lo hi b) := by
  unfold optimizerBin
  split_ifs with h
  · rfl
  · rw [inUnits_sub hc.ne', inUnits_add hc.ne', scale_div_num hc.ne', scale_mul hc.ne']

/-- Brent's method in other units: it finds the same place for the same function. -/
def SameSearch (B : Brent K) (c d : K) : Prop :=
  ∀ (f g : Fl K → Fl K) (lo hi : Fl K), (∀ x, g (inUnits c d x) = f x) →
    B.minima g (inUnits c d lo) (inUnits c d hi) = (inUnits c d (B.minima f lo hi).1, (B.minima f lo hi).2)

/-- **C182**, one optimal threshold: it is found in the unit of the forecasts. -/
theorem c182_optimal {c1 c2 : K} (h1 : 0 < c1) (h2 : 0 < c2) (d1 d2 : K) {B : Brent K} (hB : SameSearch B c2 d2) (ref fcst : List (Fl K))
    (t : Fl K) (m : Metric) :
    getOptimalThreshold B (ref.map (inUnits c1 d1)) (fcst.map (inUnits c2 d2)) (inUnits c1 d1 t) m =
      inUnits c2 d2 <$> getOptimalThreshold B ref fcst t m := by
  have hs : ∀ x, scoreValue (ref.map (inUnits c1 d1)) (fcst.map (inUnits c2 d2)) (inUnits c1 d1 t) m (inUnits c2 d2 x) = scoreValue ref fcst t m x := by
    intro x
    unfold scoreValue
    rw [scoreFunc_units h1 h2]
  unfold getOptimalThreshold
  rw [fcstRange_units c1 h2, map_bind_eq, bind_map_eq]
  refine congrArg (fcstRange ref fcst >>= ·) (funext fun r => ?_)
  simp only [scoreFunc_units h1 h2]
  rw [bind_map_eq]
  refine congrArg (scoreFunc ref fcst t m r.1 >>= ·) (funext fun v0 => ?_)
  rw [bind_map_eq]
  have hstep : optimizerStep (ref.map (inUnits c1 d1)) (fcst.map (inUnits c2 d2)) (inUnits c1 d1 t) m (inUnits c2 d2 r.1) (inUnits c2 d2 r.2) =
      optimizerStep ref fcst t m r.1 r.2 := by
    funext a b
    unfold optimizerStep
    rw [optimizerBin_units h2, scoreFunc_units h1 h2]
  rw [hstep]
  refine congrArg (foldM _ _ _ >>= ·) (funext fun q => ?_)
  rw [optimizerBin_units h2, optimizerBin_units h2, hB _ _ _ _ hs]
  generalize B.minima (scoreValue ref fcst t m) _ _ = w
  rw [bind_map_eq]
  refine congrArg (scoreFunc ref fcst t m r.1 >>= ·) (funext fun f0 => ?_)
  rw [bind_map_eq]
  refine congrArg (scoreFunc ref fcst t m r.2 >>= ·) (funext fun f1 => ?_)
  show ok _ = ok _
  congr 1
  split_ifs <;> rfl

/-- **C182**, the curve of the optimizer: the forecasts on the curve are in their unit, the references in theirs. -/
theorem c182_curve {c1 c2 : K} (h1 : 0 < c1) (h2 : 0 < c2) (d1 d2 : K) {B : Brent K} (hB : SameSearch B c2 d2) (ref fcst ts : List (Fl K)) (m : Metric) :
    metricOptimizerCurve B (ref.map (inUnits c1 d1)) (fcst.map (inUnits c2 d2)) (ts.map (inUnits c1 d1)) m =
      (fun o : List (Fl K) × List (Fl K) => (o.1.map (inUnits c2 d2), o.2.map (inUnits c1 d1))) <$> metricOptimizerCurve B ref fcst ts m := by
  unfold metricOptimizerCurve
  rw [List.length_map, List.length_map]
  by_cases h : ref.length ≠ fcst.length
  · rw [if_pos h, if_pos h]; rfl
  · rw [if_neg h, if_neg h, foldM_map]
    refine foldM_sim2 (fun o : List (Fl K) × List (Fl K) => (o.1.map (inUnits c2 d2), o.2.map (inUnits c1 d1))) (fun o t => ?_) ([], []) _
    rw [c182_optimal h1 h2 d1 d2 hB, map_bind_eq, bind_map_eq]
    refine congrArg (getOptimalThreshold B ref fcst t m >>= ·) (funext fun v => ?_)
    show ok _ = ok _
    rw [inUnits_isValid h2.ne']
    congr 1
    split_ifs <;> simp

end

/-! ### Concrete cases -/

/-- A stand-in for Brent's method that finds the same place in all units. -/
theorem c182_case_search (c d : ℚ) : SameSearch (⟨fun f lo _ => (lo, f lo)⟩ : Brent ℚ) c d := fun f g lo hi h => by
  show (inUnits c d lo, g (inUnits c d lo)) = (inUnits c d lo, f lo)
  rw [h]

/-- References in degrees Fahrenheit and forecasts in kelvin give the score of both in degrees Celsius, the optimal threshold is in
kelvin; exchanging forecasts and references, reversing the direction and copying the data leave `Hss` as it is. -/
theorem c182_case : calcScoreAt [fin (0 : ℚ), fin 5, nan, fin 20, fin 30] [fin 12, fin 5, fin 10, fin 15, fin 5] (fin 10) (fin 8) .ts = ok (fin (1 / 3)) ∧
    calcScoreAt [fin (32 : ℚ), fin 41, nan, fin 68, fin 86] [fin 285, fin 278, fin 283, fin 288, fin 278] (fin 50) (fin 281) .ts = ok (fin (1 / 3)) ∧
    getOptimalThreshold (⟨fun f lo _ => (lo, f lo)⟩ : Brent ℚ) [fin 0, fin 5, fin 20, fin 30] [fin 4, fin 5, fin 15, fin 22] (fin 10) .hss = ok (fin 4) ∧
    getOptimalThreshold (⟨fun f lo _ => (lo, f lo)⟩ : Brent ℚ) [fin 0, fin 5, fin 20, fin 30] [fin 277, fin 278, fin 288, fin 295] (fin 10) .hss = ok (fin 277) ∧
    calcScoreAt [fin (0 : ℚ), fin 5, fin 20, fin 30] [fin 12, fin 5, fin 15, fin 5] (fin 10) (fin 8) .hss = ok (fin 0) ∧
    calcScoreAt [fin (0 : ℚ), fin 5, fin 20, fin 30, fin 40] [fin 12, fin 5, fin 15, fin 5, fin 11] (fin 10) (fin 8) .hss = ok (fin (1 / 6)) ∧
    calcScoreAt [fin (12 : ℚ), fin 5, fin 15, fin 5, fin 11] [fin 0, fin 5, fin 20, fin 30, fin 40] (fin 8) (fin 10) .hss = ok (fin (1 / 6)) ∧
    calcScoreAt [fin (0 : ℚ), fin (-5), fin (-20), fin (-30), fin (-40)] [fin (-12), fin (-5), fin (-15), fin (-5), fin (-11)] (fin (-10)) (fin (-8)) .hss =
      ok (fin (1 / 6)) ∧
    calcScoreAt [fin (0 : ℚ), fin 5, fin 20, fin 30, fin 40, fin 0, fin 5, fin 20, fin 30, fin 40]
      [fin 12, fin 5, fin 15, fin 5, fin 11, fin 12, fin 5, fin 15, fin 5, fin 11] (fin 10) (fin 8) .hss = ok (fin (1 / 6)) := by decide +kernel

/-- A score that is kept and two that are not: the sum with the score at the upper end is near 0, the score is too small. -/
theorem c74_case_kept : KeptScore (fin (1 / 2 : ℚ)) (fin 0) nan ∧ ¬ KeptScore (fin (1 / 2 : ℚ)) (fin 0) (fin (-1 / 2)) ∧
    ¬ KeptScore (fin (1 / 20000 : ℚ)) nan nan := by
  refine ⟨⟨1 / 2, rfl, by norm_num, ?_⟩, ?_, ?_⟩
  · rintro e (h | h)
    · cases h; norm_num
    · cases h
  · rintro ⟨q, hq, -, h⟩
    cases hq
    have := h _ (Or.inr rfl)
    norm_num at this
  · rintro ⟨q, hq, h, -⟩
    cases hq
    norm_num at h

end Gridpp.Props
