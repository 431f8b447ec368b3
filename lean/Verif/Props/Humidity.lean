import Verif.Model.Physics
import Verif.Base.Inst

/-! # C59: humidity -/

set_option linter.unusedSectionVars false

namespace Gridpp.Props
open Fl Res

variable {K : Type} [Field K] [LinearOrder K] [IsStrictOrderedRing K] [FloorRing K]

/-- The position in the table. -/
def tablePosition (t : K) : K := max 0 (min 39 ((t - 17316 / 100) * (2 / 10)))

theorem tablePosition_bounds (t : K) : 0 ≤ tablePosition t ∧ tablePosition t ≤ 39 := by
  refine ⟨le_max_left _ _, max_le (by norm_num) (min_le_left _ _)⟩

theorem tablePosition_mono {t t' : K} (h : t ≤ t') : tablePosition t ≤ tablePosition t' := by
  unfold tablePosition
  refine max_le_max (le_refl _) (min_le_min (le_refl _) ?_)
  have : (0 : K) ≤ 2 / 10 := by norm_num
  nlinarith

theorem ewtPosition_fin (t : K) : ewtPosition (fin t) = fin (tablePosition t) := by
  simp only [ewtPosition, fin_sub, fin_mul, lt_fin, gt_fin, decide_eq_true_eq, tablePosition]
  split_ifs with h1 h2
  · rw [max_eq_left]
    exact le_trans (min_le_right _ _) h1.le
  · rw [min_eq_left h2.le, max_eq_right (by norm_num)]
  · rw [min_eq_right (not_lt.mp h2), max_eq_right (not_lt.mp h1)]

/-- An entry of the table in hPa. -/
def tableEntry (n : Nat) : K := ((ewtTable.getD n 0 : Nat) : K) / 1000000

/-- Linear interpolation between the entries next to a position. -/
def tableValue (c : K) : K :=
  tableEntry ⌊c⌋.toNat + (tableEntry (⌊c⌋.toNat + 1) - tableEntry ⌊c⌋.toNat) * (c - (⌊c⌋.toNat : K))

theorem table_increasing : ∀ n < 40, 0 < ewtTable.getD n 0 ∧ ewtTable.getD n 0 < ewtTable.getD (n + 1) 0 := by decide

theorem tableEntry_pos {n : Nat} (h : n < 40) : (0 : K) < tableEntry n := by
  unfold tableEntry
  have := (table_increasing n h).1
  have h2 : (0 : K) < ((ewtTable.getD n 0 : Nat) : K) := by exact_mod_cast this
  positivity

theorem tableEntry_lt {n : Nat} (h : n < 40) : (tableEntry n : K) < tableEntry (n + 1) := by
  unfold tableEntry
  have := (table_increasing n h).2
  have h2 : ((ewtTable.getD n 0 : Nat) : K) < ((ewtTable.getD (n + 1) 0 : Nat) : K) := by exact_mod_cast this
  exact div_lt_div_of_pos_right h2 (by norm_num)

theorem tableEntry_mono {n m : Nat} (h : n ≤ m) (hm : m ≤ 40) : (tableEntry n : K) ≤ tableEntry m := by
  induction m, h using Nat.le_induction with
  | base => exact le_refl _
  | succ m _ ih => exact le_trans (ih (by omega)) (tableEntry_lt (by omega)).le

theorem floor_position {c : K} (h0 : 0 ≤ c) (h1 : c ≤ 39) : ⌊c⌋.toNat ≤ 39 ∧ (⌊c⌋.toNat : Int) = ⌊c⌋ ∧ (⌊c⌋.toNat : K) ≤ c ∧ c < (⌊c⌋.toNat : K) + 1 := by
  have hf : 0 ≤ ⌊c⌋ := Int.floor_nonneg.mpr h0
  have e : (⌊c⌋.toNat : Int) = ⌊c⌋ := Int.toNat_of_nonneg hf
  have e' : (⌊c⌋.toNat : K) = ((⌊c⌋ : Int) : K) := by exact_mod_cast congrArg (Int.cast : Int → K) e
  have hl : ⌊c⌋ ≤ 39 := by
    have : ((⌊c⌋ : Int) : K) ≤ 39 := (Int.floor_le c).trans h1
    exact_mod_cast this
  refine ⟨by omega, e, ?_, ?_⟩
  · rw [e']; exact Int.floor_le c
  · rw [e']; exact Int.lt_floor_add_one c

theorem tableValue_between {c : K} (h0 : 0 ≤ c) (h1 : c ≤ 39) :
    tableEntry ⌊c⌋.toNat ≤ tableValue c ∧ tableValue c < tableEntry (⌊c⌋.toNat + 1) := by
  obtain ⟨hl, -, hc, hc'⟩ := floor_position h0 h1
  have hlt : (tableEntry ⌊c⌋.toNat : K) < tableEntry (⌊c⌋.toNat + 1) := tableEntry_lt (by omega)
  unfold tableValue
  constructor
  · nlinarith
  · nlinarith

theorem tableValue_pos {c : K} (h0 : 0 ≤ c) (h1 : c ≤ 39) : 0 < tableValue c :=
  lt_of_lt_of_le (tableEntry_pos (by have := (floor_position h0 h1).1; omega)) (tableValue_between h0 h1).1

theorem tableValue_mono {c c' : K} (h0 : 0 ≤ c) (h : c ≤ c') (h1 : c' ≤ 39) : tableValue c ≤ tableValue c' := by
  have hf := Int.toNat_le_toNat (Int.floor_mono h)
  rcases eq_or_lt_of_le hf with e | hlt
  · have hle : (tableEntry ⌊c⌋.toNat : K) < tableEntry (⌊c⌋.toNat + 1) := tableEntry_lt (by have := (floor_position h0 (h.trans h1)).1; omega)
    unfold tableValue
    rw [← e]
    nlinarith
  · refine le_trans (tableValue_between h0 (h.trans h1)).2.le (le_trans ?_ (tableValue_between (h0.trans h) h1).1)
    exact tableEntry_mono hlt (by have := (floor_position (h0.trans h) h1).1; omega)

theorem ewtGet_eq {n : Nat} (h : n ≤ 40) : ewtGet (n : Int) = ok (fin (tableEntry n : K)) := by
  have hl : n < ewtTable.length := by
    have : ewtTable.length = 41 := rfl
    omega
  unfold ewtGet
  rw [vget_eq_ok_of_lt hl, ok_bind]
  unfold tableEntry
  rw [List.getD_eq_getElem?_getD, List.getElem?_eq_getElem hl, Option.getD_some]

/-- **C59**, table lookups: the table is never left and no assertion fails, for every finite temperature. -/
theorem c59_table (t : K) : ewtAt (fin t) = ok (fin (tableValue (tablePosition t))) := by
  obtain ⟨h0, h1⟩ := tablePosition_bounds t
  obtain ⟨hl, e, -, -⟩ := floor_position h0 h1
  unfold ewtAt
  rw [ewtPosition_fin]
  simp only [truncInt, if_pos h0, ok_bind]
  rw [← e]
  have e2 : ((⌊tablePosition t⌋.toNat : Int) + 1) = ((⌊tablePosition t⌋.toNat + 1 : Nat) : Int) := by push_cast; rfl
  rw [decide_eq_true (by omega), decide_eq_true (by omega), assert_true, ok_bind, ok_bind, ewtGet_eq (by omega), ok_bind, e2,
    ewtGet_eq (by omega), ok_bind]
  unfold tableValue
  rw [fin_sub, fin_sub, fin_mul, fin_add, Int.cast_natCast]

theorem clampUnit_fin (r : K) : clampUnit (fin r) = fin (min 1 (max 0 r)) := by
  simp only [clampUnit, lt_fin, decide_eq_true_eq]
  by_cases h : r < 0
  · rw [if_pos h, if_neg (by simp), max_eq_left h.le, min_eq_right zero_le_one]
  · rw [if_neg h, max_eq_right (not_lt.mp h)]
    by_cases h2 : 1 < r
    · rw [if_pos (by simpa using h2), min_eq_left h2.le]
    · rw [if_neg (by simpa using h2), min_eq_right (not_lt.mp h2)]

theorem relativeHumidity_fin (t d : K) : relativeHumidity (fin t) (fin d) =
    ok (fin (if t ≤ d then 1 else min 1 (max 0 (tableValue (tablePosition d) / tableValue (tablePosition t))))) := by
  unfold relativeHumidity
  simp only [isValid_fin, Bool.and_self, if_true, le_fin, decide_eq_true_eq]
  split_ifs with h
  · rfl
  · have hp : (0 : K) < tableValue (tablePosition t) := tableValue_pos (tablePosition_bounds t).1 (tablePosition_bounds t).2
    rw [c59_table, ok_bind, c59_table, ok_bind, fin_div_of_ne _ hp.ne', clampUnit_fin]

/-- **C59**, relative humidity: defined for all finite temperatures and dew points, positive and at most 1, and exactly 1
for a dew point that is not below the temperature. -/
theorem c59_relative_humidity (t d : K) : ∃ v, relativeHumidity (fin t) (fin d) = ok (fin v) ∧ 0 < v ∧ v ≤ 1 ∧ (t ≤ d → v = 1) := by
  refine ⟨_, relativeHumidity_fin t d, ?_, ?_, fun h => if_pos h⟩
  · split_ifs
    · exact one_pos
    · have hp : (0 : K) < tableValue (tablePosition t) := tableValue_pos (tablePosition_bounds t).1 (tablePosition_bounds t).2
      have hd : (0 : K) < tableValue (tablePosition d) := tableValue_pos (tablePosition_bounds d).1 (tablePosition_bounds d).2
      exact lt_min one_pos (lt_of_lt_of_le (div_pos hd hp) (le_max_right _ _))
  · split_ifs
    · exact le_refl _
    · exact min_le_left _ _

/-- **C59**, the relative humidity does not decrease with the dew point. -/
theorem c59_humidity_increasing {t d d' : K} (h : d ≤ d') {v v' : K} (e : relativeHumidity (fin t) (fin d) = ok (fin v))
    (e' : relativeHumidity (fin t) (fin d') = ok (fin v')) : v ≤ v' := by
  rw [relativeHumidity_fin] at e e'
  cases e; cases e'
  by_cases h2 : t ≤ d'
  · rw [if_pos h2]
    split_ifs
    · exact le_refl _
    · exact min_le_left _ _
  · rw [if_neg h2, if_neg (fun h3 => h2 (h3.trans h))]
    have hp : (0 : K) < tableValue (tablePosition t) := tableValue_pos (tablePosition_bounds t).1 (tablePosition_bounds t).2
    refine min_le_min (le_refl _) (max_le_max (le_refl _) ?_)
    exact div_le_div_of_nonneg_right (tableValue_mono (tablePosition_bounds d).1 (tablePosition_mono h) (tablePosition_bounds d').2) hp.le

/-- **C59**, relative humidity of missing or infinite values is missing. -/
theorem c59_humidity_missing {t d : Fl K} (h : isValid t = false ∨ isValid d = false) : relativeHumidity t d = ok MV := by
  unfold relativeHumidity
  rcases h with h | h <;> simp [h]

section dew
variable [LawfulExp K]

/-- **C59**, dew point: finite and at most the temperature, for every temperature and every humidity. -/
theorem c59_dewpoint (t rh : K) : ∃ v, dewpoint (fin t) (fin rh) = fin v ∧ v ≤ t := by
  unfold dewpoint
  simp only [isValid_fin, Bool.and_self, if_true]
  generalize hx : dewpointC (vapourPressure (fin t - fin (27315 / 100)) (fin rh)) + fin (27315 / 100) = td
  cases td with
  | fin q =>
    simp only [le_fin, decide_eq_true_eq]
    split_ifs with h
    · exact ⟨q, rfl, h⟩
    · exact ⟨t, rfl, le_refl _⟩
  | nan => exact ⟨t, rfl, le_refl _⟩
  | pinf => exact ⟨t, rfl, le_refl _⟩
  | ninf =>
    -- the formula never gives minus infinity
    exfalso
    have hd : dewpointC (vapourPressure (fin t - fin (27315 / 100)) (fin rh)) = ninf := by
      revert hx
      generalize dewpointC (vapourPressure (fin t - fin (27315 / 100)) (fin rh)) = z
      cases z <;> intro hx <;> first | rfl | cases hx
    unfold dewpointC at hd
    generalize vapourPressure (fin t - fin (27315 / 100)) (fin rh) = e at hd
    cases hl : Fl.log e with
    | nan => rw [hl] at hd; simp at hd
    | pinf =>
      rw [hl] at hd
      have h1 : (fin (24304 / 100) * pinf : Fl K) = pinf := if_pos (by norm_num)
      rw [h1] at hd
      cases hd
    | ninf =>
      rw [hl] at hd
      have h1 : (fin (24304 / 100) * ninf : Fl K) = ninf := by
        show infOfSign (-(24304 / 100 : K)) = ninf
        unfold infOfSign
        rw [if_neg (by norm_num), if_pos (by norm_num)]
      rw [h1] at hd
      cases hd
    | fin q =>
      rw [hl, fin_mul, fin_add, fin_sub, fin_div] at hd
      split_ifs at hd with h0
      have hq : q = 1678 / 100 := by linarith
      rw [hq] at hd
      unfold infOfSign at hd
      rw [if_pos (by norm_num)] at hd
      cases hd

/-- **C59**, dew point of missing or infinite values is missing. -/
theorem c59_dewpoint_missing {t rh : Fl K} (h : isValid t = false ∨ isValid rh = false) : dewpoint t rh = MV := by
  unfold dewpoint
  rcases h with h | h <;> simp [h]

/-- Completely dry air is treated as saturated: the formula is undefined for it and the temperature is returned. -/
theorem c59_dry_air {t : K} (h : t - 27315 / 100 ≠ -(24304 / 100)) : dewpoint (fin t) (fin 0) = fin t := by
  have h2 : t - 27315 / 100 + 24304 / 100 ≠ 0 := fun e => h (by linarith)
  unfold dewpoint vapourPressure
  simp only [isValid_fin, Bool.and_self, if_true, fin_sub, fin_mul, fin_add, zero_mul]
  rw [fin_div_of_ne _ h2]
  simp only [Fl.exp, fin_mul, zero_mul]
  have hl : Fl.log (fin (0 : K)) = ninf := by simp [Fl.log]
  have hd : dewpointC (fin (0 : K)) = nan := by
    unfold dewpointC
    rw [hl]
    have h1 : (fin (24304 / 100) * ninf : Fl K) = ninf := by
      show infOfSign (-(24304 / 100 : K)) = ninf
      unfold infOfSign
      rw [if_neg (by norm_num), if_pos (by norm_num)]
    rw [h1]
    rfl
  rw [hd]
  simp

/-- **C59**, wet-bulb temperature of missing or infinite values is missing. -/
theorem c59_wetbulb_missing {t p rh : Fl K} (h : isValid t = false ∨ isValid p = false ∨ isValid rh = false) : wetbulb t p rh = MV := by
  unfold wetbulb
  simp only
  split_ifs with h1 h2 h3
  · rfl
  · rfl
  · exfalso
    have ht : isValid (t - fin (27315 / 100)) = isValid t := by cases t <;> rfl
    rw [ht] at h2
    rcases h with h | h | h <;> simp [h] at h2
  · rfl

theorem pow_two_fin {x : K} (hx : x ≠ 0) : Fl.pow (fin x) (fin 2) = fin (x * x) := by
  have key : ∀ y : K, 0 < y → (HasExp.exp (2 * HasExp.log y) : K) = y * y := by
    intro y hy
    rw [two_mul, LawfulExp.exp_add, LawfulExp.exp_log y hy]
  show finPow x 2 = _
  unfold finPow
  rw [if_neg two_ne_zero]
  rcases lt_or_gt_of_ne hx with h | h
  · rw [if_neg (not_lt.mpr h.le), if_neg hx]
    have hf : ⌊(2 : K)⌋ = 2 := by
      have : ((2 : Int) : K) = 2 := by norm_num
      rw [← this, Int.floor_intCast]
    rw [hf, if_pos (by norm_num), if_pos (by norm_num), key (-x) (by linarith)]
    congr 1
    ring
  · rw [if_pos h, key x h]

/-- **C59**, wet-bulb temperature: if the dew point is below the temperature, the wet-bulb temperature is strictly between
the two, for every positive pressure, positive humidity and temperature above 30.11 K. -/
theorem c59_wetbulb_between {t p rh d : K} (ht : 3011 / 100 < t) (hp : 0 < p) (hrh : 0 < rh) (hd : dewpoint (fin t) (fin rh) = fin d) (hdt : d < t) :
    ∃ w, wetbulb (fin t) (fin p) (fin rh) = fin w ∧ d < w ∧ w < t := by
  have hc : (0 : K) < t - 27315 / 100 + 24304 / 100 := by linarith
  -- the vapour pressure is finite and positive
  obtain ⟨e, he, hepos⟩ : ∃ e, vapourPressure (fin t - fin (27315 / 100)) (fin rh) = fin e ∧ 0 < e := by
    refine ⟨rh * (611 / 1000) * HasExp.exp (1763 / 100 * (t - 27315 / 100) / (t - 27315 / 100 + 24304 / 100)), ?_, ?_⟩
    · unfold vapourPressure
      rw [fin_sub, fin_mul, fin_mul, fin_add, fin_div_of_ne _ hc.ne']
      rfl
    · have := LawfulExp.exp_pos (1763 / 100 * (t - 27315 / 100) / (t - 27315 / 100 + 24304 / 100) : K)
      positivity
  -- the formula gives a finite dew point
  have hl : Fl.log (fin e) = fin (HasExp.log e) := by simp only [Fl.log, if_pos hepos]
  have htd : ∃ c, dewpointC (fin e) = fin c ∧ d = c + 27315 / 100 ∧ c + 24304 / 100 ≠ 0 := by
    unfold dewpoint at hd
    simp only [isValid_fin, Bool.and_self, if_true, he] at hd
    have hform : dewpointC (fin e) = (fin (1169 / 10 + 24304 / 100 * HasExp.log e) : Fl K) / fin (1678 / 100 - HasExp.log e) := by
      unfold dewpointC
      rw [hl, fin_mul, fin_add, fin_sub]
    by_cases hz : 1678 / 100 - (HasExp.log e : K) = 0
    · exfalso
      have hpi : dewpointC (fin e) = pinf := by
        rw [hform, fin_div, if_pos hz]
        unfold infOfSign
        rw [if_pos]
        have : (HasExp.log e : K) = 1678 / 100 := by linarith
        rw [this]; norm_num
      rw [hpi] at hd
      have h1 : (pinf + fin (27315 / 100) : Fl K) = pinf := rfl
      rw [h1] at hd
      have h2 : le (pinf : Fl K) (fin t) = false := rfl
      rw [h2] at hd
      simp only [Bool.false_eq_true, if_false] at hd
      cases hd
      exact lt_irrefl _ hdt
    · rw [fin_div_of_ne _ hz] at hform
      refine ⟨_, hform, ?_, ?_⟩
      · rw [hform, fin_add, le_fin] at hd
        split_ifs at hd with h3
        · cases hd; rfl
        · cases hd; exact absurd hdt (lt_irrefl _)
      · intro h0
        rw [div_add' _ _ _ hz, div_eq_zero_iff] at h0
        rcases h0 with h0 | h0
        · have : (1169 / 10 + 24304 / 100 * HasExp.log e + 24304 / 100 * (1678 / 100 - HasExp.log e) : K) = 1169 / 10 + 24304 / 100 * (1678 / 100) := by ring
          rw [this] at h0
          norm_num at h0
        · exact hz h0
  obtain ⟨c, hc', hdc, hc0⟩ := htd
  -- the weights
  have hsq : 0 < (c + 24304 / 100) * (c + 24304 / 100) := mul_self_pos.mpr hc0
  have hg : (0 : K) < 66 / 100000 * p / 1000 := by positivity
  have hdel : (0 : K) < 4098 * e / ((c + 24304 / 100) * (c + 24304 / 100)) := by positivity
  have hv : wetbulb (fin t) (fin p) (fin rh) =
      fin ((66 / 100000 * p / 1000 * (t - 27315 / 100) + 4098 * e / ((c + 24304 / 100) * (c + 24304 / 100)) * c) /
        (66 / 100000 * p / 1000 + 4098 * e / ((c + 24304 / 100) * (c + 24304 / 100))) + 27315 / 100) := by
    unfold wetbulb
    simp only [he, hc']
    rw [fin_add, pow_two_fin hc0, fin_mul, fin_mul, fin_div_of_ne _ hsq.ne', fin_div_of_ne _ (by norm_num : (1000 : K) ≠ 0), fin_sub]
    rw [if_neg (by
      simp only [le_fin, Bool.or_eq_true, decide_eq_true_eq, not_or, not_le]
      exact ⟨by linarith, hrh⟩)]
    simp only [isValid_fin, Bool.and_self, if_true, fin_add, feq_fin, decide_eq_true_eq, if_neg (add_pos hg hdel).ne', fin_mul]
    rw [fin_div_of_ne _ (add_pos hg hdel).ne', fin_add]
  refine ⟨_, hv, ?_, ?_⟩
  · generalize 66 / 100000 * p / 1000 = g at hg ⊢
    generalize 4098 * e / ((c + 24304 / 100) * (c + 24304 / 100)) = δ at hdel ⊢
    have : c < (g * (t - 27315 / 100) + δ * c) / (g + δ) := by
      rw [lt_div_iff₀ (add_pos hg hdel)]
      have : c < t - 27315 / 100 := by linarith
      nlinarith
    linarith
  · generalize 66 / 100000 * p / 1000 = g at hg ⊢
    generalize 4098 * e / ((c + 24304 / 100) * (c + 24304 / 100)) = δ at hdel ⊢
    have : (g * (t - 27315 / 100) + δ * c) / (g + δ) < t - 27315 / 100 := by
      rw [div_lt_iff₀ (add_pos hg hdel)]
      have : c < t - 27315 / 100 := by linarith
      nlinarith
    linarith

end dew

/-- Concrete case for `c59_wetbulb_between`: 0 degrees, humidity about 60 per cent. -/
example : dewpoint (fin (27315 / 100 : ℝ)) (fin (1000 / 611 * HasExp.exp (-1))) = fin ((1169 / 10 + 24304 / 100 * -1) / (1678 / 100 - -1) + 27315 / 100) ∧
    ((1169 / 10 + 24304 / 100 * -1) / (1678 / 100 - -1) + 27315 / 100 : ℝ) < 27315 / 100 := by
  refine ⟨?_, by norm_num⟩
  have hv : vapourPressure (fin (27315 / 100 : ℝ) - fin (27315 / 100)) (fin (1000 / 611 * HasExp.exp (-1))) = fin (HasExp.exp (-1)) := by
    unfold vapourPressure
    rw [fin_sub, sub_self, fin_mul, fin_mul, mul_zero, fin_add, fin_div_of_ne _ (by norm_num), zero_div]
    simp only [Fl.exp, LawfulExp.exp_zero, fin_mul]
    congr 1
    ring
  have hl : Fl.log (fin (HasExp.exp (-1) : ℝ)) = fin (-1) := by
    simp only [Fl.log, if_pos (LawfulExp.exp_pos (-1 : ℝ)), LawfulExp.log_exp]
  unfold dewpoint dewpointC
  simp only [isValid_fin, Bool.and_self, if_true, hv, hl]
  rw [fin_mul, fin_add, fin_sub, fin_div_of_ne _ (by norm_num), fin_add, if_pos (by rw [le_fin, decide_eq_true_eq]; norm_num)]

/-- Concrete case: 20 degrees with a dew point of 10 degrees. -/
example : ∃ v : ℚ, relativeHumidity (fin 293) (fin 283) = ok (fin v) ∧ 1 / 2 < v ∧ v < 11 / 20 := by
  refine ⟨_, relativeHumidity_fin _ _, ?_, ?_⟩ <;> decide +kernel

end Gridpp.Props
