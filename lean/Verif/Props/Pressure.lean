import Verif.Model.Physics
import Verif.Base.Inst

/-! # C60: pressure -/

set_option linter.unusedSectionVars false

namespace Gridpp.Props
open Fl Res

variable {K : Type} [Field K] [LinearOrder K] [IsStrictOrderedRing K] [FloorRing K] [LawfulExp K]

/-- The exponent of the barometric formula. -/
def barometric (a b t : K) : K := -(980665 / 100000) * (289644 / 10000000) * (b - a) / (83144598 / 10000000 * t)

theorem pressure_fin (a b p : K) {t : K} (ht : t ≠ 0) : pressure (fin a) (fin b) (fin p) (fin t) = fin (p * HasExp.exp (barometric a b t)) := by
  have h : (83144598 / 10000000 * t : K) ≠ 0 := mul_ne_zero (by norm_num) ht
  unfold pressure
  simp only [isValid_fin, Bool.and_self, if_true, fin_neg, fin_mul, fin_sub]
  rw [fin_div_of_ne _ h]
  rfl

/-- **C60**, identity: no change of elevation, no change of pressure (for every temperature but 0 K). -/
theorem c60_identity (z p : K) {t : K} (ht : t ≠ 0) : pressure (fin z) (fin z) (fin p) (fin t) = fin p := by
  rw [pressure_fin _ _ _ ht]
  unfold barometric
  rw [sub_self, mul_zero, zero_div, LawfulExp.exp_zero, mul_one]

/-- **C60** is false at 0 K: 0/0 is not a number. -/
theorem c60_zero_temperature (z p : K) : pressure (fin z) (fin z) (fin p) (fin 0) = nan := by
  unfold pressure
  simp only [isValid_fin, Bool.and_self, if_true, fin_neg, fin_mul, fin_sub, sub_self, mul_zero]
  have : (fin (0 : K) / fin 0 : Fl K) = nan := by simp [fin_div, infOfSign]
  rw [this]
  rfl

/-- **C60**, composition: from a to b and on to c is from a to c. -/
theorem c60_composition (a b c p : K) {t : K} (ht : t ≠ 0) :
    pressure (fin b) (fin c) (pressure (fin a) (fin b) (fin p) (fin t)) (fin t) = pressure (fin a) (fin c) (fin p) (fin t) := by
  rw [pressure_fin _ _ _ ht, pressure_fin _ _ _ ht, pressure_fin _ _ _ ht, mul_assoc, ← LawfulExp.exp_add]
  congr 3
  unfold barometric
  have h : (83144598 / 10000000 * t : K) ≠ 0 := mul_ne_zero (by norm_num) ht
  rw [← add_div]
  congr 1
  ring

/-- **C60**, proportionality to the input pressure. -/
theorem c60_proportional (a b k p : K) {t : K} (ht : t ≠ 0) :
    pressure (fin a) (fin b) (fin (k * p)) (fin t) = fin k * pressure (fin a) (fin b) (fin p) (fin t) := by
  rw [pressure_fin _ _ _ ht, pressure_fin _ _ _ ht, fin_mul, mul_assoc]

/-- **C60**, monotonicity: strictly decreasing in the output elevation, positive, for positive pressure and temperature. -/
theorem c60_decreasing {a b b' p t v v' : K} (hp : 0 < p) (ht : 0 < t) (h : b < b') (e : pressure (fin a) (fin b) (fin p) (fin t) = fin v)
    (e' : pressure (fin a) (fin b') (fin p) (fin t) = fin v') : v' < v ∧ 0 < v' := by
  rw [pressure_fin _ _ _ ht.ne'] at e e'
  cases e; cases e'
  refine ⟨mul_lt_mul_of_pos_left (exp_strictMono ?_) hp, mul_pos hp (LawfulExp.exp_pos _)⟩
  unfold barometric
  have h3 : (0 : K) < 83144598 / 10000000 * t := by positivity
  refine div_lt_div_of_pos_right ?_ h3
  have : (0 : K) < 980665 / 100000 * (289644 / 10000000) := by norm_num
  nlinarith

/-- **C60**, missing values. -/
theorem c60_missing {a b p t : Fl K} (h : isValid a = false ∨ isValid b = false ∨ isValid p = false ∨ isValid t = false) :
    pressure a b p t = MV := by
  unfold pressure
  rcases h with h | h | h | h <;> simp [h]

/-- **C60**, QNH at altitude 0 is the pressure. -/
theorem c60_qnh {p : K} (hp : 0 ≤ p) : qnh (fin p) (fin 0) = fin p := by
  unfold qnh
  rcases eq_or_lt_of_le hp with h | h
  · rw [← h]; simp
  · have hc : (287053 / 1000 * (65 / 10000) : K) ≠ 0 := by norm_num
    have hg : (980665 / 100000 : K) ≠ 0 := by norm_num
    simp only [feq_fin, decide_eq_true_eq, if_neg h.ne', isValid_fin, Bool.and_self, if_true, fin_mul, zero_mul]
    rw [fin_div_of_ne p (by norm_num), fin_div_of_ne (287053 / 1000 * (65 / 10000)) hg, fin_div_of_ne 0 (by norm_num), fin_div_of_ne _ hc,
      pow_pos_base (div_pos h (by norm_num)), zero_div, fin_add, add_zero, pow_pos_base (realPow_pos _ _)]
    have e : (980665 / 100000 : K) / (287053 / 1000 * (65 / 10000)) = 1 / (287053 / 1000 * (65 / 10000) / (980665 / 100000)) := by norm_num
    rw [e, realPow_inv (div_pos h (by norm_num)) (by norm_num), fin_mul, mul_div_cancel₀ _ (by norm_num)]

/-- QNH of missing or infinite values is missing (a pressure of 0 comes first). -/
theorem c60_qnh_missing {p a : Fl K} (h : isValid p = false ∨ (isValid a = false ∧ p ≠ fin 0)) : qnh p a = MV := by
  unfold qnh
  rcases h with h | ⟨h, h2⟩
  · cases p with
    | fin q => simp at h
    | _ => simp [feq]
  · have : feq p (fin 0) = false := by
      cases p with
      | fin q =>
        have : q ≠ 0 := fun e => h2 (by rw [e])
        simp [this]
      | _ => rfl
    simp [this, h]

/-! ### Sea level pressure -/

theorem pow_ten (x : Fl K) (hx : x = ninf ∨ ∃ q, x = fin q) : ∃ w : K, Fl.pow (fin 10) x = fin w := by
  rcases hx with rfl | ⟨q, rfl⟩
  · refine ⟨0, ?_⟩
    have h1 : |(10 : K)| = 10 := abs_of_pos (by norm_num)
    show (if |(10 : K)| = 1 then fin 1 else if |(10 : K)| < 1 then pinf else fin 0) = fin 0
    rw [h1, if_neg (by norm_num), if_neg (by norm_num)]
  · exact ⟨_, pow_pos_base (by norm_num) q⟩

/-- The saturation formula is finite: where its denominator vanishes, the exponent is minus infinity. -/
theorem magnus_fin {c : K} (hc : 0 < c) (t : K) : ∃ w : K, magnus (fin c) (fin t) = fin w := by
  unfold magnus
  have : (fin (75 / 10) * fin t) / (fin c + fin t) = ninf ∨ ∃ q : K, (fin (75 / 10) * fin t) / (fin c + fin t) = fin q := by
    rw [fin_mul, fin_add]
    by_cases h : c + t = 0
    · left
      have ht : t < 0 := by linarith
      rw [fin_div, if_pos h]
      unfold infOfSign
      rw [if_neg (by nlinarith), if_pos (by nlinarith)]
    · right; exact ⟨_, fin_div_of_ne _ h⟩
  obtain ⟨w, hw⟩ := pow_ten _ this
  exact ⟨_, by rw [hw, fin_mul]⟩

/-- At altitude 0 the correction is 0 if the dew point is a number. -/
theorem slp_zero {p t : K} (hp : 0 < p) (ht : 0 < t) {rh dew : Fl K} (hphys : lt rh (fin 0) = false ∧ gt rh (fin 1) = false ∧ lt dew (fin 0) = false) {d : K}
    (hd : (slpHumidity (fin t - fin (27315 / 100)) rh dew).2 = fin d) : seaLevelPressure (fin p) (fin 0) (fin t) rh dew = ok (fin p) := by
  obtain ⟨w, hw⟩ := magnus_fin (c := (2377 / 10 : K)) (by norm_num) d
  unfold seaLevelPressure
  rw [if_neg (by simp), if_neg (by simp), if_neg (by
    simp only [hphys.1, hphys.2.1, hphys.2.2, lt_fin, Bool.or_false, Bool.or_eq_true, decide_eq_true_eq, not_or, not_lt]
    exact ⟨hp.le, ht.le⟩)]
  simp only [hd, hw]
  rw [if_neg (by simp), if_pos (by simp)]
  have hp' : p * (1 / 100) ≠ 0 := mul_ne_zero hp.ne' (by norm_num)
  rw [fin_mul, fin_div_of_ne _ hp', fin_mul, fin_sub, fin_mul, fin_sub, fin_add]
  have e1 : (27315 / 100 : K) + (t - 27315 / 100) = t := by ring
  rw [e1, mul_zero]
  have e2 : (fin (0 : K) : Fl K) / (fin (2927 / 100) * (fin t / fin (1 - 379 / 1000 * (w / (p * (1 / 100)))))) = fin 0 := by
    rw [fin_div]
    split_ifs with h
    · unfold infOfSign
      rw [if_pos ht]
      have h1 : (fin (2927 / 100) * pinf : Fl K) = pinf := if_pos (by norm_num)
      rw [h1]
      rfl
    · rw [fin_mul, fin_div_of_ne _ (mul_ne_zero (by norm_num) (div_ne_zero ht.ne' h)), zero_div]
  rw [e2, fin_add, fin_mul, add_zero]
  congr 2
  ring

/-- **C60**, sea level pressure at altitude 0 without a relative humidity is the pressure, for a positive pressure and
temperature and a dew point that is not negative, or missing. -/
theorem c60_slp_dewpoint {p t : K} (hp : 0 < p) (ht : 0 < t) {dew : Fl K} (hdew : lt dew (fin 0) = false) :
    seaLevelPressure (fin p) (fin 0) (fin t) nan dew = ok (fin p) := by
  cases dew with
  | fin q => exact slp_zero hp ht ⟨rfl, rfl, hdew⟩ (d := q - 27315 / 100) (by simp [slpHumidity])
  | nan => exact slp_zero hp ht ⟨rfl, rfl, rfl⟩ (d := t - 27315 / 100 - 3) (by simp [slpHumidity])
  | pinf => exact slp_zero hp ht ⟨rfl, rfl, rfl⟩ (d := t - 27315 / 100 - 3) (by simp [slpHumidity])
  | ninf => cases hdew

theorem log_ten_lt : (HasExp.log (10 : K) : K) < 233 / 100 := by
  have h1 := LawfulExp.quadratic_le_exp (233 / 800 : K) (by norm_num)
  have h2 : (HasExp.exp (233 / 100 : K) : K) = HasExp.exp (233 / 800) * HasExp.exp (233 / 800) * (HasExp.exp (233 / 800) * HasExp.exp (233 / 800)) *
      (HasExp.exp (233 / 800) * HasExp.exp (233 / 800) * (HasExp.exp (233 / 800) * HasExp.exp (233 / 800))) := by
    simp only [← LawfulExp.exp_add]
    congr 1
    norm_num
  have h3 : (10 : K) < HasExp.exp (233 / 100) := by
    rw [h2]
    generalize (HasExp.exp (233 / 800 : K) : K) = x at h1
    have hx : (1333 / 1000 : K) + 6 / 10000 ≤ x := le_trans (by norm_num) h1
    have hx1 : (17786 / 10000 : K) ≤ x * x := by nlinarith
    have hx2 : (31634 / 10000 : K) ≤ x * x * (x * x) := by nlinarith
    nlinarith
  have := log_strictMono (K := K) (by norm_num) h3
  rwa [LawfulExp.log_exp] at this

/-- The dew point (degrees Celsius) the code computes from a relative humidity in (0,1], for temperatures above 35.85 K. -/
theorem slp_dewpoint {t rh : K} (ht : 3585 / 100 < t) (h0 : 0 < rh) (h1 : rh ≤ 1) {dew : Fl K} :
    (slpHumidity (fin t - fin (27315 / 100)) (fin rh) dew).2 =
      fin (24304 / 100 * HasExp.log (rh * (611 / 100 * realPow 10 (75 / 10 * (t - 27315 / 100) / (2373 / 10 + (t - 27315 / 100)))) / (61094 / 10000)) /
        (17625 / 1000 - HasExp.log (rh * (611 / 100 * realPow 10 (75 / 10 * (t - 27315 / 100) / (2373 / 10 + (t - 27315 / 100)))) / (61094 / 10000)))) := by
  have hden : (0 : K) < 2373 / 10 + (t - 27315 / 100) := by linarith
  set ex : K := 75 / 10 * (t - 27315 / 100) / (2373 / 10 + (t - 27315 / 100)) with hex
  have hexlt : ex < 75 / 10 := by
    rw [hex, div_lt_iff₀ hden]
    linarith
  have hm : magnus (fin (2373 / 10)) (fin (t - 27315 / 100)) = fin (611 / 100 * realPow (10 : K) ex) := by
    unfold magnus
    rw [fin_mul, fin_add, fin_div_of_ne _ hden.ne', pow_pos_base (by norm_num), fin_mul]
  have hpw := realPow_pos (10 : K) ex
  set r : K := rh * (611 / 100 * realPow (10 : K) ex) / (61094 / 10000) with hr
  have hrpos : 0 < r := by rw [hr]; positivity
  have hrlt : r < HasExp.exp (17625 / 1000) := by
    have b1 : realPow (10 : K) ex ≤ HasExp.exp (17475 / 1000) := by
      unfold realPow
      refine exp_mono ?_
      have hl := log_ten_lt (K := K)
      have hl0 : (0 : K) < HasExp.log 10 := by
        have := log_strictMono (K := K) one_pos (by norm_num : (1 : K) < 10)
        rwa [log_one] at this
      nlinarith
    have b2 : (HasExp.exp (17625 / 1000) : K) = HasExp.exp (17475 / 1000) * HasExp.exp (15 / 100) := by
      rw [← LawfulExp.exp_add]; congr 1; norm_num
    have b3 := LawfulExp.add_one_le_exp (15 / 100 : K)
    have b4 := LawfulExp.exp_pos (17475 / 1000 : K)
    rw [hr, div_lt_iff₀ (by norm_num), b2]
    have b5 : rh * (611 / 100 * realPow (10 : K) ex) ≤ 611 / 100 * HasExp.exp (17475 / 1000) := by nlinarith
    nlinarith
  have hlog : (HasExp.log r : K) < 17625 / 1000 := by
    have := log_strictMono hrpos hrlt
    rwa [LawfulExp.log_exp] at this
  simp only [slpHumidity, isValid_fin, if_true, fin_sub, hm, fin_mul]
  rw [fin_div_of_ne _ (by norm_num), ← hr]
  have hl : Fl.log (fin r) = fin (HasExp.log r) := by simp only [Fl.log, if_pos hrpos]
  rw [hl, fin_mul, fin_sub, fin_div_of_ne _ (by linarith : (17625 / 1000 - HasExp.log r : K) ≠ 0)]

/-- **C60**, sea level pressure at altitude 0 with a relative humidity in (0,1], for temperatures above 35.85 K, where the
saturation formula is defined. -/
theorem c60_slp_humidity {p t rh : K} (hp : 0 < p) (ht : 3585 / 100 < t) (h0 : 0 < rh) (h1 : rh ≤ 1) {dew : Fl K} (hdew : lt dew (fin 0) = false) :
    seaLevelPressure (fin p) (fin 0) (fin t) (fin rh) dew = ok (fin p) := by
  exact slp_zero hp (by linarith) ⟨by simpa using h0.le, by simpa using h1, hdew⟩ (slp_dewpoint ht h0 h1)

/-- **C60** is false for completely dry air: the sea level pressure at altitude 0 is not a number. -/
theorem c60_slp_dry {p t : K} (hp : 0 < p) (ht : 0 < t) {dew : Fl K} (hdew : lt dew (fin 0) = false) :
    seaLevelPressure (fin p) (fin 0) (fin t) (fin 0) dew = ok nan := by
  obtain ⟨w, hw⟩ := magnus_fin (c := (2373 / 10 : K)) (by norm_num) (t - 27315 / 100)
  have hdw : (slpHumidity (fin t - fin (27315 / 100)) (fin 0) dew).2 = nan := by
    simp only [slpHumidity, isValid_fin, if_true, fin_sub, hw, fin_mul, zero_mul]
    rw [fin_div_of_ne _ (by norm_num), zero_div]
    have hl : Fl.log (fin (0 : K)) = ninf := by simp [Fl.log]
    rw [hl]
    have h1 : (fin (24304 / 100) * ninf : Fl K) = ninf := by
      show infOfSign (-(24304 / 100 : K)) = ninf
      unfold infOfSign
      rw [if_neg (by norm_num), if_pos (by norm_num)]
    rw [h1]
    rfl
  have hmg : magnus (fin (2377 / 10)) (nan : Fl K) = nan := by
    unfold magnus
    have : (fin (75 / 10) * nan : Fl K) / (fin (2377 / 10) + nan) = nan := by simp
    rw [this]
    have h2 : Fl.pow (fin (10 : K)) nan = nan := if_neg (by norm_num)
    rw [h2]
    simp
  unfold seaLevelPressure
  rw [if_neg (by simp), if_neg (by simp), if_neg (by simp [hdew, hp.le, ht.le])]
  simp only [hdw, hmg]
  rw [if_neg (by simp), if_pos (by simp)]
  simp

/-- Unusable arguments are reported. -/
theorem c60_slp_throws {p a t rh d : Fl K} (h : isValid a = false ∨ isValid t = false ∨ lt p (fin 0) = true ∨ lt t (fin 0) = true ∨ lt rh (fin 0) = true ∨
    gt rh (fin 1) = true ∨ lt d (fin 0) = true) : seaLevelPressure p a t rh d = .throw .runtimeError := by
  unfold seaLevelPressure
  split_ifs with h1 h2 h3
  · rfl
  · rfl
  · rfl
  · exfalso
    simp only [Bool.not_eq_true', Bool.not_eq_false, Bool.or_eq_true, not_or] at h1 h2 h3
    rcases h with h | h | h | h | h | h | h <;> simp_all

/-- Concrete case. -/
example : seaLevelPressure (fin (100000 : ℝ)) (fin 0) (fin 280) (fin (1 / 2)) nan = ok (fin 100000) :=
  c60_slp_humidity (by norm_num) (by norm_num) (by norm_num) (by norm_num) rfl

end Gridpp.Props
