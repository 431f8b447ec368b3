import Verif.Props.Pressure
import Verif.Spec.SeaLevel

/-! # C80: sea level pressure -/

set_option linter.unusedSectionVars false

namespace Gridpp.Props
open Fl Res

section
variable {K : Type} [Field K] [LinearOrder K] [IsStrictOrderedRing K] [FloorRing K] [LawfulExp K]

/-- An optional argument is NaN if it is not given. -/
def opt : Option K → Fl K
  | some x => fin x
  | none => nan

/-- What must hold of the relative humidity and the dew point. -/
def HumidityOk (rh dew : Option K) : Prop := (∀ r ∈ rh, 0 ≤ r ∧ r ≤ 1) ∧ ∀ d ∈ dew, 3585 / 100 < d

theorem magnus_eq {c t : K} (h : 0 < c + t) : magnus (fin c) (fin t) = fin (Spec.saturation c t) := by
  unfold magnus Spec.saturation
  rw [fin_mul, fin_add, fin_div_of_ne _ h.ne', pow_pos_base (by norm_num), fin_mul]

theorem vapour_nonneg {t : K} {rh dew : Option K} (h : HumidityOk rh dew) : 0 ≤ Spec.vapour t rh dew := by
  have hs : ∀ c t : K, 0 ≤ Spec.saturation c t := fun c t => mul_nonneg (by norm_num) (realPow_pos _ _).le
  cases rh with
  | some r => exact mul_nonneg (h.1 r rfl).1 (hs _ _)
  | none =>
    cases dew with
    | some d => exact hs _ _
    | none => exact le_rfl

theorem slpHumidity_eq {t : K} (ht : 3585 / 100 < t) {rh dew : Option K} (h : HumidityOk rh dew) :
    (slpHumidity (fin t - fin (27315 / 100)) (opt rh) (opt dew)).1 = fin (Spec.vapour t rh dew) := by
  cases rh with
  | some r =>
    simp only [slpHumidity, opt, isValid_fin, if_true, fin_sub]
    rw [magnus_eq (by linarith), fin_mul]
    rfl
  | none =>
    cases dew with
    | some d =>
      have := h.2 d rfl
      simp only [slpHumidity, opt, isValid_fin, if_true, fin_sub, show (nan : Fl K).isValid = false from rfl, Bool.false_eq_true, if_false]
      rw [magnus_eq (by linarith)]
      rfl
    | none => simp [slpHumidity, opt, Spec.vapour]

theorem physical {p t : K} (hp : 0 ≤ p) (ht : 3585 / 100 < t) {rh dew : Option K} (h : HumidityOk rh dew) :
    ¬ (lt (fin p) (fin 0) || lt (fin t) (fin 0) || lt (opt rh) (fin 0) || gt (opt rh) (fin 1) || lt (opt dew) (fin 0)) = true := by
  have h1 : lt (opt rh) (fin 0) = false ∧ gt (opt rh) (fin 1) = false := by
    cases rh with
    | some r => have := h.1 r rfl; simp [opt, this.1, this.2]
    | none => exact ⟨rfl, rfl⟩
  have h2 : lt (opt dew) (fin 0) = false := by
    cases dew with
    | some d =>
      have := h.2 d rfl
      have h0 : (0 : K) ≤ d := le_trans (by norm_num) this.le
      simp [opt, h0]
    | none => rfl
  have h0 : (0 : K) ≤ t := le_trans (by norm_num) ht.le
  simp [h1.1, h1.2, h2, hp, h0]

/-- **C80**: at 50 m or higher the result is the hypsometric formula with the mean virtual temperature of the column. -/
theorem c80_high {p z t : K} (hp : 0 ≤ p) (hz : 50 ≤ z) (ht : 3585 / 100 < t) {rh dew : Option K} (h : HumidityOk rh dew) :
    seaLevelPressure (fin p) (fin z) (fin t) (opt rh) (opt dew) = ok (fin (Spec.slpHigh p z t (Spec.vapour t rh dew))) := by
  have he := vapour_nonneg (t := t) h
  unfold seaLevelPressure
  rw [if_neg (by simp), if_neg (by simp), if_neg (physical hp ht h)]
  simp only [slpHumidity_eq ht h]
  rw [if_pos (by simpa using hz)]
  simp only [fin_mul, fin_add, fin_sub]
  have hden : (27315 / 100 + (t - 27315 / 100) + 1 / 2 * (65 / 10000) * z + Spec.vapour t rh dew * (12 / 100) : K) ≠ 0 := by
    have : (0 : K) < 27315 / 100 + (t - 27315 / 100) + 1 / 2 * (65 / 10000) * z + Spec.vapour t rh dew * (12 / 100) := by nlinarith
    exact this.ne'
  rw [fin_div_of_ne _ (by norm_num), fin_div_of_ne _ hden]
  simp only [Fl.exp, fin_mul]
  congr 2
  unfold Spec.slpHigh
  have e : (980665 / 100000 * z / (28705 / 100)) / (27315 / 100 + (t - 27315 / 100) + 1 / 2 * (65 / 10000) * z + Spec.vapour t rh dew * (12 / 100)) =
      980665 / 100000 * z / (28705 / 100 * (t + 65 / 20000 * z + 12 / 100 * Spec.vapour t rh dew)) := by
    rw [div_div]
    congr 2
    ring
  rw [e]
  ring

/-- **C80**: from 50 m up the result is proportional to the pressure, not below it, and strictly increasing with the altitude. -/
theorem c80_high_monotone {p z z' t e : K} (hp : 0 < p) (hz : 50 ≤ z) (hzz : z < z') (ht : 0 < t) (he : 0 ≤ e) :
    Spec.slpHigh p z t e = p * Spec.slpHigh 1 z t e ∧ p < Spec.slpHigh p z t e ∧ Spec.slpHigh p z t e < Spec.slpHigh p z' t e := by
  have d1 : (0 : K) < 28705 / 100 * (t + 65 / 20000 * z + 12 / 100 * e) := by nlinarith
  have d2 : (0 : K) < 28705 / 100 * (t + 65 / 20000 * z' + 12 / 100 * e) := by nlinarith
  refine ⟨by unfold Spec.slpHigh; ring, ?_, ?_⟩
  · unfold Spec.slpHigh
    have hx : 0 < 980665 / 100000 * z / (28705 / 100 * (t + 65 / 20000 * z + 12 / 100 * e)) := div_pos (by linarith) d1
    have := LawfulExp.add_one_le_exp (980665 / 100000 * z / (28705 / 100 * (t + 65 / 20000 * z + 12 / 100 * e)))
    nlinarith
  · unfold Spec.slpHigh
    refine mul_lt_mul_of_pos_left (exp_strictMono ?_) hp
    rw [div_lt_div_iff₀ d1 d2]
    have : 0 < (z' - z) * (t + 12 / 100 * e) := mul_pos (by linarith) (by linarith)
    nlinarith

/-- Below 50 m, for a dew point `d` in degrees Celsius as computed by the code. -/
theorem slp_low {p z t : K} (hp : 0 < p) (hz : z < 50) (ht : 3585 / 100 < t) {rh dew : Option K} (h : HumidityOk rh dew) {d : K}
    (hd : (slpHumidity (fin t - fin (27315 / 100)) (opt rh) (opt dew)).2 = fin d) (hd0 : 0 < 2377 / 10 + d) :
    seaLevelPressure (fin p) (fin z) (fin t) (opt rh) (opt dew) = ok (fin (Spec.slpLow p z t (Spec.saturation (2377 / 10) d))) := by
  have ht0 : (0 : K) < t := lt_trans (by norm_num) ht
  unfold seaLevelPressure
  rw [if_neg (by simp), if_neg (by simp), if_neg (physical hp.le ht h)]
  simp only [hd, magnus_eq hd0]
  rw [if_neg (by simpa using hz), if_pos (by simpa using hz)]
  have hp' : p * (1 / 100) ≠ 0 := mul_ne_zero hp.ne' (by norm_num)
  rw [fin_mul, fin_div_of_ne _ hp', fin_mul, fin_sub, fin_mul, fin_sub, fin_add]
  have e1 : (27315 / 100 : K) + (t - 27315 / 100) = t := by ring
  rw [e1]
  generalize Spec.saturation (2377 / 10) d = w
  by_cases h0 : 1 - 379 / 1000 * (w / (p * (1 / 100))) = 0
  · have hw : p - 379 / 10 * w = 0 := by
      field_simp at h0
      linarith
    have e2 : (fin (p * (1 / 100) * z) : Fl K) / (fin (2927 / 100) * (fin t / fin (1 - 379 / 1000 * (w / (p * (1 / 100)))))) = fin 0 := by
      have e3 : (fin t : Fl K) / fin (1 - 379 / 1000 * (w / (p * (1 / 100)))) = pinf := by
        rw [fin_div, if_pos h0]
        exact if_pos ht0
      have h1 : (fin (2927 / 100) * pinf : Fl K) = pinf := if_pos (by norm_num)
      rw [e3, h1]
      rfl
    rw [e2, fin_add, fin_mul]
    unfold Spec.slpLow
    rw [hw]
    congr 2
    ring
  · rw [fin_div_of_ne _ h0, fin_mul, fin_div_of_ne _ (mul_ne_zero (by norm_num) (div_ne_zero ht0.ne' h0)), fin_add, fin_mul]
    congr 2
    unfold Spec.slpLow
    field_simp
    ring

/-- **C80**: below 50 m, without humidity (the dew point is then 3 degrees below the temperature). -/
theorem c80_low_dry {p z t : K} (hp : 0 < p) (hz : z < 50) (ht : 3845 / 100 < t) :
    seaLevelPressure (fin p) (fin z) (fin t) nan nan = ok (fin (Spec.slpLow p z t (Spec.saturation (2377 / 10) (t - 27615 / 100)))) := by
  refine slp_low (rh := none) (dew := none) hp hz (lt_trans (by norm_num) ht) ⟨fun _ h => by simp at h, fun _ h => by simp at h⟩ ?_ (by linarith)
  simp only [slpHumidity, opt, isValid, Bool.false_eq_true, if_false, fin_sub]
  congr 1
  ring

/-- **C80**: below 50 m, with a dew point. -/
theorem c80_low_dewpoint {p z t d : K} (hp : 0 < p) (hz : z < 50) (ht : 3585 / 100 < t) (hd : 3585 / 100 < d) :
    seaLevelPressure (fin p) (fin z) (fin t) nan (fin d) = ok (fin (Spec.slpLow p z t (Spec.saturation (2377 / 10) (d - 27315 / 100)))) := by
  refine slp_low (rh := none) (dew := some d) hp hz ht ⟨fun _ h => by simp at h, fun _ h => by cases h; exact hd⟩ ?_ (by linarith)
  simp [slpHumidity, opt]

/-- **C80**: below 50 m, with a relative humidity; the dew point comes from the formula of Lawrence. -/
theorem c80_low_humidity {p z t rh : K} (hp : 0 < p) (hz : z < 50) (ht : 3585 / 100 < t) (h0 : 0 < rh) (h1 : rh ≤ 1) {dew : Option K}
    (hdew : ∀ d ∈ dew, 3585 / 100 < d) {l d : K} (hl : l = HasExp.log (Spec.vapour t (some rh) dew / (61094 / 10000)))
    (hd : d = 24304 / 100 * l / (17625 / 1000 - l)) (hd0 : 0 < 2377 / 10 + d) :
    seaLevelPressure (fin p) (fin z) (fin t) (fin rh) (opt dew) = ok (fin (Spec.slpLow p z t (Spec.saturation (2377 / 10) d))) := by
  refine slp_low (rh := some rh) hp hz ht ⟨fun _ h => by cases h; exact ⟨h0.le, h1⟩, hdew⟩ ?_ hd0
  rw [hd, hl]
  exact slp_dewpoint ht h0 h1

/-- **C80**: the two formulas do not meet at 50 m: whatever the pressure and the humidity below, at 280 K a station at 50 m gets
more than the formula for lower stations gives there. -/
theorem c80_jump {p s : K} (hp : 0 < p) (hs : 0 ≤ s) : Spec.slpLow p 50 280 s < Spec.slpHigh p 50 280 0 := by
  have hq := LawfulExp.quadratic_le_exp (980665 / 100000 * 50 / (28705 / 100 * (280 + 65 / 20000 * 50 + 12 / 100 * 0)) : K) (by norm_num)
  unfold Spec.slpLow Spec.slpHigh
  have h1 : (50 * (p - 379 / 10 * s) / (2927 / 100 * 280) : K) ≤ p * (50 / (2927 / 100 * 280)) := by
    rw [div_le_iff₀ (by norm_num)]
    have : p * (50 / (2927 / 100 * 280)) * (2927 / 100 * 280) = p * 50 := by ring
    rw [this]
    linarith
  have h2 : (1 : K) + 50 / (2927 / 100 * 280) < HasExp.exp (980665 / 100000 * 50 / (28705 / 100 * (280 + 65 / 20000 * 50 + 12 / 100 * 0))) :=
    lt_of_lt_of_le (by norm_num) hq
  have := mul_lt_mul_of_pos_left h2 hp
  linarith

end

/-- Concrete cases over `ℝ`. -/
example : HumidityOk (some (1 / 2 : ℝ)) none ∧ HumidityOk (none : Option ℝ) (some 280) ∧ (3845 / 100 : ℝ) < 280 :=
  ⟨⟨fun _ h => by cases h; norm_num, fun _ h => by simp at h⟩, ⟨fun _ h => by simp at h, fun _ h => by cases h; norm_num⟩, by norm_num⟩

end Gridpp.Props
