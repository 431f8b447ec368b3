import Verif.Model.Physics
import Verif.Base.Inst
import Mathlib.Analysis.SpecialFunctions.Complex.Arg
import Mathlib.Analysis.Real.Pi.Bounds

/-! # C61: wind speed and direction -/

set_option linter.unusedSectionVars false

namespace Gridpp

/-- `atan2(y, x)` is the argument of x + iy. -/
noncomputable instance : HasAtan2 ℝ where
  atan2 y x := Complex.arg ⟨x, y⟩

namespace Props
open Fl Res

section
variable {K : Type} [Field K] [LinearOrder K] [IsStrictOrderedRing K] [LawfulSqrt K]

/-- **C61**, speed: not negative, and its square is the sum of the squares. -/
theorem c61_speed (x y : K) : ∃ s, windSpeed (fin x) (fin y) = fin s ∧ 0 ≤ s ∧ s * s = x * x + y * y := by
  have h : 0 ≤ x * x + y * y := add_nonneg (mul_self_nonneg x) (mul_self_nonneg y)
  refine ⟨HasSqrt.sqrt (x * x + y * y), ?_, LawfulSqrt.sqrt_nonneg _ h, LawfulSqrt.sqrt_mul_self _ h⟩
  unfold windSpeed
  rw [fin_mul, fin_mul, fin_add, sqrt_fin h]

/-- **C61**, missing components. -/
theorem c61_missing [HasAtan2 K] (v : Fl K) : windSpeed nan v = MV ∧ windSpeed v nan = MV ∧ windDirection nan v = MV ∧ windDirection v nan = MV := by
  unfold windSpeed windDirection windDirectionWith
  refine ⟨?_, ?_, ?_, ?_⟩ <;> cases v <;> rfl

end

theorem windDirection_fin {c : ℝ} (hc : 0 < c) (x y : ℝ) : windDirectionWith c (fin x) (fin y) =
    fin (if Complex.arg ⟨-y, -x⟩ < 0 then Complex.arg ⟨-y, -x⟩ * 180 / c + 360 else Complex.arg ⟨-y, -x⟩ * 180 / c) := by
  unfold windDirectionWith
  have e : Fl.atan2 (-fin x) (-fin y) = fin (Complex.arg ⟨-y, -x⟩) := rfl
  simp only [e]
  rw [fin_mul, fin_div_of_ne _ hc.ne', lt_fin]
  have : (Complex.arg ⟨-y, -x⟩ * 180 / c < 0) ↔ Complex.arg ⟨-y, -x⟩ < 0 := by
    rw [div_lt_iff₀ hc, zero_mul]
    constructor <;> intro h <;> linarith
  by_cases h : Complex.arg ⟨-y, -x⟩ < 0
  · rw [if_pos (decide_eq_true (this.mpr h)), if_pos h, fin_add]
  · rw [if_neg (by simpa using fun h' => h (this.mp h')), if_neg h]

theorem piConst_bounds : (3 : ℝ) < piConst ∧ (piConst : ℝ) < Real.pi := by
  constructor
  · norm_num [piConst]
  · have := Real.pi_gt_d20
    refine lt_of_lt_of_le ?_ this.le
    norm_num [piConst]

/-- **C61**, range: directions are in [0, 360). -/
theorem c61_range (x y : ℝ) : ∃ d, windDirection (fin x) (fin y) = fin d ∧ 0 ≤ d ∧ d < 360 := by
  obtain ⟨h3, hpi⟩ := piConst_bounds
  have hc : (0 : ℝ) < piConst := by linarith
  refine ⟨_, windDirection_fin hc x y, ?_⟩
  have h1 := Complex.neg_pi_lt_arg ⟨-y, -x⟩
  have h2 := Complex.arg_le_pi ⟨-y, -x⟩
  have hp := Real.pi_lt_d2
  generalize Complex.arg ⟨-y, -x⟩ = φ at *
  split_ifs with h
  · have : -360 < φ * 180 / piConst := by
      rw [lt_div_iff₀ hc]
      nlinarith
    have h' : φ * 180 / piConst < 0 := by
      rw [div_lt_iff₀ hc]; linarith
    constructor <;> linarith
  · refine ⟨div_nonneg (by linarith) hc.le, ?_⟩
    rw [div_lt_iff₀ hc]
    nlinarith

theorem components (x y : ℝ) {s : ℝ} (hs : windSpeed (fin x) (fin y) = fin s) :
    x = -(s * Real.sin (Complex.arg ⟨-y, -x⟩)) ∧ y = -(s * Real.cos (Complex.arg ⟨-y, -x⟩)) := by
  have hn : ‖(⟨-y, -x⟩ : ℂ)‖ = s := by
    obtain ⟨s', e, h0, h1⟩ := c61_speed x y
    rw [e] at hs
    cases hs
    have h2 : ‖(⟨-y, -x⟩ : ℂ)‖ * ‖(⟨-y, -x⟩ : ℂ)‖ = s * s := by
      rw [Complex.norm_mul_self_eq_normSq, h1]
      simp [Complex.normSq]
      ring
    exact (mul_self_inj (norm_nonneg _) h0).mp h2
  have h := Complex.norm_mul_cos_add_sin_mul_I ⟨-y, -x⟩
  rw [hn] at h
  have hre := congrArg Complex.re h
  have him := congrArg Complex.im h
  rw [← Complex.ofReal_cos, ← Complex.ofReal_sin] at hre him
  simp [-Complex.ofReal_cos, -Complex.ofReal_sin] at hre him
  constructor <;> linarith

/-- **C61**, polar representation with the constant `c` for pi: outside the band around south in which the excess of pi over
`c` makes directions ambiguous, the speed and the direction give the components. For `c` = pi there is no band. -/
theorem c61_polar_partial {c : ℝ} (hc : 0 < c) {x y s d : ℝ} (hs : windSpeed (fin x) (fin y) = fin s)
    (hd : windDirectionWith c (fin x) (fin y) = fin d) :
    (d ≤ 360 - 180 * Real.pi / c → x = -(s * Real.sin (d * c / 180)) ∧ y = -(s * Real.cos (d * c / 180))) ∧
    (180 * Real.pi / c < d → x = -(s * Real.sin ((d - 360) * c / 180)) ∧ y = -(s * Real.cos ((d - 360) * c / 180))) := by
  have hcomp := components x y hs
  rw [windDirection_fin hc] at hd
  have h1 := Complex.neg_pi_lt_arg ⟨-y, -x⟩
  have h2 := Complex.arg_le_pi ⟨-y, -x⟩
  generalize Complex.arg ⟨-y, -x⟩ = φ at *
  cases hd
  split_ifs with h
  · have e : (φ * 180 / c + 360 - 360) * c / 180 = φ := by field_simp; ring
    refine ⟨fun h' => ?_, fun _ => by rw [e]; exact hcomp⟩
    exfalso
    have : φ * 180 / c ≤ -(180 * Real.pi / c) := by linarith
    rw [div_le_iff₀ hc, neg_mul, div_mul_cancel₀ _ hc.ne'] at this
    linarith
  · have e : φ * 180 / c * c / 180 = φ := by field_simp
    refine ⟨fun _ => by rw [e]; exact hcomp, fun h' => ?_⟩
    exfalso
    rw [div_lt_div_iff_of_pos_right hc] at h'
    linarith

/-- **C61** with the exact value of pi: direction and speed determine both components. -/
theorem c61_determined_exact {x y x' y' : ℝ} (hs : windSpeed (fin x) (fin y) = windSpeed (fin x') (fin y'))
    (hd : windDirectionWith Real.pi (fin x) (fin y) = windDirectionWith Real.pi (fin x') (fin y')) : x = x' ∧ y = y' := by
  obtain ⟨s, e, -⟩ := c61_speed x y
  have e' := hs.symm.trans e
  have d := windDirection_fin Real.pi_pos x y
  have d' := hd.symm.trans d
  have p := c61_polar_partial Real.pi_pos e d
  have p' := c61_polar_partial Real.pi_pos e' d'
  have hpi : 180 * Real.pi / Real.pi = 180 := mul_div_cancel_right₀ _ Real.pi_pos.ne'
  rw [hpi] at p p'
  generalize (if Complex.arg ⟨-y, -x⟩ < 0 then Complex.arg ⟨-y, -x⟩ * 180 / Real.pi + 360 else Complex.arg ⟨-y, -x⟩ * 180 / Real.pi) = w at *
  by_cases hw : w ≤ 180
  · obtain ⟨a, b⟩ := p.1 (by linarith)
    obtain ⟨a', b'⟩ := p'.1 (by linarith)
    exact ⟨a.trans a'.symm, b.trans b'.symm⟩
  · obtain ⟨a, b⟩ := p.2 (by linarith)
    obtain ⟨a', b'⟩ := p'.2 (by linarith)
    exact ⟨a.trans a'.symm, b.trans b'.symm⟩

/-- **C61** is false with the constant of the code, which is smaller than pi: two different winds of speed 1 have the direction
180 degrees. -/
theorem c61_ambiguous : ∃ x y x' y' : ℝ, windSpeed (fin x) (fin y) = fin 1 ∧ windSpeed (fin x') (fin y') = fin 1 ∧
    windDirection (fin x) (fin y) = fin 180 ∧ windDirection (fin x') (fin y') = fin 180 ∧ x ≠ x' := by
  obtain ⟨h3, hpi⟩ := piConst_bounds
  have hc : (0 : ℝ) < piConst := by linarith
  have hsin : 0 < Real.sin piConst := Real.sin_pos_of_pos_of_lt_pi hc hpi
  have speed : ∀ x y : ℝ, x * x + y * y = 1 → windSpeed (fin x) (fin y) = fin 1 := by
    intro x y h
    obtain ⟨s, e, h0, h1⟩ := c61_speed x y
    rw [h] at h1
    have : s = 1 := by nlinarith
    rw [e, this]
  have harg : ∀ θ : ℝ, -Real.pi < θ → θ ≤ Real.pi → Complex.arg ⟨Real.cos θ, Real.sin θ⟩ = θ := by
    intro θ h1 h2
    have : (⟨Real.cos θ, Real.sin θ⟩ : ℂ) = Complex.cos θ + Complex.sin θ * Complex.I := by
      rw [← Complex.ofReal_cos, ← Complex.ofReal_sin]
      apply Complex.ext <;> simp [-Complex.ofReal_cos, -Complex.ofReal_sin]
    rw [this, Complex.arg_cos_add_sin_mul_I ⟨h1, h2⟩]
  have hsq := Real.sin_sq_add_cos_sq piConst
  refine ⟨-Real.sin piConst, -Real.cos piConst, Real.sin piConst, -Real.cos piConst, speed _ _ (by nlinarith), speed _ _ (by nlinarith), ?_, ?_,
    by intro h; linarith⟩
  · unfold windDirection
    rw [windDirection_fin hc, neg_neg, neg_neg, harg _ (by linarith) hpi.le, if_neg (by linarith)]
    congr 1
    field_simp
  · unfold windDirection
    have e : (⟨- -Real.cos piConst, -Real.sin piConst⟩ : ℂ) = ⟨Real.cos (-piConst), Real.sin (-piConst)⟩ := by
      rw [neg_neg, Real.cos_neg, Real.sin_neg]
    rw [windDirection_fin hc, e, harg _ (by linarith) (by linarith), if_pos (by linarith)]
    congr 1
    field_simp
    ring

/-- The four winds from the axes. -/
example : windDirectionWith Real.pi (fin 0) (fin (-1)) = fin 0 ∧ windDirectionWith Real.pi (fin 0) (fin 1) = fin 180 ∧
    windDirectionWith Real.pi (fin (-1)) (fin 0) = fin 90 ∧ windDirectionWith Real.pi (fin 1) (fin 0) = fin 270 := by
  have hp := Real.pi_pos
  refine ⟨?_, ?_, ?_, ?_⟩ <;> rw [windDirection_fin hp]
  · have : (⟨- -1, -0⟩ : ℂ) = 1 := by apply Complex.ext <;> simp
    rw [this, Complex.arg_one]; simp
  · have : (⟨-1, -0⟩ : ℂ) = -1 := by apply Complex.ext <;> simp
    rw [this, Complex.arg_neg_one, if_neg (by linarith)]
    congr 1; field_simp
  · have : (⟨-0, - -1⟩ : ℂ) = Complex.I := by apply Complex.ext <;> simp
    rw [this, Complex.arg_I, if_neg (by linarith)]
    congr 1; field_simp; norm_num
  · have : (⟨-0, -1⟩ : ℂ) = -Complex.I := by apply Complex.ext <;> simp
    rw [this, Complex.arg_neg_I, if_pos (by linarith)]
    congr 1; field_simp; norm_num

end Props
end Gridpp
