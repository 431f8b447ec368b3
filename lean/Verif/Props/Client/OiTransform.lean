import Verif.Model.Client.OiAnalysis

/-! # C132: the Box-Cox transform of optimal interpolation in the client -/

set_option linter.unusedSectionVars false

namespace Gridpp.Props
open Fl hiding MV isValid
open Res Client

variable {K : Type} [Field K] [LinearOrder K] [IsStrictOrderedRing K] [FloorRing K] [LawfulExp K]

theorem pow_fin_nonneg {x y : K} (hx : 0 ≤ x) (hy : 0 < y) : Fl.pow (fin x) (fin y) = fin (if x = 0 then 0 else realPow x y) := by
  rcases hx.lt_or_eq with h | h
  · rw [pow_pos_base h, if_neg h.ne']
  · rw [← h, pow_zero_base hy.ne', if_pos hy, if_pos rfl]

omit [FloorRing K] [LawfulExp K] in
theorem clip_fin (v : K) : (if (fin v : Fl K).le 0 then 0 else fin v : Fl K) = fin (max v 0) := by
  show (if (fin v : Fl K).le (fin 0) then fin 0 else fin v : Fl K) = _
  rw [Fl.le_fin]
  rcases le_total v 0 with h | h
  · rw [if_pos (by simpa using h), max_eq_right h]
  · rcases h.lt_or_eq with h | h
    · rw [if_neg (by simpa using h), max_eq_left h.le]
    · rw [← h]; simp

/-- A positive exponent: the transform of a number. -/
theorem oiTransform_fin {o : OiOptions K} (hb : o.boxcox = true) {l : K} (hl : o.lambda = fin l) (h : 0 < l) (v : K) :
    oiTransform o (fin v) = fin (((if v ≤ 0 then 0 else realPow v l) - 1) / l) := by
  unfold oiTransform
  rw [hb, hl]
  simp only [Bool.not_true, Bool.false_eq_true, if_false]
  rw [clip_fin, show ((fin l : Fl K).feq 0) = false by show (fin l : Fl K).feq (fin 0) = false; simp [Fl.feq, h.ne'],
    pow_fin_nonneg (le_max_right _ _) h]
  have e : (if max v 0 = 0 then 0 else realPow (max v 0) l) = if v ≤ 0 then 0 else realPow v l := by
    rcases le_or_gt v 0 with hv | hv
    · rw [max_eq_right hv, if_pos rfl, if_pos hv]
    · rw [max_eq_left hv.le, if_neg hv.ne', if_neg (not_le.mpr hv)]
  rw [e]
  show (fin _ - fin 1 : Fl K) / fin l = _
  rw [Fl.fin_sub, fin_div_of_ne _ h.ne']

theorem oiInvTransform_fin {o : OiOptions K} (hb : o.boxcox = true) {l : K} (hl : o.lambda = fin l) (h : 0 < l) (t : K) :
    oiInvTransform o (fin t) = fin (if t ≤ -1 / l then 0 else realPow (1 + l * t) (1 / l)) := by
  unfold oiInvTransform
  rw [hb, hl]
  simp only [Bool.not_true, Bool.false_eq_true, if_false]
  rw [show ((fin l : Fl K).feq 0) = false by show (fin l : Fl K).feq (fin 0) = false; simp [Fl.feq, h.ne']]
  simp only [Bool.false_eq_true, if_false]
  rw [fin_div_of_ne _ h.ne']
  have e1 : (if (fin t : Fl K).lt (fin (-1 / l)) = true then fin (-1 / l) else fin t : Fl K) = fin (max t (-1 / l)) := by
    rw [Fl.lt_fin]
    rcases lt_or_ge t (-1 / l) with ht | ht
    · rw [if_pos (by simpa using ht), max_eq_right ht.le]
    · rw [if_neg (by simpa using ht), max_eq_left ht]
  rw [e1]
  rw [show ((1 : Fl K) + fin l * fin (max t (-1 / l))) = fin (1 + l * max t (-1 / l)) from by
    rw [Fl.fin_mul]; exact Fl.fin_add _ _,
    show ((1 : Fl K) / fin l) = fin (1 / l) from fin_div_of_ne _ h.ne']
  have e2 : l * (-1 / l) = -1 := by field_simp
  have hn : 0 ≤ 1 + l * max t (-1 / l) := by
    have := mul_le_mul_of_nonneg_left (le_max_right t (-1 / l)) h.le
    rw [e2] at this; linarith
  rw [pow_fin_nonneg hn (by positivity), clip_fin]
  congr 1
  rcases le_or_gt t (-1 / l) with ht | ht
  · rw [max_eq_right ht, e2, if_pos (by ring), max_self, if_pos ht]
  · rw [max_eq_left ht.le, if_neg (not_le.mpr ht)]
    have : 0 < 1 + l * t := by
      have := mul_lt_mul_of_pos_left ht h
      rw [e2] at this; linarith
    rw [if_neg this.ne', max_eq_left (realPow_pos _ _).le]

/-- C132: with a positive exponent `l`, the transform of a number is a number not below `-1 / l`, greater for a greater amount, and the
same for all amounts that are not positive; the inverse transform gives back the amount, 0 for a negative one. From the other side, it is
the inverse on all numbers from `-1 / l` on, and the numbers below count as `-1 / l`. -/
theorem c132_transform {o : OiOptions K} (hb : o.boxcox = true) {l : K} (hl : o.lambda = fin l) (h : 0 < l) : ∃ f g : K → K,
    (∀ v, oiTransform o (fin v) = fin (f v)) ∧ (∀ t, oiInvTransform o (fin t) = fin (g t)) ∧
    (∀ v v', v < v' → 0 < v' → f v < f v') ∧ (∀ v ≤ 0, f v = -1 / l) ∧ (∀ v, g (f v) = max v 0) ∧
    (∀ t, f (g t) = max t (-1 / l)) := by
  have f0 : ∀ v ≤ (0 : K), ((if v ≤ 0 then 0 else realPow v l) - 1) / l = -1 / l := fun v hv => by rw [if_pos hv]; ring_nf
  have fp : ∀ v, (0 : K) < v → -1 / l < ((if v ≤ 0 then 0 else realPow v l) - 1) / l := fun v hv => by
    rw [if_neg (not_le.mpr hv)]
    exact div_lt_div_of_pos_right (by linarith [realPow_pos v l]) h
  refine ⟨_, _, oiTransform_fin hb hl h, oiInvTransform_fin hb hl h, fun v v' hv hv' => ?_, f0, fun v => ?_, fun t => ?_⟩
  · rcases le_or_gt v 0 with h0 | h0
    · simp only [f0 v h0]; exact fp v' hv'
    · simp only [if_neg (not_le.mpr h0), if_neg (not_le.mpr hv')]
      exact div_lt_div_of_pos_right (by linarith [realPow_lt h0 hv h]) h
  · rcases le_or_gt v 0 with h0 | h0
    · simp only [f0 v h0, le_refl, if_true, max_eq_right h0]
    · rw [if_neg (not_le.mpr (fp v h0)), if_neg (not_le.mpr h0)]
      rw [show 1 + l * ((realPow v l - 1) / l) = realPow v l by field_simp; ring, realPow_inv h0 h.ne', max_eq_left h0.le]
  · rcases le_or_gt t (-1 / l) with h0 | h0
    · simp only [if_pos h0, le_refl, if_true, max_eq_right h0]; ring
    · have e2 : l * (-1 / l) = -1 := by field_simp
      have hp : 0 < 1 + l * t := by
        have := mul_lt_mul_of_pos_left h0 h
        rw [e2] at this; linarith
      have e3 := realPow_inv hp (show 1 / l ≠ 0 by positivity)
      rw [one_div_one_div] at e3
      simp only [if_neg (not_le.mpr h0), if_neg (not_le.mpr (realPow_pos (1 + l * t) (1 / l)))]
      rw [e3, max_eq_left h0.le]
      field_simp
      ring

omit [LawfulExp K] in
/-- C132: without the option `transform=boxcox` no value is changed. -/
theorem c132_none [HasExp K] {o : OiOptions K} (hb : o.boxcox = false) (v : Fl K) : oiTransform o v = v ∧ oiInvTransform o v = v := by
  simp [oiTransform, oiInvTransform, hb]

/-- C132: with the exponent 0 the transform is the logarithm, and its inverse gives back positive amounts. -/
theorem c132_log_partial {o : OiOptions K} (hb : o.boxcox = true) (hl : o.lambda = fin 0) {v : K} (hv : 0 < v) :
    oiTransform o (fin v) = fin (HasExp.log v) ∧ oiInvTransform o (oiTransform o (fin v)) = fin v := by
  have e : ((fin 0 : Fl K).feq 0) = true := by show (fin 0 : Fl K).feq (fin 0) = true; simp [Fl.feq]
  have h1 : oiTransform o (fin v) = fin (HasExp.log v) := by
    unfold oiTransform
    rw [hb, hl, e]
    simp only [Bool.not_true, Bool.false_eq_true, if_false, if_true]
    rw [clip_fin, max_eq_left hv.le]
    show (if (0 : K) < v then fin (HasExp.log v) else _ : Fl K) = _
    rw [if_pos hv]
  refine ⟨h1, ?_⟩
  rw [h1]
  unfold oiInvTransform
  rw [hb, hl, e]
  simp only [Bool.not_true, Bool.false_eq_true, if_false, if_true]
  show (if (fin (HasExp.exp (HasExp.log v)) : Fl K).le 0 then 0 else fin (HasExp.exp (HasExp.log v)) : Fl K) = _
  rw [LawfulExp.exp_log v hv, clip_fin, max_eq_left hv.le]

omit [LawfulExp K] in
/-- C132: it is false that the exponent 0 can be used for amounts that may be 0: the transformed value is not valid, and a member with
such a value at one grid point is left out everywhere. -/
theorem c132_log_zero_false [HasExp K] {o : OiOptions K} (hb : o.boxcox = true) (hl : o.lambda = fin 0) (nY nX nE : Nat)
    (f : Nat → Nat → Nat → Fl K) {y x e : Nat} (hy : y < nY) (hx : x < nX) {v : K} (hf : f y x e = fin v) (hv : v ≤ 0) :
    e ∉ oiValidEns nY nX nE (oiBackground o f) := by
  unfold oiValidEns
  rw [List.mem_filter]
  rintro ⟨-, h⟩
  have h2 := List.all_eq_true.mp (List.all_eq_true.mp h x (List.mem_range.mpr hx)) y (List.mem_range.mpr hy)
  unfold oiBackground at h2
  rw [hf] at h2
  have e : ((fin 0 : Fl K).feq 0) = true := by show (fin 0 : Fl K).feq (fin 0) = true; simp [Fl.feq]
  have h1 : oiTransform o (fin v) = ninf := by
    unfold oiTransform
    rw [hb, hl, e]
    simp only [Bool.not_true, Bool.false_eq_true, if_false, if_true]
    rw [clip_fin, max_eq_right hv]
    simp [Fl.log]
  rw [h1] at h2
  split_ifs at h2 with h3
  · simp [Client.isValid] at h2
  · exact h3 h2

/-- C132: it is false that a missing observation is not used: it is transformed before it is checked, and becomes the valid
observation of no precipitation. -/
theorem c132_missing_false {o : OiOptions K} (hb : o.boxcox = true) {l : K} (hl : o.lambda = fin l) (h : 0 < l) (h' : l * 999 ≠ 1)
    (near : Fl K → Fl K → Res (Nat × Nat)) (grid : Nat → Nat → OiPlace K) (lat lon elev : Fl K) (y x : Nat) (hn : near lat lon = ok (y, x)) :
    ∃ s, oiStation o near grid lat lon elev [Client.MV] = ok s ∧ oiStation o near grid lat lon elev [fin 0] = ok s ∧
      Client.isValid s.obs = true := by
  have e1 : oiTransform o Client.MV = fin ((0 - 1) / l) := by
    rw [show (Client.MV : Fl K) = fin (-999) from rfl, oiTransform_fin hb hl h, if_pos (by norm_num)]
  have e0 : oiTransform o (fin 0) = fin ((0 - 1) / l) := by rw [oiTransform_fin hb hl h, if_pos le_rfl]
  refine ⟨⟨lat, lon, elev, fin ((0 - 1) / l), 1, 0, y, x, (grid y x).laf⟩, ?_, ?_, ?_⟩
  · simp [oiStation, hn, e1, assert, vget]
  · simp [oiStation, hn, e0, assert, vget]
  · have : (0 - 1) / l ≠ -999 := fun hh => h' (by field_simp at hh; linarith)
    simp only [Client.isValid]
    simpa using this

/-- C132: it is false that the value after the analysis is the expected value of the amount: with the exponent 1/2 the inverse
transform is a polynomial of degree two; for a distribution with the variance `s` (here two equally likely values at the distance `h`
from `t`) the mean is `g t + s / 4`, and the program gives `g t + s / 2`, as the factor `1 - l` is inside the power. -/
theorem c132_variance_false {o : OiOptions K} (hb : o.boxcox = true) (hl : o.lambda = fin (1 / 2)) {thr t h s : K}
    (hthr : o.boxCoxThreshold = fin thr) (ht : oiTransform o (fin thr) = fin t) (hs : s = h * h) (hh : 0 < h) (h2 : -2 < t - h) (h3 : t ≠ -999) :
    ∃ a b c : K, oiInvTransform o (fin t) = fin c ∧ oiInvTransform o (fin (t - h)) = fin a ∧ oiInvTransform o (fin (t + h)) = fin b ∧
      (a + b) / 2 = c + s / 4 ∧ oiBack o (fin t) (fin s) = fin (c + s / 2) ∧ c + s / 2 ≠ (a + b) / 2 := by
  have sq : ∀ x : K, 0 < x → realPow x 2 = x * x := fun x hx => by
    unfold realPow
    rw [show (2 : K) * HasExp.log x = HasExp.log x + HasExp.log x by ring, LawfulExp.exp_add, LawfulExp.exp_log x hx]
  have inv : ∀ u : K, -2 < u → oiInvTransform o (fin u) = fin ((1 + 1 / 2 * u) * (1 + 1 / 2 * u)) := fun u hu => by
    rw [oiInvTransform_fin hb hl (by norm_num), if_neg (by norm_num; exact hu), show (1 : K) / (1 / 2) = 2 by norm_num, sq _ (by linarith)]
  have hs0 : s ≠ 0 := by rw [hs]; exact (mul_pos hh hh).ne'
  refine ⟨_, _, _, inv t (by linarith), inv (t - h) h2, inv (t + h) (by linarith), by rw [hs]; ring, ?_, ?_⟩
  · unfold oiBack
    have v : Client.isValid (fin t) = true := by simp [Client.isValid, h3]
    rw [v, hthr, ht, hl, show ((fin s : Fl K).feq 0) = false by show (fin s : Fl K).feq (fin 0) = false; simp [Fl.feq, hs0],
      Fl.lt_fin]
    simp only [if_true, lt_irrefl, decide_false, Bool.or_false, Bool.false_eq_true, if_false]
    rw [show ((fin (1 / 2) : Fl K) * fin t + 1) = fin (1 / 2 * t + 1) from by rw [Fl.fin_mul]; exact Fl.fin_add _ _,
      show ((1 : Fl K) / fin (1 / 2)) = fin 2 from (fin_div_of_ne 1 (by norm_num)).trans (by norm_num),
      show ((1 : Fl K) - fin (1 / 2)) = fin (1 / 2) from (Fl.fin_sub 1 _).trans (by norm_num),
      Fl.fin_sub, Fl.fin_mul (1 / 2) (1 / 2 * t + 1), pow_pos_base (by linarith), pow_pos_base (by linarith), sq _ (by linarith), sub_self]
    rw [show realPow (1 / 2 * (1 / 2 * t + 1)) (0 : K) = 1 by unfold realPow; rw [zero_mul, LawfulExp.exp_zero],
      Fl.fin_mul, Fl.fin_mul, Fl.fin_add]
    congr 1; ring
  · intro hc
    apply hs0
    rw [hs] at hc ⊢
    ring_nf at hc
    ring_nf
    linarith

/-- C132: it is false that every valid value can be transformed back: with the exponent 1, when the transform only moves the values, the
result is infinite wherever the variance is not 0. -/
theorem c132_one_false {o : OiOptions K} (hl : o.lambda = fin 1) {t s : K} (ht : t ≠ -999) (hs : 0 < s) (h1 : 0 ≤ t + 1)
    (hthr : (fin t : Fl K).lt (oiTransform o o.boxCoxThreshold) = false) : oiBack o (fin t) (fin s) = pinf := by
  unfold oiBack
  have v : Client.isValid (fin t) = true := by simp [Client.isValid, ht]
  rw [v, hthr, hl, show ((fin s : Fl K).feq 0) = false by show (fin s : Fl K).feq (fin 0) = false; simp [Fl.feq, hs.ne']]
  simp only [if_true, Bool.or_false, Bool.false_eq_true, if_false]
  rw [show ((fin 1 : Fl K) * fin t + 1) = fin (1 * t + 1) from by rw [Fl.fin_mul]; exact Fl.fin_add _ _,
    show ((1 : Fl K) / fin 1) = fin (1 / 1) from fin_div_of_ne 1 (by norm_num),
    show ((1 : Fl K) - fin 1) = fin (1 - 1) from Fl.fin_sub 1 _, Fl.fin_sub, Fl.fin_mul (1 - 1) (1 * t + 1), pow_fin_nonneg (by linarith) (by norm_num), sub_self, zero_mul,
    pow_zero_base (by norm_num), if_neg (show ¬ (0 : K) < 1 / 1 - 2 by norm_num), Fl.fin_mul]
  have : 0 < 1 / 2 * s := by positivity
  have e : (fin (1 / 2 * s) * pinf : Fl K) = pinf := by
    show Fl.mul (fin (1 / 2 * s)) pinf = pinf
    show infOfSign (1 / 2 * s) = pinf
    unfold infOfSign
    rw [if_pos this]
  rw [e]
  rfl

/-- Options with the transform exist over every such field; with the exponent 1/2 the value 4 becomes at least the value of 1. -/
example (o : OiOptions K) : ∃ f : K → K, (∀ v, oiTransform { o with boxcox := true, lambda := fin (1 / 2) } (fin v) = fin (f v)) ∧ f 1 < f 4 := by
  obtain ⟨f, _, h1, _, h2, _⟩ := c132_transform (o := { o with boxcox := true, lambda := fin (1 / 2) }) rfl rfl (by norm_num)
  exact ⟨f, h1, h2 1 4 (by norm_num) (by norm_num)⟩

end Gridpp.Props
