import Verif.Lemmas.Client.Zaga
import Mathlib.Data.Rat.Floor
import Mathlib.Algebra.Order.Ring.Rat
import Mathlib.Algebra.Field.Rat

/-! # C122: the zero-adjusted gamma distribution of the client -/

set_option linter.unusedSectionVars false

namespace Gridpp.Props
open Fl hiding MV isValid
open Res Client Spec

variable {K : Type} [Field K] [LinearOrder K] [IsStrictOrderedRing K] [FloorRing K] [LawfulExp K]

/-- The predictors of the calibrator: none missing, a mean that is not negative and a fraction. -/
def ZagaPredictors (mean frac : Fl K) : Prop := ∃ m f, mean = fin m ∧ frac = fin f ∧ 0 ≤ m ∧ 0 ≤ f ∧ f ≤ 1

theorem zagaModel_exists (c : Fin 8 → K) {m f : K} (hm : 0 ≤ m) : ∃ P mu sigma, ZagaModel c m f P mu sigma := by
  obtain ⟨r, hr, -⟩ := pow_third hm
  exact ⟨_, _, _, ⟨r, hr, rfl, rfl, rfl⟩⟩

theorem zagaModel_unique {c : Fin 8 → K} {m f P mu sigma P' mu' sigma' : K} (h : ZagaModel c m f P mu sigma)
    (h' : ZagaModel c m f P' mu' sigma') : P = P' ∧ mu = mu' ∧ sigma = sigma' := by
  obtain ⟨r, hr, rfl, rfl, rfl⟩ := h.law
  obtain ⟨r', hr', rfl, rfl, rfl⟩ := h'.law
  rw [thirdRoot_unique hr hr']
  exact ⟨rfl, rfl, rfl⟩

theorem zaga_logit_ne {l : K} (h : 1 / (1 + HasExp.exp (-l)) ≠ 1 / (1 + HasExp.exp (999 : K))) : l ≠ -999 := by
  rintro rfl
  rw [neg_neg] at h
  exact h rfl

/-- **C122** (no precipitation), for a logit other than -999. The probability of no precipitation is the logistic function of the
linear predictor, so it is strictly between 0 and 1. -/
theorem c122_p0_partial {p : List (Fl K)} {c : Fin 8 → K} (hp : Pars8 p c) {m f P mu sigma : K} (hz : ZagaModel c m f P mu sigma) (h0 : 0 ≤ f)
    (h1 : f ≤ 1) (hl : P ≠ 1 / (1 + HasExp.exp 999)) : zagaP0 (fin m) (fin f) p = ok (fin P) ∧ 0 < P ∧ P < 1 := by
  obtain ⟨r, hr, rfl, rfl, rfl⟩ := hz.law
  exact ⟨zagaP0_eq hp hr h0 h1 (zaga_logit_ne hl), logistic_pos _, logistic_lt_one _⟩

theorem thirdRoot_nonneg {r m : K} (hr : ThirdRoot r m) : 0 ≤ m := by
  rw [← hr.2]; exact mul_nonneg (mul_nonneg hr.1 hr.1) hr.1

/-- **C122** (distribution function), for a logit other than -999. `getCdf` is a distribution function: 0 below 0, the probability of no
precipitation at 0, from there on strictly increasing and below 1, namely the mixture of the two parts. Neither assertion fails. -/
theorem c122_cdf_partial {mk : Fl K → Fl K → Dist K} {F : K → K → K → K} (hmk : GammaFamily mk F) {p : List (Fl K)} {c : Fin 8 → K}
    (hp : Pars8 p c) {m f P mu sigma k s : K} (hz : ZagaModel c m f P mu sigma) (hg : GammaMoments k s mu (sigma * mu)) (h0 : 0 ≤ f)
    (h1 : f ≤ 1) (hl : P ≠ 1 / (1 + HasExp.exp 999)) :
    ∃ G : K → K, (∀ x, x ≠ -999 → zagaCdf mk (fin x) (fin m) (fin f) p = ok (fin (G x))) ∧ (∀ x, x < 0 → G x = 0) ∧ G 0 = P ∧
      (∀ x, 0 ≤ x → G x = P + (1 - P) * F k s x ∧ G x < 1) ∧ ∀ x y, 0 ≤ x → x < y → G x < G y := by
  obtain ⟨hP, hP0, hP1⟩ := c122_p0_partial hp hz h0 h1 hl
  obtain ⟨r, hr, rfl, rfl, rfl⟩ := hz.law
  have hm := thirdRoot_nonneg hr
  have hk := hg.1
  have hs := hg.2.1
  set P := 1 / (1 + HasExp.exp (-(c 4 + c 5 * m + c 6 * f + c 7 * r)))
  have hF0 : ∀ x, 0 ≤ x → 0 ≤ F k s x := by
    intro x hx
    rcases hx.eq_or_lt with h | h
    · rw [← h, hmk.zero k s hk hs]
    · have := hmk.mono k s 0 x hk hs (le_refl _) h
      rw [hmk.zero k s hk hs] at this
      exact this.le
  have hlt : ∀ x, 0 ≤ x → P + (1 - P) * F k s x < 1 := by
    intro x hx
    have := hmk.lt_one k s x hk hs hx
    nlinarith
  have acc := zaga_accept (K := K) hm h0 h1
  simp only [Bool.or_eq_false_iff] at acc
  obtain ⟨⟨⟨⟨a1, a2⟩, a3⟩, a4⟩, a5⟩ := acc
  refine ⟨zagaFunction F P k s, ?_, fun x hx => if_pos hx, ?_, fun x hx => ?_, fun x y hx hxy => ?_⟩
  · intro x hx
    unfold zagaCdf zagaFunction
    rw [valid_fin hx, a1, a2, a3, a4, a5, hp.all, hP, ok_bind, valid_nonneg hP0.le]
    simp only [Bool.not_true, Bool.or_self, Bool.false_eq_true, if_false, zero_def, lt_fin, decide_eq_true_eq, feq_fin]
    by_cases hx0 : x < 0
    · rw [if_pos hx0, if_pos hx0]
    rw [if_neg hx0, if_neg hx0]
    have hx0 := not_lt.mp hx0
    by_cases hxz : x = 0
    · subst hxz
      rw [if_pos rfl, hmk.zero k s hk hs]
      simp
    rw [if_neg hxz]
    unfold zagaCdfCont
    rw [zagaGamma_eq mk hp hr hg, ok_bind]
    simp only
    rw [hmk.cdf k s x hk hs hx0, ok_bind]
    simp only [one_def, fin_sub, fin_mul, fin_add]
    have b1 := hlt x hx0
    have b2 : 0 ≤ P + (1 - P) * F k s x := by
      have := hF0 x hx0
      have : 0 ≤ (1 - P) * F k s x := mul_nonneg (by linarith) this
      linarith
    rw [valid_nonneg b2]
    simp [le_fin, ge_fin, b1.le, b2, zero_def]
  · unfold zagaFunction
    rw [if_neg (lt_irrefl _), hmk.zero k s hk hs]
    ring
  · unfold zagaFunction
    rw [if_neg (not_lt.mpr hx)]
    exact ⟨rfl, hlt x hx⟩
  · unfold zagaFunction
    rw [if_neg (not_lt.mpr hx), if_neg (not_lt.mpr (hx.trans hxy.le))]
    have := hmk.mono k s x y hk hs hx hxy
    nlinarith

/-- **C122** (quantile), for a logit other than -999. For every level strictly between 0 and 1 `getInvCdf` returns the quantile of the
distribution of `getCdf`: it is not above a threshold exactly if the level is not above the distribution function there. Levels up to
the probability of no precipitation give 0. -/
theorem c122_quantile_partial {mk : Fl K → Fl K → Dist K} {F : K → K → K → K} (hmk : GammaFamily mk F) {p : List (Fl K)} {c : Fin 8 → K}
    (hp : Pars8 p c) {m f P mu sigma k s : K} (hz : ZagaModel c m f P mu sigma) (hg : GammaMoments k s mu (sigma * mu)) (h0 : 0 ≤ f)
    (h1 : f ≤ 1) (hl : P ≠ 1 / (1 + HasExp.exp 999)) {q : K} (hq0 : 0 < q) (hq1 : q < 1) :
    ∃ v, zagaInvCdf mk (fin q) (fin m) (fin f) p = ok (fin v) ∧ 0 ≤ v ∧ (q ≤ P ↔ v = 0) ∧ (P < q → zagaFunction F P k s v = q) ∧
      ∀ x, v ≤ x ↔ q ≤ zagaFunction F P k s x := by
  obtain ⟨hP, hP0, hP1⟩ := c122_p0_partial hp hz h0 h1 hl
  obtain ⟨r, hr, rfl, rfl, rfl⟩ := hz.law
  have hm := thirdRoot_nonneg hr
  have hk := hg.1
  have hs := hg.2.1
  set P := 1 / (1 + HasExp.exp (-(c 4 + c 5 * m + c 6 * f + c 7 * r)))
  have acc := zaga_accept (K := K) hm h0 h1
  simp only [Bool.or_eq_false_iff] at acc
  obtain ⟨⟨⟨⟨a1, a2⟩, a3⟩, a4⟩, a5⟩ := acc
  have hF0 : ∀ x, 0 ≤ x → 0 ≤ F k s x := by
    intro x hx
    rcases hx.eq_or_lt with h | h
    · rw [← h, hmk.zero k s hk hs]
    · have := hmk.mono k s 0 x hk hs (le_refl _) h
      rw [hmk.zero k s hk hs] at this
      exact this.le
  have start : zagaInvCdf mk (fin q) (fin m) (fin f) p = if q < P then ok 0 else zagaInvCont mk (fin q) (fin P) (fin m) p := by
    unfold zagaInvCdf
    rw [a1, a2, a3, a4, a5, hp.all, hP, ok_bind, valid_nonneg hP0.le]
    simp [zero_def, one_def, lt_fin, ge_fin, feq_fin, hq0.ne', not_lt.mpr hq0.le, not_le.mpr hq1]
  have lift : ∀ v, 0 ≤ v → ∀ x, 0 ≤ x → (F k s v ≤ F k s x ↔ v ≤ x) := by
    intro v hv x hx
    constructor
    · intro h
      by_contra hc
      exact absurd (hmk.mono k s x v hk hs hx (not_le.mp hc)) (not_lt.mpr h)
    · intro h
      rcases h.eq_or_lt with h | h
      · rw [h]
      · exact (hmk.mono k s v x hk hs hv h).le
  rw [start]
  by_cases hqP : q < P
  · rw [if_pos hqP]
    refine ⟨0, rfl, le_refl _, ⟨fun _ => rfl, fun _ => hqP.le⟩, fun h => absurd h (not_lt.mpr hqP.le), fun x => ?_⟩
    unfold zagaFunction
    by_cases hx : x < 0
    · rw [if_pos hx]
      exact ⟨fun h => absurd h (not_le.mpr hx), fun h => absurd h (not_le.mpr hq0)⟩
    · rw [if_neg hx]
      have hx := not_lt.mp hx
      have := mul_nonneg (show 0 ≤ 1 - P by linarith) (hF0 x hx)
      exact ⟨fun _ => by linarith, fun _ => hx⟩
  · rw [if_neg hqP]
    have hqP := not_lt.mp hqP
    have hden : 1 - P ≠ 0 := by intro h; linarith
    have hden0 : 0 < 1 - P := by linarith
    obtain ⟨v, hv1, hv2, hv3⟩ := hmk.quantile k s ((q - P) / (1 - P)) hk hs (div_nonneg (by linarith) hden0.le) (by
      rw [div_lt_one hden0]; linarith)
    have key : P + (1 - P) * F k s v = q := by
      rw [hv3]; field_simp; ring
    refine ⟨v, ?_, hv2, ⟨fun h => ?_, fun h => ?_⟩, fun _ => ?_, fun x => ?_⟩
    · unfold zagaInvCont
      rw [zagaGamma_eq mk hp hr hg, ok_bind]
      simp only [one_def, fin_sub, fin_div_of_ne _ hden]
      rw [hv1, ok_bind, valid_nonneg hv2]
      rfl
    · have hz : F k s v = 0 := by
        have : q = P := le_antisymm h hqP
        rw [hv3, this, sub_self, zero_div]
      by_contra hne
      have := hmk.mono k s 0 v hk hs (le_refl _) (lt_of_le_of_ne hv2 (Ne.symm hne))
      rw [hmk.zero k s hk hs, hz] at this
      exact lt_irrefl _ this
    · rw [h, hmk.zero k s hk hs, mul_zero, add_zero] at key
      exact key.ge
    · unfold zagaFunction
      rw [if_neg (not_lt.mpr hv2)]
      exact key
    · unfold zagaFunction
      by_cases hx : x < 0
      · rw [if_pos hx]
        exact ⟨fun h => absurd (hv2.trans h) (not_le.mpr hx), fun h => absurd h (not_le.mpr hq0)⟩
      · rw [if_neg hx]
        have hx := not_lt.mp hx
        rw [← lift v hv2 x hx]
        constructor
        · intro h
          have := mul_le_mul_of_nonneg_left h hden0.le
          linarith
        · intro h
          have : (1 - P) * F k s v ≤ (1 - P) * F k s x := by linarith
          exact le_of_mul_le_mul_left this hden0

/-- **C122** (order), for a logit other than -999. A higher level does not give less precipitation. -/
theorem c122_mono_partial {mk : Fl K → Fl K → Dist K} {F : K → K → K → K} (hmk : GammaFamily mk F) {p : List (Fl K)} {c : Fin 8 → K}
    (hp : Pars8 p c) {m f P mu sigma : K} (hz : ZagaModel c m f P mu sigma) (h0 : 0 ≤ f)
    (h1 : f ≤ 1) (hl : P ≠ 1 / (1 + HasExp.exp 999)) {q q' v v' : K} (hq0 : 0 < q) (hqq : q ≤ q') (hq1 : q' < 1)
    (hv : zagaInvCdf mk (fin q) (fin m) (fin f) p = ok (fin v)) (hv' : zagaInvCdf mk (fin q') (fin m) (fin f) p = ok (fin v')) : v ≤ v' := by
  have hpos : 0 < mu ∧ 0 < sigma := by
    obtain ⟨r, hr, rfl, rfl, rfl⟩ := hz.law
    exact ⟨LawfulExp.exp_pos _, LawfulExp.exp_pos _⟩
  have hg := gammaMoments_exists hpos.1 hpos.2
  obtain ⟨w, e1, -, -, -, e2⟩ := c122_quantile_partial hmk hp hz hg h0 h1 hl hq0 (lt_of_le_of_lt hqq hq1)
  obtain ⟨w', e1', -, -, -, e2'⟩ := c122_quantile_partial hmk hp hz hg h0 h1 hl (lt_of_lt_of_le hq0 hqq) hq1
  rw [e1, Res.ok.injEq, Fl.fin.injEq] at hv
  rw [e1', Res.ok.injEq, Fl.fin.injEq] at hv'
  subst hv; subst hv'
  exact (e2 w').mpr (hqq.trans ((e2' w').mp (le_refl _)))

omit [LawfulExp K] in
/-- The predictors are accepted exactly if they are as described. -/
theorem zaga_reject {mean frac : Fl K} (h : ¬ ZagaPredictors mean frac) :
    isValid mean = false ∨ isValid frac = false ∨ (mean.lt 0 || frac.lt 0 || frac.gt 1) = true := by
  by_cases h1 : isValid mean = true
  · by_cases h2 : isValid frac = true
    · right; right
      obtain ⟨m, rfl, -⟩ := isValid_iff_present.mp h1
      obtain ⟨f, rfl, -⟩ := isValid_iff_present.mp h2
      by_contra hc
      simp only [zero_def, one_def, lt_fin, gt_fin, Bool.or_eq_true, decide_eq_true_eq, not_or, not_lt] at hc
      exact h ⟨m, f, rfl, rfl, hc.1.1, hc.1.2, hc.2⟩
    · exact Or.inr (Or.inl (by simpa using h2))
  · exact Or.inl (by simpa using h1)

variable {K' : Type} [Field K'] [LinearOrder K'] [IsStrictOrderedRing K'] [FloorRing K'] [HasExp K']

/-- **C122** (missing). A mean or fraction that is missing or impossible, a missing parameter, a level outside of [0, 1) and a missing
threshold give a missing value; the parameters do not matter below the threshold 0. -/
theorem c122_missing (mk : Fl K' → Fl K' → Dist K') (mean frac : Fl K') (p : List (Fl K')) :
    (∀ q, ¬ ZagaPredictors mean frac ∨ (∃ v ∈ p, ¬ Present v) ∨ q = pinf ∨ q = ninf ∨ (∃ a, q = fin a ∧ (a < 0 ∨ 1 ≤ a)) →
      zagaInvCdf mk q mean frac p = ok MV) ∧
    (∀ x, ¬ Present x ∨ ¬ ZagaPredictors mean frac ∨ ((∃ v ∈ p, ¬ Present v) ∧ ∃ a, x = fin a ∧ 0 ≤ a) → zagaCdf mk x mean frac p = ok MV) := by
  have hpar : (∃ v ∈ p, ¬ Present v) → p.all isValid = false := by
    rintro ⟨v, hv, hn⟩
    rw [List.all_eq_false]
    exact ⟨v, hv, by rw [isValid_false_iff.mpr hn]; simp⟩
  constructor
  · intro q h
    unfold zagaInvCdf
    by_cases c1 : (q.lt 0 || q.ge 1) = true
    · rw [if_pos c1]
    rw [if_neg c1]
    by_cases c2 : (!isValid mean || !isValid frac) = true
    · rw [if_pos c2]
    rw [if_neg c2]
    by_cases c3 : (mean.lt 0 || frac.lt 0 || frac.gt 1) = true
    · rw [if_pos c3]
    rw [if_neg c3]
    rw [if_pos]
    rcases h with h | h | h | h | ⟨a, h, h'⟩
    · rcases zaga_reject h with h | h | h
      · exact absurd (by simp [h]) c2
      · exact absurd (by simp [h]) c2
      · exact absurd h c3
    · rw [hpar h]; rfl
    · exact absurd (by rw [h]; rfl) c1
    · exact absurd (by rw [h]; rfl) c1
    · refine absurd ?_ c1
      rw [h]
      simpa [zero_def, one_def, lt_fin, ge_fin] using h'
  · intro x h
    unfold zagaCdf
    by_cases c1 : (!isValid x || !isValid mean || !isValid frac) = true
    · rw [if_pos c1]
    rw [if_neg c1]
    by_cases c2 : (mean.lt 0 || frac.lt 0 || frac.gt 1) = true
    · rw [if_pos c2]
    rw [if_neg c2]
    rcases h with h | h | ⟨h, a, ha, ha0⟩
    · exact absurd (by simp [isValid_false_iff.mpr h]) c1
    · rcases zaga_reject h with h | h | h
      · exact absurd (by simp [h]) c1
      · exact absurd (by simp [h]) c1
      · exact absurd h c2
    · rw [if_neg (by rw [ha]; simp [zero_def, lt_fin, ha0]), if_pos (by rw [hpar h]; rfl)]

/-- **C122** (too few). With a level strictly between 0 and 1 and fewer than eight parameters, none missing, the program ends. -/
theorem c122_few (mk : Fl K' → Fl K' → Dist K') {mean frac : Fl K'} (hpre : ZagaPredictors mean frac) {p : List (Fl K')}
    (hp : ∀ v ∈ p, Present v) (hlen : p.length < 8) {q : K'} (hq0 : 0 < q) (hq1 : q < 1) : zagaInvCdf mk (fin q) mean frac p = .abort := by
  obtain ⟨m, f, rfl, rfl, hm, h0, h1⟩ := hpre
  have acc : (!isValid (fin m : Fl K') || !isValid (fin f : Fl K') || (fin m : Fl K').lt 0 || (fin f : Fl K').lt 0 || (fin f : Fl K').gt 1) = false := by
    have e1 : isValid (fin m : Fl K') = true := isValid_iff_present.mpr ⟨m, rfl, by intro e; rw [e] at hm; linarith⟩
    have e2 : isValid (fin f : Fl K') = true := isValid_iff_present.mpr ⟨f, rfl, by intro e; rw [e] at h0; linarith⟩
    rw [e1, e2]
    simp [zero_def, one_def, lt_fin, gt_fin, hm, h0, h1]
  have hall : p.all isValid = true := by
    rw [List.all_eq_true]
    exact fun v hv => isValid_iff_present.mpr (hp v hv)
  have hP : zagaP0 (fin m) (fin f) p = .abort := by
    unfold zagaP0
    rw [acc, hall]
    simp only [Bool.false_eq_true, if_false, Bool.not_true]
    have hget : ∀ i, i < p.length → ∃ v, parAt p i = ok v := fun i hi => ⟨p[i], by unfold parAt; rw [if_neg (by omega), vget_eq_ok_of_lt hi]⟩
    have hbad : ∀ i, p.length ≤ i → parAt p i = .abort := fun i hi => by unfold parAt; rw [if_pos hi]; rfl
    by_cases g4 : 4 < p.length
    · obtain ⟨a, ha⟩ := hget 4 g4
      rw [ha, ok_bind]
      by_cases g5 : 5 < p.length
      · obtain ⟨b, hb⟩ := hget 5 g5
        rw [hb, ok_bind]
        by_cases g6 : 6 < p.length
        · obtain ⟨c, hc⟩ := hget 6 g6
          rw [hc, ok_bind, hbad 7 (by omega)]; rfl
        · rw [hbad 6 (by omega)]; rfl
      · rw [hbad 5 (by omega)]; rfl
    · rw [hbad 4 (by omega)]; rfl
  simp only [Bool.or_eq_false_iff] at acc
  obtain ⟨⟨⟨⟨a1, a2⟩, a3⟩, a4⟩, a5⟩ := acc
  unfold zagaInvCdf
  rw [a1, a2, a3, a4, a5, hall, hP]
  simp [zero_def, one_def, lt_fin, ge_fin, feq_fin, hq0.ne', not_lt.mpr hq0.le, not_le.mpr hq1]

/-- **C122** is false without the condition on the logit: with nothing missing, a logit that is -999 is taken to be missing, and so is
the quantile. -/
theorem c122_coincidence_false (mk : Fl ℚ → Fl ℚ → Dist ℚ) :
    zagaInvCdf mk (fin (1 / 2)) (fin 1) (fin 1) ([0, 0, 0, 0, -998, -1, 0, 0].map fin) = ok MV := by
  have h : zagaP0 (fin (1 : ℚ)) (fin 1) ([0, 0, 0, 0, -998, -1, 0, 0].map fin) = ok MV := by decide +kernel
  unfold zagaInvCdf
  rw [h, ok_bind, if_neg (by decide +kernel), if_neg (by decide +kernel), if_neg (by decide +kernel), if_neg (by decide +kernel),
    if_neg (by decide +kernel), if_pos (by decide +kernel)]

/-- A family as assumed: the functions `F k s x = x / (x + k s)` in place of those of the gamma distributions. -/
def exampleGamma (a s : Fl K) : Dist K :=
  ⟨fun x => match a, s, x with
    | fin k, fin t, fin x => ok (fin (x / (x + k * t)))
    | _, _, _ => .ub,
  fun l => match a, s, l with
    | fin k, fin t, fin p => if p < 1 then ok (fin (p * (k * t) / (1 - p))) else .throw .runtimeError
    | _, _, _ => .ub⟩

omit [FloorRing K] [LawfulExp K] in
theorem exampleGamma_family : GammaFamily (exampleGamma (K := K)) fun k s x => x / (x + k * s) where
  cdf k s x _ _ _ := rfl
  zero k s _ _ := zero_div _
  lt_one k s x hk hs hx := by
    have := mul_pos hk hs
    rw [div_lt_one (by linarith)]
    linarith
  mono k s x y hk hs hx hxy := by
    have := mul_pos hk hs
    rw [div_lt_div_iff₀ (by linarith) (by linarith)]
    nlinarith
  quantile k t p hk ht h0 h1 := by
    have h2 : 0 < 1 - p := by linarith
    have hkt : 0 < k * t := mul_pos hk ht
    refine ⟨p * (k * t) / (1 - p), by simp [exampleGamma, h1], by positivity, ?_⟩
    have h3 : p * (k * t) / (1 - p) + k * t = k * t / (1 - p) := by field_simp; ring
    rw [h3]
    field_simp

omit [FloorRing K] in
/-- The hypotheses hold for mean 8, where the third root is 2, and a fraction 1/4. -/
example : ∃ (mk : Fl K → Fl K → Dist K) (F : K → K → K → K), GammaFamily mk F ∧
    ZagaModel (K := K) ![1, 2, 0, 0, 1, 0, -1, 0] 8 (1 / 4) (1 / (1 + HasExp.exp (-(3 / 4)))) (HasExp.exp 5) 1 ∧
    Pars8 (K := K) ([1, 2, 0, 0, 1, 0, -1, 0].map fin) ![1, 2, 0, 0, 1, 0, -1, 0] ∧
    (1 / (1 + HasExp.exp (-(3 / 4))) : K) ≠ 1 / (1 + HasExp.exp 999) ∧ GammaMoments 1 (HasExp.exp 5) (HasExp.exp 5) (1 * HasExp.exp 5 : K) := by
  refine ⟨exampleGamma, _, exampleGamma_family, ⟨2, ⟨by norm_num, by norm_num⟩, ?_, ?_, ?_⟩, ⟨?_, ?_⟩, ?_, ?_⟩
  · congr 3
    simp
    norm_num
  · congr 1
    simp
    norm_num
  · simp [LawfulExp.exp_zero]
  · intro v hv
    simp only [List.map_cons, List.map_nil, List.mem_cons, List.not_mem_nil, or_false] at hv
    rcases hv with rfl | rfl | rfl | rfl | rfl | rfl | rfl | rfl <;> exact ⟨_, rfl, by norm_num⟩
  · intro i
    fin_cases i <;> rfl
  · intro h
    have h1 := LawfulExp.exp_pos (-(3 / 4) : K)
    have h2 := LawfulExp.exp_pos (999 : K)
    rw [div_eq_div_iff (by positivity) (by positivity)] at h
    have h3 : (HasExp.exp (-(3 / 4)) : K) < HasExp.exp 999 := exp_strictMono (by norm_num)
    linarith
  · have := LawfulExp.exp_pos (5 : K)
    exact ⟨one_pos, this, by ring, by ring⟩

end Gridpp.Props
