import Verif.Model.Transform
import Verif.Lemmas.Elementwise

/-! # C58: transforms -/

set_option linter.unusedSectionVars false

namespace Gridpp.Props
open Fl Res

variable {K : Type} [Field K] [LinearOrder K] [IsStrictOrderedRing K] [FloorRing K] [LawfulExp K]

/-- What is assumed of `boost::math::gamma_distribution`: a positive value has a probability in (0,1) from which the
quantile function recovers it; the probability increases with the value; values below the support are rejected. -/
structure GammaLaw (D : Dist K) : Prop where
  pos : ∀ x : K, 0 < x → ∃ p, 0 < p ∧ p < 1 ∧ D.cdf (fin x) = ok (fin p) ∧ D.quantile (fin p) = ok (fin x)
  mono : ∀ x y p q : K, 0 < x → x < y → D.cdf (fin x) = ok (fin p) → D.cdf (fin y) = ok (fin q) → p < q
  neg : ∀ x : K, x < 0 → D.cdf (fin x) = .throw .logicError

/-- What is assumed of `boost::math::normal`. -/
structure NormalLaw (D : Dist K) : Prop where
  inside : ∀ p : K, 0 < p → p < 1 → ∃ z, D.quantile (fin p) = ok (fin z) ∧ D.cdf (fin z) = ok (fin p)
  mono : ∀ p q z w : K, 0 < p → p < q → q < 1 → D.quantile (fin p) = ok (fin z) → D.quantile (fin q) = ok (fin w) → z < w

/-- The values a transform is meant for. The base class is no transform. -/
inductive InDomain : Transform K → K → Prop
  | identity (x) : InDomain .identity x
  | log {x} : 0 < x → InDomain .log x
  | boxCox {t x} : 0 < x → InDomain (.boxCox (fin t)) x
  | boxCoxZero {t} : 0 < t → InDomain (.boxCox (fin t)) 0
  | started {t s x} : 0 < t → 0 < s → 0 ≤ x → InDomain (.started (fin t) (fin s)) x
  | gamma {G N tol x} : GammaLaw G → NormalLaw N → 0 < x + tol → InDomain (.gamma G N (fin tol)) x

theorem log_fin_pos {x : K} (hx : 0 < x) : Fl.log (fin x) = fin (HasExp.log x) := by simp only [Fl.log, if_pos hx]

theorem boxCoxForward_pos {t x : K} (ht : t ≠ 0) (hx : 0 < x) : boxCoxForward (fin t) (fin x) = fin ((realPow x t - 1) / t) := by
  simp only [boxCoxForward, boxCoxOf, isValid_fin, Bool.not_true, Bool.false_eq_true, if_false, le_fin, feq_fin, decide_eq_true_eq,
    if_neg (not_le.mpr hx), if_neg ht]
  rw [pow_pos_base hx, fin_sub, fin_div_of_ne _ ht]

theorem boxCoxForward_zero_base {t : K} (ht : 0 < t) : boxCoxForward (fin t) (fin 0) = fin (-1 / t) := by
  simp only [boxCoxForward, boxCoxOf, isValid_fin, Bool.not_true, Bool.false_eq_true, if_false, le_fin, feq_fin, decide_eq_true_eq,
    if_pos (le_refl (0 : K)), if_neg ht.ne']
  rw [pow_zero_base ht.ne', if_pos ht, fin_sub, fin_div_of_ne _ ht.ne', zero_sub]

theorem boxCoxForward_log {x : K} (hx : 0 < x) : boxCoxForward (fin 0) (fin x) = fin (HasExp.log x) := by
  simp only [boxCoxForward, boxCoxOf, isValid_fin, Bool.not_true, Bool.false_eq_true, if_false, le_fin, feq_fin, decide_eq_true_eq,
    if_neg (not_le.mpr hx), decide_true, if_true]
  rw [log_fin_pos hx]

theorem startedForward_low {t s x : K} (ht : 0 < t) (hx : 0 ≤ x) (h : x ≤ s) : startedForward (fin t) (fin s) (fin x) = fin x := by
  unfold startedForward startedOf
  rw [if_neg (by simpa using ht)]
  simp only [lt_fin, decide_eq_true_eq, if_neg (not_lt.mpr hx), le_fin, if_pos h]

theorem startedForward_high {t s x : K} (ht : 0 < t) (hs : 0 < s) (h : s < x) :
    startedForward (fin t) (fin s) (fin x) = fin (s * (1 + (realPow (x / s) t - 1) / t)) := by
  unfold startedForward startedOf
  rw [if_neg (by simpa using ht)]
  simp only [lt_fin, decide_eq_true_eq, if_neg (not_lt.mpr (hs.trans h).le), le_fin, if_neg (not_le.mpr h)]
  rw [fin_div_of_ne _ hs.ne', pow_pos_base (div_pos (hs.trans h) hs), fin_sub, fin_div_of_ne _ ht.ne', fin_add, fin_mul]

theorem started_above {t s x : K} (ht : 0 < t) (hs : 0 < s) (h : s < x) : s < s * (1 + (realPow (x / s) t - 1) / t) := by
  have h1 : 1 < x / s := (one_lt_div hs).mpr h
  have h2 : 1 < realPow (x / s) t := by
    have := realPow_lt (y := t) one_pos h1 ht
    rwa [realPow_one] at this
  have h3 : 0 < (realPow (x / s) t - 1) / t := div_pos (by linarith) ht
  nlinarith

/-- **C58**, round trip: for every transform, except `BoxCox` with a negative parameter, and every value of its domain the
backward transform recovers the value. Missing from the full statement: negative parameters, for which it is false
(`c58_negative_parameter`). -/
theorem c58_roundtrip_partial {t : Transform K} {x : K} (h : InDomain t x) (hneg : ∀ p : K, t = .boxCox (fin p) → 0 ≤ p) :
    ∃ y, t.forward (fin x) = ok (fin y) ∧ t.backward (fin y) = ok (fin x) := by
  cases h with
  | identity => exact ⟨x, rfl, rfl⟩
  | log hx =>
    refine ⟨HasExp.log x, ?_, ?_⟩
    · simp only [Transform.forward, logForward, isValid_fin, if_true, log_fin_pos hx]
    · simp only [Transform.backward, logBackward, isValid_fin, if_true, Fl.exp, LawfulExp.exp_log x hx]
  | @boxCox p _ hx =>
    have hp := hneg p rfl
    rcases eq_or_lt_of_le hp with e | hp
    · subst e
      refine ⟨HasExp.log x, ?_, ?_⟩
      · simp only [Transform.forward, boxCoxForward_log hx]
      · simp only [Transform.backward, boxCoxBackward, boxCoxInverse, feq_fin, decide_true, if_true, Fl.exp, LawfulExp.exp_log x hx,
          isValid_fin, Bool.not_true, Bool.false_eq_true, if_false, le_fin, decide_eq_true_eq, if_neg (not_le.mpr hx)]
    · refine ⟨(realPow x p - 1) / p, ?_, ?_⟩
      · simp only [Transform.forward, boxCoxForward_pos hp.ne' hx]
      · have e0 : boxCoxInverse (fin p) (fin ((realPow x p - 1) / p)) = fin x := by
          unfold boxCoxInverse
          rw [if_neg (by simpa using hp.ne'), fin_div_of_ne _ hp.ne', fin_div_of_ne _ hp.ne']
          have hn : ¬ (realPow x p - 1) / p < -1 / p := by
            rw [not_lt]
            refine div_le_div_of_nonneg_right ?_ hp.le
            have := realPow_pos x p
            linarith
          rw [if_neg (by simpa using hn), fin_mul, fin_add]
          have e : 1 + p * ((realPow x p - 1) / p) = realPow x p := by
            rw [mul_div_cancel₀ _ hp.ne']; ring
          rw [e, pow_pos_base (realPow_pos x p), realPow_inv hx hp.ne']
        simp only [Transform.backward, boxCoxBackward, e0, isValid_fin, Bool.not_true, Bool.false_eq_true, if_false, le_fin,
          decide_eq_true_eq, if_neg (not_le.mpr hx)]
  | @boxCoxZero p hp =>
    refine ⟨-1 / p, ?_, ?_⟩
    · simp only [Transform.forward, boxCoxForward_zero_base hp]
    · have e0 : boxCoxInverse (fin p) (fin (-1 / p)) = fin 0 := by
        unfold boxCoxInverse
        rw [if_neg (by simpa using hp.ne'), fin_div_of_ne _ hp.ne', fin_div_of_ne _ hp.ne', ite_self, fin_mul, fin_add,
          mul_div_cancel₀ _ hp.ne', add_neg_cancel, pow_zero_base (one_div_pos.mpr hp).ne', if_pos (one_div_pos.mpr hp)]
      simp only [Transform.backward, boxCoxBackward, e0, isValid_fin, Bool.not_true, Bool.false_eq_true, if_false, le_fin,
        decide_eq_true_eq, if_pos (le_refl (0 : K))]
  | @started p s _ hp hs hx =>
    rcases le_or_gt x s with h | h
    · refine ⟨x, ?_, ?_⟩
      · simp only [Transform.forward, startedForward_low hp hx h]
      · simp only [Transform.backward, startedBackward, startedInverse, isValid_fin, Bool.not_true, Bool.false_or, le_fin, lt_fin,
          decide_eq_true_eq, if_pos h, if_neg (not_lt.mpr hx), if_neg (not_le.mpr hp)]
    · refine ⟨s * (1 + (realPow (x / s) p - 1) / p), ?_, ?_⟩
      · simp only [Transform.forward, startedForward_high hp hs h]
      · have hab := started_above hp hs h
        have e0 : startedInverse (fin p) (fin s) (fin (s * (1 + (realPow (x / s) p - 1) / p))) = fin x := by
          unfold startedInverse
          rw [if_neg (by simpa using hab), fin_sub, fin_div_of_ne _ hs.ne', fin_div_of_ne _ hp.ne', fin_mul, fin_add]
          have e : 1 + p / s * (s * (1 + (realPow (x / s) p - 1) / p) - s) = realPow (x / s) p := by
            field_simp
            ring
          have hxs := div_pos (hs.trans h) hs
          rw [e, pow_pos_base (realPow_pos _ _), realPow_inv hxs hp.ne', fin_mul, mul_div_cancel₀ _ hs.ne']
        simp only [Transform.backward, startedBackward, e0, isValid_fin, Bool.not_true, Bool.false_or, le_fin, lt_fin, decide_eq_true_eq,
          if_neg (not_lt.mpr (hs.trans h).le), if_neg (not_le.mpr hp)]
  | @gamma G N tol _ hG hN hx =>
    obtain ⟨p, p0, p1, hc, hq⟩ := hG.pos (x + tol) hx
    obtain ⟨z, hz, hz'⟩ := hN.inside p p0 p1
    refine ⟨z, ?_, ?_⟩
    · simp only [Transform.forward, gammaForward, isValid_fin, Bool.not_true, Bool.false_eq_true, if_false, fin_add, hc, ok_bind, hz]
    · simp only [Transform.backward, gammaBackward, isValid_fin, Bool.not_true, Bool.false_eq_true, if_false, hz', ok_bind, hq, fin_sub,
        add_sub_cancel_right]

/-- **C58** is false for `BoxCox` with a negative parameter: every positive value is transformed to a finite value that the
backward transform turns into infinity, because the lower limit `-1/threshold` of the transformed values is then an upper limit. -/
theorem c58_negative_parameter {p x : K} (hp : p < 0) (hx : 0 < x) :
    ∃ y, (Transform.boxCox (fin p)).forward (fin x) = ok (fin y) ∧ (Transform.boxCox (fin p)).backward (fin y) = ok pinf := by
  refine ⟨(realPow x p - 1) / p, ?_, ?_⟩
  · simp only [Transform.forward, boxCoxForward_pos hp.ne hx]
  · have e0 : boxCoxInverse (fin p) (fin ((realPow x p - 1) / p)) = pinf := by
      unfold boxCoxInverse
      rw [if_neg (by simpa using hp.ne), fin_div_of_ne _ hp.ne, fin_div_of_ne _ hp.ne]
      have hn : (realPow x p - 1) / p < -1 / p := by
        rw [div_lt_div_right_of_neg hp]
        have := realPow_pos x p
        linarith
      have h1 : 1 / p < 0 := one_div_neg.mpr hp
      rw [if_pos (by simpa using hn), fin_mul, fin_add, mul_div_cancel₀ _ hp.ne, add_neg_cancel, pow_zero_base h1.ne, if_neg (not_lt.mpr h1.le)]
    simp only [Transform.backward, boxCoxBackward, e0, isValid_fin, Bool.not_true, Bool.false_eq_true, if_false]
    rfl

/-- **C58**, missing values: a value that is not a number or infinite is missing after the transform in both directions;
`Identity` returns every value as it is. -/
theorem c58_missing (t : Transform K) (ht : t ≠ .base) (v : Fl K) (hv : isValid v = false) :
    (t = .identity → t.forward v = ok v ∧ t.backward v = ok v) ∧ (t ≠ .identity → t.forward v = ok nan ∧ t.backward v = ok nan) := by
  have h : ∀ t : Transform K, t.forward v = ok nan ∧ t.backward v = ok nan ∨ t = .base ∨ t = .identity := by
    intro t
    cases t with
    | base => exact Or.inr (Or.inl rfl)
    | identity => exact Or.inr (Or.inr rfl)
    | log => left; simp only [Transform.forward, Transform.backward, logForward, logBackward, hv]; exact ⟨rfl, rfl⟩
    | boxCox p => left; simp only [Transform.forward, Transform.backward, boxCoxForward, boxCoxBackward, hv]; exact ⟨rfl, rfl⟩
    | started p s => left; simp only [Transform.forward, Transform.backward, startedForward, startedBackward, hv]; exact ⟨rfl, rfl⟩
    | gamma G N tol => left; simp only [Transform.forward, Transform.backward, gammaForward, gammaBackward, hv]; exact ⟨rfl, rfl⟩
  refine ⟨fun hi => ?_, fun hi => ?_⟩
  · rw [hi]; exact ⟨rfl, rfl⟩
  · rcases h t with h | h | h
    · exact h
    · exact absurd h ht
    · exact absurd h hi

/-- **C58**, values below the domain: negative values are transformed like 0, except that `Log` has no value for them
(minus infinity for 0). -/
theorem c58_below {x : K} (hx : x ≤ 0) :
    (∀ p : Fl K, (Transform.boxCox p).forward (fin x) = (Transform.boxCox p).forward (fin 0)) ∧
    (∀ p s : K, 0 < p → 0 < s → (Transform.started (fin p) (fin s)).forward (fin x) = ok (fin 0)) ∧
    (Transform.log : Transform K).forward (fin x) = ok (if x = 0 then ninf else nan) := by
  refine ⟨fun p => ?_, fun p s hp hs => ?_, ?_⟩
  · simp [Transform.forward, boxCoxForward, hx]
  · rcases hx.lt_or_eq with h | rfl
    · simp [Transform.forward, startedForward, startedOf, hp, h, hs.le]
    · simp [Transform.forward, startedForward, startedOf, hp, hs.le]
  · rcases hx.lt_or_eq with h | rfl
    · simp [Transform.forward, logForward, Fl.log, h, h.ne, not_lt.mpr hx]
    · simp [Transform.forward, logForward, Fl.log]

/-- **C58**, monotonicity: forward transforms are strictly increasing on their domain. -/
theorem c58_increasing {t : Transform K} {x x' y y' : K} (h : InDomain t x) (h' : InDomain t x') (hlt : x < x')
    (e : t.forward (fin x) = ok (fin y)) (e' : t.forward (fin x') = ok (fin y')) : y < y' := by
  cases h with
  | identity => cases e; cases e'; exact hlt
  | log hx =>
    simp only [Transform.forward, logForward, isValid_fin, if_true, log_fin_pos hx] at e
    simp only [Transform.forward, logForward, isValid_fin, if_true, log_fin_pos (hx.trans hlt)] at e'
    cases e; cases e'
    exact log_strictMono hx hlt
  | @boxCox p _ hx =>
    by_cases hp : p = 0
    · subst hp
      simp only [Transform.forward, boxCoxForward_log hx] at e
      simp only [Transform.forward, boxCoxForward_log (hx.trans hlt)] at e'
      cases e; cases e'
      exact log_strictMono hx hlt
    · simp only [Transform.forward, boxCoxForward_pos hp hx] at e
      simp only [Transform.forward, boxCoxForward_pos hp (hx.trans hlt)] at e'
      cases e; cases e'
      rcases lt_or_gt_of_ne hp with hp | hp
      · have := realPow_gt hx hlt hp
        rw [div_lt_div_right_of_neg hp]
        linarith
      · have := realPow_lt hx hlt hp
        exact div_lt_div_of_pos_right (by linarith) hp
  | @boxCoxZero p hp =>
    simp only [Transform.forward, boxCoxForward_zero_base hp] at e
    simp only [Transform.forward, boxCoxForward_pos hp.ne' hlt] at e'
    cases e; cases e'
    have := realPow_pos x' p
    exact div_lt_div_of_pos_right (by linarith) hp
  | @started p s _ hp hs hx =>
    rcases le_or_gt x s with h | h
    · simp only [Transform.forward, startedForward_low hp hx h] at e
      cases e
      rcases le_or_gt x' s with h' | h'
      · simp only [Transform.forward, startedForward_low hp (hx.trans hlt.le) h'] at e'
        cases e'
        exact hlt
      · simp only [Transform.forward, startedForward_high hp hs h'] at e'
        cases e'
        exact lt_of_le_of_lt h (started_above hp hs h')
    · simp only [Transform.forward, startedForward_high hp hs h] at e
      simp only [Transform.forward, startedForward_high hp hs (h.trans hlt)] at e'
      cases e; cases e'
      have h1 := realPow_lt (div_pos (hs.trans h) hs) (div_lt_div_of_pos_right hlt hs) hp
      have h2 : (realPow (x / s) p - 1) / p < (realPow (x' / s) p - 1) / p := div_lt_div_of_pos_right (by linarith) hp
      exact mul_lt_mul_of_pos_left (by linarith) hs
  | @gamma G N tol _ hG hN hx =>
    have hx' : 0 < x' + tol := by linarith
    obtain ⟨p, p0, p1, hc, -⟩ := hG.pos (x + tol) hx
    obtain ⟨q, q0, q1, hc', -⟩ := hG.pos (x' + tol) hx'
    simp only [Transform.forward, gammaForward, isValid_fin, Bool.not_true, Bool.false_eq_true, if_false, fin_add, hc, ok_bind] at e
    simp only [Transform.forward, gammaForward, isValid_fin, Bool.not_true, Bool.false_eq_true, if_false, fin_add, hc', ok_bind] at e'
    exact hN.mono p q y y' p0 (hG.mono _ _ _ _ hx (by linarith) hc hc') q1 e e'

/-- **C58**, vectors: element by element, with the size of the input; a throwing element throws. -/
theorem c58_vec (t : Transform K) (input out : List (Fl K)) :
    (t.forward1 input = ok out ↔ List.Forall₂ (fun v w => t.forward v = ok w) input out) ∧
    (t.backward1 input = ok out ↔ List.Forall₂ (fun v w => t.backward v = ok w) input out) := by
  unfold Transform.forward1 Transform.backward1
  rw [mapM_vget, mapM_vget]
  exact ⟨mapM_ok_iff, mapM_ok_iff⟩

/-- **C58**, 2D vectors. -/
theorem c58_vec2 (t : Transform K) (input out : List (List (Fl K))) :
    (t.forward2 input = ok out ↔ List.Forall₂ (List.Forall₂ (fun v w => t.forward v = ok w)) input out) ∧
    (t.backward2 input = ok out ↔ List.Forall₂ (List.Forall₂ (fun v w => t.backward v = ok w)) input out) := by
  unfold Transform.forward2 Transform.backward2
  rw [mapM_vget, mapM_vget]
  exact ⟨mapM_ok_iff.trans (by simp only [(c58_vec t _ _).1]), mapM_ok_iff.trans (by simp only [(c58_vec t _ _).2])⟩

/-- **C58**, 3D vectors. -/
theorem c58_vec3 (t : Transform K) (input out : List (List (List (Fl K)))) :
    (t.forward3 input = ok out ↔ List.Forall₂ (List.Forall₂ (List.Forall₂ (fun v w => t.forward v = ok w))) input out) ∧
    (t.backward3 input = ok out ↔ List.Forall₂ (List.Forall₂ (List.Forall₂ (fun v w => t.backward v = ok w))) input out) := by
  unfold Transform.forward3 Transform.backward3
  rw [mapM_vget, mapM_vget]
  exact ⟨mapM_ok_iff.trans (by simp only [(c58_vec2 t _ _).1]), mapM_ok_iff.trans (by simp only [(c58_vec2 t _ _).2])⟩

/-- **C58**, constructors: parameters outside the domain are rejected, so a constructed transform has positive parameters. -/
theorem c58_constructed (p s : Fl K) (t : Transform K) :
    Transform.newStarted p s = ok t ↔ ∃ a b : K, p = fin a ∧ s = fin b ∧ 0 < a ∧ 0 < b ∧ t = .started (fin a) (fin b) := by
  unfold Transform.newStarted
  cases p with
  | fin a =>
    cases s with
    | fin b =>
      by_cases ha : a ≤ 0
      · simp [ha]
      · by_cases hb : b ≤ 0
        · simp [ha, hb]
        · simp only [isValid_fin, Bool.not_true, Bool.false_or, le_fin, decide_eq_true_eq, if_neg ha, if_neg hb]
          constructor
          · intro h; cases h; exact ⟨a, b, rfl, rfl, not_le.mp ha, not_le.mp hb, rfl⟩
          · rintro ⟨_, _, h1, h2, -, -, h3⟩; cases h1; cases h2; rw [h3]
    | _ => by_cases ha : a ≤ 0 <;> simp [ha]
  | _ => simp

/-- Values below the support of the gamma distribution make the transform throw. -/
theorem c58_gamma_throws {G : Dist K} (hG : GammaLaw G) (N : Dist K) {tol x : K} (h : x + tol < 0) :
    (Transform.gamma G N (fin tol)).forward (fin x) = .throw .logicError := by
  simp only [Transform.forward, gammaForward, isValid_fin, Bool.not_true, Bool.false_eq_true, if_false, fin_add, hG.neg _ h, throw_bind]

section examples
/-- Concrete cases of the domain over `ℝ`. -/
example : InDomain (Transform.boxCox (fin (1 / 10 : ℝ))) 0 ∧ InDomain (Transform.boxCox (fin (-2 : ℝ))) 3 ∧
    InDomain (Transform.started (fin (1 / 2 : ℝ)) (fin 2)) 7 ∧ InDomain (Transform.log : Transform ℝ) 4 :=
  ⟨.boxCoxZero (by norm_num), .boxCox (by norm_num), .started (by norm_num) (by norm_num) (by norm_num), .log (by norm_num)⟩

/-- The laws of the distributions can be met: a Pareto-like distribution and its counterpart on the real line. -/
example : GammaLaw (⟨fun v => match v with | fin x => if x < 0 then .throw .logicError else ok (fin (x / (1 + x))) | _ => ok nan,
    fun v => match v with | fin p => ok (fin (p / (1 - p))) | _ => ok nan⟩ : Dist ℚ) := by
  refine ⟨?_, ?_, ?_⟩
  · intro x hx
    have h1 : (0 : ℚ) < 1 + x := by linarith
    refine ⟨x / (1 + x), by positivity, (div_lt_one h1).mpr (by linarith), by simp [not_lt.mpr hx.le], ?_⟩
    have : 1 - x / (1 + x) = 1 / (1 + x) := by field_simp; ring
    simp only [this]
    congr 2
    field_simp
  · intro x y p q hx hxy e1 e2
    have hy := hx.trans hxy
    simp only [if_neg (not_lt.mpr hx.le), Res.ok.injEq, Fl.fin.injEq] at e1
    simp only [if_neg (not_lt.mpr hy.le), Res.ok.injEq, Fl.fin.injEq] at e2
    rw [← e1, ← e2, div_lt_div_iff₀ (by linarith) (by linarith)]
    nlinarith
  · intro x hx; simp [hx]
end examples

end Gridpp.Props
