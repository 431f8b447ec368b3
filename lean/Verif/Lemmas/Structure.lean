import Verif.Spec.Structure
import Verif.Model.Structure
import Verif.Lemmas.Nearest

/-! Lemmas on the correlation functions. -/

set_option linter.unusedSectionVars false

namespace Gridpp

open Fl Res

section
variable {K : Type} [Field K] [LinearOrder K] [IsStrictOrderedRing K] [LawfulExp K]

theorem barnes_pos (u : K) : 0 < Spec.barnes u := LawfulExp.exp_pos _
theorem barnes_even (u : K) : Spec.barnes (-u) = Spec.barnes u := by
  unfold Spec.barnes; rw [neg_mul_neg]
theorem barnes_zero : Spec.barnes (0 : K) = 1 := by
  unfold Spec.barnes; rw [mul_zero, zero_div, neg_zero, LawfulExp.exp_zero]
theorem barnes_anti {u v : K} (hu : 0 ≤ u) (h : u ≤ v) : Spec.barnes v ≤ Spec.barnes u := by
  unfold Spec.barnes
  apply exp_mono
  nlinarith

theorem soar_nonneg {u : K} (h : 0 ≤ u) : 0 ≤ Spec.soar u :=
  mul_nonneg (by linarith) (LawfulExp.exp_pos _).le
theorem soar_zero : Spec.soar (0 : K) = 1 := by
  unfold Spec.soar; rw [neg_zero, LawfulExp.exp_zero, add_zero, mul_one]
theorem soar_anti {u v : K} (hu : 0 ≤ u) (h : u ≤ v) : Spec.soar v ≤ Spec.soar u := by
  unfold Spec.soar
  have e : HasExp.exp (-u) = HasExp.exp (-v) * HasExp.exp (v - u) := by
    rw [← LawfulExp.exp_add]; congr 1; ring
  rw [e]
  have h1 := LawfulExp.add_one_le_exp (v - u)
  have h2 := LawfulExp.exp_pos (-v)
  have h3 : 1 + v ≤ (1 + u) * HasExp.exp (v - u) := by
    have : (1 + u) * (v - u + 1) ≤ (1 + u) * HasExp.exp (v - u) := mul_le_mul_of_nonneg_left h1 (by linarith)
    nlinarith
  calc (1 + v) * HasExp.exp (-v) ≤ ((1 + u) * HasExp.exp (v - u)) * HasExp.exp (-v) := mul_le_mul_of_nonneg_right h3 h2.le
    _ = (1 + u) * (HasExp.exp (-v) * HasExp.exp (v - u)) := by ring

theorem toar_nonneg {u : K} (h : 0 ≤ u) : 0 ≤ Spec.toar u :=
  mul_nonneg (by positivity) (LawfulExp.exp_pos _).le
theorem toar_zero : Spec.toar (0 : K) = 1 := by
  unfold Spec.toar; rw [neg_zero, LawfulExp.exp_zero]; ring
theorem toar_anti {u v : K} (hu : 0 ≤ u) (h : u ≤ v) : Spec.toar v ≤ Spec.toar u := by
  unfold Spec.toar
  obtain ⟨t, rfl⟩ : ∃ t, v = u + t := ⟨v - u, by ring⟩
  have ht : 0 ≤ t := by linarith
  have e : HasExp.exp (-u) = HasExp.exp (-(u + t)) * HasExp.exp t := by
    rw [← LawfulExp.exp_add]; congr 1; ring
  rw [e]
  have h1 := LawfulExp.quadratic_le_exp t ht
  have h2 := LawfulExp.exp_pos (-(u + t))
  have h3 : 1 + (u + t) + (u + t) * (u + t) / 3 ≤ (1 + u + u * u / 3) * HasExp.exp t := by
    have h4 : (1 + u + u * u / 3) * (1 + t + t * t / 2) ≤ (1 + u + u * u / 3) * HasExp.exp t :=
      mul_le_mul_of_nonneg_left h1 (by positivity)
    refine le_trans ?_ h4
    have : (1 + u + u * u / 3) * (1 + t + t * t / 2) - (1 + (u + t) + (u + t) * (u + t) / 3) =
      u * t / 3 + u * u * t / 3 + t * t / 6 + u * (t * t) / 2 + u * u * (t * t) / 6 := by ring
    have h5 : 0 ≤ u * t / 3 + u * u * t / 3 + t * t / 6 + u * (t * t) / 2 + u * u * (t * t) / 6 := by positivity
    linarith
  calc (1 + (u + t) + (u + t) * (u + t) / 3) * HasExp.exp (-(u + t))
      ≤ ((1 + u + u * u / 3) * HasExp.exp t) * HasExp.exp (-(u + t)) := mul_le_mul_of_nonneg_right h3 h2.le
    _ = (1 + u + u * u / 3) * (HasExp.exp (-(u + t)) * HasExp.exp t) := by ring

theorem powerlaw_pos (u : K) : 0 < Spec.powerlaw u := by
  unfold Spec.powerlaw
  have : 0 ≤ u * u := mul_self_nonneg u
  positivity
theorem powerlaw_even (u : K) : Spec.powerlaw (-u) = Spec.powerlaw u := by
  unfold Spec.powerlaw; rw [neg_mul_neg]
theorem powerlaw_zero : Spec.powerlaw (0 : K) = 1 := by
  unfold Spec.powerlaw; rw [mul_zero, zero_div, add_zero, div_one]
theorem powerlaw_anti {u v : K} (hu : 0 ≤ u) (h : u ≤ v) : Spec.powerlaw v ≤ Spec.powerlaw u := by
  unfold Spec.powerlaw
  have : 0 ≤ u * u := mul_self_nonneg u
  apply one_div_le_one_div_of_le
  · positivity
  · nlinarith

/-- The factor of each class, as specified. -/
def Kind.factor : Kind → K → Fl K → K
  | .barnes => Spec.scaled Spec.barnes
  | .soar => Spec.scaled Spec.soar
  | .toar => Spec.scaled Spec.toar
  | .powerlaw => Spec.scaled Spec.powerlaw
  | .linear => Spec.linear

theorem Kind.rho_fin (k : Kind) (d : K) (L : Fl K) : k.rho (fin d) L = fin (k.factor d L) := by
  have h0 : ∀ (f : Fl K), (0 : Fl K) = fin 0 := fun _ => rfl
  cases L with
  | fin l =>
    cases k with
    | linear =>
      simp only [Kind.rho, linearRho, Kind.factor, Spec.linear, isValid_fin, Bool.not_true, Bool.false_or, zero_def, lt_fin,
        one_def, fin_sub, Fl.abs, gt_fin, decide_eq_true_eq]
      by_cases hl : l < 0
      · rw [if_pos hl, if_pos hl]
      · rw [if_neg hl, if_neg hl, if_neg (by simp)]
        by_cases hd : 1 < |d|
        · rw [if_pos hd, fin_mul, fin_sub, min_eq_right hd.le]
        · rw [if_neg hd, fin_mul, fin_sub, min_eq_left (not_lt.mp hd)]
    | barnes =>
      simp only [Kind.rho, barnesRho, Kind.factor, Spec.scaled, isValid_fin, Bool.not_true, Bool.false_or, zero_def, feq_fin, decide_eq_true_eq]
      by_cases hl : l = 0
      · rw [if_pos hl, if_pos hl]; rfl
      · rw [if_neg hl, if_neg hl, if_neg (by simp), fin_div_of_ne d hl, fin_mul, fin_mul]
        show fin (HasExp.exp _) = fin (HasExp.exp _)
        congr 2
        ring
    | soar =>
      simp only [Kind.rho, soarRho, Kind.factor, Spec.scaled, isValid_fin, Bool.not_true, Bool.false_or, zero_def, feq_fin, decide_eq_true_eq]
      by_cases hl : l = 0
      · rw [if_pos hl, if_pos hl]; rfl
      · rw [if_neg hl, if_neg hl, if_neg (by simp), fin_div_of_ne d hl, one_def, fin_add, fin_neg]
        rfl
    | toar =>
      simp only [Kind.rho, toarRho, Kind.factor, Spec.scaled, isValid_fin, Bool.not_true, Bool.false_or, zero_def, feq_fin, decide_eq_true_eq]
      by_cases hl : l = 0
      · rw [if_pos hl, if_pos hl]; rfl
      · rw [if_neg hl, if_neg hl, if_neg (by simp), fin_div_of_ne d hl, one_def, fin_mul, fin_add, fin_neg,
          fin_div_of_ne _ (by norm_num : (3 : K) ≠ 0), fin_add]
        rfl
    | powerlaw =>
      simp only [Kind.rho, powerlawRho, Kind.factor, Spec.scaled, isValid_fin, Bool.not_true, Bool.false_or, zero_def, feq_fin, decide_eq_true_eq]
      by_cases hl : l = 0
      · rw [if_pos hl, if_pos hl]; rfl
      · have hp : 1 + 1 / 2 * (d / l) * (d / l) ≠ 0 := by
          have : 0 ≤ (d / l) * (d / l) := mul_self_nonneg _
          nlinarith
        rw [if_neg hl, if_neg hl, if_neg (by simp), fin_div_of_ne d hl, one_def, fin_mul, fin_mul, fin_add, fin_div_of_ne _ hp]
        unfold Spec.powerlaw
        congr 3
        ring
  | nan => cases k <;> rfl
  | pinf => cases k <;> rfl
  | ninf => cases k <;> rfl

theorem cressmanRho_fin (d : K) (L : Fl K) : cressmanRho (fin d) L = fin (Spec.cressman d L) := by
  cases L with
  | fin l =>
    simp only [cressmanRho, Spec.cressman, isValid_fin, Bool.not_true, Bool.false_or, zero_def, feq_fin, decide_eq_true_eq, ge_fin]
    by_cases hl : l = 0
    · rw [if_pos hl, if_pos hl]; rfl
    · rw [if_neg hl, if_neg hl, if_neg (by simp)]
      by_cases hd : l ≤ d
      · rw [if_pos hd, if_pos hd]
      · have hp : l * l + d * d ≠ 0 := by
          have h1 : 0 < l * l := lt_of_le_of_ne (mul_self_nonneg l) (Ne.symm (mul_self_ne_zero.mpr hl))
          have h2 : 0 ≤ d * d := mul_self_nonneg d
          linarith
        rw [if_neg hd, if_neg hd, fin_mul, fin_mul, fin_sub, fin_add, fin_div_of_ne _ hp]
  | nan => rfl
  | pinf => rfl
  | ninf => rfl

theorem optional_factor {f : Fl K → Fl K → Fl K} {g : K → Fl K → K} (hf : ∀ d L, f (fin d) L = fin (g d L)) (r : K) (a b L : Fl K) :
    (if a.isValid && b.isValid then fin r * f (a - b) L else fin r) = fin (r * Spec.optional g L (Spec.difference a b)) := by
  cases a <;> cases b <;>
    simp [Spec.difference, Spec.optional, hf, Bool.and_false]

theorem Kind.product_fin (k : Kind) (p1 p2 : Point K) (d : K) (h v w : Fl K) :
    k.product p1 p2 (fin d) h v w = fin (Spec.correlation k.factor p1 p2 d h v w) := by
  unfold Kind.product Spec.correlation
  simp only [k.rho_fin]
  rw [optional_factor k.rho_fin, optional_factor k.rho_fin]

theorem cressmanCorr_fin [HasSqrt K] {h v w : Fl K} {p1 p2 : Point K} {d : K} (hd : p1.distance p2 = fin d) :
    cressmanCorr h v w p1 p2 = fin (Spec.correlation Spec.cressman p1 p2 d h v w) := by
  unfold cressmanCorr Spec.correlation
  simp only [hd, cressmanRho_fin]
  rw [optional_factor cressmanRho_fin, optional_factor cressmanRho_fin]

theorem sqDist_nonneg' (p q : Pt3 K) : 0 ≤ sqDist p q := by
  unfold sqDist
  have h1 := mul_self_nonneg (p.x - q.x)
  have h2 := mul_self_nonneg (p.y - q.y)
  have h3 := mul_self_nonneg (p.z - q.z)
  linarith

theorem distance_fin [HasSqrt K] {p1 p2 : Point K} {q1 q2 : Pt3 K} (h1 : Spec.LiesAt p1 q1) (h2 : Spec.LiesAt p2 q2) :
    p1.distance p2 = fin (straightDistance q1 q2) := by
  obtain ⟨a, b, c⟩ := h1
  obtain ⟨a', b', c'⟩ := h2
  unfold Point.distance straightDistance
  rw [a, b, c, a', b', c', fin_sub, fin_sub, fin_sub, fin_mul, fin_mul, fin_mul, fin_add, fin_add]
  exact sqrt_fin (sqDist_nonneg' q1 q2)

theorem sqDist_comm' (p q : Pt3 K) : sqDist p q = sqDist q p := by unfold sqDist; ring

theorem straightDistance_comm' [HasSqrt K] (p q : Pt3 K) : straightDistance p q = straightDistance q p := by
  unfold straightDistance; rw [sqDist_comm']

theorem straightDistance_nonneg' [LawfulSqrt K] (p q : Pt3 K) : 0 ≤ straightDistance p q :=
  LawfulSqrt.sqrt_nonneg _ (sqDist_nonneg' p q)

theorem sqrt_zero' [LawfulSqrt K] : HasSqrt.sqrt (0 : K) = 0 :=
  mul_self_eq_zero.mp (LawfulSqrt.sqrt_mul_self (0 : K) le_rfl)

theorem straightDistance_self' [LawfulSqrt K] (p : Pt3 K) : straightDistance p p = 0 := by
  unfold straightDistance sqDist; simp [sqrt_zero']

end
end Gridpp
