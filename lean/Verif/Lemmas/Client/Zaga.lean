import Verif.Model.Client.Zaga
import Verif.Spec.Zaga
import Verif.Lemmas.Client.Series

/-! # The zero-adjusted gamma distribution: lemmas -/

set_option linter.unusedSectionVars false

namespace Gridpp.Client
open Fl hiding MV isValid
open Res Spec

variable {K : Type} [Field K] [LinearOrder K] [IsStrictOrderedRing K] [FloorRing K] [LawfulExp K]

/-- The parameters start with the eight numbers `c` and none is missing. -/
structure Pars8 (p : List (Fl K)) (c : Fin 8 → K) : Prop where
  present : ∀ v ∈ p, Present v
  eq : ∀ i : Fin 8, p[i.val]? = some (fin (c i))

omit [FloorRing K] [LawfulExp K] in
theorem valid_fin {q : K} (h : q ≠ -999) : isValid (fin q : Fl K) = true := isValid_iff_present.mpr ⟨q, rfl, h⟩

omit [FloorRing K] [LawfulExp K] in
theorem valid_nonneg {q : K} (h : 0 ≤ q) : isValid (fin q : Fl K) = true := valid_fin (by intro e; rw [e] at h; linarith)

theorem Pars8.all {p : List (Fl K)} {c : Fin 8 → K} (h : Pars8 p c) : p.all isValid = true := by
  rw [List.all_eq_true]
  exact fun v hv => isValid_iff_present.mpr (h.present v hv)

theorem Pars8.parAt {p : List (Fl K)} {c : Fin 8 → K} (h : Pars8 p c) (i : Fin 8) : parAt p i.val = ok (fin (c i)) := by
  have h1 := h.eq i
  have h2 := (List.getElem?_eq_some_iff.mp h1).1
  unfold Client.parAt
  rw [if_neg (by omega), vget_eq_ok_of_lt h2]
  rw [List.getElem?_eq_getElem h2, Option.some.injEq] at h1
  rw [h1]

theorem thirdRoot_unique {r r' m : K} (h : ThirdRoot r m) (h' : ThirdRoot r' m) : r = r' := by
  obtain ⟨h0, h1⟩ := h
  obtain ⟨g0, g1⟩ := h'
  rcases lt_trichotomy r r' with hl | hl | hl
  · exfalso
    have a1 : r * r ≤ r' * r' := mul_le_mul hl.le hl.le h0 g0
    have a2 : 0 < r' * r' := mul_pos (lt_of_le_of_lt h0 hl) (lt_of_le_of_lt h0 hl)
    have : r * r * r < r' * r' * r' := by nlinarith [mul_nonneg (mul_nonneg h0 h0) h0, mul_nonneg h0 h0]
    rw [h1, g1] at this
    exact lt_irrefl _ this
  · exact hl
  · exfalso
    have a1 : r' * r' ≤ r * r := mul_le_mul hl.le hl.le g0 h0
    have a2 : 0 < r * r := mul_pos (lt_of_le_of_lt g0 hl) (lt_of_le_of_lt g0 hl)
    have : r' * r' * r' < r * r * r := by nlinarith [mul_nonneg (mul_nonneg g0 g0) g0, mul_nonneg g0 g0]
    rw [h1, g1] at this
    exact lt_irrefl _ this

theorem pow_third {m : K} (hm : 0 ≤ m) : ∃ r, ThirdRoot r m ∧ Fl.pow (fin m) (fin (1 / 3)) = fin r := by
  rcases hm.eq_or_lt with h | h
  · subst h
    refine ⟨0, ⟨le_refl _, by ring⟩, ?_⟩
    rw [pow_zero_base (by norm_num), if_pos (by norm_num)]
  · refine ⟨realPow m (1 / 3), ⟨(realPow_pos _ _).le, ?_⟩, pow_pos_base h _⟩
    unfold realPow
    rw [← LawfulExp.exp_add, ← LawfulExp.exp_add]
    have : (1 / 3 * HasExp.log m + 1 / 3 * HasExp.log m + 1 / 3 * HasExp.log m : K) = HasExp.log m := by ring
    rw [this, LawfulExp.exp_log m h]

theorem thirdRoot_pow {r m : K} (h : ThirdRoot r m) : Fl.pow (fin m) (fin (1 / 3)) = fin r := by
  have hm : 0 ≤ m := by rw [← h.2]; exact mul_nonneg (mul_nonneg h.1 h.1) h.1
  obtain ⟨r', h1, h2⟩ := pow_third hm
  rw [h2, thirdRoot_unique h h1]

theorem logistic_eq (x : K) : HasExp.exp x / (HasExp.exp x + 1) = 1 / (1 + HasExp.exp (-x)) := by
  have h1 := LawfulExp.exp_pos x
  have h2 := LawfulExp.exp_pos (-x)
  have h3 := exp_neg_mul x
  rw [div_eq_div_iff (by positivity) (by positivity)]
  nlinarith

theorem logistic_pos (x : K) : 0 < 1 / (1 + HasExp.exp x) := by
  have h2 := LawfulExp.exp_pos x
  positivity

theorem logistic_lt_one (x : K) : 1 / (1 + HasExp.exp x) < 1 := by
  have h2 := LawfulExp.exp_pos x
  rw [div_lt_one (by positivity)]
  linarith

theorem invLogit_fin {x : K} (h : x ≠ -999) : invLogit (fin x : Fl K) = fin (1 / (1 + HasExp.exp (-x))) := by
  unfold invLogit
  rw [valid_fin h]
  have h1 := LawfulExp.exp_pos x
  simp only [Bool.not_true, Bool.false_eq_true, if_false, Fl.exp, one_def, fin_add]
  rw [fin_div_of_ne _ (by positivity), logistic_eq]

/-- A mean and a fraction the functions accept. -/
theorem zaga_accept {m f : K} (hm : 0 ≤ m) (h0 : 0 ≤ f) (h1 : f ≤ 1) :
    (!isValid (fin m : Fl K) || !isValid (fin f : Fl K) || (fin m : Fl K).lt 0 || (fin f : Fl K).lt 0 || (fin f : Fl K).gt 1) = false := by
  rw [valid_nonneg hm, valid_nonneg h0]
  simp [zero_def, one_def, lt_fin, gt_fin, hm, h0, h1]

theorem zagaP0_eq {p : List (Fl K)} {c : Fin 8 → K} (hp : Pars8 p c) {m f r : K} (hr : ThirdRoot r m) (h0 : 0 ≤ f) (h1 : f ≤ 1)
    (hl : c 4 + c 5 * m + c 6 * f + c 7 * r ≠ -999) :
    zagaP0 (fin m) (fin f) p = ok (fin (1 / (1 + HasExp.exp (-(c 4 + c 5 * m + c 6 * f + c 7 * r))))) := by
  have hm : 0 ≤ m := by rw [← hr.2]; exact mul_nonneg (mul_nonneg hr.1 hr.1) hr.1
  unfold zagaP0
  rw [zaga_accept hm h0 h1, hp.all]
  simp only [Bool.false_eq_true, if_false, Bool.not_true]
  have e4 := hp.parAt 4
  have e5 := hp.parAt 5
  have e6 := hp.parAt 6
  have e7 := hp.parAt 7
  simp only [show ((4 : Fin 8).val) = 4 from rfl, show ((5 : Fin 8).val) = 5 from rfl, show ((6 : Fin 8).val) = 6 from rfl,
    show ((7 : Fin 8).val) = 7 from rfl] at e4 e5 e6 e7
  simp only [e4, e5, e6, e7, ok_bind, thirdRoot_pow hr, fin_mul, fin_add, invLogit_fin hl]

theorem gammaMoments_unique {k s k' s' a b : K} (h : GammaMoments k s a b) (h' : GammaMoments k' s' a b) : k = k' ∧ s = s' := by
  obtain ⟨hk, hs, h1, h2⟩ := h
  obtain ⟨hk', hs', h3, h4⟩ := h'
  have e : s = s' := by
    have ha : a ≠ 0 := by rw [← h1]; positivity
    rw [h1] at h2
    rw [h3] at h4
    exact mul_left_cancel₀ ha (h2.trans h4.symm)
  subst e
  exact ⟨mul_right_cancel₀ hs.ne' (h1.trans h3.symm), rfl⟩

theorem gammaMoments_exists {mu sigma : K} (h1 : 0 < mu) (h2 : 0 < sigma) :
    GammaMoments (1 / (sigma * sigma)) (sigma * sigma * mu) mu (sigma * mu) := by
  refine ⟨by positivity, by positivity, ?_, ?_⟩ <;> field_simp

theorem zagaGamma_eq (mk : Fl K → Fl K → Dist K) {p : List (Fl K)} {c : Fin 8 → K} (hp : Pars8 p c) {m r k s : K} (hr : ThirdRoot r m)
    (h : GammaMoments k s (HasExp.exp (c 0 + c 1 * r)) (HasExp.exp (c 2 + c 3 * m) * HasExp.exp (c 0 + c 1 * r))) :
    zagaGamma mk (fin m) p = ok (some (mk (fin k) (fin s))) := by
  unfold zagaGamma
  have e0 := hp.parAt 0
  have e1 := hp.parAt 1
  have e2 := hp.parAt 2
  have e3 := hp.parAt 3
  simp only [show ((0 : Fin 8).val) = 0 from rfl, show ((1 : Fin 8).val) = 1 from rfl, show ((2 : Fin 8).val) = 2 from rfl,
    show ((3 : Fin 8).val) = 3 from rfl] at e0 e1 e2 e3
  simp only [e0, e1, e2, e3, ok_bind, thirdRoot_pow hr, fin_mul, fin_add, Fl.exp]
  have hmu := LawfulExp.exp_pos (c 0 + c 1 * r)
  have hsi := LawfulExp.exp_pos (c 2 + c 3 * m)
  obtain ⟨rfl, rfl⟩ := gammaMoments_unique h (gammaMoments_exists hmu hsi)
  have hss : HasExp.exp (c 2 + c 3 * m) * HasExp.exp (c 2 + c 3 * m) ≠ 0 := by positivity
  simp only [one_def, fin_div_of_ne _ hss, zero_def, le_fin, hmu.not_ge, hsi.not_ge, valid_nonneg hmu.le, valid_nonneg hsi.le,
    valid_nonneg h.1.le, valid_nonneg h.2.1.le, decide_false, Bool.or_self, Bool.false_eq_true, if_false, Bool.not_true]

end Gridpp.Client
