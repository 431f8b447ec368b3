import Verif.Model.Client.Likelihood
import Verif.Spec.Likelihood
import Verif.Lemmas.Client.Zaga
import Verif.Lemmas.Client.Gaussian
import Verif.Lemmas.Client.Stat

/-! # Likelihood: lemmas -/

set_option linter.unusedSectionVars false

namespace Gridpp.Client
open Fl hiding MV isValid
open Res Spec

variable {K : Type} [Field K] [LinearOrder K] [IsStrictOrderedRing K] [FloorRing K] [LawfulExp K]

theorem log_mul {x y : K} (hx : 0 < x) (hy : 0 < y) : (HasExp.log (x * y) : K) = HasExp.log x + HasExp.log y := by
  rw [← LawfulExp.log_exp (HasExp.log x + HasExp.log y), LawfulExp.exp_add, LawfulExp.exp_log x hx, LawfulExp.exp_log y hy]

theorem neg_log_le {x y : K} (hx : 0 < x) (hy : 0 < y) : -(HasExp.log x : K) ≤ -HasExp.log y ↔ y ≤ x := by
  rw [neg_le_neg_iff]
  refine ⟨fun h => ?_, fun h => log_mono hy h⟩
  by_contra hc
  exact absurd (log_strictMono hx (not_le.1 hc)) (not_lt.2 h)

/-- The terms of the sum are logarithms. -/
theorem minusSum_log {α : Type} {term : TrainCase K → Res (Fl K)} (g : α → TrainCase K) (w : α → K) (l : List α)
    (h : ∀ a ∈ l, term (g a) = ok (fin (HasExp.log (w a))) ∧ 0 < w a) :
    0 < (l.map w).prod ∧ minusSum term (l.map g) = ok (fin (-HasExp.log (l.map w).prod)) := by
  have key : ∀ (l : List α) (t : K), (∀ a ∈ l, term (g a) = ok (fin (HasExp.log (w a))) ∧ 0 < w a) → 0 < (l.map w).prod ∧
      foldM (fun t c => do
        let v ← term c
        ok (t + v)) (fin t) (l.map g) = ok (fin (t + HasExp.log (l.map w).prod)) := by
    intro l
    induction l with
    | nil => intro t _; simp [log_one]
    | cons a l ih =>
      intro t h
      have h1 := h a (by simp)
      have h2 := ih (t + HasExp.log (w a)) fun b hb => h b (by simp [hb])
      rw [List.map_cons, List.map_cons, List.prod_cons, foldM_cons, h1.1]
      refine ⟨mul_pos h1.2 h2.1, ?_⟩
      simp only [ok_bind, fin_add]
      rw [h2.2, log_mul h1.2 h2.1, add_assoc]
  obtain ⟨h1, h2⟩ := key l 0 h
  refine ⟨h1, ?_⟩
  unfold minusSum
  rw [h2]
  simp [ok_bind, fin_neg]

/-- The density used: a small number in place of 0. -/
def flooredDensity (d : K) : K := if d = 0 then 1 / 100000 else d

theorem flooredDensity_pos {d : K} (h : 0 ≤ d) : 0 < flooredDensity d := by
  unfold flooredDensity
  split
  · norm_num
  · exact lt_of_le_of_ne h (Ne.symm ‹_›)

theorem logDensity_eq {d : K} (h : 0 ≤ d) : logDensity (fin d) = ok (fin (HasExp.log (flooredDensity d))) := by
  have hp := flooredDensity_pos h
  have e : someDensity (fin d) = fin (flooredDensity d) := by
    unfold someDensity flooredDensity
    rw [valid_nonneg h]
    by_cases hd : d = 0
    · simp [hd, feq]
    · simp [hd, feq]
  unfold logDensity
  rw [e]
  simp [zero_def, gt_fin, hp, Fl.log]

theorem logDensity_missing : logDensity (Client.MV : Fl K) = ok (fin (HasExp.log (1 / 100000))) := by
  have e : someDensity (Client.MV : Fl K) = fin (1 / 100000) := by
    have : Client.isValid (Client.MV : Fl K) = false := by simp [Client.isValid, Client.MV]
    simp [someDensity, this]
  unfold logDensity
  rw [e]
  have : (0 : K) < 1 / 100000 := by norm_num
  simp only [zero_def, gt_fin, this, decide_true, assert_true, ok_bind, Fl.log, if_true]

theorem parAt_two (a b : K) : parAt [fin a, fin b] 0 = ok (fin a) ∧ parAt [fin a, fin b] 1 = ok (fin b) := by
  constructor <;> simp [parAt, vget]

theorem gaussPdf_eq {pdf : Fl K → Fl K → Fl K → Res (Fl K)} (x m s a b : K) (hm : 0 < m) :
    gaussPdf pdf (fin x) (fin m) (fin s) [fin a, fin b] = pdf (fin m) (fin (HasExp.exp (a + b * s))) (fin x) := by
  have hs := LawfulExp.exp_pos (a + b * s)
  simp only [gaussPdf, (parAt_two a b).1, (parAt_two a b).2, ok_bind, fin_mul, fin_add, Fl.exp, zero_def, le_fin, hm.not_ge, hs.not_ge,
    valid_nonneg hm.le, valid_nonneg hs.le, decide_false, Bool.or_self, Bool.false_eq_true, if_false, Bool.not_true]

theorem gaussPdf_cold {pdf : Fl K → Fl K → Fl K → Res (Fl K)} (x : Fl K) (m s a b : K) (hm : m ≤ 0) :
    gaussPdf pdf x (fin m) (fin s) [fin a, fin b] = ok Client.MV := by
  simp only [gaussPdf, (parAt_two a b).1, (parAt_two a b).2, ok_bind, Fl.exp, zero_def, le_fin, hm, decide_true, Bool.true_or, if_true]

theorem zagaShape_eq {p : List (Fl K)} {c : Fin 8 → K} (hp : Pars8 p c) {m r k s : K} (hr : ThirdRoot r m)
    (h : GammaMoments k s (HasExp.exp (c 0 + c 1 * r)) (HasExp.exp (c 2 + c 3 * m) * HasExp.exp (c 0 + c 1 * r))) :
    zagaShape (fin m) p = ok (some (fin k, fin s)) := by
  unfold zagaShape
  have e0 := hp.parAt 0
  have e1 := hp.parAt 1
  have e2 := hp.parAt 2
  have e3 := hp.parAt 3
  simp only [show ((0 : Fin 8).val) = 0 from rfl, show ((1 : Fin 8).val) = 1 from rfl, show ((2 : Fin 8).val) = 2 from rfl,
    show ((3 : Fin 8).val) = 3 from rfl] at e0 e1 e2 e3
  simp only [e0, e1, e2, e3, ok_bind, thirdRoot_pow hr, fin_mul, fin_add, Fl.exp]
  have hmu := LawfulExp.exp_pos (c 0 + c 1 * r)
  have hsi := LawfulExp.exp_pos (c 2 + c 3 * m)
  obtain ⟨rfl, rfl⟩ := gammaMoments_unique h (gammaMoments_exists hmu hsi)
  have hss : HasExp.exp (c 2 + c 3 * m) * HasExp.exp (c 2 + c 3 * m) ≠ 0 := by positivity
  simp only [one_def, fin_div_of_ne _ hss, zero_def, le_fin, hmu.not_ge, hsi.not_ge, valid_nonneg hmu.le, valid_nonneg hsi.le,
    valid_nonneg h.1.le, valid_nonneg h.2.1.le, decide_false, Bool.or_self, Bool.false_eq_true, if_false, Bool.not_true]

end Gridpp.Client
