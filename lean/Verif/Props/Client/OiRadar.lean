import Verif.Lemmas.Client.OiRadar
import Verif.Props.Client.OiEnsemble

/-! # C138: observations by radar in the calibrator `oi` -/

set_option linter.unusedSectionVars false

namespace Gridpp.Props
open Fl hiding MV isValid
open Res Client Matrix

variable {K : Type} [Field K] [LinearOrder K] [IsStrictOrderedRing K]

/-- What is assumed of the errors of the observations with three parameters: `D` are the distances between radar stations, and the
correlations are positive definite. -/
structure OiRadarErrors [HasExp K] (o : OiOptions K) (dist : Fl K → Fl K → Fl K → Fl K → Res (Fl K)) (sel : List Nat) (st : Nat → OiStation K) (radar : Nat → Bool)
    (D : Nat → Nat → K) (L sg sc : K) (ci G : Nat → K) : Prop where
  sigma : o.sigma = fin sg
  sigma_ne : sg ≠ 0
  sigmaC : o.sigmaC = fin sc
  sigmaC_ne : sc ≠ 0
  length : o.hLengthC = fin L
  length_ne : L ≠ 0
  ci_pos : ∀ i ∈ sel, 0 < ci i
  rho_pos : ∀ i ∈ sel, 0 < G i
  is_radar : ∀ i ∈ sel, (st i).radar.gt 0 = radar i
  some_radar : ∃ i ∈ sel, radar i = true
  distance : ∀ i ∈ sel, ∀ j ∈ sel, radar i = true → radar j = true → dist (st i).lat (st i).lon (st j).lat (st j).lon = ok (fin (D i j))
  symm : ∀ i ∈ sel, ∀ j ∈ sel, D i j = D j i
  definite : ∀ v : Fin sel.length → K, v ≠ 0 → 0 < v ⬝ᵥ ((Matrix.of (Spec.radarCorr radar D L sel.get)) *ᵥ v)

section
variable [FloorRing K] [LawfulSqrt K] [HasExp K]

theorem radarCorr_fin (L : K) (D : Nat → Nat → K) (sel : List Nat) (radar : Nat → Bool) (a b : Fin (oiRadarAt sel radar).length) :
    Spec.radarCorr radar D L sel.get (oiRadarFin sel radar a) (oiRadarFin sel radar b) = oiRadarC L D sel radar a b := by
  have hrad : ∀ a : Fin (oiRadarAt sel radar).length, radar (sel.get (oiRadarFin sel radar a)) = true := fun a => by
    by_contra hh
    have := (oiRadarPos_none (oiRadarFin sel radar a)).mpr (by simpa using hh)
    rw [oiRadarPos_fin] at this
    cases this
  unfold Spec.radarCorr oiRadarC
  by_cases hab : a = b
  · rw [if_pos (by rw [hab]), if_pos hab]
  · rw [if_neg (fun hh => hab (by
      have := oiRadarPos_fin sel radar a
      rw [hh, oiRadarPos_fin] at this
      exact (Option.some.inj this).symm)), if_neg hab, hrad, hrad]
    rfl

/-- The restriction to the radar stations is positive definite. -/
theorem OiRadarErrors.restrict {o : OiOptions K} {dist : Fl K → Fl K → Fl K → Fl K → Res (Fl K)} {sel : List Nat} {st : Nat → OiStation K} {radar : Nat → Bool}
    {D : Nat → Nat → K} {L sg sc : K} {ci G : Nat → K} (he : OiRadarErrors o dist sel st radar D L sg sc ci G) :
    (Matrix.of (oiRadarC L D sel radar)).det ≠ 0 ∧ Precision (Matrix.of (oiRadarC L D sel radar))⁻¹ (Matrix.of (oiRadarC L D sel radar)) := by
  refine Precision.of_pos ?_ fun u hu => ?_
  · ext a b
    rw [transpose_apply, of_apply, of_apply]
    unfold oiRadarC
    by_cases hab : a = b
    · subst hab; rfl
    · rw [if_neg hab, if_neg (Ne.symm hab), he.symm _ (List.get_mem _ _) _ (List.get_mem _ _)]
  · obtain ⟨v, hv1, hv2⟩ : ∃ v : Fin sel.length → K, (∀ a, v (oiRadarFin sel radar a) = u a) ∧ ∀ i, oiRadarPos sel radar i = none → v i = 0 :=
      ⟨fun i => match oiRadarPos sel radar i with
        | some a => u a
        | none => 0, fun a => by simp only [oiRadarPos_fin], fun i hi => by simp only [hi]⟩
    have hv0 : v ≠ 0 := fun h0 => hu (by
      funext a
      rw [← hv1, h0]
      rfl)
    have := he.definite v hv0
    have e : v ⬝ᵥ ((Matrix.of (Spec.radarCorr radar D L sel.get)) *ᵥ v) = u ⬝ᵥ ((Matrix.of (oiRadarC L D sel radar)) *ᵥ u) := by
      show ∑ i, v i * (∑ j, Spec.radarCorr radar D L sel.get i j * v j) = ∑ a, u a * (∑ b, oiRadarC L D sel radar a b * u b)
      rw [sum_block (oiRadarPos_fin sel radar) oiRadarFin_of_pos, Finset.sum_eq_zero (s := Finset.univ.filter fun i => oiRadarPos sel radar i = none) (fun i hi => by
        rw [hv2 i (by simpa using hi), zero_mul]), zero_add]
      refine Finset.sum_congr rfl fun a _ => ?_
      rw [hv1, sum_block (oiRadarPos_fin sel radar) oiRadarFin_of_pos, Finset.sum_eq_zero (s := Finset.univ.filter fun i => oiRadarPos sel radar i = none) (fun i hi => by
        rw [hv2 i (by simpa using hi), mul_zero]), zero_add]
      congr 1
      refine Finset.sum_congr rfl fun b _ => ?_
      rw [hv1, radarCorr_fin]
    rwa [e] at this

/-- The covariances of the errors are those of the specification. -/
theorem OiRadarErrors.cov {o : OiOptions K} {dist : Fl K → Fl K → Fl K → Fl K → Res (Fl K)} {sel : List Nat} {st : Nat → OiStation K} {radar : Nat → Bool}
    {D : Nat → Nat → K} {L sg sc : K} {ci G : Nat → K} (he : OiRadarErrors o dist sel st radar D L sg sc ci G) :
    blockMat (oiRadarPos sel radar) (Matrix.of (oiRadarC L D sel radar)) (fun a => (HasSqrt.sqrt (G (sel.get a)) / sc)⁻¹)
      (fun a => (G (sel.get a) / (sg * sg * ci (sel.get a)))⁻¹) = Spec.radarCov radar D L sg sc ci G sel.get := by
  funext i j
  have hs : ∀ i : Fin sel.length, HasSqrt.sqrt (G (sel.get i)) * HasSqrt.sqrt (G (sel.get i)) = G (sel.get i) := fun i =>
    LawfulSqrt.sqrt_mul_self _ (he.rho_pos _ (List.get_mem _ _)).le
  have hG0 : ∀ i : Fin sel.length, HasSqrt.sqrt (G (sel.get i)) ≠ 0 := fun i h0 => by
    have := hs i
    rw [h0, mul_zero] at this
    exact (he.rho_pos _ (List.get_mem sel i)).ne this
  unfold Spec.radarCov
  by_cases hr : radar (sel.get i) = true ∧ radar (sel.get j) = true
  · obtain ⟨a, ha⟩ : ∃ a, oiRadarPos sel radar i = some a := Option.ne_none_iff_exists'.mp fun hh => by
      rw [oiRadarPos_none, hr.1] at hh; cases hh
    obtain ⟨b, hb⟩ : ∃ b, oiRadarPos sel radar j = some b := Option.ne_none_iff_exists'.mp fun hh => by
      rw [oiRadarPos_none, hr.2] at hh; cases hh
    rw [blockMat_some ha hb, of_apply, ← radarCorr_fin, ← oiRadarFin_of_pos i a ha, ← oiRadarFin_of_pos j b hb]
    by_cases hij : i = j
    · subst hij
      rw [if_pos rfl, if_pos hr.1, Spec.radarCorr, if_pos rfl, mul_one, ← mul_inv, div_mul_div_comm, hs, inv_div]
    · rw [if_neg hij, ← mul_inv, div_mul_div_comm, inv_div]
      ring
  · have hn : oiRadarPos sel radar i = none ∨ oiRadarPos sel radar j = none := by
      rw [oiRadarPos_none, oiRadarPos_none]
      by_contra hh
      push Not at hh
      exact hr (by simpa using hh)
    have e : blockMat (oiRadarPos sel radar) (Matrix.of (oiRadarC L D sel radar)) (fun a => (HasSqrt.sqrt (G (sel.get a)) / sc)⁻¹)
      (fun a => (G (sel.get a) / (sg * sg * ci (sel.get a)))⁻¹) i j = if i = j then (G (sel.get i) / (sg * sg * ci (sel.get i)))⁻¹ else 0 := by
      rcases hn with hn | hn
      · rw [blockMat_none hn]
      · rw [blockMat_none' hn]
    rw [e]
    by_cases hij : i = j
    · subst hij
      rw [if_pos rfl, if_pos rfl, if_neg (fun hh => hr ⟨hh, hh⟩), inv_div]
    · rw [if_neg hij, if_neg hij, Spec.radarCorr, if_neg hij, if_neg (by simpa using hr), mul_zero, zero_div]

/-- C138: in ensemble mode with three parameters, with radar stations among those used, the analysis is the Kalman update with errors of the observations
that are correlated between radar stations (with the scale `hLengthC`) and independent otherwise; the standard deviation of the errors is
`sigmaC` for radar stations. The new bias is as with two parameters. Partial: the claim is false where no radar station is used, if the library says that the
matrix without elements cannot be inverted (`c138_no_radar_false`). -/
theorem c138_radar_partial {A : ArmaE K} (hA : A.Lawful) {o : OiOptions K} {dist : Fl K → Fl K → Fl K → Fl K → Res (Fl K)}
    {stations : List (OiStation K)} {gY : List (List (Fl K) × Fl K)} {members sel : List Nat} {st : Nat → OiStation K} {obs ci h : Nat → K} {Y p : Nat → Nat → K}
    (hm : OiEnsembleMode o members sel p Y) (H : OiSelected stations gY members sel st obs ci h Y) (g : OiPlace K) {G : Nat → K} {radar : Nat → Bool}
    {D : Nat → Nat → K} {L sg sc : K} (he : OiRadarErrors o dist sel st radar D L sg sc ci G) {b : List (Fl K)} {x : Nat → K} (hb : ∀ e ∈ members, b[e]? = some (fin (x e)))
    (B : Option K) {gamma : K} (hg : B ≠ none → o.gamma = fin gamma ∧ 0 < 1 + gamma) {δ : K} (hδ : 0 < δ) (hs : o.saveDiff = true ∨ o.extrapolate = true) :
    ∃ r a, oiCellC A o dist 3 stations gY members g b (B.map fin) (fin δ) (rhoPairs G sel) = ok r ∧
      r.out.length = b.length ∧ (∀ e < b.length, e ∉ members → r.out[e]? = some Client.MV) ∧
      Spec.InflatedUpdate members.toFinset x (fun i => p (sel.get i)) (oiInflation δ (B.map fun _ => gamma)) (Spec.radarCov radar D L sg sc ci G sel.get)
        (fun i => if o.diagnose then 1 else obs (sel.get i) - h (sel.get i)) a ∧
      r.bias = oiBiasAfter B gamma (Spec.ensMean members.toFinset a - Spec.ensMean members.toFinset x) ∧
      ∀ e ∈ members, r.out[e]? = some (fin (if o.saveDiff then a e - Spec.ensMean members.toFinset x else a e)) := by
  obtain ⟨hdet, hP⟩ := he.restrict
  have hpr := Precision.block (oiRadarPos_fin sel radar) oiRadarFin_of_pos hP (s := fun a : Fin sel.length => HasSqrt.sqrt (G (sel.get a)) / sc)
    (q := fun a : Fin sel.length => G (sel.get a) / (sg * sg * ci (sel.get a))) (fun a => div_ne_zero (fun h0 => by
      have := LawfulSqrt.sqrt_mul_self _ (he.rho_pos _ (List.get_mem sel a)).le
      rw [h0, mul_zero] at this
      exact (he.rho_pos _ (List.get_mem sel a)).ne this) he.sigmaC_ne)
    (fun a => div_pos (he.rho_pos _ (List.get_mem _ _)) (mul_pos (mul_self_pos.mpr he.sigma_ne) (he.ci_pos _ (List.get_mem _ _))))
  obtain ⟨out, a, h1, h2, h3, h4, h5⟩ := oiCell_ensemble hA dist 3 hm H g G hpr
    (oiRinvAll_three hA he.sigma he.sigma_ne he.sigmaC he.sigmaC_ne dist (fun i hi => ⟨H.ci i hi, he.ci_pos i hi⟩) h Y G he.rho_pos he.is_radar he.some_radar
      (oiRadarR_eq he.length he.length_ne h Y G he.is_radar he.distance) hdet) hb B hg hδ
  rw [he.cov] at h4
  refine ⟨_, a, h1, h2, h3, h4, rfl, fun e he' => ?_⟩
  obtain ⟨k, rfl⟩ := List.mem_iff_get.mp he'
  obtain ⟨v, hv, c1, c2, -⟩ := h5 k
  show out[members.get k]? = _
  rw [hv]
  by_cases hd : o.saveDiff = true
  · rw [c1 hd, if_pos hd]
  · rw [c2 (by simpa using hd) (hs.resolve_left hd), if_neg hd]

/-- C138: if the errors of the radar stations cannot be told apart (the library gives the reciprocal condition number 0), the background
is kept, and the bias becomes 0. -/
theorem c138_singular {A : ArmaE K} {o : OiOptions K} {dist : Fl K → Fl K → Fl K → Fl K → Res (Fl K)}
    {stations : List (OiStation K)} {gY : List (List (Fl K) × Fl K)} {members sel : List Nat} {st : Nat → OiStation K} {obs ci h : Nat → K} {Y p : Nat → Nat → K}
    (hm : OiEnsembleMode o members sel p Y) (H : OiSelected stations gY members sel st obs ci h Y) (g : OiPlace K) {G : Nat → K} {radar : Nat → Bool}
    {D : Nat → Nat → K} {L : K} (hL : o.hLengthC = fin L) (h0 : L ≠ 0) (hr : ∀ i ∈ sel, (st i).radar.gt 0 = radar i)
    (hD : ∀ i ∈ sel, ∀ j ∈ sel, radar i = true → radar j = true → dist (st i).lat (st i).lon (st j).lat (st j).lon = ok (fin (D i j)))
    (hc : A.rcond (toRows (Matrix.of (oiRadarC L D sel radar))) = 0) (b : List (Fl K)) (bias : Option (Fl K)) (delta : Fl K) :
    oiCellC A o dist 3 stations gY members g b bias delta (rhoPairs G sel) = ok ⟨b, List.replicate b.length 0, 0⟩ := by
  have hpos : 0 < sel.length := List.length_pos_of_ne_nil hm.some_station
  have hlen : (rhoPairs G sel).length ≠ 0 := by simpa [rhoPairs] using hpos.ne'
  have hmo : ¬ (!o.useEns || decide ((members.length : Int) < o.minEns)) = true := by
    have := hm.enough
    simp [hm.mode]
    omega
  unfold oiCellC
  rw [if_neg hlen, oiRows_eq H, ok_bind, if_neg hmo]
  unfold oiEnsemble oiRinvAll
  rw [if_neg (by decide), if_pos rfl, oiRadarR_eq hL h0 h Y G hr hD, ok_bind, if_pos (by rw [hc]; simp [zero_def])]
  rfl

end

/-- C138: it is false that other stations are used as with two parameters when there is no radar station: if the library gives 0 for the matrix without
elements, the background is kept. -/
theorem c138_no_radar_false :
    (oiCellC { WrongMember.lib with rcond := fun m => if m = [] then 0 else 1 } { oiDefault with minEns := 4, sigma := fin (2 / 3), extrapolate := true } (fun _ _ _ _ => .ok 0) 3
      [{ OiWrong.station with radar := 0 }, { OiWrong.station with radar := 0 }]
      [([fin (-1), fin (-1), fin 1, fin 1], fin 5), ([fin (-1), fin (-1), fin 1, fin 1], fin 5)] [0, 1, 2, 3] ⟨fin 60, fin 10, fin 50, fin 1⟩
      [fin 12, fin 12, fin 8, fin 8] none (fin 1) [(fin (1 / 2), 0), (fin (1 / 2), 1)]).bind (fun r => Res.ok r.out) = ok [fin 12, fin 12, fin 8, fin 8] ∧
    OiWrong.out false true = ok [fin 11, fin 11, fin 9, fin 9] := by
  refine ⟨by decide +kernel, by decide +kernel⟩

/-- Two radar stations at the distance of the scale and another station: the correlations are positive definite. -/
example : ∀ v : Fin ([0, 1, 2] : List Nat).length → ℝ, v ≠ 0 →
    0 < v ⬝ᵥ ((Matrix.of (Spec.radarCorr (fun i => decide (i < 2)) (fun _ _ => 10000) 10000 ([0, 1, 2] : List Nat).get)) *ᵥ v) := by
  intro v hv
  have hs : Spec.soar (1 : ℝ) ≤ 4 / 5 ∧ 0 < Spec.soar (1 : ℝ) := by
    unfold Spec.soar
    have h1 := LawfulExp.quadratic_le_exp (1 : ℝ) (by norm_num)
    have h2 := LawfulExp.exp_add (1 : ℝ) (-1)
    rw [add_neg_cancel, LawfulExp.exp_zero] at h2
    have h3 := LawfulExp.exp_pos (-1 : ℝ)
    constructor <;> nlinarith
  have e : v ⬝ᵥ ((Matrix.of (Spec.radarCorr (fun i => decide (i < 2)) (fun _ _ => 10000) 10000 ([0, 1, 2] : List Nat).get)) *ᵥ v) =
      v 0 * v 0 + v 1 * v 1 + v 2 * v 2 + 2 * Spec.soar 1 * (v 0 * v 1) := by
    show ∑ i : Fin 3, v i * ∑ j : Fin 3, Spec.radarCorr (fun i => decide (i < 2)) (fun _ _ => 10000) 10000 ([0, 1, 2] : List Nat).get i j * v j = _
    simp [Fin.sum_univ_three, Spec.radarCorr]
    ring
  rw [e]
  obtain ⟨i, hi⟩ := Function.ne_iff.mp hv
  have hi' : 0 < v i * v i := mul_self_pos.mpr hi
  have h01 : (1 / 5) * (v 0 * v 0 + v 1 * v 1) ≤ v 0 * v 0 + v 1 * v 1 + 2 * Spec.soar 1 * (v 0 * v 1) := by
    nlinarith [mul_nonneg hs.2.le (mul_self_nonneg (v 0 + v 1)), mul_self_nonneg (v 0), mul_self_nonneg (v 1), mul_nonneg (sub_nonneg.mpr hs.1) (mul_self_nonneg (v 0)),
      mul_nonneg (sub_nonneg.mpr hs.1) (mul_self_nonneg (v 1))]
  have h0 := mul_self_nonneg (v 0)
  have h1 := mul_self_nonneg (v 1)
  have h2 := mul_self_nonneg (v 2)
  have : v i * v i ≤ v 0 * v 0 + v 1 * v 1 + v 2 * v 2 := by
    have hall : ∀ i : Fin 3, i = 0 ∨ i = 1 ∨ i = 2 := by decide
    have hc := hall i
    rcases hc with rfl | rfl | rfl <;> linarith
  linarith

end Gridpp.Props
