import Verif.Lemmas.Client.OiEnsemble
import Verif.Props.Client.OiSingle
import Verif.Props.EnsiClamp
import Verif.Props.EnsiKalmanCases

/-! # C135-C137: the analysis of the calibrator `oi` in ensemble mode -/

set_option linter.unusedSectionVars false

namespace Gridpp.Props
open Fl hiding MV isValid
open Res Client Matrix

variable {K : Type} [Field K] [LinearOrder K] [IsStrictOrderedRing K]

/-- Ensemble mode: the members used, and their forecasts `p` at the stations, of which `Y` are the deviations from the mean. -/
structure OiEnsembleMode (o : OiOptions K) (members sel : List Nat) (p Y : Nat → Nat → K) : Prop where
  mode : o.useEns = true
  enough : o.minEns ≤ (members.length : Int)
  nodup : members.Nodup
  two : 2 ≤ members.length
  some_station : sel ≠ []
  deviation : ∀ i ∈ sel, ∀ e ∈ members, Y i e = p i e - Spec.ensMean members.toFinset (p i)

/-- The inflation of the covariances of the background: `δ`, and with a bias `δ * (1 + gamma)`. -/
def oiInflation (δ : K) (gamma : Option K) : K :=
  match gamma with
  | none => δ
  | some c => δ * (1 + c)

/-- The bias after the mean of the members has changed by `t`. -/
def oiBiasAfter (B : Option K) (gamma t : K) : Fl K :=
  match B with
  | none => 0
  | some c => fin (c - gamma / (1 + gamma) * t)

/-- What is saved for member number `k`, whose analysis is `a`. -/
def OiSaved (o : OiOptions K) (members sel : List Nat) (obs h : Nat → K) (Y : Nat → Nat → K) (x : Nat → K) (a : Nat → K) (k : Fin members.length) (v : Fl K) : Prop :=
  (o.saveDiff = true → v = fin (a (members.get k) - Spec.ensMean members.toFinset x)) ∧
  (o.saveDiff = false → o.extrapolate = true → v = fin (a (members.get k))) ∧
  (o.saveDiff = false → o.extrapolate = false → ∃ (r : K) (i : Fin sel.length) (j : Fin members.length), v = fin (x (members.get k) + r) ∧
    (i : Nat) = k % sel.length ∧ (j : Nat) = k / sel.length ∧
    Spec.Clamped (fun s : Fin sel.length => obs (sel.get s) - (Y (sel.get i) (members.get j) + h (sel.get s))) (a (members.get k) - x (members.get k)) r)

section
variable [FloorRing K] [LawfulSqrt K] [HasExp K]

/-- Ensemble mode with any covariances `R` of the errors of the observations. -/
theorem oiCell_ensemble {A : ArmaE K} (hA : A.Lawful) {o : OiOptions K} (dist : Fl K → Fl K → Fl K → Fl K → Res (Fl K)) (np : Nat)
    {stations : List (OiStation K)} {gY : List (List (Fl K) × Fl K)} {members sel : List Nat} {st : Nat → OiStation K} {obs ci h : Nat → K} {Y p : Nat → Nat → K}
    (hm : OiEnsembleMode o members sel p Y) (H : OiSelected stations gY members sel st obs ci h Y) (g : OiPlace K) (G : Nat → K)
    {Q R : Matrix (Fin sel.length) (Fin sel.length) K} (hQ : Precision Q R)
    (hR : oiRinvAll A o dist np (oiRowsOf G members sel st h Y) = ok (some (toRows Q)))
    {b : List (Fl K)} {x : Nat → K} (hb : ∀ e ∈ members, b[e]? = some (fin (x e))) (B : Option K) {gamma : K}
    (hg : B ≠ none → o.gamma = fin gamma ∧ 0 < 1 + gamma) {δ : K} (hδ : 0 < δ) :
    ∃ out a, oiCellC A o dist np stations gY members g b (B.map fin) (fin δ) (rhoPairs G sel) =
        ok ⟨out, List.replicate b.length 0, oiBiasAfter B gamma (Spec.ensMean members.toFinset a - Spec.ensMean members.toFinset x)⟩ ∧
      out.length = b.length ∧ (∀ e < b.length, e ∉ members → out[e]? = some Client.MV) ∧
      Spec.InflatedUpdate members.toFinset x (fun i => p (sel.get i)) (oiInflation δ (B.map fun _ => gamma)) R (oiD o.diagnose sel obs h) a ∧
      ∀ k : Fin members.length, ∃ v, out[members.get k]? = some v ∧ OiSaved o members sel obs h Y x a k v := by
  have hpos : 0 < sel.length := List.length_pos_of_ne_nil hm.some_station
  have hlen : (rhoPairs G sel).length ≠ 0 := by simpa [rhoPairs] using hpos.ne'
  have hmo : ¬ (!o.useEns || decide ((members.length : Int) < o.minEns)) = true := by
    have := hm.enough
    simp [hm.mode]
    omega
  have hN : (0 : K) < (members.length : K) - 1 := by
    have : (2 : K) ≤ (members.length : K) := by exact_mod_cast hm.two
    linarith
  have hc : 0 < oiInflation δ (B.map fun _ => gamma) := by
    cases B with
    | none => exact hδ
    | some c => exact mul_pos hδ (hg (by simp)).2
  have hd : oiDiag o (B.map (fin : K → Fl K)).isSome (fin δ) members.length = fin (((members.length : K) - 1) / oiInflation δ (B.map fun _ => gamma)) := by
    rw [oiDiag_eq (gamma := gamma) _ hδ.ne' (fun hh => by
      cases B with
      | none => cases hh
      | some c => exact ⟨(hg (by simp)).1, (hg (by simp)).2.ne'⟩)]
    cases B with
    | none => simp [oiInflation]
    | some c => simp [oiInflation]
  generalize hcc : oiInflation δ (B.map fun _ => gamma) = c at *
  obtain ⟨W, w, out, hW, hw, h1, h2, h3, h4⟩ := oiEnsemble_eq hA dist np hm.nodup (by have := hm.two; omega) G H.obs hQ hR (div_pos hN hc) hd hb
    (fun k => x (members.get k) - Spec.ensMean members.toFinset x) (fun _ => rfl)
  generalize hX : (fun k => x (members.get k) - Spec.ensMean members.toFinset x) = X at *
  have hX' : ∀ k, X k = x (members.get k) - Spec.ensMean members.toFinset x := fun k => by rw [← hX]
  obtain ⟨a, ha⟩ : ∃ a : Nat → K, ∀ k, a (members.get k) = Spec.ensMean members.toFinset x + ((X ᵥ* W) k + X ⬝ᵥ w) := by
    refine ⟨fun e => if hh : ∃ k, members.get k = e then Spec.ensMean members.toFinset x + ((X ᵥ* W) hh.choose + X ⬝ᵥ w) else 0, fun k => ?_⟩
    have hh : ∃ k', members.get k' = members.get k := ⟨k, rfl⟩
    dsimp only
    rw [dif_pos hh]
    have : hh.choose = k := (List.nodup_iff_injective_get.mp hm.nodup) hh.choose_spec
    rw [this]
  obtain ⟨hk1, hk2⟩ := kalmanG members hm.nodup hm.two x (fun i => p (sel.get i)) hQ (oiD o.diagnose sel obs h)
    (s := HasSqrt.sqrt c) (c := c) (by
      rcases (LawfulSqrt.sqrt_nonneg c hc.le).lt_or_eq with hh | hh
      · exact hh
      · have := LawfulSqrt.sqrt_mul_self c hc.le
        rw [← hh] at this
        simp at this
        exact absurd this.symm hc.ne') (LawfulSqrt.sqrt_mul_self c hc.le).symm (oiY members sel Y)
    (fun i k => hm.deviation _ (List.get_mem _ _) _ (List.get_mem _ _)) X hX' W hW a (fun k => by rw [ha, hw])
  refine ⟨out, a, ?_, h2, h3, hk1, fun k => ⟨_, h4 k, fun hs => ?_, fun hs he => ?_, fun hs he => ?_⟩⟩
  · unfold oiCellC
    rw [if_neg hlen, oiRows_eq H, ok_bind, if_neg hmo, h1]
    congr 2
    rw [hw, hk2]
    cases B with
    | none => rfl
    | some c' =>
      have hg' := hg (by simp)
      simp only [oiNewBias, oiBiasAfter, Option.map_some]
      rw [hg'.1, one_def, fin_add, fin_div_of_ne _ hg'.2.ne', fin_mul, fin_sub]
  · rw [if_pos hs, ha]
    congr 1
    ring
  · rw [if_neg (by simp [hs]), if_pos he, fin_add, ha]
  · rw [if_neg (by simp [hs]), if_neg (by simp [he])]
    obtain ⟨i, j, hi, hj, hel⟩ := oiElement_eq G members sel st h Y hpos k
    obtain ⟨r, hr1, hr2⟩ := oiLimit_clamped G members sel st h Y hpos H.obs k _ (X k) ((X ᵥ* W) k + X ⬝ᵥ w) hel
    refine ⟨r, i, j, ?_, hi, hj, ?_⟩
    · rw [hX' k] at hr1
      rw [hr1, fin_add]
      congr 1
      ring
    · rw [ha]
      have : Spec.ensMean members.toFinset x + ((X ᵥ* W) k + X ⬝ᵥ w) - x (members.get k) = (X ᵥ* W) k + X ⬝ᵥ w - X k := by rw [hX']; ring
      rw [this]
      exact hr2

/-- `Rinv` with two parameters. -/
theorem oiRinvAll_two (A : ArmaE K) {o : OiOptions K} {sg : K} (hsg : o.sigma = fin sg) (h0 : sg ≠ 0) (dist : Fl K → Fl K → Fl K → Fl K → Res (Fl K))
    {members sel : List Nat} {st : Nat → OiStation K} {ci : Nat → K} (hci : ∀ i ∈ sel, (st i).ci = fin (ci i) ∧ 0 < ci i) (h : Nat → K) (Y : Nat → Nat → K) (G : Nat → K) :
    oiRinvAll A o dist 2 (oiRowsOf G members sel st h Y) = ok (some (toRows (diagonal fun a : Fin sel.length => G (sel.get a) / (sg * sg * ci (sel.get a))))) := by
  unfold oiRinvAll
  rw [if_pos rfl, oiRowsOf_length]
  congr 2
  have e : oiRinv o (oiRowsOf G members sel st h Y) = List.ofFn fun a : Fin sel.length => fin (G (sel.get a) / (sg * sg * ci (sel.get a))) := by
    unfold oiRinv oiRowsOf
    rw [List.map_ofFn]
    congr 1
    funext a
    obtain ⟨h1, h2⟩ := hci _ (List.get_mem sel a)
    show fin (G (sel.get a)) / (o.sigma * o.sigma * (st (sel.get a)).ci) = _
    rw [hsg, h1, fin_mul, fin_mul, fin_div_of_ne _ (mul_ne_zero (mul_ne_zero h0 h0) h2.ne')]
  refine tab_toRows fun i j => ?_
  rw [e, Matrix.diagonal_apply]
  by_cases hij : i = j
  · rw [if_pos (by rw [hij]), if_pos hij, getD_ofFn]
  · rw [if_neg (fun c => hij (Fin.ext c)), if_neg hij, zero_def]

/-- What is assumed of the errors of the observations with two parameters. -/
structure OiErrors (o : OiOptions K) (sel : List Nat) (sg : K) (ci G : Nat → K) : Prop where
  sigma : o.sigma = fin sg
  sigma_ne : sg ≠ 0
  ci_pos : ∀ i ∈ sel, 0 < ci i
  rho_pos : ∀ i ∈ sel, 0 < G i

theorem OiErrors.precision {o : OiOptions K} {sel : List Nat} {sg : K} {ci G : Nat → K} (he : OiErrors o sel sg ci G) :
    Precision (diagonal fun a : Fin sel.length => G (sel.get a) / (sg * sg * ci (sel.get a)))
      (diagonal fun a : Fin sel.length => sg * sg * ci (sel.get a) / G (sel.get a)) :=
  Precision.diag (fun _ => div_pos (mul_pos (mul_self_pos.mpr he.sigma_ne) (he.ci_pos _ (List.get_mem _ _))) (he.rho_pos _ (List.get_mem _ _)))
    (fun _ => (inv_div _ _).symm)

/-- C135: in ensemble mode with two parameters, for any number of stations and members: the analysis `a` is the Kalman update of the
ensemble. The covariances of the background are those of the valid members, multiplied by `δ`, and by `1 + gamma` if there is a bias. The
errors of the observations are independent, with the variances `sigma^2 * ci`, divided by the correlation with the grid point. With the
option `extrapolate` the analysis is saved, and with `saveDiff` its difference from the mean of the background. Members that are not
valid are missing. Partial: with `saveDiff` the claim (the difference from the background) is false (`c135_savediff_false`); and the members
must be valid at the stations, where the mean is taken over all members (`c134_forecast`). -/
theorem c135_kalman_partial {A : ArmaE K} (hA : A.Lawful) {o : OiOptions K} (dist : Fl K → Fl K → Fl K → Fl K → Res (Fl K))
    {stations : List (OiStation K)} {gY : List (List (Fl K) × Fl K)} {members sel : List Nat} {st : Nat → OiStation K} {obs ci h : Nat → K} {Y p : Nat → Nat → K}
    (hm : OiEnsembleMode o members sel p Y) (H : OiSelected stations gY members sel st obs ci h Y) (g : OiPlace K) {G : Nat → K} {sg : K}
    (he : OiErrors o sel sg ci G) {b : List (Fl K)} {x : Nat → K} (hb : ∀ e ∈ members, b[e]? = some (fin (x e))) (B : Option K) {gamma : K}
    (hg : B ≠ none → o.gamma = fin gamma ∧ 0 < 1 + gamma) {δ : K} (hδ : 0 < δ) (hs : o.saveDiff = true ∨ o.extrapolate = true) :
    ∃ r a, oiCellC A o dist 2 stations gY members g b (B.map fin) (fin δ) (rhoPairs G sel) = ok r ∧
      r.out.length = b.length ∧ (∀ e < b.length, e ∉ members → r.out[e]? = some Client.MV) ∧ r.sigma = List.replicate b.length 0 ∧
      Spec.InflatedUpdate members.toFinset x (fun i => p (sel.get i)) (oiInflation δ (B.map fun _ => gamma))
        (fun i j => if i = j then sg * sg * ci (sel.get i) / G (sel.get i) else 0)
        (fun i => if o.diagnose then 1 else obs (sel.get i) - h (sel.get i)) a ∧
      ∀ e ∈ members, r.out[e]? = some (fin (if o.saveDiff then a e - Spec.ensMean members.toFinset x else a e)) := by
  obtain ⟨out, a, h1, h2, h3, h4, h5⟩ := oiCell_ensemble hA dist 2 hm H g G he.precision
    (oiRinvAll_two A he.sigma he.sigma_ne dist (fun i hi => ⟨H.ci i hi, he.ci_pos i hi⟩) h Y G) hb B hg hδ
  refine ⟨_, a, h1, h2, h3, rfl, ?_, fun e he' => ?_⟩
  · have : (diagonal fun a : Fin sel.length => sg * sg * ci (sel.get a) / G (sel.get a)) = fun i j => if i = j then sg * sg * ci (sel.get i) / G (sel.get i) else 0 := by
      funext i j
      rw [Matrix.diagonal_apply]
    rw [this] at h4
    exact h4
  · obtain ⟨k, rfl⟩ := List.mem_iff_get.mp he'
    obtain ⟨v, hv, c1, c2, -⟩ := h5 k
    show out[members.get k]? = _
    rw [hv]
    by_cases hd : o.saveDiff = true
    · rw [c1 hd, if_pos hd]
    · rw [c2 (by simpa using hd) (hs.resolve_left hd), if_neg hd]

/-- C135: with a number of parameters other than 2 or 3 (an observation without variance) the program ends. -/
theorem c135_parameters {A : ArmaE K} {o : OiOptions K} (dist : Fl K → Fl K → Fl K → Fl K → Res (Fl K)) {np : Nat} (hnp : np ≠ 2 ∧ np ≠ 3)
    {stations : List (OiStation K)} {gY : List (List (Fl K) × Fl K)} {members sel : List Nat} {st : Nat → OiStation K} {obs ci h : Nat → K} {Y p : Nat → Nat → K}
    (hm : OiEnsembleMode o members sel p Y) (H : OiSelected stations gY members sel st obs ci h Y) (g : OiPlace K) (G : Nat → K) (b : List (Fl K))
    (bias : Option (Fl K)) (delta : Fl K) : oiCellC A o dist np stations gY members g b bias delta (rhoPairs G sel) = .abort := by
  have hpos : 0 < sel.length := List.length_pos_of_ne_nil hm.some_station
  have hlen : (rhoPairs G sel).length ≠ 0 := by simpa [rhoPairs] using hpos.ne'
  have hmo : ¬ (!o.useEns || decide ((members.length : Int) < o.minEns)) = true := by
    have := hm.enough
    simp [hm.mode]
    omega
  unfold oiCellC
  rw [if_neg hlen, oiRows_eq H, ok_bind, if_neg hmo]
  unfold oiEnsemble oiRinvAll
  rw [if_neg hnp.1, if_neg hnp.2]
  rfl

/-- C136: without the option `extrapolate`, with two parameters, the change of a member is the change made by the Kalman update, limited to the
range between the smallest and the greatest difference between observation and forecast at the stations used, and 0. If one station is
used, the forecast is that of the member. Partial: with more stations the claim is false (`c136_wrong_member`): the number added to the mean
forecast of each station is one element of the matrix of deviations, that of station `k % m` and member `k / m`; and the limits are not used in the case
`Spec.Gap`. -/
theorem c136_filter_partial {A : ArmaE K} (hA : A.Lawful) {o : OiOptions K} (dist : Fl K → Fl K → Fl K → Fl K → Res (Fl K))
    {stations : List (OiStation K)} {gY : List (List (Fl K) × Fl K)} {members sel : List Nat} {st : Nat → OiStation K} {obs ci h : Nat → K} {Y p : Nat → Nat → K}
    (hm : OiEnsembleMode o members sel p Y) (H : OiSelected stations gY members sel st obs ci h Y) (g : OiPlace K) {G : Nat → K} {sg : K}
    (he : OiErrors o sel sg ci G) {b : List (Fl K)} {x : Nat → K} (hb : ∀ e ∈ members, b[e]? = some (fin (x e))) (B : Option K) {gamma : K}
    (hg : B ≠ none → o.gamma = fin gamma ∧ 0 < 1 + gamma) {δ : K} (hδ : 0 < δ) (hs : o.saveDiff = false) (hx : o.extrapolate = false) :
    ∃ r a, oiCellC A o dist 2 stations gY members g b (B.map fin) (fin δ) (rhoPairs G sel) = ok r ∧
      Spec.InflatedUpdate members.toFinset x (fun i => p (sel.get i)) (oiInflation δ (B.map fun _ => gamma))
        (fun i j => if i = j then sg * sg * ci (sel.get i) / G (sel.get i) else 0)
        (fun i => if o.diagnose then 1 else obs (sel.get i) - h (sel.get i)) a ∧
      ∀ k : Fin members.length, ∃ inc, r.out[members.get k]? = some (fin (x (members.get k) + inc)) ∧
        (sel.length = 1 → Spec.Clamped (fun s : Fin sel.length => obs (sel.get s) - (Y (sel.get s) (members.get k) + h (sel.get s)))
          (a (members.get k) - x (members.get k)) inc) ∧
        ∃ (i : Fin sel.length) (j : Fin members.length), (i : Nat) = k % sel.length ∧ (j : Nat) = k / sel.length ∧
          Spec.Clamped (fun s : Fin sel.length => obs (sel.get s) - (Y (sel.get i) (members.get j) + h (sel.get s)))
            (a (members.get k) - x (members.get k)) inc := by
  obtain ⟨out, a, h1, h2, h3, h4, h5⟩ := oiCell_ensemble hA dist 2 hm H g G he.precision
    (oiRinvAll_two A he.sigma he.sigma_ne dist (fun i hi => ⟨H.ci i hi, he.ci_pos i hi⟩) h Y G) hb B hg hδ
  refine ⟨_, a, h1, ?_, fun k => ?_⟩
  · have : (diagonal fun a : Fin sel.length => sg * sg * ci (sel.get a) / G (sel.get a)) = fun i j => if i = j then sg * sg * ci (sel.get i) / G (sel.get i) else 0 := by
      funext i j
      rw [Matrix.diagonal_apply]
    rw [this] at h4
    exact h4
  · obtain ⟨v, hv, -, -, c3⟩ := h5 k
    obtain ⟨r, i, j, rfl, hi, hj, hc⟩ := c3 hs hx
    refine ⟨r, hv, fun hone => ?_, i, j, hi, hj, hc⟩
    have ej : j = k := Fin.ext (by rw [hj, hone, Nat.div_one])
    have ei : ∀ s : Fin sel.length, i = s := fun s => Fin.ext (by have := s.2; have := i.2; omega)
    rw [ej] at hc
    convert hc using 2 with s
    rw [ei s]

/-- C137: in ensemble mode with two parameters, the new bias at a grid point with stations is the old one minus `gamma / (1 + gamma)` times the change of
the ensemble mean made by the Kalman update. It is that of the update before the filter. Partial: at other points the bias becomes 0
(`c137_reset_false`). -/
theorem c137_bias_partial {A : ArmaE K} (hA : A.Lawful) {o : OiOptions K} (dist : Fl K → Fl K → Fl K → Fl K → Res (Fl K))
    {stations : List (OiStation K)} {gY : List (List (Fl K) × Fl K)} {members sel : List Nat} {st : Nat → OiStation K} {obs ci h : Nat → K} {Y p : Nat → Nat → K}
    (hm : OiEnsembleMode o members sel p Y) (H : OiSelected stations gY members sel st obs ci h Y) (g : OiPlace K) {G : Nat → K} {sg : K}
    (he : OiErrors o sel sg ci G) {b : List (Fl K)} {x : Nat → K} (hb : ∀ e ∈ members, b[e]? = some (fin (x e))) (c : K) {gamma : K}
    (hg : o.gamma = fin gamma) (hg1 : 0 < 1 + gamma) {δ : K} (hδ : 0 < δ) :
    ∃ r a, oiCellC A o dist 2 stations gY members g b (some (fin c)) (fin δ) (rhoPairs G sel) = ok r ∧
      Spec.InflatedUpdate members.toFinset x (fun i => p (sel.get i)) (δ * (1 + gamma))
        (fun i j => if i = j then sg * sg * ci (sel.get i) / G (sel.get i) else 0)
        (fun i => if o.diagnose then 1 else obs (sel.get i) - h (sel.get i)) a ∧
      r.bias = fin (c - gamma / (1 + gamma) * (Spec.ensMean members.toFinset a - Spec.ensMean members.toFinset x)) := by
  obtain ⟨out, a, h1, h2, h3, h4, h5⟩ := oiCell_ensemble hA dist 2 hm H g G he.precision
    (oiRinvAll_two A he.sigma he.sigma_ne dist (fun i hi => ⟨H.ci i hi, he.ci_pos i hi⟩) h Y G) hb (some c) (fun _ => ⟨hg, hg1⟩) hδ
  refine ⟨_, a, h1, ?_, rfl⟩
  have : (diagonal fun a : Fin sel.length => sg * sg * ci (sel.get a) / G (sel.get a)) = fun i j => if i = j then sg * sg * ci (sel.get i) / G (sel.get i) else 0 := by
    funext i j
    rw [Matrix.diagonal_apply]
  rw [this] at h4
  exact h4

/-- C137: it is false that the bias is kept where there is nothing to learn: without stations in reach it becomes 0, in both modes. -/
theorem c137_reset_false (A : ArmaE K) (o : OiOptions K) (dist : Fl K → Fl K → Fl K → Fl K → Res (Fl K)) (np : Nat) (stations : List (OiStation K))
    (gY : List (List (Fl K) × Fl K)) (members : List Nat) (g : OiPlace K) (b : List (Fl K)) (delta : Fl K) {c : K} (hc : c ≠ 0) :
    ∃ r, oiCellC A o dist np stations gY members g b (some (fin c)) delta [] = ok r ∧ r.bias = fin 0 ∧ r.bias ≠ fin c :=
  ⟨_, rfl, rfl, fun hh => hc (Fl.fin.inj hh).symm⟩

end

/-! ### The claims are false -/

namespace OiWrong

def station : OiStation ℚ := ⟨fin 60, fin 10, fin 50, fin 5, fin 1, 0, 2, 2, fin 1⟩

/-- One grid point with four members, and two stations with the correlation 1/2 and the forecasts 4, 4, 6, 6; both observations are 5. The
library is that of `c77_wrong_member`. -/
def call (saveDiff extrapolate : Bool) : Res (OiResult ℚ) :=
  oiCellC WrongMember.lib { oiDefault with minEns := 4, sigma := fin (2 / 3), saveDiff, extrapolate } (fun _ _ _ _ => .ok 0) 2 [station, station]
    [([fin (-1), fin (-1), fin 1, fin 1], fin 5), ([fin (-1), fin (-1), fin 1, fin 1], fin 5)] [0, 1, 2, 3] ⟨fin 60, fin 10, fin 50, fin 1⟩
    [fin 12, fin 12, fin 8, fin 8] none (fin 1) [(fin (1 / 2), 0), (fin (1 / 2), 1)]

/-- The values saved. -/
def out (saveDiff extrapolate : Bool) : Res (List (Fl ℚ)) := (call saveDiff extrapolate).bind fun r => .ok r.out

end OiWrong

/-- C135: it is false that `saveDiff` saves the difference from the background: the analysis is 11, 11, 9, 9 and the background 12, 12, 8, 8, but
1, 1, -1, -1 is saved, the difference from the mean of the background. -/
theorem c135_savediff_false : OiWrong.out false true = ok [fin 11, fin 11, fin 9, fin 9] ∧
    OiWrong.out true true = ok [fin 1, fin 1, fin (-1), fin (-1)] ∧ (11 - 12 : ℚ) ≠ 1 := by
  refine ⟨by decide +kernel, by decide +kernel, by norm_num⟩

/-- C136: it is false that the change of a member is between its differences from the observations (and 0): members 2 and 3 are moved up by 1 although
both observations are 1 below their forecasts. -/
theorem c136_wrong_member : OiWrong.out false false = ok [fin 12, fin 12, fin 9, fin 9] ∧ ¬ Spec.InRange (fun _ : Fin 2 => (5 - 6 : ℚ)) (9 - 8) := by
  refine ⟨by decide +kernel, ?_⟩
  rintro ⟨-, h | ⟨_, h⟩⟩ <;> norm_num at h

/-! ### The assumptions can be met -/

/-- Options as they could be given. -/
noncomputable def oiReal : OiOptions ℝ :=
  { hLength := fin 30000, vLength := fin 100, wLength := fin (1 / 5), wMin := fin (-999), minRho := fin (13 / 10000), soar := false, boxcox := false,
    lambda := fin (1 / 2), boxCoxThreshold := fin (-999), maxLocations := 20, maxElevDiff := fin 200, landOnly := false, crossValidate := false,
    maxBytes := fin 6442450944, elevGradient := fin (-999), useEns := true, minEns := 2, epsilon := fin (1 / 2), sigma := fin (1 / 2), sigmaC := fin 1,
    hLengthC := fin 10000, gamma := fin (1 / 4), mu := fin (9 / 10), delta := fin 1, c := fin (103 / 100), newDeltaVar := fin 1, diagnose := false,
    saveDiff := false, extrapolate := false }

/-- Two members, one station. -/
example : ArmaE.exact.Lawful ∧ OiEnsembleMode oiReal [0, 2] [0] (fun _ e => if e = 0 then 1 else 3) (fun _ e => if e = 0 then -1 else 1) ∧
    OiSelected [(⟨fin 60, fin 10, fin 50, fin 3, fin 1, 0, 2, 2, fin 1⟩ : OiStation ℝ)] [([fin (-1), 0, fin 1], fin 2)] [0, 2] [0]
      (fun _ => ⟨fin 60, fin 10, fin 50, fin 3, fin 1, 0, 2, 2, fin 1⟩) (fun _ => 3) (fun _ => 1) (fun _ => 2) (fun _ e => if e = 0 then -1 else 1) ∧
    OiErrors oiReal [0] (1 / 2) (fun _ => 1) (fun _ => 1 / 2) ∧ (∀ e ∈ [0, 2], [fin 1, nan, fin (5 : ℝ)][e]? = some (fin (if e = 0 then (1 : ℝ) else 5))) := by
  refine ⟨ArmaE.exact_lawful, ⟨rfl, by simp [oiReal], by simp, by simp, by simp, ?_⟩, ⟨by simp, by simp, by simp, by simp⟩,
    ⟨rfl, by norm_num, by simp, by simp⟩, by simp⟩
  intro i _ e he
  simp at he
  rcases he with rfl | rfl <;> norm_num [Spec.ensMean]

end Gridpp.Props
