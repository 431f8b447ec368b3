import Verif.Lemmas.Client.Likelihood
import Verif.Props.Client.Stat
import Verif.Props.Client.Zaga

/-! # C162: training of the calibrators gaussian and zaga -/

set_option linter.unusedSectionVars false

namespace Gridpp.Props
open Fl hiding MV isValid
open Res Client Spec

variable {K : Type} [Field K] [LinearOrder K] [IsStrictOrderedRing K] [FloorRing K] [LawfulExp K]

/-- A case as the code has it. -/
def codeCase (c : Case3 K) : TrainCase K := ⟨fin c.obs, fin c.mean, fin c.second⟩

/-- The function to be made small for means above 0, with 1/100000 for a density that is 0. -/
theorem gaussObjective_floored {pdf : Fl K → Fl K → Fl K → Res (Fl K)} {phi : K → K → K → K} (hd : DensityFamily pdf phi fun _ _ => True)
    (cases : List (Case3 K)) (hm : ∀ c ∈ cases, 0 < c.mean) (p : K × K) :
    0 < (cases.map fun c => flooredDensity (gaussianDensity phi p c)).prod ∧ gaussObjective pdf (cases.map codeCase) [fin p.1, fin p.2] =
      ok (fin (-HasExp.log (cases.map fun c => flooredDensity (gaussianDensity phi p c)).prod)) := by
  refine minusSum_log codeCase (fun c => flooredDensity (gaussianDensity phi p c)) cases fun c hc => ?_
  obtain ⟨h1, h2⟩ := hd c.mean (HasExp.exp (p.1 + p.2 * c.second)) c.obs (LawfulExp.exp_pos _) trivial
  refine ⟨?_, flooredDensity_pos h2⟩
  show (gaussPdf pdf (fin c.obs) (fin c.mean) (fin c.second) [fin p.1, fin p.2] >>= fun d => logDensity d) = _
  rw [gaussPdf_eq _ _ _ _ _ (hm c hc), h1, ok_bind, logDensity_eq h2]
  rfl

/-- **C162** (gaussian), for means above 0 and densities other than 0. The function to be made small is minus the logarithm of the likelihood. -/
theorem c162_gauss_value_partial {pdf : Fl K → Fl K → Fl K → Res (Fl K)} {phi : K → K → K → K} (hd : DensityFamily pdf phi fun _ _ => True)
    (cases : List (Case3 K)) (hm : ∀ c ∈ cases, 0 < c.mean) (p : K × K) (hp : ∀ c ∈ cases, gaussianDensity phi p c ≠ 0) :
    0 < likelihood (gaussianDensity phi) cases p ∧
    gaussObjective pdf (cases.map codeCase) [fin p.1, fin p.2] = ok (fin (-HasExp.log (likelihood (gaussianDensity phi) cases p))) := by
  have h := gaussObjective_floored hd cases hm p
  have e : cases.map (fun c => flooredDensity (gaussianDensity phi p c)) = cases.map (gaussianDensity phi p) :=
    List.map_congr_left fun c hc => if_neg (hp c hc)
  rw [e] at h
  exact h

/-- **C162** (gaussian, order), under the same conditions. Of two pairs of parameters the one with the greater likelihood has the smaller value. -/
theorem c162_gauss_order_partial {pdf : Fl K → Fl K → Fl K → Res (Fl K)} {phi : K → K → K → K} (hd : DensityFamily pdf phi fun _ _ => True)
    (cases : List (Case3 K)) (hm : ∀ c ∈ cases, 0 < c.mean) (p q : K × K) (hp : ∀ c ∈ cases, gaussianDensity phi p c ≠ 0)
    (hq : ∀ c ∈ cases, gaussianDensity phi q c ≠ 0) :
    ∃ u v, gaussObjective pdf (cases.map codeCase) [fin p.1, fin p.2] = ok (fin u) ∧
      gaussObjective pdf (cases.map codeCase) [fin q.1, fin q.2] = ok (fin v) ∧
      (u ≤ v ↔ likelihood (gaussianDensity phi) cases q ≤ likelihood (gaussianDensity phi) cases p) := by
  obtain ⟨a1, a2⟩ := c162_gauss_value_partial hd cases hm p hp
  obtain ⟨b1, b2⟩ := c162_gauss_value_partial hd cases hm q hq
  exact ⟨_, _, a2, b2, neg_log_le a1 b1⟩

theorem gaussCase_eq [LawfulSqrt K] {d : K × List (Fl K)} {c : Case3 K} (hn : present d.2 ≠ []) (h : GaussianCase d c) :
    gaussCase (fin d.1, d.2) = ok (codeCase c) := by
  obtain ⟨m, m1, m2⟩ := c89_value d.2 .mean Client.MV 0 hn (by simp)
  obtain ⟨s, s1, s2⟩ := c89_value d.2 .std Client.MV 0 hn (by simp)
  have em := statOf_unique m2 h.mean
  have es := statOf_unique s2 h.spread
  subst em es
  unfold gaussCase codeCase
  simp only [m1, s1, ok_bind, h.obs]

theorem mapM_forall₂ {α β γ : Type} {f : α → Res β} {R : γ → δ → Prop} {g : γ → α} {k : δ → β} {as : List γ} {bs : List δ}
    (h : List.Forall₂ R as bs) (hf : ∀ a ∈ as, ∀ b, R a b → f (g a) = ok (k b)) : mapM f (as.map g) = ok (bs.map k) := by
  induction h with
  | nil => rfl
  | cons h1 _ ih =>
    rw [List.map_cons, List.map_cons, mapM_cons, hf _ (by simp) _ h1, ok_bind, ih fun a ha => hf a (by simp [ha])]
    rfl

/-- **C162** (gaussian, training), for means above 0 and a density that is 0 nowhere. If the search finds the smallest value, the parameters are those of
the greatest likelihood, with mean and standard deviation of the members present. -/
theorem c162_gauss_train_partial [LawfulSqrt K] {pdf : Fl K → Fl K → Fl K → Res (Fl K)} {phi : K → K → K → K}
    (hd : DensityFamily pdf phi fun _ _ => True) (hpos : ∀ a s x, 0 < s → phi a s x ≠ 0)
    {search : (List (Fl K) → Res (Fl K)) → List (Fl K) → Res (List (Fl K))} (hs : FindsMinimum (fun r => ∃ a b, r = [fin a, fin b]) search)
    (data : List (K × List (Fl K))) (cases : List (Case3 K)) (hc : List.Forall₂ GaussianCase data cases) (hdata : data ≠ [])
    (hn : ∀ d ∈ data, present d.2 ≠ []) (hm : ∀ c ∈ cases, 0 < c.mean) (r : List (Fl K))
    (h : gaussTrain pdf search (data.map fun d => (fin d.1, d.2)) = ok r) :
    ∃ p : K × K, r = [fin p.1, fin p.2] ∧
      ∀ q, likelihood (gaussianDensity phi) cases q ≤ likelihood (gaussianDensity phi) cases p := by
  unfold gaussTrain at h
  rw [if_neg (by simpa using hdata),
    mapM_forall₂ (f := gaussCase) (g := fun d : K × List (Fl K) => (fin d.1, d.2)) hc fun d hd' c hr => gaussCase_eq (hn d hd') hr, ok_bind] at h
  obtain ⟨⟨a, b, rfl⟩, u, hu, hmin⟩ := hs _ _ _ h
  refine ⟨(a, b), rfl, fun q => ?_⟩
  obtain ⟨u', v, h1, h2, h3⟩ := c162_gauss_order_partial hd cases hm (a, b) q (fun c _ => hpos _ _ _ (LawfulExp.exp_pos _))
    fun c _ => hpos _ _ _ (LawfulExp.exp_pos _)
  rw [hu] at h1
  cases h1
  exact h3.mp (hmin _ v ⟨_, _, rfl⟩ h2)

/-- **C162** (no data). The result has no parameters and nothing is searched for. -/
theorem c162_no_data [HasSqrt K] (pdf : Fl K → Fl K → Fl K → Res (Fl K)) (search : (List (Fl K) → Res (Fl K)) → List (Fl K) → Res (List (Fl K)))
    (threshold : Fl K) : gaussTrain pdf search [] = ok [] ∧ zagaTrain pdf search threshold [] = ok [] := ⟨rfl, rfl⟩

/-- **C162** is false for means of 0 and below, as for temperatures in degrees Celsius: all parameters have the same value, whatever was observed. -/
theorem c162_cold_false (pdf : Fl K → Fl K → Fl K → Res (Fl K)) (cases : List (Case3 K)) (hm : ∀ c ∈ cases, c.mean ≤ 0) (p q : K × K) :
    gaussObjective pdf (cases.map codeCase) [fin p.1, fin p.2] = gaussObjective pdf (cases.map codeCase) [fin q.1, fin q.2] ∧
    (gaussObjective pdf (cases.map codeCase) [fin p.1, fin p.2]).isOk = true := by
  have key : ∀ p : K × K, gaussObjective pdf (cases.map codeCase) [fin p.1, fin p.2] =
      ok (fin (-HasExp.log (cases.map fun _ => (1 / 100000 : K)).prod)) := by
    intro p
    refine (minusSum_log codeCase (fun _ => (1 / 100000 : K)) cases fun c hc => ⟨?_, by norm_num⟩).2
    show (gaussPdf pdf (fin c.obs) (fin c.mean) (fin c.second) [fin p.1, fin p.2] >>= fun d => logDensity d) = _
    rw [gaussPdf_cold _ _ _ _ _ (hm c hc), ok_bind, logDensity_missing]
  rw [key p, key q]
  exact ⟨rfl, rfl⟩

/-- A missing observation is used as if it were -999. -/
theorem c162_missing_obs_false {pdf : Fl K → Fl K → Fl K → Res (Fl K)} {phi : K → K → K → K} (hd : DensityFamily pdf phi fun _ _ => True)
    {m s : K} (hm : 0 < m) (p : K × K) (hp : phi m (HasExp.exp (p.1 + p.2 * s)) (-999) ≠ 0) :
    gaussObjective pdf [⟨Client.MV, fin m, fin s⟩] [fin p.1, fin p.2] = ok (fin (-HasExp.log (phi m (HasExp.exp (p.1 + p.2 * s)) (-999)))) := by
  have := (c162_gauss_value_partial hd [⟨-999, m, s⟩] (by simpa using hm) p (by simpa [gaussianDensity] using hp)).2
  simpa [likelihood, gaussianDensity, codeCase, Client.MV] using this

/-- A density of 0 counts as 1/100000, more than a density that is smaller than that: there are a density, a case and parameters for which the
likelihood is 0 and the value still smaller than the one for parameters with a positive likelihood. -/
theorem c162_zero_false : ∃ (pdf : Fl K → Fl K → Fl K → Res (Fl K)) (phi : K → K → K → K) (c : Case3 K) (p q : K × K) (u v : K),
    DensityFamily pdf phi (fun _ _ => True) ∧ 0 < c.mean ∧ likelihood (gaussianDensity phi) [c] p = 0 ∧ 0 < likelihood (gaussianDensity phi) [c] q ∧
    gaussObjective pdf [codeCase c] [fin p.1, fin p.2] = ok (fin u) ∧ gaussObjective pdf [codeCase c] [fin q.1, fin q.2] = ok (fin v) ∧ u < v := by
  have h1e : (HasExp.exp (0 : K)) = 1 := LawfulExp.exp_zero
  have h2e : (HasExp.exp (1 : K)) ≠ 1 := by
    have := LawfulExp.add_one_le_exp (1 : K)
    intro h; rw [h] at this; linarith
  let phi : K → K → K → K := fun _ s _ => if s = 1 then 0 else 1 / 1000000
  have hphi : ∀ a s x, 0 ≤ phi a s x := fun a s x => by
    show 0 ≤ (if s = 1 then (0 : K) else 1 / 1000000)
    split <;> norm_num
  let pdf : Fl K → Fl K → Fl K → Res (Fl K) := fun a s x => match a, s, x with
    | fin a, fin s, fin x => ok (fin (phi a s x))
    | _, _, _ => .ub
  have hd : DensityFamily pdf phi fun _ _ => True := fun a s x _ _ => ⟨rfl, hphi a s x⟩
  have hp : gaussianDensity phi (0, 0) ⟨1, 1, 0⟩ = 0 := by simp [gaussianDensity, h1e, phi]
  have hq : gaussianDensity phi (1, 0) ⟨1, 1, 0⟩ = 1 / 1000000 := by simp [gaussianDensity, h2e, phi]
  have ep := (gaussObjective_floored hd [⟨1, 1, 0⟩] (by simp) (0, 0)).2
  have eq := (gaussObjective_floored hd [⟨1, 1, 0⟩] (by simp) (1, 0)).2
  refine ⟨pdf, phi, ⟨1, 1, 0⟩, (0, 0), (1, 0), _, _, hd, one_pos, ?_, ?_, ep, eq, ?_⟩
  · rw [likelihood, List.map_cons, List.map_nil, List.prod_singleton, hp]
  · rw [likelihood, List.map_cons, List.map_nil, List.prod_singleton, hq]
    norm_num
  · rw [neg_lt_neg_iff]
    simp only [List.map_cons, List.map_nil, List.prod_singleton, hp, hq, flooredDensity, if_true]
    rw [if_neg (by norm_num)]
    exact log_strictMono (by norm_num) (by norm_num)

/-! ### Zaga -/

/-- The logit is never -999. -/
def NoCoincidence (p : Fin 8 → K) (cases : List (Case3 K)) : Prop :=
  ∀ c ∈ cases, ∀ P mu sigma, ZagaModel p c.mean c.second P mu sigma → P ≠ 1 / (1 + HasExp.exp 999)

/-- Cases as the calibrator is made for. -/
structure RainCase (c : Case3 K) : Prop where
  obs : 0 ≤ c.obs
  mean : 0 ≤ c.mean
  low : 0 ≤ c.second
  high : c.second ≤ 1

/-- **C162** (zaga), for densities other than 0 and a logit other than -999. The function to be made small is minus the logarithm of the likelihood. -/
theorem c162_zaga_value_partial {pdf : Fl K → Fl K → Fl K → Res (Fl K)} {phi : K → K → K → K}
    (hd : DensityFamily pdf phi fun k x => 0 < k ∧ 0 < x) (cases : List (Case3 K)) (hc : ∀ c ∈ cases, RainCase c)
    (density : (Fin 8 → K) → Case3 K → K) (hden : ∀ p, ∀ c ∈ cases, ZagaDensity phi p c (density p c)) {p : Fin 8 → K} {l : List (Fl K)}
    (hp : Pars8 l p) (hl : NoCoincidence p cases) (h0 : ∀ c ∈ cases, density p c ≠ 0) :
    0 < likelihood density cases p ∧ zagaObjective pdf (cases.map codeCase) l = ok (fin (-HasExp.log (likelihood density cases p))) := by
  refine minusSum_log codeCase (density p) cases fun c hcc => ?_
  obtain ⟨P, mu, sigma, k, s, hz, hg, hdd⟩ := (hden p c hcc).law
  have hr := hc c hcc
  obtain ⟨hP, hP0, hP1⟩ := c122_p0_partial hp hz hr.low hr.high (hl c hcc P mu sigma hz)
  show ((do
    let P0 ← zagaP0 (fin c.mean) (fin c.second) l
    if (fin c.obs : Fl K).feq 0 then do
      assert (P0.gt 0)
      ok (Fl.log P0)
    else do
      let d ← zagaPdf pdf (fin c.obs) (fin c.mean) (fin c.second) l
      logDensity d) : Res (Fl K)) = _ ∧ _
  rw [hP, ok_bind]
  by_cases ho : c.obs = 0
  · rw [if_pos ho] at hdd
    rw [if_pos (by simp [zero_def, feq_fin, ho]), hdd]
    simp [zero_def, gt_fin, hP0, Fl.log]
  · rw [if_neg ho] at hdd
    rw [if_neg (by simp [zero_def, feq_fin, ho])]
    obtain ⟨h1, h2⟩ := hd k s c.obs hg.2.1 ⟨hg.1, lt_of_le_of_ne hr.obs (Ne.symm ho)⟩
    have h3 : 0 ≤ (1 - P) * phi k s c.obs := mul_nonneg (by linarith) h2
    have e : zagaPdf pdf (fin c.obs) (fin c.mean) (fin c.second) l = ok (fin ((1 - P) * phi k s c.obs)) := by
      obtain ⟨r, hr', -, rfl, rfl⟩ := hz.law
      unfold zagaPdf
      rw [hP, ok_bind, zagaShape_eq hp hr' hg, ok_bind]
      simp only [h1, ok_bind, one_def, fin_sub, fin_mul]
    rw [e, ok_bind, logDensity_eq h3, hdd]
    have hne : (1 - P) * phi k s c.obs ≠ 0 := by rw [← hdd]; exact h0 c hcc
    rw [flooredDensity, if_neg hne]
    exact ⟨rfl, lt_of_le_of_ne h3 hne.symm⟩

/-- **C162** (zaga, order), under the same conditions. -/
theorem c162_zaga_order_partial {pdf : Fl K → Fl K → Fl K → Res (Fl K)} {phi : K → K → K → K}
    (hd : DensityFamily pdf phi fun k x => 0 < k ∧ 0 < x) (cases : List (Case3 K)) (hc : ∀ c ∈ cases, RainCase c)
    (density : (Fin 8 → K) → Case3 K → K) (hden : ∀ p, ∀ c ∈ cases, ZagaDensity phi p c (density p c)) {p q : Fin 8 → K} {l m : List (Fl K)}
    (hp : Pars8 l p) (hq : Pars8 m q) (hlp : NoCoincidence p cases) (hlq : NoCoincidence q cases) (h0 : ∀ c ∈ cases, density p c ≠ 0)
    (h1 : ∀ c ∈ cases, density q c ≠ 0) :
    ∃ u v, zagaObjective pdf (cases.map codeCase) l = ok (fin u) ∧ zagaObjective pdf (cases.map codeCase) m = ok (fin v) ∧
      (u ≤ v ↔ likelihood density cases q ≤ likelihood density cases p) := by
  obtain ⟨a1, a2⟩ := c162_zaga_value_partial hd cases hc density hden hp hlp h0
  obtain ⟨b1, b2⟩ := c162_zaga_value_partial hd cases hc density hden hq hlq h1
  exact ⟨_, _, a2, b2, neg_log_le a1 b1⟩

/-- Counting members. -/
theorem count_valid (ens : List (Fl K)) (t : K) : (ens.filter isValid).length = (present ens).length ∧
    (ens.filter (fun v => isValid v && v.le (fin t))).length = ((present ens).filter fun v => v ≤ t).length := by
  have h : (ens.filter (fun v => isValid v && v.le (fin t))) = (ens.filter isValid).filter fun v => v.le (fin t) := by
    rw [List.filter_filter]
    exact List.filter_congr fun v _ => Bool.and_comm _ _
  rw [h, filter_isValid_eq]
  refine ⟨by simp, ?_⟩
  rw [List.filter_map, List.length_map]
  congr 1
  exact List.filter_congr fun v _ => le_fin v t

/-- **C162** (zaga, predictors), where all members or none are up to the threshold. The case has the mean and the fraction. -/
theorem c162_zaga_case_partial [LawfulSqrt K] {t : K} {d : K × List (Fl K)} {c : Case3 K} (hn : present d.2 ≠ []) (h : ZagaCase t d c)
    (h01 : c.second = 0 ∨ c.second = 1) : zagaCase (fin t) (fin d.1, d.2) = ok (codeCase c) := by
  obtain ⟨m, m1, m2⟩ := c89_value d.2 .mean Client.MV 0 hn (by simp)
  have em := statOf_unique m2 h.mean
  have hl : 0 < (present d.2).length := List.length_pos_iff.mpr hn
  obtain ⟨c1, c2⟩ := count_valid d.2 t
  have hfr := h.fraction
  have hdiv : ((((present d.2).filter fun v => v ≤ t).length / (present d.2).length : Nat) : K) = c.second := by
    rcases h01 with h0 | h0
    · rw [h0, zero_mul] at hfr
      have : ((present d.2).filter fun v => v ≤ t).length = 0 := by exact_mod_cast hfr.symm
      rw [this, h0]; simp
    · rw [h0, one_mul] at hfr
      have : ((present d.2).filter fun v => v ≤ t).length = (present d.2).length := by exact_mod_cast hfr.symm
      rw [this, Nat.div_self hl, h0]; simp
  unfold zagaCase codeCase
  simp only [m1, ok_bind, c1, c2, hl, if_true, ofNat_def, hdiv, em, h.obs]
  rcases h01 with h0 | h0 <;> rw [h0] <;> simp [zero_def, one_def, ge_fin, le_fin]

/-- **C162** (zaga, training), where in each case all members or none are up to the threshold. If the search finds the smallest value, no parameters
have a greater likelihood than the result. -/
theorem c162_zaga_train_partial [LawfulSqrt K] {pdf : Fl K → Fl K → Fl K → Res (Fl K)} {phi : K → K → K → K}
    (hd : DensityFamily pdf phi fun k x => 0 < k ∧ 0 < x)
    (density : (Fin 8 → K) → Case3 K → K) {search : (List (Fl K) → Res (Fl K)) → List (Fl K) → Res (List (Fl K))}
    (t : K) (data : List (K × List (Fl K))) (cases : List (Case3 K)) (hc : List.Forall₂ (ZagaCase t) data cases) (hdata : data ≠ [])
    (hn : ∀ d ∈ data, present d.2 ≠ []) (hrain : ∀ c ∈ cases, RainCase c) (h01 : ∀ c ∈ cases, c.second = 0 ∨ c.second = 1)
    (hden : ∀ p, ∀ c ∈ cases, ZagaDensity phi p c (density p c)) (hpos : ∀ p, ∀ c ∈ cases, density p c ≠ 0)
    (hs : FindsMinimum (fun r => ∃ p, Pars8 r p ∧ NoCoincidence p cases) search) (r : List (Fl K))
    (h : zagaTrain pdf search (fin t) (data.map fun d => (fin d.1, d.2)) = ok r) :
    ∃ p, Pars8 r p ∧ ∀ q l, Pars8 l q → NoCoincidence q cases → likelihood density cases q ≤ likelihood density cases p := by
  have hmem : List.Forall₂ (fun d c => ZagaCase t d c ∧ (c.second = 0 ∨ c.second = 1)) data cases := by
    clear h hs hpos hden hrain hn hdata
    induction hc with
    | nil => exact .nil
    | cons a _ ih => exact .cons ⟨a, h01 _ (by simp)⟩ (ih fun c hc => h01 c (by simp [hc]))
  unfold zagaTrain at h
  rw [if_neg (by simpa using hdata), mapM_forall₂ (f := zagaCase (fin t)) (g := fun d : K × List (Fl K) => (fin d.1, d.2)) hmem
    fun d hd' c hr => c162_zaga_case_partial (hn d hd') hr.1 hr.2, ok_bind] at h
  obtain ⟨⟨p, hp, hlp⟩, u, hu, hmin⟩ := hs _ _ _ h
  refine ⟨p, hp, fun q l hq hlq => ?_⟩
  obtain ⟨u', v, h1, h2, h3⟩ := c162_zaga_order_partial hd cases hrain density hden hp hq hlp hlq (hpos p) (hpos q)
  rw [hu] at h1
  cases h1
  exact h3.mp (hmin _ v ⟨q, hq, hlq⟩ h2)

/-- **C162** is false of the fraction: it is 1 if all members present are up to the threshold, else 0. -/
theorem c162_fraction_false [LawfulSqrt K] (t : K) (o : Fl K) (ens : List (Fl K)) (hn : present ens ≠ []) :
    ∃ m, zagaCase (fin t) (o, ens) = ok ⟨o, fin m, fin (if ∀ v ∈ present ens, v ≤ t then 1 else 0)⟩ := by
  obtain ⟨m, m1, -⟩ := c89_value ens .mean Client.MV 0 hn (by simp)
  have hl : 0 < (present ens).length := List.length_pos_iff.mpr hn
  obtain ⟨c1, c2⟩ := count_valid ens t
  refine ⟨m, ?_⟩
  unfold zagaCase
  simp only [m1, ok_bind, c1, c2, hl, if_true, ofNat_def]
  by_cases ha : ∀ v ∈ present ens, v ≤ t
  · have : (present ens).filter (fun v => v ≤ t) = present ens := List.filter_eq_self.mpr fun v hv => by simpa using ha v hv
    rw [this, Nat.div_self hl, if_pos ha]
    simp [zero_def, one_def, ge_fin, le_fin]
  · have : ((present ens).filter fun v => v ≤ t).length < (present ens).length := by
      refine lt_of_le_of_ne (List.length_filter_le _ _) fun e => ha fun v hv => ?_
      have := List.length_filter_eq_length_iff.mp e v hv
      simpa using this
    rw [Nat.div_eq_of_lt this, if_neg ha]
    simp [zero_def, one_def, ge_fin, le_fin]

/-- One of the three members is up to the threshold, and the fraction is 0. -/
theorem c162_fraction_case : zagaCase (fin (1 / 2)) (fin 0, [fin 0, fin 1, (fin 2 : Fl ℚ)]) = ok ⟨fin 0, fin 1, fin 0⟩ := by decide +kernel

/-- A case without members present ends the program. -/
theorem c162_no_member {H : Type} [Field H] [LinearOrder H] [IsStrictOrderedRing H] [FloorRing H] [HasExp H] [HasSqrt H] (t o : Fl H)
    (ens : List (Fl H)) (hn : present ens = []) : zagaCase t (o, ens) = .abort := by
  unfold zagaCase
  simp only [c89_missing ens .mean Client.MV hn, ok_bind, filter_isValid_eq, hn, List.map_nil, List.length_nil, lt_irrefl, if_false]

/-- `logLikelihood` is not the logarithm of the density but of the distribution function. -/
theorem c162_log_likelihood_false {mk : Fl K → Fl K → Dist K} {F : K → K → K → K} (hmk : GammaFamily mk F) {p : List (Fl K)} {c : Fin 8 → K}
    (hp : Pars8 p c) {m f P mu sigma k s : K} (hz : ZagaModel c m f P mu sigma) (hg : GammaMoments k s mu (sigma * mu)) (h0 : 0 ≤ f)
    (h1 : f ≤ 1) (hl : P ≠ 1 / (1 + HasExp.exp 999)) {x y : K} (hx : 0 ≤ x) (hxy : x < y) :
    ∃ u v, zagaLogLikelihood mk (fin x) (fin m) (fin f) p = ok (fin u) ∧ zagaLogLikelihood mk (fin y) (fin m) (fin f) p = ok (fin v) ∧ u < v ∧
      u = HasExp.log (P + (1 - P) * F k s x) := by
  obtain ⟨G, g1, -, g3, g4, g5⟩ := c122_cdf_partial hmk hp hz hg h0 h1 hl
  have hP0 := (c122_p0_partial hp hz h0 h1 hl).2.1
  have pos : ∀ z, 0 ≤ z → 0 < G z := by
    intro z hz
    rcases hz.eq_or_lt with e | e
    · rw [← e, g3]; exact hP0
    · have := g5 0 z le_rfl e
      rw [g3] at this
      linarith
  have val : ∀ z, 0 ≤ z → zagaLogLikelihood mk (fin z) (fin m) (fin f) p = ok (fin (HasExp.log (G z))) := by
    intro z hz
    unfold zagaLogLikelihood
    rw [valid_nonneg hz, g1 z (by intro e; rw [e] at hz; linarith)]
    simp [Fl.log, pos z hz]
  refine ⟨_, _, val x hx, val y (by linarith), log_strictMono (pos x hx) (g5 x y hx hxy), ?_⟩
  rw [(g4 x hx).1]

/-! ### The hypotheses can be met -/

/-- A stand-in for the density: greatest for a standard deviation of 1 and an observation that is the mean. -/
def exampleDensity (a s x : K) : K := s / ((1 + s * s) * (1 + (x - a) * (x - a)))

omit [FloorRing K] [LawfulExp K] in
theorem exampleDensity_pos (a x : K) {s : K} (hs : 0 < s) : 0 < exampleDensity a s x := by
  unfold exampleDensity
  have := mul_self_nonneg (x - a)
  positivity

/-- The stand-in as the code has it. -/
def examplePdf : Fl K → Fl K → Fl K → Res (Fl K)
  | fin a, fin s, fin x => ok (fin (exampleDensity a s x))
  | _, _, _ => .ub

omit [FloorRing K] [LawfulExp K] in
theorem exampleDensity_family (dom : K → K → Prop) : DensityFamily (examplePdf (K := K)) exampleDensity dom :=
  fun a _ x hs _ => ⟨rfl, (exampleDensity_pos a x hs).le⟩

open Classical in
/-- A search that finds the smallest value if there is one. -/
noncomputable def exampleSearch (points : List (Fl K) → Prop) (f : List (Fl K) → Res (Fl K)) (_ : List (Fl K)) : Res (List (Fl K)) :=
  if h : ∃ r, points r ∧ ∃ u, f r = ok (fin u) ∧ ∀ q v, points q → f q = ok (fin v) → u ≤ v then ok h.choose else .throw .runtimeError

omit [IsStrictOrderedRing K] [FloorRing K] [LawfulExp K] in
theorem exampleSearch_finds (points : List (Fl K) → Prop) : FindsMinimum points (exampleSearch points) := by
  intro f x r h
  unfold exampleSearch at h
  split at h
  · rename_i hr
    cases h
    exact hr.choose_spec
  · cases h

/-- The conditions of `c162_gauss_train_partial` can be met and the training has a result: the members 2 and 4 with the observation 5. -/
theorem c162_case_gauss [LawfulSqrt K] : ∃ (data : List (K × List (Fl K))) (cases : List (Case3 K)) (r : List (Fl K)),
    List.Forall₂ GaussianCase data cases ∧ data ≠ [] ∧ (∀ d ∈ data, present d.2 ≠ []) ∧ (∀ c ∈ cases, 0 < c.mean) ∧
    (∀ a s x : K, 0 < s → exampleDensity a s x ≠ 0) ∧
    gaussTrain examplePdf (exampleSearch fun r => ∃ a b, r = [fin a, fin b]) (data.map fun d => (fin d.1, d.2)) = ok r := by
  have hpres : present [fin (2 : K), fin 4] = [2, 4] := by
    have h2 : (2 : K) ≠ -999 := by norm_num
    have h4 : (4 : K) ≠ -999 := by norm_num
    simp [present, Fl.vals, h2, h4]
  have hcase : GaussianCase ((5 : K), [fin 2, fin 4]) ⟨5, 3, 1⟩ := by
    refine ⟨rfl, ?_, ?_⟩
    · show (3 : K) = mean _
      rw [hpres]
      norm_num [mean]
    · show 0 ≤ (1 : K) ∧ _
      rw [hpres]
      refine ⟨zero_le_one, ?_⟩
      norm_num [variance, mean]
  have hnz : ∀ a s x : K, 0 < s → exampleDensity a s x ≠ 0 := fun a s x hs => (exampleDensity_pos a x hs).ne'
  have hc : List.Forall₂ GaussianCase [((5 : K), [fin (2 : K), fin 4])] [⟨5, 3, 1⟩] := .cons hcase .nil
  have hn : ∀ d ∈ [((5 : K), [fin (2 : K), fin 4])], present d.2 ≠ [] := by
    intro d hd
    rw [List.mem_singleton] at hd
    rw [hd, hpres]
    simp
  have hm : ∀ c ∈ [(⟨5, 3, 1⟩ : Case3 K)], 0 < c.mean := by
    intro c hcc
    rw [List.mem_singleton] at hcc
    rw [hcc]
    norm_num
  have hex : ∃ r, (∃ a b : K, r = [fin a, fin b]) ∧ ∃ u, gaussObjective examplePdf ([⟨5, 3, 1⟩].map codeCase) r = ok (fin u) ∧
      ∀ q v, (∃ a b : K, q = [fin a, fin b]) → gaussObjective examplePdf ([⟨5, 3, 1⟩].map codeCase) q = ok (fin v) → u ≤ v := by
    obtain ⟨u, -, h1, -, -⟩ := c162_gauss_order_partial (exampleDensity_family fun _ _ => True) [(⟨5, 3, 1⟩ : Case3 K)] hm (0, 0) (0, 0)
      (fun c _ => hnz _ _ _ (LawfulExp.exp_pos _)) fun c _ => hnz _ _ _ (LawfulExp.exp_pos _)
    refine ⟨_, ⟨0, 0, rfl⟩, u, h1, ?_⟩
    rintro _ v ⟨a, b, rfl⟩ hv
    obtain ⟨u', v', g1, g2, g3⟩ := c162_gauss_order_partial (exampleDensity_family fun _ _ => True) [(⟨5, 3, 1⟩ : Case3 K)] hm (0, 0) (a, b)
      (fun c _ => hnz _ _ _ (LawfulExp.exp_pos _)) fun c _ => hnz _ _ _ (LawfulExp.exp_pos _)
    rw [h1] at g1
    cases g1
    rw [hv] at g2
    cases g2
    refine g3.mpr ?_
    simp only [likelihood, List.map_cons, List.map_nil, List.prod_singleton, gaussianDensity, exampleDensity, zero_mul, add_zero,
      LawfulExp.exp_zero]
    have he := LawfulExp.exp_pos (a + b * 1)
    generalize HasExp.exp (a + b * 1) = e at he
    rw [div_le_div_iff₀ (by norm_num; positivity) (by norm_num)]
    norm_num
    nlinarith [mul_self_nonneg (e - 1)]
  refine ⟨_, _, hex.choose, hc, by simp, hn, hm, hnz, ?_⟩
  unfold gaussTrain
  rw [if_neg (by simp), mapM_forall₂ (f := gaussCase) (g := fun d : K × List (Fl K) => (fin d.1, d.2)) hc
    fun d hd' c hr => gaussCase_eq (hn d hd') hr, ok_bind]
  unfold exampleSearch
  rw [dif_pos hex]

/-- The density of the calibrator zaga, where the mean is not negative. -/
theorem zagaDensity_exists (phi : K → K → K → K) (p : Fin 8 → K) {c : Case3 K} (hm : 0 ≤ c.mean) : ∃ d, ZagaDensity phi p c d := by
  obtain ⟨r, hr, -⟩ := pow_third hm
  exact ⟨_, ⟨_, _, _, _, _, ⟨r, hr, rfl, rfl, rfl⟩, gammaMoments_exists (LawfulExp.exp_pos _) (LawfulExp.exp_pos _), rfl⟩⟩

theorem zagaDensity_of_const {p : Fin 8 → K} {c : Case3 K} {d r : K} (hr : ThirdRoot r c.mean) (h : ZagaDensity (fun _ _ _ => 1) p c d) :
    d = if c.obs = 0 then 1 / (1 + HasExp.exp (-(p 4 + p 5 * c.mean + p 6 * c.second + p 7 * r)))
      else 1 - 1 / (1 + HasExp.exp (-(p 4 + p 5 * c.mean + p 6 * c.second + p 7 * r))) := by
  obtain ⟨P, mu, sigma, k, s, ⟨r', hr', rfl, -, -⟩, -, rfl⟩ := h.law
  rw [thirdRoot_unique hr' hr]
  simp

/-- The conditions of `c162_zaga_train_partial` can be met and the training has a result: the members 8 and 8 with the observations 0 and 2; the density
is replaced by 1. -/
theorem c162_case_zaga [LawfulSqrt K] : ∃ (density : (Fin 8 → K) → Case3 K → K) (data : List (K × List (Fl K))) (cases : List (Case3 K))
    (r : List (Fl K)), List.Forall₂ (ZagaCase 1) data cases ∧ data ≠ [] ∧ (∀ d ∈ data, present d.2 ≠ []) ∧ (∀ c ∈ cases, RainCase c) ∧
    (∀ c ∈ cases, c.second = 0 ∨ c.second = 1) ∧ (∀ p, ∀ c ∈ cases, ZagaDensity (fun _ _ _ => 1) p c (density p c)) ∧
    (∀ p, ∀ c ∈ cases, density p c ≠ 0) ∧ DensityFamily (K := K) (fun _ _ _ => ok (fin 1)) (fun _ _ _ => 1) (fun k x => 0 < k ∧ 0 < x) ∧
    zagaTrain (fun _ _ _ => ok (fin 1)) (exampleSearch fun r => ∃ p, Pars8 r p ∧ NoCoincidence p cases) (fin 1)
      (data.map fun d => (fin d.1, d.2)) = ok r := by
  classical
  let c0 : Case3 K := ⟨0, 8, 0⟩
  let c2 : Case3 K := ⟨2, 8, 0⟩
  let density : (Fin 8 → K) → Case3 K → K := fun p c => if h : 0 ≤ c.mean then (zagaDensity_exists (fun _ _ _ => 1) p h).choose else 0
  have h8 : (0 : K) ≤ 8 := by norm_num
  have hroot : ThirdRoot (2 : K) 8 := ⟨by norm_num, by norm_num⟩
  have hmem : ∀ c ∈ [c0, c2], c = c0 ∨ c = c2 := fun c hc => by simpa using hc
  have hden : ∀ p, ∀ c ∈ [c0, c2], ZagaDensity (fun _ _ _ => 1) p c (density p c) := by
    intro p c hc
    have hm : 0 ≤ c.mean := by rcases hmem c hc with rfl | rfl <;> exact h8
    show ZagaDensity _ p c (if h : 0 ≤ c.mean then _ else 0)
    rw [dif_pos hm]
    exact (zagaDensity_exists (fun _ _ _ => 1) p hm).choose_spec
  let P : (Fin 8 → K) → K := fun p => 1 / (1 + HasExp.exp (-(p 4 + p 5 * 8 + p 6 * 0 + p 7 * 2)))
  have e0 : ∀ p, density p c0 = P p := fun p => (zagaDensity_of_const hroot (hden p c0 (by simp))).trans (if_pos rfl)
  have e2 : ∀ p, density p c2 = 1 - P p := fun p => (zagaDensity_of_const hroot (hden p c2 (by simp))).trans (if_neg (by
    show (2 : K) ≠ 0
    norm_num))
  have hP0 : ∀ p, 0 < P p := fun p => logistic_pos _
  have hP1 : ∀ p, P p < 1 := fun p => logistic_lt_one _
  have hnz : ∀ p, ∀ c ∈ [c0, c2], density p c ≠ 0 := by
    intro p c hc
    rcases hmem c hc with rfl | rfl
    · rw [e0]; exact (hP0 p).ne'
    · rw [e2]
      have := hP1 p
      exact (by linarith : (0 : K) < 1 - P p).ne'
  have hrain : ∀ c ∈ [c0, c2], RainCase c := by
    intro c hc
    rcases hmem c hc with rfl | rfl
    · exact ⟨le_rfl, h8, le_rfl, zero_le_one⟩
    · exact ⟨by norm_num [c2], h8, le_rfl, zero_le_one⟩
  have h01 : ∀ c ∈ [c0, c2], c.second = 0 ∨ c.second = 1 := fun c hc => by rcases hmem c hc with rfl | rfl <;> exact Or.inl rfl
  have hpres : present [fin (8 : K), fin 8] = [8, 8] := by
    have : (8 : K) ≠ -999 := by norm_num
    simp [present, Fl.vals, this]
  have hcase : ∀ o : K, ZagaCase 1 (o, [fin 8, fin 8]) ⟨o, 8, 0⟩ := by
    intro o
    refine ⟨rfl, ?_, ?_⟩
    · show (8 : K) = mean _
      rw [hpres]
      norm_num [mean]
    · have : ¬ (8 : K) ≤ 1 := by norm_num
      simp [hpres, this]
  have hc : List.Forall₂ (ZagaCase 1) [((0 : K), [fin (8 : K), fin 8]), (2, [fin 8, fin 8])] [c0, c2] := .cons (hcase 0) (.cons (hcase 2) .nil)
  have hn : ∀ d ∈ [((0 : K), [fin (8 : K), fin 8]), (2, [fin 8, fin 8])], present d.2 ≠ [] := by
    intro d hd
    simp only [List.mem_cons, List.not_mem_nil, or_false] at hd
    rcases hd with rfl | rfl <;> (show present [fin (8 : K), fin 8] ≠ []; rw [hpres]; simp)
  have hd : DensityFamily (K := K) (fun _ _ _ => ok (fin 1)) (fun _ _ _ => 1) (fun k x => 0 < k ∧ 0 < x) := fun _ _ _ _ _ => ⟨rfl, zero_le_one⟩
  have hp : Pars8 (List.replicate 8 (fin (0 : K))) fun _ => 0 := by
    refine ⟨fun v hv => ?_, fun i => ?_⟩
    · rw [List.eq_of_mem_replicate hv]
      exact ⟨0, rfl, by norm_num⟩
    · rw [List.getElem?_replicate, if_pos i.isLt]
  have hhalf : P (fun _ => 0) = 1 / 2 := by
    simp only [P, zero_mul, add_zero, neg_zero, LawfulExp.exp_zero]
    norm_num
  have hlp : NoCoincidence (fun _ => (0 : K)) [c0, c2] := by
    intro c hc' P' mu sigma hz e
    have h1 := LawfulExp.add_one_le_exp (999 : K)
    obtain ⟨r, -, hP', -, -⟩ := hz.law
    rw [e] at hP'
    simp only [zero_mul, add_zero, neg_zero, LawfulExp.exp_zero] at hP'
    rw [div_eq_div_iff (by positivity) (by norm_num)] at hP'
    linarith
  have hL : ∀ p, likelihood density [c0, c2] p = P p * (1 - P p) := fun p => by
    simp only [likelihood, List.map_cons, List.map_nil, List.prod_cons, List.prod_nil, mul_one, e0, e2]
  have hex : ∃ r, (∃ p, Pars8 r p ∧ NoCoincidence p [c0, c2]) ∧ ∃ u,
      zagaObjective (fun _ _ _ => ok (fin (1 : K))) ([c0, c2].map codeCase) r = ok (fin u) ∧ ∀ q v, (∃ p, Pars8 q p ∧ NoCoincidence p [c0, c2]) →
        zagaObjective (fun _ _ _ => ok (fin (1 : K))) ([c0, c2].map codeCase) q = ok (fin v) → u ≤ v := by
    refine ⟨_, ⟨_, hp, hlp⟩, _, (c162_zaga_value_partial hd [c0, c2] hrain density hden hp hlp (hnz _)).2, ?_⟩
    rintro q v ⟨p, hq, hlq⟩ hv
    obtain ⟨u, v', g1, g2, g3⟩ := c162_zaga_order_partial hd [c0, c2] hrain density hden hp hq hlp hlq (hnz _) (hnz _)
    rw [(c162_zaga_value_partial hd [c0, c2] hrain density hden hp hlp (hnz _)).2] at g1
    cases g1
    rw [hv] at g2
    cases g2
    refine g3.mpr ?_
    rw [hL, hL, hhalf]
    nlinarith [mul_self_nonneg (P p - 1 / 2)]
  refine ⟨density, _, _, hex.choose, hc, by simp, hn, hrain, h01, hden, hnz, hd, ?_⟩
  unfold zagaTrain
  have hboth : List.Forall₂ (fun d c => ZagaCase 1 d c ∧ (c.second = 0 ∨ c.second = 1))
      [((0 : K), [fin (8 : K), fin 8]), (2, [fin 8, fin 8])] [c0, c2] := .cons ⟨hcase 0, Or.inl rfl⟩ (.cons ⟨hcase 2, Or.inl rfl⟩ .nil)
  rw [if_neg (by simp), mapM_forall₂ (f := zagaCase (fin 1)) (g := fun d : K × List (Fl K) => (fin d.1, d.2)) hboth
    fun d hd' c hr => c162_zaga_case_partial (hn d hd') hr.1 hr.2, ok_bind]
  unfold exampleSearch
  rw [dif_pos hex]

end Gridpp.Props
