import Verif.Lemmas.Client.OiSingle
import Verif.Spec.ClientOi
import Verif.Props.Client.OiTransform
import Verif.Props.Client.OiRho

/-! # C134: the analysis of the calibrator `oi` in single-member mode -/

set_option linter.unusedSectionVars false

namespace Gridpp.Props
open Fl hiding MV isValid
open Res Client Matrix

variable {K : Type} [Field K] [LinearOrder K] [IsStrictOrderedRing K]

/-- The least value of the transformed scale: with the Box-Cox transform with a positive exponent, `-1 / l`. -/
inductive OiLeast (o : OiOptions K) : Option K → Prop
  | none (h : o.boxcox = false) : OiLeast o none
  | some (h : o.boxcox = true) (l : K) (hl : o.lambda = fin l) (hp : 0 < l) : OiLeast o (some (-1 / l))

theorem oiFloor_eq {o : OiOptions K} {lo : Option K} (h : OiLeast o lo) (v : K) : oiFloor o (fin v) = fin (Spec.atLeast lo v) := by
  unfold oiFloor
  cases h with
  | none h => simp [h, Spec.atLeast]
  | some h l hl hp =>
    rw [h, hl, fin_div_of_ne _ hp.ne', Bool.true_and, Fl.lt_fin]
    show _ = fin (max v (-1 / l))
    rcases lt_or_ge v (-1 / l) with hh | hh
    · rw [if_pos (by simpa using hh), max_eq_right hh.le]
    · rw [if_neg (by simpa using hh), max_eq_left hh]

theorem mapM_eq_ok_ofFn {β : Type} {f : Nat → Res β} {n : Nat} (g : Fin n → β) (h : ∀ k : Fin n, f k = ok (g k)) :
    Res.mapM f (List.range n) = ok (List.ofFn g) := by
  rw [mapM_getElem (List.range n) (fun k => g ⟨k, by simpa using k.2⟩) (fun k => by
    have := h ⟨k, by simpa using k.2⟩
    simpa using this)]
  congr 1
  apply List.ext_getElem
  · simp
  · intro k h1 h2
    simp only [List.getElem_ofFn]

/-- Observations minus forecasts of a member at the stations used. -/
def oiGap (sel : List Nat) (obs h : Nat → K) (Y : Nat → Nat → K) (e : Nat) : Fin sel.length → K := fun a =>
  obs (sel.get a) - (Y (sel.get a) e + h (sel.get a))

/-- The variance of the analysis in transformed space: the estimate of the variance of the background from the differences `d` before and `r`
after the analysis, times what the analysis leaves of it; at least 0.001. -/
def oiVariance {n : Nat} (d r : Fin n → K) (R explained : K) : K := max (1 / 1000) (d ⬝ᵥ r / R * (1 - explained))

/-- The new bias in this mode. -/
def oiSameBias : Option K → Fl K
  | none => 0
  | some c => fin c

section
variable [FloorRing K] [HasExp K]

/-- C134: in single-member mode (without ensemble, or with fewer valid members than needed), for any number of stations and members: the
new value of each valid member is its background value plus the weights times the differences between observation and forecast at the
stations. The weights solve the equations of optimal interpolation, with the correlations `P` between the stations, `G` between stations
and grid point, and error variances relative to the background of `ci * epsilon^2`, divided by `1 + gamma` if there is a bias. With the Box-Cox
transform the result is at least the transform of 0. Other members are missing. The bias stays as it was. The variance is 0 without
transform; with it, at a value not below the transformed threshold, it is `oiVariance`. Partial: the claim is false of the final field with the
transform, which is smoothed (`c134_smooth_false`), and with some options (`c134_options_false`, `c134_variance_false`). -/
theorem c134_single_partial [HasSqrt K] {A : ArmaE K} (hA : A.toArma.Lawful) {o : OiOptions K} {eps : K} (he : o.epsilon = fin eps) {lo : Option K} (hlo : OiLeast o lo)
    (dist : Fl K → Fl K → Fl K → Fl K → Res (Fl K)) (np : Nat) {stations : List (OiStation K)} {gY : List (List (Fl K) × Fl K)} {members sel : List Nat}
    (hmode : o.useEns = false ∨ (members.length : Int) < o.minEns) (hnd : members.Nodup) (hs : sel ≠ [])
    {st : Nat → OiStation K} {obs ci h : Nat → K} {Y : Nat → Nat → K} (H : OiSelected stations gY members sel st obs ci h Y) (g : OiPlace K)
    {G : Nat → K} {P : Nat → Nat → K} (hG : ∀ i ∈ sel, oiRhoGrid o dist g (st i) = ok (fin (G i)))
    (hP : ∀ i ∈ sel, ∀ j ∈ sel, oiRhoStations o dist g.laf (st i) (st j) = ok (fin (P i j)))
    {b : List (Fl K)} {x : Nat → K} (hb : ∀ e ∈ members, b[e]? = some (fin (x e))) (B : Option K) {gamma : K}
    (hg : B ≠ none → o.gamma = fin gamma ∧ 1 + gamma ≠ 0) (delta : Fl K)
    (hdet : (Spec.system sel.get P fun i => oiRatio eps (B.map fun _ => gamma) * ci i).det ≠ 0) :
    ∃ out sigma, oiCellC A o dist np stations gY members g b (B.map fin) delta (rhoPairs G sel) = ok ⟨out, sigma, oiSameBias B⟩ ∧
      out.length = b.length ∧ (∀ e < b.length, e ∉ members → out[e]? = some Client.MV) ∧
      ∃ w, w ᵥ* (Spec.system sel.get P fun i => oiRatio eps (B.map fun _ => gamma) * ci i) = G ∘ sel.get ∧
        (∀ e ∈ members, out[e]? = some (fin (Spec.atLeast lo (x e + ∑ a, w a * (obs (sel.get a) - (Y (sel.get a) e + h (sel.get a))))))) ∧
        (o.boxcox = false → sigma = List.replicate b.length 0) ∧
        (o.boxcox = true → ∑ a, eps * eps * ci (sel.get a) ≠ 0 → ∀ t, oiTransform o o.boxCoxThreshold = fin t → ∀ e ∈ members,
          ∃ q, (Spec.system sel.get P fun i => oiRatio eps (B.map fun _ => gamma) * ci i) *ᵥ q = oiGap sel obs h Y e ∧
            sigma[e]? = some (fin (if t ≤ Spec.atLeast lo (x e + w ⬝ᵥ oiGap sel obs h Y e) then
              oiVariance (oiGap sel obs h Y e) (oiGap sel obs h Y e - (Matrix.of fun a b : Fin sel.length => P (sel.get a) (sel.get b)) *ᵥ q)
                (∑ a, eps * eps * ci (sel.get a)) (w ⬝ᵥ (G ∘ sel.get)) else 0))) := by
  have hu : IsUnit (Spec.system sel.get P fun i => oiRatio eps (B.map fun _ => gamma) * ci i).det := isUnit_iff_ne_zero.mpr hdet
  have hpos : sel.length ≠ 0 := fun hh => hs (List.length_eq_zero_iff.mp hh)
  have hlen : (rhoPairs G sel).length ≠ 0 := by simpa [rhoPairs] using hpos
  have hm : (!o.useEns || decide ((members.length : Int) < o.minEns)) = true := by
    rcases hmode with hh | hh
    · simp [hh]
    · simp [hh]
  have hgg : ∀ c ∈ (B.map fun _ => gamma), o.gamma = fin c ∧ 1 + c ≠ 0 := by
    intro c hc
    cases B with
    | none => cases hc
    | some v => cases hc; exact hg (by simp)
  have hsys : oiSystem o (B.map (fin : K → Fl K)).isSome (toRows (Matrix.of fun a b : Fin sel.length => P (sel.get a) (sel.get b))) (List.ofFn fun a : Fin sel.length => fin (ci (sel.get a))) =
      toRows (Spec.system sel.get P fun i => oiRatio eps (B.map fun _ => gamma) * ci i) := by
    have := oiSystem_eq he hgg (Matrix.of fun a b : Fin sel.length => P (sel.get a) (sel.get b)) (fun a => ci (sel.get a))
    rw [Option.isSome_map] at this ⊢
    exact this
  generalize hS : (Spec.system sel.get P fun i => oiRatio eps (B.map fun _ => gamma) * ci i) = S at *
  have hr : ∃ sg : Fin members.length → Fl K, (o.boxcox = false → ∀ k, sg k = 0) ∧
      (o.boxcox = true → ∑ a, eps * eps * ci (sel.get a) ≠ 0 → ∀ t, oiTransform o o.boxCoxThreshold = fin t → ∀ k, sg k = fin (
        if t ≤ Spec.atLeast lo (x (members.get k) + ((G ∘ sel.get) ᵥ* S⁻¹) ⬝ᵥ oiGap sel obs h Y (members.get k)) then
          oiVariance (oiGap sel obs h Y (members.get k)) (oiGap sel obs h Y (members.get k) - (Matrix.of fun a b : Fin sel.length => P (sel.get a) (sel.get b)) *ᵥ
            (S⁻¹ *ᵥ oiGap sel obs h Y (members.get k))) (∑ a, eps * eps * ci (sel.get a)) (((G ∘ sel.get) ᵥ* S⁻¹) ⬝ᵥ (G ∘ sel.get)) else 0)) ∧
      oiSingleMembers o members b (oiRowsOf G members sel st h Y) (List.ofFn fun a : Fin sel.length => fin (G (sel.get a)))
        (toRows (Matrix.of fun a b : Fin sel.length => P (sel.get a) (sel.get b))) (toRows S⁻¹) (List.ofFn fun a : Fin sel.length => fin (ci (sel.get a))) =
      ok (List.ofFn fun k : Fin members.length => (fin (Spec.atLeast lo (x (members.get k) + ∑ a, ((G ∘ sel.get) ᵥ* S⁻¹) a *
        (obs (sel.get a) - (Y (sel.get a) (members.get k) + h (sel.get a))))), sg k)) := by
    refine ⟨fun k => if o.boxcox && (fin (Spec.atLeast lo (x (members.get k) + ∑ a, ((G ∘ sel.get) ᵥ* S⁻¹) a *
        (obs (sel.get a) - (Y (sel.get a) (members.get k) + h (sel.get a))))) : Fl K).ge (oiTransform o o.boxCoxThreshold) then
          oiSigma o (List.ofFn fun a : Fin sel.length => fin (G (sel.get a))) (toRows (Matrix.of fun a b : Fin sel.length => P (sel.get a) (sel.get b))) (toRows S⁻¹)
            (List.ofFn fun a : Fin sel.length => fin (ci (sel.get a))) (List.ofFn fun j => fin (((G ∘ sel.get) ᵥ* S⁻¹) j))
            (List.ofFn fun a : Fin sel.length => fin (obs (sel.get a) - (Y (sel.get a) (members.get k) + h (sel.get a)))) else 0, fun hh k => by simp [hh], fun hh hci t ht k => ?_, ?_⟩
    · have e := oiSigma_eq he (Nat.pos_of_ne_zero hpos) (G ∘ sel.get) ((G ∘ sel.get) ᵥ* S⁻¹) (oiGap sel obs h Y (members.get k)) (ci ∘ sel.get)
        (Matrix.of fun a b : Fin sel.length => P (sel.get a) (sel.get b)) S⁻¹ hci
      dsimp only
      rw [hh, ht, Bool.true_and, Fl.ge_fin]
      by_cases hc : t ≤ Spec.atLeast lo (x (members.get k) + ((G ∘ sel.get) ᵥ* S⁻¹) ⬝ᵥ oiGap sel obs h Y (members.get k))
      · rw [if_pos (by exact decide_eq_true hc), if_pos hc]
        exact e
      · rw [if_neg (by exact fun hd => hc (of_decide_eq_true hd)), if_neg hc]
        rfl
    unfold oiSingleMembers
    apply mapM_eq_ok_ofFn
    intro k
    have e1 : vget members ((k : Nat) : Int) = ok (members.get k) := vget_eq_ok_of_lt k.2
    have e2 : vget b ((members.get k : Nat) : Int) = ok (fin (x (members.get k))) := vget_some (hb _ (List.get_mem _ _))
    have e3 := oiInnovation_eq (K := K) (members := members) (h := h) (Y := Y) G H.obs k
    have e4 : vecMat (List.ofFn fun a : Fin sel.length => fin (G (sel.get a))) (toRows S⁻¹) = List.ofFn fun j => fin (((G ∘ sel.get) ᵥ* S⁻¹) j) :=
      vecMat_ofFn (G ∘ sel.get) S⁻¹
    rw [e1, ok_bind, e2, ok_bind]
    simp only [e3, e4, dot_ofFn, fin_add, oiFloor_eq hlo]
    rfl
  obtain ⟨sg, hsg, hsg2, hr⟩ := hr
  have hmem : ∀ e ∈ members, e < b.length := fun e hh => (List.getElem?_eq_some_iff.mp (hb e hh)).1
  obtain ⟨out, o1, o2, o3, o4⟩ := writeMembers_eq (List.replicate b.length (Client.MV : Fl K)) members (List.ofFn fun k : Fin members.length =>
    fin (Spec.atLeast lo (x (members.get k) + ∑ a, ((G ∘ sel.get) ᵥ* S⁻¹) a * (obs (sel.get a) - (Y (sel.get a) (members.get k) + h (sel.get a))))))
    (fun e hh => by simpa using hmem e hh)
  obtain ⟨sigma, s1, s2, s3, s4⟩ := writeMembers_eq (List.replicate b.length (0 : Fl K)) members (List.ofFn sg) (fun e hh => by simpa using hmem e hh)
  refine ⟨out, sigma, ?_, by simpa using o2, fun e hh hn => ?_, (G ∘ sel.get) ᵥ* S⁻¹, ?_, fun e hh => ?_, fun hh => ?_, fun hh hci t ht e hm => ?_⟩
  · unfold oiCellC
    rw [if_neg hlen, oiRows_eq H, ok_bind, if_pos hm]
    unfold oiSingle
    rw [oiMatrices_eq G H.ci hG hP, ok_bind]
    dsimp only
    rw [hsys, hA.inv_ok _ _ hdet, ok_bind, hr, ok_bind]
    unfold oiScatter
    rw [List.map_ofFn, List.map_ofFn]
    have f1 : (Prod.fst ∘ fun k : Fin members.length => (fin (Spec.atLeast lo (x (members.get k) + ∑ a, ((G ∘ sel.get) ᵥ* S⁻¹) a *
        (obs (sel.get a) - (Y (sel.get a) (members.get k) + h (sel.get a))))), sg k)) = fun k => fin (Spec.atLeast lo (x (members.get k) + ∑ a, ((G ∘ sel.get) ᵥ* S⁻¹) a *
        (obs (sel.get a) - (Y (sel.get a) (members.get k) + h (sel.get a))))) := rfl
    have f2 : (Prod.snd ∘ fun k : Fin members.length => (fin (Spec.atLeast lo (x (members.get k) + ∑ a, ((G ∘ sel.get) ᵥ* S⁻¹) a *
        (obs (sel.get a) - (Y (sel.get a) (members.get k) + h (sel.get a))))), sg k)) = sg := rfl
    rw [f1, f2, o1, ok_bind, s1, ok_bind]
    congr 2
    cases B with
    | none => rfl
    | some c =>
      obtain ⟨g1, g2⟩ := hg (by simp)
      simp only [Option.map_some, oiSameBias, g1]
      rw [show (1 + fin gamma : Fl K) = fin (1 + gamma) from rfl, fin_div_of_ne _ g2, zero_def, fin_mul, fin_sub, mul_zero, sub_zero]
  · rw [o3 e hn]
    simp [hh]
  · rw [vecMul_vecMul, nonsing_inv_mul _ hu, vecMul_one]
  · obtain ⟨k, hk, rfl⟩ := List.getElem_of_mem hh
    exact o4 hnd k _ _ (List.getElem?_eq_getElem hk) (by rw [List.getElem?_ofFn, dif_pos hk]; rfl)
  · apply List.ext_getElem?
    intro e
    by_cases hm : e ∈ members
    · obtain ⟨k, hk, rfl⟩ := List.getElem_of_mem hm
      rw [s4 hnd k _ (sg ⟨k, hk⟩) (List.getElem?_eq_getElem hk) (by rw [List.getElem?_ofFn, dif_pos hk]), hsg hh,
        List.getElem?_replicate_of_lt (hmem _ hm)]
    · rw [s3 e hm]
  · refine ⟨S⁻¹ *ᵥ oiGap sel obs h Y e, by rw [mulVec_mulVec, mul_nonsing_inv _ hu, one_mulVec], ?_⟩
    obtain ⟨k, hk, rfl⟩ := List.getElem_of_mem hm
    rw [s4 hnd k _ (sg ⟨k, hk⟩) (List.getElem?_eq_getElem hk) (by rw [List.getElem?_ofFn, dif_pos hk]), hsg2 hh hci t ht]
    rfl

/-- C134: if the equations have no unique solution, the inverse throws. -/
theorem c134_singular [HasSqrt K] {A : ArmaE K} (hA : A.toArma.Lawful) {o : OiOptions K} {eps : K} (he : o.epsilon = fin eps)
    (dist : Fl K → Fl K → Fl K → Fl K → Res (Fl K)) (np : Nat) {stations : List (OiStation K)} {gY : List (List (Fl K) × Fl K)} {members sel : List Nat}
    (hmode : o.useEns = false ∨ (members.length : Int) < o.minEns) (hs : sel ≠ [])
    {st : Nat → OiStation K} {obs ci h : Nat → K} {Y : Nat → Nat → K} (H : OiSelected stations gY members sel st obs ci h Y) (g : OiPlace K)
    {G : Nat → K} {P : Nat → Nat → K} (hG : ∀ i ∈ sel, oiRhoGrid o dist g (st i) = ok (fin (G i)))
    (hP : ∀ i ∈ sel, ∀ j ∈ sel, oiRhoStations o dist g.laf (st i) (st j) = ok (fin (P i j)))
    (b : List (Fl K)) (B : Option K) {gamma : K} (hg : B ≠ none → o.gamma = fin gamma ∧ 1 + gamma ≠ 0) (delta : Fl K)
    (hdet : (Spec.system sel.get P fun i => oiRatio eps (B.map fun _ => gamma) * ci i).det = 0) :
    oiCellC A o dist np stations gY members g b (B.map fin) delta (rhoPairs G sel) = .throw .runtimeError := by
  have hlen : (rhoPairs G sel).length ≠ 0 := by
    have hpos : sel.length ≠ 0 := fun hh => hs (List.length_eq_zero_iff.mp hh)
    simpa [rhoPairs] using hpos
  have hm : (!o.useEns || decide ((members.length : Int) < o.minEns)) = true := by
    rcases hmode with hh | hh
    · simp [hh]
    · simp [hh]
  have hgg : ∀ c ∈ (B.map fun _ => gamma), o.gamma = fin c ∧ 1 + c ≠ 0 := by
    intro c hc
    cases B with
    | none => cases hc
    | some v => cases hc; exact hg (by simp)
  have hsys : oiSystem o (B.map (fin : K → Fl K)).isSome (toRows (Matrix.of fun a b : Fin sel.length => P (sel.get a) (sel.get b))) (List.ofFn fun a : Fin sel.length => fin (ci (sel.get a))) =
      toRows (Spec.system sel.get P fun i => oiRatio eps (B.map fun _ => gamma) * ci i) := by
    have := oiSystem_eq he hgg (Matrix.of fun a b : Fin sel.length => P (sel.get a) (sel.get b)) (fun a => ci (sel.get a))
    rw [Option.isSome_map] at this ⊢
    exact this
  unfold oiCellC
  rw [if_neg hlen, oiRows_eq H, ok_bind, if_pos hm]
  unfold oiSingle
  rw [oiMatrices_eq G H.ci hG hP, ok_bind]
  dsimp only
  rw [hsys, hA.inv_singular _ _ hdet]
  rfl

/-- C134: without stations the values stay (in transformed space), or are missing if the differences are wanted; the bias becomes 0. -/
theorem c134_alone [HasSqrt K] (A : ArmaE K) (o : OiOptions K) (dist : Fl K → Fl K → Fl K → Fl K → Res (Fl K)) (np : Nat) (stations : List (OiStation K))
    (gY : List (List (Fl K) × Fl K)) (members : List Nat) (g : OiPlace K) (b : List (Fl K)) (bias : Option (Fl K)) (delta : Fl K) :
    oiCellC A o dist np stations gY members g b bias delta [] =
      ok ⟨if o.saveDiff then List.replicate b.length Client.MV else b, List.replicate b.length 0, 0⟩ := rfl

/-- C134: it is false that the options `saveDiff` and `extrapolate` work in this mode: they change nothing where there are stations. -/
theorem c134_options_false [HasSqrt K] (A : ArmaE K) (o : OiOptions K) (dist : Fl K → Fl K → Fl K → Fl K → Res (Fl K)) (np : Nat) (stations : List (OiStation K))
    (gY : List (List (Fl K) × Fl K)) (members : List Nat) (hmode : o.useEns = false ∨ (members.length : Int) < o.minEns) (g : OiPlace K) (b : List (Fl K))
    (bias : Option (Fl K)) (delta : Fl K) (sel : List (Fl K × Nat)) (hs : sel ≠ []) (d e : Bool) :
    oiCellC A { o with saveDiff := d, extrapolate := e } dist np stations gY members g b bias delta sel =
      oiCellC A o dist np stations gY members g b bias delta sel := by
  have hlen : sel.length ≠ 0 := fun hh => hs (List.length_eq_zero_iff.mp hh)
  have hm : (!o.useEns || decide ((members.length : Int) < o.minEns)) = true := by
    rcases hmode with hh | hh
    · simp [hh]
    · simp [hh]
  unfold oiCellC
  rw [if_neg hlen, if_neg hlen]
  congr 1
  funext rows
  rw [if_pos (by exact hm), if_pos hm]
  rfl

/-- C134: it is false that the second parameter of a station is always its error variance: with three parameters it is not used. -/
theorem c134_variance_false (o : OiOptions K) (near : Fl K → Fl K → Res (Nat × Nat)) (grid : Nat → Nat → OiPlace K) (lat lon elev p v v' r : Fl K) :
    oiStation o near grid lat lon elev [p, v, r] = oiStation o near grid lat lon elev [p, v', r] := rfl

end

/-! ### The forecast at a station -/

/-- The correction for the elevation: the gradient times the difference, if there is a gradient. -/
theorem oiElevCorr_fin (o : OiOptions K) {e ge : K} (he : e ≠ -999) (hge : ge ≠ -999) {gr : K} (hg : o.elevGradient = fin gr) :
    oiElevCorr o (fin e) (fin ge) = ok (fin (if gr = -999 then 0 else gr * (e - ge))) := by
  have v1 : Client.isValid (fin e) = true := by simp [Client.isValid, he]
  have v2 : Client.isValid (fin ge) = true := by simp [Client.isValid, hge]
  unfold oiElevCorr
  rw [hg, v1, v2]
  by_cases h1 : gr = -999
  · simp [h1, Client.isValid, zero_def]
  · by_cases h2 : gr = 0
    · subst h2
      simp [Fl.fne, Fl.feq, zero_def]
    · have v3 : Client.isValid (fin gr) = true := by simp [Client.isValid, h1]
      have v4 : (fin gr : Fl K).fne 0 = true := by
        show (fin gr : Fl K).fne (fin 0) = true
        simp [Fl.fne, Fl.feq, h2]
      rw [v3, v4]
      simp [assert, h1, Fl.fin_sub, Fl.fin_mul]

/-- C134: the forecast of a member at a station is its value at the nearest grid point, with the correction for the elevation, minus the
bias: the deviation `gY` from the mean plus `gYhat`. The mean is that of the valid members, here the values `v` that are not -999. -/
theorem c134_forecast {o : OiOptions K} {elev gridElev : Fl K} {c : K} (hc : oiElevCorr o elev gridElev = ok (fin c)) (B : Option K)
    {v : List K} (h0 : v.filter (fun x => decide (x ≠ -999)) ≠ []) (h1 : ∀ x ∈ v, x ≠ -999 → x + c ≠ -999) {m : K}
    (hm : m = ((v.filter fun x => decide (x ≠ -999)).map (· + c)).sum / ((v.filter fun x => decide (x ≠ -999)).length : K)) (h2 : m ≠ -999) :
    ∃ row h, oiForecast o elev gridElev (B.map fin) (v.map fin) = ok (row, fin h) ∧ h = m - B.getD 0 ∧ row.length = v.length ∧
      ∀ (e : Nat) x, v[e]? = some x → x ≠ -999 → ∃ d, row[e]? = some (fin d) ∧ d = x + c - m ∧ d + h = x + c - B.getD 0 := by
  have hval : ∀ x : K, Client.isValid (fin x) = decide (x ≠ -999) := fun x => by simp [Client.isValid]
  have hfilt : ((v.map fin).filter Client.isValid).map (fun x => x + fin c) = ((v.filter fun x => decide (x ≠ -999)).map (· + c)).map fin := by
    rw [List.filter_map, List.map_map, List.map_map, show (Client.isValid ∘ fin) = fun x : K => decide (x ≠ -999) from funext hval]
    rfl
  have hlen : 0 < (v.filter fun x => decide (x ≠ -999)).length := List.length_pos_of_ne_nil h0
  generalize hu : (v.filter fun x => decide (x ≠ -999)) = u at *
  have hsum : sumTo ((u.map (· + c)).map fin).length (fun k => ((u.map (· + c)).map fin).getD k nan) = fin ((u.map (· + c)).sum) := by
    rw [sumTo_fin (g := fun k => (u.map (· + c))[(k : Nat)]'(by simpa using k.2)) (fun k => by
      have : (k : Nat) < u.length := by simpa using k.2
      simp [List.getD, this])]
    congr 1
    have e : ∀ l : List K, (∑ k : Fin (l.map (fin : K → Fl K)).length, l[(k : Nat)]'(by simpa using k.2)) = l.sum := by
      intro l
      induction l with
      | nil => rfl
      | cons a t ih =>
        rw [List.sum_cons, ← ih]
        exact Fin.sum_univ_succ (n := (t.map (fin : K → Fl K)).length) (fun k => (a :: t)[(k : Nat)]'(by simpa using k.2))
    exact e _
  have hN : (((u.map (· + c)).map (fin : K → Fl K)).length : K) ≠ 0 := by
    simp only [List.length_map]; exact_mod_cast hlen.ne'
  have hmean : (if 0 < ((u.map (· + c)).map (fin : K → Fl K)).length then fin ((u.map (· + c)).sum) / Fl.ofNat ((u.map (· + c)).map (fin : K → Fl K)).length
      else Client.MV) = (fin m : Fl K) := by
    rw [if_pos (by simpa using hlen), ofNat_def, fin_div_of_ne _ hN, hm]
    simp
  refine ⟨((v.map fin).map fun w => if Client.isValid w then w + fin c else 0).map fun w => if Client.isValid w && Client.isValid (fin m) then w - fin m else w,
    m - B.getD 0, ?_, rfl, by simp, ?_⟩
  · unfold oiForecast
    rw [hc, ok_bind]
    dsimp only
    rw [hfilt, hsum, hmean]
    cases B with
    | none => simp
    | some w => simp [hval, h2, Fl.fin_sub]
  · intro e x hx hne
    refine ⟨x + c - m, ?_, rfl, by ring⟩
    have hmem : x ∈ v := List.mem_of_getElem? hx
    rw [List.getElem?_map, List.getElem?_map, List.getElem?_map, hx]
    simp [hval, hne, h1 x hmem hne, h2, Fl.fin_add, Fl.fin_sub]

/-! ### Cases -/

/-- C134: it is false that points without stations keep their values: with the transform the result is smoothed at all points. Here are no
stations at all, and a field with the values 0 and 1 becomes 1/2 everywhere. The exponent is 1, and the only powers taken are those of 0
and 1. -/
theorem c134_smooth_false : ((oiTime (⟨⟨fun _ => .ub, id⟩, fun _ => 1, fun _ => none⟩ : ArmaE ℚ)
      { oiDefault with boxcox := true, lambda := fin 1, useEns := false, boxCoxThreshold := fin 5 } (fun _ _ _ _ => .ok 0) 1 1 2 1 (fun _ _ => ⟨0, 0, 0, 0⟩)
      ⟨false, [], fun _ _ => []⟩ (fun _ x _ => fin (x : ℚ)) none none).bind fun r => Res.ok r.1.values) = ok [fin (1 / 2), fin (1 / 2)] := by
  decide +kernel

/-- Two stations, with correlations 1/2 between them, meet the assumptions: the matrix is `[[5/4, 1/2], [1/2, 5/4]]`. -/
example : (Spec.system (n := 2) ([0, 1] : List Nat).get (fun i j => if i = j then (1 : ℚ) else 1 / 2) fun _ => oiRatio (1 / 2) none * 1).det ≠ 0 := by
  rw [Matrix.det_fin_two]
  norm_num [Spec.system, oiRatio]

example : OiSelected [(⟨fin 60, fin 10, fin 50, fin 3, fin 1, 0, 2, 2, fin 1⟩ : OiStation ℚ)] [([fin (-1), fin 1], fin 2)] [0, 1] [0]
    (fun _ => ⟨fin 60, fin 10, fin 50, fin 3, fin 1, 0, 2, 2, fin 1⟩) (fun _ => 3) (fun _ => 1) (fun _ => 2) (fun _ e => if e = 0 then -1 else 1) :=
  ⟨by simp, by simp, by simp, by simp⟩

example : OiLeast { oiDefault with boxcox := true } (some (-1 / (1 / 2))) := .some rfl _ rfl (by norm_num)

/-- Values 1, missing, 3: the forecasts at the station are 1 and 3, the mean 2. -/
example : ∃ row h, oiForecast oiDefault (fin 50) (fin 20) none [fin 1, fin (-999), fin 3] = ok (row, fin h) ∧ h = 2 - (none : Option ℚ).getD 0 ∧ row.length = 3 ∧
    ∀ (e : Nat) x, [(1 : ℚ), -999, 3][e]? = some x → x ≠ -999 → ∃ d, row[e]? = some (fin d) ∧ d = x + 0 - 2 ∧ d + h = x + 0 - (none : Option ℚ).getD 0 :=
  c134_forecast (v := [1, -999, 3]) (oiElevCorr_fin (e := 50) (ge := 20) (gr := -999) oiDefault (by norm_num) (by norm_num) rfl) none
    (by norm_num; exact List.cons_ne_nil _ _) (by norm_num) (by norm_num) (by norm_num)

end Gridpp.Props
