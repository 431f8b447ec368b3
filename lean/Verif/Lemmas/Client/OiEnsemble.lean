import Verif.Lemmas.Client.OiSingle
import Verif.Lemmas.EtkfG
import Verif.Lemmas.EnsiLimit

/-! Lemmas about the analysis of the calibrator `oi` in ensemble mode. -/

set_option linter.unusedSectionVars false

namespace Gridpp.Client
open Fl hiding MV isValid
open Res Client Matrix

variable {K : Type} [Field K] [LinearOrder K] [IsStrictOrderedRing K]

section
variable (rho : Nat → K) (members sel : List Nat) (st : Nat → OiStation K) (h : Nat → K) (Y : Nat → Nat → K)

/-- The deviations at the selected stations. -/
def oiY : Matrix (Fin sel.length) (Fin members.length) K := Matrix.of fun a k => Y (sel.get a) (members.get k)

theorem oiRowsOf_length : (oiRowsOf rho members sel st h Y).length = sel.length := by simp [oiRowsOf]

theorem oiRowsOf_y : (oiRowsOf rho members sel st h Y).map OiRow.y = toRows (oiY members sel Y) := by
  unfold oiRowsOf toRows oiY; rw [List.map_ofFn]; rfl

theorem oiRowsOf_rho : (oiRowsOf rho members sel st h Y).map OiRow.rho = List.ofFn fun a => fin (rho (sel.get a)) := by
  unfold oiRowsOf; rw [List.map_ofFn]; rfl

theorem oiRowsOf_innov {obs : Nat → K} (hobs : ∀ i ∈ sel, (st i).obs = fin (obs i)) :
    (oiRowsOf rho members sel st h Y).map (fun r => r.station.obs - r.yhat) = List.ofFn fun a : Fin sel.length => fin (obs (sel.get a) - h (sel.get a)) := by
  unfold oiRowsOf
  rw [List.map_ofFn]
  congr 1
  funext a
  show (st (sel.get a)).obs - fin (h (sel.get a)) = _
  rw [hobs _ (List.get_mem _ _), fin_sub]

theorem oiC_toRows (Q : Matrix (Fin sel.length) (Fin sel.length) K) :
    oiC members.length (oiRowsOf rho members sel st h Y) (toRows Q) = toRows ((oiY members sel Y)ᵀ * Q) := by
  unfold oiC
  rw [oiRowsOf_length, oiRowsOf_y]
  refine tab_toRows fun e i => ?_
  rw [sumTo_fin (g := fun l => (oiY members sel Y) l e * Q l i) (fun l => by rw [ent_toRows, ent_toRows, fin_mul])]
  rfl

theorem oiPinv_toRows (Q : Matrix (Fin sel.length) (Fin sel.length) K) (δ : K) :
    oiPinv members.length (oiRowsOf rho members sel st h Y) (toRows ((oiY members sel Y)ᵀ * Q)) (fin δ) = toRows (pinvG (oiY members sel Y) Q δ) := by
  unfold oiPinv
  rw [oiRowsOf_length, oiRowsOf_y]
  refine tab_toRows fun e f => ?_
  rw [sumTo_fin (g := fun i => ((oiY members sel Y)ᵀ * Q) e i * (oiY members sel Y) i f) (fun i => by rw [ent_toRows, ent_toRows, fin_mul])]
  unfold pinvG
  rw [Matrix.add_apply, Matrix.smul_apply, Matrix.one_apply, Matrix.mul_apply]
  by_cases hl : e = f
  · rw [if_pos hl, if_pos (by rw [hl]), one_def, fin_mul, fin_add, smul_eq_mul]
  · rw [if_neg hl, if_neg (fun c => hl (Fin.ext c)), zero_def, fin_mul, fin_add, smul_eq_mul]

/-- What is multiplied with the gain: observation minus forecast, or 1. -/
def oiD (diagnose : Bool) (sel : List Nat) (obs h : Nat → K) : Fin sel.length → K := fun a => if diagnose then 1 else obs (sel.get a) - h (sel.get a)

theorem oiWeights_toRows (o : OiOptions K) {obs : Nat → K} (hobs : ∀ i ∈ sel, (st i).obs = fin (obs i)) (Q : Matrix (Fin sel.length) (Fin sel.length) K)
    (P : Matrix (Fin members.length) (Fin members.length) K) :
    oiWeights o members.length (oiRowsOf rho members sel st h Y) (toRows P) (toRows ((oiY members sel Y)ᵀ * Q)) =
      List.ofFn fun e => fin ((P *ᵥ ((oiY members sel Y)ᵀ *ᵥ (Q *ᵥ oiD o.diagnose sel obs h))) e) := by
  unfold oiWeights
  rw [oiRowsOf_length, mmul_toRows, oiRowsOf_innov rho members sel st h Y hobs]
  apply List.ext_getElem
  · simp
  · intro e h1 h2
    have he : e < members.length := by simpa using h1
    simp only [List.getElem_map, List.getElem_range, List.getElem_ofFn]
    rw [sumTo_fin (g := fun i => (P * ((oiY members sel Y)ᵀ * Q)) ⟨e, he⟩ i * oiD o.diagnose sel obs h i) (fun i => by
      have := ent_toRows (P * ((oiY members sel Y)ᵀ * Q)) ⟨e, he⟩ i
      simp only at this
      rw [this, getD_ofFn]
      unfold oiD
      cases o.diagnose
      · simp only [Bool.false_eq_true, if_false, fin_mul]
      · simp only [if_true, one_def, fin_mul])]
    have e2 : P *ᵥ ((oiY members sel Y)ᵀ *ᵥ (Q *ᵥ oiD o.diagnose sel obs h)) = (P * ((oiY members sel Y)ᵀ * Q)) *ᵥ oiD o.diagnose sel obs h := by
      rw [mulVec_mulVec, mulVec_mulVec, Matrix.mul_assoc]
    have e3 := congrFun e2 ⟨e, he⟩
    rw [e3]
    rfl

/-- The transform exists, and `W` is the symmetric root of `(n - 1) P`. -/
theorem oiTransformMatrix_ok [LawfulSqrt K] {A : ArmaE K} (hA : A.Lawful) (hn : 0 < members.length) (o : OiOptions K) {obs : Nat → K}
    (hobs : ∀ i ∈ sel, (st i).obs = fin (obs i)) {Q R : Matrix (Fin sel.length) (Fin sel.length) K} (hQ : Precision Q R) {δ : K} (hδ : 0 < δ) :
    ∃ W : Matrix (Fin members.length) (Fin members.length) K, SymRoot (((members.length : K) - 1) • (pinvG (oiY members sel Y) Q δ)⁻¹) W ∧
      oiTransformMatrix A o members.length (oiRowsOf rho members sel st h Y) (toRows Q) (fin δ) =
        ok (some (toRows W, List.ofFn fun e => fin (((pinvG (oiY members sel Y) Q δ)⁻¹ *ᵥ ((oiY members sel Y)ᵀ *ᵥ (Q *ᵥ oiD o.diagnose sel obs h))) e))) := by
  have hdet := pinvG_det (oiY members sel Y) hQ.nonneg hδ
  obtain ⟨lam, V, h1, hl, h2⟩ := eigG hA hn hQ (oiY members sel Y) hδ
  refine ⟨_, h2, ?_⟩
  have hrc : ¬ (A.rcond (toRows (pinvG (oiY members sel Y) Q δ))).le 0 = true := by
    have := hA.rcond_pos _ _ hn hdet
    revert this
    cases A.rcond (toRows (pinvG (oiY members sel Y) Q δ)) with
    | fin _ => simp [zero_def]
    | _ => simp [Fl.gt, Fl.le, Fl.lt, Fl.feq]
  have he : (tab members.length members.length fun e f => Fl.ofInt ((members.length : Int) - 1) * ent (toRows (pinvG (oiY members sel Y) Q δ)⁻¹) e f) =
      toRows (((members.length : K) - 1) • (pinvG (oiY members sel Y) Q δ)⁻¹) := tab_toRows fun i j => by
    rw [ent_toRows, ofInt_def, fin_mul]
    simp
  unfold oiTransformMatrix
  simp only [oiC_toRows, oiPinv_toRows]
  rw [if_neg hrc, hA.arma.inv_ok _ _ hdet, ok_bind, he, h1]
  simp only
  rw [if_neg (show ¬ (toRows V).length = 0 by rw [toRows, List.length_ofFn]; exact hn.ne'), ensiW_toRows lam hl, oiWeights_toRows rho members sel st h Y o hobs]

end

/-- `diag`: the number of members minus 1, divided by the inflation, which is greater with a bias. -/
theorem oiDiag_eq {o : OiOptions K} {δ gamma : K} (useBias : Bool) (hδ : δ ≠ 0) (hg : useBias = true → o.gamma = fin gamma ∧ 1 + gamma ≠ 0) (n : Nat) :
    oiDiag o useBias (fin δ) n = fin (((n : K) - 1) / (δ * if useBias then 1 + gamma else 1)) := by
  unfold oiDiag
  cases useBias with
  | false =>
    simp only [Bool.false_eq_true, if_false]
    rw [one_def, fin_div_of_ne _ hδ, ofInt_def, fin_mul]
    congr 1
    push_cast
    ring
  | true =>
    obtain ⟨h1, h2⟩ := hg rfl
    simp only [if_true]
    rw [h1, one_def, fin_div_of_ne _ hδ, fin_add, fin_div_of_ne _ h2, ofInt_def, fin_mul]
    congr 1
    push_cast
    field_simp

/-- The number taken at `lY[e]`. -/
theorem oiElement_eq (rho : Nat → K) (members sel : List Nat) (st : Nat → OiStation K) (h : Nat → K) (Y : Nat → Nat → K) (hs : 0 < sel.length)
    (k : Fin members.length) : ∃ (i : Fin sel.length) (j : Fin members.length), (i : Nat) = k % sel.length ∧ (j : Nat) = k / sel.length ∧
      oiElement (oiRowsOf rho members sel st h Y) k = fin (Y (sel.get i) (members.get j)) := by
  refine ⟨⟨_, Nat.mod_lt _ hs⟩, ⟨_, lt_of_le_of_lt (Nat.div_le_self _ _) k.2⟩, rfl, rfl, ?_⟩
  unfold oiElement
  rw [oiRowsOf_length, oiRowsOf_y]
  exact ent_toRows (oiY members sel Y) ⟨_, Nat.mod_lt _ hs⟩ ⟨_, lt_of_le_of_lt (Nat.div_le_self _ _) k.2⟩

/-- The filter, with the number `t` that is found at `lY[e]`. -/
theorem oiLimit_clamped (rho : Nat → K) (members sel : List Nat) (st : Nat → OiStation K) (h : Nat → K) (Y : Nat → Nat → K) (hs : 0 < sel.length)
    {obs : Nat → K} (hobs : ∀ i ∈ sel, (st i).obs = fin (obs i)) (e : Nat) (t x inc : K) (ht : oiElement (oiRowsOf rho members sel st h Y) e = fin t) :
    ∃ r, oiLimit (oiRowsOf rho members sel st h Y) e (fin x) (fin inc) = fin (x + r) ∧
      Spec.Clamped (fun a : Fin sel.length => obs (sel.get a) - (t + h (sel.get a))) (inc - x) r := by
  obtain ⟨a, ha1, ha2⟩ := armaMin_ofFn (fun a : Fin sel.length => obs (sel.get a) - (t + h (sel.get a))) hs
  obtain ⟨b, hb1, hb2⟩ := armaMax_ofFn (fun a : Fin sel.length => obs (sel.get a) - (t + h (sel.get a))) hs
  refine ⟨_, ?_, clamped _ (inc - x) _ _ a b rfl rfl ha2 hb2⟩
  have hd : (oiRowsOf rho members sel st h Y).map (fun r => r.station.obs - (oiElement (oiRowsOf rho members sel st h Y) e + r.yhat)) =
      List.ofFn fun a : Fin sel.length => fin (obs (sel.get a) - (t + h (sel.get a))) := by
    rw [ht]
    unfold oiRowsOf
    rw [List.map_ofFn]
    congr 1
    funext i
    show (st (sel.get i)).obs - (fin t + fin (h (sel.get i))) = _
    rw [hobs _ (List.get_mem _ _), fin_add, fin_sub]
  unfold oiLimit
  simp only [hd, ha1, hb1, zero_def, fin_sub, gt_fin, lt_fin, Bool.and_eq_true, decide_eq_true_eq, fin_add]
  split_ifs <;> (congr 1; ring)

/-- The new bias after the total `t`. -/
def oiNewBias (o : OiOptions K) (bias : Option (Fl K)) (t : K) : Fl K :=
  match bias with
  | none => 0
  | some c => c - o.gamma / (1 + o.gamma) * fin t

/-- Ensemble mode from `Rinv` on. `c` is the effective inflation. -/
theorem oiEnsemble_eq [LawfulSqrt K] [HasExp K] {A : ArmaE K} (hA : A.Lawful) {o : OiOptions K} (dist : Fl K → Fl K → Fl K → Fl K → Res (Fl K)) (np : Nat)
    {members sel : List Nat} (hnd : members.Nodup) (hn : 0 < members.length) (rho : Nat → K) {st : Nat → OiStation K} {obs : Nat → K} {h : Nat → K} {Y : Nat → Nat → K}
    (hobs : ∀ i ∈ sel, (st i).obs = fin (obs i)) {Q R : Matrix (Fin sel.length) (Fin sel.length) K} (hQ : Precision Q R)
    (hR : oiRinvAll A o dist np (oiRowsOf rho members sel st h Y) = ok (some (toRows Q))) {bias : Option (Fl K)} {delta : Fl K} {δ : K} (hδ : 0 < δ)
    (hd : oiDiag o bias.isSome delta members.length = fin δ) {b : List (Fl K)} {x : Nat → K} (hb : ∀ e ∈ members, b[e]? = some (fin (x e)))
    (X : Fin members.length → K) (hX : ∀ k, X k = x (members.get k) - Spec.ensMean members.toFinset x) :
    ∃ (W : Matrix (Fin members.length) (Fin members.length) K) (w : Fin members.length → K) (out : List (Fl K)),
      SymRoot (((members.length : K) - 1) • (pinvG (oiY members sel Y) Q δ)⁻¹) W ∧
      w = (pinvG (oiY members sel Y) Q δ)⁻¹ *ᵥ ((oiY members sel Y)ᵀ *ᵥ (Q *ᵥ oiD o.diagnose sel obs h)) ∧
      oiEnsemble A o dist np members b bias delta (oiRowsOf rho members sel st h Y) = ok ⟨out, List.replicate b.length 0, oiNewBias o bias (∑ k, x (members.get k) * w k)⟩ ∧
      out.length = b.length ∧ (∀ e < b.length, e ∉ members → out[e]? = some Client.MV) ∧
      ∀ k : Fin members.length, out[members.get k]? = some (if o.saveDiff then fin ((X ᵥ* W) k + X ⬝ᵥ w) else fin (Spec.ensMean members.toFinset x) +
        (if o.extrapolate then fin ((X ᵥ* W) k + X ⬝ᵥ w) else oiLimit (oiRowsOf rho members sel st h Y) k (fin (X k)) (fin ((X ᵥ* W) k + X ⬝ᵥ w)))) := by
  obtain ⟨W, hW, hT⟩ := oiTransformMatrix_ok rho members sel st h Y hA hn o hobs hQ hδ
  refine ⟨W, (pinvG (oiY members sel Y) Q δ)⁻¹ *ᵥ ((oiY members sel Y)ᵀ *ᵥ (Q *ᵥ oiD o.diagnose sel obs h)), ?_⟩
  generalize hw : (pinvG (oiY members sel Y) Q δ)⁻¹ *ᵥ ((oiY members sel Y)ᵀ *ᵥ (Q *ᵥ oiD o.diagnose sel obs h)) = w at *
  have hm : ∀ e ∈ members, e < b.length := fun e he => (List.getElem?_eq_some_iff.mp (hb e he)).1
  have hv : mapM (fun ei : Nat => vget b (ei : Int)) members = ok (List.ofFn fun k => fin (x (members.get k))) := by
    rw [mapM_ok (g := fun e => fin (x e)) (fun e he => vget_some (hb e he))]
    congr 1
    apply List.ext_getElem <;> simp
  have hmean : (sumTo members.length fun k => (List.ofFn fun k => fin (x (members.get k))).getD k nan) / Fl.ofNat members.length =
      fin (Spec.ensMean members.toFinset x) := by
    rw [sumTo_fin (g := fun k => x (members.get k)) (fun k => getD_ofFn _ k), sum_members members hnd, ofNat_def,
      fin_div_of_ne _ (by exact_mod_cast hn.ne')]
    unfold Spec.ensMean
    rw [List.toFinset_card_of_nodup hnd]
  have hXl : (List.ofFn fun k => fin (x (members.get k))).map (fun v => v - fin (Spec.ensMean members.toFinset x)) =
      List.ofFn fun k => fin (X k) := by
    rw [List.map_ofFn]
    congr 1
    funext k
    simp only [Function.comp, fin_sub, hX]
  have hl : (List.ofFn fun k : Fin members.length => fin (x (members.get k))).length = members.length := by simp
  have hbias : (sumTo members.length fun e => (List.ofFn fun k => fin (x (members.get k))).getD e nan * (List.ofFn fun e => fin (w e)).getD e nan) =
      fin (∑ k, x (members.get k) * w k) := sumTo_fin fun k => by rw [getD_ofFn, getD_ofFn, fin_mul]
  have hvals : (List.range members.length).map (oiMember o (oiRowsOf rho members sel st h Y) (fin (Spec.ensMean members.toFinset x)) (List.ofFn fun k => fin (X k))
      fun k e => ent (toRows W) k e + (List.ofFn fun e => fin (w e)).getD k nan) =
      List.ofFn fun k : Fin members.length => (if o.saveDiff then fin ((X ᵥ* W) k + X ⬝ᵥ w) else fin (Spec.ensMean members.toFinset x) +
        (if o.extrapolate then fin ((X ᵥ* W) k + X ⬝ᵥ w) else oiLimit (oiRowsOf rho members sel st h Y) k (fin (X k)) (fin ((X ᵥ* W) k + X ⬝ᵥ w)))) := by
    apply List.ext_getElem
    · simp
    · intro k h1 h2
      have hk : k < members.length := by simpa using h1
      simp only [List.getElem_map, List.getElem_range, List.getElem_ofFn, oiMember]
      have e : (List.ofFn fun k => fin (X k)).length = members.length := by simp
      have e2 : (sumTo members.length fun j => (List.ofFn fun k => fin (X k)).getD j nan * (ent (toRows W) j k +
          (List.ofFn fun e => fin (w e)).getD j nan)) = fin ((X ᵥ* W) ⟨k, hk⟩ + X ⬝ᵥ w) := by
        rw [sumTo_fin (g := fun j => X j * (W j ⟨k, hk⟩ + w j)) (fun j => by
          have := ent_toRows W j ⟨k, hk⟩
          simp only at this
          rw [getD_ofFn, getD_ofFn, this, fin_add, fin_mul])]
        simp only [mul_add, Finset.sum_add_distrib]
        rfl
      have e3 : (List.ofFn fun k => fin (X k)).getD k nan = fin (X ⟨k, hk⟩) := getD_ofFn (fun k => fin (X k)) ⟨k, hk⟩
      rw [e, e2, e3]
  obtain ⟨out, h1, h2, h3, h4⟩ := writeMembers_eq (List.replicate b.length (Client.MV : Fl K)) members (List.ofFn fun k : Fin members.length =>
    (if o.saveDiff then fin ((X ᵥ* W) k + X ⬝ᵥ w) else fin (Spec.ensMean members.toFinset x) +
        (if o.extrapolate then fin ((X ᵥ* W) k + X ⬝ᵥ w) else oiLimit (oiRowsOf rho members sel st h Y) k (fin (X k)) (fin ((X ᵥ* W) k + X ⬝ᵥ w)))))
    (fun e hh => by simpa using hm e hh)
  refine ⟨out, hW, rfl, ?_, by simpa using h2, fun e hh hn => by rw [h3 e hn]; simp [hh], fun k => h4 hnd k _ _ (by simp) (by simp)⟩
  unfold oiEnsemble
  simp only [hR, ok_bind, hd, hT, hv, hl, hmean, hXl, hvals, hbias, oiScatter, h1]
  cases bias <;> rfl

end Gridpp.Client
