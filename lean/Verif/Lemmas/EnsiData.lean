import Verif.Props.Ensi
import Verif.Lemmas.EnsiEtkf
import Verif.Lemmas.Square

/-! `optimal_interpolation_ensi` on data that are numbers: the loop over the output points. -/

set_option linter.unusedSectionVars false

namespace Gridpp.Props
open Fl Res Matrix

section
variable {K : Type} [Field K] [LinearOrder K] [IsStrictOrderedRing K] [HasGeo K] [LawfulSqrt K] [HasExp K]
variable {T : RTree K} {bp points : Points K} {s : SF K} {maxPoints : Int} {L : Nat → Fl K} {G : Nat → Nat → K}

/-- The ensembles and observations, as numbers: `S` are the members without missing values in the background; at the
observations, the same members have values. -/
structure EnsData (bp points : Points K) (background pbg : List (List (Fl K))) (pobs psigmas : List (Fl K)) (E : Nat) (S : Finset Nat)
    (b p : Nat → Nat → K) (o sg : Nat → K) : Prop where
  hb : Rect bp.size E background
  hpbg : Rect points.size E pbg
  hpobs : pobs.length = points.size
  hsig : psigmas.length = points.size
  hS : ∀ e, e ∈ S ↔ e < E ∧ Complete background e
  hbv : ∀ y < bp.size, ∀ e ∈ S, cell? background y e = some (fin (b y e))
  hpv : ∀ i < points.size, ∀ e ∈ S, cell? pbg i e = some (fin (p i e))
  hpn : ∀ i < points.size, ∀ e, e ∉ S → ∀ v, cell? pbg i e ≠ some (fin v)
  hov : ∀ i < points.size, ∀ v, pobs[i]? = some (fin v) → v = o i
  hsv : ∀ i < points.size, psigmas[i]? = some (fin (sg i)) ∧ sg i ≠ 0

/-- The perturbations of the members at the selected observations `r`. -/
def ensY (members : List Nat) (p : Nat → Nat → K) (r : List Nat) : Matrix (Fin r.length) (Fin members.length) K :=
  fun i k => p (r.get i) (members.get k) - Spec.ensMean members.toFinset (p (r.get i))

/-- The inverse error variances of the selected observations `r`. -/
def ensQ (g sg : Nat → K) (r : List Nat) : Fin r.length → K := fun i => g (r.get i) / (sg (r.get i) * sg (r.get i))

/-- What is known of the selected observations `r`. -/
def ensObs (members : List Nat) (p : Nat → Nat → K) (g o sg : Nat → K) (r : List Nat) : List (EnsiObs K) :=
  ensiRows (fun i => o (r.get i)) (ensQ g sg r) (fun i => Spec.ensMean members.toFinset (p (r.get i))) (ensY members p r) (ensY members p r)

/-- The whole call is a loop over the output points; what it does at each of them. -/
theorem EnsData.cells {A : ArmaE K} (hA : A.Lawful) (h : EnsPoints T A.toArma bp points s maxPoints L G) {E : Nat}
    {background pbg : List (List (Fl K))} {pobs psigmas : List (Fl K)} {S : Finset Nat} {b p : Nat → Nat → K} {o sg : Nat → K}
    (hd : EnsData bp points background pbg pobs psigmas E S b p o sg) (hc : 2 ≤ S.card) :
    ∃ members : List Nat, members.Sublist (List.range E) ∧ S = members.toFinset ∧ 2 ≤ members.length ∧
      ∃ f : Bool → Nat → Res (List (Fl K)),
      (∀ extrap, ensiPoints T A bp background points pobs psigmas pbg s maxPoints extrap = mapM (f extrap) (List.range background.length)) ∧
      ∀ y row, background[y]? = some row → ∃ r : List Nat,
        Spec.Selection (UsableObs bp points (fun i => ∃ v, pobs[i]? = some (fin v)) (L y) (G y) y) (G y) maxPoints.toNat r.get ∧
        (∀ i : Fin r.length, 0 < G y (r.get i) ∧ sg (r.get i) ≠ 0) ∧ (r = [] → ∀ extrap, f extrap y = ok row) ∧
        (r ≠ [] → ∃ W, SymRoot (((members.length : K) - 1) • (pinvMat (ensY members p r) (ensQ (G y) sg r) ((members.length : K) - 1))⁻¹) W ∧
          ∀ extrap, f extrap y = ensiUpdate row members (ensObs members p (G y) o sg r) extrap (some (toRows W, List.ofFn fun e => fin
            (((pinvMat (ensY members p r) (ensQ (G y) sg r) ((members.length : K) - 1))⁻¹ *ᵥ ((ensY members p r)ᵀ *ᵥ (diagonal (ensQ (G y) sg r) *ᵥ
              ((fun i => o (r.get i)) - fun i => Spec.ensMean members.toFinset (p (r.get i)))))) e)))) := by
  obtain ⟨pts, hpts⟩ := h.pts
  obtain ⟨members, hmem, hsub, hmi⟩ := validMembers_eq E background (fun r hr => (hd.hb.2 r hr).ge)
  have hnd : members.Nodup := hsub.nodup List.nodup_range
  have hSm : S = members.toFinset := by
    ext e
    rw [hd.hS, List.mem_toFinset, hmi]
  have hmS : ∀ e, e ∈ members ↔ e ∈ S := fun e => by rw [hSm, List.mem_toFinset]
  have hn2 : 2 ≤ members.length := by rw [hSm, List.toFinset_card_of_nodup hnd] at hc; exact hc
  have hne : S.Nonempty := Finset.card_pos.mp (by omega)
  obtain ⟨r0, hr0⟩ := exists_getElem? (v := background) (n := 0) (by rw [hd.hb.1]; exact h.hcells)
  have hl0 : r0.length = E := hd.hb.2 r0 (List.mem_iff_getElem?.mpr ⟨0, hr0⟩)
  have hmE : ∀ e ∈ members, e < E := fun e he => ((hmi e).mp he).1
  -- perturbations at the observations
  have hprow : ∀ i < points.size, ∃ row, pbg[i]? = some row ∧ row.length = E ∧ (∀ e ∈ S, row[e]? = some (fin (p i e))) ∧
      meanStat row = fin (Spec.ensMean S (p i)) := by
    intro i hi
    obtain ⟨row, hrow⟩ := exists_getElem? (v := pbg) (n := i) (by rw [hd.hpbg.1]; exact hi)
    have hv : ∀ e ∈ S, row[e]? = some (fin (p i e)) := fun e he => by
      have := hd.hpv i hi e he
      simpa [cell?, hrow] using this
    refine ⟨row, hrow, hd.hpbg.2 row (List.mem_iff_getElem?.mpr ⟨i, hrow⟩), hv, meanStat_members row S hne (p i) hv fun e he v => ?_⟩
    have := hd.hpn i hi e he v
    simpa [cell?, hrow] using this
  obtain ⟨gY, hgY, hgl⟩ : ∃ gY, mapM (ensiPerturb E) pbg = ok gY ∧ List.Forall₂ (fun r (g : List (Fl K) × Fl K) =>
      ensiPerturb E r = ok g) pbg gY := by
    rcases mapM_cases (ensiPerturb E) (fun _ => False) (fun r g => ensiPerturb E r = ok g) pbg (fun r hr => by
      left
      exact ⟨_, ensiPerturb_eq E r (hd.hpbg.2 r hr).ge, ensiPerturb_eq E r (hd.hpbg.2 r hr).ge⟩) with hg | ⟨-, -, h⟩
    · exact hg
    · exact h.elim
  have hg : ∀ i < points.size, ∃ g : List (Fl K) × Fl K, gY[i]? = some g ∧ g.2 = fin (Spec.ensMean S (p i)) ∧
      ∀ e ∈ S, g.1[e]? = some (fin (p i e - Spec.ensMean S (p i))) := by
    intro i hi
    obtain ⟨row, hrow, hlen, hv, hm⟩ := hprow i hi
    have hl : pbg.length = gY.length := hgl.length_eq
    have hi1 : i < pbg.length := by rw [hd.hpbg.1]; exact hi
    have hp := (List.forall₂_iff_get.mp hgl).2 i hi1 (by omega)
    have hr : pbg.get ⟨i, hi1⟩ = row := by
      have := List.getElem?_eq_getElem hi1
      rw [hrow] at this
      exact (Option.some.inj this).symm
    rw [hr, ensiPerturb_eq E row hlen.ge, hm] at hp
    refine ⟨gY[i]'(by omega), List.getElem?_eq_getElem _, ?_, fun e he => ?_⟩
    · have := congrArg Prod.snd (Res.ok.inj hp)
      exact this.symm
    · have := congrArg Prod.fst (Res.ok.inj hp)
      have h1 : (gY.get ⟨i, by omega⟩).1 = gY[i].1 := rfl
      rw [h1] at this
      rw [← this]
      have heE : e < E := hmE e ((hmS e).mpr he)
      simp [heE, hv e he]
  refine ⟨members, hsub, hSm, hn2, fun extrap => ensiCell T A bp points pts s maxPoints extrap background pobs psigmas gY members, ?_, ?_⟩
  · intro extrap
    unfold ensiPoints
    rw [if_neg (not_lt.mpr h.hmax), if_neg (not_not.mpr h.htype), if_neg (not_not.mpr hd.hb.1), if_neg (not_not.mpr hd.hpobs),
      if_neg (not_not.mpr hd.hsig), if_neg (not_not.mpr hd.hpbg.1), if_neg (by have := h.hobs; omega)]
    have : vget background 0 = ok r0 := vget_some hr0
    rw [this, ok_bind, hl0, hgY, ok_bind, hpts, ok_bind, hmem, ok_bind]
  intro y row hrow
  have hyb : y < background.length := (List.getElem?_eq_some_iff.mp hrow).1
  have hy : y < bp.size := by rw [← hd.hb.1]; exact hyb
  obtain ⟨r, hr1, hr2, hr3, hr4⟩ := ensiSelect_spec h.htree h.hlib.sort_perm h.hlib.sort_sorted h.hbp h.hpoints h.htype h.hcorr hpts h.hmax
    (obs := fun i => vget pobs (i : Int)) (o := fun i => pobs.getD i nan) (fun i hi => by
      have : i < pobs.length := by have := hd.hpobs; omega
      rw [vget_some (List.getElem?_eq_getElem this)]
      simp [List.getD, this]) hy
  have hval : (fun i => (pobs.getD i nan).isValid = true) = fun i => ∃ v, pobs[i]? = some (fin v) := by
    funext i
    apply propext
    cases hp : pobs[i]? with
    | none => simp [List.getD, hp]
    | some v =>
      constructor
      · intro hv
        simp only [List.getD, hp, Option.getD_some] at hv
        obtain ⟨q, rfl⟩ := exists_fin_of_valid hv
        exact ⟨q, rfl⟩
      · rintro ⟨q, hq⟩
        cases hq
        simp [List.getD, hp]
  rw [hval] at hr3 hr4
  have hobs : ∀ i : Fin r.length, pobs[r.get i]? = some (fin (o (r.get i))) := by
    intro i
    obtain ⟨-, ⟨v, hv⟩, -⟩ := hr3.mem i
    rw [hv, hd.hov _ (hr2 _ (List.get_mem _ _)) v hv]
  have hrho : ∀ i : Fin r.length, 0 < G y (r.get i) := fun i => (hr3.mem i).2.2
  have hsg : ∀ i : Fin r.length, psigmas[r.get i]? = some (fin (sg (r.get i))) ∧ sg (r.get i) ≠ 0 := fun i => hd.hsv _ (hr2 _ (List.get_mem _ _))
  refine ⟨r, hr3, fun i => ⟨hrho i, (hsg i).2⟩, fun h0 extrap => ?_, fun h0 => ?_⟩
  · show ensiCell T A bp points pts s maxPoints extrap background pobs psigmas gY members y = ok row
    unfold ensiCell
    rw [vget_some hrow, ok_bind, hr1, ok_bind, h0]
    rfl
  · have hrows : mapM (ensiRow members pobs psigmas gY) (rhoPairs (G y) r) = ok (ensObs members p (G y) o sg r) := by
      have hf : List.Forall₂ (fun e x => ensiRow members pobs psigmas gY e = ok x) (rhoPairs (G y) r) (ensObs members p (G y) o sg r) := by
        rw [List.forall₂_iff_get]
        refine ⟨by simp [rhoPairs, ensObs, ensiRows], fun i h1 h2 => ?_⟩
        have hi : i < r.length := by simpa [rhoPairs] using h1
        have e1 : (rhoPairs (G y) r).get ⟨i, h1⟩ = (fin (G y (r.get ⟨i, hi⟩)), r.get ⟨i, hi⟩) := by simp [rhoPairs]
        have e2 : (ensObs members p (G y) o sg r).get ⟨i, h2⟩ = ⟨fin (o (r.get ⟨i, hi⟩)), fin (ensQ (G y) sg r ⟨i, hi⟩),
            fin (Spec.ensMean members.toFinset (p (r.get ⟨i, hi⟩))),
            List.ofFn fun e => fin (ensY members p r ⟨i, hi⟩ e), List.ofFn fun e => fin (ensY members p r ⟨i, hi⟩ e)⟩ := by simp [ensObs, ensiRows]
        rw [e1, e2]
        obtain ⟨g, hg1, hg2, hg3⟩ := hg _ (hr2 _ (List.get_mem r ⟨i, hi⟩))
        have hy' : mapM (fun ei : Nat => vget g.1 (ei : Int)) members = ok (List.ofFn fun e => fin (ensY members p r ⟨i, hi⟩ e)) := by
          rw [mapM_ok (g := fun e => fin (p (r.get ⟨i, hi⟩) e - Spec.ensMean S (p (r.get ⟨i, hi⟩)))) (fun e he => vget_some (hg3 e ((hmS e).mp he)))]
          congr 1
          apply List.ext_getElem <;> simp [ensY, hSm]
        have hss := hsg ⟨i, hi⟩
        unfold ensiRow
        simp only
        rw [vget_some (hobs ⟨i, hi⟩), ok_bind, vget_some hg1, ok_bind, hy', ok_bind, vget_some hss.1, ok_bind, hg2, fin_mul,
          fin_div_of_ne _ (mul_ne_zero hss.2 hss.2), ← hSm]
        rfl
      exact mapM_of_forall₂ hf
    have hq0 : ∀ i, 0 < ensQ (G y) sg r i := fun i => div_pos (hrho i) (mul_self_pos.mpr (hsg i).2)
    have hδ : (0 : K) < (members.length : K) - 1 := by
      have : (2 : K) ≤ (members.length : K) := by exact_mod_cast hn2
      linarith
    obtain ⟨W, hW, hW2⟩ := ensiTransform_ok hA (n := members.length) (by omega) (fun i => o (r.get i)) (ensQ (G y) sg r)
      (fun i => Spec.ensMean members.toFinset (p (r.get i))) hq0 (ensY members p r) (ensY members p r) hδ
    have hdelta : Fl.ofInt ((members.length : Int) - 1) = fin ((members.length : K) - 1) := by rw [ofInt_def]; push_cast; rfl
    refine ⟨W, hW, fun extrap => ?_⟩
    show ensiCell T A bp points pts s maxPoints extrap background pobs psigmas gY members y = _
    unfold ensiCell
    rw [vget_some hrow, ok_bind, hr1, ok_bind, if_neg (by simpa [rhoPairs] using h0), hrows, ok_bind, hdelta]
    have : ensiTransform A members.length (ensObs members p (G y) o sg r) (fin ((members.length : K) - 1)) = _ := hW2
    rw [this, ok_bind]

/-- The Kalman update is what the members become without the filter. -/
theorem ens_kalman (members : List Nat) (hnd : members.Nodup) (hn2 : 2 ≤ members.length) (b : Nat → K) (p : Nat → Nat → K) (g o sg : Nat → K)
    (r : List Nat) (hr : ∀ i : Fin r.length, 0 < g (r.get i) ∧ sg (r.get i) ≠ 0) (W : Matrix (Fin members.length) (Fin members.length) K)
    (hW : SymRoot (((members.length : K) - 1) • (pinvMat (ensY members p r) (ensQ g sg r) ((members.length : K) - 1))⁻¹) W) (a : Nat → K)
    (ha : ∀ k : Fin members.length, a (members.get k) = Spec.ensMean members.toFinset b +
      (((fun k => b (members.get k) - Spec.ensMean members.toFinset b) ᵥ* W) k +
        (fun k => b (members.get k) - Spec.ensMean members.toFinset b) ⬝ᵥ
          ((pinvMat (ensY members p r) (ensQ g sg r) ((members.length : K) - 1))⁻¹ *ᵥ ((ensY members p r)ᵀ *ᵥ (diagonal (ensQ g sg r) *ᵥ
              ((fun i => o (r.get i)) - fun i => Spec.ensMean members.toFinset (p (r.get i)))))))) :
    Spec.KalmanUpdate members.toFinset b (fun i => p (r.get i)) (fun i => sg (r.get i) ^ 2 / g (r.get i)) (fun i => o (r.get i)) a := by
  refine kalman_of_etkf members hnd hn2 b (fun i => p (r.get i)) (ensQ g sg r) _ (fun i => o (r.get i))
    (fun i => div_pos (by rw [pow_two]; exact mul_self_pos.mpr (hr i).2) (hr i).1) (fun i => ?_) (ensY members p r) (fun i k => rfl) _ (fun k => rfl)
    W hW a ha
  simp only [ensQ]
  rw [inv_div, pow_two]

end
end Gridpp.Props
