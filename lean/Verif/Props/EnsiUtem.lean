import Verif.Props.EnsiClamp
import Verif.Props.EnsiMulti
import Verif.Lemmas.EnsiUtem

/-! Property C81: the variant `utem` of `optimal_interpolation_ensi_multi` is an update in units of the standard deviation, with
the correlations of the second ensemble. -/

set_option linter.unusedSectionVars false

namespace Gridpp.Props
open Fl Res Matrix

section
variable {K : Type} [Field K] [LinearOrder K] [IsStrictOrderedRing K] [HasGeo K] [LawfulSqrt K] [HasExp K]
variable {T : RTree K} {bp points : Points K} {s : SF K} {maxPoints : Int} {L : Nat → Fl K} {G : Nat → Nat → K}

/-- The ensembles and observations, as numbers: `S` are the members without missing values in any of the four ensembles. -/
structure UtemData (bp points : Points K) (bratios : List (Fl K)) (background backgroundc : List (List (Fl K))) (pobs pratios : List (Fl K))
    (pbg pbgc : List (List (Fl K))) (E : Nat) (S : Finset Nat) (b bc p pc : Nat → Nat → K) (o ratio br : Nat → K) : Prop where
  hbr : bratios.length = bp.size
  hb : Rect bp.size E background
  hbc : Rect bp.size E backgroundc
  hpobs : pobs.length = points.size
  hrat : pratios.length = points.size
  hpbg : Rect points.size E pbg
  hpbgc : Rect points.size E pbgc
  hsize : points.size ≤ bp.size
  hS : ∀ e, e ∈ S ↔ e < E ∧ Complete (background ++ backgroundc ++ pbg ++ pbgc) e
  hbv : ∀ y < bp.size, ∀ e ∈ S, cell? background y e = some (fin (b y e))
  hbcv : ∀ y < bp.size, ∀ e ∈ S, cell? backgroundc y e = some (fin (bc y e))
  hpv : ∀ i < points.size, ∀ e ∈ S, cell? pbg i e = some (fin (p i e))
  hpcv : ∀ i < points.size, ∀ e ∈ S, cell? pbgc i e = some (fin (pc i e))
  hov : ∀ i < points.size, ∀ v, pobs[i]? = some (fin v) → v = o i
  hrv : ∀ i < points.size, pratios[i]? = some (fin (ratio i)) ∧ 0 < ratio i
  hbrv : ∀ y < bp.size, bratios[y]? = some (fin (br y))

/-- The standardized perturbations of the second ensemble at the selected observations `r`. -/
def utemZ (members : List Nat) (pc : Nat → Nat → K) (r : List Nat) : Matrix (Fin r.length) (Fin members.length) K :=
  fun i k => standardOf members.toFinset (pc (r.get i)) (members.get k)

/-- The weights of the selected observations `r`. -/
def utemQ (g ratio : Nat → K) (r : List Nat) : Fin r.length → K := fun i => g (r.get i) / ratio (r.get i)

/-- What is known of the selected observations `r`. -/
def utemObs (members : List Nat) (p pc : Nat → Nat → K) (g o ratio : Nat → K) (r : List Nat) : List (EnsiObs K) :=
  ensiRows (fun i => o (r.get i)) (utemQ g ratio r) (fun i => Spec.ensMean members.toFinset (p (r.get i))) (ensY members p r) (utemZ members pc r)

/-- The whole call is a loop over the output points; what it does at each of them. -/
theorem UtemData.cells {A : ArmaE K} (hA : A.Lawful) (h : EnsPoints T A.toArma bp points s maxPoints L G) {E : Nat} {bratios : List (Fl K)}
    {background backgroundc pbg pbgc : List (List (Fl K))} {pobs pratios : List (Fl K)} {S : Finset Nat} {b bc p pc : Nat → Nat → K}
    {o ratio br : Nat → K}
    (hd : UtemData bp points bratios background backgroundc pobs pratios pbg pbgc E S b bc p pc o ratio br) (hc : 2 ≤ S.card) :
    ∃ members : List Nat, members.Sublist (List.range E) ∧ S = members.toFinset ∧ 2 ≤ members.length ∧
      ∃ f : Bool → Nat → Res (List (Fl K)),
      (∀ extrap, utemPoints T A bp bratios background backgroundc points pobs pratios pbg pbgc s maxPoints extrap =
        mapM (f extrap) (List.range background.length)) ∧
      ∀ y row, background[y]? = some row → ∃ rowc r, backgroundc[y]? = some rowc ∧
        Spec.Selection (UsableObs bp points (fun i => ∃ v, pobs[i]? = some (fin v)) (L y) (G y) y) (G y) maxPoints.toNat r.get ∧
        (∀ i : Fin r.length, 0 < G y (r.get i) ∧ 0 < ratio (r.get i)) ∧ (r = [] → ∀ extrap, f extrap y = ok row) ∧
        (r ≠ [] → ∃ W, SymRoot (((members.length : K) - 1) • (pinvMat (utemZ members pc r) (utemQ (G y) ratio r) 1)⁻¹) W ∧
          ∀ extrap, f extrap y = utemUpdate row rowc members (utemObs members p pc (G y) o ratio r) (fin (br y)) extrap
            (some (toRows W, List.ofFn fun e => fin
            (((pinvMat (utemZ members pc r) (utemQ (G y) ratio r) 1)⁻¹ *ᵥ ((utemZ members pc r)ᵀ *ᵥ (diagonal (utemQ (G y) ratio r) *ᵥ
              ((fun i => o (r.get i)) - fun i => Spec.ensMean members.toFinset (p (r.get i)))))) e)))) := by
  obtain ⟨pts, members, hpts, hsub, hmi, -⟩ := utem_run h hd.hbr hd.hb hd.hbc hd.hpobs hd.hrat hd.hpbg hd.hpbgc true
  have hrun : ∀ extrap, utemPoints T A bp bratios background backgroundc points pobs pratios pbg pbgc s maxPoints extrap =
      utemLoop T A bp points pts s maxPoints extrap bratios background backgroundc pobs pratios pbg pbgc members := by
    intro extrap
    obtain ⟨pts', members', hpts', hsub', hmi', hr⟩ := utem_run h hd.hbr hd.hb hd.hbc hd.hpobs hd.hrat hd.hpbg hd.hpbgc extrap
    have e1 : pts' = pts := Res.ok.inj (hpts'.symm.trans hpts)
    have e2 : members' = members := by
      have s1 : members.Pairwise (· < ·) := List.Pairwise.sublist hsub List.pairwise_lt_range
      have s2 : members'.Pairwise (· < ·) := List.Pairwise.sublist hsub' List.pairwise_lt_range
      exact List.Perm.eq_of_pairwise (fun a b _ _ h1 h2 => absurd h1 (not_lt.mpr h2.le)) s2 s1
        ((List.perm_ext_iff_of_nodup (hsub'.nodup List.nodup_range) (hsub.nodup List.nodup_range)).mpr fun e => by rw [hmi, hmi'])
    rw [hr, e1, e2]
  have hnd : members.Nodup := hsub.nodup List.nodup_range
  have hSm : S = members.toFinset := by
    ext e
    rw [hd.hS, List.mem_toFinset, hmi]
  have hmS : ∀ e, e ∈ members ↔ e ∈ S := fun e => by rw [hSm, List.mem_toFinset]
  have hn2 : 2 ≤ members.length := by rw [hSm, List.toFinset_card_of_nodup hnd] at hc; exact hc
  have hm0 : members ≠ [] := List.length_pos_iff.mp (by omega)
  -- perturbations at the observations
  have hpert : ∀ i ∈ List.range points.size, utemPerturb background.length members pbg pbgc i =
      ok (members.map (fun e => fin (p i e - Spec.ensMean members.toFinset (p i))),
        members.map (fun e => fin (standardOf members.toFinset (pc i) e)), fin (Spec.ensMean members.toFinset (p i))) := by
    intro i hi
    have hi := List.mem_range.mp hi
    obtain ⟨row, hrow⟩ := exists_getElem? (v := pbg) (n := i) (by rw [hd.hpbg.1]; exact hi)
    obtain ⟨rowc, hrowc⟩ := exists_getElem? (v := pbgc) (n := i) (by rw [hd.hpbgc.1]; exact hi)
    have hv : mapM (fun ei : Nat => vget row (ei : Int)) members = ok (members.map fun e => fin (p i e)) := mapM_ok fun e he => vget_some (by
      have := hd.hpv i hi e ((hmS e).mp he)
      simpa [cell?, hrow] using this)
    have hvc : mapM (fun ei : Nat => vget rowc (ei : Int)) members = ok (members.map fun e => fin (pc i e)) := mapM_ok fun e he => vget_some (by
      have := hd.hpcv i hi e ((hmS e).mp he)
      simpa [cell?, hrowc] using this)
    have hin : i < background.length := by have := hd.hsize; have := hd.hb.1; omega
    unfold utemPerturb obsRow
    simp only [vget_some hrow, vget_some hrowc, hv, hvc, ok_bind, if_pos hin, meanStat_map members hnd hm0, standardize_map members hnd hm0,
      isValid_fin, if_true, List.map_map, Function.comp_def, fin_sub]
  have hgY := mapM_ok hpert
  refine ⟨members, hsub, hSm, hn2, fun extrap => utemCell T A bp points pts s maxPoints extrap bratios background backgroundc pobs pratios
    ((List.range points.size).map fun i => (members.map (fun e => fin (p i e - Spec.ensMean members.toFinset (p i))),
        members.map (fun e => fin (standardOf members.toFinset (pc i) e)), fin (Spec.ensMean members.toFinset (p i)))) members, ?_, ?_⟩
  · intro extrap
    rw [hrun]
    unfold utemLoop
    rw [if_neg (by omega), hgY, ok_bind]
  intro y row hrow
  have hyb : y < background.length := (List.getElem?_eq_some_iff.mp hrow).1
  have hy : y < bp.size := by rw [← hd.hb.1]; exact hyb
  obtain ⟨rowc, hrowc⟩ := exists_getElem? (v := backgroundc) (n := y) (by rw [hd.hbc.1]; exact hy)
  obtain ⟨r, hr1, hr2, hr3, hr4⟩ := ensiSelect_spec h.htree h.hlib.sort_perm h.hlib.sort_sorted h.hbp h.hpoints h.htype h.hcorr hpts h.hmax
    (obs := fun i => vget pobs (i : Int)) (o := fun i => pobs.getD i nan) (fun i hi => by
      have : i < pobs.length := by have := hd.hpobs; omega
      rw [vget_some (List.getElem?_eq_getElem this)]
      simp [List.getD, this]) hy
  have hval : (fun i => (pobs.getD i nan).isValid = true) = fun i => ∃ v, pobs[i]? = some (fin v) := by
    funext i
    apply propext
    cases hp : pobs[i]? with
    | none => simp [List.getD, hp]
    | some v =>
      constructor
      · intro hv
        simp only [List.getD, hp, Option.getD_some] at hv
        obtain ⟨q, rfl⟩ := exists_fin_of_valid hv
        exact ⟨q, rfl⟩
      · rintro ⟨q, hq⟩
        cases hq
        simp [List.getD, hp]
  rw [hval] at hr3 hr4
  have hobs : ∀ i : Fin r.length, pobs[r.get i]? = some (fin (o (r.get i))) := by
    intro i
    obtain ⟨-, ⟨v, hv⟩, -⟩ := hr3.mem i
    rw [hv, hd.hov _ (hr2 _ (List.get_mem _ _)) v hv]
  have hrho : ∀ i : Fin r.length, 0 < G y (r.get i) := fun i => (hr3.mem i).2.2
  have hsg : ∀ i : Fin r.length, pratios[r.get i]? = some (fin (ratio (r.get i))) ∧ 0 < ratio (r.get i) :=
    fun i => hd.hrv _ (hr2 _ (List.get_mem _ _))
  refine ⟨rowc, r, hrowc, hr3, fun i => ⟨hrho i, (hsg i).2⟩, fun h0 extrap => ?_, fun h0 => ?_⟩
  · simp only
    unfold utemCell
    rw [vget_some hrow, ok_bind, vget_some hrowc, ok_bind, vget_some (hd.hbrv y hy), ok_bind, hr1, ok_bind, h0]
    rfl
  · have hrows : mapM (utemRow pobs pratios ((List.range points.size).map fun i =>
        (members.map (fun e => fin (p i e - Spec.ensMean members.toFinset (p i))),
        members.map (fun e => fin (standardOf members.toFinset (pc i) e)), fin (Spec.ensMean members.toFinset (p i))))) (rhoPairs (G y) r) =
        ok (utemObs members p pc (G y) o ratio r) := by
      have hf : List.Forall₂ (fun e x => utemRow pobs pratios ((List.range points.size).map fun i =>
        (members.map (fun e => fin (p i e - Spec.ensMean members.toFinset (p i))),
        members.map (fun e => fin (standardOf members.toFinset (pc i) e)), fin (Spec.ensMean members.toFinset (p i)))) e = ok x)
          (rhoPairs (G y) r) (utemObs members p pc (G y) o ratio r) := by
        rw [List.forall₂_iff_get]
        refine ⟨by simp [rhoPairs, utemObs, ensiRows], fun i h1 h2 => ?_⟩
        have hi : i < r.length := by simpa [rhoPairs] using h1
        have e1 : (rhoPairs (G y) r).get ⟨i, h1⟩ = (fin (G y (r.get ⟨i, hi⟩)), r.get ⟨i, hi⟩) := by simp [rhoPairs]
        have e2 : (utemObs members p pc (G y) o ratio r).get ⟨i, h2⟩ = ⟨fin (o (r.get ⟨i, hi⟩)), fin (utemQ (G y) ratio r ⟨i, hi⟩),
            fin (Spec.ensMean members.toFinset (p (r.get ⟨i, hi⟩))),
            List.ofFn fun e => fin (ensY members p r ⟨i, hi⟩ e), List.ofFn fun e => fin (utemZ members pc r ⟨i, hi⟩ e)⟩ := by
          simp [utemObs, ensiRows]
        rw [e1, e2]
        have hip := hr2 _ (List.get_mem r ⟨i, hi⟩)
        have hg : ((List.range points.size).map fun i =>
            ((members.map (fun e => fin (p i e - Spec.ensMean members.toFinset (p i))),
            members.map (fun e => fin (standardOf members.toFinset (pc i) e)), fin (Spec.ensMean members.toFinset (p i))) :
              List (Fl K) × List (Fl K) × Fl K))[r.get ⟨i, hi⟩]? =
            some (members.map (fun e => fin (p (r.get ⟨i, hi⟩) e - Spec.ensMean members.toFinset (p (r.get ⟨i, hi⟩)))),
            members.map (fun e => fin (standardOf members.toFinset (pc (r.get ⟨i, hi⟩)) e)), fin (Spec.ensMean members.toFinset (p (r.get ⟨i, hi⟩)))) := by
          rw [List.getElem?_map, List.getElem?_range hip]
          rfl
        have hss := hsg ⟨i, hi⟩
        unfold utemRow
        simp only
        rw [vget_some (hobs ⟨i, hi⟩), ok_bind, vget_some hg, ok_bind, vget_some hss.1, ok_bind, fin_div_of_ne _ hss.2.ne']
        simp only [map_eq_ofFn]
        rfl
      exact mapM_of_forall₂ hf
    have hq0 : ∀ i, 0 < utemQ (G y) ratio r i := fun i => div_pos (hrho i) (hsg i).2
    obtain ⟨W, hW, hW2⟩ := ensiTransform_ok hA (n := members.length) (by omega) (fun i => o (r.get i)) (utemQ (G y) ratio r)
      (fun i => Spec.ensMean members.toFinset (p (r.get i))) hq0 (ensY members p r) (utemZ members pc r) one_pos
    refine ⟨W, hW, fun extrap => ?_⟩
    simp only
    unfold utemCell
    rw [vget_some hrow, ok_bind, vget_some hrowc, ok_bind, vget_some (hd.hbrv y hy), ok_bind, hr1, ok_bind,
      if_neg (by simpa [rhoPairs] using h0), hrows, ok_bind, one_def]
    have : ensiTransform A members.length (utemObs members p pc (G y) o ratio r) (fin 1) = _ := hW2
    rw [this, ok_bind]

/-- What `utem` makes of the members without the filter: if the second ensemble varies at the output point, an update in units of the
standard deviation; if not, all members become their mean. -/
def UtemAnalysis (S : Finset Nat) (b bc : Nat → K) (p pc : Nat → Nat → K) (g o ratio : Nat → K) (br : K) {m : Nat} (sel : Fin m → Nat)
    (a : Nat → K) : Prop :=
  (13 / 10000 < Spec.ensSpread S bc → Spec.CorrUpdate S b ((S.card : K) / ((S.card : K) - 1))
    (fun i => Spec.ensCorrOr0 S (pc (sel i)) bc) (fun i j => Spec.ensCorrOr0 S (pc (sel i)) (pc (sel j)))
    (fun i => ratio (sel i) / g (sel i)) (fun i => o (sel i) - Spec.ensMean S (p (sel i))) br a) ∧
  (0 < m → Spec.ensSpread S bc ≤ 13 / 10000 → ∀ e ∈ S, a e = Spec.ensMean S b)

/-- Everything about `utem` at once: `a` is what the members become with extrapolation. -/
theorem UtemData.run {A : ArmaE K} (hA : A.Lawful) (h : EnsPoints T A.toArma bp points s maxPoints L G) {E : Nat} {bratios : List (Fl K)}
    {background backgroundc pbg pbgc : List (List (Fl K))} {pobs pratios : List (Fl K)} {S : Finset Nat} {b bc p pc : Nat → Nat → K}
    {o ratio br : Nat → K}
    (hd : UtemData bp points bratios background backgroundc pobs pratios pbg pbgc E S b bc p pc o ratio br) (hc : 2 ≤ S.card) (extrap : Bool) :
    ∃ out, utemPoints T A bp bratios background backgroundc points pobs pratios pbg pbgc s maxPoints extrap = ok out ∧ Rect bp.size E out ∧
      ∀ y < bp.size, ∃ (m : Nat) (sel : Fin m → Nat) (a : Nat → K),
        Spec.Selection (UsableObs bp points (fun i => ∃ v, pobs[i]? = some (fin v)) (L y) (G y) y) (G y) maxPoints.toNat sel ∧
        UtemAnalysis S (b y) (bc y) p pc (G y) o ratio (br y) sel a ∧
        (m = 0 → ∀ e, cell? out y e = cell? background y e) ∧
        (∀ e, e ∉ S → cell? out y e = cell? background y e) ∧
        ∀ e ∈ S, ∃ inc, cell? out y e = some (fin (b y e + inc)) ∧ (m = 0 → inc = 0) ∧ (extrap = true → b y e + inc = a e) ∧
          (extrap = false → m = 1 → Spec.Clamped (fun i => o (sel i) - p (sel i) e) (a e - b y e) inc) ∧
          (extrap = false → 0 < m → ∃ i' : Fin m, ∃ e' ∈ S, (i' : Nat) = rank S e % m ∧ rank S e' = rank S e / m ∧
            Spec.Clamped (fun i => o (sel i) - (Spec.ensMean S (p (sel i)) + (p (sel i') e' - Spec.ensMean S (p (sel i'))))) (a e - b y e) inc) := by
  obtain ⟨members, hsub, hSm, hn2, f, hrun, hcells⟩ := hd.cells hA h hc
  have hnd : members.Nodup := hsub.nodup List.nodup_range
  have hsort : members.Pairwise (· < ·) := List.Pairwise.sublist hsub List.pairwise_lt_range
  have hmS : ∀ e, e ∈ members ↔ e ∈ S := fun e => by rw [hSm, List.mem_toFinset]
  rw [hrun]
  have hcell : ∀ y < background.length, (∃ out, f extrap y = ok out ∧
      (out.length = E ∧ ∃ (m : Nat) (sel : Fin m → Nat) (a : Nat → K),
        Spec.Selection (UsableObs bp points (fun i => ∃ v, pobs[i]? = some (fin v)) (L y) (G y) y) (G y) maxPoints.toNat sel ∧
        UtemAnalysis S (b y) (bc y) p pc (G y) o ratio (br y) sel a ∧
        (m = 0 → ∀ e, out[e]? = cell? background y e) ∧
        (∀ e, e ∉ S → out[e]? = cell? background y e) ∧
        ∀ e ∈ S, ∃ inc, out[e]? = some (fin (b y e + inc)) ∧ (m = 0 → inc = 0) ∧ (extrap = true → b y e + inc = a e) ∧
          (extrap = false → m = 1 → Spec.Clamped (fun i => o (sel i) - p (sel i) e) (a e - b y e) inc) ∧
          (extrap = false → 0 < m → ∃ i' : Fin m, ∃ e' ∈ S, (i' : Nat) = rank S e % m ∧ rank S e' = rank S e / m ∧
            Spec.Clamped (fun i => o (sel i) - (Spec.ensMean S (p (sel i)) + (p (sel i') e' - Spec.ensMean S (p (sel i')))))
              (a e - b y e) inc))) ∨
      ∃ e, f extrap y = .throw e ∧ False := by
    intro y hyb
    left
    have hy : y < bp.size := by rw [← hd.hb.1]; exact hyb
    obtain ⟨row, hrow⟩ := exists_getElem? hyb
    have hlen : row.length = E := hd.hb.2 row (List.mem_iff_getElem?.mpr ⟨y, hrow⟩)
    have hrc : ∀ e, cell? background y e = row[e]? := fun e => by simp [cell?, hrow]
    have hrv : ∀ e ∈ S, row[e]? = some (fin (b y e)) := fun e he => by rw [← hrc]; exact hd.hbv y hy e he
    obtain ⟨rowc, r, hrowc, hr3, hr4, hr5, hr6⟩ := hcells y row hrow
    by_cases h0 : r = []
    · rw [hr5 h0]
      rw [h0] at hr3
      refine ⟨row, rfl, hlen, 0, _, b y, hr3, ⟨fun _ => ⟨fun i => i.elim0, fun k' => ?_, ?_, ?_, le_refl _⟩, by omega⟩,
        fun _ e => (hrc e).symm, fun e _ => (hrc e).symm,
        fun e he => ⟨0, by rw [add_zero]; exact hrv e he, fun _ => rfl, fun _ => add_zero _, by omega, by omega⟩⟩
      · exact ⟨fun _ => funext fun i => i.elim0, fun _ j => j.elim0⟩
      · simp
      · simp
    · obtain ⟨W, hW, hfy⟩ := hr6 h0
      rw [hfy]
      have hrow' : ∀ e ∈ members, row[e]? = some (fin (b y e)) := fun e he => hrv e ((hmS e).mp he)
      have hrowc' : ∀ e ∈ members, rowc[e]? = some (fin (bc y e)) := fun e he => by
        have := hd.hbcv y hy e ((hmS e).mp he)
        simpa [cell?, hrowc] using this
      obtain ⟨out, ho1, ho2, ho3, ho4⟩ := utemUpdate_gen row rowc members hnd (by omega) (b y) (bc y) hrow' hrowc'
        (utemObs members p pc (G y) o ratio r) W _ (br y) _ (fun k => rfl) extrap
      obtain ⟨outA, -, -, -, hA4⟩ := utemUpdate_gen row rowc members hnd (by omega) (b y) (bc y) hrow' hrowc'
        (utemObs members p pc (G y) o ratio r) W ((pinvMat (utemZ members pc r) (utemQ (G y) ratio r) 1)⁻¹ *ᵥ
          ((utemZ members pc r)ᵀ *ᵥ (diagonal (utemQ (G y) ratio r) *ᵥ
            ((fun i => o (r.get i)) - fun i => Spec.ensMean members.toFinset (p (r.get i)))))) (br y) _ (fun k => rfl) true
      have hr0 : 0 < r.length := List.length_pos_iff.mpr h0
      refine ⟨out, ho1, by rw [ho2, hlen], r.length, r.get, fun e => match outA[e]? with | some (fin v) => v | _ => 0, hr3, ?_,
        by omega, fun e he => ?_, fun e he => ?_⟩
      · have hcu := corrUpdate_of_etkf members hnd hn2 (b y) (bc y) (fun i => pc (r.get i)) (utemQ (G y) ratio r)
          (fun i => ratio (r.get i) / G y (r.get i)) ((fun i => o (r.get i)) - fun i => Spec.ensMean members.toFinset (p (r.get i)))
          (fun i => div_pos (hr4 i).2 (hr4 i).1) (fun i => by simp only [utemQ, inv_div]) (br y) (utemZ members pc r) (fun i k => rfl)
          _ (fun k => rfl) W hW (fun e => match outA[e]? with | some (fin v) => v | _ => 0) (fun k => by
            have := hA4 k
            rw [if_pos rfl, fin_add] at this
            simp only [this])
        rw [hSm]
        unfold UtemAnalysis
        rw [List.toFinset_card_of_nodup hnd]
        exact ⟨hcu.1, fun _ => hcu.2⟩
      · rw [hrc, ho3 e (fun c => he ((hmS e).mp c))]
      · obtain ⟨k, rfl⟩ := List.get_of_mem ((hmS e).mpr he)
        have h1 := ho4 k
        have h2 := hA4 k
        rw [if_pos rfl, fin_add] at h2
        simp only [h2]
        cases extrap with
        | true =>
          rw [if_pos rfl, fin_add] at h1
          exact ⟨_, by rw [h1, add_sub_cancel], by omega, fun _ => add_sub_cancel _ _, by simp, by simp⟩
        | false =>
          rw [if_neg (by simp)] at h1
          obtain ⟨inc, hi1, hi2, hi3⟩ := filtered hsort (b y) p o r hr0 (utemQ (G y) ratio r) (utemZ members pc r) k
            (Spec.ensSpread members.toFinset (b y) * ((fun k => standardOf members.toFinset (bc y) (members.get k)) ᵥ* W) k + br y *
              ((fun k => standardOf members.toFinset (bc y) (members.get k)) ⬝ᵥ ((pinvMat (utemZ members pc r) (utemQ (G y) ratio r) 1)⁻¹ *ᵥ
                ((utemZ members pc r)ᵀ *ᵥ (diagonal (utemQ (G y) ratio r) *ᵥ
                ((fun i => o (r.get i)) - fun i => Spec.ensMean members.toFinset (p (r.get i))))))))
          unfold utemObs at h1
          rw [hi1] at h1
          rw [hSm]
          exact ⟨inc, h1, by omega, by simp, fun _ => hi2, fun _ _ => hi3⟩
  rcases mapM_range_cases _ (fun _ => False) _ background.length hcell with ⟨out, h1, h2, h3⟩ | ⟨-, -, h⟩
  · refine ⟨out, h1, ⟨by rw [h2, hd.hb.1], fun r hr => ?_⟩, fun y hy => ?_⟩
    · obtain ⟨y, hy⟩ := List.mem_iff_getElem?.mp hr
      have hyb : y < background.length := by rw [← h2]; exact (List.getElem?_eq_some_iff.mp hy).1
      obtain ⟨r', hr', hl, -⟩ := h3 y hyb
      rw [hy] at hr'
      cases hr'
      exact hl
    · obtain ⟨r', hr', -, m, sel, a, c1, c2, c0, c3, c4⟩ := h3 y (by rw [hd.hb.1]; exact hy)
      have hce : ∀ e, cell? out y e = r'[e]? := fun e => by simp [cell?, hr']
      refine ⟨m, sel, a, c1, c2, fun hm e => (hce e).trans (c0 hm e), fun e he => (hce e).trans (c3 e he), fun e he => ?_⟩
      obtain ⟨inc, d1, d2⟩ := c4 e he
      exact ⟨inc, (hce e).trans d1, d2⟩
  · exact h.elim

/-- `optimal_interpolation_ensi_multi_utem` for points, with extrapolation: the mean moves by the ratio times gain times the innovations
of the mean, and the variance is the part of it not explained by the observations, where the gain is made with the correlations
of the second ensemble. Missing for the claim: the correlations are multiplied by n / (n - 1), there must be at least as many output points
as observations, and the second ensemble must vary at the output point; if it does not, all members become the mean. -/
theorem c81_utem_partial {A : ArmaE K} (hA : A.Lawful) (h : EnsPoints T A.toArma bp points s maxPoints L G) {E : Nat} {bratios : List (Fl K)}
    {background backgroundc pbg pbgc : List (List (Fl K))} {pobs pratios : List (Fl K)} {S : Finset Nat} {b bc p pc : Nat → Nat → K}
    {o ratio br : Nat → K}
    (hd : UtemData bp points bratios background backgroundc pobs pratios pbg pbgc E S b bc p pc o ratio br) (hc : 2 ≤ S.card) :
    ∃ out, utemPoints T A bp bratios background backgroundc points pobs pratios pbg pbgc s maxPoints true = ok out ∧ Rect bp.size E out ∧
      ∀ y < bp.size, ∃ (m : Nat) (sel : Fin m → Nat) (a : Nat → K),
        Spec.Selection (UsableObs bp points (fun i => ∃ v, pobs[i]? = some (fin v)) (L y) (G y) y) (G y) maxPoints.toNat sel ∧
        (m = 0 → ∀ e, cell? out y e = cell? background y e) ∧
        (∀ e, e ∉ S → cell? out y e = cell? background y e) ∧ (∀ e ∈ S, cell? out y e = some (fin (a e))) ∧
        (13 / 10000 < Spec.ensSpread S (bc y) → Spec.CorrUpdate S (b y) ((S.card : K) / ((S.card : K) - 1))
          (fun i => Spec.ensCorrOr0 S (pc (sel i)) (bc y)) (fun i j => Spec.ensCorrOr0 S (pc (sel i)) (pc (sel j)))
          (fun i => ratio (sel i) / G y (sel i)) (fun i => o (sel i) - Spec.ensMean S (p (sel i))) (br y) a) ∧
        (0 < m → Spec.ensSpread S (bc y) ≤ 13 / 10000 → ∀ e ∈ S, a e = Spec.ensMean S (b y)) := by
  obtain ⟨out, h1, h2, h3⟩ := hd.run hA h hc true
  refine ⟨out, h1, h2, fun y hy => ?_⟩
  obtain ⟨m, sel, a, c1, c2, c3, c4, c5⟩ := h3 y hy
  refine ⟨m, sel, a, c1, c3, c4, fun e he => ?_, c2.1, c2.2⟩
  obtain ⟨inc, d1, -, d2, -⟩ := c5 e he
  rw [d1, d2 rfl]

/-- The same without extrapolation: the increment of each member is that of the update, moved to the nearest number
between min(0, smallest) and max(0, largest innovation), with the defect of `c77_ensi_partial`. -/
theorem c81_utem_filter_partial {A : ArmaE K} (hA : A.Lawful) (h : EnsPoints T A.toArma bp points s maxPoints L G) {E : Nat}
    {bratios : List (Fl K)} {background backgroundc pbg pbgc : List (List (Fl K))} {pobs pratios : List (Fl K)} {S : Finset Nat}
    {b bc p pc : Nat → Nat → K} {o ratio br : Nat → K}
    (hd : UtemData bp points bratios background backgroundc pobs pratios pbg pbgc E S b bc p pc o ratio br) (hc : 2 ≤ S.card) :
    ∃ out, utemPoints T A bp bratios background backgroundc points pobs pratios pbg pbgc s maxPoints false = ok out ∧ Rect bp.size E out ∧
      ∀ y < bp.size, ∃ (m : Nat) (sel : Fin m → Nat) (a : Nat → K),
        Spec.Selection (UsableObs bp points (fun i => ∃ v, pobs[i]? = some (fin v)) (L y) (G y) y) (G y) maxPoints.toNat sel ∧
        (∀ e, e ∉ S → cell? out y e = cell? background y e) ∧
        (13 / 10000 < Spec.ensSpread S (bc y) → Spec.CorrUpdate S (b y) ((S.card : K) / ((S.card : K) - 1))
          (fun i => Spec.ensCorrOr0 S (pc (sel i)) (bc y)) (fun i j => Spec.ensCorrOr0 S (pc (sel i)) (pc (sel j)))
          (fun i => ratio (sel i) / G y (sel i)) (fun i => o (sel i) - Spec.ensMean S (p (sel i))) (br y) a) ∧
        (0 < m → Spec.ensSpread S (bc y) ≤ 13 / 10000 → ∀ e ∈ S, a e = Spec.ensMean S (b y)) ∧
        ∀ e ∈ S, ∃ inc, cell? out y e = some (fin (b y e + inc)) ∧ (m = 0 → inc = 0) ∧
          (m = 1 → Spec.Clamped (fun i => o (sel i) - p (sel i) e) (a e - b y e) inc) ∧
          (0 < m → ∃ i' : Fin m, ∃ e' ∈ S, (i' : Nat) = rank S e % m ∧ rank S e' = rank S e / m ∧
            Spec.Clamped (fun i => o (sel i) - (Spec.ensMean S (p (sel i)) + (p (sel i') e' - Spec.ensMean S (p (sel i'))))) (a e - b y e) inc) := by
  obtain ⟨out, h1, h2, h3⟩ := hd.run hA h hc false
  refine ⟨out, h1, h2, fun y hy => ?_⟩
  obtain ⟨m, sel, a, c1, c2, c3, c4, c5⟩ := h3 y hy
  refine ⟨m, sel, a, c1, c4, c2.1, c2.2, fun e he => ?_⟩
  obtain ⟨inc, d1, d2, -, d3, d4⟩ := c5 e he
  exact ⟨inc, d1, d2, d3 rfl, d4 rfl⟩

/-- Without variation of the second ensemble at an output point, its correlations with the observations are 0, so that nothing should
change there. Instead, with extrapolation, all members become the mean as soon as an observation can be used. -/
theorem c81_collapse {A : ArmaE K} (hA : A.Lawful) (h : EnsPoints T A.toArma bp points s maxPoints L G) {E : Nat} {bratios : List (Fl K)}
    {background backgroundc pbg pbgc : List (List (Fl K))} {pobs pratios : List (Fl K)} {S : Finset Nat} {b bc p pc : Nat → Nat → K}
    {o ratio br : Nat → K}
    (hd : UtemData bp points bratios background backgroundc pobs pratios pbg pbgc E S b bc p pc o ratio br) (hc : 2 ≤ S.card)
    {y : Nat} (hy : y < bp.size) (hv : Spec.ensSpread S (bc y) ≤ 13 / 10000)
    {i : Nat} (hi : UsableObs bp points (fun i => ∃ v, pobs[i]? = some (fin v)) (L y) (G y) y i) :
    (∀ x, Spec.ensCorrOr0 S x (bc y) = 0) ∧
    ∃ out, utemPoints T A bp bratios background backgroundc points pobs pratios pbg pbgc s maxPoints true = ok out ∧
      ∀ e ∈ S, cell? out y e = some (fin (Spec.ensMean S (b y))) := by
  obtain ⟨out, h1, -, h3⟩ := c81_utem_partial hA h hd hc
  refine ⟨fun x => ?_, out, h1, ?_⟩
  · unfold Spec.ensCorrOr0
    rw [if_neg fun c => absurd c.2 (not_lt.mpr hv)]
  · obtain ⟨m, sel, a, c1, -, -, c4, -, c6⟩ := h3 y hy
    have hm : 0 < m := by
      rcases c1.best i hi with ⟨k, -⟩ | ⟨e1, e2, -⟩
      · exact Nat.lt_of_le_of_lt (Nat.zero_le _) k.2
      · omega
    intro e he
    rw [c4 e he, c6 hm hv e he]

/-- Members that all become the mean are not the update, unless they had no spread: with correlations 0 the spread is kept. -/
theorem c81_collapse_wrong {S : Finset Nat} {x a : Nat → K} (ha : ∀ e ∈ S, a e = Spec.ensMean S x) (hx : Spec.ensSpread S x ≠ 0) {m : Nat} (c : K)
    (C : Fin m → Fin m → K) (r d : Fin m → K) (br : K) : ¬ Spec.CorrUpdate S x c (fun _ => 0) C r d br a := by
  rintro ⟨k, -, -, h, -⟩
  have hne : S.Nonempty := by
    by_contra c
    rw [Finset.not_nonempty_iff_eq_empty] at c
    exact hx (by rw [c]; simp [Spec.ensSpread, sqrt_at_zero])
  have hc : (S.card : K) ≠ 0 := by exact_mod_cast (Finset.card_pos.mpr hne).ne'
  have hm : Spec.ensMean S a = Spec.ensMean S x := by
    conv_lhs => unfold Spec.ensMean
    rw [Finset.sum_congr rfl ha, Finset.sum_const, nsmul_eq_mul, mul_div_cancel_left₀ _ hc]
  have hs : Spec.ensSpread S a = 0 := by
    unfold Spec.ensSpread
    rw [Finset.sum_eq_zero fun e he => by rw [ha e he, hm, sub_self, zero_mul], zero_div, sqrt_at_zero]
  rw [hs] at h
  simp only [mul_zero, Finset.sum_const_zero, sub_zero, mul_one] at h
  exact hx (pow_eq_zero_iff (two_ne_zero) |>.mp (by rw [← h]; ring))

/-- The factor n / (n - 1) matters: with one observation whose correlation with the output point is 1, what `utem` computes is not the
update with the correlations themselves. -/
theorem c81_not_correlation {S : Finset Nat} {x a : Nat → K} (hc : 2 ≤ S.card) {r d br : K} (hr : 0 < r) (hd : br * d ≠ 0)
    (h : Spec.CorrUpdate S x ((S.card : K) / ((S.card : K) - 1)) (fun _ : Fin 1 => 1) (fun _ _ => 1) (fun _ => r) (fun _ => d) br a) :
    ¬ Spec.CorrUpdate S x 1 (fun _ : Fin 1 => 1) (fun _ _ => 1) (fun _ => r) (fun _ => d) br a := by
  rintro ⟨k', h1', h2', -⟩
  obtain ⟨k, h1, h2, -⟩ := h
  have hn : (2 : K) ≤ (S.card : K) := by exact_mod_cast hc
  have hn1 : (S.card : K) - 1 ≠ 0 := by intro c; linarith
  have e1 := (h1 k).mpr rfl 0
  have e2 := (h1' k').mpr rfl 0
  rw [h2] at h2'
  simp only [Fin.sum_univ_one, Fin.isValue, if_true, mul_one] at e1 e2 h2'
  have e3 : k 0 = k' 0 := by
    refine mul_left_cancel₀ hd ?_
    linear_combination h2'
  rw [← e3] at e2
  have e4 : k 0 * ((S.card : K) + r * ((S.card : K) - 1)) = S.card := by
    field_simp at e1
    linear_combination e1
  have e5 : k 0 * r = 0 := by linear_combination (S.card : K) * e2 - e4
  rcases mul_eq_zero.mp e5 with c | c
  · rw [c] at e2; simp at e2
  · exact hr.ne' c

variable {g : Grid K} {Y X : Nat} {lats lons : List (List (Fl K))} {type : CoordType}

/-- The same as `c81_utem_partial` for a grid. -/
theorem c81_utem_grid_partial {A : ArmaE K} (hA : A.Lawful) (hg : BuiltGrid g Y X lats lons type) (hbp : g.toPoints = ok bp)
    (h : EnsPoints T A.toArma bp points s maxPoints L G) {E : Nat} {bratios : List (List (Fl K))}
    {background backgroundc : List (List (List (Fl K)))} {pbg pbgc : List (List (Fl K))} {pobs pratios : List (Fl K)} {S : Finset Nat}
    {b bc p pc : Nat → Nat → K} {o ratio br : Nat → K} (hbr : Rect Y X bratios) (hb : Box Y X E background) (hbc : Box Y X E backgroundc)
    (hd : UtemData bp points bratios.flatten background.flatten backgroundc.flatten pobs pratios pbg pbgc E S b bc p pc o ratio br)
    (hc : 2 ≤ S.card) :
    ∃ out, utemGrid T A g bratios background backgroundc points pobs pratios pbg pbgc s maxPoints true = ok out ∧ Box Y X E out ∧
      ∀ y < Y, ∀ x < X, ∃ row brow, cell? out y x = some row ∧ cell? background y x = some brow ∧
        ∃ (m : Nat) (sel : Fin m → Nat) (a : Nat → K),
          Spec.Selection (UsableObs bp points (fun i => ∃ v, pobs[i]? = some (fin v)) (L (y * X + x)) (G (y * X + x)) (y * X + x))
            (G (y * X + x)) maxPoints.toNat sel ∧
          (m = 0 → ∀ e : Nat, row[e]? = brow[e]?) ∧
          (∀ e, e ∉ S → row[e]? = brow[e]?) ∧ (∀ e ∈ S, row[e]? = some (fin (a e))) ∧
          (13 / 10000 < Spec.ensSpread S (bc (y * X + x)) → Spec.CorrUpdate S (b (y * X + x)) ((S.card : K) / ((S.card : K) - 1))
            (fun i => Spec.ensCorrOr0 S (pc (sel i)) (bc (y * X + x))) (fun i j => Spec.ensCorrOr0 S (pc (sel i)) (pc (sel j)))
            (fun i => ratio (sel i) / G (y * X + x) (sel i)) (fun i => o (sel i) - Spec.ensMean S (p (sel i))) (br (y * X + x)) a) ∧
          (0 < m → Spec.ensSpread S (bc (y * X + x)) ≤ 13 / 10000 → ∀ e ∈ S, a e = Spec.ensMean S (b (y * X + x))) := by
  have s1 := (sizes_of_grid hg hbp h).1
  obtain ⟨o1, h1, h2, h3⟩ := c81_utem_partial hA h hd hc
  rw [s1] at h2
  obtain ⟨out, g1, g2, g3⟩ := unflatten3_eq h2
  refine ⟨out, by rw [utemGrid_eq hg hbp h hbr hb hbc hd.hpobs hd.hrat hd.hpbg hd.hpbgc, h1, ok_bind, g1], g2, fun y hy x hx => ?_⟩
  obtain ⟨c, g4, g5⟩ := g3 y hy x hx
  obtain ⟨brow, hb1⟩ := hb.1.cell?_some hy hx
  have hb2 := flatten_getElem? (y := y) hb.1 hx
  rw [hb1] at hb2
  obtain ⟨m, sel, a, c1, c2, c3, c4, c5⟩ := h3 (y * X + x) (by rw [s1]; exact ((c15_bijection Y X).2 y hy x hx).1)
  unfold cell? at c2 c3 c4
  rw [g5] at c2 c3 c4
  rw [hb2] at c2 c3
  exact ⟨c, brow, g4, hb1, m, sel, a, c1, c2, c3, c4, c5⟩

/-- The same as `c81_utem_filter_partial` for a grid. -/
theorem c81_utem_filter_grid_partial {A : ArmaE K} (hA : A.Lawful) (hg : BuiltGrid g Y X lats lons type) (hbp : g.toPoints = ok bp)
    (h : EnsPoints T A.toArma bp points s maxPoints L G) {E : Nat} {bratios : List (List (Fl K))}
    {background backgroundc : List (List (List (Fl K)))} {pbg pbgc : List (List (Fl K))} {pobs pratios : List (Fl K)} {S : Finset Nat}
    {b bc p pc : Nat → Nat → K} {o ratio br : Nat → K} (hbr : Rect Y X bratios) (hb : Box Y X E background) (hbc : Box Y X E backgroundc)
    (hd : UtemData bp points bratios.flatten background.flatten backgroundc.flatten pobs pratios pbg pbgc E S b bc p pc o ratio br)
    (hc : 2 ≤ S.card) :
    ∃ out, utemGrid T A g bratios background backgroundc points pobs pratios pbg pbgc s maxPoints false = ok out ∧ Box Y X E out ∧
      ∀ y < Y, ∀ x < X, ∃ row brow, cell? out y x = some row ∧ cell? background y x = some brow ∧
        ∃ (m : Nat) (sel : Fin m → Nat) (a : Nat → K),
          Spec.Selection (UsableObs bp points (fun i => ∃ v, pobs[i]? = some (fin v)) (L (y * X + x)) (G (y * X + x)) (y * X + x))
            (G (y * X + x)) maxPoints.toNat sel ∧
          (∀ e, e ∉ S → row[e]? = brow[e]?) ∧
          (13 / 10000 < Spec.ensSpread S (bc (y * X + x)) → Spec.CorrUpdate S (b (y * X + x)) ((S.card : K) / ((S.card : K) - 1))
            (fun i => Spec.ensCorrOr0 S (pc (sel i)) (bc (y * X + x))) (fun i j => Spec.ensCorrOr0 S (pc (sel i)) (pc (sel j)))
            (fun i => ratio (sel i) / G (y * X + x) (sel i)) (fun i => o (sel i) - Spec.ensMean S (p (sel i))) (br (y * X + x)) a) ∧
          (0 < m → Spec.ensSpread S (bc (y * X + x)) ≤ 13 / 10000 → ∀ e ∈ S, a e = Spec.ensMean S (b (y * X + x))) ∧
          ∀ e ∈ S, ∃ inc, row[e]? = some (fin (b (y * X + x) e + inc)) ∧ (m = 0 → inc = 0) ∧
            (m = 1 → Spec.Clamped (fun i => o (sel i) - p (sel i) e) (a e - b (y * X + x) e) inc) ∧
            (0 < m → ∃ i' : Fin m, ∃ e' ∈ S, (i' : Nat) = rank S e % m ∧ rank S e' = rank S e / m ∧
              Spec.Clamped (fun i => o (sel i) - (Spec.ensMean S (p (sel i)) + (p (sel i') e' - Spec.ensMean S (p (sel i')))))
                (a e - b (y * X + x) e) inc) := by
  have s1 := (sizes_of_grid hg hbp h).1
  obtain ⟨o1, h1, h2, h3⟩ := c81_utem_filter_partial hA h hd hc
  rw [s1] at h2
  obtain ⟨out, g1, g2, g3⟩ := unflatten3_eq h2
  refine ⟨out, by rw [utemGrid_eq hg hbp h hbr hb hbc hd.hpobs hd.hrat hd.hpbg hd.hpbgc, h1, ok_bind, g1], g2, fun y hy x hx => ?_⟩
  obtain ⟨c, g4, g5⟩ := g3 y hy x hx
  obtain ⟨brow, hb1⟩ := hb.1.cell?_some hy hx
  have hb2 := flatten_getElem? (y := y) hb.1 hx
  rw [hb1] at hb2
  obtain ⟨m, sel, a, c1, c3, c4, c5, c6⟩ := h3 (y * X + x) (by rw [s1]; exact ((c15_bijection Y X).2 y hy x hx).1)
  unfold cell? at c3 c6
  rw [g5] at c3 c6
  rw [hb2] at c3
  exact ⟨c, brow, g4, hb1, m, sel, a, c1, c3, c4, c5, c6⟩

end
end Gridpp.Props
