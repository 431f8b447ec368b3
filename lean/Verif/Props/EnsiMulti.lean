import Verif.Lemmas.EnsiMulti

/-! Property C52 for the variants `ebe`, `ebesc` and `utem` of `optimal_interpolation_ensi_multi`. -/

set_option linter.unusedSectionVars false

namespace Gridpp.Props
open Fl Res

section
variable {K : Type} [Field K] [LinearOrder K] [IsStrictOrderedRing K] [HasGeo K] [LawfulSqrt K] [HasExp K]

variable {T : RTree K} {bp points : Points K} {s : SF K} {maxPoints : Int} {L : Nat → Fl K} {G P : Nat → Nat → K}

/-- A member that is not complete comes before one that is. -/
def MemberGap (rows : List (List (Fl K))) (E : Nat) : Prop := ∃ e < E, Complete rows e ∧ ∃ e' < e, ¬ Complete rows e'

/-- The exceptions of the variants `ebe` and `ebesc`: that of `arma::inv`, and `std::logic_error` if there is a gap. -/
def MultiRaise (A : Arma K) (gap : Prop) (e : Exc) : Prop :=
  (e = .runtimeError ∧ ∃ M, A.inv M = .throw .runtimeError) ∨ (e = .logicError ∧ gap)

theorem untouched_background {background : List (List (Fl K))} {Y E : Nat} (hb : Rect Y E background) {complete affected : Nat → Prop}
    {raise : Exc → Prop} : Untouched (ok background) background Y E complete affected raise :=
  Or.inl ⟨background, rfl, hb, fun _ _ _ => rfl, fun _ _ => rfl⟩

theorem gap_iff {rows : List (List (Fl K))} {E : Nat} {members : List Nat} (hmi : ∀ e, e ∈ members ↔ e < E ∧ Complete rows e) :
    (∃ e ∈ members, ∃ e' < e, e' ∉ members) ↔ MemberGap rows E := by
  constructor
  · rintro ⟨e, he, e', he', hn⟩
    have h1 := (hmi e).mp he
    exact ⟨e, h1.1, h1.2, e', he', fun hc => hn ((hmi e').mpr ⟨he'.trans h1.1, hc⟩)⟩
  · rintro ⟨e, he, hc, e', he', hn⟩
    exact ⟨e, (hmi e).mpr ⟨he, hc⟩, e', he', fun h => hn ((hmi e').mp h).2⟩

theorem pobs0 {pobs : List (List (Fl K))} {n E : Nat} (h : Rect n E pobs) (hE : 0 < E) (i : Nat) (hi : i < n) :
    vget2 pobs (i : Int) 0 = ok ((cell? pobs i 0).getD nan) := by
  obtain ⟨v, hv, hg⟩ := vget2_of_rect h hi hE
  rw [hv]
  simpa using hg

theorem usable0 (pobs : List (List (Fl K))) (y : Nat) (Ly : Fl K) (g : Nat → K) :
    (∃ i, UsableObs bp points (fun i => ((cell? pobs i 0).getD nan).isValid = true) Ly g y i) ↔
      ∃ i, UsableObs bp points (fun i => ∃ o, cell? pobs i 0 = some (fin o)) Ly g y i := by
  have : ∀ i, ((cell? pobs i 0).getD nan).isValid = true ↔ ∃ o, cell? pobs i 0 = some (fin o) := by
    intro i
    cases cell? pobs i 0 with
    | none => simp
    | some v => simp [isValid_iff]
  simp only [UsableObs, this]

theorem usable1 (pobs : List (Fl K)) (y : Nat) (Ly : Fl K) (g : Nat → K) :
    (∃ i, UsableObs bp points (fun i => (pobs.getD i nan).isValid = true) Ly g y i) ↔
      ∃ i, UsableObs bp points (fun i => ∃ o, pobs[i]? = some (fin o)) Ly g y i := by
  have : ∀ i, (pobs.getD i nan).isValid = true ↔ ∃ o, pobs[i]? = some (fin o) := by
    intro i
    rw [List.getD]
    cases pobs[i]? with
    | none => simp
    | some v => simp [isValid_iff]
  simp only [UsableObs, this]

/-! ### ebesc -/

/-- One output point of `ebesc`. -/
theorem ebescCell_cases {A : Arma K} (h : EnsPoints T A bp points s maxPoints L G) (hc : Correlations T s bp points L G P) {E : Nat}
    {bratios : List (Fl K)} {background pobs pbg : List (List (Fl K))} {pratios : List (Fl K)} (hbr : bratios.length = bp.size)
    (hb : Rect bp.size E background) (hpobs : Rect points.size E pobs) (hrat : pratios.length = points.size) (hpbg : Rect points.size E pbg)
    {pts : List (Point K)} (hpts : mapM (fun i : Nat => points.getPoint (i : Int)) (List.range points.size) = ok pts)
    {members : List Nat} (hmE : ∀ e ∈ members, e < E) (hnd : members.Nodup) (hm0 : 0 < E) (extrap : Bool) {y : Nat} {row : List (Fl K)}
    (hrow : background[y]? = some row) :
    ((¬ ∃ i, UsableObs bp points (fun i => ∃ o, cell? pobs i 0 = some (fin o)) (L y) (G y) y i) →
      ebescCell T A bp points pts s maxPoints extrap bratios background pobs pratios pbg members y = ok row) ∧
    ((∃ i, UsableObs bp points (fun i => ∃ o, cell? pobs i 0 = some (fin o)) (L y) (G y) y i) →
      ((∃ e ∈ members, ∃ e' < e, e' ∉ members) →
        ebescCell T A bp points pts s maxPoints extrap bratios background pobs pratios pbg members y = .throw .logicError) ∧
      ((∀ e ∈ members, ∀ e' < e, e' ∈ members) →
        (∃ out, ebescCell T A bp points pts s maxPoints extrap bratios background pobs pratios pbg members y = ok out ∧
          out.length = E ∧ ∀ i, i ∉ members → out[i]? = row[i]?) ∨
        (ebescCell T A bp points pts s maxPoints extrap bratios background pobs pratios pbg members y = .throw .runtimeError ∧
          ∃ M, A.inv M = .throw .runtimeError))) := by
  have hy : y < bp.size := by rw [← hb.1]; exact (List.getElem?_eq_some_iff.mp hrow).1
  have hlen : row.length = E := hb.2 row (List.mem_iff_getElem?.mpr ⟨y, hrow⟩)
  obtain ⟨br, hbr'⟩ := exists_getElem? (v := bratios) (n := y) (by omega)
  obtain ⟨r, hr1, hr2, hr3⟩ := h.select hpts (obs := fun i => vget2 pobs (i : Int) 0) (o := fun i => (cell? pobs i 0).getD nan)
    (pobs0 hpobs hm0) hy
  rw [usable0] at hr3
  constructor
  · intro hn
    unfold ebescCell
    rw [vget_some hrow, ok_bind, vget_some hbr', ok_bind, hr1, ok_bind, hr3.mpr hn]
    rfl
  · intro hu
    have h0 : r ≠ [] := fun c => hr3.mp c hu
    obtain ⟨c1, c2⟩ := multiRows_cases h.hpoints hc hpts hpobs hrat hpbg hmE hnd (fun _ => ok []) (fun _ _ => ⟨_, rfl⟩) r hr2 h0 (G y)
    constructor
    · intro hg
      unfold ebescCell
      rw [vget_some hrow, ok_bind, vget_some hbr', ok_bind, hr1, ok_bind, if_neg (by simpa [rhoPairs] using h0), c2 hg]
      rfl
    · intro hg
      obtain ⟨rows, hrows⟩ := c1 hg
      have hrun : ebescCell T A bp points pts s maxPoints extrap bratios background pobs pratios pbg members y = (do
          let dx ← multiIncrements A members.length rows (rows.map MultiObs.rho) (rows.map MultiObs.corr) br extrap
          multiWrite row members dx) := by
        unfold ebescCell
        rw [vget_some hrow, ok_bind, vget_some hbr', ok_bind, hr1, ok_bind, if_neg (by simpa [rhoPairs] using h0), hrows, ok_bind]
      rw [hrun]
      rcases multiIncrements_cases h.hlib.inv_total members.length rows (rows.map MultiObs.rho) (rows.map MultiObs.corr) br extrap with
        ⟨dx, hdx⟩ | ⟨hdx, hM⟩
      · left
        obtain ⟨out, h1, h2, h3⟩ := multiWrite_ok row members (fun e he => by rw [hlen]; exact hmE e he) dx
        exact ⟨out, by rw [hdx, ok_bind, h1], by rw [h2, hlen], h3⟩
      · right
        exact ⟨by rw [hdx]; rfl, hM⟩

/-- The whole call of `ebesc`: the loop over the output points, unless no member is complete. -/
theorem ebesc_run {A : Arma K} (h : EnsPoints T A bp points s maxPoints L G) {E : Nat}
    {bratios : List (Fl K)} {background pobs pbg : List (List (Fl K))} {pratios : List (Fl K)} (hbr : bratios.length = bp.size)
    (hb : Rect bp.size E background) (hpobs : Rect points.size E pobs) (hrat : pratios.length = points.size) (hpbg : Rect points.size E pbg)
    (extrap : Bool) :
    ∃ pts members, mapM (fun i : Nat => points.getPoint (i : Int)) (List.range points.size) = ok pts ∧ members.Sublist (List.range E) ∧
      (∀ e, e ∈ members ↔ e < E ∧ Complete (background ++ pbg) e) ∧
      ebescPoints T A bp bratios background points pobs pratios pbg s maxPoints extrap =
        ebescLoop T A bp points pts s maxPoints extrap bratios background pobs pratios pbg members := by
  obtain ⟨pts, hpts⟩ := h.pts
  obtain ⟨members, hmem, hsub, hmi⟩ := validMembers_eq E (background ++ pbg) (fun r hr => by
    rcases List.mem_append.mp hr with hr | hr
    · exact (hb.2 r hr).ge
    · exact (hpbg.2 r hr).ge)
  obtain ⟨r0, hr0⟩ := exists_getElem? (v := background) (n := 0) (by rw [hb.1]; exact h.hcells)
  have hl0 : r0.length = E := hb.2 r0 (List.mem_iff_getElem?.mpr ⟨0, hr0⟩)
  refine ⟨pts, members, hpts, hsub, hmi, ?_⟩
  unfold ebescPoints
  rw [if_neg (not_lt.mpr h.hmax), if_neg (not_not.mpr h.htype), if_neg (not_not.mpr hb.1), if_neg (not_not.mpr hbr),
    if_neg (not_not.mpr hpobs.1), if_neg (not_not.mpr hrat), if_neg (not_not.mpr hpbg.1), if_neg (by have := h.hobs; omega)]
  have : vget background 0 = ok r0 := vget_some hr0
  rw [this, ok_bind, hl0, hpts, ok_bind, hmem, ok_bind]

/-- `optimal_interpolation_ensi_multi_ebesc`: members that are not complete (in the background and at the observations) keep
their background everywhere, points without a usable observation keep all members, and there is no undefined behaviour. A
usable observation is one with a valid value **for member 0**. -/
theorem c52_ebesc {A : Arma K} (h : EnsPoints T A bp points s maxPoints L G) (hc : Correlations T s bp points L G P) {E : Nat}
    {bratios : List (Fl K)} {background pobs pbg : List (List (Fl K))} {pratios : List (Fl K)} (hbr : bratios.length = bp.size)
    (hb : Rect bp.size E background) (hpobs : Rect points.size E pobs) (hrat : pratios.length = points.size) (hpbg : Rect points.size E pbg)
    (extrap : Bool) :
    Untouched (ebescPoints T A bp bratios background points pobs pratios pbg s maxPoints extrap) background bp.size E
      (Complete (background ++ pbg)) (fun y => ∃ i, UsableObs bp points (fun i => ∃ o, cell? pobs i 0 = some (fin o)) (L y) (G y) y i)
      (MultiRaise A (MemberGap (background ++ pbg) E)) := by
  obtain ⟨pts, members, hpts, hsub, hmi, hrun⟩ := ebesc_run h hbr hb hpobs hrat hpbg extrap
  have hnd : members.Nodup := hsub.nodup List.nodup_range
  rw [hrun]
  unfold ebescLoop
  by_cases hm : members.length = 0
  · rw [if_pos hm]
    exact untouched_background hb
  · rw [if_neg hm]
    have hmE : ∀ e ∈ members, e < E := fun e he => ((hmi e).mp he).1
    have hE : 0 < E := by
      obtain ⟨e, he⟩ := List.exists_mem_of_length_pos (Nat.pos_of_ne_zero hm)
      exact lt_of_le_of_lt (Nat.zero_le _) (hmE e he)
    apply untouched_of_cells hb
    intro y row hrow
    obtain ⟨d1, d2⟩ := ebescCell_cases h hc hbr hb hpobs hrat hpbg hpts hmE hnd hE extrap hrow
    have hlen : row.length = E := hb.2 row (List.mem_iff_getElem?.mpr ⟨y, hrow⟩)
    by_cases hu : ∃ i, UsableObs bp points (fun i => ∃ o, cell? pobs i 0 = some (fin o)) (L y) (G y) y i
    · by_cases hg : ∃ e ∈ members, ∃ e' < e, e' ∉ members
      · exact Or.inr ⟨_, (d2 hu).1 hg, Or.inr ⟨rfl, (gap_iff hmi).mp hg⟩⟩
      · push Not at hg
        rcases (d2 hu).2 hg with ⟨out, h1, h2, h3⟩ | ⟨h1, h2⟩
        · exact Or.inl ⟨out, h1, h2, fun e he => h3 e fun c => he ((hmi e).mp c).2, fun hn => absurd hu hn⟩
        · exact Or.inr ⟨_, h1, Or.inl ⟨rfl, h2⟩⟩
    · exact Or.inl ⟨row, d1 hu, hlen, fun _ _ => rfl, fun _ => rfl⟩

/-- The claim is false for the variants: if a member that is not complete comes before a complete one and some output point has
a usable observation, `ebesc` always throws. -/
theorem c52_ebesc_gap {A : Arma K} (h : EnsPoints T A bp points s maxPoints L G) (hc : Correlations T s bp points L G P) {E : Nat}
    {bratios : List (Fl K)} {background pobs pbg : List (List (Fl K))} {pratios : List (Fl K)} (hbr : bratios.length = bp.size)
    (hb : Rect bp.size E background) (hpobs : Rect points.size E pobs) (hrat : pratios.length = points.size) (hpbg : Rect points.size E pbg)
    (extrap : Bool) (hgap : MemberGap (background ++ pbg) E) {y : Nat} (hy : y < bp.size)
    (hu : ∃ i, UsableObs bp points (fun i => ∃ o, cell? pobs i 0 = some (fin o)) (L y) (G y) y i) :
    ebescPoints T A bp bratios background points pobs pratios pbg s maxPoints extrap = .throw .logicError := by
  obtain ⟨pts, members, hpts, hsub, hmi, hrun⟩ := ebesc_run h hbr hb hpobs hrat hpbg extrap
  have hnd : members.Nodup := hsub.nodup List.nodup_range
  have hg := (gap_iff hmi).mpr hgap
  have hmE : ∀ e ∈ members, e < E := fun e he => ((hmi e).mp he).1
  obtain ⟨e0, he0, -⟩ := hg
  have hE : 0 < E := lt_of_le_of_lt (Nat.zero_le _) (hmE e0 he0)
  have hm : ¬ members.length = 0 := fun c => by rw [List.length_eq_zero_iff] at c; rw [c] at he0; simp at he0
  have hcell : ∀ a ∈ List.range background.length,
      (∃ b, ebescCell T A bp points pts s maxPoints extrap bratios background pobs pratios pbg members a = ok b) ∨
      ebescCell T A bp points pts s maxPoints extrap bratios background pobs pratios pbg members a = .throw .logicError := by
    intro a ha
    obtain ⟨d1, d2⟩ := ebescCell_cases h hc hbr hb hpobs hrat hpbg hpts hmE hnd hE extrap (List.getElem?_eq_getElem (List.mem_range.mp ha))
    by_cases hu : ∃ i, UsableObs bp points (fun i => ∃ o, cell? pobs i 0 = some (fin o)) (L a) (G a) a i
    · exact Or.inr ((d2 hu).1 ((gap_iff hmi).mpr hgap))
    · exact Or.inl ⟨_, d1 hu⟩
  have hyl : y < background.length := by rw [hb.1]; exact hy
  have hthrow : ebescCell T A bp points pts s maxPoints extrap bratios background pobs pratios pbg members y = .throw .logicError :=
    ((ebescCell_cases h hc hbr hb hpobs hrat hpbg hpts hmE hnd hE extrap (List.getElem?_eq_getElem hyl)).2 hu).1 ((gap_iff hmi).mpr hgap)
  rw [hrun]
  unfold ebescLoop
  rw [if_neg hm]
  rcases mapM_cases _ (fun e => e = .logicError) (fun a b =>
      ebescCell T A bp points pts s maxPoints extrap bratios background pobs pratios pbg members a = ok b) _ (fun a ha => by
    rcases hcell a ha with ⟨b, hb⟩ | he
    · exact Or.inl ⟨b, hb, hb⟩
    · exact Or.inr ⟨_, he, rfl⟩) with ⟨bs, hbs, -⟩ | ⟨e, he, rfl⟩
  · obtain ⟨e, he⟩ := mapM_throw_of_mem _ _ (fun a ha => (hcell a ha).imp id fun h => ⟨_, h⟩) (List.mem_range.mpr hyl) hthrow
    rw [he] at hbs
    cases hbs
  · exact he

/-! ### ebe -/

theorem mem_append4 {a b c d : List (List (Fl K))} {n m E : Nat} (ha : Rect n E a) (hb : Rect n E b) (hc : Rect m E c) (hd : Rect m E d) :
    ∀ r ∈ a ++ b ++ c ++ d, E ≤ r.length := by
  intro r hr
  simp only [List.mem_append] at hr
  rcases hr with ((hr | hr) | hr) | hr
  · exact (ha.2 r hr).ge
  · exact (hb.2 r hr).ge
  · exact (hc.2 r hr).ge
  · exact (hd.2 r hr).ge

/-- The whole call of `ebe`. -/
theorem ebe_run {A : Arma K} (h : EnsPoints T A bp points s maxPoints L G) {E : Nat}
    {bratios : List (Fl K)} {background backgroundc pobs pbg pbgc : List (List (Fl K))} {pratios : List (Fl K)} (hbr : bratios.length = bp.size)
    (hb : Rect bp.size E background) (hbc : Rect bp.size E backgroundc) (hpobs : Rect points.size E pobs) (hrat : pratios.length = points.size)
    (hpbg : Rect points.size E pbg) (hpbgc : Rect points.size E pbgc) (extrap : Bool) :
    ∃ pts members, mapM (fun i : Nat => points.getPoint (i : Int)) (List.range points.size) = ok pts ∧ members.Sublist (List.range E) ∧
      (∀ e, e ∈ members ↔ e < E ∧ Complete (background ++ backgroundc ++ pbg ++ pbgc) e) ∧
      ebePoints T A bp bratios background backgroundc points pobs pratios pbg pbgc s maxPoints extrap =
        ebeLoop T A bp points pts s maxPoints extrap bratios background backgroundc pobs pratios pbg pbgc members := by
  obtain ⟨pts, hpts⟩ := h.pts
  obtain ⟨members, hmem, hsub, hmi⟩ := validMembers_eq E (background ++ backgroundc ++ pbg ++ pbgc) (mem_append4 hb hbc hpbg hpbgc)
  obtain ⟨r0, hr0⟩ := exists_getElem? (v := background) (n := 0) (by rw [hb.1]; exact h.hcells)
  have hl0 : r0.length = E := hb.2 r0 (List.mem_iff_getElem?.mpr ⟨0, hr0⟩)
  refine ⟨pts, members, hpts, hsub, hmi, ?_⟩
  unfold ebePoints
  rw [if_neg (not_lt.mpr h.hmax), if_neg (not_not.mpr h.htype), if_neg (not_not.mpr hb.1), if_neg (not_not.mpr hbc.1), if_neg (not_not.mpr hbr),
    if_neg (not_not.mpr hpobs.1), if_neg (not_not.mpr hrat), if_neg (not_not.mpr hpbg.1), if_neg (not_not.mpr hpbgc.1),
    if_neg (by have := h.hobs; omega)]
  have : vget background 0 = ok r0 := vget_some hr0
  rw [this, ok_bind, hl0, hpts, ok_bind, hmem, ok_bind]

/-- The rows of `gZ_R`: undefined behaviour as soon as there are more observations than output points. -/
theorem ebeZ_cases (nY : Nat) (members : List Nat) {pbgc : List (List (Fl K))} {n E : Nat} (h : Rect n E pbgc) (hm : ∀ e ∈ members, e < E) :
    (n ≤ nY → ∃ gZ, ebeZ nY members pbgc = ok gZ ∧ gZ.length = n) ∧ (nY < n → ebeZ nY members pbgc = .ub) := by
  have hstep : ∀ i < n, ∃ r, (do
      let r ← vget pbgc (i : Int)
      let vals ← mapM (fun ei : Nat => vget r (ei : Int)) members
      obsRow nY i (standardize vals)) = obsRow nY i r := by
    intro i hi
    obtain ⟨r, hr⟩ := exists_getElem? (v := pbgc) (n := i) (by rw [h.1]; exact hi)
    obtain ⟨vals, hv, -⟩ := mapM_vget_some r members (fun e he => by rw [h.2 r (List.mem_iff_getElem?.mpr ⟨i, hr⟩)]; exact hm e he)
    exact ⟨standardize vals, by rw [vget_some hr, ok_bind, hv, ok_bind]⟩
  constructor
  · intro hn
    obtain ⟨gZ, hg⟩ := mapM_exists (f := fun i : Nat => do
      let r ← vget pbgc (i : Int)
      let vals ← mapM (fun ei : Nat => vget r (ei : Int)) members
      obsRow nY i (standardize vals)) (List.range pbgc.length) (fun i hi => by
        rw [h.1] at hi
        have hi := List.mem_range.mp hi
        obtain ⟨r, hr⟩ := hstep i hi
        exact ⟨r, by rw [hr]; unfold obsRow; rw [if_pos (by omega)]⟩)
    refine ⟨gZ, hg, ?_⟩
    have := (mapM_eq_ok hg).length_eq
    simp only [List.length_range] at this
    rw [← this, h.1]
  · intro hn
    unfold ebeZ
    rw [h.1]
    refine mapM_ub_of_mem _ _ (fun i hi => ?_) (a := nY) (List.mem_range.mpr hn) ?_
    · obtain ⟨r, hr⟩ := hstep i (List.mem_range.mp hi)
      rw [hr]
      unfold obsRow
      by_cases hin : i < nY
      · rw [if_pos hin]; exact Or.inl ⟨_, rfl⟩
      · rw [if_neg hin]; exact Or.inr rfl
    · obtain ⟨r, hr⟩ := hstep nY hn
      rw [hr]
      unfold obsRow
      rw [if_neg (by omega)]

/-- One output point of `ebe`. -/
theorem ebeCell_cases {A : Arma K} (h : EnsPoints T A bp points s maxPoints L G) (hc : Correlations T s bp points L G P) {E : Nat}
    {bratios : List (Fl K)} {background backgroundc pobs pbg gZ : List (List (Fl K))} {pratios : List (Fl K)} (hbr : bratios.length = bp.size)
    (hb : Rect bp.size E background) (hbc : Rect bp.size E backgroundc) (hpobs : Rect points.size E pobs) (hrat : pratios.length = points.size)
    (hpbg : Rect points.size E pbg) (hgZ : gZ.length = points.size)
    {pts : List (Point K)} (hpts : mapM (fun i : Nat => points.getPoint (i : Int)) (List.range points.size) = ok pts)
    {members : List Nat} (hmE : ∀ e ∈ members, e < E) (hnd : members.Nodup) (hm0 : 0 < E) (extrap : Bool) {y : Nat} {row : List (Fl K)}
    (hrow : background[y]? = some row) :
    ((¬ ∃ i, UsableObs bp points (fun i => ∃ o, cell? pobs i 0 = some (fin o)) (L y) (G y) y i) →
      ebeCell T A bp points pts s maxPoints extrap bratios background backgroundc pobs pratios pbg gZ members y = ok row) ∧
    ((∃ i, UsableObs bp points (fun i => ∃ o, cell? pobs i 0 = some (fin o)) (L y) (G y) y i) →
      ((∃ e ∈ members, ∃ e' < e, e' ∉ members) →
        ebeCell T A bp points pts s maxPoints extrap bratios background backgroundc pobs pratios pbg gZ members y = .throw .logicError) ∧
      ((∀ e ∈ members, ∀ e' < e, e' ∈ members) →
        (∃ out, ebeCell T A bp points pts s maxPoints extrap bratios background backgroundc pobs pratios pbg gZ members y = ok out ∧
          out.length = E ∧ ∀ i, i ∉ members → out[i]? = row[i]?) ∨
        (ebeCell T A bp points pts s maxPoints extrap bratios background backgroundc pobs pratios pbg gZ members y = .throw .runtimeError ∧
          ∃ M, A.inv M = .throw .runtimeError))) := by
  have hy : y < bp.size := by rw [← hb.1]; exact (List.getElem?_eq_some_iff.mp hrow).1
  have hlen : row.length = E := hb.2 row (List.mem_iff_getElem?.mpr ⟨y, hrow⟩)
  obtain ⟨br, hbr'⟩ := exists_getElem? (v := bratios) (n := y) (by omega)
  obtain ⟨rowc, hrowc⟩ := exists_getElem? (v := backgroundc) (n := y) (by rw [hbc.1]; exact hy)
  obtain ⟨vals, hvals, -⟩ := mapM_vget_some rowc members
    (fun e he => by rw [hbc.2 rowc (List.mem_iff_getElem?.mpr ⟨y, hrowc⟩)]; exact hmE e he)
  obtain ⟨r, hr1, hr2, hr3⟩ := h.select hpts (obs := fun i => vget2 pobs (i : Int) 0) (o := fun i => (cell? pobs i 0).getD nan)
    (pobs0 hpobs hm0) hy
  rw [usable0] at hr3
  constructor
  · intro hn
    unfold ebeCell
    rw [vget_some hrow, ok_bind, vget_some hbr', ok_bind, hr1, ok_bind, hr3.mpr hn]
    rfl
  · intro hu
    have h0 : r ≠ [] := fun c => hr3.mp c hu
    obtain ⟨c1, c2⟩ := multiRows_cases h.hpoints hc hpts hpobs hrat hpbg hmE hnd (fun i => vget gZ (i : Int))
      (fun i hi => by
        obtain ⟨z, hz⟩ := exists_getElem? (v := gZ) (n := i) (by omega)
        exact ⟨z, vget_some hz⟩) r hr2 h0 (G y)
    constructor
    · intro hg
      unfold ebeCell
      rw [vget_some hrow, ok_bind, vget_some hbr', ok_bind, hr1, ok_bind, if_neg (by simpa [rhoPairs] using h0), vget_some hrowc, ok_bind,
        hvals, ok_bind]
      simp only [c2 hg]
      rfl
    · intro hg
      obtain ⟨rows, hrows⟩ := c1 hg
      have hrun : ∃ lr R, ebeCell T A bp points pts s maxPoints extrap bratios background backgroundc pobs pratios pbg gZ members y = (do
          let dx ← multiIncrements A members.length rows lr R br extrap
          multiWrite row members dx) := by
        unfold ebeCell
        rw [vget_some hrow, ok_bind, vget_some hbr', ok_bind, hr1, ok_bind, if_neg (by simpa [rhoPairs] using h0), vget_some hrowc, ok_bind,
          hvals, ok_bind]
        simp only [hrows, ok_bind]
        exact ⟨_, _, rfl⟩
      obtain ⟨lr, R, hrun⟩ := hrun
      rw [hrun]
      rcases multiIncrements_cases h.hlib.inv_total members.length rows lr R br extrap with
        ⟨dx, hdx⟩ | ⟨hdx, hM⟩
      · left
        obtain ⟨out, h1, h2, h3⟩ := multiWrite_ok row members (fun e he => by rw [hlen]; exact hmE e he) dx
        exact ⟨out, by rw [hdx, ok_bind, h1], by rw [h2, hlen], h3⟩
      · right
        exact ⟨by rw [hdx]; rfl, hM⟩

/-- `optimal_interpolation_ensi_multi_ebe`, if there are at least as many output points as observations: as `ebesc`. -/
theorem c52_ebe_partial {A : Arma K} (h : EnsPoints T A bp points s maxPoints L G) (hc : Correlations T s bp points L G P) {E : Nat}
    {bratios : List (Fl K)} {background backgroundc pobs pbg pbgc : List (List (Fl K))} {pratios : List (Fl K)} (hbr : bratios.length = bp.size)
    (hb : Rect bp.size E background) (hbc : Rect bp.size E backgroundc) (hpobs : Rect points.size E pobs) (hrat : pratios.length = points.size)
    (hpbg : Rect points.size E pbg) (hpbgc : Rect points.size E pbgc) (hsize : points.size ≤ bp.size) (extrap : Bool) :
    Untouched (ebePoints T A bp bratios background backgroundc points pobs pratios pbg pbgc s maxPoints extrap) background bp.size E
      (Complete (background ++ backgroundc ++ pbg ++ pbgc))
      (fun y => ∃ i, UsableObs bp points (fun i => ∃ o, cell? pobs i 0 = some (fin o)) (L y) (G y) y i)
      (MultiRaise A (MemberGap (background ++ backgroundc ++ pbg ++ pbgc) E)) := by
  obtain ⟨pts, members, hpts, hsub, hmi, hrun⟩ := ebe_run h hbr hb hbc hpobs hrat hpbg hpbgc extrap
  have hnd : members.Nodup := hsub.nodup List.nodup_range
  rw [hrun]
  unfold ebeLoop
  by_cases hm : members.length = 0
  · rw [if_pos hm]
    exact untouched_background hb
  · rw [if_neg hm]
    have hmE : ∀ e ∈ members, e < E := fun e he => ((hmi e).mp he).1
    have hE : 0 < E := by
      obtain ⟨e, he⟩ := List.exists_mem_of_length_pos (Nat.pos_of_ne_zero hm)
      exact lt_of_le_of_lt (Nat.zero_le _) (hmE e he)
    obtain ⟨gZ, hgZ, hgl⟩ := (ebeZ_cases background.length members hpbgc hmE).1 (by rw [hb.1]; exact hsize)
    rw [hgZ, ok_bind]
    apply untouched_of_cells hb
    intro y row hrow
    obtain ⟨d1, d2⟩ := ebeCell_cases h hc hbr hb hbc hpobs hrat hpbg hgl hpts hmE hnd hE extrap hrow
    have hlen : row.length = E := hb.2 row (List.mem_iff_getElem?.mpr ⟨y, hrow⟩)
    by_cases hu : ∃ i, UsableObs bp points (fun i => ∃ o, cell? pobs i 0 = some (fin o)) (L y) (G y) y i
    · by_cases hg : ∃ e ∈ members, ∃ e' < e, e' ∉ members
      · exact Or.inr ⟨_, (d2 hu).1 hg, Or.inr ⟨rfl, (gap_iff hmi).mp hg⟩⟩
      · push Not at hg
        rcases (d2 hu).2 hg with ⟨out, h1, h2, h3⟩ | ⟨h1, h2⟩
        · exact Or.inl ⟨out, h1, h2, fun e he => h3 e fun c => he ((hmi e).mp c).2, fun hn => absurd hu hn⟩
        · exact Or.inr ⟨_, h1, Or.inl ⟨rfl, h2⟩⟩
    · exact Or.inl ⟨row, d1 hu, hlen, fun _ _ => rfl, fun _ => rfl⟩

/-- The claim is false for the variants: if a member that is not complete comes before a complete one and some output point has
a usable observation, `ebe` always throws. -/
theorem c52_ebe_gap {A : Arma K} (h : EnsPoints T A bp points s maxPoints L G) (hc : Correlations T s bp points L G P) {E : Nat}
    {bratios : List (Fl K)} {background backgroundc pobs pbg pbgc : List (List (Fl K))} {pratios : List (Fl K)} (hbr : bratios.length = bp.size)
    (hb : Rect bp.size E background) (hbc : Rect bp.size E backgroundc) (hpobs : Rect points.size E pobs) (hrat : pratios.length = points.size) (hpbg : Rect points.size E pbg)
    (hpbgc : Rect points.size E pbgc) (hsize : points.size ≤ bp.size) (extrap : Bool) (hgap : MemberGap (background ++ backgroundc ++ pbg ++ pbgc) E) {y : Nat} (hy : y < bp.size)
    (hu : ∃ i, UsableObs bp points (fun i => ∃ o, cell? pobs i 0 = some (fin o)) (L y) (G y) y i) :
    ebePoints T A bp bratios background backgroundc points pobs pratios pbg pbgc s maxPoints extrap = .throw .logicError := by
  obtain ⟨pts, members, hpts, hsub, hmi, hrun⟩ := ebe_run h hbr hb hbc hpobs hrat hpbg hpbgc extrap
  have hnd : members.Nodup := hsub.nodup List.nodup_range
  have hg := (gap_iff hmi).mpr hgap
  have hmE : ∀ e ∈ members, e < E := fun e he => ((hmi e).mp he).1
  obtain ⟨e0, he0, -⟩ := hg
  have hE : 0 < E := lt_of_le_of_lt (Nat.zero_le _) (hmE e0 he0)
  have hm : ¬ members.length = 0 := fun c => by rw [List.length_eq_zero_iff] at c; rw [c] at he0; simp at he0
  obtain ⟨gZ, hgZ, hgl⟩ := (ebeZ_cases background.length members hpbgc hmE).1 (by rw [hb.1]; exact hsize)
  have hcell : ∀ a ∈ List.range background.length,
      (∃ b, ebeCell T A bp points pts s maxPoints extrap bratios background backgroundc pobs pratios pbg gZ members a = ok b) ∨
      ebeCell T A bp points pts s maxPoints extrap bratios background backgroundc pobs pratios pbg gZ members a = .throw .logicError := by
    intro a ha
    obtain ⟨d1, d2⟩ := ebeCell_cases h hc hbr hb hbc hpobs hrat hpbg hgl hpts hmE hnd hE extrap (List.getElem?_eq_getElem (List.mem_range.mp ha))
    by_cases hu : ∃ i, UsableObs bp points (fun i => ∃ o, cell? pobs i 0 = some (fin o)) (L a) (G a) a i
    · exact Or.inr ((d2 hu).1 ((gap_iff hmi).mpr hgap))
    · exact Or.inl ⟨_, d1 hu⟩
  have hyl : y < background.length := by rw [hb.1]; exact hy
  have hthrow : ebeCell T A bp points pts s maxPoints extrap bratios background backgroundc pobs pratios pbg gZ members y = .throw .logicError :=
    ((ebeCell_cases h hc hbr hb hbc hpobs hrat hpbg hgl hpts hmE hnd hE extrap (List.getElem?_eq_getElem hyl)).2 hu).1 ((gap_iff hmi).mpr hgap)
  rw [hrun]
  unfold ebeLoop
  rw [if_neg hm, hgZ, ok_bind]
  rcases mapM_cases _ (fun e => e = .logicError) (fun a b =>
      ebeCell T A bp points pts s maxPoints extrap bratios background backgroundc pobs pratios pbg gZ members a = ok b) _ (fun a ha => by
    rcases hcell a ha with ⟨b, hb⟩ | he
    · exact Or.inl ⟨b, hb, hb⟩
    · exact Or.inr ⟨_, he, rfl⟩) with ⟨bs, hbs, -⟩ | ⟨e, he, rfl⟩
  · obtain ⟨e, he⟩ := mapM_throw_of_mem _ _ (fun a ha => (hcell a ha).imp id fun h => ⟨_, h⟩) (List.mem_range.mpr hyl) hthrow
    rw [he] at hbs
    cases hbs
  · exact he

/-- The claim is false: with more observations than output points (and at least one complete member) `ebe` writes out of range. -/
theorem c52_ebe_out_of_range {A : Arma K} (h : EnsPoints T A bp points s maxPoints L G) {E : Nat}
    {bratios : List (Fl K)} {background backgroundc pobs pbg pbgc : List (List (Fl K))} {pratios : List (Fl K)} (hbr : bratios.length = bp.size)
    (hb : Rect bp.size E background) (hbc : Rect bp.size E backgroundc) (hpobs : Rect points.size E pobs) (hrat : pratios.length = points.size)
    (hpbg : Rect points.size E pbg) (hpbgc : Rect points.size E pbgc) (hsize : bp.size < points.size)
    (hcomp : ∃ e < E, Complete (background ++ backgroundc ++ pbg ++ pbgc) e) (extrap : Bool) :
    ebePoints T A bp bratios background backgroundc points pobs pratios pbg pbgc s maxPoints extrap = .ub := by
  obtain ⟨pts, members, hpts, hsub, hmi, hrun⟩ := ebe_run h hbr hb hbc hpobs hrat hpbg hpbgc extrap
  have hnd : members.Nodup := hsub.nodup List.nodup_range
  obtain ⟨e, he, hce⟩ := hcomp
  have hem : e ∈ members := (hmi e).mpr ⟨he, hce⟩
  rw [hrun]
  unfold ebeLoop
  rw [if_neg (fun c => by rw [List.length_eq_zero_iff] at c; rw [c] at hem; simp at hem),
    (ebeZ_cases background.length members hpbgc (fun e he => ((hmi e).mp he).1)).2 (by rw [hb.1]; exact hsize)]
  rfl

/-! ### utem -/

theorem utemPerturb_cases (nY : Nat) (members : List Nat) {pbg pbgc : List (List (Fl K))} {n E : Nat} (h : Rect n E pbg) (hc : Rect n E pbgc)
    (hm : ∀ e ∈ members, e < E) (i : Nat) (hi : i < n) :
    (i < nY → ∃ g, utemPerturb nY members pbg pbgc i = ok g) ∧ (nY ≤ i → utemPerturb nY members pbg pbgc i = .ub) := by
  obtain ⟨r, hr⟩ := exists_getElem? (v := pbg) (n := i) (by rw [h.1]; exact hi)
  obtain ⟨rc, hrc⟩ := exists_getElem? (v := pbgc) (n := i) (by rw [hc.1]; exact hi)
  obtain ⟨vals, hv, -⟩ := mapM_vget_some r members (fun e he => by rw [h.2 r (List.mem_iff_getElem?.mpr ⟨i, hr⟩)]; exact hm e he)
  obtain ⟨valsc, hvc, -⟩ := mapM_vget_some rc members (fun e he => by rw [hc.2 rc (List.mem_iff_getElem?.mpr ⟨i, hrc⟩)]; exact hm e he)
  unfold utemPerturb obsRow
  constructor
  · intro hn
    simp only [vget_some hr, vget_some hrc, hv, hvc, ok_bind, if_pos hn]
    exact ⟨_, rfl⟩
  · intro hn
    simp only [vget_some hr, vget_some hrc, hv, hvc, ok_bind, if_neg (not_lt.mpr hn)]
    rfl

/-- The whole call of `utem`. -/
theorem utem_run {A : ArmaE K} (h : EnsPoints T A.toArma bp points s maxPoints L G) {E : Nat}
    {bratios : List (Fl K)} {background backgroundc pbg pbgc : List (List (Fl K))} {pobs pratios : List (Fl K)} (hbr : bratios.length = bp.size)
    (hb : Rect bp.size E background) (hbc : Rect bp.size E backgroundc) (hpobs : pobs.length = points.size) (hrat : pratios.length = points.size)
    (hpbg : Rect points.size E pbg) (hpbgc : Rect points.size E pbgc) (extrap : Bool) :
    ∃ pts members, mapM (fun i : Nat => points.getPoint (i : Int)) (List.range points.size) = ok pts ∧ members.Sublist (List.range E) ∧
      (∀ e, e ∈ members ↔ e < E ∧ Complete (background ++ backgroundc ++ pbg ++ pbgc) e) ∧
      utemPoints T A bp bratios background backgroundc points pobs pratios pbg pbgc s maxPoints extrap =
        utemLoop T A bp points pts s maxPoints extrap bratios background backgroundc pobs pratios pbg pbgc members := by
  obtain ⟨pts, hpts⟩ := h.pts
  obtain ⟨members, hmem, hsub, hmi⟩ := validMembers_eq E (background ++ backgroundc ++ pbg ++ pbgc) (mem_append4 hb hbc hpbg hpbgc)
  obtain ⟨r0, hr0⟩ := exists_getElem? (v := background) (n := 0) (by rw [hb.1]; exact h.hcells)
  have hl0 : r0.length = E := hb.2 r0 (List.mem_iff_getElem?.mpr ⟨0, hr0⟩)
  refine ⟨pts, members, hpts, hsub, hmi, ?_⟩
  unfold utemPoints
  rw [if_neg (not_lt.mpr h.hmax), if_neg (not_not.mpr h.htype), if_neg (not_not.mpr hb.1), if_neg (not_not.mpr hbc.1), if_neg (not_not.mpr hbr),
    if_neg (not_not.mpr hpobs), if_neg (not_not.mpr hrat), if_neg (not_not.mpr hpbg.1), if_neg (not_not.mpr hpbgc.1),
    if_neg (by have := h.hobs; omega)]
  have : vget background 0 = ok r0 := vget_some hr0
  rw [this, ok_bind, hl0, hpts, ok_bind, hmem, ok_bind]

/-- `optimal_interpolation_ensi_multi_utem`, if there are at least as many output points as observations: members that are not
complete keep their background everywhere, points without a usable observation keep all members. There is no undefined
behaviour, and the only exception is that of `arma::inv`. -/
theorem c52_utem_partial {A : ArmaE K} (h : EnsPoints T A.toArma bp points s maxPoints L G) {E : Nat}
    {bratios : List (Fl K)} {background backgroundc pbg pbgc : List (List (Fl K))} {pobs pratios : List (Fl K)} (hbr : bratios.length = bp.size)
    (hb : Rect bp.size E background) (hbc : Rect bp.size E backgroundc) (hpobs : pobs.length = points.size) (hrat : pratios.length = points.size)
    (hpbg : Rect points.size E pbg) (hpbgc : Rect points.size E pbgc) (hsize : points.size ≤ bp.size) (extrap : Bool) :
    Untouched (utemPoints T A bp bratios background backgroundc points pobs pratios pbg pbgc s maxPoints extrap) background bp.size E
      (Complete (background ++ backgroundc ++ pbg ++ pbgc))
      (fun y => ∃ i, UsableObs bp points (fun i => ∃ o, pobs[i]? = some (fin o)) (L y) (G y) y i)
      (fun e => e = .runtimeError ∧ ∃ M, A.inv M = .throw .runtimeError) := by
  obtain ⟨pts, members, hpts, -, hmi, hrun⟩ := utem_run h hbr hb hbc hpobs hrat hpbg hpbgc extrap
  rw [hrun]
  unfold utemLoop
  by_cases hm : members.length = 0
  · rw [if_pos hm]
    exact untouched_background hb
  · rw [if_neg hm]
    have hmE : ∀ e ∈ members, e < E := fun e he => ((hmi e).mp he).1
    obtain ⟨gY, hgY⟩ := mapM_exists (f := utemPerturb background.length members pbg pbgc) (List.range points.size) (fun i hi => by
      have hi := List.mem_range.mp hi
      exact (utemPerturb_cases background.length members hpbg hpbgc hmE i hi).1 (by rw [hb.1]; omega))
    have hgl : gY.length = points.size := by
      have := (mapM_eq_ok hgY).length_eq
      simp only [List.length_range] at this
      exact this.symm
    rw [hgY, ok_bind]
    apply untouched_of_cells hb
    intro y row hrow
    have hy : y < bp.size := by rw [← hb.1]; exact (List.getElem?_eq_some_iff.mp hrow).1
    have hlen : row.length = E := hb.2 row (List.mem_iff_getElem?.mpr ⟨y, hrow⟩)
    obtain ⟨br, hbr'⟩ := exists_getElem? (v := bratios) (n := y) (by omega)
    obtain ⟨rowc, hrowc⟩ := exists_getElem? (v := backgroundc) (n := y) (by rw [hbc.1]; exact hy)
    have hlenc : rowc.length = E := hbc.2 rowc (List.mem_iff_getElem?.mpr ⟨y, hrowc⟩)
    obtain ⟨r, hr1, hr2, hr3⟩ := h.select hpts (obs := fun i => vget pobs (i : Int)) (o := fun i => pobs.getD i nan) (fun i hi => by
      have : i < pobs.length := by omega
      rw [vget_some (List.getElem?_eq_getElem this)]
      simp [List.getD, this]) hy
    rw [usable1] at hr3
    unfold utemCell
    rw [vget_some hrow, ok_bind, vget_some hrowc, ok_bind, vget_some hbr', ok_bind, hr1, ok_bind]
    by_cases h0 : r = []
    · left
      rw [h0]
      exact ⟨row, rfl, hlen, fun _ _ => rfl, fun _ => rfl⟩
    · rw [if_neg (by simpa [rhoPairs] using h0)]
      obtain ⟨rows, hrows⟩ : ∃ rows, mapM (utemRow pobs pratios gY) (rhoPairs (G y) r) = ok rows :=
        mapM_exists _ fun e he => by
          obtain ⟨i, hi, rfl⟩ := List.mem_map.mp he
          have hi' := hr2 i hi
          obtain ⟨o, ho⟩ := exists_getElem? (v := pobs) (n := i) (by omega)
          obtain ⟨sg, hsg⟩ := exists_getElem? (v := pratios) (n := i) (by omega)
          obtain ⟨g, hg⟩ := exists_getElem? (v := gY) (n := i) (by omega)
          refine ⟨⟨o, fin (G y i) / sg, g.2.2, g.1, g.2.1⟩, ?_⟩
          unfold utemRow
          rw [vget_some ho, ok_bind, vget_some hg, ok_bind, vget_some hsg, ok_bind]
      rw [hrows, ok_bind]
      rcases ensiTransform_cases h.hlib members.length rows 1 with ⟨t, ht⟩ | ⟨ht, hM⟩
      · left
        rw [ht, ok_bind]
        obtain ⟨out, h1, h2, h3⟩ := utemUpdate_ok row rowc members (fun e he => by rw [hlen]; exact hmE e he)
          (fun e he => by rw [hlenc]; exact hmE e he) rows br extrap t
        exact ⟨out, h1, by rw [h2, hlen], fun e he => h3 e (fun c => he ((hmi e).mp c).2), fun hn => absurd (hr3.mpr hn) h0⟩
      · right
        exact ⟨.runtimeError, by rw [ht]; rfl, rfl, hM⟩

/-- The claim is false: with more observations than output points (and at least one complete member) `utem` writes out of range. -/
theorem c52_utem_out_of_range {A : ArmaE K} (h : EnsPoints T A.toArma bp points s maxPoints L G) {E : Nat}
    {bratios : List (Fl K)} {background backgroundc pbg pbgc : List (List (Fl K))} {pobs pratios : List (Fl K)} (hbr : bratios.length = bp.size)
    (hb : Rect bp.size E background) (hbc : Rect bp.size E backgroundc) (hpobs : pobs.length = points.size) (hrat : pratios.length = points.size)
    (hpbg : Rect points.size E pbg) (hpbgc : Rect points.size E pbgc) (hsize : bp.size < points.size)
    (hcomp : ∃ e < E, Complete (background ++ backgroundc ++ pbg ++ pbgc) e) (extrap : Bool) :
    utemPoints T A bp bratios background backgroundc points pobs pratios pbg pbgc s maxPoints extrap = .ub := by
  obtain ⟨pts, members, hpts, -, hmi, hrun⟩ := utem_run h hbr hb hbc hpobs hrat hpbg hpbgc extrap
  obtain ⟨e, he, hce⟩ := hcomp
  have hem : e ∈ members := (hmi e).mpr ⟨he, hce⟩
  have hmE : ∀ e ∈ members, e < E := fun e he => ((hmi e).mp he).1
  rw [hrun]
  unfold utemLoop
  rw [if_neg (fun c => by rw [List.length_eq_zero_iff] at c; rw [c] at hem; simp at hem)]
  rw [mapM_ub_of_mem (utemPerturb background.length members pbg pbgc) (List.range points.size) (fun i hi => ?_) (a := bp.size)
    (List.mem_range.mpr hsize) ((utemPerturb_cases background.length members hpbg hpbgc hmE bp.size hsize).2 (by rw [hb.1]))]
  · rfl
  · obtain ⟨c1, c2⟩ := utemPerturb_cases background.length members hpbg hpbgc hmE i (List.mem_range.mp hi)
    by_cases hin : i < background.length
    · exact Or.inl (c1 hin)
    · exact Or.inr (c2 (by omega))

end
end Gridpp.Props
