import Verif.Props.OICases
import Verif.Spec.OIOrder

/-!
C169: optimal interpolation depends on the observations that are present only, and not on their order.
-/

set_option linter.unusedSectionVars false

namespace Gridpp.Props
open Fl Res Matrix

section
variable {K : Type} [Field K] [LinearOrder K] [IsStrictOrderedRing K]

/-! ## Selections -/

/-- Two selections of the same observations select the same ones, unless the choice is between equally correlated ones. -/
theorem selection_match {U U' : Nat → Prop} {rho rho' : Nat → K} {m n n' : Nat} {sel : Fin n → Nat} {sel' : Fin n' → Nat} {π : Nat → Nat}
    (hs : Spec.Selection U rho m sel) (hs' : Spec.Selection U' rho' m sel') (honto : ∀ j, U' j ↔ ∃ i, U i ∧ π i = j)
    (hinj : ∀ i j, U i → U j → π i = π j → i = j) (hrho : ∀ i, U i → rho' (π i) = rho i)
    (hties : m = 0 ∨ ∀ i j, U i → U j → rho i = rho j → i = j) : ∃ e : Fin n ≃ Fin n', ∀ a, sel' (e a) = π (sel a) := by
  have inj2 : ∀ a b, π (sel a) = π (sel b) → a = b := fun a b h => hs.inj (hinj _ _ (hs.mem a) (hs.mem b) h)
  have fwd : ∀ a, ∃ b, sel' b = π (sel a) := by
    intro a
    by_contra hno
    obtain ⟨b, hb⟩ | ⟨h1, h2, h3⟩ := hs'.best _ ((honto _).mpr ⟨sel a, hs.mem a, rfl⟩)
    · exact hno ⟨b, hb⟩
    · have hne : m ≠ 0 := h2.ne'
      obtain ⟨b, hb⟩ : ∃ b, ∀ c, π (sel c) ≠ sel' b := by
        by_contra hall
        push Not at hall
        choose f hf using hall
        have hfi : Function.Injective f := fun x y h => hs'.inj (by rw [← hf x, ← hf y, h])
        have hle := Fintype.card_le_of_injective f hfi
        simp only [Fintype.card_fin] at hle
        have hn : n ≤ m := hs.atMost.resolve_left hne
        obtain rfl : n' = n := by omega
        obtain ⟨b, hb⟩ := (Finite.injective_iff_surjective.mp hfi) a
        exact hno ⟨b, by rw [← hf b, hb]⟩
      obtain ⟨j, hj, hjb⟩ := (honto _).mp (hs'.mem b)
      obtain ⟨c, hc⟩ | ⟨-, -, h6⟩ := hs.best j hj
      · exact hb c (by rw [hc, hjb])
      · have e1 := h6 a
        have e2 := h3 b
        rw [hrho _ (hs.mem a), ← hjb, hrho _ hj] at e2
        have := (hties.resolve_left hne) j (sel a) hj (hs.mem a) (le_antisymm e1 e2)
        exact hb a (by rw [← this, hjb])
  choose f hf using fwd
  have hfi : Function.Injective f := fun a b h => inj2 a b (by rw [← hf a, ← hf b, h])
  have hsurj : Function.Surjective f := by
    intro b
    obtain ⟨j, hj, hjb⟩ := (honto _).mp (hs'.mem b)
    obtain ⟨a, ha⟩ | ⟨h1, h2, -⟩ := hs.best j hj
    · exact ⟨a, hs'.inj (by rw [hf, ha, hjb])⟩
    · have hn : n' ≤ m := hs'.atMost.resolve_left h2.ne'
      have hle := Fintype.card_le_of_injective f hfi
      simp only [Fintype.card_fin] at hle
      obtain rfl : n' = n := by omega
      exact (Finite.injective_iff_surjective.mp hfi) b
  exact ⟨Equiv.ofBijective f ⟨hfi, hsurj⟩, hf⟩

theorem limited_match {n n' : Nat} {d : Fin n → K} {d' : Fin n' → K} (e : Fin n ≃ Fin n') (hd : ∀ a, d' (e a) = d a) {x inc inc' : K}
    (h : Spec.Limited d x inc) (h' : Spec.Limited d' x inc') : inc = inc' := by
  have hd2 : ∀ b, d (e.symm b) = d' b := fun b => by rw [← hd, e.apply_symm_apply]
  have ex : ∀ Q : K → Prop, (∃ a, Q (d a)) ↔ ∃ b, Q (d' b) := fun Q =>
    ⟨fun ⟨a, ha⟩ => ⟨e a, by rw [hd]; exact ha⟩, fun ⟨b, hb⟩ => ⟨e.symm b, by rw [hd2]; exact hb⟩⟩
  have all : ∀ Q : K → Prop, (∀ a, Q (d a)) ↔ ∀ b, Q (d' b) := fun Q =>
    ⟨fun h b => by rw [← hd2]; exact h _, fun h a => by rw [← hd]; exact h _⟩
  have hr : Spec.InRange d x ↔ Spec.InRange d' x := by
    unfold Spec.InRange
    rw [ex fun v => v ≤ x, ex fun v => x ≤ v]
  have hg : Spec.Gap d x ↔ Spec.Gap d' x := by
    unfold Spec.Gap
    rw [all fun v => v ≤ 0, all fun v => 0 ≤ v, ex fun v => v = 0]
  by_cases hk : Spec.InRange d x ∨ Spec.Gap d x
  · rw [h.keep hk, h'.keep (by rwa [← hr, ← hg])]
  · push Not at hk
    obtain ⟨k1, k2⟩ := hk
    have k1' := fun t => k1 (hr.mpr t)
    have k2' := fun t => k2 (hg.mpr t)
    rcases lt_trichotomy x 0 with hx | hx | hx
    · obtain ⟨⟨a, ha⟩, h2⟩ := h.below k1 k2 hx
      obtain ⟨⟨b, hb⟩, h4⟩ := h'.below k1' k2' hx
      apply le_antisymm
      · rw [hb, ← hd2]; exact h2 _
      · rw [ha, ← hd]; exact h4 _
    · exact absurd ⟨Or.inl hx.ge, Or.inl hx.le⟩ k1
    · obtain ⟨⟨a, ha⟩, h2⟩ := h.above k1 k2 hx
      obtain ⟨⟨b, hb⟩, h4⟩ := h'.above k1' k2' hx
      apply le_antisymm
      · rw [ha, ← hd]; exact h4 _
      · rw [hb, ← hd2]; exact h2 _

/-! ## The analysis -/

variable [HasGeo K] [LawfulSqrt K] [HasExp K]
variable {T : RTree K} {A : Arma K} {bp points points' : Points K} {background bvar pobs obsVar pbg bvarAt pobs' obsVar' pbg' bvarAt' : List (Fl K)} {s : SF K}
  {maxPoints : Int} {L L' : Nat → Fl K} {G P G' P' : Nat → Nat → K} {ratio d ratio' d' : Nat → K} {π : Nat → Nat}

/-- **C169**: the result of optimal interpolation, analysis and variance, is the same for any order of the observations, with or without observations that are
missing or have no background. It is the same outcome too: if one call ends because a matrix is singular, so does the other. Either all usable observations
are used (`max_points` is 0) or no two usable observations are equally correlated with the same output point. -/
theorem c169_order_partial (h : Setting T A bp background bvar points pobs obsVar pbg bvarAt s maxPoints L G P ratio d)
    (h' : Setting T A bp background bvar points' pobs' obsVar' pbg' bvarAt' s maxPoints L' G' P' ratio' d')
    (hπ : Spec.Rearranged π points.lats points.lons points.elevs points.lafs pobs obsVar pbg bvarAt points'.lats points'.lons points'.elevs points'.lafs pobs' obsVar' pbg' bvarAt')
    (hn : points.size ≠ 0) (hn' : points'.size ≠ 0)
    (hties : maxPoints = 0 ∨ ∀ y i j, Usable bp points pobs pbg (L y) (G y) y i → Usable bp points pobs pbg (L y) (G y) y j → G y i = G y j → i = j)
    (var0 : List (Fl K)) (extrap : Bool) :
    oiFullPoints T A bp background bvar points pobs obsVar pbg bvarAt s maxPoints var0 extrap =
      oiFullPoints T A bp background bvar points' pobs' obsVar' pbg' bvarAt' s maxPoints var0 extrap := by
  obtain ⟨pr, pts, h1, h2, h3⟩ := h.run hn var0 extrap
  obtain ⟨pr', pts', h1', h2', h3'⟩ := h'.run hn' var0 extrap
  have htt : points'.type = points.type := by rw [← h.htype, ← h'.htype]
  -- the same place
  have lt : ∀ i, Spec.Present pobs pbg i → i < points.size := fun i hi => by
    rw [← h.hpobs]; exact (List.getElem?_eq_some_iff.mp hi.1.choose_spec).1
  have lt' : ∀ i, Spec.Present pobs pbg i → π i < points'.size := fun i hi => by
    rw [← h'.hpobs]; exact (List.getElem?_eq_some_iff.mp ((hπ.onto _).mpr ⟨i, hi, rfl⟩).1.choose_spec).1
  have loc : ∀ i, Spec.Present pobs pbg i → ∀ q, Located points'.lats points'.lons points'.type (π i) q ↔ Located points.lats points.lons points.type i q := by
    intro i hi q
    obtain ⟨e1, e2, -, -⟩ := hπ.place i hi
    unfold Located
    rw [e1, e2, htt]
  have hpt : ∀ i, Spec.Present pobs pbg i → ∃ p, points.getPoint (i : Int) = ok p ∧ points'.getPoint (π i : Int) = ok p := by
    intro i hi
    obtain ⟨p, q, a1, a2, a3, a4, a5, a6, a7, a8, a9⟩ := h.hpoints.point (lt i hi)
    obtain ⟨p', q', b1, b2, b3, b4, b5, b6, b7, b8, b9⟩ := h'.hpoints.point (lt' i hi)
    obtain ⟨e1, e2, e3, e4⟩ := hπ.place i hi
    rw [e1, a2] at b2; rw [e2, a3] at b3; rw [e3, a4] at b4; rw [e4, a5] at b5
    rw [← Option.some.inj b2, ← Option.some.inj b3, htt, a7] at b7
    have hq : q = q' := Res.ok.inj b7
    refine ⟨p, a1, ?_⟩
    rw [b1]
    congr 1
    subst hq
    cases p; cases p'
    simp only [Spec.LiesAt] at *
    simp_all
  have hL : ∀ y < bp.size, L' y = L y := fun y hy => by
    obtain ⟨p, -, hp, -⟩ := h.hbp.point hy
    have a := h.hcorr.radius y p hp
    rw [h'.hcorr.radius y p hp] at a
    exact Res.ok.inj a
  have hG : ∀ y < bp.size, ∀ i, Spec.Present pobs pbg i → G' y (π i) = G y i := fun y hy i hi => by
    obtain ⟨p, -, hp, -⟩ := h.hbp.point hy
    obtain ⟨p', e1, e2⟩ := hpt i hi
    have a := h.hcorr.cell1 y p hp i p' e1
    rw [h'.hcorr.cell1 y p hp (π i) p' e2] at a
    exact Fl.fin.inj (Res.ok.inj a)
  have hP : ∀ i, Spec.Present pobs pbg i → ∀ j, Spec.Present pobs pbg j → P' (π i) (π j) = P i j := fun i hi j hj => by
    obtain ⟨p, e1, e2⟩ := hpt i hi
    obtain ⟨p', e3, e4⟩ := hpt j hj
    have a := h.hcorr.obs1 i p e1 j p' e3
    rw [h'.hcorr.obs1 (π i) p e2 (π j) p' e4] at a
    exact Fl.fin.inj (Res.ok.inj a)
  have hdr : ∀ i, Spec.Present pobs pbg i → d' (π i) = d i ∧ ratio' (π i) = ratio i := fun i hi => by
    obtain ⟨⟨o, ho⟩, ⟨b, hb⟩⟩ := hi
    obtain ⟨e1, e2, e3, e4⟩ := hπ.value i ⟨⟨o, ho⟩, ⟨b, hb⟩⟩
    rw [ho] at e1; rw [hb] at e3
    refine ⟨by rw [h.hinnov i o b ho hb, h'.hinnov _ o b e1 e3], ?_⟩
    obtain ⟨x, z, c1, c2, -, c4⟩ := h.hratio i o b ho hb
    obtain ⟨x', z', c1', c2', -, c4'⟩ := h'.hratio _ o b e1 e3
    rw [e2, c1] at c1'; rw [e4, c2] at c2'
    rw [c4, c4', Fl.fin.inj (Option.some.inj c1'), Fl.fin.inj (Option.some.inj c2')]
  have pres : ∀ y i, Usable bp points pobs pbg (L y) (G y) y i → Spec.Present pobs pbg i := fun y i hu => ⟨hu.2.1, hu.2.2.1⟩
  have hU : ∀ y < bp.size, ∀ j, Usable bp points' pobs' pbg' (L' y) (G' y) y j ↔ ∃ i, Usable bp points pobs pbg (L y) (G y) y i ∧ π i = j := by
    intro y hy j
    constructor
    · rintro ⟨⟨p, q, a1, a2, a3⟩, a4, a5, a6⟩
      obtain ⟨i, hi, rfl⟩ := (hπ.onto j).mp ⟨a4, a5⟩
      refine ⟨i, ⟨⟨p, q, a1, (loc i hi q).mp a2, by rw [← hL y hy]; exact a3⟩, hi.1, hi.2, by rw [← hG y hy i hi]; exact a6⟩, rfl⟩
    · rintro ⟨i, hu, rfl⟩
      have hi := pres y i hu
      obtain ⟨⟨p, q, a1, a2, a3⟩, a4, a5, a6⟩ := hu
      have hp' := (hπ.onto _).mpr ⟨i, hi, rfl⟩
      exact ⟨⟨p, q, a1, (loc i hi q).mpr a2, by rw [hL y hy]; exact a3⟩, hp'.1, hp'.2, by rw [hG y hy i hi]; exact a6⟩
  -- every output point
  have cell : ∀ y ∈ List.range background.length, oiCell T A bp background bvar points pts pobs pr pbg s maxPoints extrap y =
      oiCell T A bp background bvar points' pts' pobs' pr' pbg' s maxPoints extrap y := by
    intro y hy
    have hy := List.mem_range.mp hy
    have hys : y < bp.size := by rw [← h.hbackground]; exact hy
    obtain ⟨b, hb⟩ := exists_getElem? hy
    obtain ⟨bv, hv⟩ := exists_getElem? (v := bvar) (n := y) (by rw [h.hbvar]; exact hys)
    obtain ⟨u1, u2⟩ := oiCell_spec h.htree h.harma h.hbp h.hpoints h.htype h.hbackground h.hpobs h.hpbg h.hcorr h1 h.hinnov h2 h.hmax extrap hb hv
    obtain ⟨v1, v2⟩ := oiCell_spec h'.htree h'.harma h'.hbp h'.hpoints h'.htype h'.hbackground h'.hpobs h'.hpbg h'.hcorr h1' h'.hinnov h2' h'.hmax extrap hb hv
    by_cases hno : b.isValid = false ∨ ∀ i, ¬ Usable bp points pobs pbg (L y) (G y) y i
    · rw [u1 hno, v1 (hno.imp id fun hno j hj => by
        obtain ⟨i, hi, -⟩ := (hU y hys j).mp hj
        exact hno i hi)]
    · rw [not_or, not_forall] at hno
      obtain ⟨hbv, i0, hi0⟩ := hno
      rw [not_not] at hi0
      obtain ⟨b0, rfl⟩ : ∃ b0, b = fin b0 := by
        cases b <;> simp at hbv ⊢
      obtain ⟨n, sel, m1, m2, m3, m4⟩ := u2 b0 rfl ⟨i0, hi0⟩
      obtain ⟨n', sel', m1', m2', m3', m4'⟩ := v2 b0 rfl ⟨π i0, (hU y hys _).mpr ⟨i0, hi0, rfl⟩⟩
      obtain ⟨e, he⟩ := selection_match m2 m2' (hU y hys) (fun i j hi hj => hπ.inj i j (pres y i hi) (pres y j hj))
        (fun i hi => hG y hys i (pres y i hi)) (hties.imp (fun h => by rw [h]; rfl) fun h => h y)
      have ps : ∀ a, Spec.Present pobs pbg (sel a) := fun a => pres y _ (m2.mem a)
      have hsys : (Spec.system sel' P' ratio').submatrix e e = Spec.system sel P ratio := by
        ext a c
        simp only [Spec.system, submatrix_apply, of_apply, he, hP _ (ps a) _ (ps c), (hdr _ (ps a)).2, e.injective.eq_iff]
      have hdet : (Spec.system sel P ratio).det = (Spec.system sel' P' ratio').det := by rw [← hsys, det_submatrix_equiv_self]
      have hGs : (G' y ∘ sel') ∘ e = G y ∘ sel := by
        funext a
        simp only [Function.comp_apply, he, hG y hys _ (ps a)]
      have hds : (d' ∘ sel') ∘ e = d ∘ sel := by
        funext a
        simp only [Function.comp_apply, he, (hdr _ (ps a)).1]
      by_cases hd0 : (Spec.system sel P ratio).det = 0
      · rw [m4 hd0, m4' (by rw [← hdet]; exact hd0)]
      · obtain ⟨w, w1, inc, w2, w3, w4⟩ := m3 hd0
        obtain ⟨w', w1', inc', w2', w3', w4'⟩ := m3' (by rw [← hdet]; exact hd0)
        have hw : w' ∘ e = w := by
          have e1 : (w' ∘ e) ᵥ* Spec.system sel P ratio = w ᵥ* Spec.system sel P ratio := by
            rw [w1, ← hsys, submatrix_vecMul_equiv, ← hGs, ← w1']
            congr 2
            funext b
            simp
          exact vecMul_injective_of_isUnit ((isUnit_iff_isUnit_det _).mpr (isUnit_iff_ne_zero.mpr hd0)) e1
        have s1 : w ⬝ᵥ (G y ∘ sel) = w' ⬝ᵥ (G' y ∘ sel') := by rw [← hw, ← hGs, comp_equiv_dotProduct_comp_equiv]
        have s2 : w ⬝ᵥ (d ∘ sel) = w' ⬝ᵥ (d' ∘ sel') := by rw [← hw, ← hds, comp_equiv_dotProduct_comp_equiv]
        have s3 : inc = inc' := by
          cases extrap with
          | true => rw [w3 rfl, w3' rfl, s2]
          | false =>
            have l := w4 rfl
            rw [s2] at l
            exact limited_match e (fun a => congrFun hds a) l (w4' rfl)
        rw [w2, w2', s1, s3]
  rw [h3, h3', mapM_congr cell]

/-- **C169** for the functions that take ratios of variances, and for grids: the background and its variance are those of the grid, row by row. -/
theorem c169_points_partial {pratios pratios' : List (Fl K)}
    (h : Setting T A bp background (List.replicate background.length 1) points pobs pratios pbg (List.replicate pratios.length 1) s maxPoints L G P ratio d)
    (h' : Setting T A bp background (List.replicate background.length 1) points' pobs' pratios' pbg' (List.replicate pratios'.length 1) s maxPoints L' G' P' ratio' d')
    (hπ : Spec.Rearranged π points.lats points.lons points.elevs points.lafs pobs pratios pbg (List.replicate pratios.length 1)
      points'.lats points'.lons points'.elevs points'.lafs pobs' pratios' pbg' (List.replicate pratios'.length 1))
    (hn : points.size ≠ 0) (hn' : points'.size ≠ 0)
    (hties : maxPoints = 0 ∨ ∀ y i j, Usable bp points pobs pbg (L y) (G y) y i → Usable bp points pobs pbg (L y) (G y) y j → G y i = G y j → i = j)
    (extrap : Bool) :
    oiPoints T A bp background points pobs pratios pbg s maxPoints extrap =
      oiPoints T A bp background points' pobs' pratios' pbg' s maxPoints extrap := by
  unfold oiPoints
  rw [if_neg (not_lt.mpr h.hmax), if_neg (not_not.mpr h.htype), if_neg (not_not.mpr h.hbackground), if_neg (not_not.mpr h.hpobs),
    if_neg (not_not.mpr h.hobsVar), if_neg (not_lt.mpr h.hmax), if_neg (not_not.mpr h'.htype), if_neg (not_not.mpr h.hbackground),
    if_neg (not_not.mpr h'.hpobs), if_neg (not_not.mpr h'.hobsVar), c169_order_partial h h' hπ hn hn' hties [] extrap]

theorem c169_grid_full_partial {g : Grid K} {Y X : Nat} {lats lons : List (List (Fl K))} {type : CoordType} (hg : BuiltGrid g Y X lats lons type)
    (hbp : g.toPoints = ok bp) {background bvar : List (List (Fl K))} (hb : Rect Y X background) (hv : Rect Y X bvar)
    (h : Setting T A bp background.flatten bvar.flatten points pobs obsVar pbg bvarAt s maxPoints L G P ratio d)
    (h' : Setting T A bp background.flatten bvar.flatten points' pobs' obsVar' pbg' bvarAt' s maxPoints L' G' P' ratio' d')
    (hπ : Spec.Rearranged π points.lats points.lons points.elevs points.lafs pobs obsVar pbg bvarAt points'.lats points'.lons points'.elevs points'.lafs pobs' obsVar' pbg' bvarAt')
    (hn : points.size ≠ 0) (hn' : points'.size ≠ 0)
    (hties : maxPoints = 0 ∨ ∀ y i j, Usable bp points pobs pbg (L y) (G y) y i → Usable bp points pobs pbg (L y) (G y) y j → G y i = G y j → i = j)
    (extrap : Bool) :
    oiFullGrid T A g background bvar points pobs obsVar pbg bvarAt s maxPoints extrap =
      oiFullGrid T A g background bvar points' pobs' obsVar' pbg' bvarAt' s maxPoints extrap := by
  obtain ⟨bp', h1, h2, h3, h4, h5, h6⟩ := hg.pointsWF
  rw [hbp] at h1; cases h1
  obtain ⟨hw, -, -, ht⟩ := hg.wf
  have hsz : oiCheckSize g background = ok (Y, X) := by
    obtain ⟨r, hr1, hr2⟩ := first_row hb hg.1
    unfold oiCheckSize
    rw [hw.size, ok_bind, hr1, ok_bind, if_neg (by rw [hb.1, hr2]; simp), hb.1, hr2]
  have hgt : g.type = bp.type := by rw [h4]; exact ht
  unfold oiFullGrid
  rw [if_neg (not_lt.mpr h.hmax), if_neg (not_not.mpr (hgt.trans h.htype)), hsz, ok_bind, if_neg (not_not.mpr h.hpobs), if_neg (not_not.mpr h.hobsVar),
    if_neg (not_not.mpr h.hpbg), hbp, ok_bind, grid2_copy hb, ok_bind, grid2_copy hv, ok_bind,
    if_neg (not_lt.mpr h.hmax), if_neg (not_not.mpr (hgt.trans h'.htype)), ok_bind, if_neg (not_not.mpr h'.hpobs), if_neg (not_not.mpr h'.hobsVar),
    if_neg (not_not.mpr h'.hpbg), ok_bind, grid2_copy hb, ok_bind, grid2_copy hv, ok_bind, c169_order_partial h h' hπ hn hn' hties [] extrap]

theorem c169_grid_partial {g : Grid K} {Y X : Nat} {lats lons : List (List (Fl K))} {type : CoordType} (hg : BuiltGrid g Y X lats lons type)
    (hbp : g.toPoints = ok bp) {background : List (List (Fl K))} (hb : Rect Y X background) {pratios pratios' : List (Fl K)}
    (h : Setting T A bp background.flatten (List.replicate background.flatten.length 1) points pobs pratios pbg (List.replicate pratios.length 1) s maxPoints L G P ratio d)
    (h' : Setting T A bp background.flatten (List.replicate background.flatten.length 1) points' pobs' pratios' pbg' (List.replicate pratios'.length 1) s maxPoints
      L' G' P' ratio' d')
    (hπ : Spec.Rearranged π points.lats points.lons points.elevs points.lafs pobs pratios pbg (List.replicate pratios.length 1)
      points'.lats points'.lons points'.elevs points'.lafs pobs' pratios' pbg' (List.replicate pratios'.length 1))
    (hn : points.size ≠ 0) (hn' : points'.size ≠ 0)
    (hties : maxPoints = 0 ∨ ∀ y i j, Usable bp points pobs pbg (L y) (G y) y i → Usable bp points pobs pbg (L y) (G y) y j → G y i = G y j → i = j)
    (extrap : Bool) :
    oiGrid T A g background points pobs pratios pbg s maxPoints extrap =
      oiGrid T A g background points' pobs' pratios' pbg' s maxPoints extrap := by
  obtain ⟨bp', h1, h2, h3, h4, h5, h6⟩ := hg.pointsWF
  rw [hbp] at h1; cases h1
  obtain ⟨hw, -, -, ht⟩ := hg.wf
  have hsz : oiCheckSize g background = ok (Y, X) := by
    obtain ⟨r, hr1, hr2⟩ := first_row hb hg.1
    unfold oiCheckSize
    rw [hw.size, ok_bind, hr1, ok_bind, if_neg (by rw [hb.1, hr2]; simp), hb.1, hr2]
  have hgt : g.type = bp.type := by rw [h4]; exact ht
  unfold oiGrid
  rw [if_neg (not_lt.mpr h.hmax), if_neg (not_not.mpr (hgt.trans h.htype)), hsz, ok_bind, if_neg (not_not.mpr h.hpobs), if_neg (not_not.mpr h.hobsVar),
    if_neg (not_not.mpr h.hpbg), hbp, ok_bind, grid2_copy hb, ok_bind,
    if_neg (not_lt.mpr h.hmax), if_neg (not_not.mpr (hgt.trans h'.htype)), ok_bind, if_neg (not_not.mpr h'.hpobs), if_neg (not_not.mpr h'.hobsVar),
    if_neg (not_not.mpr h'.hpbg), ok_bind, grid2_copy hb, ok_bind, c169_points_partial h h' hπ hn hn' hties extrap]

end

/-! ## Concrete cases -/

section examples

/-- Three observations at longitudes 1, 2 and 3, the third missing, and the first two in the other order: the assumptions of C169 are met. -/
theorem c169_case : ∃ (bp points points' : Points ℝ) (s : SF ℝ) (L L' : Nat → Fl ℝ) (G P G' P' : Nat → Nat → ℝ) (ratio d ratio' d' : Nat → ℝ) (π : Nat → Nat),
    points.size ≠ 0 ∧ points'.size ≠ 0 ∧
    Setting RTree.scan Arma.exact bp [fin 10] [fin 2] points [fin 12, fin 13, nan] [fin 1, fin 3, fin 1] [fin 11, fin 11, fin 11] [fin 2, fin 2, fin 2] s 0 L G P ratio d ∧
    Setting RTree.scan Arma.exact bp [fin 10] [fin 2] points' [fin 13, fin 12] [fin 3, fin 1] [fin 11, fin 11] [fin 2, fin 2] s 0 L' G' P' ratio' d' ∧
    Spec.Rearranged π points.lats points.lons points.elevs points.lafs [fin 12, fin 13, nan] [fin 1, fin 3, fin 1] [fin 11, fin 11, fin 11] [fin 2, fin 2, fin 2]
      points'.lats points'.lons points'.elevs points'.lafs [fin 13, fin 12] [fin 3, fin 1] [fin 11, fin 11] [fin 2, fin 2] := by
  obtain ⟨bp, hbp⟩ : ∃ bp : Points ℝ, Points.new [fin 0] [fin 0] [] [] .cartesian = ok bp := by
    simp [Points.new, KDTree.new, List.range_succ, mapM_cons, convertCoordinates, isValidLat, isValidLon, vget]
  obtain ⟨points, hpoints⟩ : ∃ points : Points ℝ, Points.new [fin 0, fin 0, fin 0] [fin 1, fin 2, fin 3] [fin 5, fin 6, fin 7] [fin 0, fin 1, fin 0] .cartesian = ok points := by
    simp [Points.new, KDTree.new, List.range_succ, mapM_cons, convertCoordinates, isValidLat, isValidLon, vget]
  obtain ⟨points', hpoints'⟩ : ∃ points : Points ℝ, Points.new [fin 0, fin 0] [fin 2, fin 1] [fin 6, fin 5] [fin 1, fin 0] .cartesian = ok points := by
    simp [Points.new, KDTree.new, List.range_succ, mapM_cons, convertCoordinates, isValidLat, isValidLon, vget]
  have w1 := BuiltPoints.pointsWF ⟨_, _, hbp⟩
  have w2 := BuiltPoints.pointsWF ⟨_, _, hpoints⟩
  have w3 := BuiltPoints.pointsWF ⟨_, _, hpoints'⟩
  obtain ⟨e1, -, -, -, -, -, e3, -⟩ := Points.new_ok hbp
  obtain ⟨f1, f2, -, -, -, -, f3, -, -, f4, f5, -⟩ := Points.new_ok hpoints
  obtain ⟨k1, k2, -, -, -, -, k3, -, -, k4, k5, -⟩ := Points.new_ok hpoints'
  obtain ⟨L, G, P, hc⟩ := c51_correlations RTree.scan (SF.cressman (fin 3) (fin 0) (fin 0)) bp points w1 w2 (fun _ _ _ => trivial) (fun _ _ _ => trivial)
  obtain ⟨L', G', P', hc'⟩ := c51_correlations RTree.scan (SF.cressman (fin 3) (fin 0) (fin 0)) bp points' w1 w3 (fun _ _ _ => trivial) (fun _ _ _ => trivial)
  have hpres : ∀ i, Spec.Present ([fin 12, fin 13, nan] : List (Fl ℝ)) [fin 11, fin 11, fin 11] i ↔ i = 0 ∨ i = 1 := by
    intro i
    match i with
    | 0 => exact ⟨fun _ => Or.inl rfl, fun _ => ⟨⟨12, rfl⟩, 11, rfl⟩⟩
    | 1 => exact ⟨fun _ => Or.inr rfl, fun _ => ⟨⟨13, rfl⟩, 11, rfl⟩⟩
    | 2 => exact ⟨fun h => by simp [Spec.Present] at h, by omega⟩
    | i + 3 => exact ⟨fun h => by simp [Spec.Present] at h, by omega⟩
  have hpres' : ∀ i, Spec.Present ([fin 13, fin 12] : List (Fl ℝ)) [fin 11, fin 11] i ↔ i = 0 ∨ i = 1 := by
    intro i
    match i with
    | 0 => exact ⟨fun _ => Or.inl rfl, fun _ => ⟨⟨13, rfl⟩, 11, rfl⟩⟩
    | 1 => exact ⟨fun _ => Or.inr rfl, fun _ => ⟨⟨12, rfl⟩, 11, rfl⟩⟩
    | i + 2 => exact ⟨fun h => by simp [Spec.Present] at h, by omega⟩
  refine ⟨bp, points, points', _, L, L', G, P, G', P', fun i => if i = 0 then 1 / 2 else 3 / 2, fun i => if i = 0 then 1 else 2,
    fun i => if i = 0 then 3 / 2 else 1 / 2, fun i => if i = 0 then 2 else 1, fun i => 1 - i, ?_, ?_,
    ⟨RTree.scan_lawful, Arma.exact_lawful, w1, w2, ?_, ?_, ?_, ?_, ?_, ?_, ?_, le_rfl, hc, ?_, ?_⟩,
    ⟨RTree.scan_lawful, Arma.exact_lawful, w1, w3, ?_, ?_, ?_, ?_, ?_, ?_, ?_, le_rfl, hc', ?_, ?_⟩, ⟨?_, ?_, ?_, ?_⟩⟩
  · unfold Points.size; rw [f1]; simp
  · unfold Points.size; rw [k1]; simp
  · unfold Points.type; rw [e3, f3]
  · unfold Points.size; simp [e1]
  · unfold Points.size; simp [e1]
  · unfold Points.size; simp [f1]
  · unfold Points.size; simp [f1]
  · unfold Points.size; simp [f1]
  · unfold Points.size; simp [f1]
  · intro i o b h1 h2
    match i, h1, h2 with
    | 0, h1, h2 => simp at h1 h2 ⊢; rw [← h1, ← h2]; norm_num
    | 1, h1, h2 => simp at h1 h2 ⊢; rw [← h1, ← h2]; norm_num
    | 2, h1, h2 => simp at h1
    | i + 3, h1, h2 => simp at h1
  · intro i o b h1 h2
    match i, h1, h2 with
    | 0, h1, h2 => exact ⟨1, 2, rfl, rfl, by norm_num, by norm_num⟩
    | 1, h1, h2 => exact ⟨3, 2, rfl, rfl, by norm_num, by norm_num⟩
    | 2, h1, h2 => simp at h1
    | i + 3, h1, h2 => simp at h1
  · unfold Points.type; rw [e3, k3]
  · unfold Points.size; simp [e1]
  · unfold Points.size; simp [e1]
  · unfold Points.size; simp [k1]
  · unfold Points.size; simp [k1]
  · unfold Points.size; simp [k1]
  · unfold Points.size; simp [k1]
  · intro i o b h1 h2
    match i, h1, h2 with
    | 0, h1, h2 => simp at h1 h2 ⊢; rw [← h1, ← h2]; norm_num
    | 1, h1, h2 => simp at h1 h2 ⊢; rw [← h1, ← h2]; norm_num
    | i + 2, h1, h2 => simp at h1
  · intro i o b h1 h2
    match i, h1, h2 with
    | 0, h1, h2 => exact ⟨3, 2, rfl, rfl, by norm_num, by norm_num⟩
    | 1, h1, h2 => exact ⟨1, 2, rfl, rfl, by norm_num, by norm_num⟩
    | i + 2, h1, h2 => simp at h1
  · intro j
    rw [hpres']
    constructor
    · rintro (rfl | rfl)
      · exact ⟨1, (hpres 1).mpr (Or.inr rfl), rfl⟩
      · exact ⟨0, (hpres 0).mpr (Or.inl rfl), rfl⟩
    · rintro ⟨i, -, rfl⟩; omega
  · intro i j hi hj hij
    rw [hpres] at hi hj
    omega
  · intro i hi
    rw [f1, f2, f4 rfl, f5 rfl, k1, k2, k4 rfl, k5 rfl]
    rcases (hpres i).mp hi with rfl | rfl <;> exact ⟨rfl, rfl, rfl, rfl⟩
  · intro i hi
    rcases (hpres i).mp hi with rfl | rfl <;> exact ⟨rfl, rfl, rfl, rfl⟩

/-- Libraries that do what is required, and leave two equal pairs in their order. -/
noncomputable def pairArma : Arma ℚ where
  inv rows := match rows with
    | [[fin a]] => if a = 0 then .throw .runtimeError else ok [[fin a⁻¹]]
    | rows => Arma.exact.inv rows
  sortFirst l := match l with
    | [a, b] => if b.1.lt a.1 then [b, a] else [a, b]
    | l => Arma.exact.sortFirst l

theorem pairArma_lawful : pairArma.Lawful := by
  have hne : ∀ (n : Nat) (M : Matrix (Fin n) (Fin n) ℚ), n ≠ 1 → pairArma.inv (toRows M) = Arma.exact.inv (toRows M) := by
    intro n M hn
    simp only [pairArma]
    split
    · rename_i a e
      have := congrArg List.length e
      simp [toRows] at this
      exact absurd this hn
    · rfl
  have h1 : ∀ M : Matrix (Fin 1) (Fin 1) ℚ, pairArma.inv (toRows M) = if M 0 0 = 0 then .throw .runtimeError else ok [[fin (M 0 0)⁻¹]] := by
    intro M
    have : toRows M = [[fin (M 0 0)]] := by simp [toRows]
    rw [this]; rfl
  refine ⟨?_, ?_, ?_, ?_⟩
  · intro n M hd
    by_cases hn : n = 1
    · subst hn
      rw [Matrix.det_fin_one] at hd
      rw [h1, if_neg hd]
      simp [toRows]
    · rw [hne n M hn]; exact Arma.exact_lawful.inv_ok n M hd
  · intro n M hd
    by_cases hn : n = 1
    · subst hn
      rw [Matrix.det_fin_one] at hd
      rw [h1, if_pos hd]
    · rw [hne n M hn]; exact Arma.exact_lawful.inv_singular n M hd
  · intro l hl
    simp only [pairArma]
    split
    · split_ifs
      · exact List.Perm.swap _ _ _
      · exact List.Perm.refl _
    · exact Arma.exact_lawful.sort_perm _ hl
  · intro l hl
    simp only [pairArma]
    split
    · rename_i a b
      have ha := hl a (by simp)
      have hb := hl b (by simp)
      split_ifs with c
      · simp only [List.pairwise_cons, List.mem_singleton, forall_eq, List.not_mem_nil, false_imp_iff, implies_true, List.Pairwise.nil, and_true]
        obtain ⟨a, i⟩ := a
        obtain ⟨b, j⟩ := b
        cases a <;> cases b <;> simp_all [Fl.lt]
        linarith
      · simpa using c
    · exact Arma.exact_lawful.sort_sorted _ hl

/-- **C169** is false if observations that are equally correlated with the output point compete for the last place: of two observations on either side, at the
same distance, the one used is the second in the list. -/
theorem c169_ties :
    pairArma.Lawful ∧
    lineOI pairArma (fin 3) [fin 1, fin (-1)] [fin 10, fin 20] [fin 1, fin 1] [fin 0, fin 0] 1 true = ok ([fin 8], [fin (17 / 25)]) ∧
    lineOI pairArma (fin 3) [fin (-1), fin 1] [fin 20, fin 10] [fin 1, fin 1] [fin 0, fin 0] 1 true = ok ([fin 4], [fin (17 / 25)]) := by
  refine ⟨pairArma_lawful, ?_, ?_⟩ <;> decide +kernel

end examples
end Gridpp.Props
