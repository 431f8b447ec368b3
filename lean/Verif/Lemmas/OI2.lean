import Verif.Lemmas.OI
import Verif.Props.StructureVec

/-! Lemmas about optimal interpolation: usable observations, selection, one output point. -/

set_option linter.unusedSectionVars false

namespace Gridpp
open Fl Res Matrix Props

section
variable {K : Type} [Field K] [LinearOrder K] [IsStrictOrderedRing K]

theorem vget_some {α : Type} {v : List α} {n : Nat} {a : α} (h : v[n]? = some a) : vget v (n : Int) = ok a := vget_nat_eq_ok.mpr h

theorem exists_getElem? {α : Type} {v : List α} {n : Nat} (h : n < v.length) : ∃ a, v[n]? = some a := ⟨_, List.getElem?_eq_getElem h⟩

theorem oiUsable_eq (idx : List Nat) (rho : Nat → K) (pobs pbg : List (Fl K)) (h1 : ∀ i ∈ idx, i < pobs.length)
    (h2 : ∀ i ∈ idx, i < pbg.length) :
    ∃ l : List Nat, oiUsable idx (idx.map fun i => fin (rho i)) pobs pbg = ok (l.map fun i => (fin (rho i), i)) ∧ l.Sublist idx ∧
      ∀ i, i ∈ l ↔ i ∈ idx ∧ (∃ o, pobs[i]? = some (fin o)) ∧ (∃ b, pbg[i]? = some (fin b)) ∧ 0 < rho i := by
  classical
  let P : Nat → Prop := fun i => (∃ o, pobs[i]? = some (fin o)) ∧ (∃ b, pbg[i]? = some (fin b)) ∧ 0 < rho i
  refine ⟨idx.filter fun i => decide (P i), ?_, List.filter_sublist, fun i => by simp [P]⟩
  unfold oiUsable
  rw [mapM_range_list idx _ (fun i => if P i then some (fin (rho i), i) else none), ok_bind]
  · congr 1
    induction idx with
    | nil => rfl
    | cons a t ih =>
      have := ih (fun i hi => h1 i (List.mem_cons_of_mem _ hi)) (fun i hi => h2 i (List.mem_cons_of_mem _ hi))
      by_cases h : P a
      · rw [List.map_cons, if_pos h, List.filterMap_cons_some (f := id) rfl, List.filter_cons_of_pos (by simpa using h), List.map_cons, this]
      · rw [List.map_cons, if_neg h, List.filterMap_cons_none (f := id) rfl, List.filter_cons_of_neg (by simpa using h), this]
  · intro k hk
    obtain ⟨o, ho⟩ := exists_getElem? (h1 _ (List.getElem_mem hk))
    obtain ⟨b, hb⟩ := exists_getElem? (h2 _ (List.getElem_mem hk))
    have hr : (idx.map fun i => fin (rho i))[k]? = some (fin (rho idx[k])) := by simp [hk]
    rw [vget_some (List.getElem?_eq_getElem hk), ok_bind, vget_some ho, ok_bind]
    cases ho' : o.isValid with
    | false =>
      rw [if_neg (by simp), if_neg]
      rintro ⟨⟨o', h⟩, -⟩
      rw [h] at ho; cases ho; simp at ho'
    | true =>
      rw [if_pos rfl, vget_some hb, ok_bind]
      cases hb' : b.isValid with
      | false =>
        rw [if_neg (by simp), if_neg]
        rintro ⟨-, ⟨o', h⟩, -⟩
        rw [h] at hb; cases hb; simp at hb'
      | true =>
        rw [if_pos rfl, vget_some hr, ok_bind, zero_def]
        simp only [gt_fin, decide_eq_true_eq]
        obtain ⟨o0, rfl⟩ := exists_fin_of_valid ho'
        obtain ⟨b0, rfl⟩ := exists_fin_of_valid hb'
        by_cases h : 0 < rho idx[k]
        · rw [if_pos h, if_pos ⟨⟨_, ho⟩, ⟨_, hb⟩, h⟩]
        · rw [if_neg h, if_neg (fun c => h c.2.2)]

/-- A list of pairs (rho, i) as pairs. -/
abbrev rhoPairs (rho : Nat → K) (l : List Nat) : List (Fl K × Nat) := l.map fun i => (fin (rho i), i)

theorem oiSelect_eq_of_sort {A : Arma K} (hperm0 : ∀ l : List (Fl K × Nat), (∀ e ∈ l, e.1 ≠ nan) → (A.sortFirst l).Perm l)
    (hsort0 : ∀ l : List (Fl K × Nat), (∀ e ∈ l, e.1 ≠ nan) → (A.sortFirst l).Pairwise fun a b => b.1.lt a.1 = false) (maxPoints : Int) (hm : 0 ≤ maxPoints) (rho : Nat → K) (l : List Nat) (hl : l.Nodup) :
    ∃ r : List Nat, oiSelect A maxPoints (rhoPairs rho l) = rhoPairs rho r ∧ r.Nodup ∧ (∀ i ∈ r, i ∈ l) ∧
      (maxPoints = 0 ∨ (r.length : Int) ≤ maxPoints) ∧ (l ≠ [] → r ≠ []) ∧
      ∀ i ∈ l, i ∈ r ∨ ((r.length : Int) = maxPoints ∧ 0 < maxPoints ∧ ∀ j ∈ r, rho i ≤ rho j) := by
  unfold oiSelect
  by_cases h : 0 < maxPoints ∧ maxPoints < ((rhoPairs rho l).length : Int)
  · rw [if_pos h]
    have hnan : ∀ e ∈ rhoPairs rho l, e.1 ≠ nan := by
      intro e he
      obtain ⟨i, -, rfl⟩ := List.mem_map.mp he
      simp
    have hperm := hperm0 _ hnan
    have hsort := hsort0 _ hnan
    generalize A.sortFirst (rhoPairs rho l) = s at hperm hsort
    have hs : s = rhoPairs rho (s.map Prod.snd) := by
      unfold rhoPairs
      rw [List.map_map]
      conv_lhs => rw [← List.map_id s]
      apply List.map_congr_left
      intro e he
      obtain ⟨i, -, rfl⟩ := List.mem_map.mp (hperm.subset he)
      rfl
    generalize s.map Prod.snd = l2 at hs
    subst hs
    have hp2 : l2.Perm l := by
      have := hperm.map Prod.snd
      simpa [rhoPairs, List.map_map, Function.comp_def] using this
    have hs2 : l2.reverse.Pairwise fun a b => rho b ≤ rho a := by
      rw [List.pairwise_reverse]
      have := List.pairwise_map.mp hsort
      refine this.imp ?_
      intro a b hab
      simpa using hab
    have hlen : maxPoints.toNat < l2.length := by
      rw [hp2.length_eq]
      have := h.2
      simp at this
      omega
    have htl : (l2.reverse.take maxPoints.toNat).length = maxPoints.toNat := by simp; omega
    have hmem : ∀ i, i ∈ l2.reverse.take maxPoints.toNat → i ∈ l := fun i hi =>
      hp2.subset (List.mem_reverse.mp (List.mem_of_mem_take hi))
    refine ⟨l2.reverse.take maxPoints.toNat, ?_, ?_, hmem, ?_, ?_, ?_⟩
    · simp [rhoPairs, List.map_take]
    · exact (List.take_sublist _ _).nodup (List.nodup_reverse.mpr (hp2.nodup_iff.mpr hl))
    · right; rw [htl]; omega
    · intro _ hr
      have := congrArg List.length hr
      rw [htl] at this
      simp at this; omega
    · intro i hi
      have hi2 : i ∈ l2.reverse := List.mem_reverse.mpr (hp2.symm.subset hi)
      rw [← List.take_append_drop maxPoints.toNat l2.reverse, List.mem_append] at hi2
      rcases hi2 with hi2 | hi2
      · exact Or.inl hi2
      · right
        refine ⟨by rw [htl]; omega, h.1, fun j hj => ?_⟩
        rw [← List.take_append_drop maxPoints.toNat l2.reverse, List.pairwise_append] at hs2
        exact hs2.2.2 j hj i hi2
  · rw [if_neg h]
    refine ⟨l, rfl, hl, fun i hi => hi, ?_, id, fun i hi => Or.inl hi⟩
    simp at h
    by_cases h0 : maxPoints = 0
    · exact Or.inl h0
    · exact Or.inr (h (by omega))

theorem oiSelect_eq {A : Arma K} (hA : A.Lawful) (maxPoints : Int) (hm : 0 ≤ maxPoints) (rho : Nat → K) (l : List Nat) (hl : l.Nodup) :
    ∃ r : List Nat, oiSelect A maxPoints (rhoPairs rho l) = rhoPairs rho r ∧ r.Nodup ∧ (∀ i ∈ r, i ∈ l) ∧
      (maxPoints = 0 ∨ (r.length : Int) ≤ maxPoints) ∧ (l ≠ [] → r ≠ []) ∧
      ∀ i ∈ l, i ∈ r ∨ ((r.length : Int) = maxPoints ∧ 0 < maxPoints ∧ ∀ j ∈ r, rho i ≤ rho j) :=
  oiSelect_eq_of_sort hA.sort_perm hA.sort_sorted maxPoints hm rho l hl

theorem rhoPairs_ofFn (rho : Nat → K) (r : List Nat) :
    rhoPairs rho r = List.ofFn fun a : Fin r.length => (fin (rho (r.get a)), r.get a) := by
  unfold rhoPairs
  apply List.ext_getElem
  · simp
  · intro i h1 h2; simp

/-- The lists of a `Points` object belong together. -/
structure _root_.Gridpp.Points.WF [HasGeo K] (P : Points K) : Prop where
  tlats : P.tree.lats = P.lats
  tlons : P.tree.lons = P.lons
  elevs : P.elevs.length = P.lats.length
  lafs : P.lafs.length = P.lats.length
  tree : P.tree.WF

theorem Props.BuiltPoints.pointsWF [HasGeo K] {P : Points K} {lats lons : List (Fl K)} {type : CoordType} (h : BuiltPoints P lats lons type) : P.WF := by
  obtain ⟨e, l, hp⟩ := h
  obtain ⟨p1, p2, p3, p4, p5, p6, p7, p8, p9, -⟩ := Points.new_ok hp
  exact ⟨by rw [p5, p1], by rw [p6, p2], by rw [p3, p1], by rw [p4, p1], p8⟩

theorem Props.BuiltGrid.pointsWF [HasGeo K] {g : Grid K} {Y X : Nat} {lats lons : List (List (Fl K))} {type : CoordType} (h : BuiltGrid g Y X lats lons type) :
    ∃ P, g.toPoints = ok P ∧ P.WF ∧ P.size = Y * X ∧ P.type = type ∧ P.lats = lats.flatten ∧ P.lons = lons.flatten := by
  obtain ⟨hw, e1, e2, e3⟩ := h.wf
  obtain ⟨hY, hX, h1, h2, e, l, h3, h4, hg⟩ := h
  refine ⟨Points.ofTree g.tree g.elevs.flatten g.lafs.flatten, ?_, ⟨rfl, rfl, ?_, ?_, hw.tree⟩, ?_, e3, ?_, ?_⟩
  · unfold Grid.toPoints
    rw [hw.size]
    simp only [ok_bind, grid2_copy hw.elevs, grid2_copy hw.lafs]
  · show g.elevs.flatten.length = g.tree.lats.length
    rw [hw.tlats, flatten_length hw.lats, flatten_length hw.elevs]
  · show g.lafs.flatten.length = g.tree.lats.length
    rw [hw.tlats, flatten_length hw.lats, flatten_length hw.lafs]
  · show g.tree.lats.length = _
    rw [hw.tlats, flatten_length hw.lats]
  · show g.tree.lats = _
    rw [hw.tlats, e1]
  · show g.tree.lons = _
    rw [hw.tlons, e2]

/-- A point of a `Points` object. -/
theorem Points.WF.point [HasGeo K] {P : Points K} (h : P.WF) {i : Nat} (hi : i < P.size) :
    ∃ p q, P.getPoint (i : Int) = ok p ∧ P.lats[i]? = some p.lat ∧ P.lons[i]? = some p.lon ∧ P.elevs[i]? = some p.elev ∧
      P.lafs[i]? = some p.laf ∧ p.type = P.type ∧ convertCoordinates p.lat p.lon P.type = ok q ∧
      Located P.lats P.lons P.type i q ∧ Spec.LiesAt p q := by
  have hi' : i < P.lats.length := hi
  have hip : i < P.tree.pts.length := by rw [h.tree.len, h.tlats]; exact hi'
  obtain ⟨la, lo, c1, c2, c3⟩ := h.tree.conv i hip
  obtain ⟨el, hel⟩ := exists_getElem? (v := P.elevs) (n := i) (by rw [h.elevs]; exact hi')
  obtain ⟨lf, hlf⟩ := exists_getElem? (v := P.lafs) (n := i) (by rw [h.lafs]; exact hi')
  rw [h.tlats] at c1
  rw [h.tlons] at c2
  refine ⟨⟨la, lo, el, lf, P.type, fin P.tree.pts[i].x, fin P.tree.pts[i].y, fin P.tree.pts[i].z⟩, P.tree.pts[i], ?_, c1, c2, hel, hlf, rfl, c3,
    ⟨la, lo, c1, c2, c3⟩, rfl, rfl, rfl⟩
  unfold Points.getPoint
  rw [vget_some c1, ok_bind, vget_some c2, ok_bind, vget_some hel, ok_bind, vget_some hlf, ok_bind,
    vget_some (List.getElem?_eq_getElem hip), ok_bind]

end

section
variable {K : Type} [Field K] [LinearOrder K] [IsStrictOrderedRing K] [HasGeo K] [LawfulSqrt K] [HasExp K]

/-- The structure function gives numbers for the given points: `L y` is the localization distance of output point `y`,
`G y i` the background correlation of output point `y` and observation `i`, `P i j` the correlation of two observations;
the versions for lists of points agree with the single-point ones (see C57 for when this holds). -/
structure Correlations (T : RTree K) (s : SF K) (bp points : Points K) (L : Nat → Fl K) (G P : Nat → Nat → K) : Prop where
  radius : ∀ (y : Nat) p, bp.getPoint (y : Int) = ok p → s.locDist T p = ok (L y)
  cell : ∀ (y : Nat) p, bp.getPoint (y : Int) = ok p → ∀ (is : List Nat) ps, mapM (fun i : Nat => points.getPoint (i : Int)) is = ok ps →
    s.corrBgVec T p ps = ok (is.map fun i => fin (G y i))
  obs : ∀ (i : Nat) p, points.getPoint (i : Int) = ok p → ∀ (is : List Nat) ps, mapM (fun j : Nat => points.getPoint (j : Int)) is = ok ps →
    s.corrVec T p ps = ok (is.map fun j => fin (P i j))
  cell1 : ∀ (y : Nat) p, bp.getPoint (y : Int) = ok p → ∀ (i : Nat) p', points.getPoint (i : Int) = ok p' → s.corrBg T p p' = ok (fin (G y i))
  obs1 : ∀ (i : Nat) p, points.getPoint (i : Int) = ok p → ∀ (j : Nat) p', points.getPoint (j : Int) = ok p' → s.corr T p p' = ok (fin (P i j))

/-- Observation `i` can be used at output point `y`: it lies within the radius `L`, it and the background there are valid,
and its correlation `g i` is positive. -/
def Usable (bp points : Points K) (pobs pbg : List (Fl K)) (L : Fl K) (g : Nat → K) (y i : Nat) : Prop :=
  (∃ p q, Located bp.lats bp.lons bp.type y p ∧ Located points.lats points.lons points.type i q ∧ Within p q L) ∧
  (∃ o, pobs[i]? = some (fin o)) ∧ (∃ b, pbg[i]? = some (fin b)) ∧ 0 < g i

theorem Points.WF.mapM_point {P : Points K} {pts : List (Point K)}
    (hpts : mapM (fun i : Nat => P.getPoint (i : Int)) (List.range P.size) = ok pts) {i : Nat} (hi : i < P.size) :
    vget pts (i : Int) = P.getPoint (i : Int) := by
  have hf := mapM_eq_ok hpts
  have hl : P.size = pts.length := by simpa using hf.length_eq
  have := (List.forall₂_iff_get.mp hf).2 i (by simpa using hi) (by omega)
  simp only [List.get_eq_getElem, List.getElem_range] at this
  rw [this]
  exact vget_some (List.getElem?_eq_getElem _)

theorem oiRow_eq {T : RTree K} {s : SF K} {bp points : Points K} {L : Nat → Fl K} {G P : Nat → Nat → K} (hw : points.WF)
    (hc : Correlations T s bp points L G P)
    {pts : List (Point K)} (hpts : mapM (fun i : Nat => points.getPoint (i : Int)) (List.range points.size) = ok pts)
    {pobs pratios pbg : List (Fl K)} {ratio d : Nat → K} (r : List Nat) (hr : ∀ i ∈ r, i < points.size) (rho : Nat → K) (i : Nat)
    (hi : i < points.size) (o b : K) (ho : pobs[i]? = some (fin o)) (hb : pbg[i]? = some (fin b)) (hd : d i = o - b)
    (hrat : pratios[i]? = some (fin (ratio i))) :
    oiRow T s pts pobs pratios pbg (rhoPairs rho r) (fin (rho i), i) = ok (fin (d i), fin (ratio i), r.map fun j => fin (P i j)) := by
  obtain ⟨p, q, hp, -⟩ := hw.point hi
  have hm : mapM (fun f : Fl K × Nat => vget pts (f.2 : Int)) (rhoPairs rho r) = mapM (fun j : Nat => points.getPoint (j : Int)) r := by
    unfold rhoPairs
    clear hd hrat ho hb hp hi
    induction r with
    | nil => rfl
    | cons a t ih =>
      rw [List.map_cons, mapM_cons, mapM_cons, ih fun i hi => hr i (List.mem_cons_of_mem _ hi),
        Points.WF.mapM_point hpts (hr a (by simp))]
  obtain ⟨ps, hps⟩ : ∃ ps, mapM (fun j : Nat => points.getPoint (j : Int)) r = ok ps := by
    clear hd hrat ho hb hp hi hm
    induction r with
    | nil => exact ⟨[], rfl⟩
    | cons a t ih =>
      obtain ⟨ps, hps⟩ := ih fun i hi => hr i (List.mem_cons_of_mem _ hi)
      obtain ⟨p, -, hp, -⟩ := hw.point (hr a (by simp))
      exact ⟨p :: ps, by rw [mapM_cons, hp, ok_bind, hps, ok_bind]⟩
  have hrow : mapM (fun j : Nat => vget (r.map fun j => fin (P i j)) (j : Int)) (List.range (rhoPairs rho r).length) =
      ok (r.map fun j => fin (P i j)) := by
    have : (rhoPairs rho r).length = r.length := by simp
    rw [this]
    apply mapM_range_list r
    intro k hk
    exact vget_some (by simp [hk])
  unfold oiRow
  simp only [vget_some ho, vget_some hb, vget_some hrat, Points.WF.mapM_point hpts hi, hp, hm, hps, hc.obs i p hp r ps hps, ok_bind,
    hrow, fin_sub, hd]

theorem oiCell_spec {T : RTree K} (hT : T.Lawful) {A : Arma K} (hA : A.Lawful) {bp points : Points K} (hbp : bp.WF) (hw : points.WF)
    (htype : bp.type = points.type) {background bvar pobs pratios pbg : List (Fl K)} (hb : background.length = bp.size)
    (hobs : pobs.length = points.size) (hpbg : pbg.length = points.size)
    {s : SF K} {L : Nat → Fl K} {G P : Nat → Nat → K} (hc : Correlations T s bp points L G P)
    {pts : List (Point K)} (hpts : mapM (fun i : Nat => points.getPoint (i : Int)) (List.range points.size) = ok pts)
    {ratio d : Nat → K} (hd : ∀ (i : Nat) o b, pobs[i]? = some (fin o) → pbg[i]? = some (fin b) → d i = o - b)
    (hrat : ∀ (i : Nat) o b, pobs[i]? = some (fin o) → pbg[i]? = some (fin b) → pratios[i]? = some (fin (ratio i)))
    {maxPoints : Int} (hm : 0 ≤ maxPoints) (extrap : Bool) {y : Nat} {b bv : Fl K} (hy : background[y]? = some b) (hv : bvar[y]? = some bv) :
    ((b.isValid = false ∨ ∀ i, ¬ Usable bp points pobs pbg (L y) (G y) y i) →
      oiCell T A bp background bvar points pts pobs pratios pbg s maxPoints extrap y = ok (b, bv)) ∧
    (∀ b0, b = fin b0 → (∃ i, Usable bp points pobs pbg (L y) (G y) y i) →
      ∃ (n : Nat) (sel : Fin n → Nat), 0 < n ∧ Spec.Selection (Usable bp points pobs pbg (L y) (G y) y) (G y) maxPoints.toNat sel ∧
        ((Spec.system sel P ratio).det ≠ 0 → ∃ w : Fin n → K, w ᵥ* Spec.system sel P ratio = G y ∘ sel ∧ ∃ inc,
          oiCell T A bp background bvar points pts pobs pratios pbg s maxPoints extrap y =
            ok (fin (b0 + inc), bv * fin (1 - w ⬝ᵥ (G y ∘ sel))) ∧
          (extrap = true → inc = w ⬝ᵥ (d ∘ sel)) ∧ (extrap = false → Spec.Limited (d ∘ sel) (w ⬝ᵥ (d ∘ sel)) inc)) ∧
        ((Spec.system sel P ratio).det = 0 →
          oiCell T A bp background bvar points pts pobs pratios pbg s maxPoints extrap y = .throw .runtimeError)) := by
  have hys : y < bp.size := by rw [← hb]; exact (List.getElem?_eq_some_iff.mp hy).1
  obtain ⟨p1, q1, hp1, hla, hlo, -, -, -, hcv, hloc, -⟩ := hbp.point hys
  rw [htype] at hcv
  obtain ⟨idx, hidx, hnd, hmem⟩ := tree_within hT hw.tree hcv (L y)
  rw [hw.tlats, hw.tlons] at hmem
  have hidx' : points.getNeighbours T p1.lat p1.lon (L y) true = ok idx := hidx
  have hlt : ∀ i ∈ idx, i < points.size := fun i hi => by
    obtain ⟨q, hq, -⟩ := (hmem i).mp hi
    exact hq.lt
  have hm2 : mapM (fun i : Nat => vget pts (i : Int)) idx = mapM (fun j : Nat => points.getPoint (j : Int)) idx :=
    mapM_congr fun i hi => Points.WF.mapM_point hpts (hlt i hi)
  obtain ⟨ps, hps⟩ : ∃ ps, mapM (fun j : Nat => points.getPoint (j : Int)) idx = ok ps := by
    clear hm2 hidx hidx' hnd hmem
    induction idx with
    | nil => exact ⟨[], rfl⟩
    | cons a t ih =>
      obtain ⟨ps, hps⟩ := ih fun i hi => hlt i (List.mem_cons_of_mem _ hi)
      obtain ⟨p, -, hp, -⟩ := hw.point (hlt a (by simp))
      exact ⟨p :: ps, by rw [mapM_cons, hp, ok_bind, hps, ok_bind]⟩
  obtain ⟨l, hl1, hl2, hl3⟩ := oiUsable_eq idx (G y) pobs pbg (fun i hi => by rw [hobs]; exact hlt i hi) (fun i hi => by rw [hpbg]; exact hlt i hi)
  obtain ⟨r, hr1, hr2, hr3, hr4, hr5, hr6⟩ := oiSelect_eq hA maxPoints hm (G y) l (hl2.nodup hnd)
  have husable : ∀ i, Usable bp points pobs pbg (L y) (G y) y i ↔ i ∈ l := by
    intro i
    rw [hl3, hmem]
    unfold Usable
    constructor
    · rintro ⟨⟨p, q, c1, c2, c3⟩, h⟩
      have := c1.unique hloc
      subst this
      exact ⟨⟨q, c2, c3⟩, h⟩
    · rintro ⟨⟨q, c2, c3⟩, h⟩
      exact ⟨⟨q1, q, hloc, c2, c3⟩, h⟩
  have hstep : ∀ b0, b = fin b0 → oiCell T A bp background bvar points pts pobs pratios pbg s maxPoints extrap y =
      if idx.length = 0 then ok (b, bv) else if r.length = 0 then ok (b, bv) else (do
        let rows ← mapM (oiRow T s pts pobs pratios pbg (rhoPairs (G y) r)) (rhoPairs (G y) r)
        let x ← oiSolve A (rhoPairs (G y) r) rows extrap
        ok (b + x.1, bv * (1 - x.2))) := by
    rintro b0 rfl
    unfold oiCell
    rw [vget_some hy, ok_bind, vget_some hv, ok_bind, if_pos (by rfl)]
    rw [vget_some hla, ok_bind, vget_some hlo, ok_bind, hp1, ok_bind, hc.radius y p1 hp1, ok_bind, hidx', ok_bind]
    split_ifs with h1 h2
    · rfl
    · rw [hm2, hps, ok_bind, hc.cell y p1 hp1 idx ps hps, ok_bind, hl1, ok_bind]
      simp only [hr1]
      rw [if_pos (by simpa using h2)]
    · rw [hm2, hps, ok_bind, hc.cell y p1 hp1 idx ps hps, ok_bind, hl1, ok_bind]
      simp only [hr1]
      rw [if_neg (by simpa using h2)]
  constructor
  · intro h
    cases hbv : b.isValid with
    | false =>
      unfold oiCell
      rw [vget_some hy, ok_bind, vget_some hv, ok_bind, if_neg (by rw [hbv]; simp)]
    | true =>
      rcases h with h | h
      · rw [hbv] at h; cases h
      · obtain ⟨b0, rfl⟩ := exists_fin_of_valid hbv
        rw [hstep b0 rfl]
        have hl0 : l = [] := List.eq_nil_iff_forall_not_mem.mpr fun i hi => h i ((husable i).mpr hi)
        have hr0 : r = [] := List.eq_nil_iff_forall_not_mem.mpr fun i hi => by
          have := hr3 i hi; rw [hl0] at this; simp at this
        rw [hr0]
        by_cases h0 : idx.length = 0
        · rw [if_pos h0]
        · rw [if_neg h0, if_pos List.length_nil]
  · rintro b0 rfl ⟨i0, hi0⟩
    have hl0 : l ≠ [] := fun h => by have := (husable i0).mp hi0; rw [h] at this; simp at this
    have hr0 := hr5 hl0
    have hi0 : idx.length ≠ 0 := fun h => hl0 (by
      rw [List.length_eq_zero_iff] at h
      rw [h] at hl2
      exact List.sublist_nil.mp hl2)
    have hrl : r.length ≠ 0 := by simpa using hr0
    rw [hstep b0 rfl, if_neg hi0, if_neg hrl]
    have hrows : mapM (oiRow T s pts pobs pratios pbg (rhoPairs (G y) r)) (rhoPairs (G y) r) =
        ok (selRows (fun a : Fin r.length => r.get a) P ratio d) := by
      have hrs : ∀ i ∈ r, i < points.size := fun i hi => hlt i (hl2.subset (hr3 i hi))
      have e : selRows (fun a : Fin r.length => r.get a) P ratio d =
          (rhoPairs (G y) r).map fun e => (fin (d e.2), fin (ratio e.2), r.map fun j => fin (P e.2 j)) := by
        apply List.ext_getElem
        · simp
        · intro i h1 h2
          simp only [List.getElem_ofFn, List.getElem_map, List.get_eq_getElem, Prod.mk.injEq, true_and]
          apply List.ext_getElem
          · simp
          · intro j h3 h4; simp
      rw [e]
      apply mapM_ok
      intro e he
      obtain ⟨i, hi, rfl⟩ := List.mem_map.mp he
      obtain ⟨-, ⟨o, ho⟩, ⟨bb, hbb⟩, -⟩ := (hl3 i).mp (hr3 i hi)
      exact oiRow_eq hw hc hpts r hrs (G y) i (hrs i hi) o bb ho hbb (hd i o bb ho hbb) (hrat i o bb ho hbb)
    rw [hrows, ok_bind, rhoPairs_ofFn]
    refine ⟨r.length, fun a => r.get a, by omega, ⟨?_, ?_, ?_, ?_⟩, ?_, ?_⟩
    · exact List.nodup_iff_injective_get.mp hr2
    · intro a
      exact (husable _).mpr (hr3 _ (List.get_mem r a))
    · rcases hr4 with h | h
      · left; omega
      · right; omega
    · intro i hi
      rcases hr6 i ((husable i).mp hi) with h | ⟨h1, h2, h3⟩
      · left
        obtain ⟨a, ha⟩ := List.get_of_mem h
        exact ⟨a, ha⟩
      · right
        exact ⟨by omega, by omega, fun a => h3 _ (List.get_mem r a)⟩
    · intro hdet
      obtain ⟨w, h1, inc, h2, h3⟩ := oiSolve_ok hA (by omega : 0 < r.length) (fun a => r.get a) (G y) P ratio d extrap hdet
      refine ⟨w, h1, inc, ?_, h3⟩
      rw [h2, ok_bind]
      simp [one_def]
    · intro hdet
      rw [oiSolve_singular hA _ _ _ _ _ _ hdet]
      rfl

end
end Gridpp
