import Verif.Props.Gridding
import Verif.Props.Fill
import Verif.Model.NeighbourhoodScore

/-! C184: gridding, counting and filling do not depend on the order of the points. -/

set_option linter.unusedSectionVars false

namespace Gridpp.Spec

/-- `π` rearranges the numbers below `n`. -/
def Rearranges (π : Nat → Nat) (n : Nat) : Prop := ((List.range n).map π).Perm (List.range n)

/-- `b` has at place `i` what `a` has at place `π i`. -/
def Renumbered {α : Type} (π : Nat → Nat) (a b : List α) : Prop := b.length = a.length ∧ ∀ i < a.length, b[i]? = a[π i]?

end Gridpp.Spec

namespace Gridpp.Props
open Fl Res Spec

/-! ### Rearrangements -/

theorem Rearranges.lt {π : Nat → Nat} {n : Nat} (h : Rearranges π n) {i : Nat} (hi : i < n) : π i < n := by
  have : π i ∈ (List.range n).map π := List.mem_map_of_mem (List.mem_range.mpr hi)
  exact List.mem_range.mp (h.mem_iff.mp this)

theorem Rearranges.inj {π : Nat → Nat} {n : Nat} (h : Rearranges π n) {i j : Nat} (hi : i < n) (hj : j < n) (e : π i = π j) : i = j :=
  List.inj_on_of_nodup_map (h.nodup_iff.mpr List.nodup_range) (List.mem_range.mpr hi) (List.mem_range.mpr hj) e

theorem Rearranges.surj {π : Nat → Nat} {n : Nat} (h : Rearranges π n) {j : Nat} (hj : j < n) : ∃ i < n, π i = j := by
  have : j ∈ (List.range n).map π := h.mem_iff.mpr (List.mem_range.mpr hj)
  obtain ⟨i, hi, e⟩ := List.mem_map.mp this
  exact ⟨i, List.mem_range.mp hi, e⟩

section
variable {K : Type} [Field K] [LinearOrder K] [IsStrictOrderedRing K] [HasGeo K]

theorem located_renumbered {π : Nat → Nat} {lats lons lats' lons' : List (Fl K)} (hl : lons.length = lats.length)
    (h1 : Renumbered π lats lats') (h2 : Renumbered π lons lons') (type : CoordType) (i : Nat) (q : Pt3 K) :
    Located lats' lons' type i q ↔ i < lats.length ∧ Located lats lons type (π i) q := by
  unfold Located
  constructor
  · rintro ⟨la, lo, a, b, c⟩
    have hi : i < lats.length := by
      have := (List.getElem?_eq_some_iff.mp a).1
      rw [h1.1] at this; exact this
    rw [h1.2 i hi] at a
    rw [h2.2 i (by omega)] at b
    exact ⟨hi, la, lo, a, b, c⟩
  · rintro ⟨hi, la, lo, a, b, c⟩
    exact ⟨la, lo, by rw [h1.2 i hi]; exact a, by rw [h2.2 i (by omega)]; exact b, c⟩

theorem neighbours_renumbered [HasSqrt K] {π : Nat → Nat} {lats lons lats' lons' : List (Fl K)} (hπ : Rearranges π lats.length)
    (hl : lons.length = lats.length) (h1 : Renumbered π lats lats') (h2 : Renumbered π lons lons') {type : CoordType} {p : Pt3 K} {radius : Fl K}
    {l : List Nat} (h : IsNeighbours lats' lons' type p radius l) :
    IsNeighbours lats lons type p radius (l.map π) ∧ ∀ i ∈ l, i < lats.length := by
  have hlt : ∀ i ∈ l, i < lats.length := by
    intro i hi
    obtain ⟨q, hq, -⟩ := (h.2 i).mp hi
    exact ((located_renumbered hl h1 h2 type i q).mp hq).1
  refine ⟨⟨?_, fun j => ?_⟩, hlt⟩
  · exact (List.nodup_map_iff_inj_on h.1).mpr fun i hi j hj e => Rearranges.inj hπ (hlt i hi) (hlt j hj) e
  · rw [List.mem_map]
    constructor
    · rintro ⟨i, hi, rfl⟩
      obtain ⟨q, hq, hw⟩ := (h.2 i).mp hi
      exact ⟨q, ((located_renumbered hl h1 h2 type i q).mp hq).2, hw⟩
    · rintro ⟨q, hq, hw⟩
      obtain ⟨i, hi, rfl⟩ := Rearranges.surj hπ hq.lt
      exact ⟨i, (h.2 i).mpr ⟨q, (located_renumbered hl h1 h2 type i q).mpr ⟨hi, hq⟩, hw⟩, rfl⟩

theorem values_renumbered {π : Nat → Nat} {values values' : List (Fl K)} (h : Renumbered π values values') (l : List Nat) (hl : ∀ i ∈ l, i < values.length) :
    (l.filterMap fun i => values'[i]?) = (l.map π).filterMap fun i => values[i]? := by
  rw [List.filterMap_map]
  refine List.filterMap_congr fun i hi => ?_
  exact h.2 i (hl i hi)

theorem aggregated_renumbered [FloorRing K] [HasSqrt K] {π : Nat → Nat} {lats lons lats' lons' values values' : List (Fl K)} (hπ : Rearranges π lats.length)
    (hl : lons.length = lats.length) (hn : values.length = lats.length) (h1 : Renumbered π lats lats') (h2 : Renumbered π lons lons')
    (h3 : Renumbered π values values') {rnd : Rnd K} {type : CoordType} {radius : Fl K} {minNum : Int} {s : Statistic} {la lo v v' : Fl K}
    (h : Aggregated rnd lats lons type values radius minNum s la lo v) (h' : Aggregated rnd lats' lons' type values' radius minNum s la lo v') : v' = v := by
  obtain ⟨p, hp, -, hv⟩ := h
  obtain ⟨p', hp', ⟨l, hl'⟩, hv'⟩ := h'
  rw [hp] at hp'
  cases hp'
  obtain ⟨m1, m2⟩ := neighbours_renumbered hπ hl h1 h2 hl'
  have a := hv _ m1
  have a' := hv' _ hl'
  rw [List.length_map] at a
  by_cases hm : minNum ≤ l.length
  · have e1 := a.1 hm
    have e2 := a'.1 hm
    rw [values_renumbered h3 l (by rw [hn]; exact m2), e1] at e2
    cases e2; rfl
  · rw [a.2 (by omega), a'.2 (by omega)]

theorem fieldSat_unique {olats olons : List (List (Fl K))} {oY oX : Nat} {P Q : Fl K → Fl K → Fl K → Prop} {out out' : List (List (Fl K))}
    (h : FieldSat olats olons oY oX P out) (h' : FieldSat olats olons oY oX Q out') (hu : ∀ la lo v v', P la lo v → Q la lo v' → v' = v) : out' = out := by
  refine h'.1.ext h.1 fun y hy x hx => ?_
  obtain ⟨la, lo, v, a1, a2, a3, a4⟩ := h.2 y hy x hx
  obtain ⟨la', lo', v', b1, b2, b3, b4⟩ := h'.2 y hy x hx
  rw [a1] at b1; rw [a2] at b2
  cases b1; cases b2
  rw [a3, b3, hu _ _ _ _ a4 b4]

theorem vecSat_unique {olats olons : List (Fl K)} {P Q : Fl K → Fl K → Fl K → Prop} {out out' : List (Fl K)}
    (h : VecSat olats olons P out) (h' : VecSat olats olons Q out') (hu : ∀ la lo v v', P la lo v → Q la lo v' → v' = v) : out' = out := by
  apply List.ext_getElem?
  intro i
  by_cases hi : i < olats.length
  · obtain ⟨la, lo, v, a1, a2, a3, a4⟩ := h.2 i hi
    obtain ⟨la', lo', v', b1, b2, b3, b4⟩ := h'.2 i hi
    rw [a1] at b1; rw [a2] at b2
    cases b1; cases b2
    rw [a3, b3, hu _ _ _ _ a4 b4]
  · rw [List.getElem?_eq_none (by rw [h'.1]; omega), List.getElem?_eq_none (by rw [h.1]; omega)]

end

section
variable {K : Type} [Field K] [LinearOrder K] [IsStrictOrderedRing K] [HasGeo K]
variable {T : RTree K} (hT : T.Lawful) [LawfulSqrt K] [FloorRing K]
include hT

/-! ### Gridding -/

/-- **C184**, gridding: listing the points (with their values) in another order gives the same result, whatever the values, the
radius and the number; wrong sizes, radii and numbers are reported in both orders. -/
theorem c184_gridding {π : Nat → Nat} {P P' O : Points K} {lats lons lats' lons' olats olons : List (Fl K)} {type otype : CoordType}
    (hP : BuiltPoints P lats lons type) (hP' : BuiltPoints P' lats' lons' type) (hO : BuiltPoints O olats olons otype)
    {g : Grid K} {Y X : Nat} {glats glons : List (List (Fl K))} {gtype : CoordType} (hg : BuiltGrid g Y X glats glons gtype)
    (hvg : GridValidIn type glats glons) (hvo : PointsValidIn type olats olons)
    (hπ : Rearranges π lats.length) (h1 : Renumbered π lats lats') (h2 : Renumbered π lons lons') {values values' : List (Fl K)}
    (h3 : Renumbered π values values') (rnd : Rnd K) (radius : Fl K) (minNum : Int) {s : Statistic} (hs : Deterministic s) :
    griddingG T rnd g P' values' radius minNum s = griddingG T rnd g P values radius minNum s ∧
    griddingP T rnd O P' values' radius minNum s = griddingP T rnd O P values radius minNum s := by
  have hl := hP.wf.2.2.2.2.2.2
  by_cases hb : values.length ≠ lats.length ∨ radius.isValid = false ∨ radius.lt 0 = true ∨ minNum < 0
  · obtain ⟨a1, a2⟩ := c40_throws (T := T) g O hP rnd values radius minNum s hb
    obtain ⟨b1, b2⟩ := c40_throws (T := T) g O hP' rnd values' radius minNum s (by rw [h3.1, h1.1]; exact hb)
    rw [a1, a2, b1, b2]
    exact ⟨rfl, rfl⟩
  · simp only [not_or, ne_eq, not_not, Bool.not_eq_false, not_lt] at hb
    obtain ⟨hn, hr, hr0, hm⟩ := hb
    obtain ⟨r, rfl⟩ := exists_fin_of_valid hr
    have hr0 : 0 ≤ r := by
      by_contra hneg
      exact hr0 (by simpa using not_le.mp hneg)
    have hn' : values'.length = lats'.length := by rw [h3.1, h1.1, hn]
    obtain ⟨o1, a1, a2⟩ := c40_grid hT hg hP hvg rnd values hn r hr0 minNum hm s hs
    obtain ⟨o2, b1, b2⟩ := c40_grid hT hg hP' hvg rnd values' hn' r hr0 minNum hm s hs
    obtain ⟨o3, a3, a4⟩ := c40_points hT hO hP hvo rnd values hn r hr0 minNum hm s hs
    obtain ⟨o4, b3, b4⟩ := c40_points hT hO hP' hvo rnd values' hn' r hr0 minNum hm s hs
    rw [a1, b1, a3, b3]
    exact ⟨congrArg ok (fieldSat_unique a2 b2 fun la lo v v' u u' => aggregated_renumbered hπ hl hn h1 h2 h3 u u'),
      congrArg ok (vecSat_unique a4 b4 fun la lo v v' u u' => aggregated_renumbered hπ hl hn h1 h2 h3 u u')⟩

/-! ### Gridding to the nearest -/

omit hT in
theorem griddingNearestG_of {g : Grid K} {Y X : Nat} {glats glons : List (List (Fl K))} {gtype : CoordType} (hg : BuiltGrid g Y X glats glons gtype)
    {P : Points K} {lats lons : List (Fl K)} {type : CoordType} (hP : BuiltPoints P lats lons type)
    {values : List (Fl K)} (hl : values.length = lats.length) {near : Nat → Nat × Nat}
    (hnear : ∀ i la lo, lats[i]? = some la → lons[i]? = some lo → nearestCell T g la lo = ok (near i) ∧ (near i).1 < Y ∧ (near i).2 < X ∧ True)
    (rnd : Rnd K) {minNum : Int} (hm : 0 ≤ minNum) {s : Statistic} (hs : Deterministic s) :
    ∃ out, griddingNearestG T rnd g P values minNum s = ok out ∧ Rect Y X out ∧
      ∀ y < Y, ∀ x < X, ∃ v, cell? out y x = some v ∧ GroupStat rnd near values minNum s (y, x) v := by
  obtain ⟨e1, e2, -, -, -, -, e7⟩ := hP.wf
  obtain ⟨temp, t1, t2, t3⟩ : ∃ temp, assignCells T g P values Y X = ok temp ∧ Rect Y X temp ∧
      ∀ y < Y, ∀ x < X, cell? temp y x = some (groupOf near values values.length (y, x)) := by
    unfold assignCells
    refine foldM_upto_inv (P := fun n temp => Rect Y X temp ∧ ∀ y < Y, ∀ x < X, cell? temp y x = some (groupOf near values n (y, x)))
      values.length ⟨rect_initVec2 _ _ _, fun y hy x hx => ?_⟩ ?_
    · rw [cell?_initVec2 _ hy hx]; rfl
    · intro i hi temp ⟨hR, hC⟩
      have a1 : lats[i]? = some (lats[i]'(by omega)) := List.getElem?_eq_getElem _
      have a2 : lons[i]? = some (lons[i]'(by omega)) := List.getElem?_eq_getElem _
      have a3 : values[i]? = some values[i] := List.getElem?_eq_getElem hi
      obtain ⟨c1, c2, c3, -⟩ := hnear i _ _ a1 a2
      obtain ⟨t', u1, u2, u3⟩ := push2_rect hR c2 c3 values[i]
      refine ⟨t', ?_, u2, fun y hy x hx => ?_⟩
      · rw [e1, e2, vget_nat_eq_ok.mpr a1, ok_bind, vget_nat_eq_ok.mpr a2, ok_bind, c1, ok_bind, vget_nat_eq_ok.mpr a3, ok_bind, u1]
      · rw [u3, groupOf_succ near values i (y, x) _ a3]
        by_cases h : near i = (y, x)
        · rw [if_pos (by rw [h]; exact ⟨rfl, rfl⟩), if_pos h, hC _ c2 _ c3]
          simp [h]
        · rw [if_neg, if_neg h, hC y hy x hx]
          rintro ⟨h1, h2⟩
          exact h (Prod.ext h1.symm h2.symm)
  obtain ⟨out, o1, o2, o3⟩ := grid2_exists (Y := Y) (X := X) (f := fun y x => do
      let curr ← vget2 temp y x
      griddingNearestAt rnd minNum s curr) (P := fun y x v => GroupStat rnd near values minNum s (y, x) v) (by
    intro y hy x hx
    obtain ⟨v, v1, v2⟩ := griddingNearestAt_ok rnd near values minNum s hs (y, x)
    obtain ⟨c, c1, c2⟩ := vget2_of_rect t2 hy hx
    rw [t3 y hy x hx] at c1
    cases c1
    exact ⟨v, by simp only [c2, ok_bind, v1], v2⟩)
  refine ⟨out, ?_, o2, fun y hy x hx => ?_⟩
  · have hsz : compatibleSizeP1 P values = true := by
      unfold compatibleSizeP1 Points.size
      rw [e1, hl]; simp
    unfold griddingNearestG griddingNearestChecks
    rw [if_neg (by simp [hsz]), if_neg (by omega), ok_bind, hg.wf.1.size, ok_bind, t1, ok_bind, o1]
    rfl
  · obtain ⟨v, v1, -, v2⟩ := o3 y hy x hx
    exact ⟨v, v1, v2⟩

omit hT in
theorem griddingNearestP_of {O : Points K} {olats olons : List (Fl K)} {otype : CoordType} (hO : BuiltPoints O olats olons otype)
    {P : Points K} {lats lons : List (Fl K)} {type : CoordType} (hP : BuiltPoints P lats lons type)
    {values : List (Fl K)} (hl : values.length = lats.length) {near : Nat → Nat}
    (hnear : ∀ i la lo, lats[i]? = some la → lons[i]? = some lo → O.getNearestNeighbour T la lo true = ok (near i : Int) ∧ near i < olats.length ∧ True)
    (rnd : Rnd K) {minNum : Int} (hm : 0 ≤ minNum) {s : Statistic} (hs : Deterministic s) :
    ∃ out, griddingNearestP T rnd O P values minNum s = ok out ∧ out.length = olats.length ∧
      ∀ j < olats.length, ∃ v, out[j]? = some v ∧ GroupStat rnd near values minNum s j v := by
  obtain ⟨e1, e2, -, -, -, -, e7⟩ := hP.wf
  obtain ⟨f1, -⟩ := hO.wf
  obtain ⟨temp, t1, t2, t3⟩ : ∃ temp, assignPoints T O P values = ok temp ∧ temp.length = olats.length ∧
      ∀ j < olats.length, temp[j]? = some (groupOf near values values.length j) := by
    unfold assignPoints
    refine foldM_upto_inv (P := fun n (temp : List (List (Fl K))) => temp.length = olats.length ∧ ∀ j < olats.length, temp[j]? = some (groupOf near values n j))
      values.length ⟨by simp [Points.size, f1], fun j hj => ?_⟩ ?_
    · rw [Points.size, f1, List.getElem?_replicate, if_pos hj]; rfl
    · intro i hi temp ⟨hR, hC⟩
      have a1 : lats[i]? = some (lats[i]'(by omega)) := List.getElem?_eq_getElem _
      have a2 : lons[i]? = some (lons[i]'(by omega)) := List.getElem?_eq_getElem _
      have a3 : values[i]? = some values[i] := List.getElem?_eq_getElem hi
      obtain ⟨c1, c2, -⟩ := hnear i _ _ a1 a2
      obtain ⟨t', u1, u2, u3⟩ := push1_ok (temp := temp) (by rw [hR]; exact c2) values[i]
      refine ⟨t', ?_, u2.trans hR, fun j hj => ?_⟩
      · rw [e1, e2, vget_nat_eq_ok.mpr a1, ok_bind, vget_nat_eq_ok.mpr a2, ok_bind, c1, ok_bind, vget_nat_eq_ok.mpr a3, ok_bind, u1]
      · rw [u3, groupOf_succ near values i j _ a3]
        by_cases h : near i = j
        · rw [if_pos h.symm, if_pos h, hC _ c2]
          simp [h]
        · rw [if_neg (Ne.symm h), if_neg h, hC j hj]
  obtain ⟨out, o1, o2, o3⟩ := mapM_upto_exists (n := olats.length) (f := fun n : Int => do
      let curr ← vget temp n
      griddingNearestAt rnd minNum s curr) (P := fun j v => GroupStat rnd near values minNum s j v) (by
    intro j hj
    obtain ⟨v, v1, v2⟩ := griddingNearestAt_ok rnd near values minNum s hs j
    exact ⟨v, by simp only [vget_nat_eq_ok.mpr (t3 j hj), ok_bind, v1], v2⟩)
  refine ⟨out, ?_, o2, fun j hj => ?_⟩
  · have hsz : compatibleSizeP1 P values = true := by
      unfold compatibleSizeP1 Points.size
      rw [e1, hl]; simp
    unfold griddingNearestP griddingNearestChecks
    rw [if_neg (by simp [hsz]), if_neg (by omega), ok_bind, t1, ok_bind, Points.size, f1, o1]
    rfl
  · obtain ⟨v, v1, -, v2⟩ := o3 j hj
    exact ⟨v, v1, v2⟩

omit hT in
theorem groupStat_renumbered {ι : Type} [DecidableEq ι] {π : Nat → Nat} {near : Nat → ι} {values values' : List (Fl K)} (hπ : Rearranges π values.length)
    (h3 : Renumbered π values values') {rnd : Rnd K} {minNum : Int} {s : Statistic} (hs : Deterministic s) {c : ι} {v v' : Fl K}
    (h : GroupStat rnd near values minNum s c v) (h' : GroupStat rnd (fun i => near (π i)) values' minNum s c v') : v' = v := by
  have hp : (((List.range values'.length).filter fun i => near (π i) = c).filterMap fun i => values'[i]?).Perm
      (((List.range values.length).filter fun i => near i = c).filterMap fun i => values[i]?) := by
    rw [h3.1, values_renumbered h3 _ (fun i hi => List.mem_range.mp (List.mem_filter.mp hi).1)]
    refine List.Perm.filterMap _ ?_
    have : ((List.range values.length).filter fun i => near (π i) = c).map π = ((List.range values.length).map π).filter fun i => near i = c := by
      rw [List.filter_map]; rfl
    rw [this]
    exact hπ.filter _
  unfold GroupStat at h h'
  simp only at h h'
  generalize (((List.range values'.length).filter fun i => near (π i) = c).filterMap fun i => values'[i]?) = a' at hp h'
  generalize (((List.range values.length).filter fun i => near i = c).filterMap fun i => values[i]?) = a at hp h
  have hlen := hp.length_eq
  by_cases hb : a = [] ∨ (a.length : Int) < minNum
  · rw [h.1 hb, h'.1 (by
      rcases hb with hb | hb
      · left; subst hb; exact List.length_eq_zero_iff.mp (by simpa using hlen)
      · right; rw [hlen]; exact hb)]
  · rw [not_or, not_lt] at hb
    have e1 := h.2 hb.1 hb.2
    have e2 := h'.2 (fun k => hb.1 (by subst k; exact List.length_eq_zero_iff.mp (by simpa using hlen.symm))) (by rw [hlen]; exact hb.2)
    rw [c01_only_valid_multiset rnd a' a s hs (hp.filter _), e1] at e2
    cases e2; rfl

theorem griddingNearestG_renumbered {π : Nat → Nat} {P P' : Points K} {lats lons lats' lons' : List (Fl K)} {type : CoordType}
    (hP : BuiltPoints P lats lons type) (hP' : BuiltPoints P' lats' lons' type)
    {g : Grid K} {Y X : Nat} {glats glons : List (List (Fl K))} {gtype : CoordType} (hg : BuiltGrid g Y X glats glons gtype)
    (hvg : PointsValidIn gtype lats lons)
    (hπ : Rearranges π lats.length) (h1 : Renumbered π lats lats') (h2 : Renumbered π lons lons') {values values' : List (Fl K)}
    (h3 : Renumbered π values values') (rnd : Rnd K) (minNum : Int) {s : Statistic} (hs : Deterministic s) :
    griddingNearestG T rnd g P' values' minNum s = griddingNearestG T rnd g P values minNum s := by
  have hl := hP.wf.2.2.2.2.2.2
  by_cases hb : values.length ≠ lats.length ∨ minNum < 0
  · obtain ⟨a1, a2⟩ := c41_throws (T := T) g P hP rnd values minNum s hb
    obtain ⟨b1, b2⟩ := c41_throws (T := T) g P hP' rnd values' minNum s (by rw [h3.1, h1.1]; exact hb)
    rw [a1, b1]
  · simp only [not_or, ne_eq, not_not, not_lt] at hb
    obtain ⟨hn, hm⟩ := hb
    have hn' : values'.length = lats'.length := by rw [h3.1, h1.1, hn]
    have back : ∀ i la lo, lats'[i]? = some la → lons'[i]? = some lo → lats[π i]? = some la ∧ lons[π i]? = some lo := by
      intro i la lo a b
      have hi : i < lats.length := by
        have := (List.getElem?_eq_some_iff.mp a).1
        rw [h1.1] at this; exact this
      rw [h1.2 i hi] at a
      rw [h2.2 i (by omega)] at b
      exact ⟨a, b⟩
    have hc : ∀ i : Nat, ∃ c : Nat × Nat, ∀ la lo, lats[i]? = some la → lons[i]? = some lo →
        nearestCell T g la lo = ok c ∧ c.1 < Y ∧ c.2 < X ∧ True := by
      intro i
      by_cases hi : i < lats.length
      · have a1 : lats[i]? = some lats[i] := List.getElem?_eq_getElem hi
        have a2 : lons[i]? = some (lons[i]'(by omega)) := List.getElem?_eq_getElem _
        obtain ⟨c, c1, c2, c3, -⟩ := nearestCell_to hT hg (hvg i _ _ a1 a2)
        refine ⟨c, fun la' lo' b1 b2 => ?_⟩
        rw [a1] at b1; rw [a2] at b2; cases b1; cases b2
        exact ⟨c1, c2, c3, trivial⟩
      · exact ⟨(0, 0), fun la lo b1 _ => absurd (List.getElem?_eq_some_iff.mp b1).1 hi⟩
    choose near hnear using hc
    obtain ⟨o1, a1, a2, a3⟩ := griddingNearestG_of hg hP hn hnear rnd hm hs
    obtain ⟨o2, b1, b2, b3⟩ := griddingNearestG_of hg hP' hn' (near := fun i => near (π i))
      (fun i la lo a b => hnear (π i) la lo (back i la lo a b).1 (back i la lo a b).2) rnd hm hs
    rw [a1, b1]
    refine congrArg ok (b2.ext a2 fun y hy x hx => ?_)
    obtain ⟨v, u1, u2⟩ := a3 y hy x hx
    obtain ⟨v', w1, w2⟩ := b3 y hy x hx
    rw [u1, w1, groupStat_renumbered (by rw [hn]; exact hπ) h3 hs u2 w2]

/-- **C184**, gridding to the nearest cell or point: the order of the points with their values does not matter. -/
theorem c184_gridding_nearest {π : Nat → Nat} {P P' O : Points K} {lats lons lats' lons' olats olons : List (Fl K)} {type otype : CoordType}
    (hP : BuiltPoints P lats lons type) (hP' : BuiltPoints P' lats' lons' type) (hO : BuiltPoints O olats olons otype) (hne : 0 < olats.length)
    {g : Grid K} {Y X : Nat} {glats glons : List (List (Fl K))} {gtype : CoordType} (hg : BuiltGrid g Y X glats glons gtype)
    (hvg : PointsValidIn gtype lats lons) (hvo : PointsValidIn otype lats lons)
    (hπ : Rearranges π lats.length) (h1 : Renumbered π lats lats') (h2 : Renumbered π lons lons') {values values' : List (Fl K)}
    (h3 : Renumbered π values values') (rnd : Rnd K) (minNum : Int) {s : Statistic} (hs : Deterministic s) :
    griddingNearestG T rnd g P' values' minNum s = griddingNearestG T rnd g P values minNum s ∧
    griddingNearestP T rnd O P' values' minNum s = griddingNearestP T rnd O P values minNum s := by
  refine ⟨griddingNearestG_renumbered hT hP hP' hg hvg hπ h1 h2 h3 rnd minNum hs, ?_⟩
  have hl := hP.wf.2.2.2.2.2.2
  by_cases hb : values.length ≠ lats.length ∨ minNum < 0
  · obtain ⟨a1, a2⟩ := c41_throws (T := T) g O hP rnd values minNum s hb
    obtain ⟨b1, b2⟩ := c41_throws (T := T) g O hP' rnd values' minNum s (by rw [h3.1, h1.1]; exact hb)
    rw [a2, b2]
  · simp only [not_or, ne_eq, not_not, not_lt] at hb
    obtain ⟨hn, hm⟩ := hb
    have hn' : values'.length = lats'.length := by rw [h3.1, h1.1, hn]
    have back : ∀ i la lo, lats'[i]? = some la → lons'[i]? = some lo → lats[π i]? = some la ∧ lons[π i]? = some lo := by
      intro i la lo a b
      have hi : i < lats.length := by
        have := (List.getElem?_eq_some_iff.mp a).1
        rw [h1.1] at this; exact this
      rw [h1.2 i hi] at a
      rw [h2.2 i (by omega)] at b
      exact ⟨a, b⟩
    have hc : ∀ i : Nat, ∃ c : Nat, ∀ la lo, lats[i]? = some la → lons[i]? = some lo →
        O.getNearestNeighbour T la lo true = ok (c : Int) ∧ c < olats.length ∧ True := by
      intro i
      by_cases hi : i < lats.length
      · have a1 : lats[i]? = some lats[i] := List.getElem?_eq_getElem hi
        have a2 : lons[i]? = some (lons[i]'(by omega)) := List.getElem?_eq_getElem _
        obtain ⟨c, c1, c2, -⟩ := points_nearest_to hT hO hne (hvo i _ _ a1 a2)
        refine ⟨c, fun la' lo' b1 b2 => ?_⟩
        rw [a1] at b1; rw [a2] at b2; cases b1; cases b2
        exact ⟨c1, c2, trivial⟩
      · exact ⟨0, fun la lo b1 _ => absurd (List.getElem?_eq_some_iff.mp b1).1 hi⟩
    choose near hnear using hc
    obtain ⟨o1, a1, a2, a3⟩ := griddingNearestP_of hO hP hn hnear rnd hm hs
    obtain ⟨o2, b1, b2, b3⟩ := griddingNearestP_of hO hP' hn' (near := fun i => near (π i))
      (fun i la lo a b => hnear (π i) la lo (back i la lo a b).1 (back i la lo a b).2) rnd hm hs
    rw [a1, b1]
    refine congrArg ok (List.ext_getElem? fun j => ?_)
    by_cases hj : j < olats.length
    · obtain ⟨v, u1, u2⟩ := a3 j hj
      obtain ⟨v', w1, w2⟩ := b3 j hj
      rw [u1, w1, groupStat_renumbered (by rw [hn]; exact hπ) h3 hs u2 w2]
    · rw [List.getElem?_eq_none (by rw [b2]; omega), List.getElem?_eq_none (by rw [a2]; omega)]

/-- **C184**, neighbourhood scores: the order of the reference points does not matter, whatever the fields, metric, halfwidth and threshold. -/
theorem c184_score {π : Nat → Nat} {P P' : Points K} {lats lons lats' lons' : List (Fl K)} {type : CoordType}
    (hP : BuiltPoints P lats lons type) (hP' : BuiltPoints P' lats' lons' type)
    {g : Grid K} {Y X : Nat} {glats glons : List (List (Fl K))} {gtype : CoordType} (hg : BuiltGrid g Y X glats glons gtype)
    (hvg : PointsValidIn gtype lats lons)
    (hπ : Rearranges π lats.length) (h1 : Renumbered π lats lats') (h2 : Renumbered π lons lons') {ref ref' : List (Fl K)}
    (h3 : Renumbered π ref ref') (rnd : Rnd K) (fcst : List (List (Fl K))) (halfWidth : Int) (metric : Metric) (threshold : Fl K) :
    neighbourhoodScore T rnd g P' fcst ref' halfWidth metric threshold = neighbourhoodScore T rnd g P fcst ref halfWidth metric threshold := by
  have h := griddingNearestG_renumbered hT hP hP' hg hvg hπ h1 h2 h3 rnd 1 (s := .mean) (by simp [Deterministic])
  unfold neighbourhoodScore
  rw [h]

/-! ### Counting and filling -/

/-- **C184**, counting: the number of points within the radius does not depend on their order. -/
theorem c184_count {π : Nat → Nat} {P P' O : Points K} {lats lons lats' lons' olats olons : List (Fl K)} {type otype : CoordType}
    (hP : BuiltPoints P lats lons type) (hP' : BuiltPoints P' lats' lons' type) (hO : BuiltPoints O olats olons otype)
    {g : Grid K} {Y X : Nat} {glats glons : List (List (Fl K))} {gtype : CoordType} (hg : BuiltGrid g Y X glats glons gtype)
    (hvg : GridValidIn type glats glons) (hvo : PointsValidIn type olats olons)
    (hπ : Rearranges π lats.length) (h1 : Renumbered π lats lats') (h2 : Renumbered π lons lons') (radius : Fl K) :
    countPG T P' g radius = countPG T P g radius ∧ countPP T P' O radius = countPP T P O radius := by
  have hl := hP.wf.2.2.2.2.2.2
  have hu : ∀ la lo v v', CountsPoints lats lons type radius la lo v → CountsPoints lats' lons' type radius la lo v' → v' = v := by
    rintro la lo v v' ⟨p, l, hp, hn, rfl⟩ ⟨p', l', hp', hn', rfl⟩
    rw [hp] at hp'
    cases hp'
    have h := (neighbours_renumbered hπ hl h1 h2 hn').1
    have : (l'.map π).Perm l := (List.perm_ext_iff_of_nodup h.1 hn.1).mpr fun i => by rw [h.2, hn.2]
    have hlen := this.length_eq
    rw [List.length_map] at hlen
    rw [hlen]
  obtain ⟨-, -, a1, a2⟩ := c42_count hT hg hg hP hO radius
  obtain ⟨-, -, b1, b2⟩ := c42_count hT hg hg hP' hO radius
  obtain ⟨o1, a3, a4⟩ := a1 hvg
  obtain ⟨o2, a5, a6⟩ := a2 hvo
  obtain ⟨o3, b3, b4⟩ := b1 hvg
  obtain ⟨o4, b5, b6⟩ := b2 hvo
  rw [a3, a5, b3, b5]
  exact ⟨congrArg ok (fieldSat_unique a4 b4 hu), congrArg ok (vecSat_unique a6 b6 hu)⟩

/-- **C184**, filling: the order of the points with their radii does not matter, also when the radii are reported. -/
theorem c184_fill {π : Nat → Nat} {g : Grid K} {Y X : Nat} {lats lons : List (List (Fl K))} {type : CoordType} (hg : BuiltGrid g Y X lats lons type)
    {P P' : Points K} {plats plons plats' plons' : List (Fl K)} {ptype : CoordType} (hP : BuiltPoints P plats plons ptype)
    (hP' : BuiltPoints P' plats' plons' ptype) (hv : PointsValidIn type plats plons) (input : List (List (Fl K))) (hi : Rect Y X input)
    (hπ : Rearranges π plats.length) (h1 : Renumbered π plats plats') (h2 : Renumbered π plons plons') {radii radii' : List (Fl K)}
    (h3 : Renumbered π radii radii') (value : Fl K) (outside : Bool) :
    fill T g input P' radii' value outside = fill T g input P radii value outside := by
  have hl := hP.wf.2.2.2.2.2.2
  have hsz : P.size = plats.length := congrArg List.length hP.wf.1
  have hsz' : P'.size = plats.length := (congrArg List.length hP'.wf.1).trans h1.1
  by_cases hr : radii.length = plats.length
  case neg =>
    rw [c38_throws T hg P input radii value outside (Or.inl fun e => hr (by rw [← e, hsz])),
      c38_throws T hg P' input radii' value outside (Or.inl fun e => hr (by rw [← h3.1, ← e, hsz']))]
  by_cases hr0 : ∀ r ∈ radii, r.lt 0 = false
  case neg =>
    have hneg : ∃ r ∈ radii, r.lt 0 = true := by
      simp only [not_forall, Bool.not_eq_false] at hr0
      obtain ⟨r, a, b⟩ := hr0
      exact ⟨r, a, b⟩
    have hneg' : ∃ r ∈ radii', r.lt 0 = true := by
      obtain ⟨r, hm, hb⟩ := hneg
      obtain ⟨j, hj, e⟩ := List.mem_iff_getElem.mp hm
      obtain ⟨i, hi, rfl⟩ := Rearranges.surj hπ (hr ▸ hj)
      have : radii'[i]? = some r := by rw [h3.2 i (by omega), List.getElem?_eq_getElem hj, e]
      exact ⟨r, List.mem_of_getElem? this, hb⟩
    rw [c38_throws T hg P input radii value outside (Or.inr (Or.inl hneg)),
      c38_throws T hg P' input radii' value outside (Or.inr (Or.inl hneg'))]
  have hv' : PointsValidIn type plats' plons' := by
    intro i la lo a b
    have hi : i < plats.length := by
      have := (List.getElem?_eq_some_iff.mp a).1
      rw [h1.1] at this; exact this
    rw [h1.2 i hi] at a
    rw [h2.2 i (by omega)] at b
    exact hv _ _ _ a b
  have hr0' : ∀ r ∈ radii', r.lt 0 = false := by
    intro r hm
    obtain ⟨i, hi, e⟩ := List.mem_iff_getElem.mp hm
    have hi' : i < radii.length := by rw [← h3.1]; exact hi
    have : radii[π i]? = some r := by rw [← h3.2 i hi', List.getElem?_eq_getElem hi, e]
    exact hr0 r (List.mem_of_getElem? this)
  have hcov : ∀ y x, Covered lats lons type plats' plons' radii' y x ↔ Covered lats lons type plats plons radii y x := by
    intro y x
    constructor
    · rintro ⟨i, la, lo, r, a, b, c, e⟩
      have hi : i < plats.length := by
        have := (List.getElem?_eq_some_iff.mp a).1
        rw [h1.1] at this; exact this
      rw [h1.2 i hi] at a
      rw [h2.2 i (by omega)] at b
      rw [h3.2 i (by omega)] at c
      exact ⟨π i, la, lo, r, a, b, c, e⟩
    · rintro ⟨j, la, lo, r, a, b, c, e⟩
      obtain ⟨i, hi, rfl⟩ := Rearranges.surj hπ (List.getElem?_eq_some_iff.mp a).1
      exact ⟨i, la, lo, r, by rw [h1.2 i hi]; exact a, by rw [h2.2 i (by omega)]; exact b, by rw [h3.2 i (by omega)]; exact c, e⟩
  obtain ⟨o1, a1, a2, a3⟩ := c38_fill hT hg hP hv input hi radii hr hr0 value outside
  obtain ⟨o2, b1, b2, b3⟩ := c38_fill hT hg hP' hv' input hi radii' (by rw [h3.1, h1.1, hr]) hr0' value outside
  rw [a1, b1]
  refine congrArg ok (b2.ext a2 fun y hy x hx => ?_)
  by_cases hc : Covered lats lons type plats plons radii y x
  · rw [(a3 y hy x hx).1 hc, (b3 y hy x hx).1 ((hcov y x).mpr hc)]
  · rw [(a3 y hy x hx).2 hc, (b3 y hy x hx).2 (fun k => hc ((hcov y x).mp k))]

/-- **C184**, doping (partial): the order does not matter if observations whose circles share a cell are equal. Missing: circles that share a
cell with different observations, where the last one wins (`c184_doping_order`). The elevations of the points are moved along. -/
theorem c184_doping_partial {π : Nat → Nat} {g : Grid K} {Y X : Nat} {lats lons : List (List (Fl K))} {type : CoordType} (hg : BuiltGrid g Y X lats lons type)
    {P P' : Points K} {plats plons plats' plons' : List (Fl K)} {ptype : CoordType} (hP : BuiltPoints P plats plons ptype)
    (hP' : BuiltPoints P' plats' plons' ptype) (hv : PointsValidIn type plats plons) (bg : List (List (Fl K))) (hb : Rect Y X bg)
    (hπ : Rearranges π plats.length) (h1 : Renumbered π plats plats') (h2 : Renumbered π plons plons') {radii radii' obs obs' : List (Fl K)}
    (h3 : Renumbered π radii radii') (h4 : Renumbered π obs obs') (h5 : Renumbered π P.elevs P'.elevs)
    (ho : obs.length = plats.length) (hr : radii.length = plats.length) (hr0 : ∀ r ∈ radii, r.lt 0 = false) (m : Fl K) (hm : m.lt 0 = false)
    (hsame : ∀ (y x i j : Nat) (la lo r la' lo' r' : Fl K), plats[i]? = some la → plons[i]? = some lo → radii[i]? = some r →
      plats[j]? = some la' → plons[j]? = some lo' → radii[j]? = some r' →
      InCircle lats lons type la lo r (y, x) → InCircle lats lons type la' lo' r' (y, x) → obs[i]? = obs[j]?) :
    dopingCircle T g bg P' obs' radii' m = dopingCircle T g bg P obs radii m := by
  have hl := hP.wf.2.2.2.2.2.2
  have hlt : ∀ {i la}, plats'[i]? = some la → i < plats.length := by
    intro i la a
    have := (List.getElem?_eq_some_iff.mp a).1
    rw [h1.1] at this; exact this
  have hv' : PointsValidIn type plats' plons' := by
    intro i la lo a b
    have hi := hlt a
    rw [h1.2 i hi] at a
    rw [h2.2 i (by omega)] at b
    exact hv _ _ _ a b
  have hr0' : ∀ r ∈ radii', r.lt 0 = false := by
    intro r hm
    obtain ⟨i, hi, e⟩ := List.mem_iff_getElem.mp hm
    have hi' : i < radii.length := by rw [← h3.1]; exact hi
    have : radii[π i]? = some r := by rw [← h3.2 i hi', List.getElem?_eq_getElem hi, e]
    exact hr0 r (List.mem_of_getElem? this)
  have hel : P.elevs.length = plats.length := by
    obtain ⟨e, l, hp⟩ := hP
    exact (Points.new_ok hp).2.2.1
  obtain ⟨o1, a1, a2, a3⟩ := c39_circle hT hg hP hv bg hb obs ho radii hr hr0 m hm
  obtain ⟨o2, b1, b2, b3⟩ := c39_circle hT hg hP' hv' bg hb obs' (by rw [h4.1, h1.1, ho]) radii' (by rw [h3.1, h1.1, hr]) hr0' m hm
  rw [a1, b1]
  refine congrArg ok (b2.ext a2 fun y hy x hx => ?_)
  let cov : Nat → Prop := fun i => ∃ la lo r, plats[i]? = some la ∧ plons[i]? = some lo ∧ radii[i]? = some r ∧
    InCircle lats lons type la lo r (y, x) ∧ ObsNear g P m i y x
  let cov' : Nat → Prop := fun i => ∃ la lo r, plats'[i]? = some la ∧ plons'[i]? = some lo ∧ radii'[i]? = some r ∧
    InCircle lats lons type la lo r (y, x) ∧ ObsNear g P' m i y x
  have c1 := a3 y hy x hx cov fun i => Iff.rfl
  have c2 := b3 y hy x hx cov' fun i => Iff.rfl
  have hcov : ∀ i, i < plats.length → (cov' i ↔ cov (π i)) := by
    intro i hi
    have hnear : ObsNear g P' m i y x ↔ ObsNear g P m (π i) y x := by
      unfold ObsNear
      rw [h5.2 i (by rw [hel]; exact hi)]
    simp only [cov, cov', h1.2 i hi, h2.2 i (show i < plons.length by omega), h3.2 i (show i < radii.length by omega), hnear]
  have hb1 : ∀ i, cov i → i < plats.length := by
    rintro i ⟨la, lo, r, a, -⟩
    exact (List.getElem?_eq_some_iff.mp a).1
  have hb2 : ∀ i, cov' i → i < plats.length := by
    rintro i ⟨la, lo, r, a, -⟩
    exact hlt a
  -- the last of the covering observations
  have last : ∀ (c : Nat → Prop) (n : Nat), (∀ i, c i → i < n) → (∃ i, c i) → ∃ i, c i ∧ ∀ j, i < j → ¬ c j := by
    classical
    intro c n hn hex
    induction n with
    | zero =>
      obtain ⟨i, hi⟩ := hex
      exact absurd (hn i hi) (Nat.not_lt_zero i)
    | succ n ih =>
      by_cases hc : c n
      · exact ⟨n, hc, fun j hj hcj => by have := hn j hcj; omega⟩
      · refine ih fun i hi => ?_
        have := hn i hi
        rcases Nat.lt_succ_iff_lt_or_eq.mp this with h | h
        · exact h
        · subst h; exact absurd hi hc
  by_cases hex : ∃ i, cov i
  · obtain ⟨i, hi, hlast⟩ := last cov _ hb1 hex
    have hex' : ∃ i, cov' i := by
      obtain ⟨j, hj, e⟩ := Rearranges.surj hπ (hb1 i hi)
      exact ⟨j, (hcov j hj).mpr (e ▸ hi)⟩
    obtain ⟨j, hj, hlast'⟩ := last cov' _ hb2 hex'
    rw [c1.1 i hi hlast, c2.1 j hj hlast', h4.2 j (by rw [ho]; exact hb2 j hj)]
    obtain ⟨la, lo, r, p1, p2, p3, p4, -⟩ := (hcov j (hb2 j hj)).mp hj
    obtain ⟨la', lo', r', q1, q2, q3, q4, -⟩ := hi
    exact hsame y x _ _ la lo r la' lo' r' p1 p2 p3 q1 q2 q3 p4 q4
  · have hno : ∀ i, ¬ cov i := fun i hi => hex ⟨i, hi⟩
    rw [c1.2 hno, c2.2 fun i hi => hno _ ((hcov i (hb2 i hi)).mp hi)]

end

/-! ### Concrete cases -/

/-- A rotation of three places is a rearrangement, here of a list with a missing value; a constant is not. -/
theorem c184_case : Rearranges (fun i => (i + 1) % 3) 3 ∧ Renumbered (fun i => (i + 1) % 3) [fin (5 : ℚ), nan, fin 7] [nan, fin 7, fin 5] ∧
    ¬ Rearranges (fun _ => 0) 2 := by
  refine ⟨by unfold Rearranges; decide, ⟨rfl, ?_⟩, by unfold Rearranges; decide⟩
  intro i hi
  match i, hi with
  | 0, _ => rfl
  | 1, _ => rfl
  | 2, _ => rfl

/-- Means around two cells for three points in two orders; for doping the order matters, since the last observation wins. -/
theorem c184_doping_order :
    (do let g ← Grid.new [[fin (0 : ℚ), fin 0]] [[fin 0, fin 10]] [] [] .cartesian
        let p ← Points.new [fin 0, fin 0, fin 0] [fin 1, fin 9, fin 2] [] [] .cartesian
        griddingG RTree.scan (fun _ => 0) g p [fin 3, fin 5, fin 7] (fin 4) 1 .mean) = ok [[fin 5, fin 5]] ∧
    (do let g ← Grid.new [[fin (0 : ℚ), fin 0]] [[fin 0, fin 10]] [] [] .cartesian
        let p ← Points.new [fin 0, fin 0, fin 0] [fin 2, fin 1, fin 9] [] [] .cartesian
        griddingG RTree.scan (fun _ => 0) g p [fin 7, fin 3, fin 5] (fin 4) 1 .mean) = ok [[fin 5, fin 5]] ∧
    (do let g ← Grid.new [[fin (0 : ℚ), fin 0]] [[fin 0, fin 10]] [] [] .cartesian
        let p ← Points.new [fin 0, fin 0] [fin 1, fin 2] [] [] .cartesian
        dopingCircle RTree.scan g [[fin 0, fin 0]] p [fin 3, fin 7] [fin 4, fin 4] nan) = ok [[fin 7, fin 0]] ∧
    (do let g ← Grid.new [[fin (0 : ℚ), fin 0]] [[fin 0, fin 10]] [] [] .cartesian
        let p ← Points.new [fin 0, fin 0] [fin 2, fin 1] [] [] .cartesian
        dopingCircle RTree.scan g [[fin 0, fin 0]] p [fin 7, fin 3] [fin 4, fin 4] nan) = ok [[fin 3, fin 0]] := by decide +kernel

/-- Two observations whose circles share no cell, and one with the same value as its neighbour: the result is the same in both orders. -/
theorem c184_case_doping :
    (do let g ← Grid.new [[fin (0 : ℚ), fin 0, fin 0]] [[fin 0, fin 10, fin 20]] [] [] .cartesian
        let p ← Points.new [fin 0, fin 0, fin 0] [fin 1, fin 9, fin 2] [] [] .cartesian
        dopingCircle RTree.scan g [[fin 0, fin 0, fin 1]] p [fin 3, nan, fin 3] [fin 4, fin 4, fin 5] nan) = ok [[fin 3, nan, fin 1]] ∧
    (do let g ← Grid.new [[fin (0 : ℚ), fin 0, fin 0]] [[fin 0, fin 10, fin 20]] [] [] .cartesian
        let p ← Points.new [fin 0, fin 0, fin 0] [fin 9, fin 2, fin 1] [] [] .cartesian
        dopingCircle RTree.scan g [[fin 0, fin 0, fin 1]] p [nan, fin 3, fin 3] [fin 4, fin 5, fin 4] nan) = ok [[fin 3, nan, fin 1]] := by decide +kernel

end Gridpp.Props
