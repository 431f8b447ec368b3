import Verif.Lemmas.Gridding
import Verif.Props.Nearest
import Verif.Props.Stats

/-! # C40–C42: gridding, gridding_nearest, count

`IsNeighbours` lists the points that a radius query finds (see C12 for the meaning of `Within`). -/

set_option linter.unusedSectionVars false

namespace Gridpp.Props
open Fl Res

variable {K : Type} [Field K] [LinearOrder K] [IsStrictOrderedRing K] [HasGeo K]

/-- `l` lists, without repetition, the points within the radius of `p`. -/
def IsNeighbours [HasSqrt K] (lats lons : List (Fl K)) (type : CoordType) (p : Pt3 K) (radius : Fl K) (l : List Nat) : Prop :=
  l.Nodup ∧ ∀ i, i ∈ l ↔ ∃ q, Located lats lons type i q ∧ Within p q radius

/-- `l` lists, without repetition, the cells within the radius of `p`. -/
def IsNeighbourCells [HasSqrt K] (lats lons : List (List (Fl K))) (type : CoordType) (p : Pt3 K) (radius : Fl K) (l : List (Nat × Nat)) : Prop :=
  l.Nodup ∧ ∀ c, c ∈ l ↔ ∃ q, CellAt lats lons type c q ∧ Within p q radius

/-- `v` is the statistic of the values within the radius of (la, lo), or missing if there are fewer than `minNum`. The
neighbours may be listed in any order. -/
def Aggregated [FloorRing K] [HasSqrt K] (rnd : Rnd K) (lats lons : List (Fl K)) (type : CoordType) (values : List (Fl K)) (radius : Fl K)
    (minNum : Int) (s : Statistic) (la lo v : Fl K) : Prop :=
  ∃ p, convertCoordinates la lo type = ok p ∧ (∃ l, IsNeighbours lats lons type p radius l) ∧
    ∀ l, IsNeighbours lats lons type p radius l →
      (minNum ≤ l.length → calcStatistic rnd (l.filterMap fun i => values[i]?) s = ok v) ∧ ((l.length : Int) < minNum → v = nan)

section
variable {T : RTree K} (hT : T.Lawful) [LawfulSqrt K] [FloorRing K]
include hT

theorem griddingAt_ok {P : Points K} {lats lons : List (Fl K)} {type : CoordType} (hP : BuiltPoints P lats lons type) (rnd : Rnd K)
    {values : List (Fl K)} (hl : values.length = lats.length) (radius : Fl K) {minNum : Int} {s : Statistic}
    (hs : Deterministic s) {la lo : Fl K} (hv : ∃ p, convertCoordinates la lo type = ok p) :
    ∃ v, griddingAt T rnd P values radius minNum s la lo = ok v ∧ Aggregated rnd lats lons type values radius minNum s la lo v := by
  obtain ⟨p, hp⟩ := hv
  obtain ⟨l, h1, -, h3, h4⟩ := points_within hT hP hp radius
  have hlt : ∀ i ∈ l, i < values.length := by
    intro i hi
    obtain ⟨q, hq, -⟩ := (h4 i).mp hi
    rw [hl]; exact hq.lt
  have hall : ∀ l', IsNeighbours lats lons type p radius l' → l'.Perm l := fun l' hl' =>
    (List.perm_ext_iff_of_nodup hl'.1 h3).mpr fun i => by rw [hl'.2, h4]
  unfold griddingAt
  rw [h1, ok_bind]
  by_cases hm : minNum ≤ l.length
  · obtain ⟨v, hv, -⟩ := c01_missing_iff rnd (l.filterMap fun i => values[i]?) s hs
    refine ⟨v, ?_, p, hp, ⟨l, h3, h4⟩, fun l' hl' => ⟨fun _ => ?_, fun h => ?_⟩⟩
    · rw [if_pos (Or.inr hm), mapM_vget_filterMap values l hlt, ok_bind, hv]
    · rw [← hv]
      exact c01_only_valid_multiset rnd _ _ s hs (((hall l' hl').filterMap _).filter _)
    · rw [(hall l' hl').length_eq] at h; omega
  · refine ⟨nan, ?_, p, hp, ⟨l, h3, h4⟩, fun l' hl' => ⟨fun h => ?_, fun _ => rfl⟩⟩
    · rw [if_neg (by omega)]
    · rw [(hall l' hl').length_eq] at h; omega

/-- **C40** (Grid). -/
theorem c40_grid {g : Grid K} {Y X : Nat} {glats glons : List (List (Fl K))} {gtype : CoordType} (hg : BuiltGrid g Y X glats glons gtype)
    {P : Points K} {lats lons : List (Fl K)} {type : CoordType} (hP : BuiltPoints P lats lons type) (hv : GridValidIn type glats glons)
    (rnd : Rnd K) (values : List (Fl K)) (hl : values.length = lats.length) (r : K) (hr : 0 ≤ r) (minNum : Int) (hm : 0 ≤ minNum)
    (s : Statistic) (hs : Deterministic s) :
    ∃ out, griddingG T rnd g P values (fin r) minNum s = ok out ∧
      FieldSat glats glons Y X (Aggregated rnd lats lons type values (fin r) minNum s) out := by
  obtain ⟨out, h1, h2, h3⟩ := grid_loop hg (f := griddingAt T rnd P values (fin r) minNum s)
    (P := Aggregated rnd lats lons type values (fin r) minNum s) (fun y x la lo a b =>
      griddingAt_ok hT hP rnd hl (fin r) hs (hv y x la lo a b))
  refine ⟨out, ?_, h2, h3⟩
  have hsz : compatibleSizeP1 P values = true := by
    unfold compatibleSizeP1 Points.size
    rw [hP.wf.1, hl]; simp
  unfold griddingG griddingChecks
  rw [if_neg (by simp [hsz]), if_neg (by simp [hr]), if_neg (by omega), ok_bind, hg.wf.1.size, ok_bind, h1]
  rfl

/-- **C40** (Points). -/
theorem c40_points {O : Points K} {olats olons : List (Fl K)} {otype : CoordType} (hO : BuiltPoints O olats olons otype)
    {P : Points K} {lats lons : List (Fl K)} {type : CoordType} (hP : BuiltPoints P lats lons type) (hv : PointsValidIn type olats olons)
    (rnd : Rnd K) (values : List (Fl K)) (hl : values.length = lats.length) (r : K) (hr : 0 ≤ r) (minNum : Int) (hm : 0 ≤ minNum)
    (s : Statistic) (hs : Deterministic s) :
    ∃ out, griddingP T rnd O P values (fin r) minNum s = ok out ∧
      VecSat olats olons (Aggregated rnd lats lons type values (fin r) minNum s) out := by
  obtain ⟨out, h1, h2, h3⟩ := points_loop hO (f := griddingAt T rnd P values (fin r) minNum s)
    (P := Aggregated rnd lats lons type values (fin r) minNum s) (fun i la lo a b =>
      griddingAt_ok hT hP rnd hl (fin r) hs (hv i la lo a b))
  refine ⟨out, ?_, h2, h3⟩
  have hsz : compatibleSizeP1 P values = true := by
    unfold compatibleSizeP1 Points.size
    rw [hP.wf.1, hl]; simp
  unfold griddingP griddingChecks
  rw [if_neg (by simp [hsz]), if_neg (by simp [hr]), if_neg (by omega), ok_bind, h1]
  rfl

omit hT in
/-- **C40** (errors). -/
theorem c40_throws (g : Grid K) (O : Points K) {P : Points K} {lats lons : List (Fl K)} {type : CoordType} (hP : BuiltPoints P lats lons type)
    (rnd : Rnd K) (values : List (Fl K)) (radius : Fl K) (minNum : Int) (s : Statistic)
    (h : values.length ≠ lats.length ∨ radius.isValid = false ∨ radius.lt 0 = true ∨ minNum < 0) :
    griddingG T rnd g P values radius minNum s = .throw .invalidArgument ∧
    griddingP T rnd O P values radius minNum s = .throw .invalidArgument := by
  have : griddingChecks P values radius minNum = .throw .invalidArgument := by
    unfold griddingChecks
    split_ifs with h1 h2 h3
    · rfl
    · rfl
    · rfl
    · exfalso
      rcases h with h | h | h | h
      · apply h1
        unfold compatibleSizeP1 Points.size
        rw [hP.wf.1]
        exact decide_eq_false (Ne.symm h)
      · exact h2 (Or.inl h)
      · exact h2 (Or.inr h)
      · exact h3 h
  unfold griddingG griddingP
  rw [this]
  exact ⟨rfl, rfl⟩

/-- The values that `near` sends to `c`, in input order, with their statistic; missing if there are none, or fewer than
`minNum`. -/
def GroupStat {ι : Type} [DecidableEq ι] (rnd : Rnd K) (near : Nat → ι) (values : List (Fl K)) (minNum : Int) (s : Statistic) (c : ι) (v : Fl K) : Prop :=
  let vs := ((List.range values.length).filter fun i => near i = c).filterMap fun i => values[i]?
  ((vs = [] ∨ (vs.length : Int) < minNum) → v = nan) ∧ (vs ≠ [] → minNum ≤ vs.length → calcStatistic rnd vs s = ok v)

omit hT in
theorem griddingNearestAt_ok {ι : Type} [DecidableEq ι] (rnd : Rnd K) (near : Nat → ι) (values : List (Fl K)) (minNum : Int) (s : Statistic)
    (hs : Deterministic s) (c : ι) :
    ∃ v, griddingNearestAt rnd minNum s (groupOf near values values.length c) = ok v ∧ GroupStat rnd near values minNum s c v := by
  unfold griddingNearestAt GroupStat
  change ∃ v, _ ∧ ((groupOf near values values.length c = [] ∨ ((groupOf near values values.length c).length : Int) < minNum) → v = nan) ∧
    (groupOf near values values.length c ≠ [] → minNum ≤ (groupOf near values values.length c).length → calcStatistic rnd (groupOf near values values.length c) s = ok v)
  generalize groupOf near values values.length c = vs
  by_cases h0 : 0 < vs.length
  · have hne : vs ≠ [] := List.length_pos_iff.mp h0
    by_cases hm : minNum ≤ vs.length
    · obtain ⟨v, hv, -⟩ := c01_missing_iff rnd vs s hs
      refine ⟨v, by rw [if_pos h0, if_pos (Or.inr hm), hv], fun h => ?_, fun _ _ => hv⟩
      rcases h with h | h
      · exact absurd h hne
      · omega
    · exact ⟨nan, by rw [if_pos h0, if_neg (by omega)], fun _ => rfl, fun _ h => absurd h hm⟩
  · refine ⟨nan, by rw [if_neg h0], fun _ => rfl, fun h => ?_⟩
    exact absurd (List.length_pos_iff.mpr h) h0

/-- **C41** (Grid). Each input point has one nearest cell, and the value of a cell is the statistic of exactly the points
sent to it. -/
theorem c41_grid {g : Grid K} {Y X : Nat} {glats glons : List (List (Fl K))} {gtype : CoordType} (hg : BuiltGrid g Y X glats glons gtype)
    {P : Points K} {lats lons : List (Fl K)} {type : CoordType} (hP : BuiltPoints P lats lons type) (hv : PointsValidIn gtype lats lons)
    (values : List (Fl K)) (hl : values.length = lats.length) :
    ∃ near : Nat → Nat × Nat,
      (∀ i la lo, lats[i]? = some la → lons[i]? = some lo → (near i).1 < Y ∧ (near i).2 < X ∧ NearestCellTo glats glons gtype la lo (near i)) ∧
      ∀ (rnd : Rnd K) (minNum : Int), 0 ≤ minNum → ∀ s, Deterministic s →
        ∃ out, griddingNearestG T rnd g P values minNum s = ok out ∧ Rect Y X out ∧
          ∀ y < Y, ∀ x < X, ∃ v, cell? out y x = some v ∧ GroupStat rnd near values minNum s (y, x) v := by
  obtain ⟨e1, e2, -, -, -, -, e7⟩ := hP.wf
  have hnear : ∀ i : Nat, ∃ c : Nat × Nat, ∀ la lo, lats[i]? = some la → lons[i]? = some lo →
      nearestCell T g la lo = ok c ∧ c.1 < Y ∧ c.2 < X ∧ NearestCellTo glats glons gtype la lo c := by
    intro i
    by_cases hi : i < lats.length
    · have a1 : lats[i]? = some lats[i] := List.getElem?_eq_getElem hi
      have a2 : lons[i]? = some (lons[i]'(by omega)) := List.getElem?_eq_getElem _
      obtain ⟨c, c1, c2⟩ := nearestCell_to hT hg (hv i _ _ a1 a2)
      refine ⟨c, fun la' lo' b1 b2 => ?_⟩
      rw [a1] at b1; rw [a2] at b2; cases b1; cases b2
      exact ⟨c1, c2⟩
    · exact ⟨(0, 0), fun la lo b1 _ => absurd (List.getElem?_eq_some_iff.mp b1).1 hi⟩
  choose near hnear using hnear
  refine ⟨near, fun i la lo b1 b2 => (hnear i la lo b1 b2).2, fun rnd minNum hm s hs => ?_⟩
  obtain ⟨temp, t1, t2, t3⟩ : ∃ temp, assignCells T g P values Y X = ok temp ∧ Rect Y X temp ∧
      ∀ y < Y, ∀ x < X, cell? temp y x = some (groupOf near values values.length (y, x)) := by
    unfold assignCells
    refine foldM_upto_inv (P := fun n temp => Rect Y X temp ∧ ∀ y < Y, ∀ x < X, cell? temp y x = some (groupOf near values n (y, x)))
      values.length ⟨rect_initVec2 _ _ _, fun y hy x hx => ?_⟩ ?_
    · rw [cell?_initVec2 _ hy hx]; rfl
    · intro i hi temp ⟨hR, hC⟩
      have a1 : lats[i]? = some (lats[i]'(by omega)) := List.getElem?_eq_getElem _
      have a2 : lons[i]? = some (lons[i]'(by omega)) := List.getElem?_eq_getElem _
      have a3 : values[i]? = some values[i] := List.getElem?_eq_getElem hi
      obtain ⟨c1, c2, c3, -⟩ := hnear i _ _ a1 a2
      obtain ⟨t', u1, u2, u3⟩ := push2_rect hR c2 c3 values[i]
      refine ⟨t', ?_, u2, fun y hy x hx => ?_⟩
      · rw [e1, e2, vget_nat_eq_ok.mpr a1, ok_bind, vget_nat_eq_ok.mpr a2, ok_bind, c1, ok_bind, vget_nat_eq_ok.mpr a3, ok_bind, u1]
      · rw [u3, groupOf_succ near values i (y, x) _ a3]
        by_cases h : near i = (y, x)
        · rw [if_pos (by rw [h]; exact ⟨rfl, rfl⟩), if_pos h, hC _ c2 _ c3]
          simp [h]
        · rw [if_neg, if_neg h, hC y hy x hx]
          rintro ⟨h1, h2⟩
          exact h (Prod.ext h1.symm h2.symm)
  obtain ⟨out, o1, o2, o3⟩ := grid2_exists (Y := Y) (X := X) (f := fun y x => do
      let curr ← vget2 temp y x
      griddingNearestAt rnd minNum s curr) (P := fun y x v => GroupStat rnd near values minNum s (y, x) v) (by
    intro y hy x hx
    obtain ⟨v, v1, v2⟩ := griddingNearestAt_ok rnd near values minNum s hs (y, x)
    obtain ⟨c, c1, c2⟩ := vget2_of_rect t2 hy hx
    rw [t3 y hy x hx] at c1
    cases c1
    exact ⟨v, by simp only [c2, ok_bind, v1], v2⟩)
  refine ⟨out, ?_, o2, fun y hy x hx => ?_⟩
  · have hsz : compatibleSizeP1 P values = true := by
      unfold compatibleSizeP1 Points.size
      rw [e1, hl]; simp
    unfold griddingNearestG griddingNearestChecks
    rw [if_neg (by simp [hsz]), if_neg (by omega), ok_bind, hg.wf.1.size, ok_bind, t1, ok_bind, o1]
    rfl
  · obtain ⟨v, v1, -, v2⟩ := o3 y hy x hx
    exact ⟨v, v1, v2⟩

/-- **C41** (Points). -/
theorem c41_points {O : Points K} {olats olons : List (Fl K)} {otype : CoordType} (hO : BuiltPoints O olats olons otype) (hne : 0 < olats.length)
    {P : Points K} {lats lons : List (Fl K)} {type : CoordType} (hP : BuiltPoints P lats lons type) (hv : PointsValidIn otype lats lons)
    (values : List (Fl K)) (hl : values.length = lats.length) :
    ∃ near : Nat → Nat,
      (∀ i la lo, lats[i]? = some la → lons[i]? = some lo → near i < olats.length ∧ NearestPointTo olats olons otype la lo (near i)) ∧
      ∀ (rnd : Rnd K) (minNum : Int), 0 ≤ minNum → ∀ s, Deterministic s →
        ∃ out, griddingNearestP T rnd O P values minNum s = ok out ∧ out.length = olats.length ∧
          ∀ j < olats.length, ∃ v, out[j]? = some v ∧ GroupStat rnd near values minNum s j v := by
  obtain ⟨e1, e2, -, -, -, -, e7⟩ := hP.wf
  obtain ⟨f1, -⟩ := hO.wf
  have hnear : ∀ i : Nat, ∃ c : Nat, ∀ la lo, lats[i]? = some la → lons[i]? = some lo →
      O.getNearestNeighbour T la lo true = ok (c : Int) ∧ c < olats.length ∧ NearestPointTo olats olons otype la lo c := by
    intro i
    by_cases hi : i < lats.length
    · have a1 : lats[i]? = some lats[i] := List.getElem?_eq_getElem hi
      have a2 : lons[i]? = some (lons[i]'(by omega)) := List.getElem?_eq_getElem _
      obtain ⟨c, c1, c2⟩ := points_nearest_to hT hO hne (hv i _ _ a1 a2)
      refine ⟨c, fun la' lo' b1 b2 => ?_⟩
      rw [a1] at b1; rw [a2] at b2; cases b1; cases b2
      exact ⟨c1, c2⟩
    · exact ⟨0, fun la lo b1 _ => absurd (List.getElem?_eq_some_iff.mp b1).1 hi⟩
  choose near hnear using hnear
  refine ⟨near, fun i la lo b1 b2 => (hnear i la lo b1 b2).2, fun rnd minNum hm s hs => ?_⟩
  obtain ⟨temp, t1, t2, t3⟩ : ∃ temp, assignPoints T O P values = ok temp ∧ temp.length = olats.length ∧
      ∀ j < olats.length, temp[j]? = some (groupOf near values values.length j) := by
    unfold assignPoints
    refine foldM_upto_inv (P := fun n (temp : List (List (Fl K))) => temp.length = olats.length ∧ ∀ j < olats.length, temp[j]? = some (groupOf near values n j))
      values.length ⟨by simp [Points.size, f1], fun j hj => ?_⟩ ?_
    · rw [Points.size, f1, List.getElem?_replicate, if_pos hj]; rfl
    · intro i hi temp ⟨hR, hC⟩
      have a1 : lats[i]? = some (lats[i]'(by omega)) := List.getElem?_eq_getElem _
      have a2 : lons[i]? = some (lons[i]'(by omega)) := List.getElem?_eq_getElem _
      have a3 : values[i]? = some values[i] := List.getElem?_eq_getElem hi
      obtain ⟨c1, c2, -⟩ := hnear i _ _ a1 a2
      obtain ⟨t', u1, u2, u3⟩ := push1_ok (temp := temp) (by rw [hR]; exact c2) values[i]
      refine ⟨t', ?_, u2.trans hR, fun j hj => ?_⟩
      · rw [e1, e2, vget_nat_eq_ok.mpr a1, ok_bind, vget_nat_eq_ok.mpr a2, ok_bind, c1, ok_bind, vget_nat_eq_ok.mpr a3, ok_bind, u1]
      · rw [u3, groupOf_succ near values i j _ a3]
        by_cases h : near i = j
        · rw [if_pos h.symm, if_pos h, hC _ c2]
          simp [h]
        · rw [if_neg (Ne.symm h), if_neg h, hC j hj]
  obtain ⟨out, o1, o2, o3⟩ := mapM_upto_exists (n := olats.length) (f := fun n : Int => do
      let curr ← vget temp n
      griddingNearestAt rnd minNum s curr) (P := fun j v => GroupStat rnd near values minNum s j v) (by
    intro j hj
    obtain ⟨v, v1, v2⟩ := griddingNearestAt_ok rnd near values minNum s hs j
    exact ⟨v, by simp only [vget_nat_eq_ok.mpr (t3 j hj), ok_bind, v1], v2⟩)
  refine ⟨out, ?_, o2, fun j hj => ?_⟩
  · have hsz : compatibleSizeP1 P values = true := by
      unfold compatibleSizeP1 Points.size
      rw [e1, hl]; simp
    unfold griddingNearestP griddingNearestChecks
    rw [if_neg (by simp [hsz]), if_neg (by omega), ok_bind, t1, ok_bind, Points.size, f1, o1]
    rfl
  · obtain ⟨v, v1, -, v2⟩ := o3 j hj
    exact ⟨v, v1, v2⟩

omit hT in
/-- **C41** (errors). -/
theorem c41_throws (g : Grid K) (O : Points K) {P : Points K} {lats lons : List (Fl K)} {type : CoordType} (hP : BuiltPoints P lats lons type)
    (rnd : Rnd K) (values : List (Fl K)) (minNum : Int) (s : Statistic) (h : values.length ≠ lats.length ∨ minNum < 0) :
    griddingNearestG T rnd g P values minNum s = .throw .invalidArgument ∧
    griddingNearestP T rnd O P values minNum s = .throw .invalidArgument := by
  have : griddingNearestChecks P values minNum = .throw .invalidArgument := by
    unfold griddingNearestChecks
    split_ifs with h1 h2
    · rfl
    · rfl
    · exfalso
      rcases h with h | h
      · apply h1
        unfold compatibleSizeP1 Points.size
        rw [hP.wf.1]
        exact decide_eq_false (Ne.symm h)
      · exact h2 h
  unfold griddingNearestG griddingNearestP
  rw [this]
  exact ⟨rfl, rfl⟩

/-- Number of valid values. -/
def numValid (l : List (Fl K)) : Nat := (l.filter Fl.isValid).length

omit hT in
theorem sum_groups {ι : Type} [DecidableEq ι] (near : Nat → ι) (values : List (Fl K)) (cells : Finset ι)
    (hn : ∀ i < values.length, near i ∈ cells) (n : Nat) (hle : n ≤ values.length) :
    ∑ c ∈ cells, numValid (groupOf near values n c) = numValid (values.take n) := by
  induction n with
  | zero => simp [groupOf, numValid]
  | succ n ih =>
    have hlt : n < values.length := by omega
    have hv : values[n]? = some values[n] := List.getElem?_eq_getElem hlt
    have hstep : ∀ c, numValid (groupOf near values (n + 1) c) = numValid (groupOf near values n c) +
        if near n = c then numValid [values[n]] else 0 := by
      intro c
      rw [groupOf_succ near values n c _ hv]
      by_cases h : near n = c
      · simp [h, numValid, List.filter_append]
      · simp [h]
    simp only [hstep]
    rw [Finset.sum_add_distrib, ih (by omega), Finset.sum_ite_eq, if_pos (hn n hlt), List.take_add_one, hv]
    simp only [numValid, List.filter_append, List.length_append, Option.toList]

/-- **C41** (conservation). With Count and `min_num = 0` the counts of all cells add up to the number of valid values. Cells
to which no point is sent are missing (not 0) and count as 0 in the sum. -/
theorem c41_counts {g : Grid K} {Y X : Nat} {glats glons : List (List (Fl K))} {gtype : CoordType} (hg : BuiltGrid g Y X glats glons gtype)
    {P : Points K} {lats lons : List (Fl K)} {type : CoordType} (hP : BuiltPoints P lats lons type) (hv : PointsValidIn gtype lats lons)
    (values : List (Fl K)) (hl : values.length = lats.length) (rnd : Rnd K) :
    ∃ out, griddingNearestG T rnd g P values 0 .count = ok out ∧ Rect Y X out ∧ ∃ cnt : Nat → Nat → Nat,
      (∀ y < Y, ∀ x < X, cell? out y x = some (fin (cnt y x : K)) ∨ (cell? out y x = some nan ∧ cnt y x = 0)) ∧
      ∑ y ∈ Finset.range Y, ∑ x ∈ Finset.range X, cnt y x = numValid values := by
  obtain ⟨near, h1, h2⟩ := c41_grid hT hg hP hv values hl
  obtain ⟨out, o1, o2, o3⟩ := h2 rnd 0 (le_refl _) .count (by simp [Deterministic])
  refine ⟨out, o1, o2, fun y x => numValid (groupOf near values values.length (y, x)), fun y hy x hx => ?_, ?_⟩
  · obtain ⟨v, v1, v2, v3⟩ := o3 y hy x hx
    change (groupOf near values values.length (y, x) = [] ∨ ((groupOf near values values.length (y, x)).length : Int) < 0) → v = nan at v2
    change groupOf near values values.length (y, x) ≠ [] → (0 : Int) ≤ (groupOf near values values.length (y, x)).length →
      calcStatistic rnd (groupOf near values values.length (y, x)) .count = ok v at v3
    by_cases he : groupOf near values values.length (y, x) = []
    · right
      exact ⟨by rw [v1, v2 (Or.inl he)], by simp only [he]; rfl⟩
    · left
      have := v3 he (by omega)
      rw [v1]
      simp only [calcStatistic, sumCount_eq, Res.ok.injEq] at this
      simp only [← this, numValid, filter_isValid, List.length_map]
      rfl
  · rw [← Finset.sum_product' (Finset.range Y) (Finset.range X) fun y x => numValid (groupOf near values values.length (y, x))]
    have := sum_groups near values (Finset.range Y ×ˢ Finset.range X) (fun i hi => by
      have a1 : lats[i]? = some (lats[i]'(by omega)) := List.getElem?_eq_getElem _
      have e7 := hP.wf.2.2.2.2.2.2
      have a2 : lons[i]? = some (lons[i]'(by omega)) := List.getElem?_eq_getElem _
      obtain ⟨c1, c2, -⟩ := h1 i _ _ a1 a2
      simp [c1, c2]) values.length (le_refl _)
    rw [List.take_length] at this
    exact this

/-- `v` is the number of input points within the radius. -/
def CountsPoints (lats lons : List (Fl K)) (type : CoordType) (radius : Fl K) (la lo v : Fl K) : Prop :=
  ∃ p l, convertCoordinates la lo type = ok p ∧ IsNeighbours lats lons type p radius l ∧ v = fin (l.length : K)

/-- `v` is the number of input cells within the radius. -/
def CountsCells (lats lons : List (List (Fl K))) (type : CoordType) (radius : Fl K) (la lo v : Fl K) : Prop :=
  ∃ p l, convertCoordinates la lo type = ok p ∧ IsNeighbourCells lats lons type p radius l ∧ v = fin (l.length : K)

/-- **C42** (`count`, all four overloads). -/
theorem c42_count {g g' : Grid K} {Y X Y' X' : Nat} {glats glons glats' glons' : List (List (Fl K))} {gtype gtype' : CoordType}
    (hg : BuiltGrid g Y X glats glons gtype) (hg' : BuiltGrid g' Y' X' glats' glons' gtype')
    {P P' : Points K} {lats lons lats' lons' : List (Fl K)} {type type' : CoordType} (hP : BuiltPoints P lats lons type)
    (hP' : BuiltPoints P' lats' lons' type') (radius : Fl K) :
    (PointsValidIn gtype lats' lons' → ∃ out, countGP T g P' radius = ok out ∧ VecSat lats' lons' (CountsCells glats glons gtype radius) out) ∧
    (GridValidIn gtype glats' glons' → ∃ out, countGG T g g' radius = ok out ∧ FieldSat glats' glons' Y' X' (CountsCells glats glons gtype radius) out) ∧
    (GridValidIn type glats' glons' → ∃ out, countPG T P g' radius = ok out ∧ FieldSat glats' glons' Y' X' (CountsPoints lats lons type radius) out) ∧
    (PointsValidIn type lats' lons' → ∃ out, countPP T P P' radius = ok out ∧ VecSat lats' lons' (CountsPoints lats lons type radius) out) := by
  have cellq : ∀ la lo, (∃ p, convertCoordinates la lo gtype = ok p) → ∃ v, (do
      let n ← g.getNumNeighbours T la lo radius true
      ok (Fl.ofNat n) : Res (Fl K)) = ok v ∧ CountsCells glats glons gtype radius la lo v := by
    rintro la lo ⟨p, hp⟩
    obtain ⟨l, -, h2, h3, h4⟩ := grid_within hT hg hp radius
    exact ⟨_, by rw [h2]; rfl, p, l, hp, ⟨h3, h4⟩, rfl⟩
  have pointq : ∀ la lo, (∃ p, convertCoordinates la lo type = ok p) → ∃ v, (do
      let n ← P.getNumNeighbours T la lo radius true
      ok (Fl.ofNat n) : Res (Fl K)) = ok v ∧ CountsPoints lats lons type radius la lo v := by
    rintro la lo ⟨p, hp⟩
    obtain ⟨l, -, h2, h3, h4⟩ := points_within hT hP hp radius
    exact ⟨_, by rw [h2]; rfl, p, l, hp, ⟨h3, h4⟩, rfl⟩
  refine ⟨fun hv => ?_, fun hv => ?_, fun hv => ?_, fun hv => ?_⟩
  · obtain ⟨out, h1, h2⟩ := points_loop hP' fun i la lo a b => cellq la lo (hv i la lo a b)
    exact ⟨out, by unfold countGP; rw [h1]; rfl, h2⟩
  · obtain ⟨out, h1, h2⟩ := grid_loop hg' fun y x la lo a b => cellq la lo (hv y x la lo a b)
    exact ⟨out, by unfold countGG; rw [hg'.wf.1.size, ok_bind, h1]; rfl, h2⟩
  · obtain ⟨out, h1, h2⟩ := grid_loop hg' fun y x la lo a b => pointq la lo (hv y x la lo a b)
    exact ⟨out, by unfold countPG; rw [hg'.wf.1.size, ok_bind, h1]; rfl, h2⟩
  · obtain ⟨out, h1, h2⟩ := points_loop hP' fun i la lo a b => pointq la lo (hv i la lo a b)
    exact ⟨out, by unfold countPP; rw [h1]; rfl, h2⟩

end

/-- C40, C41, C42: three points, two near the first cell. -/
def c40Example : Res (List (List (List (Fl ℚ))) × List (List (Fl ℚ))) := do
  let g ← Grid.new [[fin (0 : ℚ), fin 0, fin 0]] [[fin 0, fin 10, fin 20]] [] [] .cartesian
  let p ← Points.new [fin 0, fin 0, fin 0] [fin 1, fin (-1), fin 12] [] [] .cartesian
  let a ← griddingG RTree.scan (fun _ => 0) g p [fin 5, fin 7, nan] (fin 3) 2 .mean
  let b ← griddingG RTree.scan (fun _ => 0) g p [fin 5, fin 7, nan] (fin 3) 0 .count
  let c ← griddingNearestG RTree.scan (fun _ => 0) g p [fin 5, fin 7, nan] 0 .count
  let d ← griddingNearestP RTree.scan (fun _ => 0) p p [fin 5, fin 7, nan] 1 .sum
  let e ← countGP RTree.scan g p (fin 10)
  ok ([a, b, c], [d, e])

example : c40Example = ok ([[[fin 6, nan, nan]], [[fin 2, fin 0, fin 0]], [[fin 2, fin 0, nan]]], [[fin 5, fin 7, nan],
                [fin 2, fin 1, fin 2]]) := by decide +kernel

/-- C41: without a grid, or without output points, the index is read from nothing. -/
theorem c41_empty_output_reads_outside :
    (do let g ← Grid.new ([] : List (List (Fl ℚ))) [] [] [] .geodetic
        let p ← Points.new [fin 0] [fin 1] [] [] .geodetic
        griddingNearestG RTree.scan (fun _ => 0) g p [fin 5] 0 .count) = ub ∧
    (do let o ← Points.new [] [] [] [] .geodetic
        let p ← Points.new [fin (0 : ℚ)] [fin 1] [] [] .geodetic
        griddingNearestP RTree.scan (fun _ => 0) o p [fin 5] 0 .count) = ub := by
  constructor <;> decide +kernel

end Gridpp.Props
