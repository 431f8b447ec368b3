import Verif.Props.Averages
import Verif.Props.WindowLaws

/-! C187: windows and gridding to the nearest keep the order and the range of the values. -/

set_option linter.unusedSectionVars false

namespace Gridpp.Props
open Fl Res Spec

section
variable {K : Type} [Field K] [LinearOrder K] [IsStrictOrderedRing K] [FloorRing K]

theorem windowAt_forall₂ {row row' : List (Fl K)} (h : List.Forall₂ NotAbove row row') (before : Bool) (L x : Nat) :
    List.Forall₂ NotAbove (windowAt before L x row) (windowAt before L x row') := by
  unfold windowAt slice
  cases before
  · exact List.forall₂_drop _ (List.forall₂_take _ h)
  · exact List.forall₂_drop _ (List.forall₂_take _ h)

theorem anyMissing_forall₂ {a b : List (Fl K)} (h : List.Forall₂ NotAbove a b) : (∃ u ∈ a, u.isValid = false) ↔ ∃ u ∈ b, u.isValid = false := by
  induction h with
  | nil => simp
  | @cons u v a b huv _ ih =>
    have hv : u.isValid = v.isValid := by
      rcases huv with ⟨h1, h2⟩ | ⟨q, r, rfl, rfl, -⟩
      · rw [h1, h2]
      · rfl
    simp only [List.mem_cons, exists_eq_or_imp, hv, ih]

/-- **C187**, windows (partial): rows nowhere above others have windows nowhere above those of the others. Missing: the mean, and the sum with
`keep_missing`, which read before the start of a vector (C29: `c29_mean_reads_outside`, `c29_count_reads_outside`). -/
theorem c187_window_partial [LawfulSqrt K] (rnd : Rnd K) (Y X L : Nat) {a b : List (List (Fl K))} (ha : Rect Y X a) (hb : Rect Y X b) (hY : 0 < Y) (hX : 0 < X) (hL : 0 < L)
    (h : List.Forall₂ (List.Forall₂ NotAbove) a b) {s : Statistic} (hs : IsAverage s ∨ s = .sum) (before keep edges : Bool) (hodd : before = true ∨ L % 2 = 1)
    (hok : SafeWindow s keep) :
    ∃ out out', window rnd a (L : Int) s before keep edges = ok out ∧ window rnd b (L : Int) s before keep edges = ok out' ∧ Rect Y X out ∧ Rect Y X out' ∧
      ∀ y < Y, ∀ x < X, ∃ u v, cell? out y x = some u ∧ cell? out' y x = some v ∧ NotAbove u v := by
  have hd : Deterministic s := hs.elim IsAverage.det fun e => by subst e; simp [Deterministic]
  obtain ⟨out, h1, h2, h3⟩ := c29_window_partial rnd Y X L a ha hY hX hL s hd before keep edges hodd hok
  obtain ⟨out', k1, k2, k3⟩ := c29_window_partial rnd Y X L b hb hY hX hL s hd before keep edges hodd hok
  refine ⟨out, out', h1, k1, h2, k2, fun y hy x hx => ?_⟩
  have y1 : y < a.length := by rw [ha.1]; exact hy
  have y2 : y < b.length := by rw [hb.1]; exact hy
  obtain ⟨u, e1, e2⟩ := h3 y a[y] (List.getElem?_eq_getElem y1) x hx
  obtain ⟨v, f1, f2⟩ := k3 y b[y] (List.getElem?_eq_getElem y2) x hx
  refine ⟨u, v, e1, f1, ?_⟩
  have hrow : List.Forall₂ NotAbove a[y] b[y] := h.get y1 y2
  have hwin := windowAt_forall₂ hrow before L x
  have hmiss := anyMissing_forall₂ hwin
  have hlen := hrow.length_eq
  by_cases hc : (keep = true ∧ ∃ u ∈ windowAt before L x a[y], u.isValid = false) ∨ (edges = true ∧ overshoots before L x a[y].length)
  · rw [e2.1 hc, f2.1 (by rw [← hmiss, ← hlen]; exact hc)]
    exact Or.inl ⟨rfl, rfl⟩
  · obtain ⟨u', v', g1, g2, g3⟩ := (c186_statistic rnd hwin).1 s hs
    rw [e2.2 hc] at g1
    rw [f2.2 (by rw [← hmiss, ← hlen]; exact hc)] at g2
    cases g1; cases g2
    exact g3

/-- **C187**, windows (partial): extremes and medians stay in the range of the values. Missing: the mean (see `c187_window_partial`). -/
theorem c187_window_range_partial [LawfulSqrt K] (rnd : Rnd K) (Y X L : Nat) {a : List (List (Fl K))} (ha : Rect Y X a) (hY : 0 < Y) (hX : 0 < X) (hL : 0 < L) {lo hi : K}
    (h : ∀ r ∈ a, ∀ v ∈ r, MissingOrIn lo hi v) {s : Statistic} (hs : IsAverage s) (hne : s ≠ .mean) (before keep edges : Bool) (hodd : before = true ∨ L % 2 = 1) :
    ∃ out, window rnd a (L : Int) s before keep edges = ok out ∧ Rect Y X out ∧ ∀ y < Y, ∀ x < X, ∃ v, cell? out y x = some v ∧ MissingOrIn lo hi v := by
  have hok : SafeWindow s keep := by
    left
    simp only [IsAverage, List.mem_cons, List.not_mem_nil, or_false] at hs
    rcases hs with rfl | rfl | rfl | rfl <;> simp at hne ⊢
  obtain ⟨out, h1, h2, h3⟩ := c29_window_partial rnd Y X L a ha hY hX hL s (IsAverage.det hs) before keep edges hodd hok
  refine ⟨out, h1, h2, fun y hy x hx => ?_⟩
  have y1 : y < a.length := by rw [ha.1]; exact hy
  obtain ⟨u, e1, e2⟩ := h3 y a[y] (List.getElem?_eq_getElem y1) x hx
  refine ⟨u, e1, ?_⟩
  by_cases hc : (keep = true ∧ ∃ u ∈ windowAt before L x a[y], u.isValid = false) ∨ (edges = true ∧ overshoots before L x a[y].length)
  · rw [e2.1 hc]; exact Or.inl rfl
  · obtain ⟨v, g1, g2⟩ := c186_statistic_range rnd (a := windowAt before L x a[y]) (lo := lo) (hi := hi) (fun v hv => by
      obtain ⟨i, hi, -⟩ := (mem_windowAt before L x _ v).mp hv
      exact h _ (List.getElem_mem y1) v (List.mem_of_getElem? hi)) hs
    rw [e2.2 hc] at g1
    cases g1
    exact g2

end

section
variable {K : Type} [Field K] [LinearOrder K] [IsStrictOrderedRing K] [LawfulSqrt K] [FloorRing K]

theorem groupStat_notAbove {C : Type} [DecidableEq C] {near : Nat → C} {values values' : List (Fl K)} (h : List.Forall₂ NotAbove values values') {rnd : Rnd K} {minNum : Int}
    {s : Statistic} (hs : IsAverage s ∨ s = .sum) {c : C} {u v : Fl K} (e2 : GroupStat rnd near values minNum s c u) (f2 : GroupStat rnd near values' minNum s c v) : NotAbove u v := by
  have hlen := h.length_eq
  unfold GroupStat at e2 f2
  simp only at e2 f2
  rw [← hlen] at f2
  have hp := pick_forall₂ h ((List.range values.length).filter fun i => near i = c)
  generalize (((List.range values.length).filter fun i => near i = c).filterMap fun i => values[i]?) = c at hp e2
  generalize (((List.range values.length).filter fun i => near i = _).filterMap fun i => values'[i]?) = c' at hp f2
  have hpl := hp.length_eq
  by_cases hb : c = [] ∨ (c.length : Int) < minNum
  · rw [e2.1 hb, f2.1 (by
      rcases hb with hb | hb
      · left; subst hb; exact List.length_eq_zero_iff.mp (by simpa using hpl.symm)
      · right; rw [← hpl]; exact hb)]
    exact Or.inl ⟨rfl, rfl⟩
  · rw [not_or, not_lt] at hb
    obtain ⟨u', v', g1, g2, g3⟩ := (c186_statistic rnd hp).1 s hs
    rw [e2.2 hb.1 hb.2] at g1
    rw [f2.2 (fun k => hb.1 (by subst k; exact List.length_eq_zero_iff.mp (by simpa using hpl))) (by rw [← hpl]; exact hb.2)] at g2
    cases g1; cases g2
    exact g3

theorem groupStat_range {C : Type} [DecidableEq C] {near : Nat → C} {values : List (Fl K)} {lo hi : K} (h : ∀ v ∈ values, MissingOrIn lo hi v) {rnd : Rnd K} {minNum : Int}
    {s : Statistic} (hs : IsAverage s) {c : C} {u : Fl K} (e2 : GroupStat rnd near values minNum s c u) : MissingOrIn lo hi u := by
  unfold GroupStat at e2
  simp only at e2
  by_cases hb : (((List.range values.length).filter fun i => near i = c).filterMap fun i => values[i]?) = [] ∨
      (((((List.range values.length).filter fun i => near i = c).filterMap fun i => values[i]?).length : Nat) : Int) < minNum
  · rw [e2.1 hb]; exact Or.inl rfl
  · rw [not_or, not_lt] at hb
    obtain ⟨v, g1, g2⟩ := c186_statistic_range rnd (a := ((List.range values.length).filter fun i => near i = c).filterMap fun i => values[i]?)
      (lo := lo) (hi := hi) (fun v hv => by
        obtain ⟨i, -, e⟩ := List.mem_filterMap.mp hv
        exact h v (List.mem_of_getElem? e)) hs
    rw [e2.2 hb.1 hb.2] at g1
    cases g1
    exact g2

end

section
variable {K : Type} [Field K] [LinearOrder K] [IsStrictOrderedRing K] [HasGeo K]
variable {T : RTree K} (hT : T.Lawful) [LawfulSqrt K] [FloorRing K]
include hT

theorem nearCells_exist {g : Grid K} {Y X : Nat} {glats glons : List (List (Fl K))} {gtype : CoordType} (hg : BuiltGrid g Y X glats glons gtype)
    {lats lons : List (Fl K)} (hl : lons.length = lats.length) (hvg : PointsValidIn gtype lats lons) :
    ∃ near : Nat → Nat × Nat, ∀ i la lo, lats[i]? = some la → lons[i]? = some lo → nearestCell T g la lo = ok (near i) ∧ (near i).1 < Y ∧ (near i).2 < X ∧ True := by
  have hc : ∀ i : Nat, ∃ c : Nat × Nat, ∀ la lo, lats[i]? = some la → lons[i]? = some lo → nearestCell T g la lo = ok c ∧ c.1 < Y ∧ c.2 < X ∧ True := by
    intro i
    by_cases hi : i < lats.length
    · have a1 : lats[i]? = some lats[i] := List.getElem?_eq_getElem hi
      have a2 : lons[i]? = some (lons[i]'(by omega)) := List.getElem?_eq_getElem _
      obtain ⟨c, c1, c2, c3, -⟩ := nearestCell_to hT hg (hvg i _ _ a1 a2)
      refine ⟨c, fun la' lo' b1 b2 => ?_⟩
      rw [a1] at b1; rw [a2] at b2; cases b1; cases b2
      exact ⟨c1, c2, c3, trivial⟩
    · exact ⟨(0, 0), fun la lo b1 _ => absurd (List.getElem?_eq_some_iff.mp b1).1 hi⟩
  choose near hnear using hc
  exact ⟨near, hnear⟩

/-- **C187**, gridding to the nearest cell: values nowhere above others give a result nowhere above the other one; averages and extremes stay in
the range of the values. -/
theorem c187_gridding_nearest {P : Points K} {lats lons : List (Fl K)} {type : CoordType} (hP : BuiltPoints P lats lons type)
    {g : Grid K} {Y X : Nat} {glats glons : List (List (Fl K))} {gtype : CoordType} (hg : BuiltGrid g Y X glats glons gtype)
    (hvg : PointsValidIn gtype lats lons) {values values' : List (Fl K)} (hn : values.length = lats.length)
    (rnd : Rnd K) {minNum : Int} (hm : 0 ≤ minNum) {s : Statistic} :
    (List.Forall₂ NotAbove values values' → (IsAverage s ∨ s = .sum) →
      ∃ out out', griddingNearestG T rnd g P values minNum s = ok out ∧ griddingNearestG T rnd g P values' minNum s = ok out' ∧ Rect Y X out ∧ Rect Y X out' ∧
        ∀ y < Y, ∀ x < X, ∃ u v, cell? out y x = some u ∧ cell? out' y x = some v ∧ NotAbove u v) ∧
    (∀ lo hi : K, (∀ v ∈ values, MissingOrIn lo hi v) → IsAverage s →
      ∃ out, griddingNearestG T rnd g P values minNum s = ok out ∧ Rect Y X out ∧ ∀ y < Y, ∀ x < X, ∃ v, cell? out y x = some v ∧ MissingOrIn lo hi v) := by
  obtain ⟨near, hnear⟩ := nearCells_exist hT hg hP.wf.2.2.2.2.2.2 hvg
  constructor
  · intro h hs
    have hd : Deterministic s := hs.elim IsAverage.det fun e => by subst e; simp [Deterministic]
    have hlen := h.length_eq
    obtain ⟨o1, a1, a2, a3⟩ := griddingNearestG_of hg hP hn hnear rnd hm hd
    obtain ⟨o2, b1, b2, b3⟩ := griddingNearestG_of hg hP (values := values') (by rw [← hlen, hn]) hnear rnd hm hd
    refine ⟨o1, o2, a1, b1, a2, b2, fun y hy x hx => ?_⟩
    obtain ⟨u, e1, e2⟩ := a3 y hy x hx
    obtain ⟨v, f1, f2⟩ := b3 y hy x hx
    exact ⟨u, v, e1, f1, groupStat_notAbove h hs e2 f2⟩
  · intro lo hi h hs
    obtain ⟨o1, a1, a2, a3⟩ := griddingNearestG_of hg hP hn hnear rnd hm (IsAverage.det hs)
    refine ⟨o1, a1, a2, fun y hy x hx => ?_⟩
    obtain ⟨u, e1, e2⟩ := a3 y hy x hx
    exact ⟨u, e1, groupStat_range h hs e2⟩

/-- **C187**, gridding to the nearest point: the same for output points. -/
theorem c187_gridding_nearest_points {P O : Points K} {lats lons olats olons : List (Fl K)} {type otype : CoordType} (hP : BuiltPoints P lats lons type)
    (hO : BuiltPoints O olats olons otype) (hne : 0 < olats.length)
    (hvo : PointsValidIn otype lats lons) {values values' : List (Fl K)} (hn : values.length = lats.length)
    (rnd : Rnd K) {minNum : Int} (hm : 0 ≤ minNum) {s : Statistic} :
    (List.Forall₂ NotAbove values values' → (IsAverage s ∨ s = .sum) →
      ∃ out out', griddingNearestP T rnd O P values minNum s = ok out ∧ griddingNearestP T rnd O P values' minNum s = ok out' ∧
        out.length = olats.length ∧ out'.length = olats.length ∧ ∀ j < olats.length, ∃ u v, out[j]? = some u ∧ out'[j]? = some v ∧ NotAbove u v) ∧
    (∀ lo hi : K, (∀ v ∈ values, MissingOrIn lo hi v) → IsAverage s →
      ∃ out, griddingNearestP T rnd O P values minNum s = ok out ∧ out.length = olats.length ∧ ∀ j < olats.length, ∃ v, out[j]? = some v ∧ MissingOrIn lo hi v) := by
  have hl : lons.length = lats.length := hP.wf.2.2.2.2.2.2
  obtain ⟨near, hnear⟩ : ∃ near : Nat → Nat, ∀ i la lo, lats[i]? = some la → lons[i]? = some lo →
      O.getNearestNeighbour T la lo true = ok (near i : Int) ∧ near i < olats.length ∧ True := by
    have hc : ∀ i : Nat, ∃ c : Nat, ∀ la lo, lats[i]? = some la → lons[i]? = some lo → O.getNearestNeighbour T la lo true = ok (c : Int) ∧ c < olats.length ∧ True := by
      intro i
      by_cases hi : i < lats.length
      · have a1 : lats[i]? = some lats[i] := List.getElem?_eq_getElem hi
        have a2 : lons[i]? = some (lons[i]'(by omega)) := List.getElem?_eq_getElem _
        obtain ⟨c, c1, c2, -⟩ := points_nearest_to hT hO hne (hvo i _ _ a1 a2)
        refine ⟨c, fun la' lo' b1 b2 => ?_⟩
        rw [a1] at b1; rw [a2] at b2; cases b1; cases b2
        exact ⟨c1, c2, trivial⟩
      · exact ⟨0, fun la lo b1 _ => absurd (List.getElem?_eq_some_iff.mp b1).1 hi⟩
    choose near hnear using hc
    exact ⟨near, hnear⟩
  constructor
  · intro h hs
    have hd : Deterministic s := hs.elim IsAverage.det fun e => by subst e; simp [Deterministic]
    have hlen := h.length_eq
    obtain ⟨o1, a1, a2, a3⟩ := griddingNearestP_of hO hP hn hnear rnd hm hd
    obtain ⟨o2, b1, b2, b3⟩ := griddingNearestP_of hO hP (values := values') (by rw [← hlen, hn]) hnear rnd hm hd
    refine ⟨o1, o2, a1, b1, a2, b2, fun j hj => ?_⟩
    obtain ⟨u, e1, e2⟩ := a3 j hj
    obtain ⟨v, f1, f2⟩ := b3 j hj
    exact ⟨u, v, e1, f1, groupStat_notAbove h hs e2 f2⟩
  · intro lo hi h hs
    obtain ⟨o1, a1, a2, a3⟩ := griddingNearestP_of hO hP hn hnear rnd hm (IsAverage.det hs)
    refine ⟨o1, a1, a2, fun j hj => ?_⟩
    obtain ⟨u, e1, e2⟩ := a3 j hj
    exact ⟨u, e1, groupStat_range h hs e2⟩

end

/-- Running maxima of a series and of one nowhere below it; the mean reads before the start of a vector. -/
theorem c187_case :
    window (fun _ => 0) [[fin (1 : ℚ), nan, fin 5, fin 2]] 3 .max false false false = ok [[fin 1, fin 5, fin 5, fin 5]] ∧
    window (fun _ => 0) [[fin (3 : ℚ), nan, fin 5, fin 8]] 3 .max false false false = ok [[fin 3, fin 5, fin 8, fin 8]] ∧
    window (fun _ => 0) [[fin (3 : ℚ), nan, fin 5, fin 8]] 3 .mean false false false = ub ∧ SafeWindow .max false ∧ ¬ SafeWindow .mean false ∧
    (do let g ← Grid.new [[fin (0 : ℚ), fin 0]] [[fin 0, fin 10]] [] [] .cartesian
        let p ← Points.new [fin 0, fin 0, fin 0] [fin 1, fin 9, fin 2] [] [] .cartesian
        griddingNearestG RTree.scan (fun _ => 0) g p [fin 3, fin 5, fin 7] 1 .mean) = ok [[fin 5, fin 5]] := by
  refine ⟨by decide +kernel, by decide +kernel, by decide +kernel, ?_, ?_, by decide +kernel⟩
  · simp [SafeWindow]
  · simp [SafeWindow]

end Gridpp.Props
