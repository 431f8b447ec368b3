import Verif.Props.ExceptionsDownscale

/-!
C67, continued: `gridding_nearest`, `neighbourhood_score` and the constructor of the gamma transform.
-/

set_option linter.unusedSectionVars false

namespace Gridpp.Props
open Fl Res

theorem raises_foldM {α β : Type} {f : β → α → Res β} (P : β → Prop) (good : α → Prop) (l : List α) (b : β) (hb : P b)
    (hg : ∀ b a, a ∈ l → P b → good a → ∃ b', f b a = ok b' ∧ P b') (hr : ∀ b a, a ∈ l → P b → ¬ good a → Raises (f b a)) :
    (Raises (foldM f b l) ↔ ∃ a ∈ l, ¬ good a) ∧ ((∀ a ∈ l, good a) → ∃ b', foldM f b l = ok b' ∧ P b') := by
  induction l generalizing b with
  | nil => exact ⟨by simp [foldM, not_raises_ok], fun _ => ⟨b, rfl, hb⟩⟩
  | cons a t ih =>
    rw [foldM_cons]
    by_cases ha : good a
    · obtain ⟨b', h1, h2⟩ := hg b a (by simp) hb ha
      obtain ⟨i1, i2⟩ := ih b' h2 (fun b c hc => hg b c (by simp [hc])) (fun b c hc => hr b c (by simp [hc]))
      rw [h1, ok_bind]
      refine ⟨by rw [i1]; simp [ha], fun h => i2 fun c hc => h c (by simp [hc])⟩
    · obtain ⟨e, he⟩ := hr b a (by simp) hb ha
      rw [he]
      exact ⟨⟨fun _ => ⟨a, by simp, ha⟩, fun _ => ⟨e, rfl⟩⟩, fun h => absurd (h a (by simp)) ha⟩

/-- One of the points has a location that is unusable in the coordinate type. -/
def SomeUnusable {K : Type} [Field K] [LinearOrder K] (type : CoordType) (lats lons : List (Fl K)) : Prop :=
  ∃ (i : Nat) (la lo : Fl K), lats[i]? = some la ∧ lons[i]? = some lo ∧ ¬ LocationOk type la lo

section
variable {K : Type} [Field K] [LinearOrder K] [IsStrictOrderedRing K] [FloorRing K]

theorem raises_nearestCell [HasGeo K] (T : RTree K) {g : Grid K} {la lo : Fl K} (h : ¬ LocationOk g.type la lo) : Raises (nearestCell T g la lo) := by
  obtain ⟨e, he⟩ := (raises_convert la lo g.type).2 h
  unfold Grid.type at he
  unfold nearestCell Grid.getNearestNeighbour Grid.getClosestNeighbours KDTree.getClosestNeighbours
  rw [he]
  exact ⟨e, rfl⟩

theorem raises_nearestPoint [HasGeo K] (T : RTree K) {p : Points K} {la lo : Fl K} (h : ¬ LocationOk p.tree.type la lo) :
    Raises (p.getNearestNeighbour T la lo true) := by
  obtain ⟨e, he⟩ := (raises_convert la lo p.tree.type).2 h
  unfold Points.getNearestNeighbour Points.getClosestNeighbours KDTree.getClosestNeighbours
  rw [he]
  exact ⟨e, rfl⟩

theorem mem_upto {n : Nat} {a : Int} : a ∈ upto n ↔ ∃ i : Nat, i < n ∧ a = i := by
  simp only [upto, List.mem_map, List.mem_range]
  constructor
  · rintro ⟨i, hi, rfl⟩; exact ⟨i, hi, rfl⟩
  · rintro ⟨i, hi, rfl⟩; exact ⟨i, hi, rfl⟩

theorem raises_gridding_checks [HasGeo K] {p : Points K} {lats : List (Fl K)} (p1 : p.lats = lats) (values : List (Fl K)) (minNum : Int) {γ : Type}
    (k : Res γ) (c : Prop) (hk : values.length = lats.length → (Raises k ↔ c)) :
    Raises (do griddingNearestChecks p values minNum; k) ↔ values.length ≠ lats.length ∨ minNum < 0 ∨ c := by
  unfold griddingNearestChecks compatibleSizeP1 Points.size
  rw [p1]
  by_cases hl : values.length = lats.length
  · by_cases hm : minNum < 0
    · rw [if_neg (by simp [hl]), if_pos hm]
      exact ⟨fun _ => Or.inr (Or.inl hm), fun _ => ⟨_, rfl⟩⟩
    · rw [if_neg (by simp [hl]), if_neg hm]
      refine Iff.trans (hk hl) ?_
      simp [hl, hm]
  · rw [if_pos (by simp; omega)]
    exact ⟨fun _ => Or.inl hl, fun _ => ⟨_, rfl⟩⟩

theorem unusable_iff (ty : CoordType) {lats lons values : List (Fl K)} (hl : values.length = lats.length) :
    (∃ a ∈ upto values.length, ¬ ∀ (i : Nat) (la lo : Fl K), a = (i : Int) → lats[i]? = some la → lons[i]? = some lo → LocationOk ty la lo) ↔
      SomeUnusable ty lats lons := by
  constructor
  · rintro ⟨a, -, ha⟩
    push Not at ha
    obtain ⟨i, la, lo, -, e1, e2, e3⟩ := ha
    exact ⟨i, la, lo, e1, e2, e3⟩
  · rintro ⟨i, la, lo, e1, e2, e3⟩
    obtain ⟨hi, -⟩ := List.getElem?_eq_some_iff.mp e1
    refine ⟨i, mem_upto.mpr ⟨i, by omega, rfl⟩, fun h => e3 (h i la lo rfl e1 e2)⟩

/-- `gridding_nearest` assigns the points before its parallel loop: it raises an exception exactly for sizes that do not fit, a negative number of points,
and points whose location is unusable in the coordinate type of the output. -/
theorem c67_gridding_nearest_grid [HasGeo K] [LawfulSqrt K] {T : RTree K} (hT : T.Lawful) (rnd : Rnd K) {g : Grid K} {Y X : Nat}
    {glats glons : List (List (Fl K))} {type : CoordType} (hg : BuiltGrid g Y X glats glons type) {p : Points K} {lats lons : List (Fl K)}
    {ptype : CoordType} (hp : BuiltPoints p lats lons ptype) (values : List (Fl K)) (minNum : Int) (s : Statistic) :
    Raises (griddingNearestG T rnd g p values minNum s) ↔ values.length ≠ lats.length ∨ minNum < 0 ∨ SomeUnusable type lats lons := by
  obtain ⟨p1, p2, -, -, -, -, p7⟩ := hp.wf
  obtain ⟨hw, h1, h2, ht⟩ := hg.wf
  unfold griddingNearestG
  refine raises_gridding_checks p1 _ _ _ _ fun hl => ?_
  rw [hw.size, ok_bind, ← unusable_iff type hl]
  refine (raises_bind_first fun _ _ => c67_parallel _).trans ?_
  unfold assignCells
  refine (raises_foldM (Rect Y X) _ _ _ ?_ ?_ ?_).1
  · exact ⟨by simp [initVec2], by simp [initVec2]⟩
  · intro b a ha hb hgood
    obtain ⟨i, hi, rfl⟩ := mem_upto.mp ha
    have hok := hgood i (lats[i]'(by omega)) (lons[i]'(by omega)) rfl (by simp [hl ▸ hi]) (by simp)
    rw [p1, p2, vget_eq_ok_of_lt (by omega), ok_bind, vget_eq_ok_of_lt (by omega), ok_bind]
    obtain ⟨cc, hcc, hy, hx, -⟩ := nearestCell_to hT hg ((raises_convert _ _ type).1 hok)
    rw [hcc, ok_bind, vget_eq_ok_of_lt hi, ok_bind]
    obtain ⟨t', e1, e2, -⟩ := push2_rect hb hy hx (values[i])
    exact ⟨t', e1, e2⟩
  · intro b a ha hb hbad
    obtain ⟨i, hi, rfl⟩ := mem_upto.mp ha
    push Not at hbad
    obtain ⟨j, la, lo, hj, e1, e2, e3⟩ := hbad
    obtain rfl : i = j := by omega
    obtain ⟨g1, rfl⟩ := List.getElem?_eq_some_iff.mp e1
    obtain ⟨g2, rfl⟩ := List.getElem?_eq_some_iff.mp e2
    rw [p1, p2, vget_eq_ok_of_lt g1, ok_bind, vget_eq_ok_of_lt g2, ok_bind]
    obtain ⟨x, hx⟩ := raises_nearestCell T (g := g) (by unfold Grid.type; rw [ht]; exact e3)
    rw [hx]
    exact ⟨x, rfl⟩

/-- The same to points, if there is an output point. -/
theorem c67_gridding_nearest_points [HasGeo K] [LawfulSqrt K] {T : RTree K} (hT : T.Lawful) (rnd : Rnd K) {q : Points K} {qlats qlons : List (Fl K)}
    {qtype : CoordType} (hq : BuiltPoints q qlats qlons qtype) (hne : 0 < qlats.length) {p : Points K} {lats lons : List (Fl K)} {ptype : CoordType}
    (hp : BuiltPoints p lats lons ptype) (values : List (Fl K)) (minNum : Int) (s : Statistic) :
    Raises (griddingNearestP T rnd q p values minNum s) ↔ values.length ≠ lats.length ∨ minNum < 0 ∨ SomeUnusable qtype lats lons := by
  obtain ⟨p1, p2, -, -, -, -, p7⟩ := hp.wf
  obtain ⟨q1, q2, -, -, q5, -, q7⟩ := hq.wf
  unfold griddingNearestP
  refine raises_gridding_checks p1 _ _ _ _ fun hl => ?_
  rw [← unusable_iff qtype hl]
  refine (raises_bind_first fun _ _ => c67_parallel _).trans ?_
  unfold assignPoints
  refine (raises_foldM (fun t => t.length = qlats.length) _ _ _ ?_ ?_ ?_).1
  · simp [Points.size, q1]
  · intro b a ha hb hgood
    obtain ⟨i, hi, rfl⟩ := mem_upto.mp ha
    have hok := hgood i (lats[i]'(by omega)) (lons[i]'(by omega)) rfl (by simp [hl ▸ hi]) (by simp)
    rw [p1, p2, vget_eq_ok_of_lt (by omega), ok_bind, vget_eq_ok_of_lt (by omega), ok_bind]
    obtain ⟨cc, hcc, hy, -⟩ := points_nearest_to hT hq hne ((raises_convert _ _ qtype).1 hok)
    rw [hcc, ok_bind, vget_eq_ok_of_lt hi, ok_bind]
    obtain ⟨t', e1, e2, -⟩ := push1_ok (temp := b) (i := cc) (by omega) (values[i])
    exact ⟨t', e1, by omega⟩
  · intro b a ha hb hbad
    obtain ⟨i, hi, rfl⟩ := mem_upto.mp ha
    push Not at hbad
    obtain ⟨j, la, lo, hj, e1, e2, e3⟩ := hbad
    obtain rfl : i = j := by omega
    obtain ⟨g1, rfl⟩ := List.getElem?_eq_some_iff.mp e1
    obtain ⟨g2, rfl⟩ := List.getElem?_eq_some_iff.mp e2
    rw [p1, p2, vget_eq_ok_of_lt g1, ok_bind, vget_eq_ok_of_lt g2, ok_bind]
    obtain ⟨x, hx⟩ := raises_nearestPoint T (p := q) (by rw [q5]; exact e3)
    rw [hx]
    exact ⟨x, rfl⟩

/-- `neighbourhood_score` raises an exception exactly for a forecast of another size than the grid, a halfwidth that is not positive, and reference values
that cannot be put on the grid. A metric that does not exist terminates the process instead (`c67_score_partial`, in a parallel loop). -/
theorem c67_neighbourhood_score [HasGeo K] [LawfulSqrt K] {T : RTree K} (hT : T.Lawful) (rnd : Rnd K) {g : Grid K} {Y X : Nat}
    {glats glons : List (List (Fl K))} {type : CoordType} (hg : BuiltGrid g Y X glats glons type) {p : Points K} {lats lons : List (Fl K)}
    {ptype : CoordType} (hp : BuiltPoints p lats lons ptype) (row : List (Fl K)) (rows : List (List (Fl K))) (ref : List (Fl K)) (hw : Int)
    (metric : Metric) (threshold : Fl K) :
    Raises (neighbourhoodScore T rnd g p (row :: rows) ref hw metric threshold) ↔
      ¬ FieldFits Y X (row :: rows) ∨ hw ≤ 0 ∨ ref.length ≠ lats.length ∨ SomeUnusable type lats lons := by
  obtain ⟨c, hc, hcf⟩ := compatible_iff hg (row :: rows)
  unfold neighbourhoodScore
  rw [hc, ok_bind, raises_if, hcf, raises_if]
  refine or_congr Iff.rfl ?_
  by_cases hh : hw ≤ 0
  · simp [hh]
  · have hn : ∀ f, ¬ Raises (neighbourhood rnd f hw .mean) := by
      intro f
      rw [c67_neighbourhood_raises]
      simp; omega
    refine or_congr Iff.rfl ?_
    have hv : vget (row :: rows) 0 = ok row := rfl
    rw [hv, ok_bind]
    refine (raises_bind_first fun _ _ => not_raises_bind (c67_parallel _) fun _ => not_raises_bind (hn _) fun _ =>
      not_raises_bind (hn _) fun _ => not_raises_bind (hn _) fun _ => not_raises_bind (hn _) fun _ => c67_parallel _).trans ?_
    rw [c67_gridding_nearest_grid hT rnd hg hp]
    simp

/-- The constructor of the gamma transform reports exactly the unusable parameters. -/
theorem c67_gamma_transform (mk : Fl K → Fl K → Dist K) (norm : Dist K) (shape scale tolerance : Fl K) :
    Raises (Transform.newGamma mk norm shape scale tolerance) ↔
      (∃ x ∈ [shape, scale], ∀ a : K, x = fin a → a ≤ 0) ∨ ∀ a : K, tolerance = fin a → a < 0 := by
  have h1 : ∀ x : Fl K, (!isValid x || le x (fin 0)) = true ↔ ∀ a : K, x = fin a → a ≤ 0 := by
    intro x
    cases x <;> simp [isValid, le, le_iff_lt_or_eq]
  have h2 : ∀ x : Fl K, (!isValid x || lt x (fin 0)) = true ↔ ∀ a : K, x = fin a → a < 0 := by
    intro x
    cases x <;> simp [isValid, lt]
  unfold Transform.newGamma
  rw [raises_if, raises_if, raises_if, raises_iff_of_not (not_raises_ok _), h1, h1, h2]
  simp only [List.mem_cons, List.not_mem_nil, or_false, exists_eq_or_imp, exists_eq_left]
  rw [or_assoc]

end
end Gridpp.Props
