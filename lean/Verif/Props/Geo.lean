import Verif.Lemmas.Geo
import Verif.Base.Trig

/-! # C11–C14: neighbour queries of `KDTree` and `Points` (the grid versions are in `Verif.Props.Grid`)

`Located lats lons type i q`: position `i` of the coordinate vectors is located at the point `q` of space. -/

set_option linter.unusedSectionVars false

namespace Gridpp.Props
open Fl Res

variable {K : Type} [Field K] [LinearOrder K] [IsStrictOrderedRing K] [HasGeo K]

/-- Meaning of the coordinate conversion: Cartesian coordinates are (lon, lat, 0); geodetic ones are mapped by the sphere
formula when |lat| ≤ 90.001; anything else throws. -/
theorem convert_spec (lat lon : Fl K) :
    (∀ a o, lat = fin a → lon = fin o → convertCoordinates lat lon .cartesian = ok ⟨o, a, 0⟩) ∧
    (∀ a o, lat = fin a → lon = fin o → |a| ≤ 90001 / 1000 → convertCoordinates lat lon .geodetic = ok (HasGeo.geo a o)) ∧
    (∀ a, lat = fin a → 90001 / 1000 < |a| → convertCoordinates lat lon .geodetic = .throw .invalidArgument) ∧
    (∀ type, lat.isValid = false ∨ lon.isValid = false → convertCoordinates lat lon type = .throw .invalidArgument) := by
  refine ⟨?_, ?_, ?_, ?_⟩
  · rintro a o rfl rfl; simp [convertCoordinates, isValidLat, isValidLon]
  · rintro a o rfl rfl h
    rw [abs_le] at h
    have h1 : ¬ (a < -(90001 / 1000)) := not_lt.mpr h.1
    have h2 : ¬ (90001 / 1000 < a) := not_lt.mpr h.2
    simp [convertCoordinates, isValidLat, isValidLon, h1, h2]
  · rintro a rfl h
    rw [lt_abs] at h
    have : a < -(90001 / 1000) ∨ 90001 / 1000 < a := by
      rcases h with h | h
      · exact Or.inr h
      · exact Or.inl (by linarith)
    unfold convertCoordinates
    rw [if_pos]
    rcases this with h | h <;> simp [isValidLat, h]
  · intro type h
    unfold convertCoordinates
    rw [if_pos]
    rcases h with h | h <;> cases type <;> simp [isValidLat, isValidLon, h]

/-- The points a query may return: all, or those not coinciding with the query point. -/
def Eligible (includeMatch : Bool) (p q : Pt3 K) : Prop := includeMatch = true ∨ q ≠ p

theorem isNotEqual_iff (p : Pt3 K) (v : Pt3 K × Nat) : isNotEqual p v = true ↔ v.1 ≠ p := by
  obtain ⟨⟨x, y, z⟩, i⟩ := v
  obtain ⟨x', y', z'⟩ := p
  simp only [isNotEqual, decide_eq_true_eq, ne_eq, Pt3.mk.injEq]
  constructor
  · rintro (h | h | h) ⟨rfl, rfl, rfl⟩ <;> exact h rfl
  · intro h
    by_contra hc
    push Not at hc
    exact h ⟨hc.1.symm, hc.2.1.symm, hc.2.2.symm⟩

/-- The predicate of the nearest query. -/
theorem closest_eq {T : RTree K} (t : KDTree K) (lat lon : Fl K) (p : Pt3 K) (hp : convertCoordinates lat lon t.type = ok p)
    (num : Nat) (hn : 0 < num) (inc : Bool) :
    ∃ pred : Pt3 K × Nat → Bool, (∀ v, pred v = true ↔ Eligible inc p v.1) ∧
      t.getClosestNeighbours T lat lon num inc = ok ((T.nearest t.values p num pred).map Prod.snd) := by
  unfold KDTree.getClosestNeighbours
  rw [hp, ok_bind, if_neg (by omega)]
  cases inc with
  | true => exact ⟨fun _ => true, fun v => by simp [Eligible], rfl⟩
  | false => exact ⟨isNotEqual p, fun v => by rw [isNotEqual_iff]; simp [Eligible], rfl⟩

/-- Shared by C11 for trees and grids. -/
theorem closest_one {T : RTree K} (hT : T.Lawful) {t : KDTree K} (ht : t.WF) [LawfulSqrt K] (lat lon : Fl K) (p : Pt3 K)
    (hp : convertCoordinates lat lon t.type = ok p) (inc : Bool) :
    (∃ i q, t.getClosestNeighbours T lat lon 1 inc = ok [i] ∧ Located t.lats t.lons t.type i q ∧ Eligible inc p q ∧
      ∀ j q', Located t.lats t.lons t.type j q' → Eligible inc p q' → straightDistance q p ≤ straightDistance q' p) ∨
    (t.getClosestNeighbours T lat lon 1 inc = ok [] ∧ ∀ j q', Located t.lats t.lons t.type j q' → ¬ Eligible inc p q') := by
  obtain ⟨pred, hpred, he⟩ := closest_eq (T := T) t lat lon p hp 1 (by omega) inc
  rw [show ((1 : Nat) : Int) = 1 from rfl] at he
  rw [he]
  rcases hT.nearest_one t.values p pred with ⟨h1, h2⟩ | ⟨a, h1, h2, h3⟩
  · right
    refine ⟨by rw [h1]; rfl, fun j q' hj hel => ?_⟩
    have : (q', j) ∈ t.values.filter pred := List.mem_filter.mpr ⟨ht.located.mpr hj, (hpred _).mpr hel⟩
    rw [h2] at this; cases this
  · left
    obtain ⟨hm, hpa⟩ := List.mem_filter.mp h2
    refine ⟨a.2, a.1, by rw [h1]; rfl, ht.located.mp hm, (hpred _).mp hpa, fun j q' hj hel => ?_⟩
    rw [straightDistance_le]
    exact h3 (q', j) (List.mem_filter.mpr ⟨ht.located.mpr hj, (hpred _).mpr hel⟩)

/-- **C11** (`Points`). A valid query returns the index of an eligible location such that no other eligible location is
closer; -1 exactly when there is no eligible location (in particular for no points). Invalid queries throw. -/
theorem c11_points {T : RTree K} (hT : T.Lawful) [LawfulSqrt K] (lats lons elevs lafs : List (Fl K)) (type : CoordType) (P : Points K)
    (hP : Points.new lats lons elevs lafs type = ok P) (lat lon : Fl K) (inc : Bool) :
    (∀ p, convertCoordinates lat lon type = ok p →
      (∃ (i : Nat) (q : Pt3 K), P.getNearestNeighbour T lat lon inc = ok (i : Int) ∧ i < lats.length ∧
        Located lats lons type i q ∧ Eligible inc p q ∧
        ∀ j q', Located lats lons type j q' → Eligible inc p q' → straightDistance q p ≤ straightDistance q' p) ∨
      (P.getNearestNeighbour T lat lon inc = ok (-1) ∧ ∀ j q', Located lats lons type j q' → ¬ Eligible inc p q')) ∧
    (∀ e, convertCoordinates lat lon type = .throw e → P.getNearestNeighbour T lat lon inc = .throw e) := by
  obtain ⟨-, -, -, -, e1, e2, e3, hw, -⟩ := Points.new_ok hP
  constructor
  · intro p hp
    rw [← e3] at hp
    unfold Points.getNearestNeighbour Points.getClosestNeighbours
    rcases closest_one hT hw lat lon p hp inc with ⟨i, q, h1, h2, h3, h4⟩ | ⟨h1, h2⟩
    · left
      rw [e1, e2, e3] at h2 h4
      exact ⟨i, q, by rw [h1]; rfl, h2.lt, h2, h3, h4⟩
    · right
      rw [e1, e2, e3] at h2
      exact ⟨by rw [h1]; rfl, h2⟩
  · intro e he
    rw [← e3] at he
    unfold Points.getNearestNeighbour Points.getClosestNeighbours KDTree.getClosestNeighbours
    rw [he]; rfl

/-- **C11** (`KDTree`, remark). Unlike `Points`, the tree's own `get_nearest_neighbour` reads element 0 of an empty
vector when there is no eligible point. -/
theorem c11_kdtree_empty_reads_outside {T : RTree K} (hT : T.Lawful) [LawfulSqrt K] (lat lon : Fl K) (type : CoordType) (p : Pt3 K)
    (hp : convertCoordinates lat lon type = ok p) (inc : Bool) :
    (KDTree.empty type : KDTree K).getNearestNeighbour T lat lon inc = ub := by
  have hw : (KDTree.empty type : KDTree K).WF := ⟨rfl, fun i h => absurd h (by simp [KDTree.empty])⟩
  unfold KDTree.getNearestNeighbour
  rcases closest_one hT hw lat lon p hp inc with ⟨i, q, h1, h2, h3, h4⟩ | ⟨h1, h2⟩
  · exact absurd h2.lt (by simp [KDTree.empty])
  · rw [h1]; rfl

/-- **C14**. `get_closest_neighbours` returns `min num (number of eligible locations)` distinct indices of eligible
locations, none farther than an eligible location left out. (`num <= 0` is outside the contract of the r-tree.) -/
theorem c14_closest {T : RTree K} (hT : T.Lawful) [LawfulSqrt K] (lats lons : List (Fl K)) (type : CoordType) (t : KDTree K)
    (ht : KDTree.new lats lons type = ok t) (lat lon : Fl K) (p : Pt3 K) (hp : convertCoordinates lat lon type = ok p)
    (num : Nat) (hn : 0 < num) (inc : Bool) :
    ∃ l : List Nat, t.getClosestNeighbours T lat lon num inc = ok l ∧ l.Nodup ∧
      (∀ i ∈ l, i < lats.length ∧ ∃ q, Located lats lons type i q ∧ Eligible inc p q) ∧
      (∀ i ∈ l, ∀ j, j ∉ l → ∀ q q', Located lats lons type i q → Located lats lons type j q' → Eligible inc p q' →
        straightDistance q p ≤ straightDistance q' p) ∧
      (∀ es : List Nat, es.Nodup → (∀ j, j ∈ es ↔ ∃ q, Located lats lons type j q ∧ Eligible inc p q) →
        l.length = min num es.length) := by
  obtain ⟨e1, e2, e3, hw⟩ := KDTree.new_ok ht
  subst e1 e2 e3
  obtain ⟨pred, hpred, he⟩ := closest_eq (T := T) t lat lon p hp num hn inc
  obtain ⟨rest, h1, h2, h3⟩ := hT.nearest_spec t.values p num pred hn
  have hmem : ∀ v, v ∈ t.values.filter pred ↔ Located t.lats t.lons t.type v.2 v.1 ∧ Eligible inc p v.1 := by
    intro v
    rw [List.mem_filter, hpred]
    exact and_congr_left fun _ => hw.located (i := v.2) (q := v.1)
  have hnd : ((t.values.filter pred).map Prod.snd).Nodup :=
    (nodup_snd_zipIdx t.pts).sublist ((List.filter_sublist (p := pred) (l := t.values)).map Prod.snd)
  have hnd2 : ((T.nearest t.values p num pred ++ rest).map Prod.snd).Nodup := (h1.map Prod.snd).nodup_iff.mpr hnd
  rw [List.map_append] at hnd2
  refine ⟨_, he, (List.nodup_append.mp hnd2).1, ?_, ?_, ?_⟩
  · intro i hi
    obtain ⟨v, hv, rfl⟩ := List.mem_map.mp hi
    have hv' := (hmem v).mp (h1.subset (List.mem_append_left _ hv))
    exact ⟨hv'.1.lt, v.1, hv'.1, hv'.2⟩
  · intro i hi j hj q q' hq hq' hel
    obtain ⟨v, hv, rfl⟩ := List.mem_map.mp hi
    have hv' := (hmem v).mp (h1.subset (List.mem_append_left _ hv))
    rw [hq.unique hv'.1, straightDistance_le]
    have hb : (q', j) ∈ T.nearest t.values p num pred ++ rest := h1.symm.subset ((hmem (q', j)).mpr ⟨hq', hel⟩)
    rcases List.mem_append.mp hb with hb | hb
    · exact absurd (List.mem_map.mpr ⟨_, hb, rfl⟩) hj
    · exact h3 v hv _ hb
  · intro es hes hes'
    rw [List.length_map, h2]
    congr 1
    have : ((t.values.filter pred).map Prod.snd).Perm es := by
      rw [List.perm_ext_iff_of_nodup hnd hes]
      intro j
      rw [hes', List.mem_map]
      constructor
      · rintro ⟨v, hv, rfl⟩; exact ⟨v.1, (hmem v).mp hv⟩
      · rintro ⟨q, hq⟩; exact ⟨(q, j), (hmem (q, j)).mpr hq, rfl⟩
    rw [← this.length_eq, List.length_map]

/-- `q` sits exactly at distance `r` from `p` along a coordinate axis. -/
def OnAxis (p q : Pt3 K) (r : K) : Prop := |q.x - p.x| = r ∨ |q.y - p.y| = r ∨ |q.z - p.z| = r

/-- **C12** (exact extent). Missing from C12: a location at distance exactly `radius` *along a coordinate axis* is not
returned (the box test is strict); with this one exception the result lists, each once, the indices of the eligible
locations within the radius. -/
theorem c12_neighbours_partial {T : RTree K} (hT : T.Lawful) [LawfulSqrt K] (lats lons : List (Fl K)) (type : CoordType) (t : KDTree K)
    (ht : KDTree.new lats lons type = ok t) (lat lon : Fl K) (p : Pt3 K) (hp : convertCoordinates lat lon type = ok p)
    (r : K) (inc : Bool) :
    ∃ l : List Nat, t.getNeighbours T lat lon (fin r) inc = ok l ∧ l.Nodup ∧
      ∀ i, i ∈ l ↔ ∃ q, Located lats lons type i q ∧ straightDistance q p ≤ r ∧ ¬ OnAxis p q r ∧ Eligible inc p q := by
  obtain ⟨e1, e2, e3, hw⟩ := KDTree.new_ok ht
  subst e1 e2 e3
  unfold KDTree.getNeighbours
  rw [hp, ok_bind]
  set pred : Pt3 K × Nat → Bool := fun v => insideBox p (fin r) v && withinRadius p (fin r) inc v with hpred
  have hsel := hT.select_perm t.values pred
  have hnd : ((t.values.filter pred).map Prod.snd).Nodup :=
    (nodup_snd_zipIdx t.pts).sublist ((List.filter_sublist (p := pred) (l := t.values)).map Prod.snd)
  refine ⟨_, rfl, (hsel.map Prod.snd).nodup_iff.mpr hnd, fun i => ?_⟩
  rw [(hsel.map Prod.snd).mem_iff, List.mem_map]
  have key : ∀ v : Pt3 K × Nat, pred v = true ↔ straightDistance v.1 p ≤ r ∧ ¬ OnAxis p v.1 r ∧ Eligible inc p v.1 := by
    intro v
    have hsq := straightDistance_sq v.1 p
    have hnn := straightDistance_nonneg v.1 p
    have hw' : withinRadius p (fin r) inc v = true ↔ straightDistance v.1 p ≤ r ∧ Eligible inc p v.1 := by
      unfold withinRadius Eligible
      cases inc with
      | true => simp
      | false => simp [zero_def, straightDistance_pos]
    rw [hpred]
    simp only [Bool.and_eq_true]
    rw [insideBox_iff, hw']
    constructor
    · rintro ⟨⟨h1, h2, h3⟩, h4, h5⟩
      refine ⟨h4, ?_, h5⟩
      rintro (h | h | h)
      · exact absurd h h1.ne
      · exact absurd h h2.ne
      · exact absurd h h3.ne
    · rintro ⟨h4, hax, h5⟩
      have hr : 0 ≤ r := hnn.trans h4
      have hle : sqDist v.1 p ≤ r * r := by rw [← hsq]; exact mul_self_le_mul_self hnn h4
      have b : ∀ d o1 o2 : K, sqDist v.1 p = d * d + o1 * o1 + o2 * o2 → |d| ≤ r := by
        intro d o1 o2 he
        have n1 := mul_self_nonneg o1
        have n2 := mul_self_nonneg o2
        have : d * d ≤ r * r := by linarith
        exact abs_le_of_sq_le_sq (by simpa [sq] using this) hr
      unfold OnAxis at hax
      push Not at hax
      refine ⟨⟨lt_of_le_of_ne (b _ (v.1.y - p.y) (v.1.z - p.z) ?_) hax.1,
        lt_of_le_of_ne (b _ (v.1.x - p.x) (v.1.z - p.z) ?_) hax.2.1,
        lt_of_le_of_ne (b _ (v.1.x - p.x) (v.1.y - p.y) ?_) hax.2.2⟩, h4, h5⟩ <;> (unfold sqDist; ring)
  constructor
  · rintro ⟨v, hv, rfl⟩
    obtain ⟨hm, hp'⟩ := List.mem_filter.mp hv
    obtain ⟨h1, h2, h3⟩ := (key v).mp hp'
    exact ⟨v.1, hw.located.mp hm, h1, h2, h3⟩
  · rintro ⟨q, hq, h1, h2, h3⟩
    exact ⟨(q, i), List.mem_filter.mpr ⟨hw.located.mpr hq, (key (q, i)).mpr ⟨h1, h2, h3⟩⟩, rfl⟩

/-- **C12** (strictly inside the radius nothing is lost). -/
theorem c12_strict_partial {T : RTree K} (hT : T.Lawful) [LawfulSqrt K] (lats lons : List (Fl K)) (type : CoordType) (t : KDTree K)
    (ht : KDTree.new lats lons type = ok t) (lat lon : Fl K) (p : Pt3 K) (hp : convertCoordinates lat lon type = ok p)
    (r : K) (inc : Bool) :
    ∃ l : List Nat, t.getNeighbours T lat lon (fin r) inc = ok l ∧
      (∀ i q, Located lats lons type i q → straightDistance q p < r → Eligible inc p q → i ∈ l) ∧
      (∀ i q, Located lats lons type i q → i ∈ l → straightDistance q p ≤ r ∧ Eligible inc p q) := by
  obtain ⟨l, h1, -, h3⟩ := c12_neighbours_partial hT lats lons type t ht lat lon p hp r inc
  refine ⟨l, h1, fun i q hq hlt hel => ?_, fun i q hq hi => ?_⟩
  · refine (h3 i).mpr ⟨q, hq, hlt.le, ?_, hel⟩
    have hsq := straightDistance_sq q p
    have hnn := straightDistance_nonneg q p
    have hr : 0 ≤ r := hnn.trans hlt.le
    have hlt2 : sqDist q p < r * r := by rw [← hsq]; exact mul_self_lt_mul_self hnn hlt
    have n1 := mul_self_nonneg (q.x - p.x)
    have n2 := mul_self_nonneg (q.y - p.y)
    have n3 := mul_self_nonneg (q.z - p.z)
    unfold sqDist at hlt2
    rintro (h | h | h)
    all_goals
      have := abs_mul_abs_self (q.x - p.x)
      have := abs_mul_abs_self (q.y - p.y)
      have := abs_mul_abs_self (q.z - p.z)
      rw [h] at *
      linarith
  · obtain ⟨q', hq', h4, -, h5⟩ := (h3 i).mp hi
    rw [hq.unique hq']
    exact ⟨h4, h5⟩

/-- **C13**. Count = length of the list; the list with distances is the same list, and the distance listed for an index is
the distance of that location. -/
theorem c13_agree {T : RTree K} (hT : T.Lawful) [LawfulSqrt K] (lats lons : List (Fl K)) (type : CoordType) (t : KDTree K)
    (ht : KDTree.new lats lons type = ok t) (lat lon : Fl K) (p : Pt3 K) (hp : convertCoordinates lat lon type = ok p)
    (r : K) (inc : Bool) :
    ∃ (l : List Nat) (ds : List K), t.getNeighbours T lat lon (fin r) inc = ok l ∧
      t.getNumNeighbours T lat lon (fin r) inc = ok l.length ∧
      t.getNeighboursWithDistance T lat lon (fin r) inc = ok (l, ds.map fin) ∧
      List.Forall₂ (fun i d => ∃ q, Located lats lons type i q ∧ d = straightDistance q p ∧ d ≤ r) l ds := by
  obtain ⟨l, h1, h2, h3⟩ := c12_neighbours_partial hT lats lons type t ht lat lon p hp r inc
  obtain ⟨e1, e2, e3, hw⟩ := KDTree.new_ok ht
  subst e1 e2 e3
  have hds : ∃ ds : List K, mapM (fun i : Nat => do
      let la ← vget t.lats (i : Int)
      let lo ← vget t.lons (i : Int)
      let p1 ← convertCoordinates la lo t.type
      ok (fin (straightDistance p p1))) l = ok (ds.map (fin : K → Fl K)) ∧
      List.Forall₂ (fun i d => ∃ q, Located t.lats t.lons t.type i q ∧ d = straightDistance q p ∧ d ≤ r) l ds := by
    have hl : ∀ i ∈ l, ∃ q, Located t.lats t.lons t.type i q ∧ straightDistance q p ≤ r := fun i hi => by
      obtain ⟨q, a, b, -⟩ := (h3 i).mp hi; exact ⟨q, a, b⟩
    clear h1 h2 h3
    induction l with
    | nil => exact ⟨[], rfl, List.Forall₂.nil⟩
    | cons i l ih =>
      obtain ⟨ds, e1, e2⟩ := ih fun j hj => hl j (List.mem_cons_of_mem _ hj)
      obtain ⟨q, hq, hle⟩ := hl i (by simp)
      have hq0 := hq
      obtain ⟨la, lo, a1, a2, a3⟩ := hq
      refine ⟨straightDistance q p :: ds, ?_, List.Forall₂.cons ⟨q, hq0, rfl, hle⟩ e2⟩
      rw [mapM_cons, e1, vget_nat_eq_ok.mpr a1, vget_nat_eq_ok.mpr a2]
      simp only [ok_bind, a3, straightDistance_comm p q]
      rfl
  obtain ⟨ds, hd1, hd2⟩ := hds
  refine ⟨l, ds, h1, ?_, ?_, hd2⟩
  · unfold KDTree.getNumNeighbours; rw [h1]; rfl
  · unfold KDTree.getNeighboursWithDistance
    rw [hp, ok_bind, h1, ok_bind, hd1]; rfl

/-- **C12** is false: the location 3 away along the x axis is not returned for radius 3, although the one 3 away in an
oblique direction would be; with radius 0 even the coinciding location is lost. -/
theorem c12_boundary_counterexample :
    (do let t ← KDTree.new [fin (0 : ℚ), fin 0, fin (12 / 5)] [fin 0, fin 3, fin (9 / 5)] .cartesian
        t.getNeighbours RTree.scan (fin 0) (fin 0) (fin 3) true) = ok [0, 2] ∧
    (do let t ← KDTree.new [fin (0 : ℚ)] [fin 0] .cartesian
        t.getNeighbours RTree.scan (fin 0) (fin 0) (fin 0) true) = ok [] := by
  decide +kernel

/-- Non-vacuity for C11–C14: the contract of the tree can be met, points can be constructed, queries can be converted. -/
example : (RTree.scan : RTree ℝ).Lawful ∧
    (∃ P : Points ℝ, Points.new [fin 1, fin 2] [fin 3, fin 4] [] [] .cartesian = ok P) ∧
    convertCoordinates (fin 1) (fin 7) .cartesian = (ok ⟨7, 1, 0⟩ : Res (Pt3 ℝ)) := by
  refine ⟨RTree.scan_lawful, ?_, ?_⟩
  · exact ⟨_, by simp [Points.new, KDTree.new, List.range_succ, convertCoordinates, isValidLat, isValidLon, vget]; rfl⟩
  · simp [convertCoordinates, isValidLat, isValidLon]

example : (do let P ← Points.new [fin (0 : ℚ), fin 5, fin 5] [fin 0, fin 3, fin 7] [] [] .cartesian
              P.getNearestNeighbour RTree.scan (fin 5) (fin 3) true) = ok 1 ∧
    (do let P ← Points.new [fin (0 : ℚ), fin 5, fin 5] [fin 0, fin 3, fin 7] [] [] .cartesian
        P.getNearestNeighbour RTree.scan (fin 5) (fin 3) false) = ok 2 ∧
    (do let P ← Points.new [fin (5 : ℚ)] [fin 3] [] [] .cartesian
        P.getNearestNeighbour RTree.scan (fin 5) (fin 3) false) = ok (-1) := by decide +kernel

end Gridpp.Props
