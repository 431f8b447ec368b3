import Verif.Lemmas.Box

/-! # C11 (grids), C15–C19: `Grid` and `Points` objects -/

set_option linter.unusedSectionVars false

namespace Gridpp.Props
open Fl Res

variable {K : Type} [Field K] [LinearOrder K] [IsStrictOrderedRing K] [HasGeo K]

/-- A cell other than by its coincidence with the query. -/
theorem grid_nearest {T : RTree K} (hT : T.Lawful) [LawfulSqrt K] {g : Grid K} {Y X : Nat} (hg : g.WF Y X) (lat lon : Fl K) (p : Pt3 K)
    (hp : convertCoordinates lat lon g.tree.type = ok p) (inc : Bool) :
    (∃ c q, g.getNearestNeighbour T lat lon inc = ok (some c) ∧ c.1 < Y ∧ c.2 < X ∧
        CellAt g.lats g.lons g.tree.type c q ∧ Eligible inc p q ∧
        ∀ c' q', CellAt g.lats g.lons g.tree.type c' q' → Eligible inc p q' → straightDistance q p ≤ straightDistance q' p) ∨
      (g.getNearestNeighbour T lat lon inc = ok none ∧ ∀ c' q', CellAt g.lats g.lons g.tree.type c' q' → ¬ Eligible inc p q') := by
  unfold Grid.getNearestNeighbour Grid.getClosestNeighbours
  rcases closest_one hT hg.tree lat lon p hp inc with ⟨i, q, h1, h2, h3, h4⟩ | ⟨h1, h2⟩
  · left
    have hi : i < Y * X := by rw [← flatten_length hg.lats, ← hg.tlats]; exact h2.lt
    have hc := hg.located.mp h2
    refine ⟨(i / X, i % X), q, ?_, (hg.cellAt_lt hc).1, (hg.cellAt_lt hc).2, hc, h3, fun c' q' hc' he => h4 _ q' (hg.cellAt_located hc') he⟩
    rw [h1, ok_bind]
    unfold Grid.getIndicesVec
    simp [mapM_cons, hg.getIndices hi]
  · right
    exact ⟨by rw [h1]; rfl, fun c' q' hc' => h2 _ q' (hg.cellAt_located hc')⟩

/-- **C11** (`Grid`). A valid query returns an eligible cell such that no other eligible cell is closer, and the empty
vector (`none`) exactly when no cell is eligible. Invalid queries throw. -/
theorem c11_grid {T : RTree K} (hT : T.Lawful) [LawfulSqrt K] (Y X : Nat) (hY : 0 < Y) (hX : 0 < X)
    (lats lons elevs lafs : List (List (Fl K))) (type : CoordType) (g : Grid K)
    (h1 : Rect Y X lats) (h2 : Rect Y X lons) (h3 : elevs = [] ∨ Rect Y X elevs) (h4 : lafs = [] ∨ Rect Y X lafs)
    (hg : Grid.new lats lons elevs lafs type = ok g) (lat lon : Fl K) (inc : Bool) :
    (∀ p, convertCoordinates lat lon type = ok p →
      (∃ c q, g.getNearestNeighbour T lat lon inc = ok (some c) ∧ c.1 < Y ∧ c.2 < X ∧
        CellAt lats lons type c q ∧ Eligible inc p q ∧
        ∀ c' q', CellAt lats lons type c' q' → Eligible inc p q' → straightDistance q p ≤ straightDistance q' p) ∨
      (g.getNearestNeighbour T lat lon inc = ok none ∧ ∀ c' q', CellAt lats lons type c' q' → ¬ Eligible inc p q')) ∧
    (∀ e, convertCoordinates lat lon type = .throw e → g.getNearestNeighbour T lat lon inc = .throw e) := by
  obtain ⟨hw, e1, e2, e3, -, -⟩ := Grid.new_ok hY hX h1 h2 h3 h4 hg
  constructor
  · intro p hp
    rw [← e3] at hp
    have := grid_nearest hT hw lat lon p hp inc
    rw [e1, e2, e3] at this
    exact this
  · intro e he
    rw [← e3] at he
    unfold Grid.getNearestNeighbour Grid.getClosestNeighbours KDTree.getClosestNeighbours
    rw [he]; rfl

/-- **C11** (`Grid`, empty). The default-constructed grid answers every valid query with the empty vector. -/
theorem c11_grid_empty {T : RTree K} (hT : T.Lawful) [LawfulSqrt K] (lons elevs lafs : List (List (Fl K))) (type : CoordType) (lat lon : Fl K)
    (p : Pt3 K) (hp : convertCoordinates lat lon .geodetic = ok p) (inc : Bool) :
    ∃ g : Grid K, Grid.new [] lons elevs lafs type = ok g ∧ g.getNearestNeighbour T lat lon inc = ok none ∧ g.size = ok (0, 0) ∧
      g.getBox T lat lon = ok none := by
  refine ⟨_, rfl, ?_⟩
  have hn : ∀ inc, (⟨[], [], [], [], 0, KDTree.empty .geodetic⟩ : Grid K).getNearestNeighbour T lat lon inc = ok none := by
    intro inc
    have hw : (KDTree.empty .geodetic : KDTree K).WF := ⟨rfl, fun i h => absurd h (by simp [KDTree.empty])⟩
    unfold Grid.getNearestNeighbour Grid.getClosestNeighbours
    rcases closest_one hT hw lat lon p hp inc with ⟨i, q, h1, h2, h3, h4⟩ | ⟨h1, h2⟩
    · exact absurd h2.lt (by simp [KDTree.empty])
    · rw [h1]; rfl
  refine ⟨hn inc, rfl, ?_⟩
  unfold Grid.getBox
  rw [hn true]; rfl

/-- **C15** (sizes, indices and metadata). -/
theorem c15_grid (Y X : Nat) (hY : 0 < Y) (hX : 0 < X)
    (lats lons elevs lafs : List (List (Fl K))) (type : CoordType) (g : Grid K)
    (h1 : Rect Y X lats) (h2 : Rect Y X lons) (h3 : elevs = [] ∨ Rect Y X elevs) (h4 : lafs = [] ∨ Rect Y X lafs)
    (hg : Grid.new lats lons elevs lafs type = ok g) :
    g.size = ok (Y, X) ∧ g.type = type ∧
    (∀ i, i < Y * X → g.getIndices i = ok (i / X, i % X)) ∧
    (∀ i, Y * X ≤ i → g.getIndices i = abort) ∧
    Rect Y X g.elevs ∧ Rect Y X g.lafs ∧
    (∀ y < Y, ∀ x < X, cell? g.elevs y x = if elevs = [] then some nan else cell? elevs y x) ∧
    (∀ y < Y, ∀ x < X, cell? g.lafs y x = if lafs = [] then some nan else cell? lafs y x) ∧
    ∃ P, g.toPoints = ok P ∧ P.size = Y * X ∧ P.type = type ∧ P.lats = lats.flatten ∧ P.lons = lons.flatten ∧
      P.elevs = g.elevs.flatten ∧ P.lafs = g.lafs.flatten := by
  obtain ⟨hw, e1, e2, e3, e4, e5⟩ := Grid.new_ok hY hX h1 h2 h3 h4 hg
  refine ⟨hw.size, e3, fun i hi => hw.getIndices hi, fun i hi => ?_, hw.elevs, hw.lafs, ?_, ?_, ?_⟩
  · unfold Grid.getIndices
    rw [hw.tree_size, decide_eq_false (by omega)]; rfl
  · intro y hy x hx
    obtain ⟨-, ha, hb⟩ := gridMeta_rect (m := elevs) h3 hY
    rw [e4]
    split_ifs with h
    · rw [ha h, cell?_initVec2 _ hy hx]
    · rw [hb (h3.resolve_left h)]
  · intro y hy x hx
    obtain ⟨-, ha, hb⟩ := gridMeta_rect (m := lafs) h4 hY
    rw [e5]
    split_ifs with h
    · rw [ha h, cell?_initVec2 _ hy hx]
    · rw [hb (h4.resolve_left h)]
  · refine ⟨Points.ofTree g.tree g.elevs.flatten g.lafs.flatten, ?_, ?_, e3, ?_, ?_, rfl, rfl⟩
    · unfold Grid.toPoints
      rw [hw.size]
      simp only [ok_bind, grid2_copy hw.elevs, grid2_copy hw.lafs]
    · show g.tree.lats.length = _
      rw [hw.tlats, flatten_length hw.lats]
    · show g.tree.lats = _
      rw [hw.tlats, e1]
    · show g.tree.lons = _
      rw [hw.tlons, e2]

/-- Row-major order is a bijection: flat indices below `Y * X` and cells of the `Y` by `X` grid correspond one to one. -/
theorem c15_bijection (Y X : Nat) :
    (∀ i, i < Y * X → i / X < Y ∧ i % X < X ∧ (i / X) * X + i % X = i) ∧
    (∀ y < Y, ∀ x < X, y * X + x < Y * X ∧ (y * X + x) / X = y ∧ (y * X + x) % X = x) := by
  constructor
  · intro i hi
    have hX : 0 < X := Nat.pos_of_ne_zero (by rintro rfl; simp at hi)
    exact ⟨Nat.div_lt_of_lt_mul (by rw [Nat.mul_comm]; exact hi), Nat.mod_lt _ hX, by rw [Nat.mul_comm]; exact Nat.div_add_mod i X⟩
  · intro y hy x hx
    have hd := div_mod_of_lt (y := y) hx
    refine ⟨?_, congrArg Prod.fst hd, congrArg Prod.snd hd⟩
    calc y * X + x < y * X + X := by omega
      _ = (y + 1) * X := by rw [Nat.add_mul]; omega
      _ ≤ Y * X := Nat.mul_le_mul_right _ hy

/-- The lists of `to_points` have the value of cell `(i / X, i % X)` at position `i`. -/
theorem c15_flatten {α : Type} (Y X : Nat) (hX : 0 < X) (a : List (List α)) (h : Rect Y X a) (i : Nat) :
    a.flatten[i]? = cell? a (i / X) (i % X) := flatten_getElem?_div h hX i

/-- **C15** (`get_point`). -/
theorem c15_get_point (Y X : Nat) (hY : 0 < Y) (hX : 0 < X)
    (lats lons elevs lafs : List (List (Fl K))) (type : CoordType) (g : Grid K)
    (h1 : Rect Y X lats) (h2 : Rect Y X lons) (h3 : elevs = [] ∨ Rect Y X elevs) (h4 : lafs = [] ∨ Rect Y X lafs)
    (hg : Grid.new lats lons elevs lafs type = ok g) (y x : Nat) (hy : y < Y) (hx : x < X) :
    ∃ (pt : Point K) (q : Pt3 K), g.getPoint y x = ok pt ∧ cell? lats y x = some pt.lat ∧ cell? lons y x = some pt.lon ∧
      cell? g.elevs y x = some pt.elev ∧ cell? g.lafs y x = some pt.laf ∧ pt.type = type ∧
      CellAt lats lons type (y, x) q ∧ pt.x = fin q.x ∧ pt.y = fin q.y ∧ pt.z = fin q.z := by
  obtain ⟨hw, e1, e2, e3, e4, e5⟩ := Grid.new_ok hY hX h1 h2 h3 h4 hg
  obtain ⟨q, hq⟩ := hw.exists_cellAt hy hx
  have hl := hw.cellAt_located hq
  simp only at hl
  have hm := mem_zipIdx_iff.mp (hw.tree.located.mpr hl)
  obtain ⟨la, lo, c1, c2, c3⟩ := hq
  simp only at c1 c2
  obtain ⟨el, he1, he2⟩ := vget2_of_rect hw.elevs hy hx
  obtain ⟨lf, hf1, hf2⟩ := vget2_of_rect hw.lafs hy hx
  refine ⟨⟨la, lo, el, lf, g.type, fin q.x, fin q.y, fin q.z⟩, q, ?_, by rw [← e1, c1], by rw [← e2, c2], he1, hf1, e3, ?_, rfl, rfl, rfl⟩
  · unfold Grid.getPoint
    have hv : vget g.tree.pts ((y : Int) * (g.nx : Int) + (x : Int)) = ok q := by
      rw [hw.nx, show (y : Int) * (X : Int) + (x : Int) = ((y * X + x : Nat) : Int) by push_cast; ring]
      exact vget_nat_eq_ok.mpr hm
    simp only [vget2_of_cell? c1, vget2_of_cell? c2, he2, hf2, hv, ok_bind]
  · rw [← e1, ← e2, ← e3]; exact ⟨la, lo, c1, c2, c3⟩

/-- What a flat answer becomes on the grid. -/
def toCells (X : Nat) (l : List Nat) : List (Nat × Nat) := l.map fun i => (i / X, i % X)

theorem getIndicesVec_ok {g : Grid K} {Y X : Nat} (h : g.WF Y X) (l : List Nat) (hl : ∀ i ∈ l, i < Y * X) :
    g.getIndicesVec l = ok (toCells X l) := by
  unfold Grid.getIndicesVec toCells
  exact mapM_ok fun i hi => h.getIndices (hl i hi)

/-- **C15** (queries). Every grid query gives the cells of the flat indices the same query on `to_points()` gives, and
throws when that throws. Together with C11–C14 this describes all grid queries. -/
theorem c15_queries {T : RTree K} (hT : T.Lawful) [LawfulSqrt K] (Y X : Nat) (hY : 0 < Y) (hX : 0 < X)
    (lats lons elevs lafs : List (List (Fl K))) (type : CoordType) (g : Grid K)
    (h1 : Rect Y X lats) (h2 : Rect Y X lons) (h3 : elevs = [] ∨ Rect Y X elevs) (h4 : lafs = [] ∨ Rect Y X lafs)
    (hg : Grid.new lats lons elevs lafs type = ok g) (P : Points K) (hP : g.toPoints = ok P) (lat lon : Fl K) (p : Pt3 K)
    (hp : convertCoordinates lat lon type = ok p) (r : K) (num : Nat) (hn : 0 < num) (inc : Bool) :
    (∃ l, P.getNeighbours T lat lon (fin r) inc = ok l ∧ g.getNeighbours T lat lon (fin r) inc = ok (toCells X l) ∧
      g.getNumNeighbours T lat lon (fin r) inc = ok l.length) ∧
    (∃ l ds, P.getNeighboursWithDistance T lat lon (fin r) inc = ok (l, ds) ∧
      g.getNeighboursWithDistance T lat lon (fin r) inc = ok (toCells X l, ds)) ∧
    (∃ l, P.getClosestNeighbours T lat lon num inc = ok l ∧ g.getClosestNeighbours T lat lon num inc = ok (toCells X l)) ∧
    ((∃ i : Nat, P.getNearestNeighbour T lat lon inc = ok (i : Int) ∧ g.getNearestNeighbour T lat lon inc = ok (some (i / X, i % X))) ∨
      (P.getNearestNeighbour T lat lon inc = ok (-1) ∧ g.getNearestNeighbour T lat lon inc = ok none)) := by
  obtain ⟨hw, e1, e2, e3, e4, e5⟩ := Grid.new_ok hY hX h1 h2 h3 h4 hg
  obtain rfl : P = Points.ofTree g.tree g.elevs.flatten g.lafs.flatten := by
    unfold Grid.toPoints at hP
    rw [hw.size] at hP
    simp only [ok_bind, grid2_copy hw.elevs, grid2_copy hw.lafs] at hP
    cases hP; rfl
  have hlen : g.tree.lats.length = Y * X := by rw [hw.tlats, flatten_length hw.lats]
  -- all indices the tree returns are in range
  have hsub : ∀ (l : List (Pt3 K × Nat)), (∀ v ∈ l, v ∈ g.tree.values) → ∀ i ∈ l.map Prod.snd, i < Y * X := by
    intro l hl i hi
    obtain ⟨v, hv, rfl⟩ := List.mem_map.mp hi
    rw [← hlen]
    exact ((hw.tree.located (q := v.1) (i := v.2)).mp (hl v hv)).lt
  rw [← e3] at hp
  have hNeigh : ∃ l, g.tree.getNeighbours T lat lon (fin r) inc = ok l ∧ ∀ i ∈ l, i < Y * X := by
    unfold KDTree.getNeighbours
    rw [hp, ok_bind]
    refine ⟨_, rfl, hsub _ fun v hv => ?_⟩
    exact (List.mem_filter.mp ((hT.select_perm _ _).subset hv)).1
  have hClose : ∀ num : Nat, 0 < num → ∃ l, g.tree.getClosestNeighbours T lat lon num inc = ok l ∧ ∀ i ∈ l, i < Y * X := by
    intro num hn
    obtain ⟨pred, -, he⟩ := closest_eq (T := T) g.tree lat lon p hp num hn inc
    obtain ⟨rest, k1, -, -⟩ := hT.nearest_spec g.tree.values p num pred hn
    exact ⟨_, he, hsub _ fun v hv => (List.mem_filter.mp (k1.subset (List.mem_append_left _ hv))).1⟩
  obtain ⟨l, a1, a2⟩ := hNeigh
  obtain ⟨lc, b1, b2⟩ := hClose num hn
  refine ⟨⟨l, a1, ?_, ?_⟩, ?_, ⟨lc, b1, ?_⟩, ?_⟩
  · unfold Grid.getNeighbours
    rw [a1, ok_bind, getIndicesVec_ok hw l a2]
  · unfold Grid.getNumNeighbours
    rw [a1]; rfl
  · have hd : ∃ ds, g.tree.getNeighboursWithDistance T lat lon (fin r) inc = ok (l, ds) := by
      have key : ∀ l : List Nat, (∀ i ∈ l, i < Y * X) → ∃ ds : List (Fl K), mapM (fun i : Nat => do
          let la ← vget g.tree.lats (i : Int)
          let lo ← vget g.tree.lons (i : Int)
          let p1 ← convertCoordinates la lo g.tree.type
          ok (fin (straightDistance p p1) : Fl K)) l = ok ds := by
        intro l hl
        induction l with
        | nil => exact ⟨[], rfl⟩
        | cons i l ih =>
          obtain ⟨ds, hds⟩ := ih fun j hj => hl j (List.mem_cons_of_mem _ hj)
          obtain ⟨q, la, lo, c1, c2, c3⟩ := hw.tree.exists_located (i := i) (by rw [hlen]; exact hl i (by simp))
          rw [mapM_cons, hds, vget_nat_eq_ok.mpr c1, vget_nat_eq_ok.mpr c2]
          simp only [ok_bind, c3]
          exact ⟨_, rfl⟩
      obtain ⟨ds, hds⟩ := key l a2
      refine ⟨ds, ?_⟩
      unfold KDTree.getNeighboursWithDistance
      rw [hp, ok_bind, a1, ok_bind, hds]; rfl
    obtain ⟨ds, hds⟩ := hd
    refine ⟨l, ds, hds, ?_⟩
    unfold Grid.getNeighboursWithDistance
    rw [hds, ok_bind]
    simp only [getIndicesVec_ok hw l a2, ok_bind]
  · unfold Grid.getClosestNeighbours
    rw [b1, ok_bind, getIndicesVec_ok hw lc b2]
  · obtain ⟨l1, d1, d2⟩ := hClose 1 (by omega)
    rw [show ((1 : Nat) : Int) = 1 from rfl] at d1
    have hgc : g.getClosestNeighbours T lat lon 1 inc = ok (toCells X l1) := by
      unfold Grid.getClosestNeighbours
      rw [d1, ok_bind, getIndicesVec_ok hw l1 d2]
    unfold Points.getNearestNeighbour Grid.getNearestNeighbour Points.getClosestNeighbours Points.ofTree
    simp only
    rw [d1, hgc]
    cases l1 with
    | nil => right; exact ⟨rfl, rfl⟩
    | cons i t => left; exact ⟨i, rfl, rfl⟩

/-- **C16**. For a rectangular grid (if Cartesian: with all |y| at most 90.001, see C17) and a valid query `get_box`
succeeds without reading outside the fields. A box is a unit cell in the grid, it has the nearest grid point as a corner
and contains the query point. There is no box exactly when the grid has fewer than two rows or columns or none of the (at
most four) cells around the nearest grid point contains the query point. -/
theorem c16_box {T : RTree K} (hT : T.Lawful) [LawfulSqrt K] (Y X : Nat) (hY : 0 < Y) (hX : 0 < X)
    (lats lons elevs lafs : List (List (Fl K))) (type : CoordType) (g : Grid K)
    (h1 : Rect Y X lats) (h2 : Rect Y X lons) (h3 : elevs = [] ∨ Rect Y X elevs) (h4 : lafs = [] ∨ Rect Y X lafs)
    (hg : Grid.new lats lons elevs lafs type = ok g) (m : Pt K) (p : Pt3 K)
    (hp : convertCoordinates (fin m.lat) (fin m.lon) type = ok p)
    (hs : type = .cartesian → (∀ y x v, cell? lats y x = some (fin v) → LatOk v) ∧ LatOk m.lat) :
    ∃ (b : Option Box) (c : Nat × Nat), g.getBox T (fin m.lat) (fin m.lon) = ok b ∧
      g.getNearestNeighbour T (fin m.lat) (fin m.lon) true = ok (some c) ∧
      (∀ box, b = some box → ∃ y x : Nat, box = ⟨y, x, y + 1, x + 1⟩ ∧ y + 1 < Y ∧ x + 1 < X ∧
        (c.1 = y ∨ c.1 = y + 1) ∧ (c.2 = x ∨ c.2 = x + 1) ∧ CellContains lats lons y x m) ∧
      (b = none ↔ Y ≤ 1 ∨ X ≤ 1 ∨ ∀ y x : Nat, y + 1 < Y → x + 1 < X → (c.1 = y ∨ c.1 = y + 1) → (c.2 = x ∨ c.2 = x + 1) →
        ¬ CellContains lats lons y x m) := by
  obtain ⟨hw, rfl, rfl, rfl, e4, e5⟩ := Grid.new_ok hY hX h1 h2 h3 h4 hg
  have lm : LatOk m.lat := by
    cases ht : g.tree.type with
    | cartesian => exact (hs ht).2
    | geodetic => rw [ht] at hp; exact convert_latOk hp rfl
  rcases grid_nearest hT hw (fin m.lat) (fin m.lon) p hp true with ⟨c, q, n1, n2, n3, -, -, -⟩ | ⟨-, hn⟩
  swap
  · exfalso
    obtain ⟨q, hq⟩ := hw.exists_cellAt hY hX
    exact hn _ q hq (Or.inl rfl)
  unfold Grid.getBox
  rw [n1, ok_bind]
  obtain ⟨cy, cx⟩ := c
  simp only [hw.size, ok_bind] at n2 n3 ⊢
  by_cases hsmall : X ≤ 1 ∨ Y ≤ 1
  · rw [if_pos hsmall]
    refine ⟨none, (cy, cx), rfl, rfl, by simp, ?_⟩
    simp only [true_iff]
    rcases hsmall with h | h
    · exact Or.inr (Or.inl h)
    · exact Or.inl h
  · rw [if_neg hsmall]
    push Not at hsmall
    have hsp := boxSearch_spec (g := g) (lat := fin m.lat) (lon := fin m.lon) (y := cy) (x := cx) (nY := Y) (nX := X)
      (P := fun d => ∃ y1 x1, DirCell Y X cy cx d y1 x1 ∧ CellContains g.lats g.lons y1 x1 m)
      [((1 : Int), (-1 : Int)), (1, 1), (-1, -1), (-1, 1)]
      (fun d hd => boxTry_spec hw (fun ht => (hs ht).1) lm n2 n3 d hd)
    rcases hsp with ⟨k1, k2⟩ | ⟨d, hd, k1, y1, x1, ⟨b1, b2, b3, b4⟩, k2⟩
    · rw [k1, ok_bind]
      refine ⟨none, (cy, cx), rfl, rfl, by simp, ?_⟩
      simp only [true_iff]
      refine Or.inr (Or.inr ?_)
      intro y x hy hx hcy hcx hcon
      -- the direction of the cell
      have hdir : ∃ d ∈ [((1 : Int), (-1 : Int)), (1, 1), (-1, -1), (-1, 1)], DirCell Y X cy cx d y x := by
        rcases hcy with hcy | hcy <;> rcases hcx with hcx | hcx
        · exact ⟨(1, 1), by simp, hy, hx, by simp; omega, by simp; omega⟩
        · exact ⟨(1, -1), by simp, hy, hx, by simp; omega, by simp; omega⟩
        · exact ⟨(-1, 1), by simp, hy, hx, by simp; omega, by simp; omega⟩
        · exact ⟨(-1, -1), by simp, hy, hx, by simp; omega, by simp; omega⟩
      obtain ⟨d, hd, hdc⟩ := hdir
      exact k2 d hd ⟨y, x, hdc, hcon⟩
    · rw [k1, ok_bind]
      obtain ⟨dy, dx⟩ := d
      simp only at b3 b4
      have hdy : dy = 1 ∨ dy = -1 := by
        simp only [List.mem_cons, List.not_mem_nil, or_false, Prod.mk.injEq] at hd; omega
      have hcy : cy = y1 ∨ cy = y1 + 1 := by split_ifs at b3 <;> omega
      have hcx : cx = x1 ∨ cx = x1 + 1 := by split_ifs at b4 <;> omega
      refine ⟨some ⟨y1, x1, y1 + 1, x1 + 1⟩, (cy, cx), ?_, rfl, ?_, ?_⟩
      · simp only [← b3, ← b4]
      · intro box hbox
        simp only [Option.some.injEq] at hbox
        exact ⟨y1, x1, hbox.symm, b1, b2, hcy, hcx, k2⟩
      · simp only [reduceCtorEq, false_iff]
        push Not
        exact ⟨by omega, by omega, y1, x1, b1, b2, hcy, hcx, k2⟩

/-- **C16** (invalid query). -/
theorem c16_invalid {T : RTree K} (g : Grid K) (lat lon : Fl K) (e : Exc) (h : convertCoordinates lat lon g.type = .throw e) :
    g.getBox T lat lon = .throw e := by
  unfold Grid.getBox Grid.getNearestNeighbour Grid.getClosestNeighbours KDTree.getClosestNeighbours
  unfold Grid.type at h
  rw [h]; rfl

/-- **C17** is false: on a Cartesian grid with coordinates in metres `get_box` throws, although the query is a valid
point in the middle of the grid (the same grid scaled down is fine). -/
theorem c17_cartesian_counterexample :
    (do let g ← Grid.new [[fin (0 : ℚ), fin 0], [fin 1000, fin 1000]] [[fin 0, fin 1000], [fin 0, fin 1000]] [] [] .cartesian
        g.getBox RTree.scan (fin 400) (fin 400)) = .throw .invalidArgument ∧
    (do let g ← Grid.new [[fin (0 : ℚ), fin 0], [fin 1, fin 1]] [[fin 0, fin 1], [fin 0, fin 1]] [] [] .cartesian
        g.getBox RTree.scan (fin (4 / 10)) (fin (4 / 10))) = ok (some ⟨0, 0, 1, 1⟩) := by decide +kernel

/-- **C17** (what does hold). Missing: grids and queries with |y| > 90.001. -/
theorem c17_cartesian_partial {T : RTree K} (hT : T.Lawful) [LawfulSqrt K] (Y X : Nat) (hY : 0 < Y) (hX : 0 < X)
    (lats lons elevs lafs : List (List (Fl K))) (g : Grid K)
    (h1 : Rect Y X lats) (h2 : Rect Y X lons) (h3 : elevs = [] ∨ Rect Y X elevs) (h4 : lafs = [] ∨ Rect Y X lafs)
    (hg : Grid.new lats lons elevs lafs .cartesian = ok g) (m : Pt K)
    (hs : ∀ y x v, cell? lats y x = some (fin v) → LatOk v) (hm : LatOk m.lat) :
    ∃ b, g.getBox T (fin m.lat) (fin m.lon) = ok b := by
  obtain ⟨b, c, h, -⟩ := c16_box hT Y X hY hX lats lons elevs lafs .cartesian g h1 h2 h3 h4 hg m ⟨m.lon, m.lat, 0⟩
    ((convert_spec _ _).1 _ _ rfl rfl) (fun _ => ⟨hs, hm⟩)
  exact ⟨b, h⟩

/-- **C18** (geodetic). A copied or assigned Geodetic `Points` object is equal to the original in every field, so all
queries agree. -/
theorem c18_copy_partial (lats lons elevs lafs : List (Fl K)) (P self : Points K)
    (hP : Points.new lats lons elevs lafs .geodetic = ok P) : P.copy = ok P ∧ self.assign P = ok P := by
  obtain ⟨-, -, e1, e2, -⟩ := Points.new_ok hP
  have : KDTree.new P.lats P.lons .geodetic = ok P.tree := by
    unfold Points.new at hP
    split_ifs at hP
    all_goals
      obtain ⟨t, ht, hP⟩ := bind_eq_ok.mp hP
      cases hP
      exact ht
  have hc : P.copy = ok P := by
    unfold Points.copy
    show (KDTree.new P.lats P.lons .geodetic >>= _) = _
    rw [this]; rfl
  exact ⟨hc, hc⟩

/-- **C18** is false for Cartesian objects: a copy is Geodetic (so all distances change), or throws when some |y| is more
than 90.001. -/
theorem c18_cartesian_counterexample :
    (do let P ← Points.new [fin (1 : ℚ)] [fin 2] [] [] .cartesian
        let Q ← P.copy
        ok (P.type, Q.type)) = ok (.cartesian, .geodetic) ∧
    (do let P ← Points.new [fin (1000 : ℚ)] [fin 2] [] [] .cartesian
        let Q ← P.copy
        ok (P.type, Q.type)) = .throw .invalidArgument := by decide +kernel

/-- The `k`-th row of the selection: location and metadata of point `i`. -/
def SameAt (P Q : Points K) (i k : Nat) : Prop :=
  P.lats[i]? = Q.lats[k]? ∧ P.lons[i]? = Q.lons[k]? ∧ P.elevs[i]? = Q.elevs[k]? ∧ P.lafs[i]? = Q.lafs[k]? ∧
    P.tree.pts[i]? = Q.tree.pts[k]?

/-- Rows read at indices in range. -/
theorem rows_ok {P : Points K} {n : Nat} (h1 : P.lats.length = n) (h2 : P.lons.length = n) (h3 : P.elevs.length = n)
    (h4 : P.lafs.length = n) (is : List Nat) (h : ∀ i ∈ is, i < n) :
    ∃ a b c d : List (Fl K),
      mapM (fun i : Nat => vget P.lats (i : Int)) is = ok a ∧ mapM (fun i : Nat => vget P.lons (i : Int)) is = ok b ∧
      mapM (fun i : Nat => vget P.elevs (i : Int)) is = ok c ∧ mapM (fun i : Nat => vget P.lafs (i : Int)) is = ok d ∧
      a.length = is.length ∧ b.length = is.length ∧ c.length = is.length ∧ d.length = is.length ∧
      ∀ k i : Nat, is[k]? = some i → P.lats[i]? = a[k]? ∧ P.lons[i]? = b[k]? ∧ P.elevs[i]? = c[k]? ∧ P.lafs[i]? = d[k]? := by
  have key : ∀ v : List (Fl K), v.length = n → ∃ a, mapM (fun i : Nat => vget v (i : Int)) is = ok a ∧ a.length = is.length ∧
      ∀ k i : Nat, is[k]? = some i → v[i]? = a[k]? := by
    intro v hv
    refine ⟨is.map fun i => v.getD i nan, ?_, by simp, ?_⟩
    · refine mapM_ok fun i hi => ?_
      rw [vget_nat_eq_ok]
      have := h i hi
      simp [List.getD, hv, this]
    · intro k i hk
      have hi : i < v.length := by rw [hv]; exact h i (List.mem_of_getElem? hk)
      simp [hk, List.getD, hi]
  obtain ⟨a, a1, a2, a3⟩ := key _ h1
  obtain ⟨b, b1, b2, b3⟩ := key _ h2
  obtain ⟨c, c1, c2, c3⟩ := key _ h3
  obtain ⟨d, d1, d2, d3⟩ := key _ h4
  exact ⟨a, b, c, d, a1, b1, c1, d1, a2, b2, c2, d2, fun k i hk => ⟨a3 k i hk, b3 k i hk, c3 k i hk, d3 k i hk⟩⟩

/-- Building a geodetic object from selected rows of a geodetic object succeeds and keeps them. -/
theorem select_ok {P : Points K} {lats lons elevs lafs : List (Fl K)} (hP : Points.new lats lons elevs lafs .geodetic = ok P)
    (is : List Nat) (h : ∀ i ∈ is, i < lats.length) (a b c d : List (Fl K)) (ha : a.length = is.length) (hb : b.length = is.length)
    (hc : c.length = is.length) (hd : d.length = is.length)
    (hk : ∀ k i : Nat, is[k]? = some i → P.lats[i]? = a[k]? ∧ P.lons[i]? = b[k]? ∧ P.elevs[i]? = c[k]? ∧ P.lafs[i]? = d[k]?) :
    ∃ Q, Points.new a b c d .geodetic = ok Q ∧ Q.size = is.length ∧ Q.type = .geodetic ∧
      ∀ k i : Nat, is[k]? = some i → SameAt P Q i k := by
  obtain ⟨p1, p2, p3, p4, p5, p6, p7, p8, -⟩ := Points.new_ok hP
  have hconv : ∀ k, k < a.length → ∃ la lo q, a[k]? = some la ∧ b[k]? = some lo ∧ convertCoordinates la lo .geodetic = ok q ∧
      ∀ i, is[k]? = some i → P.tree.pts[i]? = some q := by
    intro k hk'
    have hki : is[k]? = some (is[k]'(by omega)) := List.getElem?_eq_getElem _
    obtain ⟨e1, e2, -, -⟩ := hk k _ hki
    obtain ⟨q, hq⟩ := p8.exists_located (i := is[k]'(by omega)) (by rw [p5]; exact h _ (List.getElem_mem _))
    have hm := mem_zipIdx_iff.mp (p8.located.mpr hq)
    obtain ⟨la, lo, c1, c2, c3⟩ := hq
    refine ⟨la, lo, q, ?_, ?_, ?_, ?_⟩
    · rw [← e1, p1, ← p5]; exact c1
    · rw [← e2, p2, ← p6]; exact c2
    · rw [p7] at c3; exact c3
    · intro i hi
      rw [hki] at hi
      cases hi
      exact hm
  have hnew : ∃ t, KDTree.new a b .geodetic = ok t := by
    unfold KDTree.new
    have := mapM_exists (f := fun i : Nat => (do
      let lat ← vget a (i : Int)
      let lon ← vget b (i : Int)
      convertCoordinates lat lon .geodetic : Res (Pt3 K))) (List.range a.length) (fun k hk' => by
        obtain ⟨la, lo, q, e1, e2, e3, -⟩ := hconv k (List.mem_range.mp hk')
        refine ⟨q, ?_⟩
        simp only [vget_nat_eq_ok.mpr e1, vget_nat_eq_ok.mpr e2, ok_bind, e3])
    obtain ⟨pts, hpts⟩ := this
    exact ⟨_, by rw [hpts]; rfl⟩
  obtain ⟨t, ht⟩ := hnew
  obtain ⟨t1, t2, t3, tw⟩ := KDTree.new_ok ht
  refine ⟨⟨a, b, c, d, t⟩, ?_, ha, t3, ?_⟩
  · unfold Points.new
    rw [if_neg (by omega), if_neg (by omega), if_neg (by omega), ht, ok_bind]
    rw [if_neg (by omega), if_neg (by omega)]
  · intro k i hki
    obtain ⟨e1, e2, e3, e4⟩ := hk k i hki
    refine ⟨e1, e2, e3, e4, ?_⟩
    have hkl : k < a.length := by rw [ha]; exact (List.getElem?_eq_some_iff.mp hki).1
    obtain ⟨la, lo, q, c1, c2, c3, c4⟩ := hconv k hkl
    rw [c4 i hki]
    have hkp : k < t.pts.length := by rw [tw.len, t1]; exact hkl
    obtain ⟨la', lo', g1, g2, g3⟩ := tw.conv k hkp
    rw [t1, c1] at g1
    rw [t2, c2] at g2
    cases g1; cases g2
    rw [t3, c3] at g3
    cases g3
    exact (List.getElem?_eq_getElem hkp).symm

/-- **C19** (`subset`, geodetic). Missing from C19: Cartesian objects, see the counterexample below. -/
theorem c19_subset_partial (lats lons elevs lafs : List (Fl K)) (P : Points K)
    (hP : Points.new lats lons elevs lafs .geodetic = ok P) (is : List Nat) (h : ∀ i ∈ is, i < lats.length) :
    ∃ Q, P.subset (is.map fun i : Nat => (i : Int)) = ok Q ∧ Q.size = is.length ∧ Q.type = P.type ∧
      ∀ k i : Nat, is[k]? = some i → SameAt P Q i k := by
  obtain ⟨p1, p2, p3, p4, p5, p6, p7, p8, p9, -⟩ := Points.new_ok hP
  obtain ⟨a, b, c, d, m1, m2, m3, m4, l1, l2, l3, l4, hk⟩ := rows_ok (P := P) (n := lats.length) (by rw [p1]) (by rw [p2, p9]) p3 p4 is h
  obtain ⟨Q, q1, q2, q3, q4⟩ := select_ok hP is h a b c d l1 l2 l3 l4 hk
  refine ⟨Q, ?_, q2, by rw [q3]; exact p7.symm, q4⟩
  have hrows : mapM (fun index : Int =>
      if index < 0 ∨ (P.lats.length : Int) ≤ index then (.throw .invalidArgument : Res (Fl K × Fl K × Fl K × Fl K))
      else do
        let lat ← vget P.lats index
        let lon ← vget P.lons index
        let elev ← vget P.elevs index
        let laf ← vget P.lafs index
        ok (lat, lon, elev, laf)) (is.map fun i : Nat => (i : Int)) = ok (a.zip (b.zip (c.zip d))) := by
    clear hk q1 q2 q3 q4
    induction is generalizing a b c d with
    | nil => cases m1; cases m2; cases m3; cases m4; rfl
    | cons i is ih =>
      rw [mapM_cons] at m1 m2 m3 m4
      obtain ⟨a0, x1, m1⟩ := bind_eq_ok.mp m1
      obtain ⟨as, y1, m1⟩ := bind_eq_ok.mp m1
      obtain ⟨b0, x2, m2⟩ := bind_eq_ok.mp m2
      obtain ⟨bs, y2, m2⟩ := bind_eq_ok.mp m2
      obtain ⟨c0, x3, m3⟩ := bind_eq_ok.mp m3
      obtain ⟨cs, y3, m3⟩ := bind_eq_ok.mp m3
      obtain ⟨d0, x4, m4⟩ := bind_eq_ok.mp m4
      obtain ⟨ds, y4, m4⟩ := bind_eq_ok.mp m4
      cases m1; cases m2; cases m3; cases m4
      rw [List.map_cons, mapM_cons, ih (fun j hj => h j (List.mem_cons_of_mem _ hj)) as bs cs ds y1 y2 y3 y4
        (by simpa using l1) (by simpa using l2) (by simpa using l3) (by simpa using l4)]
      have hi := h i (by simp)
      rw [if_neg (by rw [p1]; omega)]
      simp only [x1, x2, x3, x4, ok_bind]
      rfl
  unfold Points.subset
  rw [hrows, ok_bind]
  have hz : ∀ (a b c d : List (Fl K)), a.length = is.length → b.length = is.length → c.length = is.length → d.length = is.length →
      (a.zip (b.zip (c.zip d))).map (fun r => r.1) = a ∧ (a.zip (b.zip (c.zip d))).map (fun r => r.2.1) = b ∧
      (a.zip (b.zip (c.zip d))).map (fun r => r.2.2.1) = c ∧ (a.zip (b.zip (c.zip d))).map (fun r => r.2.2.2) = d := by
    intro a b c d h1 h2 h3 h4
    have hd1 : (c.zip d).map Prod.fst = c := List.map_fst_zip (by omega)
    have hd2 : (c.zip d).map Prod.snd = d := List.map_snd_zip (by omega)
    have hc1 : (b.zip (c.zip d)).map Prod.fst = b := List.map_fst_zip (by simp; omega)
    have hc2 : (b.zip (c.zip d)).map Prod.snd = c.zip d := List.map_snd_zip (by simp; omega)
    have hb1 : (a.zip (b.zip (c.zip d))).map Prod.fst = a := List.map_fst_zip (by simp; omega)
    have hb2 : (a.zip (b.zip (c.zip d))).map Prod.snd = b.zip (c.zip d) := List.map_snd_zip (by simp; omega)
    refine ⟨hb1, ?_, ?_, ?_⟩
    · conv_rhs => rw [← hc1, ← hb2]
      rw [List.map_map]; rfl
    · conv_rhs => rw [← hd1, ← hc2, ← hb2]
      rw [List.map_map, List.map_map]; rfl
    · conv_rhs => rw [← hd2, ← hc2, ← hb2]
      rw [List.map_map, List.map_map]; rfl
  obtain ⟨z1, z2, z3, z4⟩ := hz a b c d l1 l2 l3 l4
  rw [z1, z2, z3, z4]
  exact q1

/-- **C19** (`subset`, bad index). If some index is negative or at least the number of points, `subset` throws
`invalid_argument`, for either coordinate type. -/
theorem c19_subset_throws (lats lons elevs lafs : List (Fl K)) (type : CoordType) (P : Points K)
    (hP : Points.new lats lons elevs lafs type = ok P) (is : List Int) (i : Int) (hi : i ∈ is) (hbad : i < 0 ∨ (lats.length : Int) ≤ i) :
    P.subset is = .throw .invalidArgument := by
  obtain ⟨p1, p2, p3, p4, p5, p6, p7, p8, p9, -⟩ := Points.new_ok hP
  have hmap : mapM (fun index : Int =>
      if index < 0 ∨ (P.lats.length : Int) ≤ index then (.throw .invalidArgument : Res (Fl K × Fl K × Fl K × Fl K))
      else do
        let lat ← vget P.lats index
        let lon ← vget P.lons index
        let elev ← vget P.elevs index
        let laf ← vget P.lafs index
        ok (lat, lon, elev, laf)) is = .throw .invalidArgument := by
    induction is with
    | nil => cases hi
    | cons j t ih =>
      rw [mapM_cons]
      by_cases hj : j < 0 ∨ (P.lats.length : Int) ≤ j
      · rw [if_pos hj]; rfl
      · rw [if_neg hj]
        have hit : i ∈ t := by
          rcases List.mem_cons.mp hi with rfl | h
          · rw [p1] at hj; exact absurd hbad hj
          · exact h
        obtain ⟨n, rfl⟩ : ∃ n : Nat, j = n := ⟨j.toNat, by omega⟩
        have hn : n < lats.length := by rw [p1] at hj; omega
        have r : ∀ v : List (Fl K), v.length = lats.length → ∃ z, vget v (n : Int) = ok z := fun v hv =>
          ⟨v[n], vget_eq_ok_of_lt (by omega)⟩
        obtain ⟨z1, r1⟩ := r P.lats (by rw [p1])
        obtain ⟨z2, r2⟩ := r P.lons (by rw [p2, p9])
        obtain ⟨z3, r3⟩ := r P.elevs p3
        obtain ⟨z4, r4⟩ := r P.lafs p4
        rw [r1, r2, r3, r4, ih hit]; rfl
  unfold Points.subset
  rw [hmap]; rfl

/-- **C19** is false for Cartesian objects: the type is lost, and `subset` throws for |y| > 90.001. -/
theorem c19_cartesian_counterexample :
    (do let P ← Points.new [fin (1 : ℚ)] [fin 2] [] [] .cartesian
        let Q ← P.subset [0]
        ok (P.type, Q.type)) = ok (.cartesian, .geodetic) ∧
    (do let P ← Points.new [fin (1000 : ℚ)] [fin 2] [] [] .cartesian
        let Q ← P.subset [0]
        ok (P.type, Q.type)) = .throw .invalidArgument := by decide +kernel

/-- **C19** (`get_in_domain`, geodetic points and grid). The indices are exactly those of the points for which `get_box`
finds a box, in increasing order, and `get_in_domain` consists of these points. -/
theorem c19_in_domain_partial {T : RTree K} (hT : T.Lawful) [LawfulSqrt K] (Y X : Nat) (hY : 0 < Y) (hX : 0 < X)
    (glats glons gelevs glafs : List (List (Fl K))) (g : Grid K)
    (h1 : Rect Y X glats) (h2 : Rect Y X glons) (h3 : gelevs = [] ∨ Rect Y X gelevs) (h4 : glafs = [] ∨ Rect Y X glafs)
    (hg : Grid.new glats glons gelevs glafs .geodetic = ok g)
    (lats lons elevs lafs : List (Fl K)) (P : Points K) (hP : Points.new lats lons elevs lafs .geodetic = ok P) :
    ∃ (is : List Nat) (Q : Points K), P.getInDomainIndices T g = ok is ∧ is.Pairwise (· < ·) ∧
      (∀ s, s ∈ is ↔ ∃ la lo box, lats[s]? = some la ∧ lons[s]? = some lo ∧ g.getBox T la lo = ok (some box)) ∧
      P.getInDomain T g = ok Q ∧ Q.size = is.length ∧ ∀ k i : Nat, is[k]? = some i → SameAt P Q i k := by
  obtain ⟨p1, p2, p3, p4, p5, p6, p7, p8, p9, -⟩ := Points.new_ok hP
  have hbox : ∀ s, s < lats.length → ∃ la lo b, lats[s]? = some la ∧ lons[s]? = some lo ∧ g.getBox T la lo = ok b := by
    intro s hs
    obtain ⟨q, la, lo, c1, c2, c3⟩ := p8.exists_located (i := s) (by rw [p5]; exact hs)
    rw [p5] at c1
    rw [p6] at c2
    rw [p7] at c3
    obtain ⟨m, rfl, rfl⟩ := convert_finite c3
    obtain ⟨b, c, hb, -⟩ := c16_box hT Y X hY hX glats glons gelevs glafs .geodetic g h1 h2 h3 h4 hg m q c3 (by intro h; cases h)
    exact ⟨_, _, b, c1, c2, hb⟩
  choose! la lo b hb using hbox
  set f : Nat → Bool := fun s => (b s).isSome with hf
  have hflags : P.getInDomainIndices T g = ok ((List.range lats.length).filter f) := by
    unfold Points.getInDomainIndices
    have hs : P.size = lats.length := by unfold Points.size; rw [p1]
    rw [hs]
    have : mapM (fun s : Nat => do
        let lat ← vget P.lats (s : Int)
        let lon ← vget P.lons (s : Int)
        let b ← g.getBox T lat lon
        ok (s, b.isSome)) (List.range lats.length) = ok ((List.range lats.length).map fun s => (s, f s)) := by
      refine mapM_ok fun s hs => ?_
      obtain ⟨e1, e2, e3⟩ := hb s (List.mem_range.mp hs)
      simp only [p1, p2, vget_nat_eq_ok.mpr e1, vget_nat_eq_ok.mpr e2, ok_bind, e3, hf]
    rw [this, ok_bind]
    congr 1
    rw [List.filter_map, List.map_map]
    simp [Function.comp_def]
  set is := (List.range lats.length).filter f with his
  have hlt : ∀ i ∈ is, i < lats.length := fun i hi => List.mem_range.mp (List.mem_filter.mp hi).1
  obtain ⟨a, b', c, d, m1, m2, m3, m4, l1, l2, l3, l4, hk⟩ := rows_ok (P := P) (n := lats.length) (by rw [p1]) (by rw [p2, p9]) p3 p4 is hlt
  obtain ⟨Q, q1, q2, q3, q4⟩ := select_ok hP is hlt a b' c d l1 l2 l3 l4 hk
  refine ⟨is, Q, hflags, ?_, ?_, ?_, q2, q4⟩
  · exact (List.pairwise_lt_range (n := lats.length)).sublist List.filter_sublist
  · intro s
    rw [his, List.mem_filter, List.mem_range]
    constructor
    · rintro ⟨hs, hfs⟩
      obtain ⟨e1, e2, e3⟩ := hb s hs
      obtain ⟨box, hbx⟩ := Option.isSome_iff_exists.mp hfs
      exact ⟨_, _, box, e1, e2, by rw [e3, hbx]⟩
    · rintro ⟨la', lo', box, e1, e2, e3⟩
      have hs : s < lats.length := (List.getElem?_eq_some_iff.mp e1).1
      obtain ⟨g1, g2, g3⟩ := hb s hs
      rw [e1] at g1; rw [e2] at g2
      cases g1; cases g2
      rw [e3] at g3
      refine ⟨hs, ?_⟩
      have : some box = b s := by injection g3
      simp [hf, ← this]
  · unfold Points.getInDomain
    rw [hflags, ok_bind, m1, ok_bind, m2, ok_bind, m3, ok_bind, m4, ok_bind]
    exact q1

/-- Non-vacuity for C15–C19: a 2 x 3 grid, a query with a box and one without, and a point selection. -/
example : (do let g ← Grid.new [[fin (0 : ℚ), fin 0, fin 0], [fin 1, fin 1, fin 1]] [[fin 0, fin 1, fin 2], [fin 0, fin 1, fin 2]] [] [] .geodetic
              let b ← g.getBox RTree.scan (fin (3 / 4)) (fin (5 / 4))
              let c ← g.getBox RTree.scan (fin (3 / 4)) (fin 5)
              let s ← g.size
              ok (b, c, s)) = ok (some ⟨0, 1, 1, 2⟩, none, (2, 3)) := by decide +kernel

example : (do let g ← Grid.new [[fin (0 : ℚ), fin 0, fin 0], [fin 1, fin 1, fin 1]] [[fin 0, fin 1, fin 2], [fin 0, fin 1, fin 2]] [] [] .geodetic
              let P ← Points.new [fin (3 / 4), fin 7, fin (1 / 2)] [fin (5 / 4), fin 7, fin 2] [] [] .geodetic
              let i ← P.getInDomainIndices RTree.scan g
              let Q ← P.getInDomain RTree.scan g
              let R ← P.subset [2, 0, 2]
              ok (i, Q.lats, R.lats)) = ok ([0, 2], [fin (3 / 4), fin (1 / 2)], [fin (1 / 2), fin (3 / 4), fin (1 / 2)]) := by decide +kernel

end Gridpp.Props
