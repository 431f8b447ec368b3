import Verif.Model.Nearest
import Verif.Base.Loops
import Verif.Props.Grid

/-! Lemmas for nearest-neighbour interpolation. -/

set_option linter.unusedSectionVars false

namespace Gridpp.Props
open Fl Res

variable {K : Type} [Field K] [LinearOrder K] [IsStrictOrderedRing K] [HasGeo K]

/-- `g` is the result of the constructor for `Y > 0` rows of `X > 0` cells (elevations and land fractions left out or of
the same shape). -/
def BuiltGrid (g : Grid K) (Y X : Nat) (lats lons : List (List (Fl K))) (type : CoordType) : Prop :=
  0 < Y ∧ 0 < X ∧ Rect Y X lats ∧ Rect Y X lons ∧
    ∃ elevs lafs, (elevs = [] ∨ Rect Y X elevs) ∧ (lafs = [] ∨ Rect Y X lafs) ∧ Grid.new lats lons elevs lafs type = ok g

/-- `p` is the result of the constructor. -/
def BuiltPoints (p : Points K) (lats lons : List (Fl K)) (type : CoordType) : Prop :=
  ∃ elevs lafs, Points.new lats lons elevs lafs type = ok p

theorem BuiltGrid.wf {g : Grid K} {Y X : Nat} {lats lons : List (List (Fl K))} {type : CoordType} (h : BuiltGrid g Y X lats lons type) :
    g.WF Y X ∧ g.lats = lats ∧ g.lons = lons ∧ g.tree.type = type := by
  obtain ⟨hY, hX, h1, h2, e, l, h3, h4, hg⟩ := h
  obtain ⟨a, b, c, d, -⟩ := Grid.new_ok hY hX h1 h2 h3 h4 hg
  exact ⟨a, b, c, d⟩

theorem BuiltPoints.wf {p : Points K} {lats lons : List (Fl K)} {type : CoordType} (h : BuiltPoints p lats lons type) :
    p.lats = lats ∧ p.lons = lons ∧ p.tree.lats = lats ∧ p.tree.lons = lons ∧ p.tree.type = type ∧ p.tree.WF ∧
      lons.length = lats.length := by
  obtain ⟨e, l, hp⟩ := h
  obtain ⟨p1, p2, -, -, p5, p6, p7, p8, p9, -⟩ := Points.new_ok hp
  exact ⟨p1, p2, p5, p6, p7, p8, p9⟩

/-- Cell `c` is nearest to `p`. -/
def NearestCell (lats lons : List (List (Fl K))) (type : CoordType) [HasSqrt K] (p : Pt3 K) (c : Nat × Nat) : Prop :=
  ∃ q, CellAt lats lons type c q ∧ ∀ c' q', CellAt lats lons type c' q' → straightDistance q p ≤ straightDistance q' p

/-- Point `i` is nearest to `p`. -/
def NearestPoint (lats lons : List (Fl K)) (type : CoordType) [HasSqrt K] (p : Pt3 K) (i : Nat) : Prop :=
  ∃ q, Located lats lons type i q ∧ ∀ j q', Located lats lons type j q' → straightDistance q p ≤ straightDistance q' p

/-- The location (la, lo), read in coordinate type `type`, has cell `c` as a nearest cell. -/
def NearestCellTo [HasSqrt K] (lats lons : List (List (Fl K))) (type : CoordType) (la lo : Fl K) (c : Nat × Nat) : Prop :=
  ∃ p, convertCoordinates la lo type = ok p ∧ NearestCell lats lons type p c

/-- The location (la, lo), read in coordinate type `type`, has point `i` as a nearest point. -/
def NearestPointTo [HasSqrt K] (lats lons : List (Fl K)) (type : CoordType) (la lo : Fl K) (i : Nat) : Prop :=
  ∃ p, convertCoordinates la lo type = ok p ∧ NearestPoint lats lons type p i

/-- Every location of the output grid is valid in coordinate type `type`. -/
def GridValidIn (type : CoordType) (lats lons : List (List (Fl K))) : Prop :=
  ∀ y x la lo, cell? lats y x = some la → cell? lons y x = some lo → ∃ p, convertCoordinates la lo type = ok p

/-- Every location of the output points is valid in coordinate type `type`. -/
def PointsValidIn (type : CoordType) (lats lons : List (Fl K)) : Prop :=
  ∀ (i : Nat) la lo, lats[i]? = some la → lons[i]? = some lo → ∃ p, convertCoordinates la lo type = ok p

/-- The output grid's own coordinate type always satisfies `GridValidIn`. -/
theorem BuiltGrid.validIn {g : Grid K} {Y X : Nat} {lats lons : List (List (Fl K))} {type : CoordType} (h : BuiltGrid g Y X lats lons type) :
    GridValidIn type lats lons := by
  intro y x la lo h1 h2
  obtain ⟨hw, rfl, rfl, rfl⟩ := h.wf
  obtain ⟨hy, hx⟩ := cell?_lt hw.lats h1
  obtain ⟨q, la', lo', e1, e2, e3⟩ := hw.exists_cellAt hy hx
  simp only at e1 e2
  rw [h1] at e1; rw [h2] at e2
  cases e1; cases e2
  exact ⟨q, e3⟩

theorem BuiltPoints.validIn {p : Points K} {lats lons : List (Fl K)} {type : CoordType} (h : BuiltPoints p lats lons type) :
    PointsValidIn type lats lons := by
  intro i la lo h1 h2
  obtain ⟨-, -, e1, e2, e3, hw, -⟩ := h.wf
  obtain ⟨q, la', lo', c1, c2, c3⟩ := hw.exists_located (i := i) (by rw [e1]; exact (List.getElem?_eq_some_iff.mp h1).1)
  rw [e1, h1] at c1
  rw [e2, h2] at c2
  rw [e3] at c3
  cases c1; cases c2
  exact ⟨q, c3⟩

theorem grid_nearest_to {T : RTree K} (hT : T.Lawful) [LawfulSqrt K] {g : Grid K} {Y X : Nat} {lats lons : List (List (Fl K))} {type : CoordType}
    (hg : BuiltGrid g Y X lats lons type) {la lo : Fl K} (hv : ∃ p, convertCoordinates la lo type = ok p) :
    ∃ c, g.getNearestNeighbour T la lo true = ok (some c) ∧ c.1 < Y ∧ c.2 < X ∧ NearestCellTo lats lons type la lo c := by
  obtain ⟨hw, rfl, rfl, rfl⟩ := hg.wf
  obtain ⟨p, hp⟩ := hv
  rcases grid_nearest hT hw la lo p hp true with ⟨c, q, h1, h2, h3, h4, -, h6⟩ | ⟨-, hn⟩
  · exact ⟨c, h1, h2, h3, p, hp, q, h4, fun c' q' hc => h6 c' q' hc (Or.inl rfl)⟩
  · obtain ⟨q, hq⟩ := hw.exists_cellAt hw.hY hw.hX
    exact absurd (Or.inl rfl) (hn _ q hq)

theorem nearestCell_to {T : RTree K} (hT : T.Lawful) [LawfulSqrt K] {g : Grid K} {Y X : Nat} {lats lons : List (List (Fl K))} {type : CoordType}
    (hg : BuiltGrid g Y X lats lons type) {la lo : Fl K} (hv : ∃ p, convertCoordinates la lo type = ok p) :
    ∃ c, nearestCell T g la lo = ok c ∧ c.1 < Y ∧ c.2 < X ∧ NearestCellTo lats lons type la lo c := by
  obtain ⟨c, h1, h2⟩ := grid_nearest_to hT hg hv
  refine ⟨c, ?_, h2⟩
  unfold nearestCell
  rw [h1]; rfl

theorem points_nearest_to {T : RTree K} (hT : T.Lawful) [LawfulSqrt K] {p : Points K} {lats lons : List (Fl K)} {type : CoordType}
    (hp : BuiltPoints p lats lons type) (hne : 0 < lats.length) {la lo : Fl K} (hv : ∃ p, convertCoordinates la lo type = ok p) :
    ∃ i : Nat, p.getNearestNeighbour T la lo true = ok (i : Int) ∧ i < lats.length ∧ NearestPointTo lats lons type la lo i := by
  have hwf := hp.wf
  obtain ⟨e, l, hp'⟩ := hp
  obtain ⟨q, hq⟩ := hv
  rcases (c11_points hT lats lons e l type p hp' la lo true).1 q hq with ⟨i, q', h1, h2, h3, -, h5⟩ | ⟨-, hn⟩
  · exact ⟨i, h1, h2, q, hq, q', h3, fun j q'' hj => h5 j q'' hj (Or.inl rfl)⟩
  · obtain ⟨-, -, e1, e2, e3, hw, -⟩ := hwf
    obtain ⟨q0, hq0⟩ := hw.exists_located (i := 0) (by rw [e1]; exact hne)
    rw [e1, e2, e3] at hq0
    exact absurd (Or.inl rfl) (hn 0 q0 hq0)

theorem compatibleSizeG2_rect {α : Type} {g : Grid K} {Y X : Nat} (hg : g.WF Y X) {v : List (List α)} (h : Rect Y X v) :
    compatibleSizeG2 g v = ok true := by
  cases v with
  | nil => rfl
  | cons r t =>
    have h1 := h.1
    have h2 := h.2 r (by simp)
    simp only [compatibleSizeG2, hg.size, ok_bind]
    simp [h1.symm, h2.symm]

theorem compatibleSizeG3_rect {α : Type} {g : Grid K} {Y X : Nat} (hg : g.WF Y X) {v : List (List (List α))} (h : ∀ f ∈ v, Rect Y X f) :
    compatibleSizeG3 g v = ok true := by
  cases v with
  | nil => rfl
  | cons f t =>
    cases f with
    | nil => rfl
    | cons r s =>
      have hf := h (r :: s) (by simp)
      have h1 := hf.1
      have h2 := hf.2 r (by simp)
      simp only [compatibleSizeG3, hg.size, ok_bind]
      simp only [List.length_cons] at h1
      simp [h1.symm, h2.symm]

theorem first_row {Y X : Nat} {α : Type} {a : List (List α)} (h : Rect Y X a) (hY : 0 < Y) :
    ∃ r, vget a 0 = ok r ∧ r.length = X := by
  cases a with
  | nil => have := h.1; simp at this; omega
  | cons r t => exact ⟨r, rfl, h.2 r (by simp)⟩

end Gridpp.Props
