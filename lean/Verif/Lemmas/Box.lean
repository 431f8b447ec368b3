import Verif.Lemmas.Grid
import Verif.Props.Rectangle
import Verif.Props.Geo

/-! Lemmas about `Grid::get_box`. -/

set_option linter.unusedSectionVars false

namespace Gridpp.Props
open Fl Res

section
variable {K : Type} [Field K] [LinearOrder K] [IsStrictOrderedRing K]

/-- `m` lies weakly on one common side of the four edges of the quadrilateral A, B, C, D. -/
def InsideQuad (A B C D m : Pt K) : Prop :=
  (0 ≤ cross A B m ∧ 0 ≤ cross B C m ∧ 0 ≤ cross C D m ∧ 0 ≤ cross D A m) ∨
  (cross A B m ≤ 0 ∧ cross B C m ≤ 0 ∧ cross C D m ≤ 0 ∧ cross D A m ≤ 0)

/-- The corner of cell `(y, x)` is at `A`. -/
def CornerAt (lats lons : List (List (Fl K))) (y x : Nat) (A : Pt K) : Prop :=
  cell? lats y x = some (fin A.lat) ∧ cell? lons y x = some (fin A.lon)

/-- The quadrilateral with the grid points (y,x), (y+1,x), (y+1,x+1), (y,x+1) as corners contains `m`. -/
def CellContains (lats lons : List (List (Fl K))) (y x : Nat) (m : Pt K) : Prop :=
  ∃ A B C D, CornerAt lats lons y x A ∧ CornerAt lats lons (y + 1) x B ∧ CornerAt lats lons (y + 1) (x + 1) C ∧
    CornerAt lats lons y (x + 1) D ∧ InsideQuad A B C D m

theorem cross_swap (p q m : Pt K) : cross q p m = - cross p q m := by simp only [cross]; ring

theorem insideQuad_rot {A B C D m : Pt K} : InsideQuad B C D A m ↔ InsideQuad A B C D m := by
  unfold InsideQuad; tauto

theorem insideQuad_rev {A B C D m : Pt K} : InsideQuad D C B A m ↔ InsideQuad A B C D m := by
  unfold InsideQuad
  rw [cross_swap C D, cross_swap B C, cross_swap A B, cross_swap D A]
  simp only [Left.nonneg_neg_iff, Left.neg_nonpos_iff]
  tauto

theorem CornerAt.unique {lats lons : List (List (Fl K))} {y x : Nat} {A B : Pt K} (h : CornerAt lats lons y x A) (h' : CornerAt lats lons y x B) :
    A = B := by
  obtain ⟨h1, h2⟩ := h
  obtain ⟨h3, h4⟩ := h'
  rw [h1] at h3; rw [h2] at h4
  obtain ⟨a, b⟩ := A
  obtain ⟨c, d⟩ := B
  simp only [Option.some.injEq, Fl.fin.injEq] at h3 h4
  simp [h3, h4]

theorem cellContains_iff {lats lons : List (List (Fl K))} {y x : Nat} {A B C D m : Pt K} (hA : CornerAt lats lons y x A)
    (hB : CornerAt lats lons (y + 1) x B) (hC : CornerAt lats lons (y + 1) (x + 1) C) (hD : CornerAt lats lons y (x + 1) D) :
    CellContains lats lons y x m ↔ InsideQuad A B C D m := by
  constructor
  · rintro ⟨A', B', C', D', a, b, c, d, h⟩
    rw [hA.unique a, hB.unique b, hC.unique c, hD.unique d]; exact h
  · exact fun h => ⟨A, B, C, D, hA, hB, hC, hD, h⟩

variable [HasGeo K]

/-- The latitude is accepted by `Point`. -/
def LatOk (v : K) : Prop := |v| ≤ 90001 / 1000

theorem boxCorner_ok {a o : K} (h : LatOk a) : boxCorner (fin a) (fin o) = ok ⟨fin a, fin o⟩ := by
  unfold boxCorner Point.new
  rw [(convert_spec (fin a) (fin o)).2.1 a o rfl rfl h]
  rfl

theorem convert_latOk {lat lon : Fl K} {p : Pt3 K} (h : convertCoordinates lat lon .geodetic = ok p) {v : K} (hv : lat = fin v) : LatOk v := by
  by_contra hc
  unfold LatOk at hc
  rw [(convert_spec lat lon).2.2.1 v hv (not_le.mp hc)] at h
  cases h

theorem convert_finite {lat lon : Fl K} {type : CoordType} {p : Pt3 K} (h : convertCoordinates lat lon type = ok p) :
    ∃ m : Pt K, lat = fin m.lat ∧ lon = fin m.lon := by
  have h4 := (convert_spec lat lon).2.2.2 type
  cases lat with
  | fin a =>
    cases lon with
    | fin o => exact ⟨⟨a, o⟩, rfl, rfl⟩
    | _ => rw [h4 (Or.inr rfl)] at h; cases h
  | _ => rw [h4 (Or.inl rfl)] at h; cases h

/-- Finite corners for every cell. -/
theorem corners_exist {g : Grid K} {Y X : Nat} (h : g.WF Y X) {y x : Nat} (hy : y < Y) (hx : x < X) :
    ∃ A : Pt K, CornerAt g.lats g.lons y x A := by
  obtain ⟨q, la, lo, h1, h2, h3⟩ := h.exists_cellAt hy hx
  obtain ⟨m, rfl, rfl⟩ := convert_finite h3
  exact ⟨m, h1, h2⟩

/-- All corners are accepted by `Point`. -/
theorem latOk_corner {g : Grid K} {Y X : Nat} (h : g.WF Y X)
    (hs : g.tree.type = .cartesian → ∀ y x v, cell? g.lats y x = some (fin v) → LatOk v)
    {y x : Nat} {A : Pt K} (hA : CornerAt g.lats g.lons y x A) : LatOk A.lat := by
  cases ht : g.tree.type with
  | cartesian => exact hs ht y x _ hA.1
  | geodetic =>
    obtain ⟨hy, hx⟩ := cell?_lt h.lats hA.1
    obtain ⟨q, la, lo, h1, h2, h3⟩ := h.exists_cellAt hy hx
    rw [ht] at h3
    rw [hA.1] at h1
    cases h1
    exact convert_latOk h3 rfl

theorem boxTry_ok {g : Grid K} {nY nX : Nat} {A B C D m : Pt K} {y x y' x' : Nat} {ydir xdir : Int}
    (hy : (y' : Int) = y + ydir) (hx : (x' : Int) = x + xdir) (_hd1 : ydir = 1 ∨ ydir = -1) (_hd2 : xdir = 1 ∨ xdir = -1)
    (_hyl : y < nY) (_hxl : x < nX) (hyl' : y' < nY) (hxl' : x' < nX)
    (hA : CornerAt g.lats g.lons y x A) (hB : CornerAt g.lats g.lons y' x B) (hC : CornerAt g.lats g.lons y' x' C)
    (hD : CornerAt g.lats g.lons y x' D) (lA : LatOk A.lat) (lB : LatOk B.lat) (lC : LatOk C.lat) (lD : LatOk D.lat) (lm : LatOk m.lat) :
    ∃ f, boxTry g (fin m.lat) (fin m.lon) y x nY nX ydir xdir = ok f ∧ (f = true ↔ InsideQuad A B C D m) := by
  unfold boxTry
  rw [if_neg (by omega), if_neg (by omega), if_neg (by omega), if_neg (by omega), ← hy, ← hx]
  simp only [vget2_of_cell? hA.1, vget2_of_cell? hA.2, vget2_of_cell? hB.1, vget2_of_cell? hB.2, vget2_of_cell? hC.1,
    vget2_of_cell? hC.2, vget2_of_cell? hD.1, vget2_of_cell? hD.2, ok_bind, boxCorner_ok lA, boxCorner_ok lB, boxCorner_ok lC,
    boxCorner_ok lD, boxCorner_ok lm]
  exact ⟨_, rfl, c10_halfplanes A B C D m⟩

theorem boxTry_skip {g : Grid K} {lat lon : Fl K} {nY nX : Nat} {y x : Nat} {ydir xdir : Int}
    (h : (y = 0 ∧ ydir = -1) ∨ (y + 1 = nY ∧ ydir = 1) ∨ (x = 0 ∧ xdir = -1) ∨ (x + 1 = nX ∧ xdir = 1)) :
    boxTry g lat lon y x nY nX ydir xdir = ok false := by
  unfold boxTry
  split_ifs with h1 h2 h3 h4
  · rfl
  · rfl
  · rfl
  · rfl
  · exfalso; omega

/-- Lower left corner of the cell in direction `d` from `(y, x)`, if that cell is in the grid. -/
def DirCell (nY nX y x : Nat) (d : Int × Int) (y1 x1 : Nat) : Prop :=
  y1 + 1 < nY ∧ x1 + 1 < nX ∧ (y1 : Int) = (if d.1 = 1 then (y : Int) else y - 1) ∧ (x1 : Int) = (if d.2 = 1 then (x : Int) else x - 1)

theorem boxTry_spec {g : Grid K} {nY nX : Nat} (hg : g.WF nY nX)
    (hs : g.tree.type = .cartesian → ∀ y x v, cell? g.lats y x = some (fin v) → LatOk v)
    {m : Pt K} (lm : LatOk m.lat) {y x : Nat} (hy : y < nY) (hx : x < nX) (d : Int × Int)
    (hd : d ∈ [((1 : Int), (-1 : Int)), (1, 1), (-1, -1), (-1, 1)]) :
    ∃ f, boxTry g (fin m.lat) (fin m.lon) y x nY nX d.1 d.2 = ok f ∧
      (f = true ↔ ∃ y1 x1, DirCell nY nX y x d y1 x1 ∧ CellContains g.lats g.lons y1 x1 m) := by
  have hd1 : d.1 = 1 ∨ d.1 = -1 := by
    simp only [List.mem_cons, List.not_mem_nil, or_false] at hd; rcases hd with rfl | rfl | rfl | rfl <;> simp
  have hd2 : d.2 = 1 ∨ d.2 = -1 := by
    simp only [List.mem_cons, List.not_mem_nil, or_false] at hd; rcases hd with rfl | rfl | rfl | rfl <;> simp
  clear hd
  obtain ⟨dy, dx⟩ := d
  simp only at hd1 hd2 ⊢
  by_cases hsk : (y = 0 ∧ dy = -1) ∨ (y + 1 = nY ∧ dy = 1) ∨ (x = 0 ∧ dx = -1) ∨ (x + 1 = nX ∧ dx = 1)
  · refine ⟨false, boxTry_skip hsk, ?_⟩
    simp only [Bool.false_eq_true, false_iff]
    rintro ⟨y1, x1, ⟨h1, h2, h3, h4⟩, -⟩
    simp only at h3 h4
    split_ifs at h3 h4 <;> omega
  · push Not at hsk
    obtain ⟨k1, k2, k3, k4⟩ := hsk
    -- the far row and column
    obtain ⟨y', hy'⟩ : ∃ y' : Nat, (y' : Int) = y + dy := ⟨(y + dy).toNat, by rcases hd1 with rfl | rfl <;> omega⟩
    obtain ⟨x', hx'⟩ : ∃ x' : Nat, (x' : Int) = x + dx := ⟨(x + dx).toNat, by rcases hd2 with rfl | rfl <;> omega⟩
    have hyl' : y' < nY := by rcases hd1 with rfl | rfl <;> omega
    have hxl' : x' < nX := by rcases hd2 with rfl | rfl <;> omega
    obtain ⟨A, hA⟩ := corners_exist hg hy hx
    obtain ⟨B, hB⟩ := corners_exist hg hyl' hx
    obtain ⟨C, hC⟩ := corners_exist hg hyl' hxl'
    obtain ⟨D, hD⟩ := corners_exist hg hy hxl'
    obtain ⟨f, h1, h2⟩ := boxTry_ok hy' hx' hd1 hd2 hy hx hyl' hxl' hA hB hC hD (latOk_corner hg hs hA) (latOk_corner hg hs hB)
      (latOk_corner hg hs hC) (latOk_corner hg hs hD) lm
    refine ⟨f, h1, h2.trans ?_⟩
    have hbox : ∃ y1 x1, DirCell nY nX y x (dy, dx) y1 x1 ∧ (CellContains g.lats g.lons y1 x1 m ↔ InsideQuad A B C D m) := by
      rcases hd1 with rfl | rfl <;> rcases hd2 with rfl | rfl
      · obtain rfl : y' = y + 1 := by omega
        obtain rfl : x' = x + 1 := by omega
        exact ⟨y, x, ⟨hyl', hxl', by simp, by simp⟩, cellContains_iff hA hB hC hD⟩
      · obtain rfl : y' = y + 1 := by omega
        obtain rfl : x = x' + 1 := by omega
        refine ⟨y, x', ⟨hyl', hx, by simp, by simp⟩, ?_⟩
        rw [cellContains_iff hD hC hB hA, insideQuad_rev]
      · obtain rfl : y = y' + 1 := by omega
        obtain rfl : x' = x + 1 := by omega
        refine ⟨y', x, ⟨hy, hxl', by simp, by simp⟩, ?_⟩
        rw [cellContains_iff hB hA hD hC, ← insideQuad_rev, insideQuad_rot, insideQuad_rot]
      · obtain rfl : y = y' + 1 := by omega
        obtain rfl : x = x' + 1 := by omega
        refine ⟨y', x', ⟨hy, hx, by simp, by simp⟩, ?_⟩
        rw [cellContains_iff hC hD hA hB, insideQuad_rot, insideQuad_rot]
    obtain ⟨y1, x1, hb1, hb2⟩ := hbox
    constructor
    · exact fun h => ⟨y1, x1, hb1, hb2.mpr h⟩
    · rintro ⟨y2, x2, ⟨-, -, e3, e4⟩, h⟩
      have : y2 = y1 := by have := hb1.2.2.1; omega
      have : x2 = x1 := by have := hb1.2.2.2; omega
      subst y2 x2
      exact hb2.mp h

theorem boxSearch_spec {g : Grid K} {lat lon : Fl K} {y x nY nX : Int} {P : Int × Int → Prop} (ds : List (Int × Int))
    (h : ∀ d ∈ ds, ∃ f, boxTry g lat lon y x nY nX d.1 d.2 = ok f ∧ (f = true ↔ P d)) :
    (boxSearch g lat lon y x nY nX ds = ok none ∧ ∀ d ∈ ds, ¬ P d) ∨
    (∃ d ∈ ds, boxSearch g lat lon y x nY nX ds = ok (some d) ∧ P d) := by
  induction ds with
  | nil => left; exact ⟨rfl, by simp⟩
  | cons d t ih =>
    obtain ⟨f, h1, h2⟩ := h d (by simp)
    unfold boxSearch
    rw [h1, ok_bind]
    cases f with
    | true => right; exact ⟨d, by simp, by simp, h2.mp rfl⟩
    | false =>
      simp only [Bool.false_eq_true, if_false]
      rcases ih fun d' hd' => h d' (by simp [hd']) with ⟨h3, h4⟩ | ⟨d', hd', h3, h4⟩
      · left
        refine ⟨h3, ?_⟩
        intro d' hd' hP
        rcases List.mem_cons.mp hd' with rfl | hd'
        · exact absurd (h2.mpr hP) (by simp)
        · exact h4 d' hd' hP
      · right; exact ⟨d', by simp [hd'], h3, h4⟩

end
end Gridpp.Props
