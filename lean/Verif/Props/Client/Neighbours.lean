import Verif.Lemmas.Client.Downscaler
import Verif.Props.Client.KDTree

/-! # C92: nearest neighbours of a grid in another grid; C93: the nearest neighbour downscaler of the client -/

set_option linter.unusedSectionVars false

namespace Gridpp.Props
open Fl hiding MV isValid
open Res Client

variable {K : Type} [Field K] [LinearOrder K] [IsStrictOrderedRing K]

/-- **C92** (one place). For any distance that is not negative the scan returns the grid point with coordinates that is nearest, the
first one in the order of the loops if several are equally near; -999 twice if no grid point has coordinates. -/
theorem c92_brute [HasArcC K] (hpos : ∀ a b c d : K, 0 ≤ HasArcC.arc a b c d) {Y X : Nat} {lats lons : List (List (Fl K))}
    (hlat : Rect Y X lats) (hlon : Rect Y X lons) (hglobe : ∀ i j c d, PlaceAt lats lons i j c d → OnGlobe c d) {a b : K}
    (hq : OnGlobe a b) :
    ∃ r, bruteForce lats lons (fin b) (fin a) = ok r ∧ ((¬ ∃ i j c d, PlaceAt lats lons i j c d) → r = (-999, -999)) ∧
      ((∃ i j c d, PlaceAt lats lons i j c d) → ∃ (i j : Nat) (c d : K), r = ((i : Int), (j : Int)) ∧ PlaceAt lats lons i j c d ∧
        ∀ i' j' c' d', PlaceAt lats lons i' j' c' d' →
          gap c d a b ≤ gap c' d' a b ∧ (i' < i ∨ i' = i ∧ j' < j → gap c d a b < gap c' d' a b)) := by
  obtain ⟨s, h1, h2⟩ := bruteForce_spec hpos hlat hlon hglobe hq
  have hb : ∀ i' j' c d, PlaceAt lats lons i' j' c d → Before i' j' Y 0 := fun i' j' c d hp => .inl (cell?_lt hlat hp.1).1
  refine ⟨s.1, h1, ?_, ?_⟩
  · intro hno
    rcases h2 with ⟨rfl, -⟩ | ⟨p, q, c, d, -, hp, -⟩
    · rfl
    · exact absurd ⟨p, q, c, d, hp⟩ hno
  · rintro ⟨i0, j0, c0, d0, hp0⟩
    rcases h2 with ⟨-, h⟩ | ⟨p, q, c, d, rfl, hp, -, h⟩
    · exact absurd hp0 (h i0 j0 c0 d0 (hb _ _ _ _ hp0))
    · exact ⟨p, q, c, d, rfl, hp, fun i' j' c' d' hp' => h i' j' c' d' (hb _ _ _ _ hp') hp'⟩

/-- **C92** (one place). A place with a missing coordinate has no neighbour. -/
theorem c92_brute_missing [HasArcC K] (lats lons : List (List (Fl K))) {lat lon : Fl K} (h : ¬ (Present lat ∧ Present lon)) :
    bruteForce lats lons lon lat = ok (-999, -999) := by
  unfold bruteForce
  rw [if_neg]
  rw [Bool.and_eq_true, isValid_iff_present, isValid_iff_present]
  exact h

/-- The table `out` of indices gives for each place of the grid `olats`, `olons` the nearest grid point of `ilats`, `ilons`; `dist c d a
b` is the distance of the grid point at `c`, `d` and the place at `a`, `b`. -/
def NearestTable (dist : K → K → K → K → K) (ilats ilons olats olons : List (List (Fl K))) (nY nX : Nat) (out : List (List (Int × Int))) : Prop :=
  ∀ y < nY, ∀ x < nX, ∀ a b, PlaceAt olats olons y x a b → ∃ (i j : Nat) (c d : K), cell? out y x = some ((i : Int), (j : Int)) ∧
    PlaceAt ilats ilons i j c d ∧ ∀ i' j' c' d', PlaceAt ilats ilons i' j' c' d' → dist c d a b ≤ dist c' d' a b

/-- The grids have the same sizes and the same coordinates at every point, the missing ones included. -/
def SameGrid (ilats ilons olats olons : List (List (Fl K))) : Prop :=
  ∃ Y X, Rect Y X ilats ∧ Rect Y X olats ∧ (∀ y x u v, cell? ilats y x = some u → cell? olats y x = some v → u.feq v = true) ∧
    ∀ y x u v, cell? ilons y x = some u → cell? olons y x = some v → u.feq v = true

theorem own_nearest {dist : K → K → K → K → K} (h0 : ∀ a b, dist a b a b = 0) (hd : ∀ a b c d, 0 ≤ dist a b c d)
    {ilats ilons olats olons : List (List (Fl K))} {nY nX : Nat} (hi : Rect nY nX ilats) (hj : Rect nY nX ilons)
    (hlat : ∀ y x u v, cell? ilats y x = some u → cell? olats y x = some v → u.feq v = true)
    (hlon : ∀ y x u v, cell? ilons y x = some u → cell? olons y x = some v → u.feq v = true) :
    NearestTable dist ilats ilons olats olons nY nX (ownIndices nY nX) := by
  intro y hy x hx a b hp
  obtain ⟨u, hu⟩ := hi.cell?_some hy hx
  obtain ⟨v, hv⟩ := hj.cell?_some hy hx
  have eu := feq_fin_right (hlat y x u _ hu hp.1)
  have ev := feq_fin_right (hlon y x v _ hv hp.2.1)
  subst eu; subst ev
  exact ⟨y, x, a, b, cell?_ownIndices hy hx, ⟨hu, hv, hp.2.2⟩, fun i' j' c' d' _ => by rw [h0]; exact hd _ _ _ _⟩

theorem rect_pos {α : Type} {Y X : Nat} {a : List (List α)} (h : Rect Y X a) {i j : Nat} {v : α} (hc : cell? a i j = some v) : 0 < Y := by
  have := (cell?_lt h hc).1
  omega

/-- **C92** (two grids, scan). For any distance that is not negative: every place with coordinates gets the nearest grid point. Where a
coordinate is missing both indices are -999, unless the two grids are the same. -/
theorem c92_brute_grid_partial [HasArcC K] (hpos : ∀ a b c d : K, 0 ≤ HasArcC.arc a b c d) {Y X nY nX : Nat}
    {ilats ilons olats olons : List (List (Fl K))} (hlat : Rect Y X ilats) (hlon : Rect Y X ilons) (hoa : Rect nY nX olats)
    (hoo : Rect nY nX olons) (hn : 0 < nY) (hglobe : ∀ i j c d, PlaceAt ilats ilons i j c d → OnGlobe c d)
    (hoglobe : ∀ i j c d, PlaceAt olats olons i j c d → OnGlobe c d) (hsome : ∃ i j c d, PlaceAt ilats ilons i j c d) :
    ∃ out, bruteForceGrid ilats ilons olats olons = ok out ∧ Rect nY nX out ∧ NearestTable gap ilats ilons olats olons nY nX out ∧
      ∀ y < nY, ∀ x < nX, (¬ ∃ a b, PlaceAt olats olons y x a b) →
        cell? out y x = some (-999, -999) ∨ SameGrid ilats ilons olats olons ∧ cell? out y x = some ((y : Int), (x : Int)) := by
  obtain ⟨r, hr, hr'⟩ := identicalGrids_spec hlat hlon hoa hoo hn
  unfold bruteForceGrid
  rw [numX_rect hoa hn, hr, hoa.1]
  simp only [ok_bind]
  cases r with
  | true =>
    obtain ⟨rfl, rfl, h1, h2⟩ := hr'.mp rfl
    rw [if_pos rfl]
    refine ⟨_, rfl, rect_ownIndices _ _, own_nearest (fun a b => by simp [gap]) (gap_nonneg hpos) hlat hlon h1 h2, ?_⟩
    intro y hy x hx _
    exact .inr ⟨⟨_, _, hlat, hoa, h1, h2⟩, cell?_ownIndices hy hx⟩
  | false =>
    rw [if_neg (by simp)]
    obtain ⟨out, g1, g2, g3⟩ := grid2_exists (Y := nY) (X := nX) (f := fun i j => do
        let lat ← vget2 olats i j
        let lon ← vget2 olons i j
        if Client.isValid lat && Client.isValid lon then bruteForce ilats ilons lon lat else ok (-999, -999))
      (P := fun y x v => ((¬ ∃ a b, PlaceAt olats olons y x a b) → v = (-999, -999)) ∧
          ∀ a b, PlaceAt olats olons y x a b → ∃ (i j : Nat) (c d : K), v = ((i : Int), (j : Int)) ∧ PlaceAt ilats ilons i j c d ∧
            ∀ i' j' c' d', PlaceAt ilats ilons i' j' c' d' → gap c d a b ≤ gap c' d' a b) (by
        intro y hy x hx
        obtain ⟨lat, ha, ha'⟩ := vget2_of_rect hoa hy hx
        obtain ⟨lon, hb, hb'⟩ := vget2_of_rect hoo hy hx
        simp only [ha', hb', ok_bind]
        by_cases hv : (Client.isValid lat && Client.isValid lon) = true
        · rw [if_pos hv]
          rw [Bool.and_eq_true] at hv
          obtain ⟨a, rfl, hne⟩ := isValid_iff_present.mp hv.1
          obtain ⟨b, rfl, hne'⟩ := isValid_iff_present.mp hv.2
          have hP : PlaceAt olats olons y x a b := ⟨ha, hb, hne, hne'⟩
          obtain ⟨r, e1, -, e3⟩ := c92_brute hpos hlat hlon hglobe (hoglobe y x a b hP)
          obtain ⟨i, j, c, d, e4, e5, e6⟩ := e3 hsome
          refine ⟨_, e1, fun h => absurd ⟨a, b, hP⟩ h, ?_⟩
          intro a' b' hP'
          obtain ⟨rfl, rfl⟩ := PlaceIn.unique hP hP'
          exact ⟨i, j, c, d, e4, e5, fun i' j' c' d' hp => (e6 i' j' c' d' hp).1⟩
        · rw [if_neg hv]
          refine ⟨_, rfl, fun _ => rfl, ?_⟩
          rintro a b ⟨e1, e2, e3, e4⟩
          rw [ha, Option.some.injEq] at e1
          rw [hb, Option.some.injEq] at e2
          exact absurd (by rw [Bool.and_eq_true, e1, e2]; exact ⟨isValid_iff_present.mpr ⟨a, rfl, e3⟩, isValid_iff_present.mpr ⟨b, rfl, e4⟩⟩) hv)
    refine ⟨out, g1, g2, ?_, ?_⟩
    · intro y hy x hx a b hp
      obtain ⟨v, e1, -, -, e2⟩ := g3 y hy x hx
      obtain ⟨i, j, c, d, rfl, e3⟩ := e2 a b hp
      exact ⟨i, j, c, d, e1, e3⟩
    · intro y hy x hx hno
      obtain ⟨v, e1, -, e2, -⟩ := g3 y hy x hx
      rw [e2 hno] at e1
      exact .inl e1

/-- **C92** (two grids, tree). If the distance separates as in C91, the same holds for the search with the tree. -/
theorem c92_tree_grid_partial [HasArcC K] (hsep : KD.Separates K) (hpos : ∀ a b c d : K, 0 ≤ HasArcC.arc a b c d)
    {sort : Bool → List (Site K) → List (Site K)} (hsort : KD.Sorts sort) {Y X nY nX : Nat}
    {ilats ilons olats olons : List (List (Fl K))} (hlat : Rect Y X ilats) (hlon : Rect Y X ilons) (hoa : Rect nY nX olats)
    (hoo : Rect nY nX olons) (hn : 0 < nY) (hglobe : ∀ i j c d, PlaceAt ilats ilons i j c d → OnGlobe c d)
    (hoglobe : ∀ i j c d, PlaceAt olats olons i j c d → OnGlobe c d) (hsome : ∃ i j c d, PlaceAt ilats ilons i j c d) :
    ∃ out, treeGrid sort ilats ilons olats olons = ok out ∧ Rect nY nX out ∧
      NearestTable (fun c d a b => gap a b c d) ilats ilons olats olons nY nX out ∧
      ∀ y < nY, ∀ x < nX, (¬ ∃ a b, PlaceAt olats olons y x a b) →
        cell? out y x = some (-999, -999) ∨ SameGrid ilats ilons olats olons ∧ cell? out y x = some ((y : Int), (x : Int)) := by
  obtain ⟨r, hr, hr'⟩ := identicalGrids_spec hlat hlon hoa hoo hn
  unfold treeGrid
  rw [numX_rect hoa hn, hr, hoa.1]
  simp only [ok_bind]
  cases r with
  | true =>
    obtain ⟨rfl, rfl, h1, h2⟩ := hr'.mp rfl
    rw [if_pos rfl]
    refine ⟨_, rfl, rect_ownIndices _ _, own_nearest (fun a b => by simp [gap]) (fun a b c d => gap_nonneg hpos c d a b) hlat hlon h1 h2, ?_⟩
    intro y hy x hx _
    exact .inr ⟨⟨_, _, hlat, hoa, h1, h2⟩, cell?_ownIndices hy hx⟩
  | false =>
    rw [if_neg (by simp)]
    obtain ⟨root, out, h1, h2, h3, h4⟩ := c91_grid_partial hsep hsort hlat hlon hglobe hsome hoa hoo hoglobe
    rw [h1]
    refine ⟨out, h2, h3, ?_, ?_⟩
    · intro y hy x hx a b hp
      obtain ⟨I, J, e1, -, e3⟩ := h4 y hy x hx
      obtain ⟨i, j, c, d, rfl, rfl, e4, e5⟩ := e3 a b hp
      exact ⟨i, j, c, d, e1, e4, e5⟩
    · intro y hy x hx hno
      obtain ⟨I, J, e1, e2, -⟩ := h4 y hy x hx
      obtain ⟨rfl, rfl⟩ := e2 hno
      exact .inl e1

/-- **C92** (same grids). Both searches return for every grid point the point itself, also where it has no coordinates: there the claim
that both indices are -999 is false. -/
theorem c92_same_grid [HasArcC K] (sort : Bool → List (Site K) → List (Site K)) {Y X : Nat} {ilats ilons olats olons : List (List (Fl K))}
    (hlat : Rect Y X ilats) (hlon : Rect Y X ilons) (hoa : Rect Y X olats) (hoo : Rect Y X olons) (hn : 0 < Y)
    (h1 : ∀ y x u v, cell? ilats y x = some u → cell? olats y x = some v → u.feq v = true)
    (h2 : ∀ y x u v, cell? ilons y x = some u → cell? olons y x = some v → u.feq v = true) :
    ∃ out, bruteForceGrid ilats ilons olats olons = ok out ∧ treeGrid sort ilats ilons olats olons = ok out ∧
      ∀ y < Y, ∀ x < X, cell? out y x = some ((y : Int), (x : Int)) := by
  obtain ⟨r, hr, hr'⟩ := identicalGrids_spec hlat hlon hoa hoo hn
  have : r = true := hr'.mpr ⟨rfl, rfl, h1, h2⟩
  subst this
  refine ⟨ownIndices Y X, ?_, ?_, fun y hy x hx => cell?_ownIndices hy hx⟩
  · unfold bruteForceGrid
    rw [numX_rect hoa hn, hr, hoa.1]
    rfl
  · unfold treeGrid
    rw [numX_rect hoa hn, hr, hoa.1]
    rfl

section
local instance : HasArcC ℚ := ⟨fun a b c d => |a - c| + |b - d|⟩

/-- Two equal grids with a missing latitude: its index is itself, not -999. Another place without coordinates gets -999, the places
with coordinates get the nearest. -/
example : bruteForceGrid [[fin 0, fin (-999)]] [[fin 5, (fin 6 : Fl ℚ)]] [[fin 0, fin (-999)]] [[fin 5, fin 6]] = ok [[(0, 0), (0, 1)]] ∧
    bruteForceGrid [[fin 0, fin 4]] [[fin 5, (fin 6 : Fl ℚ)]] [[fin 3, fin (-999)]] [[fin 5, fin 6]] = ok [[(0, 1), (-999, -999)]] := by
  constructor <;> decide +kernel

/-- The hypotheses of the theorems on two grids. -/
example : (∀ a b c d : ℚ, 0 ≤ HasArcC.arc a b c d) ∧ (∃ i j c d, PlaceAt [[fin 0, fin 4]] [[fin 5, (fin 6 : Fl ℚ)]] i j c d) :=
  ⟨fun a b c d => add_nonneg (abs_nonneg _) (abs_nonneg _), 0, 0, 0, 5, by decide +kernel, by decide +kernel, by decide +kernel, by decide +kernel⟩

end

/-- The distance on the sphere is not negative, so `c92_brute` holds for it without further assumption. -/
theorem sphere_nonneg (a b c d : ℝ) : 0 ≤ HasArcC.arc a b c d := mul_nonneg (Real.arccos_nonneg _) (by norm_num)

theorem gap_real_comm (a b c d : ℝ) : gap a b c d = gap c d a b := by
  by_cases h : a = c ∧ b = d
  · obtain ⟨rfl, rfl⟩ := h
    rfl
  · rw [gap_real a b c d h, gap_real c d a b (by rintro ⟨rfl, rfl⟩; exact h ⟨rfl, rfl⟩)]
    unfold ratioC
    congr 2
    ring

/-- **C92** (the searches differ). For the grid with the points at 170 and -179 degrees east on the equator and the place at 179 degrees
east, the scan returns the second point, which is the nearest; the tree returns the first (C91). -/
theorem c92_scan_not_tree {sort : Bool → List (Site ℝ) → List (Site ℝ)} (hsort : KD.Sorts sort) :
    bruteForce [[fin 0, fin 0]] [[fin 170, fin (-179)]] (fin 179) (fin (0 : ℝ)) = ok (0, 1) ∧
      ∃ root, KD.build sort [[fin 0, fin 0]] [[fin 170, fin (-179)]] = ok root ∧ KD.getNearestNeighbour root (fin 0) (fin 179) = ok (0, 0) := by
  obtain ⟨root, h1, h2, h3⟩ := c91_sphere_false hsort
  refine ⟨?_, root, h1, h2⟩
  have ra : Rect 1 2 [[(fin 0 : Fl ℝ), fin 0]] := ⟨rfl, by simp⟩
  have ro : Rect 1 2 [[(fin 170 : Fl ℝ), fin (-179)]] := ⟨rfl, by simp⟩
  have hcells : ∀ i j c d, PlaceAt [[(fin 0 : Fl ℝ), fin 0]] [[fin 170, fin (-179)]] i j c d →
      i = 0 ∧ c = 0 ∧ (j = 0 ∧ d = 170 ∨ j = 1 ∧ d = -179) := by
    intro i j c d h
    obtain ⟨hi, hj⟩ := cell?_lt ra h.1
    obtain rfl : i = 0 := by omega
    rcases (show j = 0 ∨ j = 1 by omega) with rfl | rfl
    · have e1 : (fin 0 : Fl ℝ) = fin c := by simpa [cell?] using h.1
      have e2 : (fin 170 : Fl ℝ) = fin d := by simpa [cell?] using h.2.1
      rw [Fl.fin.injEq] at e1 e2
      exact ⟨rfl, e1.symm, .inl ⟨rfl, e2.symm⟩⟩
    · have e1 : (fin 0 : Fl ℝ) = fin c := by simpa [cell?] using h.1
      have e2 : (fin (-179) : Fl ℝ) = fin d := by simpa [cell?] using h.2.1
      rw [Fl.fin.injEq] at e1 e2
      exact ⟨rfl, e1.symm, .inr ⟨rfl, e2.symm⟩⟩
  have p1 : PlaceAt [[(fin 0 : Fl ℝ), fin 0]] [[fin 170, fin (-179)]] 0 1 0 (-179) := ⟨by simp [cell?], by simp [cell?], by norm_num, by norm_num⟩
  obtain ⟨r, e1, -, e2⟩ := c92_brute sphere_nonneg ra ro (by
    intro i j c d h
    obtain ⟨h1, h2, h'⟩ := hcells i j c d h
    clear h
    rcases h' with ⟨-, h3⟩ | ⟨-, h3⟩ <;> rw [h2, h3] <;> constructor <;> norm_num) (a := 0) (b := 179) (by constructor <;> norm_num)
  obtain ⟨i, j, c, d, rfl, hp, hmin⟩ := e2 ⟨0, 1, 0, -179, p1⟩
  rw [e1]
  obtain ⟨rfl, rfl, h | h⟩ := hcells i j c d hp
  · obtain ⟨rfl, rfl⟩ := h
    have := (hmin 0 1 0 (-179) p1).1
    rw [gap_real_comm 0 170, gap_real_comm 0 (-179)] at this
    exact absurd h3 (not_lt.mpr this)
  · obtain ⟨rfl, rfl⟩ := h
    rfl

end Gridpp.Props
