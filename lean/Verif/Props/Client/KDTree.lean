import Verif.Lemmas.Client.KDTree
import Verif.Lemmas.Grid
import Mathlib.Analysis.SpecialFunctions.Trigonometric.Inverse
import Mathlib.Analysis.Real.Pi.Bounds
import Mathlib.Algebra.Order.Ring.Rat
import Mathlib.Algebra.Field.Rat

/-! # C91: the nearest neighbour search of the client -/

set_option linter.unusedSectionVars false

namespace Gridpp.Props
open Fl hiding MV isValid
open Res Client

variable {K : Type} [Field K] [LinearOrder K] [IsStrictOrderedRing K]

/-- The grid point `i`, `j` has the coordinates `c`, `d`, neither of them missing. -/
def PlaceAt (lats lons : List (List (Fl K))) (i j : Nat) (c d : K) : Prop :=
  cell? lats i j = some (fin c) ∧ cell? lons i j = some (fin d) ∧ c ≠ -999 ∧ d ≠ -999

theorem build_ok {sort : Bool → List (Site K) → List (Site K)} (hsort : KD.Sorts sort) {Y X : Nat} {lats lons : List (List (Fl K))}
    (hlat : Rect Y X lats) (hlon : Rect Y X lons) (hglobe : ∀ i j c d, PlaceAt lats lons i j c d → OnGlobe c d)
    (hsome : ∃ i j c d, PlaceAt lats lons i j c d) :
    ∃ root, KD.build sort lats lons = ok root ∧ root ≠ .nil ∧ root.Ordered ∧ (∀ s ∈ root.toList, GoodSite s) ∧
      ∀ s, s ∈ root.toList ↔ PlaceAt lats lons s.i s.j (num s.lat) (num s.lon) ∧ s.lat = fin (num s.lat) ∧ s.lon = fin (num s.lon) := by
  obtain ⟨i0, j0, c0, d0, h0⟩ := hsome
  have hlt : i0 < Y ∧ j0 < X := cell?_lt hlat h0.1
  obtain ⟨l, hl1, hl2⟩ := KD.sites_spec (by omega) hlat hlon
  have hl3 : ∀ s, s ∈ l ↔ PlaceAt lats lons s.i s.j (num s.lat) (num s.lon) ∧ s.lat = fin (num s.lat) ∧ s.lon = fin (num s.lon) := by
    intro s
    rw [hl2 s]
    constructor
    · rintro ⟨-, -, h1, h2, h3, h4⟩
      obtain ⟨c, hc, hc'⟩ := isValid_iff_present.mp h3
      obtain ⟨d, hd, hd'⟩ := isValid_iff_present.mp h4
      rw [hc] at h1
      rw [hd] at h2
      rw [hc, hd]
      exact ⟨⟨h1, h2, hc', hd'⟩, rfl, rfl⟩
    · rintro ⟨⟨h1, h2, h3, h4⟩, h5, h6⟩
      have := cell?_lt hlat h1
      rw [h5, h6]
      exact ⟨this.1, this.2, h1, h2, isValid_iff_present.mpr ⟨_, rfl, h3⟩, isValid_iff_present.mpr ⟨_, rfl, h4⟩⟩
  have hgood : ∀ s ∈ l, GoodSite s := by
    intro s hs
    obtain ⟨h1, h2, h3⟩ := (hl3 s).mp hs
    exact ⟨_, _, h2, h3, hglobe _ _ _ _ h1⟩
  have hne : l ≠ [] := by
    have : (⟨fin d0, fin c0, i0, j0⟩ : Site K) ∈ l := (hl3 _).mpr ⟨h0, rfl, rfl⟩
    intro h
    rw [h] at this
    simp at this
  obtain ⟨t, ht1, ht2, ht3, ht4⟩ := KD.subTree_spec hsort l.length l true hne le_rfl hgood
  refine ⟨t, ?_, ht2, ht3, fun s hs => hgood s (ht4.mem_iff.mp hs), fun s => by rw [ht4.mem_iff, hl3 s]⟩
  have hY : 0 < lats.length := by rw [hlat.1]; omega
  have hv : vget lats 0 = ok lats[0] := vget_eq_ok_of_lt (n := 0) hY
  have hr : lats[0].length = X := hlat.2 _ (List.getElem_mem hY)
  unfold KD.build
  rw [if_neg (by rw [hlat.1, hlon.1]; simp), if_neg (by omega), hv]
  simp only [ok_bind]
  rw [if_neg (by omega), hl1]
  simp only [ok_bind]
  rw [if_neg (by rw [List.length_eq_zero_iff]; exact hne), ht1]

theorem search_ok [HasArcC K] (hsep : KD.Separates K) {root : KD K} {lats lons : List (List (Fl K))} (hne : root ≠ .nil)
    (hord : root.Ordered) (hgood : ∀ s ∈ root.toList, GoodSite s)
    (hmem : ∀ s, s ∈ root.toList ↔ PlaceAt lats lons s.i s.j (num s.lat) (num s.lon) ∧ s.lat = fin (num s.lat) ∧ s.lon = fin (num s.lon))
    {a b : K} (hq : OnGlobe a b) :
    ∃ (i j : Nat) (c d : K), KD.getNearestNeighbour root (fin a) (fin b) = ok ((i : Int), (j : Int)) ∧ PlaceAt lats lons i j c d ∧
      ∀ i' j' c' d', PlaceAt lats lons i' j' c' d' → gap a b c d ≤ gap a b c' d' := by
  obtain ⟨s, m, h1, h2, h3⟩ := KD.nearest_spec hsep hq root hne hord hgood pinf
  refine ⟨s.i, s.j, num s.lat, num s.lon, ?_, ((hmem s).mp h2).1, ?_⟩
  · unfold KD.getNearestNeighbour
    rw [h1]
    rfl
  · intro i' j' c' d' hp
    have hs' : (⟨fin d', fin c', i', j'⟩ : Site K) ∈ root.toList := (hmem _).mpr ⟨hp, rfl, rfl⟩
    rcases h3 with ⟨-, h⟩ | ⟨-, -, -, h⟩
    · exact absurd (h _ hs') (by simp [Fl.lt])
    · exact h _ hs'

/-- **C91**, as far as it holds. If no place beyond a line of constant longitude or latitude is nearer than the point of that line at
the own latitude or longitude, the search returns for every place the grid point with coordinates that is nearest. Missing: on the
sphere the hypothesis fails for longitudes, see `c91_sphere_false`. -/
theorem c91_nearest_partial [HasArcC K] (hsep : KD.Separates K) {sort : Bool → List (Site K) → List (Site K)} (hsort : KD.Sorts sort)
    {Y X : Nat} {lats lons : List (List (Fl K))} (hlat : Rect Y X lats) (hlon : Rect Y X lons)
    (hglobe : ∀ i j c d, PlaceAt lats lons i j c d → OnGlobe c d) (hsome : ∃ i j c d, PlaceAt lats lons i j c d) :
    ∃ root, KD.build sort lats lons = ok root ∧ ∀ a b, OnGlobe a b →
      ∃ (i j : Nat) (c d : K), KD.getNearestNeighbour root (fin a) (fin b) = ok ((i : Int), (j : Int)) ∧ PlaceAt lats lons i j c d ∧
        ∀ i' j' c' d', PlaceAt lats lons i' j' c' d' → gap a b c d ≤ gap a b c' d' := by
  obtain ⟨root, h1, h2, h3, h4, h5⟩ := build_ok hsort hlat hlon hglobe hsome
  exact ⟨root, h1, fun a b hq => search_ok hsep h2 h3 h4 h5 hq⟩

/-- **C91** for a grid of places: where a coordinate is missing or undefined, both indices are -999; elsewhere as above. -/
theorem c91_grid_partial [HasArcC K] (hsep : KD.Separates K) {sort : Bool → List (Site K) → List (Site K)} (hsort : KD.Sorts sort)
    {Y X : Nat} {lats lons : List (List (Fl K))} (hlat : Rect Y X lats) (hlon : Rect Y X lons)
    (hglobe : ∀ i j c d, PlaceAt lats lons i j c d → OnGlobe c d) (hsome : ∃ i j c d, PlaceAt lats lons i j c d)
    {nY nX : Nat} {olats olons : List (List (Fl K))} (hoa : Rect nY nX olats) (hoo : Rect nY nX olons)
    (hoglobe : ∀ i j c d, PlaceAt olats olons i j c d → OnGlobe c d) :
    ∃ root out, KD.build sort lats lons = ok root ∧ KD.getNearestNeighbours root nY nX olats olons = ok out ∧ Rect nY nX out ∧
      ∀ y < nY, ∀ x < nX, ∃ I J, cell? out y x = some (I, J) ∧
        ((¬ ∃ a b, PlaceAt olats olons y x a b) → I = -999 ∧ J = -999) ∧
        ∀ a b, PlaceAt olats olons y x a b → ∃ (i j : Nat) (c d : K), I = (i : Int) ∧ J = (j : Int) ∧ PlaceAt lats lons i j c d ∧
          ∀ i' j' c' d', PlaceAt lats lons i' j' c' d' → gap a b c d ≤ gap a b c' d' := by
  obtain ⟨root, h1, h2, h3, h4, h5⟩ := build_ok hsort hlat hlon hglobe hsome
  have hnil : root.isNil = false := by
    cases root with
    | nil => exact absurd rfl h2
    | node => rfl
  obtain ⟨out, g1, g2, g3⟩ := grid2_exists (Y := nY) (X := nX) (f := fun i j => do
      let lat ← vget2 olats i j
      let lon ← vget2 olons i j
      if Client.isValid lat && Client.isValid lon then KD.getNearestNeighbour root lat lon else ok (-999, -999))
    (P := fun y x v => ((¬ ∃ a b, PlaceAt olats olons y x a b) → v.1 = -999 ∧ v.2 = -999) ∧
        ∀ a b, PlaceAt olats olons y x a b → ∃ (i j : Nat) (c d : K), v.1 = (i : Int) ∧ v.2 = (j : Int) ∧ PlaceAt lats lons i j c d ∧
          ∀ i' j' c' d', PlaceAt lats lons i' j' c' d' → gap a b c d ≤ gap a b c' d') (by
      intro y hy x hx
      obtain ⟨lat, ha, ha'⟩ := vget2_of_rect hoa hy hx
      obtain ⟨lon, hb, hb'⟩ := vget2_of_rect hoo hy hx
      simp only [ha', hb', ok_bind]
      by_cases hv : (Client.isValid lat && Client.isValid lon) = true
      · rw [if_pos hv]
        rw [Bool.and_eq_true] at hv
        obtain ⟨a, rfl, hne⟩ := isValid_iff_present.mp hv.1
        obtain ⟨b, rfl, hne'⟩ := isValid_iff_present.mp hv.2
        have hP : PlaceAt olats olons y x a b := ⟨ha, hb, hne, hne'⟩
        obtain ⟨i, j, c, d, e1, e2, e3⟩ := search_ok hsep h2 h3 h4 h5 (hoglobe y x a b hP)
        refine ⟨_, e1, fun h => absurd ⟨a, b, hP⟩ h, ?_⟩
        intro a' b' hP'
        have ea : a' = a := by have := hP'.1; rw [ha] at this; simpa using this.symm
        have eb : b' = b := by have := hP'.2.1; rw [hb] at this; simpa using this.symm
        subst ea; subst eb
        exact ⟨i, j, c, d, rfl, rfl, e2, e3⟩
      · rw [if_neg hv]
        refine ⟨_, rfl, fun _ => ⟨rfl, rfl⟩, ?_⟩
        rintro a b ⟨e1, e2, e3, e4⟩
        rw [ha, Option.some.injEq] at e1
        rw [hb, Option.some.injEq] at e2
        exact absurd (by rw [Bool.and_eq_true, e1, e2]; exact ⟨isValid_iff_present.mpr ⟨a, rfl, e3⟩, isValid_iff_present.mpr ⟨b, rfl, e4⟩⟩) hv)
  refine ⟨root, out, h1, ?_, g2, fun y hy x hx => ?_⟩
  · unfold KD.getNearestNeighbours
    rw [hnil]
    exact g1
  · obtain ⟨v, e1, -, e2⟩ := g3 y hy x hx
    exact ⟨v.1, v.2, e1, e2⟩

/-- **C91** (refusal). Without a grid point that has coordinates, no tree is built: the program ends with an error. -/
theorem c91_refused (sort : Bool → List (Site K) → List (Site K)) {Y X : Nat} {lats lons : List (List (Fl K))} (hlat : Rect Y X lats)
    (hlon : Rect Y X lons) (hnone : ¬ ∃ i j c d, PlaceAt lats lons i j c d) : KD.build sort lats lons = .abort := by
  unfold KD.build
  rw [if_neg (by rw [hlat.1, hlon.1]; simp)]
  by_cases hY : lats.length = 0
  · rw [if_pos hY]; rfl
  · have hY' : 0 < lats.length := by omega
    have hv : vget lats 0 = ok lats[0] := vget_eq_ok_of_lt (n := 0) hY'
    rw [if_neg hY, hv]
    simp only [ok_bind]
    by_cases hX : lats[0].length = 0
    · rw [if_pos hX]; rfl
    · rw [if_neg hX]
      obtain ⟨l, hl1, hl2⟩ := KD.sites_spec (by rw [hlat.1] at hY'; exact hY') hlat hlon
      rw [hl1]
      simp only [ok_bind]
      rw [if_pos]
      · rfl
      · rw [List.length_eq_zero_iff, List.eq_nil_iff_forall_not_mem]
        intro s hs
        obtain ⟨-, -, h1, h2, h3, h4⟩ := (hl2 s).mp hs
        obtain ⟨c, hc, hc'⟩ := isValid_iff_present.mp h3
        obtain ⟨d, hd, hd'⟩ := isValid_iff_present.mp h4
        exact hnone ⟨s.i, s.j, c, d, by rw [← hc]; exact h1, by rw [← hd]; exact h2, hc', hd'⟩

example : Rect 1 1 [[(fin (-999) : Fl ℚ)]] ∧ ¬ ∃ i j c d, PlaceAt [[(fin (-999) : Fl ℚ)]] [[fin 5]] i j c d := by
  refine ⟨⟨rfl, by simp⟩, ?_⟩
  rintro ⟨i, j, c, d, h1, -, h3, -⟩
  have := cell?_lt (Y := 1) (X := 1) ⟨rfl, by simp⟩ h1
  obtain ⟨rfl, rfl⟩ : i = 0 ∧ j = 0 := by omega
  have hc : (fin (-999) : Fl ℚ) = fin c := by simpa [cell?] using h1
  rw [Fl.fin.injEq] at hc
  exact h3 hc.symm

/-- A flat distance for which the hypothesis holds; only for the example. -/
local instance : HasArcC ℚ := ⟨fun a b c d => |a - c| + |b - d|⟩

theorem flat_gap (a b c d : ℚ) : gap a b c d = |a - c| + |b - d| := by
  unfold gap
  split_ifs with h
  · rw [h.1, h.2]; simp
  · rfl

theorem flat_separates : KD.Separates ℚ where
  lon a b c d s _ _ _ h := by
    rw [flat_gap, flat_gap, sub_self, abs_zero, zero_add]
    have h0 := abs_nonneg (a - c)
    have : |b - s| ≤ |b - d| := by
      rcases h with ⟨h1, h2⟩ | ⟨h1, h2⟩
      · rw [abs_of_nonpos (by linarith), abs_of_nonpos (by linarith)]; linarith
      · rw [abs_of_nonneg (by linarith), abs_of_nonneg (by linarith)]; linarith
    linarith
  lat a b c d s _ _ _ h := by
    rw [flat_gap, flat_gap, sub_self, abs_zero, add_zero]
    have h0 := abs_nonneg (b - d)
    have : |a - s| ≤ |a - c| := by
      rcases h with ⟨h1, h2⟩ | ⟨h1, h2⟩
      · rw [abs_of_nonpos (by linarith), abs_of_nonpos (by linarith)]; linarith
      · rw [abs_of_nonneg (by linarith), abs_of_nonneg (by linarith)]; linarith
    linarith

/-- A sort. -/
def insertSort (x : Bool) (l : List (Site K)) : List (Site K) := l.insertionSort fun s t => num (KD.key x s) ≤ num (KD.key x t)

theorem insertSort_sorts : KD.Sorts (insertSort (K := K)) := by
  intro x l
  have : Std.Total fun s t : Site K => num (KD.key x s) ≤ num (KD.key x t) := ⟨fun s t => le_total _ _⟩
  have : IsTrans (Site K) fun s t => num (KD.key x s) ≤ num (KD.key x t) := ⟨fun s t u h h' => le_trans h h'⟩
  exact ⟨List.perm_insertionSort _ l, List.pairwise_insertionSort _ l⟩

/-- The hypotheses of `c91_nearest_partial` hold for a small grid with a missing point. -/
example : KD.Separates ℚ ∧ KD.Sorts (insertSort (K := ℚ)) ∧ (∃ i j c d, PlaceAt [[fin 0, fin 1], [fin (-999), (fin 3 : Fl ℚ)]] [[fin 5, fin 5], [fin 6, fin 7]] i j c d) ∧
    KD.build insertSort [[fin 0, fin 1], [fin (-999), (fin 3 : Fl ℚ)]] [[fin 5, fin 5], [fin 6, fin 7]] =
      ok (.node true ⟨fin 5, fin 1, 0, 1⟩ (.node false ⟨fin 5, fin 0, 0, 0⟩ .nil .nil) (.node false ⟨fin 7, fin 3, 1, 1⟩ .nil .nil)) := by
  exact ⟨flat_separates, insertSort_sorts, ⟨0, 0, 0, 5, by decide +kernel, by decide +kernel, by decide +kernel, by decide +kernel⟩,
    by decide +kernel⟩

/-! ### The sphere -/

/-- `deg2rad` (src/client/Util.cpp:140-142). -/
noncomputable def degC (x : ℝ) : ℝ := x * (314159265 / 100000000) / 180

/-- The argument of `acos` (src/client/Util.cpp:132-134). -/
noncomputable def ratioC (a b c d : ℝ) : ℝ :=
  Real.cos (degC a) * Real.cos (degC b) * Real.cos (degC c) * Real.cos (degC d) +
    Real.cos (degC a) * Real.sin (degC b) * Real.cos (degC c) * Real.sin (degC d) + Real.sin (degC a) * Real.sin (degC c)

/-- src/client/Util.cpp:121-136. -/
noncomputable instance : HasArcC ℝ := ⟨fun a b c d => Real.arccos (ratioC a b c d) * 6378137⟩

theorem ratioC_eq (a b c d : ℝ) :
    ratioC a b c d = Real.cos (degC a) * Real.cos (degC c) * Real.cos (degC b - degC d) + Real.sin (degC a) * Real.sin (degC c) := by
  rw [ratioC, Real.cos_sub]; ring

theorem gap_real (a b c d : ℝ) (h : ¬ (a = c ∧ b = d)) : gap a b c d = Real.arccos (ratioC a b c d) * 6378137 := by
  rw [gap, if_neg h]; rfl

/-- **C91** (latitudes). On the sphere no place beyond a circle of latitude is nearer than the point of that circle on the own
meridian, so passing over a side of a section in latitude is right. -/
theorem c91_latitude (a b c d s : ℝ) (h : OnGlobe a b) (h' : OnGlobe c d) (hside : a ≤ s ∧ s < c ∨ c ≤ s ∧ s < a) :
    gap a b s b ≤ gap a b c d := by
  have hac : ¬ (a = c ∧ b = d) := by rintro ⟨rfl, -⟩; rcases hside with h | h <;> linarith [h.1, h.2]
  rw [gap_real a b c d hac]
  by_cases has : a = s
  · rw [gap, if_pos ⟨has, rfl⟩]
    exact mul_nonneg (Real.arccos_nonneg _) (by norm_num)
  · rw [gap_real a b s b (by tauto)]
    refine mul_le_mul_of_nonneg_right ?_ (by norm_num)
    apply Real.arccos_le_arccos
    have hpi := Real.pi_gt_d20
    have hcos : ∀ x : ℝ, |x| ≤ 90 → 0 ≤ Real.cos (degC x) := by
      intro x hx
      have := abs_le.mp hx
      apply Real.cos_nonneg_of_neg_pi_div_two_le_of_le <;> unfold degC <;> linarith [this.1, this.2]
    rw [ratioC_eq, ratioC_eq, sub_self, Real.cos_zero, mul_one]
    have h1 : Real.cos (degC a) * Real.cos (degC c) * Real.cos (degC b - degC d) ≤ Real.cos (degC a) * Real.cos (degC c) :=
      mul_le_of_le_one_right (mul_nonneg (hcos a h.1) (hcos c h'.1)) (Real.cos_le_one _)
    have h2 : Real.cos (degC a - degC c) ≤ Real.cos (degC a - degC s) := by
      rw [← Real.cos_abs (degC a - degC c), ← Real.cos_abs (degC a - degC s)]
      have e : ∀ u v : ℝ, degC u - degC v = (u - v) * (314159265 / 100000000 / 180) := by intro u v; unfold degC; ring
      rw [e, e, abs_mul, abs_mul, abs_of_nonneg (show (0 : ℝ) ≤ 314159265 / 100000000 / 180 by norm_num)]
      have ha := abs_le.mp h.1
      have hc := abs_le.mp h'.1
      have hle : |a - s| ≤ |a - c| ∧ |a - c| ≤ 180 := by
        rcases hside with h | h
        · rw [abs_of_nonpos (by linarith [h.1, h.2]), abs_of_nonpos (by linarith [h.1, h.2])]
          constructor <;> linarith [h.1, h.2, ha.1, hc.2]
        · rw [abs_of_nonneg (by linarith [h.1, h.2]), abs_of_nonneg (by linarith [h.1, h.2])]
          constructor <;> linarith [h.1, h.2, ha.2, hc.1]
      apply Real.cos_le_cos_of_nonneg_of_le_pi
      · positivity
      · nlinarith [hle.2]
      · exact mul_le_mul_of_nonneg_right hle.1 (by norm_num)
    rw [Real.cos_sub, Real.cos_sub] at h2
    linarith

theorem sorts_pair {sort : Bool → List (Site K) → List (Site K)} (hsort : KD.Sorts sort) (x : Bool) (s t : Site K)
    (h : num (KD.key x t) < num (KD.key x s)) : sort x [s, t] = [t, s] := by
  obtain ⟨h1, h2⟩ := hsort x [s, t]
  have hl := h1.length_eq
  match hs : sort x [s, t], hl with
  | [u, v], _ =>
    rw [hs] at h1 h2
    have hne : s ≠ t := by rintro rfl; exact absurd h (lt_irrefl _)
    have hu : u = s ∨ u = t := by simpa using h1.mem_iff.mp (show u ∈ [u, v] by simp)
    rcases hu with rfl | rfl
    · have hv : v = t := by
        have := (List.perm_cons u).mp h1
        simpa using this
      subst hv
      exact absurd ((List.pairwise_cons.mp h2).1 v (by simp)) (not_le.mpr h)
    · have hv : v = s := by
        have h3 : [u, v].Perm [u, s] := h1.trans (List.Perm.swap _ _ _)
        simpa using (List.perm_cons u).mp h3
      rw [hv]

/-- **C91** is false on the sphere. Of two grid points on the equator at 170 and -179 degrees east the second is the nearest to
179 degrees east, 2 degrees away, but the search returns the first: the side of the section at 170 degrees on which the second lies is
passed over, because that meridian is 9 degrees away. -/
theorem c91_sphere_false {sort : Bool → List (Site ℝ) → List (Site ℝ)} (hsort : KD.Sorts sort) :
    ∃ root, KD.build sort [[fin 0, fin 0]] [[fin 170, fin (-179)]] = ok root ∧
      KD.getNearestNeighbour root (fin 0) (fin 179) = ok (0, 0) ∧ gap (0 : ℝ) 179 0 (-179) < gap 0 179 0 170 := by
  have hval : ∀ q : ℝ, q ≠ -999 → Client.isValid (fin q : Fl ℝ) = true := fun q hq => isValid_iff_present.mpr ⟨q, rfl, hq⟩
  have v0 := hval 0 (by norm_num)
  have v1 := hval 170 (by norm_num)
  have v2 := hval (-179) (by norm_num)
  have hsites : KD.sites [[fin 0, fin 0]] [[fin 170, fin (-179)]] = ok [⟨fin 170, fin (0 : ℝ), 0, 0⟩, ⟨fin (-179), fin 0, 0, 1⟩] := by
    simp [KD.sites, vget2, vget, List.range_succ, mapM, v0, v1, v2]
  have hswap := sorts_pair hsort true (⟨fin 170, fin (0 : ℝ), 0, 0⟩ : Site ℝ) ⟨fin (-179), fin 0, 0, 1⟩ (by
    simp only [KD.key, if_true, num]; norm_num)
  have hbuild : KD.build sort [[fin 0, fin 0]] [[fin 170, fin (-179)]] =
      ok (.node true ⟨fin 170, fin 0, 0, 0⟩ (.node false ⟨fin (-179), fin 0, 0, 1⟩ .nil .nil) .nil) := by
    have h1 : KD.build sort [[fin 0, fin 0]] [[fin 170, fin (-179)]] =
        KD.subTree sort 2 [⟨fin 170, fin (0 : ℝ), 0, 0⟩, ⟨fin (-179), fin 0, 0, 1⟩] true := by
      unfold KD.build
      rw [hsites]
      simp [vget]
    rw [h1, KD.subTree]
    simp [hswap, vget, KD.advance, KD.subTree]
  refine ⟨_, hbuild, ?_, ?_⟩
  · have g0 : OnGlobe (0 : ℝ) 179 := by constructor <;> norm_num
    have g1 : OnGlobe (0 : ℝ) 170 := by constructor <;> norm_num
    have hd := getDistance_ok g0 g1
    have hle : (fin 179 : Fl ℝ).le (fin 170) = false := by rw [le_fin]; norm_num
    have hlt : (fin (gap (0 : ℝ) 179 0 170) : Fl ℝ).lt pinf = true := rfl
    have hirr : (fin (gap (0 : ℝ) 179 0 170) : Fl ℝ).lt (fin (gap (0 : ℝ) 179 0 170)) = false := by rw [lt_fin]; simp
    simp [KD.getNearestNeighbour, KD.nearest, KD.isNil, KD.visit, KD.acrossDistance, hd, hle, hlt, hirr]
  · have hpi := Real.pi_gt_d20
    have hpi2 := Real.pi_lt_d20
    have hz : degC 0 = 0 := by unfold degC; norm_num
    rw [gap_real 0 179 0 (-179) (by norm_num), gap_real 0 179 0 170 (by norm_num), ratioC_eq, ratioC_eq, hz]
    simp only [Real.cos_zero, Real.sin_zero, mul_zero, add_zero, one_mul]
    refine mul_lt_mul_of_pos_right ?_ (by norm_num)
    have e1 : degC 179 - degC 170 = 9 * (314159265 / 100000000 / 180) := by unfold degC; ring
    have e2 : Real.cos (degC 179 - degC (-179)) = Real.cos (2 * Real.pi - 358 * (314159265 / 100000000 / 180)) := by
      rw [Real.cos_two_pi_sub]
      congr 1
      unfold degC
      ring
    rw [e1, e2, Real.arccos_cos (by linarith) (by linarith), Real.arccos_cos (by linarith) (by linarith)]
    linarith

end Gridpp.Props
