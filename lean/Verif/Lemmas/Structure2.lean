import Verif.Lemmas.Structure

/-! Evaluation of the structure functions at a point. -/

set_option linter.unusedSectionVars false

namespace Gridpp

open Fl Res Props

section
variable {K : Type} [Field K] [LinearOrder K] [IsStrictOrderedRing K] [HasGeo K] [HasSqrt K]

/-- The scales that apply at point `p` are `h`, `v`, `w`: those of the nearest gridpoint of the structure's grid, or the
constant ones. -/
def ScalesAt (T : RTree K) (s : Scaled K) (p : Point K) (h v w : Fl K) : Prop :=
  (s.spatial = true ∧ ∃ c : Nat × Nat, s.grid.getNearestNeighbour T p.lat p.lon true = ok (some c) ∧
    cell? s.mH c.1 c.2 = some h ∧ cell? s.mV c.1 c.2 = some v ∧ cell? s.mW c.1 c.2 = some w) ∨
  (s.spatial = false ∧ s.mH = [[h]] ∧ s.mV = [[v]] ∧ s.mW = [[w]])

theorem cell?_row {α : Type} {a : List (List α)} {y x : Nat} {v : α} (h : cell? a y x = some v) :
    ∃ row, vget a (y : Int) = ok row ∧ y < a.length ∧ x < row.length := by
  unfold cell? at h
  cases hr : a[y]? with
  | none => rw [hr] at h; simp at h
  | some row =>
    rw [hr] at h
    obtain ⟨hy, e⟩ := List.getElem?_eq_some_iff.mp hr
    obtain ⟨hx, -⟩ := List.getElem?_eq_some_iff.mp (show row[x]? = some v from h)
    exact ⟨row, by rw [vget_eq_ok_of_lt hy, e], hy, hx⟩

theorem scales_eq {T : RTree K} {s : Scaled K} {p : Point K} {h v w : Fl K} (hs : ScalesAt T s p h v w) (ht : s.spatial = true) :
    s.scales T p = ok (h, v, w) := by
  rcases hs with ⟨-, c, h1, h2, h3, h4⟩ | ⟨h1, -⟩
  · obtain ⟨row, e1, e2, e3⟩ := cell?_row h2
    unfold Scaled.scales Scaled.nearest
    rw [h1]
    simp only [ok_bind]
    rw [if_neg (by omega), e1]
    simp only [ok_bind]
    rw [if_neg (by omega), vget2_of_cell? h2, vget2_of_cell? h3, vget2_of_cell? h4]
    rfl
  · rw [ht] at h1; cases h1

variable [LawfulExp K]

theorem locDist_eq {T : RTree K} {s : Scaled K} {p : Point K} {h v w : Fl K} (hs : ScalesAt T s p h v w) :
    s.locDist T p = ok (s.kind.locDist s.minRho h) := by
  unfold Scaled.locDist
  rcases hs with ⟨ht, c, h1, h2, h3, h4⟩ | ⟨ht, h1, -, -⟩
  · rw [if_pos ht]
    unfold Scaled.nearest
    rw [h1]
    simp only [ok_bind]
    rw [vget2_of_cell? h2]
    rfl
  · rw [if_neg (by simp [ht]), h1]
    rfl

theorem corr_eq {T : RTree K} {s : Scaled K} {p1 : Point K} {h v w : Fl K} (hs : ScalesAt T s p1 h v w) (p2 : Point K) :
    s.corr T p1 p2 = if (p1.distance p2).gt (s.kind.locDist s.minRho h) then ok 0 else
      ok (s.kind.product p1 p2 (p1.distance p2) h v w) := by
  unfold Scaled.corr
  by_cases ht : s.spatial = true
  · simp only [ht, if_true]
    rw [scales_eq hs ht]
    rfl
  · simp only [ht]
    rw [locDist_eq hs]
    rcases hs with ⟨h1, -⟩ | ⟨-, h1, h2, h3⟩
    · exact absurd h1 ht
    · rw [h1, h2, h3]
      rfl

theorem corrVec_eq {T : RTree K} {s : Scaled K} {p1 : Point K} {h v w : Fl K} (hs : ScalesAt T s p1 h v w) (ht : s.spatial = true)
    (ps : List (Point K)) :
    s.corrVec T p1 ps = ok (ps.map fun p => if (p1.distance p).le (s.kind.locDist s.minRho h) then
        s.kind.product p1 p (p1.distance p) h v w else 0) := by
  unfold Scaled.corrVec
  rw [if_pos ht, scales_eq hs ht]
  rfl

/-- The correlation of two points with known locations is a number. -/
theorem corr_fin {T : RTree K} {s : Scaled K} {p1 p2 : Point K} {h v w : Fl K} {d : K} (hs : ScalesAt T s p1 h v w)
    (hd : p1.distance p2 = fin d) :
    s.corr T p1 p2 = if (fin d).gt (s.kind.locDist s.minRho h) then ok (fin 0) else
      ok (fin (Spec.correlation s.kind.factor p1 p2 d h v w)) := by
  rw [corr_eq hs, hd, Kind.product_fin]
  rfl

/-- `>` is the negation of `<=` unless a NaN is involved. -/
theorem gt_eq_not_le {a : K} {b : Fl K} (hb : b ≠ nan) : (fin a).gt b = !(fin a).le b := by
  cases b with
  | nan => exact absurd rfl hb
  | pinf => simp [Fl.gt, Fl.le, Fl.lt]
  | ninf => simp [Fl.gt, Fl.le, Fl.lt, Fl.feq]
  | fin b =>
    rw [gt_fin, le_fin]
    by_cases h : b < a
    · simp [h]
    · simp [h, not_lt.mp h]

/-- The structure function is the result of one of its constructors; `Y × X` is the size of the grid of a spatial one. -/
def BuiltScaled (s : Scaled K) : Prop :=
  (∃ k h v w hmax, Scaled.new k h v w hmax = ok s) ∨
  (∃ k g Y X lats lons type h v w m, BuiltGrid g Y X lats lons type ∧ Rect Y X h ∧ Rect Y X v ∧ Rect Y X w ∧
    Scaled.newSpatial k g h v w m = ok s)

/-- (lat, lon) of the point is a location for the grid of a spatial structure. -/
def LocationOk (s : Scaled K) (p : Point K) : Prop :=
  s.spatial = true → ∃ q, convertCoordinates p.lat p.lon s.grid.tree.type = ok q

theorem new_ok {k : Kind} {h v w hmax : Fl K} {s : Scaled K} (hs : Scaled.new k h v w hmax = ok s) :
    (∃ a, h = fin a ∧ 0 ≤ a) ∧ (∃ a, v = fin a ∧ 0 ≤ a) ∧ (∃ a, w = fin a ∧ 0 ≤ a) ∧ (∀ a, hmax = fin a → 0 ≤ a) ∧
      s = ⟨k, Grid.empty, [[h]], [[v]], [[w]], k.minRho h hmax, false⟩ := by
  have aux : ∀ x : Fl K, badScale x = false → ∃ a, x = fin a ∧ 0 ≤ a := by
    intro x hx
    cases x with
    | fin a =>
      refine ⟨a, rfl, ?_⟩
      simp only [badScale, isValid_fin, Bool.not_true, Bool.false_or, zero_def, lt_fin, decide_eq_false_iff_not] at hx
      exact not_lt.mp hx
    | nan => simp [badScale] at hx
    | pinf => simp [badScale] at hx
    | ninf => simp [badScale] at hx
  unfold Scaled.new at hs
  by_cases h1 : (hmax.isValid && hmax.lt 0) = true
  · rw [if_pos h1] at hs; cases hs
  rw [if_neg h1] at hs
  by_cases h2 : badScale h = true
  · rw [if_pos h2] at hs; cases hs
  rw [if_neg h2] at hs
  by_cases h3 : badScale v = true
  · rw [if_pos h3] at hs; cases hs
  rw [if_neg h3] at hs
  by_cases h4 : badScale w = true
  · rw [if_pos h4] at hs; cases hs
  rw [if_neg h4] at hs
  refine ⟨aux h (by simpa using h2), aux v (by simpa using h3), aux w (by simpa using h4), ?_, ?_⟩
  · rintro a rfl
    simpa using h1
  · cases hs; rfl

theorem newSpatial_ok {k : Kind} {g : Grid K} {h v w : List (List (Fl K))} {m : Fl K} {s : Scaled K}
    (hs : Scaled.newSpatial k g h v w m = ok s) : ∃ b, s = ⟨k, g, h, v, w, m, b⟩ ∧ Scaled.newSpatial k g h v w m = ok s ∧
      (b = false → h.length = 1 ∧ (h.headD []).length = 1 ∧ v.length = 1 ∧ (v.headD []).length = 1 ∧ w.length = 1 ∧ (w.headD []).length = 1) := by
  have hs' := hs
  unfold Scaled.newSpatial at hs
  by_cases h1 : (h.length == 1 && (h.headD []).length == 1 && v.length == 1 && (v.headD []).length == 1 && w.length == 1 && (w.headD []).length == 1) = true
  · rw [if_pos h1] at hs
    cases hs
    refine ⟨false, rfl, hs', fun _ => ?_⟩
    simpa [and_assoc] using h1
  · rw [if_neg h1] at hs
    obtain ⟨sz, -, hs⟩ := bind_eq_ok.mp hs
    split at hs
    · cases hs
    · obtain ⟨_, -, hs⟩ := bind_eq_ok.mp hs
      obtain ⟨_, -, hs⟩ := bind_eq_ok.mp hs
      obtain ⟨_, -, hs⟩ := bind_eq_ok.mp hs
      split at hs
      · cases hs
      · cases hs
        exact ⟨true, rfl, hs', fun h => by cases h⟩

theorem one_by_one {α : Type} {a : List (List α)} (h1 : a.length = 1) (h2 : (a.headD []).length = 1) : ∃ v, a = [[v]] := by
  match a, h1 with
  | [r], _ =>
    match r, h2 with
    | [v], _ => exact ⟨v, rfl⟩

end

section
variable {K : Type} [Field K] [LinearOrder K] [IsStrictOrderedRing K] [HasGeo K] [LawfulSqrt K] [LawfulExp K]

/-- A structure function that was built has scales at every location. -/
theorem BuiltScaled.scales {T : RTree K} (hT : T.Lawful) {s : Scaled K} (hs : BuiltScaled s) {p : Point K} (hp : LocationOk s p) :
    ∃ h v w, ScalesAt T s p h v w := by
  rcases hs with ⟨k, h, v, w, hmax, hn⟩ | ⟨k, g, Y, X, lats, lons, type, h, v, w, m, hg, h1, h2, h3, hn⟩
  · obtain ⟨-, -, -, -, rfl⟩ := new_ok hn
    exact ⟨h, v, w, Or.inr ⟨rfl, rfl, rfl, rfl⟩⟩
  · obtain ⟨b, rfl, -, hb⟩ := newSpatial_ok hn
    cases b with
    | false =>
      obtain ⟨a1, a2, b1, b2, c1, c2⟩ := hb rfl
      obtain ⟨x, rfl⟩ := one_by_one a1 a2
      obtain ⟨y, rfl⟩ := one_by_one b1 b2
      obtain ⟨z, rfl⟩ := one_by_one c1 c2
      exact ⟨x, y, z, Or.inr ⟨rfl, rfl, rfl, rfl⟩⟩
    | true =>
      obtain ⟨-, -, -, ht⟩ := hg.wf
      obtain ⟨q, hq⟩ := hp rfl
      obtain ⟨c, e1, e2, e3, -⟩ := grid_nearest_to hT hg (la := p.lat) (lo := p.lon) ⟨q, by rw [← ht]; exact hq⟩
      obtain ⟨x, hx⟩ := h1.cell?_some e2 e3
      obtain ⟨y, hy⟩ := h2.cell?_some e2 e3
      obtain ⟨z, hz⟩ := h3.cell?_some e2 e3
      exact ⟨x, y, z, Or.inl ⟨rfl, c, e1, hx, hy, hz⟩⟩

end
end Gridpp
