import Verif.Lemmas.Nearest
import Verif.Lemmas.Square

/-! Radius queries with any radius, on points and grids. -/

set_option linter.unusedSectionVars false

namespace Gridpp.Props
open Fl Res

variable {K : Type} [Field K] [LinearOrder K] [IsStrictOrderedRing K] [HasGeo K]

theorem KDTree.WF.new_eq {t : KDTree K} (h : t.WF) : KDTree.new t.lats t.lons t.type = ok t := by
  unfold KDTree.new
  have : mapM (fun i : Nat => do
    let lat ← vget t.lats (i : Int)
    let lon ← vget t.lons (i : Int)
    convertCoordinates lat lon t.type) (List.range t.lats.length) = ok t.pts := by
    apply mapM_of_forall₂
    rw [List.forall₂_iff_get]
    refine ⟨by simp [h.len], fun i h1 h2 => ?_⟩
    obtain ⟨la, lo, e1, e2, e3⟩ := h.conv i h2
    simp only [List.get_eq_getElem, List.getElem_range]
    rw [vget_nat_eq_ok.mpr e1, ok_bind, vget_nat_eq_ok.mpr e2, ok_bind, e3]
  rw [this]; rfl

/-- The points a radius query around `p` finds: those within the radius, except those at distance exactly the radius along
a coordinate axis (see C12); all for an infinite radius, none for NaN. -/
def Within [HasSqrt K] (p q : Pt3 K) (radius : Fl K) : Prop :=
  match radius with
  | fin r => straightDistance q p ≤ r ∧ ¬ OnAxis p q r
  | pinf => True
  | _ => False

theorem tree_within {T : RTree K} (hT : T.Lawful) [LawfulSqrt K] {t : KDTree K} (hw : t.WF) {la lo : Fl K} {p : Pt3 K}
    (hp : convertCoordinates la lo t.type = ok p) (radius : Fl K) :
    ∃ l : List Nat, t.getNeighbours T la lo radius true = ok l ∧ l.Nodup ∧
      ∀ i, i ∈ l ↔ ∃ q, Located t.lats t.lons t.type i q ∧ Within p q radius := by
  have gen : ∀ P : Prop, (∀ v, (insideBox p radius v && withinRadius p radius true v) = true ↔ P) → (∃ l : List Nat, t.getNeighbours T la lo radius true = ok l ∧ l.Nodup ∧
      ∀ i, i ∈ l ↔ ∃ q, Located t.lats t.lons t.type i q ∧ P) := by
    intro P hP
    unfold KDTree.getNeighbours
    rw [hp, ok_bind]
    have hsel := hT.select_perm t.values fun v => insideBox p radius v && withinRadius p radius true v
    have hnd : ((t.values.filter fun v => insideBox p radius v && withinRadius p radius true v).map Prod.snd).Nodup :=
      (nodup_snd_zipIdx t.pts).sublist ((List.filter_sublist (l := t.values)).map Prod.snd)
    refine ⟨_, rfl, (hsel.map Prod.snd).nodup_iff.mpr hnd, fun i => ?_⟩
    rw [(hsel.map Prod.snd).mem_iff, List.mem_map]
    constructor
    · rintro ⟨v, hv, rfl⟩
      obtain ⟨hm, hp'⟩ := List.mem_filter.mp hv
      exact ⟨v.1, hw.located.mp hm, (hP v).mp hp'⟩
    · rintro ⟨q, hq, h⟩
      exact ⟨(q, i), List.mem_filter.mpr ⟨hw.located.mpr hq, (hP _).mpr h⟩, rfl⟩
  cases radius with
  | fin r =>
    obtain ⟨l, h1, h2, h3⟩ := c12_neighbours_partial hT t.lats t.lons t.type t (KDTree.WF.new_eq hw) la lo p hp r true
    refine ⟨l, h1, h2, fun i => ?_⟩
    rw [h3]
    constructor
    · rintro ⟨q, a, b, c, -⟩; exact ⟨q, a, b, c⟩
    · rintro ⟨q, a, b, c⟩; exact ⟨q, a, b, c, Or.inl rfl⟩
  | pinf =>
    refine gen True fun v => ?_
    have h1 : ∀ a : K, (fin a - pinf : Fl K) = ninf := fun a => rfl
    have h2 : ∀ a : K, (fin a + pinf : Fl K) = pinf := fun a => rfl
    simp [insideBox, withinRadius, h1, h2, Fl.lt, Fl.le]
  | ninf =>
    refine gen False fun v => ?_
    have h1 : ∀ a : K, (fin a - ninf : Fl K) = pinf := fun a => rfl
    simp [insideBox, h1, Fl.lt]
  | nan =>
    refine gen False fun v => ?_
    simp [insideBox]

/-- Radius query on points. -/
theorem points_within {T : RTree K} (hT : T.Lawful) [LawfulSqrt K] {P : Points K} {lats lons : List (Fl K)} {type : CoordType}
    (hP : BuiltPoints P lats lons type) {la lo : Fl K} {p : Pt3 K} (hp : convertCoordinates la lo type = ok p) (radius : Fl K) :
    ∃ l : List Nat, P.getNeighbours T la lo radius true = ok l ∧ P.getNumNeighbours T la lo radius true = ok l.length ∧ l.Nodup ∧
      ∀ i, i ∈ l ↔ ∃ q, Located lats lons type i q ∧ Within p q radius := by
  obtain ⟨rfl, rfl, e1, e2, rfl, hw, -⟩ := hP.wf
  obtain ⟨l, h1, h2, h3⟩ := tree_within hT hw hp radius
  rw [e1, e2] at h3
  refine ⟨l, h1, ?_, h2, h3⟩
  unfold Points.getNumNeighbours KDTree.getNumNeighbours
  rw [h1]; rfl

/-- Radius query on a grid. -/
theorem grid_within {T : RTree K} (hT : T.Lawful) [LawfulSqrt K] {g : Grid K} {Y X : Nat} {lats lons : List (List (Fl K))} {type : CoordType}
    (hg : BuiltGrid g Y X lats lons type) {la lo : Fl K} {p : Pt3 K} (hp : convertCoordinates la lo type = ok p) (radius : Fl K) :
    ∃ l : List (Nat × Nat), g.getNeighbours T la lo radius true = ok l ∧ g.getNumNeighbours T la lo radius true = ok l.length ∧ l.Nodup ∧
      ∀ c, c ∈ l ↔ ∃ q, CellAt lats lons type c q ∧ Within p q radius := by
  obtain ⟨hw, rfl, rfl, rfl⟩ := hg.wf
  obtain ⟨l, h1, h2, h3⟩ := tree_within hT hw.tree hp radius
  have hlen : g.tree.lats.length = Y * X := by rw [hw.tlats, flatten_length hw.lats]
  have hlt : ∀ i ∈ l, i < Y * X := by
    intro i hi
    obtain ⟨q, hq, -⟩ := (h3 i).mp hi
    rw [← hlen]; exact hq.lt
  refine ⟨toCells X l, ?_, ?_, ?_, ?_⟩
  · unfold Grid.getNeighbours
    rw [h1, ok_bind, getIndicesVec_ok hw l hlt]
  · unfold Grid.getNumNeighbours
    rw [h1, ok_bind]; simp [toCells]
  · unfold toCells
    refine h2.map_on ?_
    intro a ha b hb hab
    simp only [Prod.mk.injEq] at hab
    rw [← Nat.div_add_mod a X, ← Nat.div_add_mod b X, hab.1, hab.2]
  · intro c
    unfold toCells
    rw [List.mem_map]
    constructor
    · rintro ⟨i, hi, rfl⟩
      obtain ⟨q, hq, hr⟩ := (h3 i).mp hi
      exact ⟨q, hw.located.mp hq, hr⟩
    · rintro ⟨q, hq, hr⟩
      refine ⟨c.1 * X + c.2, (h3 _).mpr ⟨q, hw.cellAt_located hq, hr⟩, ?_⟩
      exact div_mod_of_lt (hw.cellAt_lt hq).2

end Gridpp.Props
