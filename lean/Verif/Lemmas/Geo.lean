import Verif.Model.Geo
import Mathlib.Data.List.Sort
import Mathlib.Tactic.Linarith
import Mathlib.Tactic.Ring

/-! Lemmas about locations, the r-tree contract and the search tree. -/

set_option linter.unusedSectionVars false

namespace Gridpp
open Fl Res

section
variable {K : Type} [Field K] [LinearOrder K] [IsStrictOrderedRing K]

theorem sqDist_nonneg (p q : Pt3 K) : 0 ≤ sqDist p q := by
  unfold sqDist
  have h1 := mul_self_nonneg (p.x - q.x)
  have h2 := mul_self_nonneg (p.y - q.y)
  have h3 := mul_self_nonneg (p.z - q.z)
  linarith

theorem sqDist_comm (p q : Pt3 K) : sqDist p q = sqDist q p := by unfold sqDist; ring

theorem sqDist_eq_zero {p q : Pt3 K} : sqDist p q = 0 ↔ p = q := by
  constructor
  · intro h
    have h1 := mul_self_nonneg (p.x - q.x)
    have h2 := mul_self_nonneg (p.y - q.y)
    have h3 := mul_self_nonneg (p.z - q.z)
    unfold sqDist at h
    have e1 : (p.x - q.x) * (p.x - q.x) = 0 := by linarith
    have e2 : (p.y - q.y) * (p.y - q.y) = 0 := by linarith
    have e3 : (p.z - q.z) * (p.z - q.z) = 0 := by linarith
    have e1 := sub_eq_zero.mp (mul_self_eq_zero.mp e1)
    have e2 := sub_eq_zero.mp (mul_self_eq_zero.mp e2)
    have e3 := sub_eq_zero.mp (mul_self_eq_zero.mp e3)
    cases p; cases q; simp_all
  · rintro rfl; simp [sqDist]

theorem sqrt_le_iff [LawfulSqrt K] {a b : K} (ha : 0 ≤ a) (hb : 0 ≤ b) :
    (HasSqrt.sqrt a : K) ≤ HasSqrt.sqrt b ↔ a ≤ b := by
  have h1 := LawfulSqrt.sqrt_nonneg a ha
  have h2 := LawfulSqrt.sqrt_nonneg b hb
  have h3 := LawfulSqrt.sqrt_mul_self a ha
  have h4 := LawfulSqrt.sqrt_mul_self b hb
  constructor
  · intro h; rw [← h3, ← h4]; exact mul_self_le_mul_self h1 h
  · intro h; by_contra hc; push Not at hc
    have := mul_self_lt_mul_self h2 hc
    rw [h3, h4] at this
    exact absurd h (not_le.mpr this)

theorem straightDistance_nonneg [LawfulSqrt K] (p q : Pt3 K) : 0 ≤ straightDistance p q :=
  LawfulSqrt.sqrt_nonneg _ (sqDist_nonneg p q)

theorem straightDistance_sq [LawfulSqrt K] (p q : Pt3 K) : straightDistance p q * straightDistance p q = sqDist p q :=
  LawfulSqrt.sqrt_mul_self _ (sqDist_nonneg p q)

theorem straightDistance_comm [HasSqrt K] (p q : Pt3 K) : straightDistance p q = straightDistance q p := by
  unfold straightDistance; rw [sqDist_comm]

theorem straightDistance_pos [LawfulSqrt K] {p q : Pt3 K} : 0 < straightDistance p q ↔ p ≠ q := by
  have h := straightDistance_sq p q
  constructor
  · rintro hp rfl
    rw [sqDist_eq_zero.mpr rfl] at h
    exact absurd (mul_self_eq_zero.mp h) hp.ne'
  · intro hne
    refine lt_of_le_of_ne (straightDistance_nonneg p q) fun h0 => hne ?_
    rw [← h0, mul_zero] at h
    exact sqDist_eq_zero.mp h.symm

theorem straightDistance_le [LawfulSqrt K] (p q p' q' : Pt3 K) :
    straightDistance p q ≤ straightDistance p' q' ↔ sqDist p q ≤ sqDist p' q' :=
  sqrt_le_iff (sqDist_nonneg _ _) (sqDist_nonneg _ _)

/-- The linear scan meets the contract of the r-tree. -/
theorem RTree.scan_lawful : (RTree.scan : RTree K).Lawful where
  select_perm := fun _ _ => List.Perm.refl _
  nearest_spec := by
    intro vals p n pred _
    have : Std.Total fun a b : Pt3 K × Nat => sqDist a.1 p ≤ sqDist b.1 p := ⟨fun a b => le_total _ _⟩
    have : IsTrans (Pt3 K × Nat) fun a b => sqDist a.1 p ≤ sqDist b.1 p := ⟨fun _ _ _ h1 h2 => le_trans h1 h2⟩
    set s := (vals.filter pred).insertionSort fun a b => sqDist a.1 p ≤ sqDist b.1 p with hs
    have hperm : s.Perm (vals.filter pred) := List.perm_insertionSort _ _
    refine ⟨s.drop n, ?_, ?_, ?_⟩
    · show (s.take n ++ s.drop n).Perm _
      rw [List.take_append_drop]; exact hperm
    · show (s.take n).length = _
      rw [List.length_take, hperm.length_eq]
    · intro a ha b hb
      have hp : s.Pairwise fun a b => sqDist a.1 p ≤ sqDist b.1 p := List.pairwise_insertionSort _ _
      rw [← List.take_append_drop n s, List.pairwise_append] at hp
      exact hp.2.2 a ha b hb

/-- The nearest query for one value. -/
theorem RTree.Lawful.nearest_one {T : RTree K} (hT : T.Lawful) (vals : List (Pt3 K × Nat)) (p : Pt3 K) (pred : Pt3 K × Nat → Bool) :
    (T.nearest vals p 1 pred = [] ∧ vals.filter pred = []) ∨
    ∃ a, T.nearest vals p 1 pred = [a] ∧ a ∈ vals.filter pred ∧ ∀ b ∈ vals.filter pred, sqDist a.1 p ≤ sqDist b.1 p := by
  obtain ⟨rest, h1, h2, h3⟩ := hT.nearest_spec vals p 1 pred (by omega)
  cases hf : vals.filter pred with
  | nil => left; rw [hf] at h2; exact ⟨List.length_eq_zero_iff.mp (by simpa using h2), rfl⟩
  | cons v t =>
    right
    rw [hf] at h2
    have : (T.nearest vals p 1 pred).length = 1 := by simpa using h2
    obtain ⟨a, ha⟩ := List.length_eq_one_iff.mp this
    rw [← hf]
    refine ⟨a, ha, h1.subset (by rw [ha]; simp), fun b hb => ?_⟩
    have := h1.symm.subset hb
    rw [ha] at this
    rcases List.mem_append.mp this with h | h
    · rw [List.mem_singleton.mp h]
    · exact h3 a (by rw [ha]; simp) b h

/-- Position `i` of the tree holds the point `q`. -/
theorem mem_zipIdx_iff {l : List (Pt3 K)} {q : Pt3 K} {i : Nat} : (q, i) ∈ l.zipIdx ↔ l[i]? = some q :=
  List.mem_zipIdx_iff_getElem?

theorem nodup_snd_zipIdx (l : List (Pt3 K)) : (l.zipIdx.map Prod.snd).Nodup := by
  rw [List.zipIdx_map_snd]; exact List.nodup_range'

theorem convertCoordinates_cases [HasGeo K] (lat lon : Fl K) (type : CoordType) :
    convertCoordinates lat lon type = .throw .invalidArgument ∨ ∃ p, convertCoordinates lat lon type = ok p := by
  unfold convertCoordinates isValidLat isValidLon
  cases type <;> cases lat <;> cases lon <;> simp
  rename_i a o
  by_cases h : a < -(90001 / 1000) ∨ 90001 / 1000 < a
  · left; intro h1; rcases h with h | h
    · exact absurd h (not_lt.mpr h1)
    · exact h
  · right; exact ⟨_, if_neg h⟩

theorem vget_nat_eq_ok {α : Type} {v : List α} {n : Nat} {a : α} : vget v (n : Int) = ok a ↔ v[n]? = some a := by
  rw [vget_nat]
  cases v[n]? <;> simp

/-- What is true of a tree made by its constructor. -/
structure KDTree.WF [HasGeo K] (t : KDTree K) : Prop where
  len : t.pts.length = t.lats.length
  conv : ∀ i, (h : i < t.pts.length) → ∃ la lo, t.lats[i]? = some la ∧ t.lons[i]? = some lo ∧
    convertCoordinates la lo t.type = ok t.pts[i]

theorem KDTree.new_ok [HasGeo K] {lats lons : List (Fl K)} {type : CoordType} {t : KDTree K} (h : KDTree.new lats lons type = ok t) :
    t.lats = lats ∧ t.lons = lons ∧ t.type = type ∧ t.WF := by
  unfold KDTree.new at h
  obtain ⟨pts, hp, h⟩ := bind_eq_ok.mp h
  cases h
  have hf := mapM_eq_ok hp
  refine ⟨rfl, rfl, rfl, ⟨by simpa using hf.length_eq.symm, fun i hi => ?_⟩⟩
  replace hi : i < pts.length := hi
  have hlen : (List.range lats.length).length = pts.length := hf.length_eq
  have := (List.forall₂_iff_get.mp hf).2 i (by omega) hi
  simp only [List.get_eq_getElem, List.getElem_range] at this
  obtain ⟨la, h1, this⟩ := bind_eq_ok.mp this
  obtain ⟨lo, h2, this⟩ := bind_eq_ok.mp this
  exact ⟨la, lo, vget_nat_eq_ok.mp h1, vget_nat_eq_ok.mp h2, this⟩

/-- Position `i` of the coordinate vectors is located at `q`. -/
def Located [HasGeo K] (lats lons : List (Fl K)) (type : CoordType) (i : Nat) (q : Pt3 K) : Prop :=
  ∃ la lo, lats[i]? = some la ∧ lons[i]? = some lo ∧ convertCoordinates la lo type = ok q

theorem KDTree.WF.located [HasGeo K] {t : KDTree K} (h : t.WF) {i : Nat} {q : Pt3 K} :
    (q, i) ∈ t.values ↔ Located t.lats t.lons t.type i q := by
  unfold KDTree.values
  rw [mem_zipIdx_iff]
  constructor
  · intro hi
    obtain ⟨hlt, rfl⟩ := List.getElem?_eq_some_iff.mp hi
    exact h.conv i hlt
  · rintro ⟨la, lo, h1, h2, h3⟩
    obtain ⟨hlt, -⟩ := List.getElem?_eq_some_iff.mp h1
    have hlt' : i < t.pts.length := by rw [h.len]; exact hlt
    obtain ⟨la', lo', e1, e2, e3⟩ := h.conv i hlt'
    rw [h1] at e1; rw [h2] at e2
    cases e1; cases e2
    rw [h3] at e3
    cases e3
    exact List.getElem?_eq_getElem hlt'

theorem Located.lt [HasGeo K] {lats lons : List (Fl K)} {type : CoordType} {i : Nat} {q : Pt3 K} (h : Located lats lons type i q) :
    i < lats.length := by
  obtain ⟨la, lo, h1, -, -⟩ := h
  exact (List.getElem?_eq_some_iff.mp h1).1

theorem Located.unique [HasGeo K] {lats lons : List (Fl K)} {type : CoordType} {i : Nat} {q q' : Pt3 K} (h : Located lats lons type i q)
    (h' : Located lats lons type i q') : q = q' := by
  obtain ⟨la, lo, h1, h2, h3⟩ := h
  obtain ⟨la', lo', e1, e2, e3⟩ := h'
  rw [h1] at e1; rw [h2] at e2
  cases e1; cases e2
  rw [h3] at e3
  cases e3; rfl

theorem KDTree.WF.exists_located [HasGeo K] {t : KDTree K} (h : t.WF) {i : Nat} (hi : i < t.lats.length) :
    ∃ q, Located t.lats t.lons t.type i q := by
  obtain ⟨la, lo, h1, h2, h3⟩ := h.conv i (by rw [h.len]; exact hi)
  exact ⟨_, la, lo, h1, h2, h3⟩

theorem Points.new_ok [HasGeo K] {lats lons elevs lafs : List (Fl K)} {type : CoordType} {P : Points K}
    (h : Points.new lats lons elevs lafs type = ok P) :
    P.lats = lats ∧ P.lons = lons ∧ P.elevs.length = lats.length ∧ P.lafs.length = lats.length ∧
    P.tree.lats = lats ∧ P.tree.lons = lons ∧ P.tree.type = type ∧ P.tree.WF ∧ lons.length = lats.length ∧
    (elevs.length = lats.length → P.elevs = elevs) ∧ (lafs.length = lats.length → P.lafs = lafs) ∧
    (elevs = [] → P.elevs = List.replicate lats.length MV) ∧ (lafs = [] → P.lafs = List.replicate lats.length MV) := by
  unfold Points.new at h
  by_cases h1 : lons.length ≠ lats.length
  · rw [if_pos h1] at h; cases h
  rw [if_neg h1] at h
  by_cases h2 : elevs.length ≠ 0 ∧ elevs.length ≠ lats.length
  · rw [if_pos h2] at h; cases h
  rw [if_neg h2] at h
  by_cases h3 : lafs.length ≠ 0 ∧ lafs.length ≠ lats.length
  · rw [if_pos h3] at h; cases h
  rw [if_neg h3] at h
  obtain ⟨t, ht, h⟩ := bind_eq_ok.mp h
  cases h
  obtain ⟨e1, e2, e3, hw⟩ := KDTree.new_ok ht
  refine ⟨rfl, rfl, ?_, ?_, e1, e2, e3, hw, by omega, fun h => if_neg (by omega), fun h => if_neg (by omega), ?_, ?_⟩
  · show (if _ then _ else _ : List (Fl K)).length = _
    split_ifs with h4
    · simp
    · omega
  · show (if _ then _ else _ : List (Fl K)).length = _
    split_ifs with h4
    · simp
    · omega
  · rintro rfl
    show (if _ then _ else _ : List (Fl K)) = _
    split_ifs with h4
    · rfl
    · have : lats.length = 0 := (not_ne_iff.mp h4).symm
      rw [this]; rfl
  · rintro rfl
    show (if _ then _ else _ : List (Fl K)) = _
    split_ifs with h4
    · rfl
    · have : lats.length = 0 := (not_ne_iff.mp h4).symm
      rw [this]; rfl

theorem insideBox_iff (p : Pt3 K) (r : K) (v : Pt3 K × Nat) :
    insideBox p (fin r) v = true ↔ |v.1.x - p.x| < r ∧ |v.1.y - p.y| < r ∧ |v.1.z - p.z| < r := by
  simp only [insideBox, fin_sub, fin_add, lt_fin, Bool.and_eq_true, decide_eq_true_eq, abs_lt]
  constructor
  · rintro ⟨⟨⟨a, b⟩, c, d⟩, e, f⟩
    refine ⟨⟨?_, ?_⟩, ⟨?_, ?_⟩, ?_, ?_⟩ <;> linarith
  · rintro ⟨⟨a, b⟩, ⟨c, d⟩, e, f⟩
    refine ⟨⟨⟨?_, ?_⟩, ?_, ?_⟩, ?_, ?_⟩ <;> linarith

end
end Gridpp
