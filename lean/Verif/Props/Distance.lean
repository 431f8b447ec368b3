import Verif.Props.Gridding
import Verif.Base.Arc

/-! # C42 (distance), C72 (calc_distance) -/

set_option linter.unusedSectionVars false

namespace Gridpp.Props
open Fl Res

section general
variable {K : Type} [Field K] [LinearOrder K] [IsStrictOrderedRing K]

/-- **C72** (every field): symmetric; zero between identical finite locations; finite and nonnegative between finite
locations; with a missing coordinate missing. -/
theorem c72_general [LawfulSqrt K] [LawfulArc K] (type : CoordType) :
    (∀ a b c d : Fl K, a.isValid = true → b.isValid = true → c.isValid = true → d.isValid = true →
      ∃ r : K, calcDistance a b c d type = fin r ∧ 0 ≤ r ∧ calcDistance c d a b type = fin r ∧ (a = c → b = d → r = 0)) ∧
    (∀ a b c d : Fl K, a.isNan = true ∨ b.isNan = true ∨ c.isNan = true ∨ d.isNan = true → calcDistance a b c d type = nan) := by
  constructor
  · intro a b c d ha hb hc hd
    obtain ⟨a, rfl⟩ := exists_fin_of_valid ha
    obtain ⟨b, rfl⟩ := exists_fin_of_valid hb
    obtain ⟨c, rfl⟩ := exists_fin_of_valid hc
    obtain ⟨d, rfl⟩ := exists_fin_of_valid hd
    cases type with
    | cartesian =>
      have h0 : 0 ≤ (b - d) * (b - d) + (a - c) * (a - c) := add_nonneg (mul_self_nonneg _) (mul_self_nonneg _)
      refine ⟨HasSqrt.sqrt ((b - d) * (b - d) + (a - c) * (a - c)), ?_, LawfulSqrt.sqrt_nonneg _ h0, ?_, ?_⟩
      · simp only [calcDistance, fin_sub, fin_mul, fin_add, Fl.sqrt]
        rw [if_neg (not_lt.mpr h0)]
      · have : (d - b) * (d - b) + (c - a) * (c - a) = (b - d) * (b - d) + (a - c) * (a - c) := by ring
        simp only [calcDistance, fin_sub, fin_mul, fin_add, Fl.sqrt, this]
        rw [if_neg (not_lt.mpr h0)]
      · rintro h1 h2
        cases h1; cases h2
        have := LawfulSqrt.sqrt_mul_self ((b - b) * (b - b) + (a - a) * (a - a)) h0
        simp only [sub_self, mul_zero, add_zero] at this ⊢
        exact mul_self_eq_zero.mp this
    | geodetic =>
      by_cases he : a = c ∧ b = d
      · obtain ⟨rfl, rfl⟩ := he
        refine ⟨0, ?_, le_refl _, ?_, fun _ _ => rfl⟩ <;> simp [calcDistance]
      · refine ⟨HasArc.arc a b c d, ?_, LawfulArc.arc_nonneg _ _ _ _, ?_, fun h1 h2 => ?_⟩
        · simp only [calcDistance]
          rw [if_neg (by simpa using he)]
        · simp only [calcDistance]
          rw [if_neg, LawfulArc.arc_comm]
          simp only [feq_fin, Bool.and_eq_true, decide_eq_true_eq]
          rintro ⟨rfl, rfl⟩; exact he ⟨rfl, rfl⟩
        · cases h1; cases h2; exact absurd ⟨rfl, rfl⟩ he
  · intro a b c d h
    have hn : ∀ v : Fl K, v.isNan = true → v = nan := by intro v hv; cases v <;> simp_all [Fl.isNan]
    cases type with
    | cartesian =>
      rcases h with h | h | h | h <;> rw [hn _ h] <;> simp [calcDistance, Fl.sqrt]
    | geodetic =>
      rcases h with h | h | h | h <;> rw [hn _ h] <;> simp only [calcDistance] <;> rw [if_neg (by simp)]

/-- **C72** (Cartesian): the distance is the straight-line distance of the tree. -/
theorem c72_cartesian [HasGeo K] [LawfulSqrt K] [LawfulArc K] {a b c d : Fl K} {p q : Pt3 K}
    (hp : convertCoordinates a b .cartesian = ok p) (hq : convertCoordinates c d .cartesian = ok q) :
    calcDistance a b c d .cartesian = fin (straightDistance p q) := by
  unfold convertCoordinates at hp hq
  cases a <;> cases b <;> simp [isValidLat, isValidLon] at hp
  cases c <;> cases d <;> simp [isValidLat, isValidLon] at hq
  subst hp hq
  simp only [calcDistance, straightDistance, sqDist, fin_sub, fin_mul, fin_add, Fl.sqrt, sub_self, mul_zero, add_zero]
  rw [if_neg (not_lt.mpr (add_nonneg (mul_self_nonneg _) (mul_self_nonneg _)))]

end general

/-- The radius used (kdtree.cpp:125). -/
noncomputable def earth : ℝ := 6378137

theorem geo_sq (a b c d : ℝ) : sqDist (HasGeo.geo a b) (HasGeo.geo c d) = earth ^ 2 * (2 - 2 * arcRatio a b c d) := by
  unfold sqDist HasGeo.geo instHasGeoReal arcRatio earth
  simp only
  have h1 := Real.sin_sq_add_cos_sq (Real.pi / 180 * a)
  have h2 := Real.sin_sq_add_cos_sq (Real.pi / 180 * b)
  have h3 := Real.sin_sq_add_cos_sq (Real.pi / 180 * c)
  have h4 := Real.sin_sq_add_cos_sq (Real.pi / 180 * d)
  generalize Real.sin (Real.pi / 180 * a) = sa at *
  generalize Real.cos (Real.pi / 180 * a) = ca at *
  generalize Real.sin (Real.pi / 180 * b) = sb at *
  generalize Real.cos (Real.pi / 180 * b) = cb at *
  generalize Real.sin (Real.pi / 180 * c) = sc at *
  generalize Real.cos (Real.pi / 180 * c) = cc at *
  generalize Real.sin (Real.pi / 180 * d) = sd at *
  generalize Real.cos (Real.pi / 180 * d) = cd at *
  linear_combination (6378137 : ℝ) ^ 2 * (h1 + h3 + ca ^ 2 * h2 + cc ^ 2 * h4)

theorem arcRatio_mem (a b c d : ℝ) : -1 ≤ arcRatio a b c d ∧ arcRatio a b c d ≤ 1 := by
  have h1 := Real.sin_sq_add_cos_sq (Real.pi / 180 * a)
  have h2 := Real.sin_sq_add_cos_sq (Real.pi / 180 * b)
  have h3 := Real.sin_sq_add_cos_sq (Real.pi / 180 * c)
  have h4 := Real.sin_sq_add_cos_sq (Real.pi / 180 * d)
  unfold arcRatio
  simp only
  generalize Real.sin (Real.pi / 180 * a) = sa at *
  generalize Real.cos (Real.pi / 180 * a) = ca at *
  generalize Real.sin (Real.pi / 180 * b) = sb at *
  generalize Real.cos (Real.pi / 180 * b) = cb at *
  generalize Real.sin (Real.pi / 180 * c) = sc at *
  generalize Real.cos (Real.pi / 180 * c) = cc at *
  generalize Real.sin (Real.pi / 180 * d) = sd at *
  generalize Real.cos (Real.pi / 180 * d) = cd at *
  have k1 : 2 - 2 * (ca * cb * cc * cd + ca * sb * cc * sd + sa * sc) =
      (ca * cb - cc * cd) ^ 2 + (ca * sb - cc * sd) ^ 2 + (sa - sc) ^ 2 := by
    linear_combination -h1 - h3 - ca ^ 2 * h2 - cc ^ 2 * h4
  have k2 : 2 + 2 * (ca * cb * cc * cd + ca * sb * cc * sd + sa * sc) =
      (ca * cb + cc * cd) ^ 2 + (ca * sb + cc * sd) ^ 2 + (sa + sc) ^ 2 := by
    linear_combination -h1 - h3 - ca ^ 2 * h2 - cc ^ 2 * h4
  constructor
  · nlinarith [sq_nonneg (ca * cb + cc * cd), sq_nonneg (ca * sb + cc * sd), sq_nonneg (sa + sc)]
  · nlinarith [sq_nonneg (ca * cb - cc * cd), sq_nonneg (ca * sb - cc * sd), sq_nonneg (sa - sc)]

/-- **C72** (Geodetic, reals). The great-circle distance `r` lies between 0 and half the circumference, and the straight-line
distance of the tree is the chord `2 R sin (r / 2R)`. -/
theorem c72_geodetic (a b c d : ℝ) : ∃ r : ℝ, calcDistance (fin a) (fin b) (fin c) (fin d) .geodetic = fin r ∧
    0 ≤ r ∧ r ≤ Real.pi * earth ∧
    straightDistance (HasGeo.geo a b : Pt3 ℝ) (HasGeo.geo c d) = 2 * earth * Real.sin (r / (2 * earth)) := by
  obtain ⟨m1, m2⟩ := arcRatio_mem a b c d
  have hE : (0 : ℝ) < earth := by unfold earth; norm_num
  have hval : calcDistance (fin a) (fin b) (fin c) (fin d) .geodetic = fin (Real.arccos (arcRatio a b c d) * earth) := by
    by_cases he : a = c ∧ b = d
    · obtain ⟨rfl, rfl⟩ := he
      have : arcRatio a b a b = 1 := by
        have h := geo_sq a b a b
        simp only [sqDist, sub_self, mul_zero, add_zero] at h
        have : earth ^ 2 ≠ 0 := by positivity
        have h' := (mul_eq_zero.mp h.symm).resolve_left this
        linarith
      rw [this, Real.arccos_one]
      simp [calcDistance]
    · simp only [calcDistance]
      rw [if_neg (by simpa using he)]
      rfl
  refine ⟨_, hval, mul_nonneg (Real.arccos_nonneg _) hE.le, mul_le_mul_of_nonneg_right (Real.arccos_le_pi _) hE.le, ?_⟩
  have hhalf : Real.arccos (arcRatio a b c d) * earth / (2 * earth) = Real.arccos (arcRatio a b c d) / 2 := by
    field_simp
  rw [hhalf]
  set θ := Real.arccos (arcRatio a b c d) with hθ
  have hcos : Real.cos θ = arcRatio a b c d := Real.cos_arccos m1 m2
  have hs : 0 ≤ Real.sin (θ / 2) := Real.sin_nonneg_of_nonneg_of_le_pi (by have := Real.arccos_nonneg (arcRatio a b c d); linarith)
    (by have := Real.arccos_le_pi (arcRatio a b c d); have := Real.pi_pos; linarith)
  have hsq : sqDist (HasGeo.geo a b : Pt3 ℝ) (HasGeo.geo c d) = (2 * earth * Real.sin (θ / 2)) ^ 2 := by
    rw [geo_sq, ← hcos]
    have h1 : Real.cos θ = 1 - 2 * Real.sin (θ / 2) ^ 2 := by
      have := Real.cos_two_mul (θ / 2)
      rw [show 2 * (θ / 2) = θ by ring] at this
      have h2 := Real.sin_sq_add_cos_sq (θ / 2)
      linarith
    rw [h1]; ring
  change Real.sqrt (sqDist (HasGeo.geo a b : Pt3 ℝ) (HasGeo.geo c d)) = _
  rw [hsq, Real.sqrt_sq (by positivity)]

/-- **C72** (Geodetic, reals). Ordering by great-circle distance is ordering by the straight-line distance of the tree. -/
theorem c72_order (a b c d c' d' : ℝ) (r r' : ℝ)
    (h : calcDistance (fin a) (fin b) (fin c) (fin d) .geodetic = fin r) (h' : calcDistance (fin a) (fin b) (fin c') (fin d') .geodetic = fin r') :
    r ≤ r' ↔ straightDistance (HasGeo.geo a b : Pt3 ℝ) (HasGeo.geo c d) ≤ straightDistance (HasGeo.geo a b : Pt3 ℝ) (HasGeo.geo c' d') := by
  obtain ⟨s, e1, e2, e3, e4⟩ := c72_geodetic a b c d
  obtain ⟨s', f1, f2, f3, f4⟩ := c72_geodetic a b c' d'
  rw [h] at e1; rw [h'] at f1
  cases e1; cases f1
  have hE : (0 : ℝ) < earth := by unfold earth; norm_num
  have hmem : ∀ t, 0 ≤ t → t ≤ Real.pi * earth → t / (2 * earth) ∈ Set.Icc (-(Real.pi / 2)) (Real.pi / 2) := by
    intro t h0 h1
    constructor
    · have := Real.pi_pos
      have : 0 ≤ t / (2 * earth) := by positivity
      linarith
    · rw [div_le_div_iff₀ (by positivity) (by norm_num)]
      linarith
  rw [e4, f4, mul_le_mul_iff_right₀ (by positivity), Real.strictMonoOn_sin.le_iff_le (hmem _ e2 e3) (hmem _ f2 f3),
    div_le_div_iff_of_pos_right (by positivity)]

section distance
variable {K : Type} [Field K] [LinearOrder K] [IsStrictOrderedRing K] [HasGeo K]

/-- `l` lists `num` points (all points if there are fewer) none of which is farther from `p` than a point left out. -/
def IsClosest [HasSqrt K] (lats lons : List (Fl K)) (type : CoordType) (p : Pt3 K) (num : Nat) (l : List Nat) : Prop :=
  l.Nodup ∧ l.length = min num lats.length ∧ (∀ i ∈ l, i < lats.length) ∧
    ∀ i ∈ l, ∀ j, j ∉ l → ∀ q q', Located lats lons type i q → Located lats lons type j q' → straightDistance q p ≤ straightDistance q' p

/-- The same for the cells of a grid of `n` cells. -/
def IsClosestCells [HasSqrt K] (lats lons : List (List (Fl K))) (type : CoordType) (p : Pt3 K) (num n : Nat) (l : List (Nat × Nat)) : Prop :=
  l.Nodup ∧ l.length = min num n ∧ (∀ c ∈ l, ∃ q, CellAt lats lons type c q) ∧
    ∀ c ∈ l, ∀ c', c' ∉ l → ∀ q q', CellAt lats lons type c q → CellAt lats lons type c' q' → straightDistance q p ≤ straightDistance q' p

/-- `d` is the largest of the distances in `ds`, 0 if there are none. -/
def LargestOf (d : K) (ds : List K) : Prop := (∀ x ∈ ds, x ≤ d) ∧ (d ∈ ds ∨ (ds = [] ∧ d = 0))

theorem tree_closest {T : RTree K} (hT : T.Lawful) [LawfulSqrt K] {t : KDTree K} (hw : t.WF) {la lo : Fl K} {p : Pt3 K}
    (hp : convertCoordinates la lo t.type = ok p) {num : Nat} (hn : 0 < num) :
    ∃ l, t.getClosestNeighbours T la lo num true = ok l ∧ IsClosest t.lats t.lons t.type p num l := by
  obtain ⟨l, h1, h2, h3, h4, h5⟩ := c14_closest hT t.lats t.lons t.type t (KDTree.WF.new_eq hw) la lo p hp num hn true
  refine ⟨l, h1, h2, ?_, fun i hi => (h3 i hi).1, fun i hi j hj q q' hq hq' => h4 i hi j hj q q' hq hq' (Or.inl rfl)⟩
  rw [h5 (List.range t.lats.length) List.nodup_range, List.length_range]
  intro j
  rw [List.mem_range]
  constructor
  · intro hj
    obtain ⟨q, hq⟩ := hw.exists_located hj
    exact ⟨q, hq, Or.inl rfl⟩
  · rintro ⟨q, hq, -⟩; exact hq.lt

theorem valid_of_convert {la lo : Fl K} {type : CoordType} {p : Pt3 K} (h : convertCoordinates la lo type = ok p) :
    la.isValid = true ∧ lo.isValid = true := by
  by_contra hc
  have : la.isValid = false ∨ lo.isValid = false := by
    rw [not_and_or] at hc
    rcases hc with h | h
    · left; simpa using h
    · right; simpa using h
  rw [(convert_spec la lo).2.2.2 type this] at h
  cases h

/-- The loop over the closest locations. -/
theorem dist_loop [LawfulSqrt K] [LawfulArc K] {ι : Type} {l : List ι} {f : ι → Res (Fl K)} {g : ι → Fl K}
    (h : ∀ c ∈ l, f c = ok (g c)) (hg : ∀ c ∈ l, ∃ r : K, g c = fin r ∧ 0 ≤ r) :
    ∃ (ds : List K) (d : K), (do
      let ds ← mapM f l
      ok (ds.foldl maxDist 0)) = ok (fin d) ∧ l.map g = ds.map fin ∧ LargestOf d ds := by
  have hds : ∃ ds : List K, l.map g = ds.map fin ∧ ∀ x ∈ ds, 0 ≤ x := by
    clear h
    induction l with
    | nil => exact ⟨[], rfl, by simp⟩
    | cons a t ih =>
      obtain ⟨r, h1, h2⟩ := hg a (by simp)
      obtain ⟨ds, h3, h4⟩ := ih fun c hc => hg c (by simp [hc])
      refine ⟨r :: ds, by simp [h1, h3], ?_⟩
      rintro x (_ | ⟨_, hx⟩)
      · exact h2
      · exact h4 x hx
  obtain ⟨ds, h1, h2⟩ := hds
  obtain ⟨d, e1, e2, e3, e4⟩ := maxDist_foldl ds (0 : K)
  refine ⟨ds, d, ?_, h1, e3, ?_⟩
  · rw [mapM_ok h, ok_bind, h1]
    exact congrArg ok e1
  · rcases e4 with rfl | h4
    · cases ds with
      | nil => right; exact ⟨rfl, rfl⟩
      | cons a t =>
        left
        have := le_antisymm (e3 a (by simp)) (h2 a (by simp))
        rw [this]; simp
    · exact Or.inl h4

/-- `v` is the largest distance from (la, lo) to `num` closest points. -/
def FarthestPoint [HasSqrt K] [HasArc K] (lats lons : List (Fl K)) (type : CoordType) (num : Nat) (la lo v : Fl K) : Prop :=
  ∃ p l d, ∃ ds : List K, convertCoordinates la lo type = ok p ∧ IsClosest lats lons type p num l ∧ v = fin d ∧ LargestOf d ds ∧
    List.Forall₂ (fun i r => ∃ ila ilo, lats[i]? = some ila ∧ lons[i]? = some ilo ∧ calcDistance la lo ila ilo type = fin r) l ds

/-- `v` is the largest distance from (la, lo) to `num` closest cells. -/
def FarthestCell [HasSqrt K] [HasArc K] (lats lons : List (List (Fl K))) (n : Nat) (type : CoordType) (num : Nat) (la lo v : Fl K) : Prop :=
  ∃ p l d, ∃ ds : List K, convertCoordinates la lo type = ok p ∧ IsClosestCells lats lons type p num n l ∧ v = fin d ∧ LargestOf d ds ∧
    List.Forall₂ (fun (c : Nat × Nat) r => ∃ ila ilo, cell? lats c.1 c.2 = some ila ∧ cell? lons c.1 c.2 = some ilo ∧
      calcDistance la lo ila ilo type = fin r) l ds

theorem forall₂_of_map {ι : Type} {l : List ι} {g : ι → Fl K} {ds : List K} (h : l.map g = ds.map fin) {R : ι → K → Prop}
    (hR : ∀ c ∈ l, ∀ r, g c = fin r → R c r) : List.Forall₂ R l ds := by
  induction l generalizing ds with
  | nil => cases ds with
    | nil => exact .nil
    | cons a t => simp at h
  | cons a t ih => cases ds with
    | nil => simp at h
    | cons b u =>
      simp only [List.map_cons, List.cons.injEq] at h
      exact .cons (hR a (by simp) b h.1) (ih h.2 fun c hc => hR c (by simp [hc]))

theorem dist_points {T : RTree K} (hT : T.Lawful) [LawfulSqrt K] [LawfulArc K] {P : Points K} {lats lons : List (Fl K)} {type : CoordType}
    (hP : BuiltPoints P lats lons type) {num : Nat} (hn : 0 < num) {la lo : Fl K} (hv : ∃ p, convertCoordinates la lo type = ok p) :
    ∃ v, FarthestPoint lats lons type num la lo v ∧ (do
      let indices ← P.getClosestNeighbours T la lo num true
      let ds ← mapM (fun k : Nat => do
        let ila ← vget P.lats (k : Int)
        let ilo ← vget P.lons (k : Int)
        ok (calcDistance la lo ila ilo P.type)) indices
      ok (ds.foldl maxDist 0)) = ok v ∧ (do
      let indices ← P.getClosestNeighbours T la lo num true
      let ds ← mapM (fun k : Nat => do
        let ila ← vget P.lats (k : Int)
        let ilo ← vget P.lons (k : Int)
        ok (calcDistance ila ilo la lo P.type)) indices
      ok (ds.foldl maxDist 0)) = ok v := by
  obtain ⟨p, hp⟩ := hv
  obtain ⟨rfl, rfl, e1, e2, e3, hw, hlen⟩ := hP.wf
  obtain ⟨l, h1, h2⟩ := tree_closest hT hw (by rw [e3]; exact hp) hn
  rw [e1, e2, e3] at h2
  obtain ⟨v1, v2⟩ := valid_of_convert hp
  have hcoord : ∀ i ∈ l, ∃ ila ilo, P.lats[i]? = some ila ∧ P.lons[i]? = some ilo ∧ ila.isValid = true ∧ ilo.isValid = true := by
    intro i hi
    obtain ⟨q, ila, ilo, b1, b2, b3⟩ := hw.exists_located (i := i) (by rw [e1]; exact h2.2.2.1 i hi)
    rw [e1] at b1; rw [e2] at b2
    obtain ⟨w1, w2⟩ := valid_of_convert b3
    exact ⟨ila, ilo, b1, b2, w1, w2⟩
  obtain ⟨ds, d, g1, g2, g3⟩ := dist_loop (l := l) (f := fun k : Nat => do
        let ila ← vget P.lats (k : Int)
        let ilo ← vget P.lons (k : Int)
        ok (calcDistance la lo ila ilo type)) (g := fun k => calcDistance la lo (P.lats.getD k nan) (P.lons.getD k nan) type)
    (fun i hi => by
      obtain ⟨ila, ilo, b1, b2, -⟩ := hcoord i hi
      simp [vget_nat_eq_ok.mpr b1, vget_nat_eq_ok.mpr b2, List.getD, b1, b2])
    (fun i hi => by
      obtain ⟨ila, ilo, b1, b2, b3, b4⟩ := hcoord i hi
      obtain ⟨r, r1, r2, -⟩ := (c72_general type).1 la lo ila ilo v1 v2 b3 b4
      exact ⟨r, by simp [List.getD, b1, b2, r1], r2⟩)
  have hq : P.getClosestNeighbours T la lo num true = ok l := h1
  have ht : P.type = type := e3
  refine ⟨fin d, ⟨p, l, d, ds, hp, h2, rfl, g3, forall₂_of_map g2 fun i hi r hr => ?_⟩, ?_, ?_⟩
  · obtain ⟨ila, ilo, b1, b2, -⟩ := hcoord i hi
    refine ⟨ila, ilo, b1, b2, ?_⟩
    rw [← hr]
    simp [List.getD, b1, b2]
  · rw [hq, ok_bind, ht]; exact g1
  · rw [hq, ok_bind, ht, ← g1]
    congr 1
    refine mapM_congr fun i hi => ?_
    obtain ⟨ila, ilo, b1, b2, b3, b4⟩ := hcoord i hi
    obtain ⟨r, r1, -, r3, -⟩ := (c72_general type).1 la lo ila ilo v1 v2 b3 b4
    simp [vget_nat_eq_ok.mpr b1, vget_nat_eq_ok.mpr b2, r1, r3]

theorem grid_closest {T : RTree K} (hT : T.Lawful) [LawfulSqrt K] {g : Grid K} {Y X : Nat} {lats lons : List (List (Fl K))} {type : CoordType}
    (hg : BuiltGrid g Y X lats lons type) {la lo : Fl K} {p : Pt3 K} (hp : convertCoordinates la lo type = ok p) {num : Nat} (hn : 0 < num) :
    ∃ l, g.getClosestNeighbours T la lo num true = ok l ∧ IsClosestCells lats lons type p num (Y * X) l := by
  obtain ⟨hw, rfl, rfl, rfl⟩ := hg.wf
  obtain ⟨l, h1, h2, h3, h4, h5⟩ := tree_closest hT hw.tree hp hn
  have hlen : g.tree.lats.length = Y * X := by rw [hw.tlats, flatten_length hw.lats]
  have hback : ∀ c : Nat × Nat, c.2 < X → (c ∈ toCells X l ↔ c.1 * X + c.2 ∈ l) := by
    intro c hc
    unfold toCells
    rw [List.mem_map]
    constructor
    · rintro ⟨i, hi, rfl⟩
      simp only
      rwa [Nat.mul_comm, Nat.div_add_mod]
    · intro h
      exact ⟨_, h, div_mod_of_lt hc⟩
  refine ⟨toCells X l, ?_, ?_, ?_, ?_, ?_⟩
  · unfold Grid.getClosestNeighbours
    rw [h1, ok_bind, getIndicesVec_ok hw l fun i hi => by rw [← hlen]; exact h4 i hi]
  · unfold toCells
    refine h2.map_on ?_
    intro a ha b hb hab
    simp only [Prod.mk.injEq] at hab
    rw [← Nat.div_add_mod a X, ← Nat.div_add_mod b X, hab.1, hab.2]
  · unfold toCells; rw [List.length_map, h3, hlen]
  · intro c hc
    unfold toCells at hc
    obtain ⟨i, hi, rfl⟩ := List.mem_map.mp hc
    obtain ⟨q, hq⟩ := hw.tree.exists_located (h4 i hi)
    exact ⟨q, hw.located.mp hq⟩
  · intro c hc c' hc' q q' hq hq'
    have k1 := (hw.cellAt_lt hq).2
    have k2 := (hw.cellAt_lt hq').2
    exact h5 _ ((hback c k1).mp hc) _ (fun h => hc' ((hback c' k2).mpr h)) q q' (hw.cellAt_located hq) (hw.cellAt_located hq')

theorem dist_cells {T : RTree K} (hT : T.Lawful) [LawfulSqrt K] [LawfulArc K] {g : Grid K} {Y X : Nat} {lats lons : List (List (Fl K))} {type : CoordType}
    (hg : BuiltGrid g Y X lats lons type) {num : Nat} (hn : 0 < num) {la lo : Fl K} (hv : ∃ p, convertCoordinates la lo type = ok p) :
    ∃ v, FarthestCell lats lons (Y * X) type num la lo v ∧ (do
      let indices ← g.getClosestNeighbours T la lo num true
      let ds ← mapM (fun c : Nat × Nat => do
        let ila ← vget2 g.lats c.1 c.2
        let ilo ← vget2 g.lons c.1 c.2
        ok (calcDistance la lo ila ilo g.type)) indices
      ok (ds.foldl maxDist 0)) = ok v ∧ (do
      let indices ← g.getClosestNeighbours T la lo num true
      let ds ← mapM (fun c : Nat × Nat => do
        let ila ← vget2 g.lats c.1 c.2
        let ilo ← vget2 g.lons c.1 c.2
        ok (calcDistance ila ilo la lo g.type)) indices
      ok (ds.foldl maxDist 0)) = ok v := by
  obtain ⟨p, hp⟩ := hv
  obtain ⟨l, h1, h2⟩ := grid_closest hT hg hp hn
  obtain ⟨hw, rfl, rfl, e3⟩ := hg.wf
  obtain ⟨v1, v2⟩ := valid_of_convert hp
  have hcoord : ∀ c ∈ l, ∃ ila ilo, cell? g.lats c.1 c.2 = some ila ∧ cell? g.lons c.1 c.2 = some ilo ∧ ila.isValid = true ∧ ilo.isValid = true := by
    intro c hc
    obtain ⟨q, ila, ilo, b1, b2, b3⟩ := h2.2.2.1 c hc
    obtain ⟨w1, w2⟩ := valid_of_convert b3
    exact ⟨ila, ilo, b1, b2, w1, w2⟩
  obtain ⟨ds, d, g1, g2, g3⟩ := dist_loop (l := l) (f := fun c : Nat × Nat => do
        let ila ← vget2 g.lats c.1 c.2
        let ilo ← vget2 g.lons c.1 c.2
        ok (calcDistance la lo ila ilo type)) (g := fun c => calcDistance la lo ((cell? g.lats c.1 c.2).getD nan) ((cell? g.lons c.1 c.2).getD nan) type)
    (fun c hc => by
      obtain ⟨ila, ilo, b1, b2, -⟩ := hcoord c hc
      simp [vget2_of_cell? b1, vget2_of_cell? b2, b1, b2])
    (fun c hc => by
      obtain ⟨ila, ilo, b1, b2, b3, b4⟩ := hcoord c hc
      obtain ⟨r, r1, r2, -⟩ := (c72_general type).1 la lo ila ilo v1 v2 b3 b4
      exact ⟨r, by simp [b1, b2, r1], r2⟩)
  have ht : g.type = type := e3
  refine ⟨fin d, ⟨p, l, d, ds, hp, h2, rfl, g3, forall₂_of_map g2 fun c hc r hr => ?_⟩, ?_, ?_⟩
  · obtain ⟨ila, ilo, b1, b2, -⟩ := hcoord c hc
    refine ⟨ila, ilo, b1, b2, ?_⟩
    rw [← hr]
    simp [b1, b2]
  · rw [h1, ok_bind, ht]; exact g1
  · rw [h1, ok_bind, ht, ← g1]
    congr 1
    refine mapM_congr fun c hc => ?_
    obtain ⟨ila, ilo, b1, b2, b3, b4⟩ := hcoord c hc
    obtain ⟨r, r1, -, r3, -⟩ := (c72_general type).1 la lo ila ilo v1 v2 b3 b4
    simp [vget2_of_cell? b1, vget2_of_cell? b2, r1, r3]

/-- **C42** (`distance`, all four overloads). Locations of different coordinate types are refused. -/
theorem c42_distance {T : RTree K} (hT : T.Lawful) [LawfulSqrt K] [LawfulArc K]
    {g g' : Grid K} {Y X Y' X' : Nat} {glats glons glats' glons' : List (List (Fl K))} {gtype gtype' : CoordType}
    (hg : BuiltGrid g Y X glats glons gtype) (hg' : BuiltGrid g' Y' X' glats' glons' gtype')
    {P P' : Points K} {lats lons lats' lons' : List (Fl K)} {type type' : CoordType} (hP : BuiltPoints P lats lons type)
    (hP' : BuiltPoints P' lats' lons' type') (num : Nat) (hn : 0 < num) :
    (gtype = type' → ∃ out, distanceGP T g P' num = ok out ∧ VecSat lats' lons' (FarthestCell glats glons (Y * X) gtype num) out) ∧
    (gtype = gtype' → ∃ out, distanceGG T g g' num = ok out ∧ FieldSat glats' glons' Y' X' (FarthestCell glats glons (Y * X) gtype num) out) ∧
    (type = gtype' → ∃ out, distancePG T P g' num = ok out ∧ FieldSat glats' glons' Y' X' (FarthestPoint lats lons type num) out) ∧
    (type = type' → ∃ out, distancePP T P P' num = ok out ∧ VecSat lats' lons' (FarthestPoint lats lons type num) out) ∧
    (gtype ≠ type' → distanceGP T g P' num = .throw .invalidArgument) ∧
    (gtype ≠ gtype' → distanceGG T g g' num = .throw .invalidArgument) ∧
    (type ≠ gtype' → distancePG T P g' num = .throw .invalidArgument) ∧
    (type ≠ type' → distancePP T P P' num = .throw .invalidArgument) := by
  have t1 : g.type = gtype := hg.wf.2.2.2
  have t2 : g'.type = gtype' := hg'.wf.2.2.2
  have t3 : P.type = type := hP.wf.2.2.2.2.1
  have t4 : P'.type = type' := hP'.wf.2.2.2.2.1
  refine ⟨?_, ?_, ?_, ?_, fun h => ?_, fun h => ?_, fun h => ?_, fun h => ?_⟩
  · rintro rfl
    obtain ⟨out, h1, h2⟩ := points_loop hP' fun i la lo a b => by
      obtain ⟨v, v1, v2, v3⟩ := dist_cells hT hg hn (hP'.validIn i la lo a b)
      exact ⟨v, v2, v1⟩
    exact ⟨out, by unfold distanceGP; rw [if_neg (by simp [t1, t4]), h1]; rfl, h2⟩
  · rintro rfl
    obtain ⟨out, h1, h2⟩ := grid_loop hg' fun i j la lo a b => by
      obtain ⟨v, v1, v2, v3⟩ := dist_cells hT hg hn (hg'.validIn i j la lo a b)
      exact ⟨v, v3, v1⟩
    exact ⟨out, by unfold distanceGG; rw [if_neg (by simp [t1, t2]), hg'.wf.1.size, ok_bind, h1]; rfl, h2⟩
  · rintro rfl
    obtain ⟨out, h1, h2⟩ := grid_loop hg' fun i j la lo a b => by
      obtain ⟨v, v1, v2, v3⟩ := dist_points hT hP hn (hg'.validIn i j la lo a b)
      exact ⟨v, v3, v1⟩
    exact ⟨out, by unfold distancePG; rw [if_neg (by simp [t3, t2]), hg'.wf.1.size, ok_bind, h1]; rfl, h2⟩
  · rintro rfl
    obtain ⟨out, h1, h2⟩ := points_loop hP' fun i la lo a b => by
      obtain ⟨v, v1, v2, v3⟩ := dist_points hT hP hn (hP'.validIn i la lo a b)
      exact ⟨v, v2, v1⟩
    exact ⟨out, by unfold distancePP; rw [if_neg (by simp [t3, t4]), h1]; rfl, h2⟩
  · unfold distanceGP; rw [t1, t4, if_pos h]
  · unfold distanceGG; rw [t1, t2, if_pos h]
  · unfold distancePG; rw [t3, t2, if_pos h]
  · unfold distancePP; rw [t3, t4, if_pos h]

/-- C42: two closest of three points. -/
def c42Example : Res (List (Fl ℚ) × List (List (Fl ℚ))) := do
  let g ← Grid.new [[fin (0 : ℚ), fin 0, fin 0]] [[fin 0, fin 10, fin 20]] [] [] .cartesian
  let p ← Points.new [fin 0, fin 0, fin 0] [fin 1, fin (-1), fin 12] [] [] .cartesian
  let a ← distanceGP RTree.scan g p 2
  let b ← distancePG RTree.scan p g 2
  ok (a, b)

example : c42Example = ok ([fin 9, fin 11, fin 8], [[fin 1, fin 9, fin 19]]) := by decide +kernel

end distance

end Gridpp.Props
