import Verif.Lemmas.BilinearGrid
import Verif.Props.Bilinear

/-! Properties C43, C44 and C73 for the four overloads of `gridpp::bilinear`. -/

set_option linter.unusedSectionVars false

namespace Gridpp.Props
open Fl Res

variable {K : Type} [Field K] [LinearOrder K] [IsStrictOrderedRing K] [HasGeo K]

/-- `w` is a combination of the corner values with non-negative weights of sum one. -/
def ConvexComb (a b c d w : K) : Prop :=
  ∃ c0 c1 c2 c3 : K, 0 ≤ c0 ∧ 0 ≤ c1 ∧ 0 ≤ c2 ∧ 0 ≤ c3 ∧ c0 + c1 + c2 + c3 = 1 ∧ w = c0 * a + c1 * b + c2 * c + c3 * d

/-- A convex combination is between the bounds of the corner values. -/
theorem ConvexComb.between {a b c d w lo hi : K} (h : ConvexComb a b c d w) (hlo : lo ≤ a ∧ lo ≤ b ∧ lo ≤ c ∧ lo ≤ d)
    (hhi : a ≤ hi ∧ b ≤ hi ∧ c ≤ hi ∧ d ≤ hi) : lo ≤ w ∧ w ≤ hi := by
  obtain ⟨c0, c1, c2, c3, p0, p1, p2, p3, hs, rfl⟩ := h
  have e : (c0 + c1 + c2 + c3) * lo = lo := by rw [hs, one_mul]
  have e' : (c0 + c1 + c2 + c3) * hi = hi := by rw [hs, one_mul]
  have := mul_le_mul_of_nonneg_left hlo.1 p0
  have := mul_le_mul_of_nonneg_left hlo.2.1 p1
  have := mul_le_mul_of_nonneg_left hlo.2.2.1 p2
  have := mul_le_mul_of_nonneg_left hlo.2.2.2 p3
  have := mul_le_mul_of_nonneg_left hhi.1 p0
  have := mul_le_mul_of_nonneg_left hhi.2.1 p1
  have := mul_le_mul_of_nonneg_left hhi.2.2.1 p2
  have := mul_le_mul_of_nonneg_left hhi.2.2.2 p3
  constructor <;> nlinarith

/-- The value `v` at the location (la, lo): with `c` the nearest grid point, either one of the (at most four) cells at `c`
contains the location and has four valid corner values, and `v` is obtained from them by `P`; or no such cell contains the
location, or one of them does and has a missing corner value, and `v` is the value at `c`. -/
def CellValue [HasSqrt K] (P : Pt K → Pt K → Pt K → Pt K → Pt K → K → K → K → K → K → Prop) (Y X : Nat) (lats lons : List (List (Fl K)))
    (type : CoordType) (f : List (List (Fl K))) (la lo v : Fl K) : Prop :=
  ∃ (m : Pt K) (c : Nat × Nat), la = fin m.lat ∧ lo = fin m.lon ∧ NearestCellTo lats lons type la lo c ∧
    ((∃ y x A B C D, ∃ a b e d w : K, NearBox Y X c y x ∧ CellCorners lats lons y x A B C D ∧ InsideQuad A B C D m ∧
        CellValues f y x (fin a) (fin b) (fin e) (fin d) ∧ v = fin w ∧ P A B C D m a b e d w) ∨
     (cell? f c.1 c.2 = some v ∧
        ((∀ y x, NearBox Y X c y x → ¬ CellContains lats lons y x m) ∨
         ∃ y x A B C D vA vB vC vD, NearBox Y X c y x ∧ CellCorners lats lons y x A B C D ∧ InsideQuad A B C D m ∧
          CellValues f y x vA vB vC vD ∧ ¬ (vA.isValid = true ∧ vB.isValid = true ∧ vC.isValid = true ∧ vD.isValid = true))))

/-- The combination is convex. -/
def Convex (_A _B _C _D _m : Pt K) (a b c d w : K) : Prop := ConvexComb a b c d w

/-- The value is the bilinear interpolation at coordinates in the unit square that give the location. -/
def Exact (A B C D m : Pt K) (a b c d w : K) : Prop :=
  ∃ α β : K, 0 ≤ α ∧ α ≤ 1 ∧ 0 ≤ β ∧ β ≤ 1 ∧ AtCoords A B C D α β m ∧ w = bilinearValue α β a b c d

/-- No cell at a nearest grid point contains the location and has four valid corner values: the location is outside the
grid or a corner is missing. -/
def NoBox [HasSqrt K] (Y X : Nat) (lats lons : List (List (Fl K))) (type : CoordType) (f : List (List (Fl K))) (la lo : Fl K) : Prop :=
  ∀ (m : Pt K) c y x A B C D vA vB vC vD, la = fin m.lat → lo = fin m.lon → NearestCellTo lats lons type la lo c → NearBox Y X c y x →
    CellCorners lats lons y x A B C D → InsideQuad A B C D m → CellValues f y x vA vB vC vD →
    ¬ (vA.isValid = true ∧ vB.isValid = true ∧ vC.isValid = true ∧ vD.isValid = true)

section
variable {T : RTree K} (hT : T.Lawful) [LawfulSqrt K]
include hT

/-- **C43** (one location): every returned value is a convex combination of the corners of a cell that contains the
location, or a nearest neighbour value. -/
theorem c43_location {ig : Grid K} {Y X : Nat} {lats lons : List (List (Fl K))} {type : CoordType}
    (hi : BuiltGrid ig Y X lats lons type) {la lo : Fl K} (hv : ∃ p, convertCoordinates la lo type = ok p)
    (hs : BoxLat type lats la) {f : List (List (Fl K))} (hf : Rect Y X f) (v : Fl K) (h : bilinearAt T ig f la lo = ok v) :
    CellValue Convex Y X lats lons type f la lo v := by
  obtain ⟨m, c, h1, h2, h3, h4, h5, hc, hbox⟩ := bilinearAt_cases hT hi hv hs
  refine ⟨m, c, h1, h2, h3, ?_⟩
  unfold bilinearAt at h
  rcases hbox with ⟨y, x, A, B, C, D, hn, hcc, hin, hb, hq⟩ | ⟨hno, hb⟩
  · rw [hb, ok_bind] at h
    simp only [hq, ok_bind] at h
    obtain ⟨vA, vB, vC, vD, vc, hcv, hvc, he⟩ := boxValue_eq hT hf hn hc h4 h5 (quadOf A B C D)
    rw [he] at h
    by_cases hval : (vA.isValid && vB.isValid && vD.isValid && vC.isValid) = true
    · left
      rw [if_pos hval] at h
      simp only [Bool.and_eq_true] at hval
      obtain ⟨a, rfl⟩ := exists_fin_of_valid hval.1.1.1
      obtain ⟨b, rfl⟩ := exists_fin_of_valid hval.1.1.2
      obtain ⟨d, rfl⟩ := exists_fin_of_valid hval.1.2
      obtain ⟨e, rfl⟩ := exists_fin_of_valid hval.2
      obtain ⟨c0, c1, c2, c3, p0, p1, p2, p3, hsum, hall⟩ := c43_convex _ _ _ _ _ _ _ _ h
      rw [hall a b d e] at h
      cases h
      exact ⟨y, x, A, B, C, D, a, b, e, d, _, hn, hcc, hin, hcv, rfl, c0, c1, c3, c2, p0, p1, p3, p2, by rw [← hsum]; ring, by ring⟩
    · right
      rw [if_neg hval] at h
      cases h
      refine ⟨hvc, Or.inr ⟨y, x, A, B, C, D, vA, vB, vC, vD, hn, hcc, hin, hcv, ?_⟩⟩
      rintro ⟨i1, i2, i3, i4⟩
      exact hval (by rw [i1, i2, i3, i4]; rfl)
  · right
    rw [hb, ok_bind] at h
    simp only at h
    obtain ⟨vc, hvc, he⟩ := nearestValue_eq hT hf hc h4 h5
    rw [he] at h
    cases h
    exact ⟨hvc, Or.inl hno⟩

/-- **C43** (Grid → Grid): every value of the result is a convex combination of the corners of a cell that contains the
location, or a nearest neighbour value. -/
theorem c43_grid {ig og : Grid K} {Y X oY oX : Nat} {lats lons olats olons : List (List (Fl K))} {type otype : CoordType}
    (hi : BuiltGrid ig Y X lats lons type) (ho : BuiltGrid og oY oX olats olons otype) (hv : GridValidIn type olats olons)
    (hs : ∀ y x la, cell? olats y x = some la → BoxLat type lats la) (f : List (List (Fl K))) (hf : Rect Y X f) (out : List (List (Fl K)))
    (h : bilinearGG2 T ig og f = ok out) : FieldSat olats olons oY oX (CellValue Convex Y X lats lons type f) out := by
  obtain ⟨k1, k2⟩ := (bilinearGG2_ok_iff hi ho hf out).mp h
  refine ⟨k1, fun y hy x hx => ?_⟩
  obtain ⟨la, lo, v, a1, a2, a3, a4⟩ := k2 y hy x hx
  exact ⟨la, lo, v, a1, a2, a3, c43_location hT hi (hv y x la lo a1 a2) (hs y x la a1) hf v a4⟩

/-- **C43** (Grid → Points). -/
theorem c43_points {ig : Grid K} {op : Points K} {Y X : Nat} {lats lons : List (List (Fl K))} {olats olons : List (Fl K)} {type otype : CoordType}
    (hi : BuiltGrid ig Y X lats lons type) (ho : BuiltPoints op olats olons otype) (hv : PointsValidIn type olats olons)
    (hs : ∀ (i : Nat) la, olats[i]? = some la → BoxLat type lats la) (f : List (List (Fl K))) (hf : Rect Y X f) (out : List (Fl K))
    (h : bilinearGP2 T ig op f = ok out) : VecSat olats olons (CellValue Convex Y X lats lons type f) out := by
  obtain ⟨k1, k2⟩ := (bilinearGP2_ok_iff hi ho hf out).mp h
  refine ⟨k1, fun i hi' => ?_⟩
  obtain ⟨la, lo, v, a1, a2, a3, a4⟩ := k2 i hi'
  exact ⟨la, lo, v, a1, a2, a3, c43_location hT hi (hv i la lo a1 a2) (hs i la a1) hf v a4⟩

/-- **C43/C44/C73** (times). The overloads for several times succeed exactly if the overload for one time succeeds for
every time, with the same values. -/
theorem c43_times {ig og : Grid K} {op : Points K} {Y X oY oX : Nat} {lats lons olats olons : List (List (Fl K))} {plats plons : List (Fl K)}
    {type otype ptype : CoordType} (hi : BuiltGrid ig Y X lats lons type)
    (ho : BuiltGrid og oY oX olats olons otype) (hv : GridValidIn type olats olons)
    (hs : ∀ y x la, cell? olats y x = some la → BoxLat type lats la)
    (hp : BuiltPoints op plats plons ptype) (hpv : PointsValidIn type plats plons)
    (hps : ∀ (i : Nat) la, plats[i]? = some la → BoxLat type lats la)
    (fs : List (List (List (Fl K)))) (hf : ∀ f ∈ fs, Rect Y X f) :
    (∀ out, bilinearGG3 T ig og fs = ok out ↔ List.Forall₂ (fun f o => bilinearGG2 T ig og f = ok o) fs out) ∧
    (∀ out, bilinearGP3 T ig op fs = ok out ↔ List.Forall₂ (fun f o => bilinearGP2 T ig op f = ok o) fs out) :=
  ⟨fun out => (bilinearGG3_ok_iff hT hi ho hv hs hf out).trans ⟨mapM_eq_ok, mapM_of_forall₂⟩,
   fun out => (bilinearGP3_ok_iff hT hi hp hpv hps hf out).trans ⟨mapM_eq_ok, mapM_of_forall₂⟩⟩

/-- Where there is no usable cell, `::calc` is the nearest neighbour. -/
theorem bilinearAt_noBox {ig : Grid K} {Y X : Nat} {lats lons : List (List (Fl K))} {type : CoordType}
    (hi : BuiltGrid ig Y X lats lons type) {la lo : Fl K} (hv : ∃ p, convertCoordinates la lo type = ok p)
    (hs : BoxLat type lats la) {f : List (List (Fl K))} (hf : Rect Y X f) (hno : NoBox Y X lats lons type f la lo) :
    bilinearAt T ig f la lo = nearestValue T ig f la lo := by
  obtain ⟨m, c, h1, h2, h3, h4, h5, hc, hbox⟩ := bilinearAt_cases hT hi hv hs
  unfold bilinearAt
  rcases hbox with ⟨y, x, A, B, C, D, hn, hcc, hin, hb, hq⟩ | ⟨-, hb⟩
  · rw [hb, ok_bind]
    simp only [hq, ok_bind]
    obtain ⟨vA, vB, vC, vD, vc, hcv, hvc, he⟩ := boxValue_eq hT hf hn hc h4 h5 (quadOf A B C D)
    have := hno m c y x A B C D vA vB vC vD h1 h2 h3 hn hcc hin hcv
    rw [he, if_neg]
    · obtain ⟨vc', hvc', he'⟩ := nearestValue_eq hT hf hc h4 h5
      rw [hvc] at hvc'
      cases hvc'
      exact he'.symm
    · simp only [Bool.and_eq_true]
      tauto
  · rw [hb, ok_bind]

/-- `nearest` (Grid → Grid) cell by cell. -/
theorem nearestGG2_cells {ig og : Grid K} {Y X oY oX : Nat} {lats lons olats olons : List (List (Fl K))} {type otype : CoordType}
    (hi : BuiltGrid ig Y X lats lons type) (ho : BuiltGrid og oY oX olats olons otype) (hv : GridValidIn type olats olons)
    (f : List (List (Fl K))) (hf : Rect Y X f) :
    ∃ out, nearestGG2 T ig og f = ok out ∧ FieldSat olats olons oY oX (fun la lo v => nearestValue T ig f la lo = ok v) out := by
  have hw := hi.wf.1
  have how := ho.wf.1
  obtain ⟨r, hr, hrl⟩ := first_row how.lats how.hY
  obtain ⟨out, h1, h2, h3⟩ := grid_loop ho (f := fun la lo => do
      let c ← nearestCellChecked T ig la lo
      vget2 f c.1 c.2) (P := fun la lo v => nearestValue T ig f la lo = ok v) (by
    intro y x la lo a b
    obtain ⟨c, c1, c2, c3, c4⟩ := grid_nearest_to hT hi (hv y x la lo a b)
    obtain ⟨v, v1, v2⟩ := vget2_of_rect hf c2 c3
    refine ⟨v, ?_, ?_⟩
    · unfold nearestCellChecked
      rw [c1]
      exact v2
    · unfold nearestValue nearestCell
      rw [c1]
      exact v2)
  refine ⟨out, ?_, h2, h3⟩
  unfold nearestGG2
  have := hw.hY
  have := hw.hX
  simp only [compatibleSizeG2_rect hw hf, hr, ok_bind, hw.size, how.lats.1, hrl, Bool.true_eq_false, if_false]
  rw [if_neg (by omega), h1]; rfl

/-- `nearest` (Grid → Points) point by point. -/
theorem nearestGP2_cells {ig : Grid K} {op : Points K} {Y X : Nat} {lats lons : List (List (Fl K))} {olats olons : List (Fl K)}
    {type otype : CoordType} (hi : BuiltGrid ig Y X lats lons type) (ho : BuiltPoints op olats olons otype)
    (hv : PointsValidIn type olats olons) (f : List (List (Fl K))) (hf : Rect Y X f) :
    ∃ out, nearestGP2 T ig op f = ok out ∧ VecSat olats olons (fun la lo v => nearestValue T ig f la lo = ok v) out := by
  have hw := hi.wf.1
  obtain ⟨out, h1, h2, h3⟩ := points_loop ho (f := fun la lo => do
      let c ← nearestCell T ig la lo
      vget2 f c.1 c.2) (P := fun la lo v => nearestValue T ig f la lo = ok v) (by
    intro i la lo a b
    obtain ⟨c, c1, c2, c3, c4⟩ := nearestCell_to hT hi (hv i la lo a b)
    obtain ⟨v, v1, v2⟩ := vget2_of_rect hf c2 c3
    refine ⟨v, ?_, ?_⟩
    · rw [c1]
      exact v2
    · unfold nearestValue
      rw [c1]
      exact v2)
  refine ⟨out, ?_, h2, h3⟩
  unfold nearestGP2
  have := hw.hY
  have := hw.hX
  simp only [compatibleSizeG2_rect hw hf, ok_bind, hw.size, Bool.true_eq_false, if_false]
  rw [if_neg (by omega), h1]; rfl

/-- **C44** (Grid → Grid). In every result of `bilinear`, the locations without a usable cell have the value of
`nearest` for the same arguments; if no output location has a usable cell, then the two functions agree. Missing for the
full claim: Cartesian coordinates beyond 90.001 (`BoxLat`), for which it is false (`c44_cartesian_counterexample`). -/
theorem c44_grid_partial {ig og : Grid K} {Y X oY oX : Nat} {lats lons olats olons : List (List (Fl K))} {type otype : CoordType}
    (hi : BuiltGrid ig Y X lats lons type) (ho : BuiltGrid og oY oX olats olons otype) (hv : GridValidIn type olats olons)
    (hs : ∀ y x la, cell? olats y x = some la → BoxLat type lats la) (f : List (List (Fl K))) (hf : Rect Y X f) :
    ∃ near, nearestGG2 T ig og f = ok near ∧
      (∀ out, bilinearGG2 T ig og f = ok out → ∀ y < oY, ∀ x < oX, ∀ la lo, cell? olats y x = some la → cell? olons y x = some lo →
        NoBox Y X lats lons type f la lo → cell? out y x = cell? near y x) ∧
      ((∀ y x la lo, cell? olats y x = some la → cell? olons y x = some lo → NoBox Y X lats lons type f la lo) →
        bilinearGG2 T ig og f = ok near) := by
  obtain ⟨near, h1, h2, h3⟩ := nearestGG2_cells hT hi ho hv f hf
  refine ⟨near, h1, ?_, ?_⟩
  · intro out hout y hy x hx la lo ha hb hno
    obtain ⟨k1, k2⟩ := (bilinearGG2_ok_iff hi ho hf out).mp hout
    obtain ⟨la1, lo1, v, a1, a2, a3, a4⟩ := k2 y hy x hx
    obtain ⟨la2, lo2, w, b1, b2, b3, b4⟩ := h3 y hy x hx
    rw [ha] at a1 b1
    rw [hb] at a2 b2
    cases a1; cases a2; cases b1; cases b2
    rw [bilinearAt_noBox hT hi (hv y x la lo ha hb) (hs y x la ha) hf hno, b4] at a4
    cases a4
    rw [a3, b3]
  · intro hno
    refine (bilinearGG2_ok_iff hi ho hf near).mpr ⟨h2, fun y hy x hx => ?_⟩
    obtain ⟨la, lo, w, b1, b2, b3, b4⟩ := h3 y hy x hx
    exact ⟨la, lo, w, b1, b2, b3, (bilinearAt_noBox hT hi (hv y x la lo b1 b2) (hs y x la b1) hf (hno y x la lo b1 b2)).trans b4⟩

/-- **C44** (Grid → Points). Missing: as for `c44_grid_partial`. -/
theorem c44_points_partial {ig : Grid K} {op : Points K} {Y X : Nat} {lats lons : List (List (Fl K))} {olats olons : List (Fl K)} {type otype : CoordType}
    (hi : BuiltGrid ig Y X lats lons type) (ho : BuiltPoints op olats olons otype) (hv : PointsValidIn type olats olons)
    (hs : ∀ (i : Nat) la, olats[i]? = some la → BoxLat type lats la) (f : List (List (Fl K))) (hf : Rect Y X f) :
    ∃ near, nearestGP2 T ig op f = ok near ∧
      (∀ out, bilinearGP2 T ig op f = ok out → ∀ (i : Nat) la lo, olats[i]? = some la → olons[i]? = some lo →
        NoBox Y X lats lons type f la lo → out[i]? = near[i]?) ∧
      ((∀ (i : Nat) la lo, olats[i]? = some la → olons[i]? = some lo → NoBox Y X lats lons type f la lo) →
        bilinearGP2 T ig op f = ok near) := by
  obtain ⟨near, h1, h2, h3⟩ := nearestGP2_cells hT hi ho hv f hf
  refine ⟨near, h1, ?_, ?_⟩
  · intro out hout i la lo ha hb hno
    obtain ⟨k1, k2⟩ := (bilinearGP2_ok_iff hi ho hf out).mp hout
    have hi' := (List.getElem?_eq_some_iff.mp ha).1
    obtain ⟨la1, lo1, v, a1, a2, a3, a4⟩ := k2 i hi'
    obtain ⟨la2, lo2, w, b1, b2, b3, b4⟩ := h3 i hi'
    rw [ha] at a1 b1
    rw [hb] at a2 b2
    cases a1; cases a2; cases b1; cases b2
    rw [bilinearAt_noBox hT hi (hv i la lo ha hb) (hs i la ha) hf hno, b4] at a4
    cases a4
    rw [a3, b3]
  · intro hno
    refine (bilinearGP2_ok_iff hi ho hf near).mpr ⟨h2, fun i hi' => ?_⟩
    obtain ⟨la, lo, w, b1, b2, b3, b4⟩ := h3 i hi'
    exact ⟨la, lo, w, b1, b2, b3, (bilinearAt_noBox hT hi (hv i la lo b1 b2) (hs i la b1) hf (hno i la lo b1 b2)).trans b4⟩

/-- **C73** (one location): exact interpolation, without failure, if every cell of the grid is convex and either a
parallelogram or clearly not one. -/
theorem c73_location {ig : Grid K} {Y X : Nat} {lats lons : List (List (Fl K))} {type : CoordType}
    (hi : BuiltGrid ig Y X lats lons type) {la lo : Fl K} (hv : ∃ p, convertCoordinates la lo type = ok p)
    (hs : BoxLat type lats la)
    (hc : ∀ y x A B C D, CellCorners lats lons y x A B C D → ConvexCell A B C D ∧
      (¬ NearlyParallelogram A B C D ∨ (C.lon = B.lon + D.lon - A.lon ∧ C.lat = B.lat + D.lat - A.lat)))
    {f : List (List (Fl K))} (hf : Rect Y X f) :
    ∃ v, bilinearAt T ig f la lo = ok v ∧ CellValue Exact Y X lats lons type f la lo v := by
  obtain ⟨m, c, h1, h2, h3, h4, h5, hnc, hbox⟩ := bilinearAt_cases hT hi hv hs
  unfold bilinearAt
  rcases hbox with ⟨y, x, A, B, C, D, hn, hcc, hin, hb, hq⟩ | ⟨hno, hb⟩
  · rw [hb, ok_bind]
    simp only [hq, ok_bind]
    obtain ⟨vA, vB, vC, vD, vc, hcv, hvc, he⟩ := boxValue_eq hT hf hn hnc h4 h5 (quadOf A B C D)
    rw [he]
    by_cases hval : (vA.isValid && vB.isValid && vD.isValid && vC.isValid) = true
    · rw [if_pos hval]
      simp only [Bool.and_eq_true] at hval
      obtain ⟨a, rfl⟩ := exists_fin_of_valid hval.1.1.1
      obtain ⟨b, rfl⟩ := exists_fin_of_valid hval.1.1.2
      obtain ⟨d, rfl⟩ := exists_fin_of_valid hval.1.2
      obtain ⟨e, rfl⟩ := exists_fin_of_valid hval.2
      obtain ⟨q1, q2⟩ := hc y x A B C D hcc
      obtain ⟨α, β, i1, i2, i3, i4, i5, i6⟩ := c73_partial A B C D m q1 hin q2
      rw [h1, h2, i6 a b e d]
      exact ⟨_, rfl, m, c, rfl, rfl, by rw [← h1, ← h2]; exact h3, Or.inl ⟨y, x, A, B, C, D, a, b, e, d, _, hn, hcc, hin, hcv, rfl, α, β, i1, i2, i3, i4, i5, rfl⟩⟩
    · rw [if_neg hval]
      refine ⟨vc, rfl, m, c, h1, h2, h3, Or.inr ⟨hvc, Or.inr ⟨y, x, A, B, C, D, vA, vB, vC, vD, hn, hcc, hin, hcv, ?_⟩⟩⟩
      rintro ⟨i1, i2, i3, i4⟩
      exact hval (by rw [i1, i2, i3, i4]; rfl)
  · rw [hb, ok_bind]
    obtain ⟨vc, hvc, he⟩ := nearestValue_eq hT hf hnc h4 h5
    exact ⟨vc, he, m, c, h1, h2, h3, Or.inr ⟨hvc, Or.inl hno⟩⟩

/-- **C73** (both output types). `bilinear` succeeds and every value is the exact bilinear interpolation in a cell that
contains the location, or the nearest neighbour value where there is no such cell or a corner is missing. Missing for the
full claim: cells of the other orientation (`c73_trapezoid_abort`) and small distorted cells (`c73_small_cell_throws`), for
which it is false. -/
theorem c73_grid_partial {ig og : Grid K} {op : Points K} {Y X oY oX : Nat} {lats lons olats olons : List (List (Fl K))} {plats plons : List (Fl K)}
    {type otype ptype : CoordType} (hi : BuiltGrid ig Y X lats lons type)
    (ho : BuiltGrid og oY oX olats olons otype) (hv : GridValidIn type olats olons)
    (hs : ∀ y x la, cell? olats y x = some la → BoxLat type lats la)
    (hp : BuiltPoints op plats plons ptype) (hpv : PointsValidIn type plats plons)
    (hps : ∀ (i : Nat) la, plats[i]? = some la → BoxLat type lats la)
    (hc : ∀ y x A B C D, CellCorners lats lons y x A B C D → ConvexCell A B C D ∧
      (¬ NearlyParallelogram A B C D ∨ (C.lon = B.lon + D.lon - A.lon ∧ C.lat = B.lat + D.lat - A.lat)))
    (f : List (List (Fl K))) (hf : Rect Y X f) :
    (∃ out, bilinearGG2 T ig og f = ok out ∧ FieldSat olats olons oY oX (CellValue Exact Y X lats lons type f) out) ∧
    (∃ out, bilinearGP2 T ig op f = ok out ∧ VecSat plats plons (CellValue Exact Y X lats lons type f) out) := by
  constructor
  · obtain ⟨out, e1, e2, e3⟩ := grid_loop ho (f := bilinearAt T ig f)
      (P := fun la lo v => bilinearAt T ig f la lo = ok v ∧ CellValue Exact Y X lats lons type f la lo v) (by
        intro y x la lo a b
        obtain ⟨v, v1, v2⟩ := c73_location hT hi (hv y x la lo a b) (hs y x la a) hc hf
        exact ⟨v, v1, v1, v2⟩)
    refine ⟨out, (bilinearGG2_ok_iff hi ho hf out).mpr ⟨e2, fun y hy x hx => ?_⟩, e2, fun y hy x hx => ?_⟩
    · obtain ⟨la, lo, v, a1, a2, a3, a4, a5⟩ := e3 y hy x hx
      exact ⟨la, lo, v, a1, a2, a3, a4⟩
    · obtain ⟨la, lo, v, a1, a2, a3, a4, a5⟩ := e3 y hy x hx
      exact ⟨la, lo, v, a1, a2, a3, a5⟩
  · obtain ⟨out, e1, e2, e3⟩ := points_loop hp (f := bilinearAt T ig f)
      (P := fun la lo v => bilinearAt T ig f la lo = ok v ∧ CellValue Exact Y X lats lons type f la lo v) (by
        intro i la lo a b
        obtain ⟨v, v1, v2⟩ := c73_location hT hi (hpv i la lo a b) (hps i la a) hc hf
        exact ⟨v, v1, v1, v2⟩)
    refine ⟨out, (bilinearGP2_ok_iff hi hp hf out).mpr ⟨e2, fun i hi' => ?_⟩, e2, fun i hi' => ?_⟩
    · obtain ⟨la, lo, v, a1, a2, a3, a4, a5⟩ := e3 i hi'
      exact ⟨la, lo, v, a1, a2, a3, a4⟩
    · obtain ⟨la, lo, v, a1, a2, a3, a4, a5⟩ := e3 i hi'
      exact ⟨la, lo, v, a1, a2, a3, a5⟩

end

/-- A location outside every cell of the grid has no usable cell, whatever the field. -/
theorem c44_outside [HasSqrt K] {Y X : Nat} {lats lons : List (List (Fl K))} {type : CoordType} (f : List (List (Fl K))) (m : Pt K)
    (h : ∀ y x, y + 1 < Y → x + 1 < X → ¬ CellContains lats lons y x m) : NoBox Y X lats lons type f (fin m.lat) (fin m.lon) := by
  rintro ⟨a, o⟩ c y x A B C D vA vB vC vD h1 h2 - hn hcc hin -
  cases h1; cases h2
  exact absurd ⟨A, B, C, D, hcc.1, hcc.2.1, hcc.2.2.1, hcc.2.2.2, hin⟩ (h y x hn.1 hn.2.1)

/-- So has a location where every cell that contains it has a missing corner. -/
theorem c44_missing [HasSqrt K] {Y X : Nat} {lats lons : List (List (Fl K))} {type : CoordType} (f : List (List (Fl K))) (m : Pt K)
    (h : ∀ y x, y + 1 < Y → x + 1 < X → CellContains lats lons y x m → ∃ i j v, (i = y ∨ i = y + 1) ∧ (j = x ∨ j = x + 1) ∧
      cell? f i j = some v ∧ v.isValid = false) : NoBox Y X lats lons type f (fin m.lat) (fin m.lon) := by
  rintro ⟨a, o⟩ c y x A B C D vA vB vC vD h1 h2 - hn hcc hin hval ⟨i1, i2, i3, i4⟩
  cases h1; cases h2
  obtain ⟨i, j, v, hi, hj, hv, hinv⟩ := h y x hn.1 hn.2.1 ⟨A, B, C, D, hcc.1, hcc.2.1, hcc.2.2.1, hcc.2.2.2, hin⟩
  obtain ⟨e1, e2, e3, e4⟩ := hval
  rcases hi with rfl | rfl <;> rcases hj with rfl | rfl
  · rw [e1] at hv; cases hv; rw [i1] at hinv; cases hinv
  · rw [e4] at hv; cases hv; rw [i4] at hinv; cases hinv
  · rw [e2] at hv; cases hv; rw [i2] at hinv; cases hinv
  · rw [e3] at hv; cases hv; rw [i3] at hinv; cases hinv

/-- **C44** (errors): fields that do not have the shape of the grid are refused by all four overloads. -/
theorem c44_size [HasSqrt K] (T : RTree K) {ig og : Grid K} {op : Points K} {Y X : Nat} {lats lons : List (List (Fl K))} {type : CoordType}
    (hi : BuiltGrid ig Y X lats lons type) (nY nX : Nat) (hn : 0 < nY) (hne : (nY, nX) ≠ (Y, X)) :
    (∀ f : List (List (Fl K)), Rect nY nX f →
      bilinearGG2 T ig og f = .throw .invalidArgument ∧ bilinearGP2 T ig op f = .throw .invalidArgument) ∧
    (∀ fs : List (List (List (Fl K))), fs ≠ [] → (∀ f ∈ fs, Rect nY nX f) →
      bilinearGG3 T ig og fs = .throw .invalidArgument ∧ bilinearGP3 T ig op fs = .throw .invalidArgument) := by
  have hw := hi.wf.1
  have h2 : ∀ f : List (List (Fl K)), Rect nY nX f → compatibleSizeG2 ig f = ok false := by
    intro f hf
    cases f with
    | nil => have := hf.1; simp at this; omega
    | cons r t =>
      have h1 := hf.1
      have h2 := hf.2 r (by simp)
      simp only [compatibleSizeG2, hw.size, ok_bind]
      rw [← h1, ← h2] at hne
      simp only [ne_eq, Prod.mk.injEq] at hne
      congr 1
      rw [← Bool.decide_and, decide_eq_false]
      rintro ⟨a, b⟩
      exact hne ⟨a.symm, b.symm⟩
  have h3 : ∀ fs : List (List (List (Fl K))), fs ≠ [] → (∀ f ∈ fs, Rect nY nX f) → compatibleSizeG3 ig fs = ok false := by
    intro fs hfs hR
    cases fs with
    | nil => exact absurd rfl hfs
    | cons ft t =>
      have hf := hR ft (by simp)
      cases ft with
      | nil => have := hf.1; simp at this; omega
      | cons r t =>
        have h1 := hf.1
        have h2 := hf.2 r (by simp)
        simp only [compatibleSizeG3, hw.size, ok_bind]
        rw [← h1, ← h2] at hne
        simp only [ne_eq, Prod.mk.injEq] at hne
        congr 1
        rw [← Bool.decide_and, decide_eq_false]
        rintro ⟨a, b⟩
        exact hne ⟨a.symm, b.symm⟩
  refine ⟨fun f hf => ⟨?_, ?_⟩, fun fs hf hR => ⟨?_, ?_⟩⟩
  · unfold bilinearGG2; rw [h2 f hf]; rfl
  · unfold bilinearGP2; rw [h2 f hf]; rfl
  · unfold bilinearGG3; rw [h3 fs hf hR]; rfl
  · unfold bilinearGP3; rw [h3 fs hf hR]; rfl

/-- **C73**, end to end: four grid points, rows from north to south, the southern row wider; the call for the location in
the middle aborts the process. With the same rows from south to north it returns the interpolated value 2. -/
theorem c73_abort_counterexample :
    (do let g ← Grid.new [[fin (1 : ℚ), fin 1], [fin 0, fin 0]] [[fin (-1), fin 1], [fin (-2), fin 2]] [] [] .cartesian
        let p ← Points.new [fin (1 / 2)] [fin 0] [] [] .cartesian
        bilinearGP2 RTree.scan g p [[fin 0, fin 0], [fin 4, fin 4]]) = abort ∧
    (do let g ← Grid.new [[fin (0 : ℚ), fin 0], [fin 1, fin 1]] [[fin (-2), fin 2], [fin (-1), fin 1]] [] [] .cartesian
        let p ← Points.new [fin (1 / 2)] [fin 0] [] [] .cartesian
        bilinearGP2 RTree.scan g p [[fin 4, fin 4], [fin 0, fin 0]]) = ok [fin 2] := by decide +kernel

/-- **C44** is false for Cartesian grids in metres: `bilinear` aborts the process for a location outside the grid, where
`nearest` gives a value (see C17). -/
theorem c44_cartesian_counterexample :
    (do let g ← Grid.new [[fin (0 : ℚ), fin 0], [fin 1000, fin 1000]] [[fin 0, fin 1000], [fin 0, fin 1000]] [] [] .cartesian
        let p ← Points.new [fin 1200] [fin 0] [] [] .cartesian
        bilinearGP2 RTree.scan g p [[fin 1, fin 2], [fin 3, fin 4]]) = abort ∧
    (do let g ← Grid.new [[fin (0 : ℚ), fin 0], [fin 1000, fin 1000]] [[fin 0, fin 1000], [fin 0, fin 1000]] [] [] .cartesian
        let p ← Points.new [fin 1200] [fin 0] [] [] .cartesian
        nearestGP2 RTree.scan g p [[fin 1, fin 2], [fin 3, fin 4]]) = ok [fin 3] := by decide +kernel

/-- **C44**: an empty field for a grid with cells passes the check of the sizes and is read out of range. -/
theorem c44_empty_values_counterexample :
    (do let g ← Grid.new [[fin (0 : ℚ)]] [[fin 0]] [] [] .cartesian
        bilinearGG2 RTree.scan g g []) = ub := by decide +kernel

/-- Inside, on a side, outside, and next to a missing corner. -/
example : (do let g ← Grid.new [[fin (0 : ℚ), fin 0, fin 0], [fin 1, fin 1, fin 1]] [[fin 0, fin 1, fin 2], [fin 0, fin 1, fin 2]] [] [] .cartesian
              let p ← Points.new [fin (1 / 4), fin (1 / 4), fin (-1), fin (1 / 4)] [fin (1 / 2), fin 0, fin 0, fin (7 / 4)] [] [] .cartesian
              bilinearGP2 RTree.scan g p [[fin 0, fin 4, fin 8], [fin 16, fin 20, nan]]) = ok [fin 6, fin 4, fin 0, fin 8] := by decide +kernel

/-- The hypotheses of `c73_grid_partial`, `c43_grid` and `c44_grid_partial` hold for a trapezoid. -/
example : ∃ g : Grid ℚ, BuiltGrid g 2 2 [[fin 0, fin 0], [fin 1, fin 1]] [[fin (-2), fin 2], [fin (-1), fin 1]] .cartesian ∧
    (∀ y x la, cell? [[fin (0 : ℚ), fin 0], [fin 1, fin 1]] y x = some la → BoxLat .cartesian [[fin (0 : ℚ), fin 0], [fin 1, fin 1]] la) ∧
    (∀ y x A B C D, CellCorners [[fin (0 : ℚ), fin 0], [fin 1, fin 1]] [[fin (-2), fin 2], [fin (-1), fin 1]] y x A B C D → ConvexCell A B C D ∧
      (¬ NearlyParallelogram A B C D ∨ (C.lon = B.lon + D.lon - A.lon ∧ C.lat = B.lat + D.lat - A.lat))) := by
  obtain ⟨g, hg⟩ : ∃ g, Grid.new [[fin (0 : ℚ), fin 0], [fin 1, fin 1]] [[fin (-2), fin 2], [fin (-1), fin 1]] [] [] .cartesian = ok g := ⟨_, rfl⟩
  have hlt : ∀ (l : List (List (Fl ℚ))) y x v, Rect 2 2 l → cell? l y x = some v → y < 2 ∧ x < 2 := fun l y x v hr h => cell?_lt hr h
  have hr1 : Rect 2 2 [[fin (0 : ℚ), fin 0], [fin 1, fin 1]] := ⟨rfl, by simp⟩
  have hr2 : Rect 2 2 [[fin (-2 : ℚ), fin 2], [fin (-1), fin 1]] := ⟨rfl, by simp⟩
  have hlat : ∀ y x v, cell? [[fin (0 : ℚ), fin 0], [fin 1, fin 1]] y x = some (fin v) → LatOk v := by
    intro y x v h
    obtain ⟨hy, hx⟩ := hlt _ _ _ _ hr1 h
    match y, x, hy, hx, h with
    | 0, 0, _, _, h => cases h; norm_num [LatOk]
    | 0, 1, _, _, h => cases h; norm_num [LatOk]
    | 1, 0, _, _, h => cases h; norm_num [LatOk]
    | 1, 1, _, _, h => cases h; norm_num [LatOk]
  refine ⟨g, ⟨by omega, by omega, hr1, hr2, [], [], Or.inl rfl, Or.inl rfl, hg⟩, fun y x la h _ => ⟨hlat, ?_⟩, ?_⟩
  · rintro v rfl; exact hlat y x v h
  · rintro y x ⟨_, _⟩ ⟨_, _⟩ ⟨_, _⟩ ⟨_, _⟩ ⟨⟨hA, hA'⟩, ⟨hB, hB'⟩, ⟨hC, hC'⟩, hD, hD'⟩
    obtain ⟨hy, hx⟩ := hlt _ _ _ _ hr1 hC
    obtain rfl : y = 0 := by omega
    obtain rfl : x = 0 := by omega
    cases hA; cases hA'; cases hB; cases hB'; cases hC; cases hC'; cases hD; cases hD'
    refine ⟨by norm_num [ConvexCell, cross], Or.inl ?_⟩
    norm_num [NearlyParallelogram, crossV]

end Gridpp.Props
