import Verif.Lemmas.Nearest

/-! # C20: nearest-neighbour interpolation

`TakesCell lats lons type f la lo v`: some cell of the input grid nearest to the location (la, lo) has value `v`.
`TakesPoint` is the same for input points. -/

set_option linter.unusedSectionVars false

namespace Gridpp.Props
open Fl Res

variable {K : Type} [Field K] [LinearOrder K] [IsStrictOrderedRing K] [HasGeo K]

/-- `v` is the value of `f` at a cell nearest to (la, lo). -/
def TakesCell [HasSqrt K] (lats lons : List (List (Fl K))) (type : CoordType) (f : List (List (Fl K))) (la lo v : Fl K) : Prop :=
  ∃ c, NearestCellTo lats lons type la lo c ∧ cell? f c.1 c.2 = some v

/-- `v` is the value of `f` at a point nearest to (la, lo). -/
def TakesPoint [HasSqrt K] (lats lons : List (Fl K)) (type : CoordType) (f : List (Fl K)) (la lo v : Fl K) : Prop :=
  ∃ i, NearestPointTo lats lons type la lo i ∧ f[i]? = some v

/-- The field `out` on the output grid consists of values satisfying `P la lo`. -/
def FieldSat (olats olons : List (List (Fl K))) (oY oX : Nat) (P : Fl K → Fl K → Fl K → Prop) (out : List (List (Fl K))) : Prop :=
  Rect oY oX out ∧ ∀ y < oY, ∀ x < oX, ∃ la lo v, cell? olats y x = some la ∧ cell? olons y x = some lo ∧
    cell? out y x = some v ∧ P la lo v

/-- The vector `out` on the output points consists of values satisfying `P la lo`. -/
def VecSat (olats olons : List (Fl K)) (P : Fl K → Fl K → Fl K → Prop) (out : List (Fl K)) : Prop :=
  out.length = olats.length ∧ ∀ i < olats.length, ∃ la lo v, olats[i]? = some la ∧ olons[i]? = some lo ∧
    out[i]? = some v ∧ P la lo v

/-- A parallel loop over the cells of a grid. -/
theorem grid_loop {α : Type} {og : Grid K} {oY oX : Nat} {olats olons : List (List (Fl K))} {otype : CoordType}
    (ho : BuiltGrid og oY oX olats olons otype) {f : Fl K → Fl K → Res α} {P : Fl K → Fl K → α → Prop}
    (h : ∀ y x la lo, cell? olats y x = some la → cell? olons y x = some lo → ∃ v, f la lo = ok v ∧ P la lo v) :
    ∃ out, grid2 oY oX (fun i j => do
      let la ← vget2 og.lats i j
      let lo ← vget2 og.lons i j
      f la lo) = ok out ∧ Rect oY oX out ∧ ∀ y < oY, ∀ x < oX, ∃ la lo v, cell? olats y x = some la ∧
        cell? olons y x = some lo ∧ cell? out y x = some v ∧ P la lo v := by
  obtain ⟨hw, rfl, rfl, rfl⟩ := ho.wf
  obtain ⟨out, h1, h2, h3⟩ := grid2_exists (Y := oY) (X := oX) (f := fun i j => do
      let la ← vget2 og.lats i j
      let lo ← vget2 og.lons i j
      f la lo) (P := fun y x v => ∃ la lo, cell? og.lats y x = some la ∧ cell? og.lons y x = some lo ∧ P la lo v) (by
    intro y hy x hx
    obtain ⟨la, a1, a2⟩ := vget2_of_rect hw.lats hy hx
    obtain ⟨lo, b1, b2⟩ := vget2_of_rect hw.lons hy hx
    obtain ⟨v, hv, hP⟩ := h y x la lo a1 b1
    exact ⟨v, by simp only [a2, b2, ok_bind, hv], la, lo, a1, b1, hP⟩)
  refine ⟨out, h1, h2, fun y hy x hx => ?_⟩
  obtain ⟨v, e1, -, la, lo, e2, e3, e4⟩ := h3 y hy x hx
  exact ⟨la, lo, v, e2, e3, e1, e4⟩

/-- A parallel loop over points. -/
theorem points_loop {α : Type} {op : Points K} {olats olons : List (Fl K)} {otype : CoordType}
    (ho : BuiltPoints op olats olons otype) {f : Fl K → Fl K → Res α} {P : Fl K → Fl K → α → Prop}
    (h : ∀ (i : Nat) la lo, olats[i]? = some la → olons[i]? = some lo → ∃ v, f la lo = ok v ∧ P la lo v) :
    ∃ out, mapM (fun i : Int => do
      let la ← vget op.lats i
      let lo ← vget op.lons i
      f la lo) (upto op.lats.length) = ok out ∧ out.length = olats.length ∧ ∀ i < olats.length, ∃ la lo v, olats[i]? = some la ∧
        olons[i]? = some lo ∧ out[i]? = some v ∧ P la lo v := by
  obtain ⟨rfl, rfl, -, -, -, -, hl⟩ := ho.wf
  obtain ⟨out, h1, h2, h3⟩ := mapM_upto_exists (n := op.lats.length) (f := fun i : Int => do
      let la ← vget op.lats i
      let lo ← vget op.lons i
      f la lo) (P := fun i v => ∃ la lo, op.lats[i]? = some la ∧ op.lons[i]? = some lo ∧ P la lo v) (by
    intro i hi
    have a1 : op.lats[i]? = some op.lats[i] := List.getElem?_eq_getElem hi
    have b1 : op.lons[i]? = some (op.lons[i]'(by omega)) := List.getElem?_eq_getElem _
    obtain ⟨v, hv, hP⟩ := h i _ _ a1 b1
    exact ⟨v, by simp only [vget_nat_eq_ok.mpr a1, vget_nat_eq_ok.mpr b1, ok_bind, hv], _, _, a1, b1, hP⟩)
  refine ⟨out, h1, h2, fun i hi => ?_⟩
  obtain ⟨v, e1, -, la, lo, e2, e3, e4⟩ := h3 i hi
  exact ⟨la, lo, v, e2, e3, e1, e4⟩

section overloads
variable {T : RTree K} (hT : T.Lawful) [LawfulSqrt K]
include hT

/-- **C20** (Grid → Grid, vec2). -/
theorem c20_grid_grid {ig og : Grid K} {Y X oY oX : Nat} {lats lons olats olons : List (List (Fl K))} {type otype : CoordType}
    (hi : BuiltGrid ig Y X lats lons type) (ho : BuiltGrid og oY oX olats olons otype) (hv : GridValidIn type olats olons)
    (f : List (List (Fl K))) (hf : Rect Y X f) :
    ∃ out, nearestGG2 T ig og f = ok out ∧ FieldSat olats olons oY oX (TakesCell lats lons type f) out := by
  have hw := hi.wf.1
  have how := ho.wf.1
  obtain ⟨r, hr, hrl⟩ := first_row how.lats how.hY
  obtain ⟨out, h1, h2, h3⟩ := grid_loop ho (f := fun la lo => do
      let c ← nearestCellChecked T ig la lo
      vget2 f c.1 c.2) (P := TakesCell lats lons type f) (by
    intro y x la lo a b
    obtain ⟨c, c1, c2, c3, c4⟩ := grid_nearest_to hT hi (hv y x la lo a b)
    obtain ⟨v, v1, v2⟩ := vget2_of_rect hf c2 c3
    refine ⟨v, ?_, c, c4, v1⟩
    unfold nearestCellChecked
    rw [c1]
    exact v2)
  refine ⟨out, ?_, h2, h3⟩
  unfold nearestGG2
  have := hw.hY
  have := hw.hX
  simp only [compatibleSizeG2_rect hw hf, hr, ok_bind, hw.size, how.lats.1, hrl, Bool.true_eq_false, if_false]
  rw [if_neg (by omega), h1]; rfl

/-- Time loop over fields. -/
theorem time_loop {ι : Type} {oY oX nT : Nat} {IJ : List (List ι)} (hIJ : Rect oY oX IJ) {rd : Int → ι → Res (Fl K)}
    {Q : Nat → ι → Fl K → Prop} (h : ∀ t < nT, ∀ y x c, cell? IJ y x = some c → ∃ v, rd (t : Int) c = ok v ∧ Q t c v) :
    ∃ out, mapM (fun t : Int => grid2 oY oX fun i j => do
        let c ← vget2 IJ i j
        rd t c) (upto nT) = ok out ∧ out.length = nT ∧ ∀ t < nT, ∃ ft, out[t]? = some ft ∧ Rect oY oX ft ∧
          ∀ y < oY, ∀ x < oX, ∃ c v, cell? IJ y x = some c ∧ cell? ft y x = some v ∧ Q t c v := by
  obtain ⟨out, h1, h2, h3⟩ := mapM_upto_exists (n := nT) (f := fun t : Int => grid2 oY oX fun i j => do
        let c ← vget2 IJ i j
        rd t c) (P := fun t ft => Rect oY oX ft ∧ ∀ y < oY, ∀ x < oX, ∃ c v, cell? IJ y x = some c ∧ cell? ft y x = some v ∧ Q t c v) (by
    intro t ht
    obtain ⟨out, k1, k2, k3⟩ := grid2_exists (Y := oY) (X := oX) (f := fun i j => do
        let c ← vget2 IJ i j
        rd t c) (P := fun y x v => ∃ c, cell? IJ y x = some c ∧ Q t c v) (by
      intro y hy x hx
      obtain ⟨c, c1, c2⟩ := vget2_of_rect hIJ hy hx
      obtain ⟨v, hv, hQ⟩ := h t ht y x c c1
      exact ⟨v, by simp only [c2, ok_bind, hv], c, c1, hQ⟩)
    refine ⟨out, k1, k2, fun y hy x hx => ?_⟩
    obtain ⟨v, e1, -, c, e2, e3⟩ := k3 y hy x hx
    exact ⟨c, v, e2, e1, e3⟩)
  refine ⟨out, h1, h2, fun t ht => ?_⟩
  obtain ⟨ft, e1, -, e2, e3⟩ := h3 t ht
  exact ⟨ft, e1, e2, e3⟩

/-- **C20** (Grid → Grid, vec3): for each time as for a single field. -/
theorem c20_grid_grid_time {ig og : Grid K} {Y X oY oX : Nat} {lats lons olats olons : List (List (Fl K))} {type otype : CoordType}
    (hi : BuiltGrid ig Y X lats lons type) (ho : BuiltGrid og oY oX olats olons otype) (hv : GridValidIn type olats olons)
    (f : List (List (List (Fl K)))) (hf : ∀ ft ∈ f, Rect Y X ft) :
    ∃ out, nearestGG3 T ig og f = ok out ∧ out.length = f.length ∧
      ∀ (t : Nat) ft, f[t]? = some ft → ∃ ot, out[t]? = some ot ∧ FieldSat olats olons oY oX (TakesCell lats lons type ft) ot := by
  have hw := hi.wf.1
  have how := ho.wf.1
  obtain ⟨r, hr, hrl⟩ := first_row how.lats how.hY
  obtain ⟨IJ, h1, h2, h3⟩ := grid_loop ho (f := nearestCell T ig) (P := fun la lo c => c.1 < Y ∧ c.2 < X ∧ NearestCellTo lats lons type la lo c) (by
    intro y x la lo a b
    obtain ⟨c, c1, c2, c3, c4⟩ := nearestCell_to hT hi (hv y x la lo a b)
    exact ⟨c, c1, c2, c3, c4⟩)
  obtain ⟨out, k1, k2, k3⟩ := time_loop hT (nT := f.length) h2 (rd := fun t c => do
      let ft ← vget f t
      vget2 ft c.1 c.2) (Q := fun t c v => ∃ ft, f[t]? = some ft ∧ cell? ft c.1 c.2 = some v) (by
    intro t ht y x c hc
    have ft1 : f[t]? = some f[t] := List.getElem?_eq_getElem ht
    obtain ⟨hy, hx⟩ := cell?_lt h2 hc
    obtain ⟨la, lo, c', -, -, e3, e4, e5, -⟩ := h3 y hy x hx
    rw [hc] at e3
    cases e3
    obtain ⟨v, v1, v2⟩ := vget2_of_rect (hf f[t] (List.getElem_mem ht)) e4 e5
    exact ⟨v, by simp only [vget_nat_eq_ok.mpr ft1, ok_bind, v2], f[t], ft1, v1⟩)
  refine ⟨out, ?_, k2, ?_⟩
  · unfold nearestGG3
    have := hw.hY
    have := hw.hX
    simp only [compatibleSizeG3_rect hw hf, hr, ok_bind, hw.size, how.lats.1, hrl, Bool.true_eq_false, if_false]
    rw [if_neg (by omega), h1]
    exact k1
  · intro t ft hft
    have ht : t < f.length := (List.getElem?_eq_some_iff.mp hft).1
    obtain ⟨ot, e1, e2, e3⟩ := k3 t ht
    refine ⟨ot, e1, e2, fun y hy x hx => ?_⟩
    obtain ⟨c, v, g1, g2, ft', g3, g4⟩ := e3 y hy x hx
    rw [hft] at g3
    cases g3
    obtain ⟨la, lo, c', d1, d2, d3, -, -, d4⟩ := h3 y hy x hx
    rw [g1] at d3
    cases d3
    exact ⟨la, lo, v, d1, d2, g2, c, d4, g4⟩

/-- **C20** (Points → Grid, vec). -/
theorem c20_points_grid {ip : Points K} {og : Grid K} {oY oX : Nat} {lats lons : List (Fl K)} {olats olons : List (List (Fl K))}
    {type otype : CoordType} (hi : BuiltPoints ip lats lons type) (hne : 0 < lats.length) (ho : BuiltGrid og oY oX olats olons otype)
    (hv : GridValidIn type olats olons) (f : List (Fl K)) (hf : f.length = lats.length) :
    ∃ out, nearestPG1 T ip og f = ok out ∧ FieldSat olats olons oY oX (TakesPoint lats lons type f) out := by
  have how := ho.wf.1
  have hsz : ip.size = lats.length := by unfold Points.size; rw [hi.wf.1]
  obtain ⟨r, hr, hrl⟩ := first_row how.lats how.hY
  obtain ⟨out, h1, h2, h3⟩ := grid_loop ho (f := fun la lo => do
      let index ← ip.getNearestNeighbour T la lo true
      vget f index) (P := TakesPoint lats lons type f) (by
    intro y x la lo a b
    obtain ⟨i, c1, c2, c3⟩ := points_nearest_to hT hi hne (hv y x la lo a b)
    refine ⟨f[i]'(by omega), ?_, i, c3, List.getElem?_eq_getElem _⟩
    rw [c1]
    exact vget_eq_ok_of_lt (by omega))
  refine ⟨out, ?_, h2, h3⟩
  unfold nearestPG1
  rw [if_neg (by omega)]
  simp only [hr, ok_bind, how.lats.1, hrl]
  rw [if_neg (by omega), h1]; rfl

theorem compatibleSizeP2_rect {ip : Points K} {nT : Nat} {f : List (List (Fl K))} (hf : Rect nT ip.size f) : compatibleSizeP2 ip f = true := by
  cases f with
  | nil => rfl
  | cons r t => have := hf.2 r (by simp); simp [compatibleSizeP2, this]

/-- **C20** (Points → Grid, vec2). -/
theorem c20_points_grid_time {ip : Points K} {og : Grid K} {oY oX : Nat} {lats lons : List (Fl K)} {olats olons : List (List (Fl K))}
    {type otype : CoordType} (hi : BuiltPoints ip lats lons type) (hne : 0 < lats.length) (ho : BuiltGrid og oY oX olats olons otype)
    (hv : GridValidIn type olats olons) (nT : Nat) (f : List (List (Fl K))) (hf : Rect nT lats.length f) :
    ∃ out, nearestPG2 T ip og f = ok out ∧ out.length = nT ∧
      ∀ (t : Nat) ft, f[t]? = some ft → ∃ ot, out[t]? = some ot ∧ FieldSat olats olons oY oX (TakesPoint lats lons type ft) ot := by
  have how := ho.wf.1
  have hsz : ip.size = lats.length := by unfold Points.size; rw [hi.wf.1]
  obtain ⟨r, hr, hrl⟩ := first_row how.lats how.hY
  obtain ⟨I, h1, h2, h3⟩ := grid_loop ho (f := fun la lo => ip.getNearestNeighbour T la lo true)
    (P := fun la lo i => ∃ n : Nat, i = (n : Int) ∧ n < lats.length ∧ NearestPointTo lats lons type la lo n) (by
    intro y x la lo a b
    obtain ⟨i, c1, c2, c3⟩ := points_nearest_to hT hi hne (hv y x la lo a b)
    exact ⟨i, c1, i, rfl, c2, c3⟩)
  obtain ⟨out, k1, k2, k3⟩ := time_loop hT (nT := f.length) h2 (rd := fun t i => vget2 f t i)
    (Q := fun t i v => ∃ n : Nat, i = (n : Int) ∧ cell? f t n = some v) (by
    intro t ht y x i hi'
    obtain ⟨hy, hx⟩ := cell?_lt h2 hi'
    obtain ⟨la, lo, c', -, -, e3, n, e4, e5, -⟩ := h3 y hy x hx
    rw [hi'] at e3
    cases e3
    subst e4
    obtain ⟨v, v1, v2⟩ := vget2_of_rect hf (hf.1 ▸ ht) e5
    exact ⟨v, v2, n, rfl, v1⟩)
  refine ⟨out, ?_, k2.trans hf.1, ?_⟩
  · unfold nearestPG2
    rw [if_neg (by rw [compatibleSizeP2_rect hT (ip := ip) (hsz ▸ hf)]; simp)]
    simp only [hr, ok_bind, how.lats.1, hrl]
    rw [if_neg (by omega), h1]
    exact k1
  · intro t ft hft
    have ht : t < f.length := (List.getElem?_eq_some_iff.mp hft).1
    obtain ⟨ot, e1, e2, e3⟩ := k3 t ht
    refine ⟨ot, e1, e2, fun y hy x hx => ?_⟩
    obtain ⟨i, v, g1, g2, n, rfl, g4⟩ := e3 y hy x hx
    obtain ⟨la, lo, c', d1, d2, d3, n', d4, -, d5⟩ := h3 y hy x hx
    rw [g1] at d3
    cases d3
    obtain rfl : n = n' := by omega
    refine ⟨la, lo, v, d1, d2, g2, n, d5, ?_⟩
    simpa [cell?, hft] using g4

/-- **C20** (Grid → Points, vec2). -/
theorem c20_grid_points {ig : Grid K} {op : Points K} {Y X : Nat} {lats lons : List (List (Fl K))} {olats olons : List (Fl K)}
    {type otype : CoordType} (hi : BuiltGrid ig Y X lats lons type) (ho : BuiltPoints op olats olons otype)
    (hv : PointsValidIn type olats olons) (f : List (List (Fl K))) (hf : Rect Y X f) :
    ∃ out, nearestGP2 T ig op f = ok out ∧ VecSat olats olons (TakesCell lats lons type f) out := by
  have hw := hi.wf.1
  obtain ⟨out, h1, h2, h3⟩ := points_loop ho (f := fun la lo => do
      let c ← nearestCell T ig la lo
      vget2 f c.1 c.2) (P := TakesCell lats lons type f) (by
    intro i la lo a b
    obtain ⟨c, c1, c2, c3, c4⟩ := nearestCell_to hT hi (hv i la lo a b)
    obtain ⟨v, v1, v2⟩ := vget2_of_rect hf c2 c3
    refine ⟨v, ?_, c, c4, v1⟩
    rw [c1]
    exact v2)
  refine ⟨out, ?_, h2, h3⟩
  unfold nearestGP2
  have := hw.hY
  have := hw.hX
  simp only [compatibleSizeG2_rect hw hf, ok_bind, hw.size, Bool.true_eq_false, if_false]
  rw [if_neg (by omega), h1]; rfl

/-- **C20** (Grid → Points, vec3). -/
theorem c20_grid_points_time {ig : Grid K} {op : Points K} {Y X : Nat} {lats lons : List (List (Fl K))} {olats olons : List (Fl K)}
    {type otype : CoordType} (hi : BuiltGrid ig Y X lats lons type) (ho : BuiltPoints op olats olons otype)
    (hv : PointsValidIn type olats olons) (f : List (List (List (Fl K)))) (hf : ∀ ft ∈ f, Rect Y X ft) :
    ∃ out, nearestGP3 T ig op f = ok out ∧ out.length = f.length ∧
      ∀ (t : Nat) ft, f[t]? = some ft → ∃ ot, out[t]? = some ot ∧ VecSat olats olons (TakesCell lats lons type ft) ot := by
  have hw := hi.wf.1
  have hol : op.lats.length = olats.length := by rw [ho.wf.1]
  obtain ⟨IJ, h1, h2, h3⟩ := points_loop ho (f := nearestCell T ig) (P := fun la lo c => c.1 < Y ∧ c.2 < X ∧ NearestCellTo lats lons type la lo c) (by
    intro i la lo a b
    obtain ⟨c, c1, c2, c3, c4⟩ := nearestCell_to hT hi (hv i la lo a b)
    exact ⟨c, c1, c2, c3, c4⟩)
  obtain ⟨out, k1, k2, k3⟩ := grid2_exists (Y := f.length) (X := olats.length) (f := fun t i => do
        let c ← vget IJ i
        let ft ← vget f t
        vget2 ft c.1 c.2)
      (P := fun t i v => ∃ ft c la lo, f[t]? = some ft ∧ cell? ft c.1 c.2 = some v ∧ olats[i]? = some la ∧ olons[i]? = some lo ∧ NearestCellTo lats lons type la lo c) (by
    intro t ht i hi'
    have ft1 : f[t]? = some f[t] := List.getElem?_eq_getElem ht
    obtain ⟨la, lo, c, e1, e2, e3, e4, e5, e6⟩ := h3 i hi'
    obtain ⟨v, v1, v2⟩ := vget2_of_rect (hf f[t] (List.getElem_mem ht)) e4 e5
    exact ⟨v, by simp only [vget_nat_eq_ok.mpr ft1, vget_nat_eq_ok.mpr e3, ok_bind, v2], f[t], c, la, lo, ft1, v1, e1, e2, e6⟩)
  refine ⟨out, ?_, k2.1, ?_⟩
  · unfold nearestGP3
    have := hw.hY
    have := hw.hX
    simp only [compatibleSizeG3_rect hw hf, ok_bind, hw.size, Bool.true_eq_false, if_false]
    rw [if_neg (by omega), h1, hol]
    exact k1
  · intro t ft hft
    have ht : t < f.length := (List.getElem?_eq_some_iff.mp hft).1
    have hto : t < out.length := by rw [k2.1]; exact ht
    refine ⟨out[t], List.getElem?_eq_getElem hto, k2.row_length hto, fun i hi' => ?_⟩
    obtain ⟨v, g1, -, ft', c, la, lo, g2, g3, g4, g5, g6⟩ := k3 t ht i hi'
    rw [hft] at g2
    cases g2
    refine ⟨la, lo, v, g4, g5, ?_, c, g6, g3⟩
    simpa [cell?, List.getElem?_eq_getElem hto] using g1

/-- **C20** (Points → Points, vec). -/
theorem c20_points_points {ip op : Points K} {lats lons olats olons : List (Fl K)} {type otype : CoordType}
    (hi : BuiltPoints ip lats lons type) (hne : 0 < lats.length) (ho : BuiltPoints op olats olons otype)
    (hv : PointsValidIn type olats olons) (f : List (Fl K)) (hf : f.length = lats.length) :
    ∃ out, nearestPP1 T ip op f = ok out ∧ VecSat olats olons (TakesPoint lats lons type f) out := by
  have hsz : ip.size = lats.length := by unfold Points.size; rw [hi.wf.1]
  obtain ⟨out, h1, h2, h3⟩ := points_loop ho (f := fun la lo => do
      let index ← ip.getNearestNeighbour T la lo true
      assert (decide (index ≠ -1))
      assert (decide (index < (f.length : Int)))
      vget f index) (P := TakesPoint lats lons type f) (by
    intro i la lo a b
    obtain ⟨n, c1, c2, c3⟩ := points_nearest_to hT hi hne (hv i la lo a b)
    refine ⟨f[n]'(by omega), ?_, n, c3, List.getElem?_eq_getElem _⟩
    have d1 : decide ((n : Int) ≠ -1) = true := decide_eq_true (by omega)
    have d2 : decide ((n : Int) < (f.length : Int)) = true := decide_eq_true (by omega)
    simp only [c1, ok_bind, d1, d2, assert_true]
    exact vget_eq_ok_of_lt (by omega))
  refine ⟨out, ?_, h2, h3⟩
  unfold nearestPP1
  rw [if_neg (by omega), if_neg (by omega), h1]; rfl

/-- **C20** (Points → Points, vec2). -/
theorem c20_points_points_time {ip op : Points K} {lats lons olats olons : List (Fl K)} {type otype : CoordType}
    (hi : BuiltPoints ip lats lons type) (hne : 0 < lats.length) (ho : BuiltPoints op olats olons otype)
    (hv : PointsValidIn type olats olons) (nT : Nat) (f : List (List (Fl K))) (hf : Rect nT lats.length f) :
    ∃ out, nearestPP2 T ip op f = ok out ∧ out.length = nT ∧
      ∀ (t : Nat) ft, f[t]? = some ft → ∃ ot, out[t]? = some ot ∧ VecSat olats olons (TakesPoint lats lons type ft) ot := by
  have hsz : ip.size = lats.length := by unfold Points.size; rw [hi.wf.1]
  have hol : op.lats.length = olats.length := by rw [ho.wf.1]
  obtain ⟨I, h1, h2, h3⟩ := points_loop ho (f := fun la lo => ip.getNearestNeighbour T la lo true)
    (P := fun la lo i => ∃ n : Nat, i = (n : Int) ∧ n < lats.length ∧ NearestPointTo lats lons type la lo n) (by
    intro k la lo a b
    obtain ⟨i, c1, c2, c3⟩ := points_nearest_to hT hi hne (hv k la lo a b)
    exact ⟨i, c1, i, rfl, c2, c3⟩)
  obtain ⟨out, k1, k2, k3⟩ := grid2_exists (Y := nT) (X := olats.length) (f := fun t i => do
        let index ← vget I i
        vget2 f t index)
      (P := fun t i v => ∃ n la lo, cell? f t n = some v ∧ olats[i]? = some la ∧ olons[i]? = some lo ∧ NearestPointTo lats lons type la lo n) (by
    intro t ht i hi'
    obtain ⟨la, lo, c, e1, e2, e3, n, rfl, e5, e6⟩ := h3 i hi'
    obtain ⟨v, v1, v2⟩ := vget2_of_rect hf ht e5
    exact ⟨v, by simp only [vget_nat_eq_ok.mpr e3, ok_bind, v2], n, la, lo, v1, e1, e2, e6⟩)
  refine ⟨out, ?_, k2.1, ?_⟩
  · unfold nearestPP2
    rw [if_neg (by rw [compatibleSizeP2_rect hT (ip := ip) (hsz ▸ hf)]; simp), if_neg (by omega), h1, hol, hf.1]
    exact k1
  · intro t ft hft
    have ht : t < nT := hf.1 ▸ (List.getElem?_eq_some_iff.mp hft).1
    have hto : t < out.length := by rw [k2.1]; exact ht
    refine ⟨out[t], List.getElem?_eq_getElem hto, k2.row_length hto, fun i hi' => ?_⟩
    obtain ⟨v, g1, -, n, la, lo, g2, g3, g4, g5⟩ := k3 t ht i hi'
    refine ⟨la, lo, v, g3, g4, ?_, n, g5, ?_⟩
    · simpa [cell?, List.getElem?_eq_getElem hto] using g1
    · simpa [cell?, hft] using g2

end overloads

/-- **C20** (sizes). Missing: empty values with a non-empty grid, see the counterexample below. Values that do not fit the input locations raise `invalid_argument` (first row decides for fields). -/
theorem c20_throws_partial {T : RTree K} {ig og : Grid K} {ip op : Points K} {Y X : Nat} {lats lons : List (List (Fl K))} {plats plons : List (Fl K)}
    {type ptype : CoordType} (hi : BuiltGrid ig Y X lats lons type) (hp : BuiltPoints ip plats plons ptype) :
    (∀ (nY nX : Nat) (f : List (List (Fl K))), 0 < nY → Rect nY nX f → (nY, nX) ≠ (Y, X) →
      nearestGG2 T ig og f = .throw .invalidArgument ∧ nearestGP2 T ig op f = .throw .invalidArgument) ∧
    (∀ (nY nX : Nat) (f : List (List (List (Fl K)))), 0 < nY → f ≠ [] → (∀ ft ∈ f, Rect nY nX ft) → (nY, nX) ≠ (Y, X) →
      nearestGG3 T ig og f = .throw .invalidArgument ∧ nearestGP3 T ig op f = .throw .invalidArgument) ∧
    (∀ f : List (Fl K), f.length ≠ plats.length →
      nearestPG1 T ip og f = .throw .invalidArgument ∧ nearestPP1 T ip op f = .throw .invalidArgument) ∧
    (∀ (nT n : Nat) (f : List (List (Fl K))), 0 < nT → Rect nT n f → n ≠ plats.length →
      nearestPG2 T ip og f = .throw .invalidArgument ∧ nearestPP2 T ip op f = .throw .invalidArgument) := by
  have hw := hi.wf.1
  have hsz : ip.size = plats.length := by unfold Points.size; rw [hp.wf.1]
  refine ⟨?_, ?_, ?_, ?_⟩
  · intro nY nX f hnY hf hne
    have hc : compatibleSizeG2 ig f = ok false := by
      cases f with
      | nil => have := hf.1; simp at this; omega
      | cons r t =>
        have h1 := hf.1
        have h2 := hf.2 r (by simp)
        simp only [compatibleSizeG2, hw.size, ok_bind]
        rw [← h1, ← h2] at hne
        simp only [ne_eq, Prod.mk.injEq] at hne
        congr 1
        rw [← Bool.decide_and, decide_eq_false]
        rintro ⟨a, b⟩
        exact hne ⟨a.symm, b.symm⟩
    constructor
    · unfold nearestGG2; rw [hc]; rfl
    · unfold nearestGP2; rw [hc]; rfl
  · intro nY nX f hnY hf hR hne
    have hc : compatibleSizeG3 ig f = ok false := by
      cases f with
      | nil => exact absurd rfl hf
      | cons ft t =>
        have hft := hR ft (by simp)
        cases ft with
        | nil => have := hft.1; simp at this; omega
        | cons r s =>
          have h1 := hft.1
          have h2 := hft.2 r (by simp)
          simp only [List.length_cons] at h1
          simp only [compatibleSizeG3, hw.size, ok_bind]
          rw [← h1, ← h2] at hne
          simp only [ne_eq, Prod.mk.injEq] at hne
          congr 1
          rw [← Bool.decide_and, decide_eq_false]
          rintro ⟨a, b⟩
          exact hne ⟨a.symm, b.symm⟩
    constructor
    · unfold nearestGG3; rw [hc]; rfl
    · unfold nearestGP3; rw [hc]; rfl
  · intro f hf
    constructor
    · unfold nearestPG1; rw [if_pos (by omega)]
    · unfold nearestPP1; rw [if_pos (by omega)]
  · intro nT n f hnT hf hne
    have hc : compatibleSizeP2 ip f = false := by
      cases f with
      | nil => have := hf.1; simp at this; omega
      | cons r t =>
        have h2 := hf.2 r (by simp)
        simp only [compatibleSizeP2]
        rw [decide_eq_false]; omega
    constructor
    · unfold nearestPG2; rw [if_pos hc]
    · unfold nearestPP2; rw [if_pos hc]

/-- **C20** (empty input). With no input locations every output value is missing. -/
theorem c20_empty {T : RTree K} {og : Grid K} {op : Points K} {oY oX : Nat} {olats olons : List (List (Fl K))} {otype : CoordType}
    (ho : BuiltGrid og oY oX olats olons otype) {ig : Grid K} (hig : Grid.new [] [] [] [] .geodetic = ok ig)
    {ip : Points K} {ptype : CoordType} (hip : BuiltPoints ip [] [] ptype) :
    nearestGG2 T ig og [] = ok (initVec2 oY oX nan) ∧ nearestGG3 T ig og [] = ok [] ∧
    nearestPG1 T ip og [] = ok (initVec2 oY oX nan) ∧
    (∀ nT, nearestPG2 T ip og (List.replicate nT []) = ok (List.replicate nT (initVec2 oY oX nan))) ∧
    nearestGP2 T ig op [] = ok (List.replicate op.size nan) ∧ nearestGP3 T ig op [] = ok [] ∧
    nearestPP1 T ip op [] = ok (List.replicate op.size nan) ∧
    (∀ nT, nearestPP2 T ip op (List.replicate nT []) = ok (initVec2 nT op.size nan)) := by
  have how := ho.wf.1
  obtain ⟨r, hr, hrl⟩ := first_row how.lats how.hY
  cases hig
  have hsz : ip.size = 0 := by unfold Points.size; rw [hip.wf.1]; rfl
  have hgs : (⟨[], [], [], [], 0, KDTree.empty .geodetic⟩ : Grid K).size = ok (0, 0) := rfl
  have hc : ∀ nT, compatibleSizeP2 ip (List.replicate nT ([] : List (Fl K))) = true := by
    intro nT
    cases nT with
    | zero => rfl
    | succ n => simp [compatibleSizeP2, List.replicate_succ, hsz]
  refine ⟨?_, ?_, ?_, ?_, ?_, ?_, ?_, ?_⟩
  · simp [nearestGG2, compatibleSizeG2, hr, hgs, how.lats.1, hrl, MV]
  · simp [nearestGG3, compatibleSizeG3, hr, hgs, how.lats.1, initVec3]
  · simp [nearestPG1, hsz, hr, how.lats.1, hrl, MV]
  · intro nT; simp [nearestPG2, hc, hsz, hr, how.lats.1, hrl, initVec3, MV]
  · simp [nearestGP2, compatibleSizeG2, hgs, MV, Points.size]
  · simp [nearestGP3, compatibleSizeG3, hgs, initVec2]
  · unfold nearestPP1; rw [if_neg (by rw [hsz]; simp), if_pos hsz]; rfl
  · intro nT; unfold nearestPP2; rw [if_neg (by rw [hc]; simp), if_pos hsz, List.length_replicate]; rfl

/-- A location that coincides with exactly one cell has only that nearest cell. -/
theorem nearest_self [LawfulSqrt K] {lats lons : List (List (Fl K))} {type : CoordType} {p : Pt3 K} {c c' : Nat × Nat}
    (hc : CellAt lats lons type c p) (hn : NearestCell lats lons type p c')
    (hd : ∀ a b q, CellAt lats lons type a q → CellAt lats lons type b q → a = b) : c' = c := by
  obtain ⟨q, h1, h2⟩ := hn
  have := h2 c p hc
  have h0 : straightDistance p p = 0 := by
    by_contra h
    have hp : 0 < straightDistance p p := lt_of_le_of_ne (straightDistance_nonneg _ _) (Ne.symm h)
    exact absurd rfl (straightDistance_pos.mp hp)
  rw [h0] at this
  have hq : q = p := by
    by_contra hne
    exact absurd (straightDistance_pos.mpr hne) (not_lt.mpr this)
  subst hq
  exact hd _ _ _ h1 hc

/-- **C20** (identity, all overloads). At a location that coincides with one cell of the input only, the value taken is
the value of that cell. -/
theorem c20_takes_self [LawfulSqrt K] {lats lons : List (List (Fl K))} {type : CoordType} {c : Nat × Nat} {la lo v : Fl K}
    {f : List (List (Fl K))} (h1 : cell? lats c.1 c.2 = some la) (h2 : cell? lons c.1 c.2 = some lo)
    (hd : ∀ a b q, CellAt lats lons type a q → CellAt lats lons type b q → a = b) (h : TakesCell lats lons type f la lo v) :
    cell? f c.1 c.2 = some v := by
  obtain ⟨c', ⟨p, hp, hn⟩, e⟩ := h
  rw [← nearest_self ⟨la, lo, h1, h2, hp⟩ hn hd]
  exact e

/-- **C20** (identity). Interpolating to the input grid itself, when no two of its cells coincide, returns the values. -/
theorem c20_identity {T : RTree K} (hT : T.Lawful) [LawfulSqrt K] {ig og : Grid K} {Y X : Nat} {lats lons : List (List (Fl K))} {type : CoordType}
    (hi : BuiltGrid ig Y X lats lons type) (ho : BuiltGrid og Y X lats lons type)
    (hd : ∀ a b q, CellAt lats lons type a q → CellAt lats lons type b q → a = b)
    (f : List (List (Fl K))) (hf : Rect Y X f) : nearestGG2 T ig og f = ok f := by
  obtain ⟨out, h1, h2, h3⟩ := c20_grid_grid hT hi ho ho.validIn f hf
  rw [h1]
  congr 1
  refine Rect.ext h2 hf fun y hy x hx => ?_
  obtain ⟨la, lo, v, e1, e2, e3, c, ⟨p, hp, hn⟩, e4⟩ := h3 y hy x hx
  have : c = (y, x) := nearest_self ⟨la, lo, e1, e2, hp⟩ hn hd
  subst this
  rw [e3, e4]

/-- **C20** (identity, points). -/
theorem c20_identity_points {T : RTree K} (hT : T.Lawful) [LawfulSqrt K] {ip op : Points K} {lats lons : List (Fl K)} {type : CoordType}
    (hi : BuiltPoints ip lats lons type) (ho : BuiltPoints op lats lons type)
    (hd : ∀ a b q, Located lats lons type a q → Located lats lons type b q → a = b)
    (f : List (Fl K)) (hf : f.length = lats.length) (hne : 0 < lats.length) : nearestPP1 T ip op f = ok f := by
  obtain ⟨out, h1, h2, h3⟩ := c20_points_points hT hi hne ho ho.validIn f hf
  rw [h1]
  congr 1
  refine List.ext_getElem? fun i => ?_
  by_cases hi' : i < lats.length
  · obtain ⟨la, lo, v, e1, e2, e3, n, ⟨p, hp, q, hq1, hq2⟩, e4⟩ := h3 i hi'
    have hself : Located lats lons type i p := ⟨la, lo, e1, e2, hp⟩
    have hle := hq2 i p hself
    have h0 : straightDistance p p = 0 := by
      by_contra h
      have hp' : 0 < straightDistance p p := lt_of_le_of_ne (straightDistance_nonneg _ _) (Ne.symm h)
      exact absurd rfl (straightDistance_pos.mp hp')
    rw [h0] at hle
    have hqp : q = p := by
      by_contra hne
      exact absurd (straightDistance_pos.mpr hne) (not_lt.mpr hle)
    subst hqp
    have := hd _ _ _ hq1 hself
    subst this
    rw [e3, e4]
  · rw [List.getElem?_eq_none (by omega), List.getElem?_eq_none (by omega)]

/-- **C20** is false in one case: values that are empty pass the size check for a non-empty grid, and then element (I,J) of
the empty field is read. -/
theorem c20_empty_values_counterexample :
    (do let g ← Grid.new [[fin (0 : ℚ)]] [[fin 0]] [] [] .geodetic
        nearestGG2 RTree.scan g g []) = ub ∧
    (do let g ← Grid.new [[fin (0 : ℚ)]] [[fin 0]] [] [] .geodetic
        nearestGG3 RTree.scan g g [[]]) = ub := by decide +kernel

/-- An empty output grid is read out of range (`iOutputLats[0]`). -/
theorem c20_empty_output_reads_outside {T : RTree K} {ig : Grid K} {Y X : Nat} {lats lons : List (List (Fl K))} {type : CoordType}
    (hi : BuiltGrid ig Y X lats lons type) (f : List (List (Fl K))) (hf : Rect Y X f) {og : Grid K}
    (ho : Grid.new [] [] [] [] .geodetic = ok og) : nearestGG2 T ig og f = ub := by
  cases ho
  unfold nearestGG2
  rw [compatibleSizeG2_rect hi.wf.1 hf]; rfl

/-- Non-vacuity: two cells, three output points, one exactly between the cells' quarter points. -/
example : (do let g ← Grid.new [[fin (0 : ℚ), fin 0]] [[fin 0, fin 10]] [] [] .cartesian
              let p ← Points.new [fin 1, fin 2, fin 3] [fin 4, fin 6, fin 11] [] [] .cartesian
              nearestGP2 RTree.scan g p [[fin 7, fin 8]]) = ok [fin 7, fin 8, fin 8] := by decide +kernel

example : ∃ g : Grid ℚ, BuiltGrid g 1 2 [[fin 0, fin 0]] [[fin 0, fin 10]] .cartesian ∧ GridValidIn .cartesian [[fin (0 : ℚ), fin 0]] [[fin 0, fin 10]] := by
  have h : ∃ g : Grid ℚ, BuiltGrid g 1 2 [[fin 0, fin 0]] [[fin 0, fin 10]] .cartesian := by
    have : ∃ g, Grid.new [[fin (0 : ℚ), fin 0]] [[fin 0, fin 10]] [] [] .cartesian = ok g := ⟨_, rfl⟩
    obtain ⟨g, hg⟩ := this
    exact ⟨g, by omega, by omega, ⟨rfl, by simp⟩, ⟨rfl, by simp⟩, [], [], Or.inl rfl, Or.inl rfl, hg⟩
  obtain ⟨g, hg⟩ := h
  exact ⟨g, hg, hg.validIn⟩

end Gridpp.Props
