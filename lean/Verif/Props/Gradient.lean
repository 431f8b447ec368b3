import Verif.Lemmas.Gradient

/-! Properties C45 and C46: `simple_gradient` and `full_gradient`. -/

set_option linter.unusedSectionVars false

namespace Gridpp.Props
open Fl Res

variable {K : Type} [Field K] [LinearOrder K] [IsStrictOrderedRing K] [HasGeo K]

/-- Every value of `out` is the downscaled value plus `g` times (output elevation minus downscaled elevation). -/
def AddsGradient (Y X : Nat) (dv de oe : List (List (Fl K))) (g : Fl K) (out : List (List (Fl K))) : Prop :=
  Rect Y X out ∧ ∀ y < Y, ∀ x < X, ∃ v i o, cell? dv y x = some v ∧ cell? de y x = some i ∧ cell? oe y x = some o ∧
    cell? out y x = some (v + (o - i) * g)

/-- The same for points. -/
def AddsGradientVec (n : Nat) (dv de oe : List (Fl K)) (g : Fl K) (out : List (Fl K)) : Prop :=
  out.length = n ∧ ∀ k < n, ∃ v i o, dv[k]? = some v ∧ de[k]? = some i ∧ oe[k]? = some o ∧ out[k]? = some (v + (o - i) * g)

theorem AddsGradient.unique {Y X : Nat} {dv de oe a b : List (List (Fl K))} {g : Fl K} (ha : AddsGradient Y X dv de oe g a)
    (hb : AddsGradient Y X dv de oe g b) : a = b := by
  refine Rect.ext ha.1 hb.1 fun y hy x hx => ?_
  obtain ⟨v, i, o, h1, h2, h3, h4⟩ := ha.2 y hy x hx
  obtain ⟨v', i', o', h1', h2', h3', h4'⟩ := hb.2 y hy x hx
  rw [h1] at h1'; rw [h2] at h2'; rw [h3] at h3'
  cases h1'; cases h2'; cases h3'
  rw [h4, h4']

theorem AddsGradientVec.unique {n : Nat} {dv de oe a b : List (Fl K)} {g : Fl K} (ha : AddsGradientVec n dv de oe g a)
    (hb : AddsGradientVec n dv de oe g b) : a = b := by
  apply List.ext_getElem?
  intro k
  have := ha.1
  have := hb.1
  by_cases hk : k < n
  · obtain ⟨v, i, o, h1, h2, h3, h4⟩ := ha.2 k hk
    obtain ⟨v', i', o', h1', h2', h3', h4'⟩ := hb.2 k hk
    rw [h1] at h1'; rw [h2] at h2'; rw [h3] at h3'
    cases h1'; cases h2'; cases h3'
    rw [h4, h4']
  · rw [List.getElem?_eq_none (by omega), List.getElem?_eq_none (by omega)]

theorem add_zero_fl (v : Fl K) : v + 0 = v := by
  cases v with
  | fin a => show fin (a + 0) = fin a; rw [add_zero]
  | _ => rfl

/-- **C45** (plain downscaling): where the gradient is zero and both elevations are valid, or the gradient is finite and
the elevations are equal and valid, the value is the downscaled one. -/
theorem c45_plain (v : Fl K) (i o g : K) (h : g = 0 ∨ o = i) : v + (fin o - fin i) * fin g = v := by
  have : (fin o - fin i) * fin g = (0 : Fl K) := by
    rw [fin_sub, fin_mul]
    rcases h with rfl | rfl
    · rw [mul_zero]; rfl
    · rw [sub_self, zero_mul]; rfl
  rw [this, add_zero_fl]

section
variable {T : RTree K} [HasSqrt K] {d : Downscaler}

/-- **C45** (Grid → Grid): `simple_gradient` succeeds exactly if the values and the elevations can be downscaled, and adds
the gradient times the difference of the elevations to the downscaled values. -/
theorem c45_grid {ig og : Grid K} {Y X oY oX : Nat} {lats lons olats olons : List (List (Fl K))} {type otype : CoordType}
    (hi : BuiltGrid ig Y X lats lons type) (ho : BuiltGrid og oY oX olats olons otype) (f : List (List (Fl K))) (hf : Rect Y X f)
    (g : Fl K) (out : List (List (Fl K))) :
    simpleGradientGG2 T d ig og f g = ok out ↔
      ∃ dv de, downscalingGG2 T d ig og f = ok dv ∧ downscalingGG2 T d ig og ig.elevs = ok de ∧
        AddsGradient oY oX dv de og.elevs g out := by
  have hw := hi.wf.1
  have how := ho.wf.1
  unfold simpleGradientGG2
  rw [compatibleSizeG2_rect hw hf, ok_bind, if_neg (by simp), how.size, ok_bind]
  have key : ∀ dv de, Rect oY oX dv → Rect oY oX de → ∃ o, grid2 oY oX (fun i j => do
      let oe ← vget2 og.elevs i j
      let de ← vget2 de i j
      let dv ← vget2 dv i j
      ok (dv + (oe - de) * g)) = ok o ∧ AddsGradient oY oX dv de og.elevs g o := by
    intro dv de h1 h2
    obtain ⟨o, e1, e2, e3⟩ := grid2_exists (Y := oY) (X := oX) (f := fun i j => do
      let oe ← vget2 og.elevs i j
      let de ← vget2 de i j
      let dv ← vget2 dv i j
      ok (dv + (oe - de) * g)) (P := fun y x w => ∃ v i o, cell? dv y x = some v ∧ cell? de y x = some i ∧ cell? og.elevs y x = some o ∧
        w = v + (o - i) * g) (by
      intro y hy x hx
      obtain ⟨v, a1, a2⟩ := vget2_of_rect h1 hy hx
      obtain ⟨i, b1, b2⟩ := vget2_of_rect h2 hy hx
      obtain ⟨o, c1, c2⟩ := vget2_of_rect how.elevs hy hx
      exact ⟨_, by simp only [a2, b2, c2, ok_bind], v, i, o, a1, b1, c1, rfl⟩)
    refine ⟨o, e1, e2, fun y hy x hx => ?_⟩
    obtain ⟨w, w1, -, v, i, o, a1, a2, a3, rfl⟩ := e3 y hy x hx
    exact ⟨v, i, o, a1, a2, a3, w1⟩
  constructor
  · intro h
    obtain ⟨dv, h1, h⟩ := bind_eq_ok.mp h
    obtain ⟨de, h2, h⟩ := bind_eq_ok.mp h
    obtain ⟨o, o1, o2⟩ := key dv de ((downscalingGG2_ok_iff hi ho hf dv).mp h1).1 ((downscalingGG2_ok_iff hi ho hw.elevs de).mp h2).1
    simp only [o1] at h
    cases h
    exact ⟨dv, de, h1, h2, o2⟩
  · rintro ⟨dv, de, h1, h2, h3⟩
    obtain ⟨o, o1, o2⟩ := key dv de ((downscalingGG2_ok_iff hi ho hf dv).mp h1).1 ((downscalingGG2_ok_iff hi ho hw.elevs de).mp h2).1
    rw [h1, ok_bind, h2, ok_bind, h3.unique o2]
    exact o1

theorem BuiltPoints.meta {p : Points K} {lats lons : List (Fl K)} {type : CoordType} (h : BuiltPoints p lats lons type) :
    p.elevs.length = lats.length ∧ p.lafs.length = lats.length ∧ p.size = lats.length := by
  obtain ⟨e, l, hp⟩ := h
  obtain ⟨p1, p2, p3, p4, -⟩ := Points.new_ok hp
  exact ⟨p3, p4, by unfold Points.size; rw [p1]⟩

theorem vget_of_lt {α : Type} {l : List α} {n : Nat} (hl : l.length = n) {k : Nat} (hk : k < n) : ∃ v, l[k]? = some v ∧ vget l (k : Int) = ok v :=
  ⟨l[k]'(by omega), List.getElem?_eq_getElem _, vget_nat_eq_ok.mpr (List.getElem?_eq_getElem _)⟩

theorem downscalingGP2_length {ig : Grid K} {op : Points K} {Y X : Nat} {lats lons : List (List (Fl K))} {olats olons : List (Fl K)}
    {type otype : CoordType} (hi : BuiltGrid ig Y X lats lons type) (ho : BuiltPoints op olats olons otype) {f : List (List (Fl K))} (hf : Rect Y X f)
    {dv : List (Fl K)} (h : downscalingGP2 T d ig op f = ok dv) : dv.length = olats.length := by
  have hd : d ≠ .other := by
    rintro rfl
    unfold downscalingGP2 at h
    rw [compatibleSizeG2_rect hi.wf.1 hf, ok_bind, if_neg (by simp)] at h
    cases h
  exact ((downscalingGP2_ok_iff hi ho hf hd dv).mp h).1

/-- **C45** (Grid → Points). -/
theorem c45_points {ig : Grid K} {op : Points K} {Y X : Nat} {lats lons : List (List (Fl K))} {olats olons : List (Fl K)}
    {type otype : CoordType} (hi : BuiltGrid ig Y X lats lons type) (ho : BuiltPoints op olats olons otype) (f : List (List (Fl K))) (hf : Rect Y X f)
    (g : Fl K) (out : List (Fl K)) :
    simpleGradientGP2 T d ig op f g = ok out ↔
      ∃ dv de, downscalingGP2 T d ig op f = ok dv ∧ downscalingGP2 T d ig op ig.elevs = ok de ∧
        AddsGradientVec olats.length dv de op.elevs g out := by
  have hw := hi.wf.1
  obtain ⟨m1, m2, m3⟩ := ho.meta
  unfold simpleGradientGP2
  rw [compatibleSizeG2_rect hw hf, ok_bind, if_neg (by simp), m3]
  have key : ∀ dv de : List (Fl K), dv.length = olats.length → de.length = olats.length → ∃ o, mapM (fun i : Int => do
      let oe ← vget op.elevs i
      let de ← vget de i
      let dv ← vget dv i
      ok (dv + (oe - de) * g)) (upto olats.length) = ok o ∧ AddsGradientVec olats.length dv de op.elevs g o := by
    intro dv de h1 h2
    obtain ⟨o, e1, e2, e3⟩ := mapM_upto_exists (n := olats.length) (f := fun i : Int => do
      let oe ← vget op.elevs i
      let de ← vget de i
      let dv ← vget dv i
      ok (dv + (oe - de) * g)) (P := fun k w => ∃ v i o, dv[k]? = some v ∧ de[k]? = some i ∧ op.elevs[k]? = some o ∧
        w = v + (o - i) * g) (by
      intro k hk
      obtain ⟨v, a1, a2⟩ := vget_of_lt h1 hk
      obtain ⟨i, b1, b2⟩ := vget_of_lt h2 hk
      obtain ⟨o, c1, c2⟩ := vget_of_lt m1 hk
      exact ⟨_, by simp only [a2, b2, c2, ok_bind], v, i, o, a1, b1, c1, rfl⟩)
    refine ⟨o, e1, e2, fun k hk => ?_⟩
    obtain ⟨w, w1, -, v, i, o, a1, a2, a3, rfl⟩ := e3 k hk
    exact ⟨v, i, o, a1, a2, a3, w1⟩
  constructor
  · intro h
    obtain ⟨dv, h1, h⟩ := bind_eq_ok.mp h
    obtain ⟨de, h2, h⟩ := bind_eq_ok.mp h
    obtain ⟨o, o1, o2⟩ := key dv de (downscalingGP2_length hi ho hf h1) (downscalingGP2_length hi ho hw.elevs h2)
    simp only [o1] at h
    cases h
    exact ⟨dv, de, h1, h2, o2⟩
  · rintro ⟨dv, de, h1, h2, h3⟩
    obtain ⟨o, o1, o2⟩ := key dv de (downscalingGP2_length hi ho hf h1) (downscalingGP2_length hi ho hw.elevs h2)
    rw [h1, ok_bind, h2, ok_bind, h3.unique o2]
    exact o1

end

section times
variable {T : RTree K} (hT : T.Lawful) [LawfulSqrt K] {d : Downscaler}
include hT

/-- **C45** (times, Grid → Grid): for at least one time, the overload for several times succeeds exactly if the overload
for one time succeeds for every time, with the same values. -/
theorem c45_grid_times (hd : d ≠ .other) {ig og : Grid K} {Y X oY oX : Nat} {lats lons olats olons : List (List (Fl K))} {type otype : CoordType}
    (hi : BuiltGrid ig Y X lats lons type) (ho : BuiltGrid og oY oX olats olons otype) (hv : GridValidIn type olats olons)
    (hs : ∀ y x la, cell? olats y x = some la → BoxLat type lats la)
    (fs : List (List (List (Fl K)))) (hne : fs ≠ []) (hf : ∀ f ∈ fs, Rect Y X f) (g : Fl K) (out : List (List (List (Fl K)))) :
    simpleGradientGG3 T d ig og fs g = ok out ↔ List.Forall₂ (fun f o => simpleGradientGG2 T d ig og f g = ok o) fs out := by
  have hw := hi.wf.1
  have how := ho.wf.1
  unfold simpleGradientGG3
  rw [compatibleSizeG3_rect hw hf, ok_bind, if_neg (by simp), how.size, ok_bind]
  have key : ∀ dvs de, List.Forall₂ (fun f o => downscalingGG2 T d ig og f = ok o) fs dvs → downscalingGG2 T d ig og ig.elevs = ok de →
      ∃ o, omp (mapM (fun t : Int => grid2 oY oX fun i j => do
      let oe ← vget2 og.elevs i j
      let de ← vget2 de i j
      let dt ← vget dvs t
      let dv ← vget2 dt i j
      ok (dv + (oe - de) * g)) (upto fs.length)) = ok o ∧ List.Forall₂ (fun f o => simpleGradientGG2 T d ig og f g = ok o) fs o := by
    intro dvs de h1 h2
    have hde := ((downscalingGG2_ok_iff hi ho hw.elevs de).mp h2).1
    have hlen := h1.length_eq
    obtain ⟨o, e1, e2, e3⟩ := mapM_upto_exists (n := fs.length) (f := fun t : Int => grid2 oY oX fun i j => do
        let oe ← vget2 og.elevs i j
        let de ← vget2 de i j
        let dt ← vget dvs t
        let dv ← vget2 dt i j
        ok (dv + (oe - de) * g)) (P := fun t o => ∃ f, fs[t]? = some f ∧ simpleGradientGG2 T d ig og f g = ok o) (by
      intro t ht
      have hft : fs[t]? = some fs[t] := List.getElem?_eq_getElem ht
      have hdt : downscalingGG2 T d ig og fs[t] = ok (dvs[t]'(by omega)) := (List.forall₂_iff_get.mp h1).2 t ht (by omega)
      have hR := hf _ (List.getElem_mem ht)
      have hdv := ((downscalingGG2_ok_iff hi ho hR _).mp hdt).1
      obtain ⟨o, e1, e2, e3⟩ := grid2_exists (Y := oY) (X := oX) (f := fun i j => do
        let oe ← vget2 og.elevs i j
        let de ← vget2 de i j
        let dt ← vget dvs (t : Int)
        let dv ← vget2 dt i j
        ok (dv + (oe - de) * g)) (P := fun y x w => ∃ v i o, cell? (dvs[t]'(by omega)) y x = some v ∧ cell? de y x = some i ∧ cell? og.elevs y x = some o ∧
        w = v + (o - i) * g) (by
        intro y hy x hx
        obtain ⟨v, a1, a2⟩ := vget2_of_rect hdv hy hx
        obtain ⟨i, b1, b2⟩ := vget2_of_rect hde hy hx
        obtain ⟨o, c1, c2⟩ := vget2_of_rect how.elevs hy hx
        have hget : vget dvs (t : Int) = ok (dvs[t]'(by omega)) := vget_nat_eq_ok.mpr (List.getElem?_eq_getElem _)
        exact ⟨_, by simp only [hget, a2, b2, c2, ok_bind], v, i, o, a1, b1, c1, rfl⟩)
      refine ⟨o, e1, _, hft, (c45_grid hi ho _ hR g o).mpr ⟨_, de, hdt, h2, e2, fun y hy x hx => ?_⟩⟩
      obtain ⟨w, w1, -, v, i, o, a1, a2, a3, rfl⟩ := e3 y hy x hx
      exact ⟨v, i, o, a1, a2, a3, w1⟩)
    refine ⟨o, by rw [e1]; rfl, List.forall₂_iff_get.mpr ⟨e2.symm, fun t ht1 ht2 => ?_⟩⟩
    obtain ⟨o', q1, -, f', q2, q3⟩ := e3 t ht1
    rw [List.getElem?_eq_getElem ht2] at q1
    rw [List.getElem?_eq_getElem ht1] at q2
    cases q1; cases q2
    exact q3
  constructor
  · intro h
    obtain ⟨dvs, h1, h⟩ := bind_eq_ok.mp h
    obtain ⟨de, h2, h⟩ := bind_eq_ok.mp h
    obtain ⟨o, o1, o2⟩ := key dvs de ((downscalingGG3_ok_iff hT hd hi ho hv hs hf dvs).mp h1) h2
    simp only [o1] at h
    cases h
    exact o2
  · intro h
    have hall : ∀ f ∈ fs, ∃ dv de, downscalingGG2 T d ig og f = ok dv ∧ downscalingGG2 T d ig og ig.elevs = ok de := by
      intro f hff
      obtain ⟨t, ht, rfl⟩ := List.getElem_of_mem hff
      have hl := h.length_eq
      obtain ⟨dv, de, q1, q2, -⟩ := (c45_grid hi ho _ (hf _ hff) g _).mp ((List.forall₂_iff_get.mp h).2 t ht (by omega))
      exact ⟨dv, de, q1, q2⟩
    obtain ⟨f0, hf0⟩ := List.exists_mem_of_ne_nil fs hne
    obtain ⟨-, de, -, h2⟩ := hall f0 hf0
    obtain ⟨dvs, hdvs⟩ := mapM_exists (f := downscalingGG2 T d ig og) fs fun f hff => by
      obtain ⟨dv, -, q1, -⟩ := hall f hff
      exact ⟨dv, q1⟩
    obtain ⟨o, o1, o2⟩ := key dvs de (mapM_eq_ok hdvs) h2
    rw [(downscalingGG3_ok_iff hT hd hi ho hv hs hf dvs).mpr (mapM_eq_ok hdvs), ok_bind, h2, ok_bind]
    have e1 := mapM_of_forall₂ h
    rw [mapM_of_forall₂ o2] at e1
    cases e1
    exact o1

/-- **C45** (times, Grid → Points). -/
theorem c45_points_times (hd : d ≠ .other) {ig : Grid K} {op : Points K} {Y X : Nat} {lats lons : List (List (Fl K))} {olats olons : List (Fl K)}
    {type otype : CoordType} (hi : BuiltGrid ig Y X lats lons type) (ho : BuiltPoints op olats olons otype) (hv : PointsValidIn type olats olons)
    (hs : ∀ (i : Nat) la, olats[i]? = some la → BoxLat type lats la)
    (fs : List (List (List (Fl K)))) (hne : fs ≠ []) (hf : ∀ f ∈ fs, Rect Y X f) (g : Fl K) (out : List (List (Fl K))) :
    simpleGradientGP3 T d ig op fs g = ok out ↔ List.Forall₂ (fun f o => simpleGradientGP2 T d ig op f g = ok o) fs out := by
  have hw := hi.wf.1
  obtain ⟨m1, m2, m3⟩ := ho.meta
  unfold simpleGradientGP3
  rw [compatibleSizeG3_rect hw hf, ok_bind, if_neg (by simp), m3]
  have key : ∀ dvs de, List.Forall₂ (fun f o => downscalingGP2 T d ig op f = ok o) fs dvs → downscalingGP2 T d ig op ig.elevs = ok de →
      ∃ o, omp (grid2 fs.length olats.length fun t i => do
      let oe ← vget op.elevs i
      let de ← vget de i
      let dv ← vget2 dvs t i
      ok (dv + (oe - de) * g)) = ok o ∧ List.Forall₂ (fun f o => simpleGradientGP2 T d ig op f g = ok o) fs o := by
    intro dvs de h1 h2
    have hde := downscalingGP2_length hi ho hw.elevs h2
    have hlen := h1.length_eq
    have hrect : Rect fs.length olats.length dvs := by
      refine ⟨hlen.symm, fun r hr => ?_⟩
      obtain ⟨t, ht, rfl⟩ := List.getElem_of_mem hr
      exact downscalingGP2_length hi ho (hf _ (List.getElem_mem (by omega))) ((List.forall₂_iff_get.mp h1).2 t (by omega) ht)
    obtain ⟨o, e1, e2, e3⟩ := grid2_exists (Y := fs.length) (X := olats.length) (f := fun t i => do
        let oe ← vget op.elevs i
        let de ← vget de i
        let dv ← vget2 dvs t i
        ok (dv + (oe - de) * g)) (P := fun t k w => ∃ v i o, cell? dvs t k = some v ∧ de[k]? = some i ∧ op.elevs[k]? = some o ∧
        w = v + (o - i) * g) (by
      intro t ht k hk
      obtain ⟨v, a1, a2⟩ := vget2_of_rect hrect ht hk
      obtain ⟨i, b1, b2⟩ := vget_of_lt hde hk
      obtain ⟨o, c1, c2⟩ := vget_of_lt m1 hk
      exact ⟨_, by simp only [a2, b2, c2, ok_bind], v, i, o, a1, b1, c1, rfl⟩)
    refine ⟨o, by rw [e1]; rfl, List.forall₂_iff_get.mpr ⟨e2.1.symm, fun t ht1 ht2 => ?_⟩⟩
    have hR := hf _ (List.getElem_mem ht1)
    refine (c45_points hi ho _ hR g _).mpr ⟨_, de, (List.forall₂_iff_get.mp h1).2 t ht1 (by omega), h2, e2.row_length ht2, fun k hk => ?_⟩
    obtain ⟨w, w1, -, v, i, o', a1, a2, a3, rfl⟩ := e3 t ht1 k hk
    refine ⟨v, i, o', ?_, a2, a3, ?_⟩
    · have ht3 : t < dvs.length := by omega
      simpa [cell?, List.getElem?_eq_getElem ht3] using a1
    · simpa [cell?, List.getElem?_eq_getElem ht2] using w1
  constructor
  · intro h
    obtain ⟨dvs, h1, h⟩ := bind_eq_ok.mp h
    obtain ⟨de, h2, h⟩ := bind_eq_ok.mp h
    obtain ⟨o, o1, o2⟩ := key dvs de ((downscalingGP3_ok_iff hT hd hi ho hv hs hf dvs).mp h1) h2
    simp only [o1] at h
    cases h
    exact o2
  · intro h
    have hall : ∀ f ∈ fs, ∃ dv de, downscalingGP2 T d ig op f = ok dv ∧ downscalingGP2 T d ig op ig.elevs = ok de := by
      intro f hff
      obtain ⟨t, ht, rfl⟩ := List.getElem_of_mem hff
      have hl := h.length_eq
      obtain ⟨dv, de, q1, q2, -⟩ := (c45_points hi ho _ (hf _ hff) g _).mp ((List.forall₂_iff_get.mp h).2 t ht (by omega))
      exact ⟨dv, de, q1, q2⟩
    obtain ⟨f0, hf0⟩ := List.exists_mem_of_ne_nil fs hne
    obtain ⟨-, de, -, h2⟩ := hall f0 hf0
    obtain ⟨dvs, hdvs⟩ := mapM_exists (f := downscalingGP2 T d ig op) fs fun f hff => by
      obtain ⟨dv, -, q1, -⟩ := hall f hff
      exact ⟨dv, q1⟩
    obtain ⟨o, o1, o2⟩ := key dvs de (mapM_eq_ok hdvs) h2
    rw [(downscalingGP3_ok_iff hT hd hi ho hv hs hf dvs).mpr (mapM_eq_ok hdvs), ok_bind, h2, ok_bind]
    have e1 := mapM_of_forall₂ h
    rw [mapM_of_forall₂ o2] at e1
    cases e1
    exact o1

end times
end Gridpp.Props
