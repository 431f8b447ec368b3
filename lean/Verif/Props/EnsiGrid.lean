import Verif.Props.EnsiMulti
import Verif.Props.OIGrid

/-! Property C52 for grids: the grid versions are the versions for the points of the grid in row-major order. -/

set_option linter.unusedSectionVars false

namespace Gridpp.Props
open Fl Res

section
variable {K : Type} [Field K] [LinearOrder K] [IsStrictOrderedRing K] [HasGeo K] [LawfulSqrt K] [HasExp K]

/-- A `Y x X x E` field. -/
def Box (Y X E : Nat) (a : List (List (List (Fl K)))) : Prop := Rect Y X a ∧ ∀ c ∈ a.flatten, c.length = E

/-- The result for a grid is the background except for members that are complete and cells with a usable observation; `affected`
takes the row-major index of the cell; `raise` holds for the exceptions that may be thrown instead. -/
def UntouchedGrid (r : Res (List (List (List (Fl K))))) (background : List (List (List (Fl K)))) (Y X E : Nat) (complete : Nat → Prop)
    (affected : Nat → Prop) (raise : Exc → Prop) : Prop :=
  (∃ out, r = ok out ∧ Box Y X E out ∧ ∀ y < Y, ∀ x < X, ∃ c b, cell? out y x = some c ∧ cell? background y x = some b ∧
    (∀ e, ¬ complete e → c[e]? = b[e]?) ∧ (¬ affected (y * X + x) → c = b)) ∨ ∃ e, r = .throw e ∧ raise e

theorem mapM_copy {α : Type} (v : List α) {n : Nat} (h : v.length = n) : mapM (fun e : Nat => vget v (e : Int)) (List.range n) = ok v := by
  subst h
  obtain ⟨l, h1, h2, h3⟩ := mapM_vget_some v (List.range v.length) fun i hi => List.mem_range.mp hi
  rw [h1]
  congr 1
  apply List.ext_getElem?
  intro k
  by_cases hk : k < v.length
  · rw [h3 k (by simpa using hk), List.getElem_range]
  · rw [List.getElem?_eq_none (by rw [h2]; simpa using hk), List.getElem?_eq_none (by omega)]

theorem mem_flatten_of_cell {α : Type} {a : List (List α)} {y x : Nat} {c : α} (h : cell? a y x = some c) : c ∈ a.flatten := by
  unfold cell? at h
  cases hr : a[y]? with
  | none => rw [hr] at h; cases h
  | some r =>
    rw [hr] at h
    exact List.mem_flatten.mpr ⟨r, List.mem_iff_getElem?.mpr ⟨y, hr⟩, List.mem_iff_getElem?.mpr ⟨x, h⟩⟩

omit [HasGeo K] [LawfulSqrt K] [HasExp K] in
theorem flatten3_eq {Y X E : Nat} {a : List (List (List (Fl K)))} (h : Box Y X E a) : flatten3 Y X E a = ok a.flatten := by
  obtain ⟨out, h1, h2, h3⟩ := grid2_exists (Y := Y) (X := X) (f := fun y x => do
      let c ← vget2 a y x
      mapM (fun e : Nat => vget c (e : Int)) (List.range E)) (P := fun y x c => cell? a y x = some c) fun y hy x hx => by
    obtain ⟨c, hc1, hc2⟩ := vget2_of_rect h.1 hy hx
    exact ⟨c, by rw [hc2, ok_bind, mapM_copy c (h.2 c (mem_flatten_of_cell hc1))], hc1⟩
  have : out = a := Rect.ext h2 h.1 fun y hy x hx => by
    obtain ⟨c, hc, -, hc'⟩ := h3 y hy x hx
    rw [hc, hc']
  unfold flatten3
  rw [h1, ok_bind, this]

/-- The result of the copy into a `vec3`. -/
theorem unflatten3_eq {Y X E : Nat} {o : List (List (Fl K))} (h2 : Rect (Y * X) E o) :
    ∃ out, unflatten3 Y X E o = ok out ∧ Box Y X E out ∧ ∀ y < Y, ∀ x < X, ∃ c, cell? out y x = some c ∧ o[y * X + x]? = some c := by
  obtain ⟨out, g1, g2, g3⟩ := grid2_exists (Y := Y) (X := X) (f := fun y x => do
      let c ← vget o (y * (X : Int) + x)
      mapM (fun e : Nat => vget c (e : Int)) (List.range E)) (P := fun y x c => o[y * X + x]? = some c) fun y hy x hx => by
    obtain ⟨c, hc⟩ := exists_getElem? (v := o) (n := y * X + x) (by rw [h2.1]; exact ((c15_bijection Y X).2 y hy x hx).1)
    have := vget_some hc
    push_cast at this
    exact ⟨c, by rw [this, ok_bind, mapM_copy c (h2.2 c (List.mem_iff_getElem?.mpr ⟨_, hc⟩))], hc⟩
  refine ⟨out, g1, ⟨g2, fun c hc => ?_⟩, fun y hy x hx => ?_⟩
  · obtain ⟨r, hr, hcr⟩ := List.mem_flatten.mp hc
    obtain ⟨y, hy⟩ := List.mem_iff_getElem?.mp hr
    obtain ⟨x, hx⟩ := List.mem_iff_getElem?.mp hcr
    have hcell : cell? out y x = some c := by unfold cell?; rw [hy]; exact hx
    obtain ⟨hyY, hxX⟩ := cell?_lt g2 hcell
    obtain ⟨c', g4, -, g5⟩ := g3 y hyY x hxX
    rw [hcell] at g4
    cases g4
    exact h2.2 c (List.mem_iff_getElem?.mpr ⟨_, g5⟩)
  · obtain ⟨c, g4, -, g5⟩ := g3 y hy x hx
    exact ⟨c, g4, g5⟩

/-- From the points of a grid to the grid. -/
theorem untouched_grid {r : Res (List (List (Fl K)))} {background : List (List (List (Fl K)))} {Y X E : Nat} {complete affected : Nat → Prop}
    {raise : Exc → Prop} (hb : Box Y X E background) (h : Untouched r background.flatten (Y * X) E complete affected raise) :
    UntouchedGrid (do let o ← r; unflatten3 Y X E o) background Y X E complete affected raise := by
  rcases h with ⟨o, h1, h2, h3, h4⟩ | ⟨e, h1, h2⟩
  · left
    obtain ⟨out, g1, g2, g3⟩ := unflatten3_eq h2
    refine ⟨out, by rw [h1, ok_bind]; exact g1, g2, fun y hy x hx => ?_⟩
    obtain ⟨c, g4, g5⟩ := g3 y hy x hx
    obtain ⟨b, hb1⟩ := hb.1.cell?_some hy hx
    have hb2 := flatten_getElem? (y := y) hb.1 hx
    rw [hb1] at hb2
    refine ⟨c, b, g4, hb1, fun e he => ?_, fun hn => ?_⟩
    · have := h3 (y * X + x) e he
      unfold cell? at this
      rw [g5, hb2] at this
      exact this
    · have := h4 _ hn
      rw [g5, hb2] at this
      exact Option.some.inj this
  · right
    exact ⟨e, by rw [h1]; rfl, h2⟩

omit [HasGeo K] [LawfulSqrt K] [HasExp K] in
theorem _root_.Gridpp.Props.Box.first {Y X E : Nat} {a : List (List (List (Fl K)))} (h : Box Y X E a) (hY : 0 < Y) (hX : 0 < X) :
    ∃ b0 b00, vget a 0 = ok b0 ∧ b0.length = X ∧ vget b0 0 = ok b00 ∧ b00.length = E := by
  obtain ⟨b0, h1, h2⟩ := first_row h.1 hY
  obtain ⟨b00, h3⟩ := exists_getElem? (v := b0) (n := 0) (by omega)
  obtain ⟨r0, h4⟩ := exists_getElem? (v := a) (n := 0) (by rw [h.1.1]; exact hY)
  have h5 : vget a 0 = ok r0 := vget_some h4
  rw [h1] at h5
  cases h5
  exact ⟨b0, b00, h1, h2, vget_some h3, h.2 _ (List.mem_flatten.mpr ⟨b0, List.mem_iff_getElem?.mpr ⟨0, h4⟩, List.mem_iff_getElem?.mpr ⟨0, h3⟩⟩)⟩

omit [HasGeo K] [LawfulSqrt K] [HasExp K] in
theorem _root_.Gridpp.Props.Box.flat {Y X E : Nat} {a : List (List (List (Fl K)))} (h : Box Y X E a) : Rect (Y * X) E a.flatten :=
  ⟨flatten_length h.1, h.2⟩

variable {T : RTree K} {points : Points K} {s : SF K} {maxPoints : Int} {L : Nat → Fl K} {G : Nat → Nat → K}
  {g : Grid K} {Y X E : Nat} {lats lons : List (List (Fl K))} {type : CoordType} {bp : Points K}

theorem sizes_of_grid {A : Arma K} (hg : BuiltGrid g Y X lats lons type) (hbp : g.toPoints = ok bp)
    (h : EnsPoints T A bp points s maxPoints L G) : bp.size = Y * X ∧ 0 < Y ∧ 0 < X ∧ g.size = ok (Y, X) ∧ g.type = points.type := by
  obtain ⟨bp', h1, -, h3, h4, -, -⟩ := hg.pointsWF
  obtain ⟨hw, -, -, ht⟩ := hg.wf
  rw [hbp] at h1
  cases h1
  have ht' : g.type = type := ht
  exact ⟨h3, hg.1, hg.2.1, hw.size, by rw [ht', ← h4, h.htype]⟩

theorem multiGridSizes_eq {A : Arma K} (hg : BuiltGrid g Y X lats lons type) (hbp : g.toPoints = ok bp)
    (h : EnsPoints T A bp points s maxPoints L G) {background : List (List (List (Fl K)))} (hb : Box Y X E background) :
    multiGridSizes g points background = ok (Y, X, E) := by
  obtain ⟨-, s2, s3, s4, s5⟩ := sizes_of_grid hg hbp h
  obtain ⟨b0, b00, h1, h2, h3, h4⟩ := hb.first s2 s3
  unfold multiGridSizes
  rw [s4, ok_bind, if_neg (by simp only [not_or]; exact ⟨s2.ne', s3.ne'⟩), if_neg (not_not.mpr s5), h1, ok_bind, h3, ok_bind,
    if_neg (by simp [hb.1.1, h2]), h4]

theorem multiCheck3_eq {background : List (List (List (Fl K)))} (hb : Box Y X E background) (hY : 0 < Y) (hX : 0 < X) :
    multiCheck3 (Y, X, E) background = ok () := by
  obtain ⟨b0, b00, h1, h2, h3, h4⟩ := hb.first hY hX
  unfold multiCheck3
  rw [h1, ok_bind, h3, ok_bind, if_neg (by simp [hb.1.1, h2, h4])]

theorem multiCheck2_eq {v : List (List (Fl K))} (hv : Rect Y X v) (hY : 0 < Y) : multiCheck2 Y X v = ok () := by
  obtain ⟨b0, h1, h2⟩ := first_row hv hY
  unfold multiCheck2
  rw [h1, ok_bind, if_neg (by simp [hv.1, h2])]

theorem ensiGrid_eq {A : ArmaE K} (hg : BuiltGrid g Y X lats lons type) (hbp : g.toPoints = ok bp)
    (h : EnsPoints T A.toArma bp points s maxPoints L G) {background : List (List (List (Fl K)))} {pbg : List (List (Fl K))}
    {pobs psigmas : List (Fl K)} (hb : Box Y X E background) (hpobs : pobs.length = points.size)
    (hsig : psigmas.length = points.size) (hpbg : Rect points.size E pbg) (extrap : Bool) :
    ensiGrid T A g background points pobs psigmas pbg s maxPoints extrap =
      (do let o ← ensiPoints T A bp background.flatten points pobs psigmas pbg s maxPoints extrap
          unflatten3 Y X E o) := by
  obtain ⟨s1, s2, s3, s4, s5⟩ := sizes_of_grid hg hbp h
  obtain ⟨b0, b00, h1, h2, h3, h4⟩ := hb.first s2 s3
  obtain ⟨p0, hp1, hp2⟩ := first_row hpbg h.hobs
  unfold ensiGrid
  rw [if_neg (not_lt.mpr h.hmax), if_neg (by have := h.hobs; omega), s4, ok_bind,
    if_neg (by simp only [not_or]; exact ⟨s2.ne', s3.ne'⟩), if_neg (not_not.mpr s5), h1, ok_bind,
    if_neg (by simp [hb.1.1, h2]), h3, ok_bind, if_neg (not_not.mpr hpobs), if_neg (not_not.mpr hsig), hp1, ok_bind,
    if_neg (by simp [h4, hp2]), hbp, ok_bind, h4, flatten3_eq hb, ok_bind]

/-- `optimal_interpolation_ensi` for grids. -/
theorem c52_ensi_grid {A : ArmaE K} (hg : BuiltGrid g Y X lats lons type) (hbp : g.toPoints = ok bp)
    (h : EnsPoints T A.toArma bp points s maxPoints L G) {background : List (List (List (Fl K)))} {pbg : List (List (Fl K))}
    {pobs psigmas : List (Fl K)} (hb : Box Y X E background) (hpobs : pobs.length = points.size)
    (hsig : psigmas.length = points.size) (hpbg : Rect points.size E pbg) (extrap : Bool) :
    UntouchedGrid (ensiGrid T A g background points pobs psigmas pbg s maxPoints extrap) background Y X E (Complete background.flatten)
      (fun y => ∃ i, UsableObs bp points (fun i => ∃ o, pobs[i]? = some (fin o)) (L y) (G y) y i)
      (fun e => e = .runtimeError ∧ ∃ M, A.inv M = .throw .runtimeError) := by
  have s1 := (sizes_of_grid hg hbp h).1
  rw [ensiGrid_eq hg hbp h hb hpobs hsig hpbg extrap]
  apply untouched_grid hb
  rw [← s1]
  exact c52_ensi h (by rw [s1]; exact hb.flat) hpobs hsig hpbg extrap

theorem ebescGrid_eq {A : Arma K} (hg : BuiltGrid g Y X lats lons type) (hbp : g.toPoints = ok bp)
    (h : EnsPoints T A bp points s maxPoints L G) {bratios : List (List (Fl K))} {background : List (List (List (Fl K)))}
    {pobs pbg : List (List (Fl K))} {pratios : List (Fl K)} (hbr : Rect Y X bratios) (hb : Box Y X E background)
    (hpobs : Rect points.size E pobs) (hrat : pratios.length = points.size) (hpbg : Rect points.size E pbg) (extrap : Bool) :
    ebescGrid T A g bratios background points pobs pratios pbg s maxPoints extrap =
      (do let o ← ebescPoints T A bp bratios.flatten background.flatten points pobs pratios pbg s maxPoints extrap
          unflatten3 Y X E o) := by
  obtain ⟨s1, s2, s3, s4, s5⟩ := sizes_of_grid hg hbp h
  unfold ebescGrid
  rw [if_neg (not_lt.mpr h.hmax), if_neg (by have := h.hobs; omega), multiGridSizes_eq hg hbp h hb, ok_bind]
  simp only [multiCheck2_eq hbr s2, multiCheck2_eq hpbg h.hobs, multiCheck2_eq hpobs h.hobs, ok_bind, hbp, flatten3_eq hb, grid2_copy hbr]
  rw [if_neg (not_not.mpr hrat)]

/-- `optimal_interpolation_ensi_multi_ebesc` for grids. -/
theorem c52_ebesc_grid {A : Arma K} (hg : BuiltGrid g Y X lats lons type) (hbp : g.toPoints = ok bp)
    (h : EnsPoints T A bp points s maxPoints L G) (hc : Correlations T s bp points L G P) {bratios : List (List (Fl K))}
    {background : List (List (List (Fl K)))} {pobs pbg : List (List (Fl K))} {pratios : List (Fl K)} (hbr : Rect Y X bratios)
    (hb : Box Y X E background) (hpobs : Rect points.size E pobs) (hrat : pratios.length = points.size) (hpbg : Rect points.size E pbg)
    (extrap : Bool) :
    UntouchedGrid (ebescGrid T A g bratios background points pobs pratios pbg s maxPoints extrap) background Y X E
      (Complete (background.flatten ++ pbg))
      (fun y => ∃ i, UsableObs bp points (fun i => ∃ o, cell? pobs i 0 = some (fin o)) (L y) (G y) y i)
      (MultiRaise A (MemberGap (background.flatten ++ pbg) E)) := by
  have s1 := (sizes_of_grid hg hbp h).1
  rw [ebescGrid_eq hg hbp h hbr hb hpobs hrat hpbg extrap]
  apply untouched_grid hb
  rw [← s1]
  exact c52_ebesc h hc (by rw [s1]; exact flatten_length hbr) (by rw [s1]; exact hb.flat) hpobs hrat hpbg extrap

/-- With an incomplete member before a complete one and an affected cell, the grid version of `ebesc` always throws. -/
theorem c52_ebesc_grid_gap {A : Arma K} (hg : BuiltGrid g Y X lats lons type) (hbp : g.toPoints = ok bp)
    (h : EnsPoints T A bp points s maxPoints L G) (hc : Correlations T s bp points L G P) {bratios : List (List (Fl K))}
    {background : List (List (List (Fl K)))} {pobs pbg : List (List (Fl K))} {pratios : List (Fl K)} (hbr : Rect Y X bratios)
    (hb : Box Y X E background) (hpobs : Rect points.size E pobs) (hrat : pratios.length = points.size) (hpbg : Rect points.size E pbg)
    (extrap : Bool) (hgap : MemberGap (background.flatten ++ pbg) E) {y : Nat} (hy : y < Y * X)
    (hu : ∃ i, UsableObs bp points (fun i => ∃ o, cell? pobs i 0 = some (fin o)) (L y) (G y) y i) :
    ebescGrid T A g bratios background points pobs pratios pbg s maxPoints extrap = .throw .logicError := by
  have s1 := (sizes_of_grid hg hbp h).1
  rw [ebescGrid_eq hg hbp h hbr hb hpobs hrat hpbg extrap,
    c52_ebesc_gap h hc (by rw [s1]; exact flatten_length hbr) (by rw [s1]; exact hb.flat) hpobs hrat hpbg extrap hgap (by rw [s1]; exact hy) hu]
  rfl

theorem ebeGrid_eq {A : Arma K} (hg : BuiltGrid g Y X lats lons type) (hbp : g.toPoints = ok bp)
    (h : EnsPoints T A bp points s maxPoints L G) {bratios : List (List (Fl K))} {background backgroundc : List (List (List (Fl K)))}
    {pobs pbg pbgc : List (List (Fl K))} {pratios : List (Fl K)} (hbr : Rect Y X bratios) (hb : Box Y X E background)
    (hbc : Box Y X E backgroundc) (hpobs : Rect points.size E pobs) (hrat : pratios.length = points.size) (hpbg : Rect points.size E pbg)
    (hpbgc : Rect points.size E pbgc) (extrap : Bool) :
    ebeGrid T A g bratios background backgroundc points pobs pratios pbg pbgc s maxPoints extrap =
      (do let o ← ebePoints T A bp bratios.flatten background.flatten backgroundc.flatten points pobs pratios pbg pbgc s maxPoints extrap
          unflatten3 Y X E o) := by
  obtain ⟨s1, s2, s3, s4, s5⟩ := sizes_of_grid hg hbp h
  unfold ebeGrid
  rw [if_neg (not_lt.mpr h.hmax), if_neg (by have := h.hobs; omega), multiGridSizes_eq hg hbp h hb, ok_bind]
  simp only [multiCheck3_eq hbc s2 s3, multiCheck2_eq hbr s2, multiCheck2_eq hpbg h.hobs, multiCheck2_eq hpbgc h.hobs,
    multiCheck2_eq hpobs h.hobs, ok_bind, hbp, flatten3_eq hb, flatten3_eq hbc, grid2_copy hbr]
  rw [if_neg (not_not.mpr hrat)]

/-- `optimal_interpolation_ensi_multi_ebe` for grids, if there are at least as many cells as observations. -/
theorem c52_ebe_grid_partial {A : Arma K} (hg : BuiltGrid g Y X lats lons type) (hbp : g.toPoints = ok bp)
    (h : EnsPoints T A bp points s maxPoints L G) (hc : Correlations T s bp points L G P) {bratios : List (List (Fl K))}
    {background backgroundc : List (List (List (Fl K)))} {pobs pbg pbgc : List (List (Fl K))} {pratios : List (Fl K)}
    (hbr : Rect Y X bratios) (hb : Box Y X E background) (hbc : Box Y X E backgroundc) (hpobs : Rect points.size E pobs)
    (hrat : pratios.length = points.size) (hpbg : Rect points.size E pbg) (hpbgc : Rect points.size E pbgc)
    (hsize : points.size ≤ Y * X) (extrap : Bool) :
    UntouchedGrid (ebeGrid T A g bratios background backgroundc points pobs pratios pbg pbgc s maxPoints extrap) background Y X E
      (Complete (background.flatten ++ backgroundc.flatten ++ pbg ++ pbgc))
      (fun y => ∃ i, UsableObs bp points (fun i => ∃ o, cell? pobs i 0 = some (fin o)) (L y) (G y) y i)
      (MultiRaise A (MemberGap (background.flatten ++ backgroundc.flatten ++ pbg ++ pbgc) E)) := by
  have s1 := (sizes_of_grid hg hbp h).1
  rw [ebeGrid_eq hg hbp h hbr hb hbc hpobs hrat hpbg hpbgc extrap]
  apply untouched_grid hb
  rw [← s1]
  exact c52_ebe_partial h hc (by rw [s1]; exact flatten_length hbr) (by rw [s1]; exact hb.flat) (by rw [s1]; exact hbc.flat) hpobs hrat hpbg
    hpbgc (by rw [s1]; exact hsize) extrap

/-- The claim is false: with more observations than cells `ebe` writes out of range. -/
theorem c52_ebe_grid_out_of_range {A : Arma K} (hg : BuiltGrid g Y X lats lons type) (hbp : g.toPoints = ok bp)
    (h : EnsPoints T A bp points s maxPoints L G) {bratios : List (List (Fl K))}
    {background backgroundc : List (List (List (Fl K)))} {pobs pbg pbgc : List (List (Fl K))} {pratios : List (Fl K)}
    (hbr : Rect Y X bratios) (hb : Box Y X E background) (hbc : Box Y X E backgroundc) (hpobs : Rect points.size E pobs)
    (hrat : pratios.length = points.size) (hpbg : Rect points.size E pbg) (hpbgc : Rect points.size E pbgc)
    (hsize : Y * X < points.size) (hcomp : ∃ e < E, Complete (background.flatten ++ backgroundc.flatten ++ pbg ++ pbgc) e) (extrap : Bool) :
    ebeGrid T A g bratios background backgroundc points pobs pratios pbg pbgc s maxPoints extrap = .ub := by
  have s1 := (sizes_of_grid hg hbp h).1
  rw [ebeGrid_eq hg hbp h hbr hb hbc hpobs hrat hpbg hpbgc extrap,
    c52_ebe_out_of_range h (by rw [s1]; exact flatten_length hbr) (by rw [s1]; exact hb.flat) (by rw [s1]; exact hbc.flat) hpobs hrat hpbg
      hpbgc (by rw [s1]; exact hsize) hcomp extrap]
  rfl

theorem utemGrid_eq {A : ArmaE K} (hg : BuiltGrid g Y X lats lons type) (hbp : g.toPoints = ok bp)
    (h : EnsPoints T A.toArma bp points s maxPoints L G) {bratios : List (List (Fl K))} {background backgroundc : List (List (List (Fl K)))}
    {pbg pbgc : List (List (Fl K))} {pobs pratios : List (Fl K)} (hbr : Rect Y X bratios) (hb : Box Y X E background)
    (hbc : Box Y X E backgroundc) (hpobs : pobs.length = points.size) (hrat : pratios.length = points.size) (hpbg : Rect points.size E pbg)
    (hpbgc : Rect points.size E pbgc) (extrap : Bool) :
    utemGrid T A g bratios background backgroundc points pobs pratios pbg pbgc s maxPoints extrap =
      (do let o ← utemPoints T A bp bratios.flatten background.flatten backgroundc.flatten points pobs pratios pbg pbgc s maxPoints extrap
          unflatten3 Y X E o) := by
  obtain ⟨s1, s2, s3, s4, s5⟩ := sizes_of_grid hg hbp h
  unfold utemGrid
  rw [if_neg (not_lt.mpr h.hmax), if_neg (by have := h.hobs; omega), multiGridSizes_eq hg hbp h hb, ok_bind]
  simp only [multiCheck3_eq hbc s2 s3, multiCheck2_eq hbr s2, multiCheck2_eq hpbg h.hobs, multiCheck2_eq hpbgc h.hobs,
    ok_bind, hbp, flatten3_eq hb, flatten3_eq hbc, grid2_copy hbr]
  rw [if_neg (not_not.mpr hpobs), if_neg (not_not.mpr hrat)]

/-- `optimal_interpolation_ensi_multi_utem` for grids, if there are at least as many cells as observations. -/
theorem c52_utem_grid_partial {A : ArmaE K} (hg : BuiltGrid g Y X lats lons type) (hbp : g.toPoints = ok bp)
    (h : EnsPoints T A.toArma bp points s maxPoints L G) {bratios : List (List (Fl K))}
    {background backgroundc : List (List (List (Fl K)))} {pbg pbgc : List (List (Fl K))} {pobs pratios : List (Fl K)}
    (hbr : Rect Y X bratios) (hb : Box Y X E background) (hbc : Box Y X E backgroundc) (hpobs : pobs.length = points.size)
    (hrat : pratios.length = points.size) (hpbg : Rect points.size E pbg) (hpbgc : Rect points.size E pbgc)
    (hsize : points.size ≤ Y * X) (extrap : Bool) :
    UntouchedGrid (utemGrid T A g bratios background backgroundc points pobs pratios pbg pbgc s maxPoints extrap) background Y X E
      (Complete (background.flatten ++ backgroundc.flatten ++ pbg ++ pbgc))
      (fun y => ∃ i, UsableObs bp points (fun i => ∃ o, pobs[i]? = some (fin o)) (L y) (G y) y i)
      (fun e => e = .runtimeError ∧ ∃ M, A.inv M = .throw .runtimeError) := by
  have s1 := (sizes_of_grid hg hbp h).1
  rw [utemGrid_eq hg hbp h hbr hb hbc hpobs hrat hpbg hpbgc extrap]
  apply untouched_grid hb
  rw [← s1]
  exact c52_utem_partial h (by rw [s1]; exact flatten_length hbr) (by rw [s1]; exact hb.flat) (by rw [s1]; exact hbc.flat) hpobs hrat hpbg
    hpbgc (by rw [s1]; exact hsize) extrap

/-- The claim is false: with more observations than cells `utem` writes out of range. -/
theorem c52_utem_grid_out_of_range {A : ArmaE K} (hg : BuiltGrid g Y X lats lons type) (hbp : g.toPoints = ok bp)
    (h : EnsPoints T A.toArma bp points s maxPoints L G) {bratios : List (List (Fl K))}
    {background backgroundc : List (List (List (Fl K)))} {pbg pbgc : List (List (Fl K))} {pobs pratios : List (Fl K)}
    (hbr : Rect Y X bratios) (hb : Box Y X E background) (hbc : Box Y X E backgroundc) (hpobs : pobs.length = points.size)
    (hrat : pratios.length = points.size) (hpbg : Rect points.size E pbg) (hpbgc : Rect points.size E pbgc)
    (hsize : Y * X < points.size) (hcomp : ∃ e < E, Complete (background.flatten ++ backgroundc.flatten ++ pbg ++ pbgc) e) (extrap : Bool) :
    utemGrid T A g bratios background backgroundc points pobs pratios pbg pbgc s maxPoints extrap = .ub := by
  have s1 := (sizes_of_grid hg hbp h).1
  rw [utemGrid_eq hg hbp h hbr hb hbc hpobs hrat hpbg hpbgc extrap,
    c52_utem_out_of_range h (by rw [s1]; exact flatten_length hbr) (by rw [s1]; exact hb.flat) (by rw [s1]; exact hbc.flat) hpobs hrat hpbg
      hpbgc (by rw [s1]; exact hsize) hcomp extrap]
  rfl

end
end Gridpp.Props
