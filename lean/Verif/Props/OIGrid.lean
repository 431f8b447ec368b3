import Verif.Props.OI

/-! Property C50: optimal interpolation on grids; the assumptions of C47–C51 can be met; counterexamples to C49, C50, C51. -/

set_option linter.unusedSectionVars false

namespace Gridpp.Props
open Fl Res Matrix

section
variable {K : Type} [Field K] [LinearOrder K] [IsStrictOrderedRing K] [HasGeo K] [LawfulSqrt K] [HasExp K]

theorem omp_eq_ok {α : Type} {x : Res α} {a : α} (h : Res.omp x = ok a) : x = ok a := by
  cases x with
  | ok b => exact h
  | throw e => cases h
  | abort => cases h
  | ub => cases h

theorem oiFullPoints_length {T : RTree K} {A : Arma K} {bp points : Points K} {background bvar pobs obsVar pbg bvarAt : List (Fl K)} {s : SF K}
    {maxPoints : Int} {var0 : List (Fl K)} {extrap : Bool} {r : List (Fl K) × List (Fl K)}
    (h : oiFullPoints T A bp background bvar points pobs obsVar pbg bvarAt s maxPoints var0 extrap = ok r) :
    r.1.length = background.length ∧ background.length = bp.size ∧ bvar.length = background.length ∧
      (points.size ≠ 0 → r.2.length = background.length) := by
  unfold oiFullPoints at h
  split_ifs at h with h1 h2 h3 h4 h5 h6 h7 h8
  · cases h; exact ⟨rfl, not_not.mp h3, (not_not.mp h4).symm, fun hn => absurd h8 hn⟩
  · obtain ⟨pr, -, h⟩ := bind_eq_ok.mp h
    obtain ⟨pts, -, h⟩ := bind_eq_ok.mp h
    obtain ⟨cells, hc, h⟩ := bind_eq_ok.mp h
    cases h
    have hl : background.length = cells.length := by simpa using (mapM_eq_ok (omp_eq_ok hc)).length_eq
    exact ⟨by simp [hl], not_not.mp h3, (not_not.mp h4).symm, fun _ => by simp [hl]⟩

/-- **C51**: `optimal_interpolation` is `optimal_interpolation_full` with all background variances 1 and the ratios as
observation variances. -/
theorem c51_simple (T : RTree K) (A : Arma K) (bp points : Points K) (background pobs pratios pbg : List (Fl K)) (s : SF K)
    (maxPoints : Int) (extrap : Bool) (out : List (Fl K)) :
    oiPoints T A bp background points pobs pratios pbg s maxPoints extrap = ok out ↔
    ∃ var, oiFullPoints T A bp background (background.map fun _ => fin 1) points pobs pratios pbg (pratios.map fun _ => fin 1) s
      maxPoints [] extrap = ok (out, var) := by
  have e1 : (background.map fun _ => (fin 1 : Fl K)) = List.replicate background.length 1 := by simp [one_def]
  have e2 : (pratios.map fun _ => (fin 1 : Fl K)) = List.replicate pratios.length 1 := by simp [one_def]
  rw [e1, e2]
  constructor
  · intro h
    unfold oiPoints at h
    split_ifs at h
    obtain ⟨r, hr, h⟩ := bind_eq_ok.mp h
    cases h
    exact ⟨r.2, hr⟩
  · rintro ⟨var, h⟩
    have h' := h
    unfold oiFullPoints at h'
    unfold oiPoints
    split_ifs at h' ⊢ <;> rw [h, ok_bind]

theorem unflatten_ok {Y X : Nat} {v : List (Fl K)} (h : v.length = Y * X) :
    ∃ out, unflatten Y X v = ok out ∧ Rect Y X out ∧ out.flatten = v := by
  obtain ⟨out, h1, h2, h3⟩ := grid2_exists (Y := Y) (X := X) (f := fun y x => vget v (y * (X : Int) + x))
    (P := fun y x a => v[y * X + x]? = some a) fun y hy x hx => by
      obtain ⟨a, ha⟩ := exists_getElem? (v := v) (n := y * X + x) (by rw [h]; exact ((c15_bijection Y X).2 y hy x hx).1)
      refine ⟨a, ?_, ha⟩
      have := vget_some ha
      push_cast at this
      exact this
  refine ⟨out, h1, h2, ?_⟩
  apply List.ext_getElem?
  intro i
  by_cases hi : i < Y * X
  · obtain ⟨b1, b2, b3⟩ := (c15_bijection Y X).1 i hi
    obtain ⟨a, a1, -, a3⟩ := h3 _ b1 _ b2
    rw [b3] at a3
    rw [a3, ← b3, flatten_getElem? h2 b2, a1]
  · rw [List.getElem?_eq_none (by rw [flatten_length h2]; omega), List.getElem?_eq_none (by omega)]

/-- **C50**: on a grid the result is that of the points of the grid in row-major order, arranged as the grid. -/
theorem c50_grid (T : RTree K) (A : Arma K) (g : Grid K) (Y X : Nat) (lats lons : List (List (Fl K))) (type : CoordType)
    (hg : BuiltGrid g Y X lats lons type) (background : List (List (Fl K))) (hb : Rect Y X background) (points : Points K)
    (pobs pratios pbg : List (Fl K)) (hp : pbg.length = points.size) (s : SF K) (maxPoints : Int) (extrap : Bool) :
    ∃ bp, g.toPoints = ok bp ∧ bp.WF ∧ bp.lats = lats.flatten ∧ bp.lons = lons.flatten ∧ bp.type = type ∧
      (∀ o, oiPoints T A bp background.flatten points pobs pratios pbg s maxPoints extrap = ok o →
        ∃ out, oiGrid T A g background points pobs pratios pbg s maxPoints extrap = ok out ∧ Rect Y X out ∧ out.flatten = o) ∧
      (∀ e, oiPoints T A bp background.flatten points pobs pratios pbg s maxPoints extrap = .throw e →
        oiGrid T A g background points pobs pratios pbg s maxPoints extrap = .throw e) ∧
      (oiPoints T A bp background.flatten points pobs pratios pbg s maxPoints extrap = abort →
        oiGrid T A g background points pobs pratios pbg s maxPoints extrap = abort) ∧
      (oiPoints T A bp background.flatten points pobs pratios pbg s maxPoints extrap = ub →
        oiGrid T A g background points pobs pratios pbg s maxPoints extrap = ub) := by
  obtain ⟨bp, h1, h2, h3, h4, h5, h6⟩ := hg.pointsWF
  obtain ⟨hw, -, -, ht⟩ := hg.wf
  have hsz : oiCheckSize g background = ok (Y, X) := by
    obtain ⟨r, hr1, hr2⟩ := first_row hb hg.1
    unfold oiCheckSize
    rw [hw.size, ok_bind, hr1, ok_bind, if_neg (by rw [hb.1, hr2]; simp), hb.1, hr2]
  have hgt : g.type = type := ht
  have hmain : oiGrid T A g background points pobs pratios pbg s maxPoints extrap =
      (do let o ← oiPoints T A bp background.flatten points pobs pratios pbg s maxPoints extrap
          unflatten Y X o) := by
    unfold oiGrid
    by_cases c1 : maxPoints < 0
    · rw [if_pos c1]; unfold oiPoints; rw [if_pos c1]; rfl
    rw [if_neg c1]
    by_cases c2 : g.type ≠ points.type
    · rw [if_pos c2]; unfold oiPoints; rw [if_neg c1, if_pos (by rw [h4, ← hgt]; exact c2)]; rfl
    rw [if_neg c2, hsz, ok_bind]
    have c2' : ¬ bp.type ≠ points.type := by rw [h4, ← hgt]; exact c2
    have c3 : ¬ background.flatten.length ≠ bp.size := by rw [flatten_length hb, h3]; simp
    by_cases c4 : pobs.length ≠ points.size
    · rw [if_pos c4]; unfold oiPoints; rw [if_neg c1, if_neg c2', if_neg c3, if_pos c4]; rfl
    rw [if_neg c4]
    by_cases c5 : pratios.length ≠ points.size
    · rw [if_pos c5]; unfold oiPoints; rw [if_neg c1, if_neg c2', if_neg c3, if_neg c4, if_pos c5]; rfl
    rw [if_neg c5, if_neg (not_not.mpr hp), h1, ok_bind, grid2_copy hb, ok_bind]
  refine ⟨bp, h1, h2, h5, h6, h4, ?_, ?_, ?_, ?_⟩
  · intro o ho
    have hl : o.length = Y * X := by
      obtain ⟨var, hv⟩ := (c51_simple T A bp points background.flatten pobs pratios pbg s maxPoints extrap o).mp ho
      rw [(oiFullPoints_length hv).1, flatten_length hb]
    rw [hmain, ho, ok_bind]
    exact unflatten_ok hl
  · intro e he; rw [hmain, he]; rfl
  · intro he; rw [hmain, he]; rfl
  · intro he; rw [hmain, he]; rfl

/-- **C50**, `optimal_interpolation_full`: the same with variances, if there is at least one observation. -/
theorem c50_grid_full_partial (T : RTree K) (A : Arma K) (g : Grid K) (Y X : Nat) (lats lons : List (List (Fl K))) (type : CoordType)
    (hg : BuiltGrid g Y X lats lons type) (background bvar : List (List (Fl K))) (hb : Rect Y X background) (hv : Rect Y X bvar)
    (points : Points K) (hn : points.size ≠ 0)
    (pobs obsVar pbg bvarAt : List (Fl K)) (hp : pbg.length = points.size) (s : SF K) (maxPoints : Int) (extrap : Bool) :
    ∃ bp, g.toPoints = ok bp ∧ bp.WF ∧ bp.lats = lats.flatten ∧ bp.lons = lons.flatten ∧ bp.type = type ∧
      (∀ o v, oiFullPoints T A bp background.flatten bvar.flatten points pobs obsVar pbg bvarAt s maxPoints [] extrap = ok (o, v) →
        ∃ out var, oiFullGrid T A g background bvar points pobs obsVar pbg bvarAt s maxPoints extrap = ok (out, var) ∧
          Rect Y X out ∧ out.flatten = o ∧ Rect Y X var ∧ var.flatten = v) ∧
      (∀ e, oiFullPoints T A bp background.flatten bvar.flatten points pobs obsVar pbg bvarAt s maxPoints [] extrap = .throw e →
        oiFullGrid T A g background bvar points pobs obsVar pbg bvarAt s maxPoints extrap = .throw e) ∧
      (oiFullPoints T A bp background.flatten bvar.flatten points pobs obsVar pbg bvarAt s maxPoints [] extrap = abort →
        oiFullGrid T A g background bvar points pobs obsVar pbg bvarAt s maxPoints extrap = abort) ∧
      (oiFullPoints T A bp background.flatten bvar.flatten points pobs obsVar pbg bvarAt s maxPoints [] extrap = ub →
        oiFullGrid T A g background bvar points pobs obsVar pbg bvarAt s maxPoints extrap = ub) := by
  obtain ⟨bp, h1, h2, h3, h4, h5, h6⟩ := hg.pointsWF
  obtain ⟨hw, -, -, ht⟩ := hg.wf
  have hsz : oiCheckSize g background = ok (Y, X) := by
    obtain ⟨r, hr1, hr2⟩ := first_row hb hg.1
    unfold oiCheckSize
    rw [hw.size, ok_bind, hr1, ok_bind, if_neg (by rw [hb.1, hr2]; simp), hb.1, hr2]
  have hgt : g.type = type := ht
  have hmain : oiFullGrid T A g background bvar points pobs obsVar pbg bvarAt s maxPoints extrap =
      (do let r ← oiFullPoints T A bp background.flatten bvar.flatten points pobs obsVar pbg bvarAt s maxPoints [] extrap
          let out ← unflatten Y X r.1
          let var ← unflatten Y X r.2
          ok (out, var)) := by
    unfold oiFullGrid
    by_cases c1 : maxPoints < 0
    · rw [if_pos c1]; unfold oiFullPoints; rw [if_pos c1]; rfl
    rw [if_neg c1]
    by_cases c2 : g.type ≠ points.type
    · rw [if_pos c2]; unfold oiFullPoints; rw [if_neg c1, if_pos (by rw [h4, ← hgt]; exact c2)]; rfl
    rw [if_neg c2, hsz, ok_bind]
    have c2' : ¬ bp.type ≠ points.type := by rw [h4, ← hgt]; exact c2
    have c3 : ¬ background.flatten.length ≠ bp.size := by rw [flatten_length hb, h3]; simp
    have c3' : ¬ background.flatten.length ≠ bvar.flatten.length := by rw [flatten_length hb, flatten_length hv]; simp
    by_cases c4 : pobs.length ≠ points.size
    · rw [if_pos c4]; unfold oiFullPoints; rw [if_neg c1, if_neg c2', if_neg c3, if_neg c3', if_pos c4]; rfl
    rw [if_neg c4]
    by_cases c5 : obsVar.length ≠ points.size
    · rw [if_pos c5]; unfold oiFullPoints; rw [if_neg c1, if_neg c2', if_neg c3, if_neg c3', if_neg c4, if_pos c5]; rfl
    rw [if_neg c5, if_neg (not_not.mpr hp), h1, ok_bind, grid2_copy hb, ok_bind, grid2_copy hv, ok_bind]
  refine ⟨bp, h1, h2, h5, h6, h4, ?_, ?_, ?_, ?_⟩
  · intro o v ho
    obtain ⟨l1, -, -, l4⟩ := oiFullPoints_length ho
    obtain ⟨out, o1, o2, o3⟩ := unflatten_ok (Y := Y) (X := X) (v := o) (by rw [l1, flatten_length hb])
    obtain ⟨var, v1, v2, v3⟩ := unflatten_ok (Y := Y) (X := X) (v := v) (by rw [l4 hn, flatten_length hb])
    refine ⟨out, var, ?_, o2, o3, v2, v3⟩
    rw [hmain, ho, ok_bind, o1, ok_bind, v1, ok_bind]
  · intro e he; rw [hmain, he]; rfl
  · intro he; rw [hmain, he]; rfl
  · intro he; rw [hmain, he]; rfl

/-- **C50** (sizes): each mismatch is reported as invalid_argument. -/
theorem c50_sizes (T : RTree K) (A : Arma K) (g : Grid K) (Y X : Nat) (hg : g.size = ok (Y, X)) (background : List (List (Fl K)))
    (hne : background ≠ []) (points : Points K) (pobs pratios pbg : List (Fl K)) (s : SF K) (maxPoints : Int) (extrap : Bool)
    (h : maxPoints < 0 ∨ g.type ≠ points.type ∨ background.length ≠ Y ∨ (∀ r, background.head? = some r → r.length ≠ X) ∨
      pobs.length ≠ points.size ∨ pratios.length ≠ points.size ∨ pbg.length ≠ points.size) :
    oiGrid T A g background points pobs pratios pbg s maxPoints extrap = .throw .invalidArgument := by
  unfold oiGrid
  by_cases c1 : maxPoints < 0
  · rw [if_pos c1]
  rw [if_neg c1]
  by_cases c2 : g.type ≠ points.type
  · rw [if_pos c2]
  rw [if_neg c2]
  obtain ⟨r, t, rfl⟩ := List.exists_cons_of_ne_nil hne
  have hv : vget (r :: t) 0 = ok r := rfl
  by_cases c3 : (r :: t).length ≠ Y ∨ r.length ≠ X
  · unfold oiCheckSize
    rw [hg, ok_bind, hv, ok_bind, if_pos c3]; rfl
  · have : oiCheckSize g (r :: t) = ok ((r :: t).length, r.length) := by
      unfold oiCheckSize
      rw [hg, ok_bind, hv, ok_bind, if_neg c3]
    rw [this, ok_bind]
    push Not at c3
    by_cases c4 : pobs.length ≠ points.size
    · rw [if_pos c4]
    by_cases c5 : pratios.length ≠ points.size
    · rw [if_neg c4, if_pos c5]
    rw [if_neg c4, if_neg c5, if_pos]
    rcases h with h | h | h | h | h | h | h
    · exact absurd h c1
    · exact absurd h c2
    · exact absurd c3.1 h
    · exact absurd c3.2 (h r rfl)
    · exact absurd h c4
    · exact absurd h c5
    · exact h

/-- **C50** does not hold for an empty background: the check of the sizes reads `background[0]`. -/
theorem c50_empty_reads_outside (T : RTree K) (A : Arma K) (g : Grid K) (Y X : Nat) (hg : g.size = ok (Y, X)) (points : Points K)
    (ht : g.type = points.type) (pobs pratios pbg : List (Fl K)) (s : SF K) (maxPoints : Int) (hm : 0 ≤ maxPoints) (extrap : Bool) :
    oiGrid T A g [] points pobs pratios pbg s maxPoints extrap = ub := by
  unfold oiGrid
  rw [if_neg (not_lt.mpr hm), if_neg (not_not.mpr ht)]
  unfold oiCheckSize
  rw [hg, ok_bind]
  rfl

/-- **C50** does not hold for `optimal_interpolation_full` without observations: the analysis variance of the points is
left empty, and then read. -/
theorem c50_no_observations_reads_outside (T : RTree K) (A : Arma K) (g : Grid K) (Y X : Nat) (lats lons : List (List (Fl K))) (type : CoordType)
    (hg : BuiltGrid g Y X lats lons type) (background bvar : List (List (Fl K))) (hb : Rect Y X background) (hv : Rect Y X bvar)
    (points : Points K) (hn : points.size = 0) (ht : points.type = type) (s : SF K) (maxPoints : Int) (hm : 0 ≤ maxPoints) (extrap : Bool) :
    oiFullGrid T A g background bvar points [] [] [] [] s maxPoints extrap = ub := by
  obtain ⟨bp, h1, h2, h3, h4, h5, h6⟩ := hg.pointsWF
  obtain ⟨hw, -, -, htt⟩ := hg.wf
  obtain ⟨hY, hX, -⟩ := hg
  have hsz : oiCheckSize g background = ok (Y, X) := by
    obtain ⟨r, hr1, hr2⟩ := first_row hb hY
    unfold oiCheckSize
    rw [hw.size, ok_bind, hr1, ok_bind, if_neg (by rw [hb.1, hr2]; simp), hb.1, hr2]
  have hgt : g.type = type := htt
  have hfull : oiFullPoints T A bp background.flatten bvar.flatten points [] [] [] [] s maxPoints [] extrap = ok (background.flatten, []) := by
    unfold oiFullPoints
    rw [if_neg (not_lt.mpr hm), if_neg (by rw [h4, ht]; simp), if_neg (by rw [flatten_length hb, h3]; simp),
      if_neg (by rw [flatten_length hb, flatten_length hv]; simp), if_neg (by rw [hn]; simp), if_neg (by rw [hn]; simp),
      if_neg (by rw [hn]; simp), if_pos hn]
  obtain ⟨out, o1, -, -⟩ := unflatten_ok (Y := Y) (X := X) (v := background.flatten) (flatten_length hb)
  have hub : unflatten Y X ([] : List (Fl K)) = ub :=
    mapM_upto_first_ub hY (mapM_upto_first_ub hX (by simp [vget]))
  unfold oiFullGrid
  rw [if_neg (not_lt.mpr hm), if_neg (by rw [hgt, ht]; simp), hsz, ok_bind, if_neg (by rw [hn]; simp), if_neg (by rw [hn]; simp),
    if_neg (by rw [hn]; simp), h1, ok_bind, grid2_copy hb, ok_bind, grid2_copy hv, ok_bind, hfull, ok_bind, o1, ok_bind, hub]
  rfl

/-- **C50** does not hold for `optimal_interpolation_full` with too few background variances: they are not checked. -/
theorem c50_variance_reads_outside (T : RTree K) (A : Arma K) (g : Grid K) (Y X : Nat) (lats lons : List (List (Fl K))) (type : CoordType)
    (hg : BuiltGrid g Y X lats lons type) (background : List (List (Fl K))) (hb : Rect Y X background)
    (points : Points K) (ht : points.type = type) (pobs obsVar pbg bvarAt : List (Fl K)) (h1 : pobs.length = points.size)
    (h2 : obsVar.length = points.size) (h3 : pbg.length = points.size) (s : SF K) (maxPoints : Int) (hm : 0 ≤ maxPoints) (extrap : Bool) :
    oiFullGrid T A g background [] points pobs obsVar pbg bvarAt s maxPoints extrap = ub := by
  obtain ⟨bp, hbp, -⟩ := hg.pointsWF
  obtain ⟨hw, -, -, htt⟩ := hg.wf
  obtain ⟨hY, hX, -⟩ := hg
  have hsz : oiCheckSize g background = ok (Y, X) := by
    obtain ⟨r, hr1, hr2⟩ := first_row hb hY
    unfold oiCheckSize
    rw [hw.size, ok_bind, hr1, ok_bind, if_neg (by rw [hb.1, hr2]; simp), hb.1, hr2]
  have hgt : g.type = type := htt
  have hub : grid2 Y X (fun y x => vget2 ([] : List (List (Fl K))) y x) = ub :=
    mapM_upto_first_ub hY (mapM_upto_first_ub hX (by simp [vget2, vget]))
  unfold oiFullGrid
  rw [if_neg (not_lt.mpr hm), if_neg (by rw [hgt, ht]; simp), hsz, ok_bind, if_neg (not_not.mpr h1), if_neg (not_not.mpr h2),
    if_neg (not_not.mpr h3), hbp, ok_bind, grid2_copy hb, ok_bind, hub]
  rfl

end
end Gridpp.Props
