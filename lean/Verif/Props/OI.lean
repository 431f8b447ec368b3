import Verif.Lemmas.OI2
import Mathlib.Tactic.FieldSimp
import Mathlib.Tactic.Positivity

/-! Properties C47, C48, C49 and C51: optimal interpolation at points. -/

set_option linter.unusedSectionVars false

namespace Gridpp.Props
open Fl Res Matrix

section
variable {K : Type} [Field K] [LinearOrder K] [IsStrictOrderedRing K] [HasGeo K] [LawfulSqrt K] [HasExp K]

/-- Arguments of `optimal_interpolation_full` that fit together: libraries as required, points as constructed, same
coordinate types, matching sizes, numbers for the correlations (`L`, `G`, `P`), and for observation `i` that is valid and has
a valid background: `d i` its innovation and `ratio i` the ratio of its variances, where the background variance is a number
that is not 0. -/
structure Setting (T : RTree K) (A : Arma K) (bp : Points K) (background bvar : List (Fl K)) (points : Points K)
    (pobs obsVar pbg bvarAt : List (Fl K)) (s : SF K) (maxPoints : Int) (L : Nat → Fl K) (G P : Nat → Nat → K) (ratio d : Nat → K) :
    Prop where
  htree : T.Lawful
  harma : A.Lawful
  hbp : bp.WF
  hpoints : points.WF
  htype : bp.type = points.type
  hbackground : background.length = bp.size
  hbvar : bvar.length = bp.size
  hpobs : pobs.length = points.size
  hobsVar : obsVar.length = points.size
  hpbg : pbg.length = points.size
  hbvarAt : bvarAt.length = points.size
  hmax : 0 ≤ maxPoints
  hcorr : Correlations T s bp points L G P
  hinnov : ∀ (i : Nat) o b, pobs[i]? = some (fin o) → pbg[i]? = some (fin b) → d i = o - b
  hratio : ∀ (i : Nat) o b, pobs[i]? = some (fin o) → pbg[i]? = some (fin b) →
    ∃ x z, obsVar[i]? = some (fin x) ∧ bvarAt[i]? = some (fin z) ∧ z ≠ 0 ∧ ratio i = x / z

theorem mapM_ok_or_throw {α β : Type} (f : α → Res β) (l : List α) (h : ∀ a ∈ l, (∃ b, f a = ok b) ∨ ∃ e, f a = .throw e) :
    (∃ bs, mapM f l = ok bs) ∨ ∃ e, mapM f l = .throw e := by
  induction l with
  | nil => exact Or.inl ⟨[], rfl⟩
  | cons a t ih =>
    rw [mapM_cons]
    rcases h a (by simp) with ⟨b, hb⟩ | ⟨e, he⟩
    · rw [hb, ok_bind]
      rcases ih fun a ha => h a (List.mem_cons_of_mem _ ha) with ⟨bs, hbs⟩ | ⟨e, he⟩
      · left; rw [hbs]; exact ⟨_, rfl⟩
      · right; rw [he]; exact ⟨e, rfl⟩
    · right; rw [he]; exact ⟨e, rfl⟩

variable {T : RTree K} {A : Arma K} {bp points : Points K} {background bvar pobs obsVar pbg bvarAt : List (Fl K)} {s : SF K}
  {maxPoints : Int} {L : Nat → Fl K} {G P : Nat → Nat → K} {ratio d : Nat → K}

/-- The loop, with the lists that are prepared before it. -/
theorem Setting.run (h : Setting T A bp background bvar points pobs obsVar pbg bvarAt s maxPoints L G P ratio d) (hn : points.size ≠ 0)
    (var0 : List (Fl K)) (extrap : Bool) :
    ∃ pratios pts, mapM (fun i : Nat => points.getPoint (i : Int)) (List.range points.size) = ok pts ∧
      (∀ (i : Nat) o b, pobs[i]? = some (fin o) → pbg[i]? = some (fin b) → pratios[i]? = some (fin (ratio i))) ∧
      oiFullPoints T A bp background bvar points pobs obsVar pbg bvarAt s maxPoints var0 extrap = (do
        let cells ← Res.omp (mapM (oiCell T A bp background bvar points pts pobs pratios pbg s maxPoints extrap)
          (List.range background.length))
        ok (cells.map Prod.fst, cells.map Prod.snd)) := by
  obtain ⟨pts, hpts⟩ := mapM_exists (f := fun i : Nat => points.getPoint (i : Int)) (List.range points.size) fun i hi => by
    obtain ⟨p, -, hp, -⟩ := h.hpoints.point (List.mem_range.mp hi)
    exact ⟨p, hp⟩
  obtain ⟨pr, hpr⟩ := mapM_exists (f := fun i : Nat => do
      let a ← vget obsVar (i : Int)
      let b ← vget bvarAt (i : Int)
      ok (a / b)) (List.range points.size) fun i hi => by
    have hi := List.mem_range.mp hi
    obtain ⟨a, ha⟩ := exists_getElem? (v := obsVar) (n := i) (by rw [h.hobsVar]; exact hi)
    obtain ⟨b, hb⟩ := exists_getElem? (v := bvarAt) (n := i) (by rw [h.hbvarAt]; exact hi)
    exact ⟨a / b, by rw [vget_some ha, ok_bind, vget_some hb, ok_bind]⟩
  refine ⟨pr, pts, hpts, ?_, ?_⟩
  · intro i o b ho hb
    obtain ⟨x, z, h1, h2, h3, h4⟩ := h.hratio i o b ho hb
    have hi : i < points.size := by rw [← h.hpobs]; exact (List.getElem?_eq_some_iff.mp ho).1
    have hf := mapM_eq_ok hpr
    have hl : points.size = pr.length := by simpa using hf.length_eq
    have := (List.forall₂_iff_get.mp hf).2 i (by simpa using hi) (by omega)
    simp only [List.get_eq_getElem, List.getElem_range] at this
    rw [vget_some h1, ok_bind, vget_some h2, ok_bind, fin_div_of_ne _ h3, ← h4] at this
    rw [List.getElem?_eq_getElem (by omega)]
    exact congrArg some (Res.ok.inj this).symm
  · unfold oiFullPoints
    rw [if_neg (not_lt.mpr h.hmax), if_neg (not_not.mpr h.htype), if_neg (not_not.mpr h.hbackground),
      if_neg (not_not.mpr (h.hbackground.trans h.hbvar.symm)), if_neg (not_not.mpr h.hpobs), if_neg (not_not.mpr h.hobsVar),
      if_neg (not_not.mpr h.hbvarAt), if_neg hn, hpr, ok_bind, hpts, ok_bind]

/-- What is known of one output point. -/
theorem Setting.cell (h : Setting T A bp background bvar points pobs obsVar pbg bvarAt s maxPoints L G P ratio d) (hn : points.size ≠ 0)
    (var0 : List (Fl K)) (extrap : Bool) (out var : List (Fl K))
    (hout : oiFullPoints T A bp background bvar points pobs obsVar pbg bvarAt s maxPoints var0 extrap = ok (out, var))
    (y : Nat) (b : Fl K) (hy : background[y]? = some b) :
    ∃ pratios pts, mapM (fun i : Nat => points.getPoint (i : Int)) (List.range points.size) = ok pts ∧
      (∀ (i : Nat) o b, pobs[i]? = some (fin o) → pbg[i]? = some (fin b) → pratios[i]? = some (fin (ratio i))) ∧
      ∃ c, oiCell T A bp background bvar points pts pobs pratios pbg s maxPoints extrap y = ok c ∧ out[y]? = some c.1 ∧ var[y]? = some c.2 := by
  obtain ⟨pr, pts, h1, h2, h3⟩ := h.run hn var0 extrap
  refine ⟨pr, pts, h1, h2, ?_⟩
  rw [h3] at hout
  obtain ⟨cells, hc, hout⟩ := bind_eq_ok.mp hout
  cases hm : mapM (oiCell T A bp background bvar points pts pobs pr pbg s maxPoints extrap) (List.range background.length) with
  | ok cs =>
    rw [hm] at hc
    cases hc
    cases hout
    have hf := mapM_eq_ok hm
    have hl : background.length = cells.length := by simpa using hf.length_eq
    have hyl : y < background.length := (List.getElem?_eq_some_iff.mp hy).1
    have := (List.forall₂_iff_get.mp hf).2 y (by simpa using hyl) (by omega)
    simp only [List.get_eq_getElem, List.getElem_range] at this
    exact ⟨cells[y], this, by simp [hl ▸ hyl], by simp [hl ▸ hyl]⟩
  | throw e => rw [hm] at hc; cases hc
  | abort => rw [hm] at hc; cases hc
  | ub => rw [hm] at hc; cases hc

/-- **C47** (no observations): the background is returned; the analysis variance is left as it was. -/
theorem c47_no_observations (h : Setting T A bp background bvar points pobs obsVar pbg bvarAt s maxPoints L G P ratio d) (hn : points.size = 0)
    (var0 : List (Fl K)) (extrap : Bool) :
    oiFullPoints T A bp background bvar points pobs obsVar pbg bvarAt s maxPoints var0 extrap = ok (background, var0) := by
  unfold oiFullPoints
  rw [if_neg (not_lt.mpr h.hmax), if_neg (not_not.mpr h.htype), if_neg (not_not.mpr h.hbackground),
    if_neg (not_not.mpr (h.hbackground.trans h.hbvar.symm)), if_neg (not_not.mpr h.hpobs), if_neg (not_not.mpr h.hobsVar),
    if_neg (not_not.mpr h.hbvarAt), if_pos hn]

/-- The result has the size of the background. -/
theorem c47_sizes (h : Setting T A bp background bvar points pobs obsVar pbg bvarAt s maxPoints L G P ratio d) (hn : points.size ≠ 0)
    (var0 : List (Fl K)) (extrap : Bool) (out var : List (Fl K))
    (hout : oiFullPoints T A bp background bvar points pobs obsVar pbg bvarAt s maxPoints var0 extrap = ok (out, var)) :
    out.length = background.length ∧ var.length = background.length := by
  obtain ⟨pr, pts, h1, h2, h3⟩ := h.run hn var0 extrap
  rw [h3] at hout
  obtain ⟨cells, hc, hout⟩ := bind_eq_ok.mp hout
  cases hm : mapM (oiCell T A bp background bvar points pts pobs pr pbg s maxPoints extrap) (List.range background.length) with
  | ok cs =>
    rw [hm] at hc
    cases hc
    cases hout
    have hl : background.length = cells.length := by simpa using (mapM_eq_ok hm).length_eq
    simp [hl]
  | throw e => rw [hm] at hc; cases hc
  | abort => rw [hm] at hc; cases hc
  | ub => rw [hm] at hc; cases hc

/-- **C47**: an output point with an invalid background, or for which no observation can be used, keeps its background value
and its background variance. -/
theorem c47_unaffected (h : Setting T A bp background bvar points pobs obsVar pbg bvarAt s maxPoints L G P ratio d) (hn : points.size ≠ 0)
    (var0 : List (Fl K)) (extrap : Bool) (out var : List (Fl K))
    (hout : oiFullPoints T A bp background bvar points pobs obsVar pbg bvarAt s maxPoints var0 extrap = ok (out, var))
    (y : Nat) (b bv : Fl K) (hy : background[y]? = some b) (hv : bvar[y]? = some bv)
    (hno : b.isValid = false ∨ ∀ i, ¬ Usable bp points pobs pbg (L y) (G y) y i) : out[y]? = some b ∧ var[y]? = some bv := by
  obtain ⟨pr, pts, h1, h2, c, h3, h4, h5⟩ := h.cell hn var0 extrap out var hout y b hy
  have := (oiCell_spec h.htree h.harma h.hbp h.hpoints h.htype h.hbackground h.hpobs h.hpbg h.hcorr h1 h.hinnov h2 h.hmax extrap hy hv).1 hno
  rw [h3] at this
  cases this
  exact ⟨h4, h5⟩

/-- **C48** and **C51** (general formula): any other output point uses a selection of the usable observations — at most
`max_points`, the best correlated — whose covariance matrix is invertible. With the weights `w` that solve the linear system,
the increment is the weighted sum of the innovations (limited if extrapolation is not allowed) and the variance is
`bvariance * (1 - w . rho)`. -/
theorem c48_analysis (h : Setting T A bp background bvar points pobs obsVar pbg bvarAt s maxPoints L G P ratio d) (hn : points.size ≠ 0)
    (var0 : List (Fl K)) (extrap : Bool) (out var : List (Fl K))
    (hout : oiFullPoints T A bp background bvar points pobs obsVar pbg bvarAt s maxPoints var0 extrap = ok (out, var))
    (y : Nat) (b0 : K) (bv : Fl K) (hy : background[y]? = some (fin b0)) (hv : bvar[y]? = some bv)
    (hu : ∃ i, Usable bp points pobs pbg (L y) (G y) y i) :
    ∃ (n : Nat) (sel : Fin n → Nat), 0 < n ∧ Spec.Selection (Usable bp points pobs pbg (L y) (G y) y) (G y) maxPoints.toNat sel ∧
      (Spec.system sel P ratio).det ≠ 0 ∧
      ∃ w : Fin n → K, w ᵥ* Spec.system sel P ratio = G y ∘ sel ∧ ∃ inc, out[y]? = some (fin (b0 + inc)) ∧
        var[y]? = some (bv * fin (1 - w ⬝ᵥ (G y ∘ sel))) ∧
        (extrap = true → inc = w ⬝ᵥ (d ∘ sel)) ∧ (extrap = false → Spec.Limited (d ∘ sel) (w ⬝ᵥ (d ∘ sel)) inc) := by
  obtain ⟨pr, pts, h1, h2, c, h3, h4, h5⟩ := h.cell hn var0 extrap out var hout y _ hy
  obtain ⟨n, sel, e1, e2, e3, e4⟩ := (oiCell_spec h.htree h.harma h.hbp h.hpoints h.htype h.hbackground h.hpobs h.hpbg h.hcorr h1 h.hinnov h2 h.hmax
    extrap hy hv).2 b0 rfl hu
  have hdet : (Spec.system sel P ratio).det ≠ 0 := fun hd => by
    rw [e4 hd] at h3; cases h3
  obtain ⟨w, w1, inc, w2, w3⟩ := e3 hdet
  rw [h3] at w2
  cases w2
  exact ⟨n, sel, e1, e2, hdet, w, w1, inc, h4, h5, w3⟩

/-- **C51** (outcome): for arguments that fit together there is a result, or the program ends because a covariance matrix is
singular; no element outside an array is read. -/
theorem c51_outcome (h : Setting T A bp background bvar points pobs obsVar pbg bvarAt s maxPoints L G P ratio d)
    (var0 : List (Fl K)) (extrap : Bool) :
    (∃ out var, oiFullPoints T A bp background bvar points pobs obsVar pbg bvarAt s maxPoints var0 extrap = ok (out, var)) ∨
    (oiFullPoints T A bp background bvar points pobs obsVar pbg bvarAt s maxPoints var0 extrap = abort ∧
      ∃ (y n : Nat) (sel : Fin n → Nat), Spec.Selection (Usable bp points pobs pbg (L y) (G y) y) (G y) maxPoints.toNat sel ∧
        (Spec.system sel P ratio).det = 0) := by
  by_cases hn : points.size = 0
  · left; exact ⟨_, _, c47_no_observations h hn var0 extrap⟩
  obtain ⟨pr, pts, h1, h2, h3⟩ := h.run hn var0 extrap
  rw [h3]
  have key : ∀ y ∈ List.range background.length,
      (∃ c, oiCell T A bp background bvar points pts pobs pr pbg s maxPoints extrap y = ok c) ∨
      (oiCell T A bp background bvar points pts pobs pr pbg s maxPoints extrap y = .throw .runtimeError ∧
        ∃ (n : Nat) (sel : Fin n → Nat), Spec.Selection (Usable bp points pobs pbg (L y) (G y) y) (G y) maxPoints.toNat sel ∧
        (Spec.system sel P ratio).det = 0) := by
    intro y hy
    have hy := List.mem_range.mp hy
    obtain ⟨b, hb⟩ := exists_getElem? hy
    obtain ⟨bv, hv⟩ := exists_getElem? (v := bvar) (n := y) (by rw [h.hbvar, ← h.hbackground]; exact hy)
    obtain ⟨e1, e2⟩ := oiCell_spec h.htree h.harma h.hbp h.hpoints h.htype h.hbackground h.hpobs h.hpbg h.hcorr h1 h.hinnov h2 h.hmax extrap hb hv
    by_cases hc : b.isValid = false ∨ ∀ i, ¬ Usable bp points pobs pbg (L y) (G y) y i
    · exact Or.inl ⟨_, e1 hc⟩
    · push Not at hc
      obtain ⟨b0, rfl⟩ := exists_fin_of_valid (by simpa using hc.1)
      obtain ⟨n, sel, -, c1, c2, c3⟩ := e2 b0 rfl hc.2
      by_cases hd : (Spec.system sel P ratio).det = 0
      · exact Or.inr ⟨c3 hd, n, sel, c1, hd⟩
      · obtain ⟨w, -, inc, hw, -⟩ := c2 hd
        exact Or.inl ⟨_, hw⟩
  by_cases hall : ∀ y ∈ List.range background.length, ∃ c, oiCell T A bp background bvar points pts pobs pr pbg s maxPoints extrap y = ok c
  · obtain ⟨cs, hcs⟩ := mapM_exists _ hall
    left
    rw [hcs]
    exact ⟨_, _, rfl⟩
  · right
    push Not at hall
    obtain ⟨y, hy, hno⟩ := hall
    constructor
    · rcases mapM_ok_or_throw (oiCell T A bp background bvar points pts pobs pr pbg s maxPoints extrap) (List.range background.length)
        (fun y hy => (key y hy).imp id fun h => ⟨_, h.1⟩) with ⟨cs, hcs⟩ | ⟨e, he⟩
      · exfalso
        have hf := mapM_eq_ok hcs
        have hl : background.length = cs.length := by simpa using hf.length_eq
        have hy := List.mem_range.mp hy
        have := (List.forall₂_iff_get.mp hf).2 y (by simpa using hy) (by omega)
        simp only [List.get_eq_getElem, List.getElem_range] at this
        exact hno _ this
      · rw [he]; rfl
    · rcases key y hy with ⟨c, hc⟩ | ⟨-, n, sel, h⟩
      · exact absurd hc (hno c)
      · exact ⟨y, n, sel, h⟩

/-- **C49** (not in the case `Gap`: largest innovation exactly 0 and positive increment, or smallest exactly 0 and negative
increment): without extrapolation the increment is between min(0, smallest innovation) and max(0, largest innovation). -/
theorem c49_limited_partial {n : Nat} (dd : Fin n → K) (x inc : K) (h : Spec.Limited dd x inc) (hg : ¬ Spec.Gap dd x) : Spec.InRange dd inc := by
  by_cases hr : Spec.InRange dd x
  · rw [h.keep (Or.inl hr)]; exact hr
  · rcases lt_trichotomy x 0 with hx | hx | hx
    · obtain ⟨⟨a, ha⟩, h2⟩ := h.below hr hg hx
      refine ⟨Or.inr ⟨a, ha.ge⟩, Or.inr ⟨a, ha.le⟩⟩
    · exact absurd ⟨Or.inl hx.ge, Or.inl hx.le⟩ hr
    · obtain ⟨⟨a, ha⟩, h2⟩ := h.above hr hg hx
      refine ⟨Or.inr ⟨a, ha.ge⟩, Or.inr ⟨a, ha.le⟩⟩

/-- **C49** for the analysis: if no innovation is exactly 0, then without extrapolation the analysis minus the background is
between min(0, smallest innovation used) and max(0, largest innovation used). -/
theorem c49_analysis_partial (h : Setting T A bp background bvar points pobs obsVar pbg bvarAt s maxPoints L G P ratio d) (hn : points.size ≠ 0)
    (var0 : List (Fl K)) (out var : List (Fl K))
    (hout : oiFullPoints T A bp background bvar points pobs obsVar pbg bvarAt s maxPoints var0 false = ok (out, var))
    (y : Nat) (b0 : K) (hy : background[y]? = some (fin b0))
    (hu : ∃ i, Usable bp points pobs pbg (L y) (G y) y i) (h0 : ∀ i, Usable bp points pobs pbg (L y) (G y) y i → d i ≠ 0) :
    ∃ (n : Nat) (sel : Fin n → Nat), Spec.Selection (Usable bp points pobs pbg (L y) (G y) y) (G y) maxPoints.toNat sel ∧
      ∃ v, out[y]? = some (fin v) ∧ Spec.InRange (d ∘ sel) (v - b0) := by
  have hyl : y < background.length := (List.getElem?_eq_some_iff.mp hy).1
  obtain ⟨bv, hv⟩ := exists_getElem? (v := bvar) (n := y) (by rw [h.hbvar, ← h.hbackground]; exact hyl)
  obtain ⟨n, sel, -, hs, -, w, -, inc, h1, -, -, h2⟩ := c48_analysis h hn var0 false out var hout y b0 bv hy hv hu
  refine ⟨n, sel, hs, _, h1, ?_⟩
  rw [add_sub_cancel_left]
  refine c49_limited_partial _ _ _ (h2 rfl) ?_
  rintro (⟨-, -, a, ha⟩ | ⟨-, -, a, ha⟩)
  · exact h0 _ (hs.mem a) ha
  · exact h0 _ (hs.mem a) ha

/-- **C51** (one observation): if exactly one observation `i` can be used, its correlation with itself is 1, its ratio is not
negative and its correlation with the output point is at most 1, then the analysis is
background + rho / (1 + ratio) * innovation, with or without extrapolation; it lies between the background and the
background plus the innovation; and the variance is bvariance * (1 - rho^2 / (1 + ratio)), between 0 and bvariance. -/
theorem c51_one (h : Setting T A bp background bvar points pobs obsVar pbg bvarAt s maxPoints L G P ratio d) (hn : points.size ≠ 0)
    (var0 : List (Fl K)) (extrap : Bool) (out var : List (Fl K))
    (hout : oiFullPoints T A bp background bvar points pobs obsVar pbg bvarAt s maxPoints var0 extrap = ok (out, var))
    (y : Nat) (b0 v0 : K) (hy : background[y]? = some (fin b0)) (hv : bvar[y]? = some (fin v0)) (hv0 : 0 ≤ v0)
    (i : Nat) (hi : Usable bp points pobs pbg (L y) (G y) y i) (hone : ∀ j, Usable bp points pobs pbg (L y) (G y) y j → j = i)
    (hself : P i i = 1) (hrat : 0 ≤ ratio i) (hrho : G y i ≤ 1) :
    out[y]? = some (fin (b0 + G y i / (1 + ratio i) * d i)) ∧
    min b0 (b0 + d i) ≤ b0 + G y i / (1 + ratio i) * d i ∧ b0 + G y i / (1 + ratio i) * d i ≤ max b0 (b0 + d i) ∧
    var[y]? = some (fin (v0 * (1 - G y i * G y i / (1 + ratio i)))) ∧
    0 ≤ v0 * (1 - G y i * G y i / (1 + ratio i)) ∧ v0 * (1 - G y i * G y i / (1 + ratio i)) ≤ v0 := by
  obtain ⟨n, sel, hn0, hs, hdet, w, hw, inc, h1, h2, h3, h4⟩ := c48_analysis h hn var0 extrap out var hout y b0 _ hy hv ⟨i, hi⟩
  have hsel : ∀ a, sel a = i := fun a => hone _ (hs.mem a)
  have hn1 : n = 1 := by
    by_contra hne
    have : (⟨0, hn0⟩ : Fin n) = ⟨1, by omega⟩ := hs.inj (by rw [hsel, hsel])
    simp at this
  subst hn1
  have hpos : 0 < G y i := hi.2.2.2
  have h1p : 0 < 1 + ratio i := by linarith
  have hw0 : w 0 * (1 + ratio i) = G y i := by
    have := congrFun hw 0
    simpa [Matrix.vecMul, dotProduct, Spec.system, hsel, hself] using this
  have hw1 : w 0 = G y i / (1 + ratio i) := by rw [eq_div_iff h1p.ne']; exact hw0
  have hk0 : 0 ≤ G y i / (1 + ratio i) := div_nonneg hpos.le h1p.le
  have hk1 : G y i / (1 + ratio i) ≤ 1 := by rw [div_le_one h1p]; linarith
  have hsum : ∀ f : Nat → K, w ⬝ᵥ (f ∘ sel) = G y i / (1 + ratio i) * f i := by
    intro f
    simp [dotProduct, hsel, hw1]
  have hinc : inc = G y i / (1 + ratio i) * d i := by
    cases extrap with
    | true => rw [h3 rfl, hsum]
    | false =>
      have := h4 rfl
      rw [hsum] at this
      refine this.keep (Or.inl ⟨?_, ?_⟩)
      · rcases le_total 0 (d i) with hd | hd
        · exact Or.inl (mul_nonneg hk0 hd)
        · exact Or.inr ⟨0, by rw [Function.comp, hsel]; nlinarith⟩
      · rcases le_total 0 (d i) with hd | hd
        · exact Or.inr ⟨0, by rw [Function.comp, hsel]; nlinarith⟩
        · exact Or.inl (mul_nonpos_of_nonneg_of_nonpos hk0 hd)
  have ha : G y i / (1 + ratio i) * G y i = G y i * G y i / (1 + ratio i) := by ring
  have ha0 : 0 ≤ G y i * G y i / (1 + ratio i) := div_nonneg (mul_nonneg hpos.le hpos.le) h1p.le
  have ha1 : G y i * G y i / (1 + ratio i) ≤ 1 := by
    rw [div_le_one h1p]; nlinarith
  rw [hsum, ha, fin_mul] at h2
  rw [hinc] at h1
  refine ⟨h1, ?_, ?_, h2, mul_nonneg hv0 (by linarith), by nlinarith⟩
  · rcases le_total 0 (d i) with hd | hd
    · exact (min_le_left _ _).trans (by nlinarith)
    · exact (min_le_right _ _).trans (by nlinarith)
  · rcases le_total 0 (d i) with hd | hd
    · exact le_trans (by nlinarith) (le_max_right _ _)
    · exact le_trans (by nlinarith) (le_max_left _ _)

/-- **C51** (variance): if the covariance matrix of every selection is positive semidefinite together with the
output point (the matrix with first row and column (1, rho)), then the variance is between 0 and bvariance. Without this
assumption it can be negative, see `c51_variance_counterexample`. -/
theorem c51_variance_partial (h : Setting T A bp background bvar points pobs obsVar pbg bvarAt s maxPoints L G P ratio d) (hn : points.size ≠ 0)
    (var0 : List (Fl K)) (extrap : Bool) (out var : List (Fl K))
    (hout : oiFullPoints T A bp background bvar points pobs obsVar pbg bvarAt s maxPoints var0 extrap = ok (out, var))
    (y : Nat) (b0 v0 : K) (hy : background[y]? = some (fin b0)) (hv : bvar[y]? = some (fin v0)) (hv0 : 0 ≤ v0)
    (hu : ∃ i, Usable bp points pobs pbg (L y) (G y) y i)
    (hpsd : ∀ (n : Nat) (sel : Fin n → Nat), Spec.Selection (Usable bp points pobs pbg (L y) (G y) y) (G y) maxPoints.toNat sel →
      ∀ (t : K) (x : Fin n → K), 0 ≤ t * t + 2 * t * (x ⬝ᵥ (G y ∘ sel)) + (x ᵥ* Spec.system sel P ratio) ⬝ᵥ x) :
    ∃ v, var[y]? = some (fin v) ∧ 0 ≤ v ∧ v ≤ v0 := by
  obtain ⟨n, sel, hn0, hs, hdet, w, hw, inc, h1, h2, h3, h4⟩ := c48_analysis h hn var0 extrap out var hout y b0 _ hy hv hu
  rw [fin_mul] at h2
  have e1 := hpsd n sel hs (-1) w
  have e2 := hpsd n sel hs 0 w
  rw [hw, dotProduct_comm (G y ∘ sel) w] at e1 e2
  refine ⟨_, h2, mul_nonneg hv0 (by linarith), ?_⟩
  have : 0 ≤ w ⬝ᵥ (G y ∘ sel) := by linarith
  nlinarith

end
end Gridpp.Props
