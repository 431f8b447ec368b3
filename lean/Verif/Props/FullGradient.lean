import Verif.Props.Gradient
import Mathlib.Data.List.GetD

/-! Property C46: `full_gradient` and `full_gradient_debug`. -/

set_option linter.unusedSectionVars false

namespace Gridpp.Props
open Fl Res

variable {K : Type} [Field K] [LinearOrder K] [IsStrictOrderedRing K] [HasGeo K]

/-- The correction from the value `o` at the output location, the downscaled value `i` and the downscaled gradient `g`:
none if one of the two values is missing. -/
def corr (o i g : Fl K) : Fl K := if o.isValid = true ∧ i.isValid = true then g * (o - i) else 0

/-- `e` is the pair of the downscaled gradient and the downscaled values, or a pair of empty fields if there is no
gradient. -/
def PairOf {α β γ : Type} (D : List α → Res (List β)) (V : List γ → Res (List β)) (grad : List α) (vals : List γ) (e : List β × List β) : Prop :=
  (grad = [] ∧ e = ([], [])) ∨ (grad ≠ [] ∧ D grad = ok e.1 ∧ V vals = ok e.2)

/-- The correction of cell (y, x) is `a`. -/
def CellCorr (grad : List (List (Fl K))) (e : List (List (Fl K)) × List (List (Fl K))) (ovals : List (List (Fl K))) (y x : Nat) (a : Fl K) : Prop :=
  (grad = [] ∧ a = 0) ∨
  (grad ≠ [] ∧ ∃ g i o, cell? e.1 y x = some g ∧ cell? e.2 y x = some i ∧ cell? ovals y x = some o ∧ a = corr o i g)

/-- The correction of point `k` is `a`. -/
def PointCorr (grad : List (List (Fl K))) (e : List (Fl K) × List (Fl K)) (ovals : List (Fl K)) (k : Nat) (a : Fl K) : Prop :=
  (grad = [] ∧ a = 0) ∨ (grad ≠ [] ∧ ∃ g i o, e.1[k]? = some g ∧ e.2[k]? = some i ∧ ovals[k]? = some o ∧ a = corr o i g)

/-- Every value of `out` is the downscaled value plus the two corrections. -/
def Corrected (Y X : Nat) (ge gl dv : List (List (Fl K))) (e l : List (List (Fl K)) × List (List (Fl K))) (oelevs olafs out : List (List (Fl K))) : Prop :=
  Rect Y X out ∧ ∀ y < Y, ∀ x < X, ∃ v a b, cell? dv y x = some v ∧ CellCorr ge e oelevs y x a ∧ CellCorr gl l olafs y x b ∧
    cell? out y x = some (v + (b + a))

/-- The same for points. -/
def CorrectedVec (n : Nat) (ge gl : List (List (Fl K))) (dv : List (Fl K)) (e l : List (Fl K) × List (Fl K)) (oelevs olafs out : List (Fl K)) : Prop :=
  out.length = n ∧ ∀ k < n, ∃ v a b, dv[k]? = some v ∧ PointCorr ge e oelevs k a ∧ PointCorr gl l olafs k b ∧ out[k]? = some (v + (b + a))

theorem CellCorr.unique {grad : List (List (Fl K))} {e : List (List (Fl K)) × List (List (Fl K))} {ovals : List (List (Fl K))} {y x : Nat} {a b : Fl K}
    (ha : CellCorr grad e ovals y x a) (hb : CellCorr grad e ovals y x b) : a = b := by
  rcases ha with ⟨h1, rfl⟩ | ⟨h1, g, i, o, h2, h3, h4, rfl⟩ <;> rcases hb with ⟨h1', rfl⟩ | ⟨h1', g', i', o', h2', h3', h4', rfl⟩
  · rfl
  · exact absurd h1 h1'
  · exact absurd h1' h1
  · rw [h2] at h2'; rw [h3] at h3'; rw [h4] at h4'
    cases h2'; cases h3'; cases h4'; rfl

theorem PointCorr.unique {grad : List (List (Fl K))} {e : List (Fl K) × List (Fl K)} {ovals : List (Fl K)} {k : Nat} {a b : Fl K}
    (ha : PointCorr grad e ovals k a) (hb : PointCorr grad e ovals k b) : a = b := by
  rcases ha with ⟨h1, rfl⟩ | ⟨h1, g, i, o, h2, h3, h4, rfl⟩ <;> rcases hb with ⟨h1', rfl⟩ | ⟨h1', g', i', o', h2', h3', h4', rfl⟩
  · rfl
  · exact absurd h1 h1'
  · exact absurd h1' h1
  · rw [h2] at h2'; rw [h3] at h3'; rw [h4] at h4'
    cases h2'; cases h3'; cases h4'; rfl

theorem Corrected.unique {Y X : Nat} {ge gl dv : List (List (Fl K))} {e l : List (List (Fl K)) × List (List (Fl K))} {oelevs olafs p q : List (List (Fl K))}
    (hp : Corrected Y X ge gl dv e l oelevs olafs p) (hq : Corrected Y X ge gl dv e l oelevs olafs q) : p = q := by
  refine Rect.ext hp.1 hq.1 fun y hy x hx => ?_
  obtain ⟨v, a, b, h1, h2, h3, h4⟩ := hp.2 y hy x hx
  obtain ⟨v', a', b', h1', h2', h3', h4'⟩ := hq.2 y hy x hx
  rw [h1] at h1'; cases h1'
  rw [h4, h4', h2.unique h2', h3.unique h3']

theorem CorrectedVec.unique {n : Nat} {ge gl : List (List (Fl K))} {dv : List (Fl K)} {e l : List (Fl K) × List (Fl K)} {oelevs olafs p q : List (Fl K)}
    (hp : CorrectedVec n ge gl dv e l oelevs olafs p) (hq : CorrectedVec n ge gl dv e l oelevs olafs q) : p = q := by
  apply List.ext_getElem?
  intro k
  have := hp.1
  have := hq.1
  by_cases hk : k < n
  · obtain ⟨v, a, b, h1, h2, h3, h4⟩ := hp.2 k hk
    obtain ⟨v', a', b', h1', h2', h3', h4'⟩ := hq.2 k hk
    rw [h1] at h1'; cases h1'
    rw [h4, h4', h2.unique h2', h3.unique h3']
  · rw [List.getElem?_eq_none (by omega), List.getElem?_eq_none (by omega)]

theorem correction_eq (o i g : Fl K) : correction o i (ok g) = ok (corr o i g) := by
  unfold correction corr
  by_cases h : o.isValid = true ∧ i.isValid = true
  · rw [if_pos h, if_pos (by rw [h.1, h.2]; rfl)]; rfl
  · rw [if_neg h, if_neg (by simpa using h)]

/-- Reading the correction of a cell. -/
theorem correctionG_eq {grad : List (List (Fl K))} {e : List (List (Fl K)) × List (List (Fl K))} {ovals : List (List (Fl K))} {Y X : Nat}
    (he : (grad = [] ∧ e = ([], [])) ∨ (grad ≠ [] ∧ Rect Y X e.1 ∧ Rect Y X e.2)) (ho : Rect Y X ovals) {y x : Nat} (hy : y < Y) (hx : x < X) :
    ∃ a, correctionG e.1 e.2 ovals (y : Int) (x : Int) = ok a ∧ CellCorr grad e ovals y x a := by
  rcases he with ⟨h, rfl⟩ | ⟨h, h1, h2⟩
  · exact ⟨0, rfl, Or.inl ⟨h, rfl⟩⟩
  · obtain ⟨g, a1, a2⟩ := vget2_of_rect h1 hy hx
    obtain ⟨i, b1, b2⟩ := vget2_of_rect h2 hy hx
    obtain ⟨o, c1, c2⟩ := vget2_of_rect ho hy hx
    refine ⟨corr o i g, ?_, Or.inr ⟨h, g, i, o, a1, b1, c1, rfl⟩⟩
    unfold correctionG
    rw [if_neg (by rw [h1.1]; omega), c2, ok_bind, b2, ok_bind, a2, correction_eq]

theorem correctionP_eq {grad : List (List (Fl K))} {e : List (Fl K) × List (Fl K)} {ovals : List (Fl K)} {n : Nat}
    (he : (grad = [] ∧ e = ([], [])) ∨ (grad ≠ [] ∧ e.1.length = n ∧ e.2.length = n)) (ho : ovals.length = n) {k : Nat} (hk : k < n) :
    ∃ a, correctionP e.1 e.2 ovals (k : Int) = ok a ∧ PointCorr grad e ovals k a := by
  rcases he with ⟨h, rfl⟩ | ⟨h, h1, h2⟩
  · exact ⟨0, rfl, Or.inl ⟨h, rfl⟩⟩
  · obtain ⟨g, a1, a2⟩ := vget_of_lt h1 hk
    obtain ⟨i, b1, b2⟩ := vget_of_lt h2 hk
    obtain ⟨o, c1, c2⟩ := vget_of_lt ho hk
    refine ⟨corr o i g, ?_, Or.inr ⟨h, g, i, o, a1, b1, c1, rfl⟩⟩
    unfold correctionP
    rw [if_neg (by omega), c2, ok_bind, b2, ok_bind, a2, correction_eq]

/-- The final loop over the cells. -/
theorem full_loop {og : Grid K} {oY oX : Nat} (how : og.WF oY oX) {ge gl dv : List (List (Fl K))} {e l : List (List (Fl K)) × List (List (Fl K))}
    (hdv : Rect oY oX dv) (he : (ge = [] ∧ e = ([], [])) ∨ (ge ≠ [] ∧ Rect oY oX e.1 ∧ Rect oY oX e.2))
    (hl : (gl = [] ∧ l = ([], [])) ∨ (gl ≠ [] ∧ Rect oY oX l.1 ∧ Rect oY oX l.2)) :
    ∃ out, grid2 oY oX (fun y x => do
          let lc ← correctionG l.1 l.2 og.lafs y x
          let ec ← correctionG e.1 e.2 og.elevs y x
          let v ← vget2 dv y x
          ok (v + (lc + ec))) = ok out ∧ Corrected oY oX ge gl dv e l og.elevs og.lafs out := by
  obtain ⟨o, e1, e2, e3⟩ := grid2_exists (Y := oY) (X := oX) (f := fun y x => do
          let lc ← correctionG l.1 l.2 og.lafs y x
          let ec ← correctionG e.1 e.2 og.elevs y x
          let v ← vget2 dv y x
          ok (v + (lc + ec))) (P := fun y x w => ∃ v a b, cell? dv y x = some v ∧ CellCorr ge e og.elevs y x a ∧ CellCorr gl l og.lafs y x b ∧
            w = v + (b + a)) (by
    intro y hy x hx
    obtain ⟨v, a1, a2⟩ := vget2_of_rect hdv hy hx
    obtain ⟨a, b1, b2⟩ := correctionG_eq he how.elevs hy hx
    obtain ⟨b, c1, c2⟩ := correctionG_eq hl how.lafs hy hx
    exact ⟨_, by simp only [a2, b1, c1, ok_bind], v, a, b, a1, b2, c2, rfl⟩)
  refine ⟨o, e1, e2, fun y hy x hx => ?_⟩
  obtain ⟨w, w1, -, v, a, b, q1, q2, q3, rfl⟩ := e3 y hy x hx
  exact ⟨v, a, b, q1, q2, q3, w1⟩

theorem full_loop_vec {op : Points K} {n : Nat} (h1 : op.elevs.length = n) (h2 : op.lafs.length = n) {ge gl : List (List (Fl K))} {dv : List (Fl K)}
    {e l : List (Fl K) × List (Fl K)}
    (hdv : dv.length = n) (he : (ge = [] ∧ e = ([], [])) ∨ (ge ≠ [] ∧ e.1.length = n ∧ e.2.length = n))
    (hl : (gl = [] ∧ l = ([], [])) ∨ (gl ≠ [] ∧ l.1.length = n ∧ l.2.length = n)) :
    ∃ out, mapM (fun i : Int => do
          let lc ← correctionP l.1 l.2 op.lafs i
          let ec ← correctionP e.1 e.2 op.elevs i
          let v ← vget dv i
          ok (v + (lc + ec))) (upto n) = ok out ∧ CorrectedVec n ge gl dv e l op.elevs op.lafs out := by
  obtain ⟨o, e1, e2, e3⟩ := mapM_upto_exists (n := n) (f := fun i : Int => do
          let lc ← correctionP l.1 l.2 op.lafs i
          let ec ← correctionP e.1 e.2 op.elevs i
          let v ← vget dv i
          ok (v + (lc + ec))) (P := fun k w => ∃ v a b, dv[k]? = some v ∧ PointCorr ge e op.elevs k a ∧ PointCorr gl l op.lafs k b ∧
            w = v + (b + a)) (by
    intro k hk
    obtain ⟨v, a1, a2⟩ := vget_of_lt hdv hk
    obtain ⟨a, b1, b2⟩ := correctionP_eq he h1 hk
    obtain ⟨b, c1, c2⟩ := correctionP_eq hl h2 hk
    exact ⟨_, by simp only [a2, b1, c1, ok_bind], v, a, b, a1, b2, c2, rfl⟩)
  refine ⟨o, e1, e2, fun k hk => ?_⟩
  obtain ⟨w, w1, -, v, a, b, q1, q2, q3, rfl⟩ := e3 k hk
  exact ⟨v, a, b, q1, q2, q3, w1⟩

theorem sizeMismatch_rect {Y X : Nat} (hY : 0 < Y) {f : List (List (Fl K))} (hf : Rect Y X f) : sizeMismatch (Y, X) f = ok false := by
  obtain ⟨r, hr, hrl⟩ := first_row hf hY
  unfold sizeMismatch
  rw [if_neg (by simp [hf.1]), hr, ok_bind, hrl]
  simp

theorem sizeMismatchOpt_rect {Y X : Nat} (hY : 0 < Y) {f : List (List (Fl K))} (hf : f = [] ∨ Rect Y X f) : sizeMismatchOpt (Y, X) f = ok false := by
  unfold sizeMismatchOpt
  rcases hf with rfl | hf
  · rfl
  · rw [if_neg (by rw [hf.1]; omega), sizeMismatch_rect hY hf]

theorem rect_ne_nil {α : Type} {Y X : Nat} (hY : 0 < Y) {f : List (List α)} (hf : Rect Y X f) : f ≠ [] := by
  rintro rfl
  have := hf.1
  simp at this
  omega

section
variable {T : RTree K} [HasSqrt K] {d : Downscaler}

/-- **C46** (Grid → Points): `full_gradient` succeeds exactly if the values, and the gradients that are given together with
the fields they refer to, can be downscaled; it adds the two corrections to the downscaled values. -/
theorem c46_points {ig : Grid K} {op : Points K} {Y X : Nat} {lats lons : List (List (Fl K))} {olats olons : List (Fl K)}
    {type otype : CoordType} (hi : BuiltGrid ig Y X lats lons type) (ho : BuiltPoints op olats olons otype) (f ge gl : List (List (Fl K)))
    (hf : Rect Y X f) (hge : ge = [] ∨ Rect Y X ge) (hgl : gl = [] ∨ Rect Y X gl) (out : List (Fl K)) :
    fullGradientGP2 T d ig op f ge gl = ok out ↔
      ∃ dv e l, downscalingGP2 T d ig op f = ok dv ∧ PairOf (downscalingGP2 T d ig op) (downscalingGP2 T d ig op) ge ig.elevs e ∧
        PairOf (downscalingGP2 T d ig op) (downscalingGP2 T d ig op) gl ig.lafs l ∧
        CorrectedVec olats.length ge gl dv e l op.elevs op.lafs out := by
  have hw := hi.wf.1
  obtain ⟨m1, m2, m3⟩ := ho.meta
  have hpair : ∀ grad vals e, (grad = [] ∨ Rect Y X grad) → (pairGP2 T d ig op grad vals f = ok e ↔ PairOf (downscalingGP2 T d ig op) (downscalingGP2 T d ig op) grad vals e) := by
    intro grad vals e hg
    unfold pairGP2 PairOf
    rcases hg with rfl | hg
    · simp only [List.length_nil, if_true, ok.injEq, true_and, ne_eq, not_true, false_and, or_false]
      exact eq_comm
    · have hn := rect_ne_nil hw.hY hg
      obtain ⟨r, hr, hrl⟩ := first_row hg hw.hY
      obtain ⟨r', hr', hrl'⟩ := first_row hf hw.hY
      have hY := hw.hY
      rw [if_neg (by rw [hg.1]; omega), decide_eq_true (by rw [hg.1, hf.1]), assert_true, ok_bind, hr, ok_bind, hr', ok_bind,
        decide_eq_true (by rw [hrl, hrl']), assert_true, ok_bind]
      constructor
      · intro h
        obtain ⟨a, h1, h⟩ := bind_eq_ok.mp h
        obtain ⟨b, h2, h⟩ := bind_eq_ok.mp h
        cases h
        exact Or.inr ⟨hn, h1, h2⟩
      · rintro (⟨h, -⟩ | ⟨-, h1, h2⟩)
        · exact absurd h hn
        · rw [h1, ok_bind, h2, ok_bind]
  have hlen : ∀ grad vals e, (grad = [] ∨ Rect Y X grad) → Rect Y X vals → PairOf (downscalingGP2 T d ig op) (downscalingGP2 T d ig op) grad vals e →
      (grad = [] ∧ e = ([], [])) ∨ (grad ≠ [] ∧ e.1.length = olats.length ∧ e.2.length = olats.length) := by
    intro grad vals e hg hv h
    rcases h with h | ⟨h1, h2, h3⟩
    · exact Or.inl h
    · exact Or.inr ⟨h1, downscalingGP2_length hi ho (hg.resolve_left h1) h2, downscalingGP2_length hi ho hv h3⟩
  unfold fullGradientGP2
  constructor
  · intro h
    obtain ⟨dv, h1, h⟩ := bind_eq_ok.mp h
    obtain ⟨e, h2, h⟩ := bind_eq_ok.mp h
    obtain ⟨l, h3, h⟩ := bind_eq_ok.mp h
    rw [hpair _ _ _ hge] at h2
    rw [hpair _ _ _ hgl] at h3
    obtain ⟨o, o1, o2⟩ := full_loop_vec m1 m2 (downscalingGP2_length hi ho hf h1) (hlen _ _ _ hge hw.elevs h2) (hlen _ _ _ hgl hw.lafs h3)
    rw [m3] at h
    rw [o1] at h
    cases h
    exact ⟨dv, e, l, h1, h2, h3, o2⟩
  · rintro ⟨dv, e, l, h1, h2, h3, h4⟩
    obtain ⟨o, o1, o2⟩ := full_loop_vec m1 m2 (downscalingGP2_length hi ho hf h1) (hlen _ _ _ hge hw.elevs h2) (hlen _ _ _ hgl hw.lafs h3)
    rw [h1, ok_bind, (hpair _ _ _ hge).mpr h2, ok_bind, (hpair _ _ _ hgl).mpr h3, ok_bind, m3, h4.unique o2]
    exact o1

end

section lawful
variable {T : RTree K} (hT : T.Lawful) [LawfulSqrt K] {d : Downscaler}
include hT

/-- **C46** (Grid → Grid). -/
theorem c46_grid (hd : d ≠ .other) {ig og : Grid K} {Y X oY oX : Nat} {lats lons olats olons : List (List (Fl K))} {type otype : CoordType}
    (hi : BuiltGrid ig Y X lats lons type) (ho : BuiltGrid og oY oX olats olons otype) (hv : GridValidIn type olats olons)
    (hs : ∀ y x la, cell? olats y x = some la → BoxLat type lats la) (f ge gl : List (List (Fl K)))
    (hf : Rect Y X f) (hge : ge = [] ∨ Rect Y X ge) (hgl : gl = [] ∨ Rect Y X gl) (out : List (List (Fl K))) :
    fullGradientGG2 T d ig og f ge gl = ok out ↔
      ∃ dv e l, downscalingGG2 T d ig og f = ok dv ∧ PairOf (downscalingGG2 T d ig og) (downscalingGG2 T d ig og) ge ig.elevs e ∧
        PairOf (downscalingGG2 T d ig og) (downscalingGG2 T d ig og) gl ig.lafs l ∧
        Corrected oY oX ge gl dv e l og.elevs og.lafs out := by
  have hw := hi.wf.1
  have how := ho.wf.1
  have hY := hw.hY
  have hlen : ∀ grad vals e, (grad = [] ∨ Rect Y X grad) → Rect Y X vals → PairOf (downscalingGG2 T d ig og) (downscalingGG2 T d ig og) grad vals e →
      (grad = [] ∧ e = ([], [])) ∨ (grad ≠ [] ∧ Rect oY oX e.1 ∧ Rect oY oX e.2) := by
    intro grad vals e hg hvv h
    rcases h with h | ⟨h1, h2, h3⟩
    · exact Or.inl h
    · exact Or.inr ⟨h1, ((downscalingGG2_ok_iff hi ho (hg.resolve_left h1) _).mp h2).1, ((downscalingGG2_ok_iff hi ho hvv _).mp h3).1⟩
  have hfs : ∀ h ∈ f :: (stackFields ge ig.elevs ++ stackFields gl ig.lafs), Rect Y X h := by
    intro h hh
    simp only [List.mem_cons, List.mem_append, stackFields] at hh
    rcases hh with rfl | hh | hh
    · exact hf
    · rcases hge with rfl | hge
      · simp at hh
      · rw [if_neg (by rw [hge.1]; omega)] at hh
        simp only [List.mem_cons, List.not_mem_nil, or_false] at hh
        rcases hh with rfl | rfl
        · exact hge
        · exact hw.elevs
    · rcases hgl with rfl | hgl
      · simp at hh
      · rw [if_neg (by rw [hgl.1]; omega)] at hh
        simp only [List.mem_cons, List.not_mem_nil, or_false] at hh
        rcases hh with rfl | rfl
        · exact hgl
        · exact hw.lafs
  -- the stack of fields
  have hstack : ∀ dv e l, (∃ fields, downscalingGG3 T d ig og (f :: (stackFields ge ig.elevs ++ stackFields gl ig.lafs)) = ok fields ∧
        vget fields 0 = ok dv ∧ stackPair (decide (ge.length ≠ 0)) fields 1 = ok e ∧
        stackPair (decide (gl.length ≠ 0)) fields (if ge.length = 0 then 1 else 3) = ok l) ↔
      (downscalingGG2 T d ig og f = ok dv ∧ PairOf (downscalingGG2 T d ig og) (downscalingGG2 T d ig og) ge ig.elevs e ∧
        PairOf (downscalingGG2 T d ig og) (downscalingGG2 T d ig og) gl ig.lafs l) := by
    intro dv e l
    simp only [downscalingGG3_ok_iff hT hd hi ho hv hs hfs]
    unfold stackFields stackPair PairOf
    have aux : ∀ g : List (List (Fl K)), g = [] ∨ (g ≠ [] ∧ g.length ≠ 0) := by
      intro g
      cases g with
      | nil => exact Or.inl rfl
      | cons a t => exact Or.inr ⟨by simp, by simp⟩
    rcases aux ge with rfl | ⟨g1, g2⟩ <;> rcases aux gl with rfl | ⟨g3, g4⟩
    · constructor
      · rintro ⟨fields, h1, h2, h3, h4⟩
        simp only [List.length_nil, if_true, List.append_nil, List.forall₂_cons_left_iff, List.forall₂_nil_left_iff] at h1
        obtain ⟨b, u, h1, rfl, rfl⟩ := h1
        cases h2; cases h3; cases h4
        exact ⟨h1, Or.inl ⟨rfl, rfl⟩, Or.inl ⟨rfl, rfl⟩⟩
      · rintro ⟨h1, ⟨-, rfl⟩ | ⟨h2, -⟩, ⟨-, rfl⟩ | ⟨h3, -⟩⟩
        · exact ⟨[dv], .cons h1 .nil, rfl, rfl, rfl⟩
        · exact absurd rfl h3
        · exact absurd rfl h2
        · exact absurd rfl h2
    · rw [if_neg g4, decide_eq_true g4]
      constructor
      · rintro ⟨fields, h1, h2, h3, h4⟩
        simp only [List.length_nil, if_true, List.nil_append, List.forall₂_cons_left_iff, List.forall₂_nil_left_iff] at h1
        obtain ⟨b, u, h1, ⟨b2, u2, k1, ⟨b3, u3, k2, rfl, rfl⟩, rfl⟩, rfl⟩ := h1
        cases h2; cases h3; cases h4
        exact ⟨h1, Or.inl ⟨rfl, rfl⟩, Or.inr ⟨g3, k1, k2⟩⟩
      · rintro ⟨h1, ⟨-, rfl⟩ | ⟨h2, -⟩, ⟨h3, -⟩ | ⟨-, k1, k2⟩⟩
        · exact absurd h3 g3
        · exact ⟨[dv, l.1, l.2], .cons h1 (.cons k1 (.cons k2 .nil)), rfl, rfl, rfl⟩
        · exact absurd rfl h2
        · exact absurd rfl h2
    · rw [if_neg g2, decide_eq_true g2, if_neg g2]
      constructor
      · rintro ⟨fields, h1, h2, h3, h4⟩
        simp only [List.length_nil, if_true, List.append_nil, List.forall₂_cons_left_iff, List.forall₂_nil_left_iff] at h1
        obtain ⟨b, u, h1, ⟨b2, u2, k1, ⟨b3, u3, k2, rfl, rfl⟩, rfl⟩, rfl⟩ := h1
        cases h2; cases h3; cases h4
        exact ⟨h1, Or.inr ⟨g1, k1, k2⟩, Or.inl ⟨rfl, rfl⟩⟩
      · rintro ⟨h1, ⟨h3, -⟩ | ⟨-, k1, k2⟩, ⟨-, rfl⟩ | ⟨h2, -⟩⟩
        · exact absurd h3 g1
        · exact absurd h3 g1
        · exact ⟨[dv, e.1, e.2], .cons h1 (.cons k1 (.cons k2 .nil)), rfl, rfl, rfl⟩
        · exact absurd rfl h2
    · rw [if_neg g2, decide_eq_true g2, if_neg g2, if_neg g4, decide_eq_true g4]
      constructor
      · rintro ⟨fields, h1, h2, h3, h4⟩
        simp only [List.cons_append, List.nil_append, List.forall₂_cons_left_iff, List.forall₂_nil_left_iff] at h1
        obtain ⟨b, u, h1, ⟨b2, u2, k1, ⟨b3, u3, k2, ⟨b4, u4, k3, ⟨b5, u5, k4, rfl, rfl⟩, rfl⟩, rfl⟩, rfl⟩, rfl⟩ := h1
        cases h2; cases h3; cases h4
        exact ⟨h1, Or.inr ⟨g1, k1, k2⟩, Or.inr ⟨g3, k3, k4⟩⟩
      · rintro ⟨h1, ⟨h3, -⟩ | ⟨-, k1, k2⟩, ⟨h2, -⟩ | ⟨-, k3, k4⟩⟩
        · exact absurd h3 g1
        · exact absurd h3 g1
        · exact absurd h2 g3
        · exact ⟨[dv, e.1, e.2, l.1, l.2], .cons h1 (.cons k1 (.cons k2 (.cons k3 (.cons k4 .nil)))), rfl, rfl, rfl⟩
  unfold fullGradientGG2
  rw [how.size, ok_bind, hw.size, ok_bind, sizeMismatch_rect hY hf, ok_bind, if_neg (by simp), sizeMismatchOpt_rect hY hgl, ok_bind,
    if_neg (by simp), sizeMismatchOpt_rect hY hge, ok_bind, if_neg (by simp)]
  constructor
  · intro h
    obtain ⟨fields, h0, h⟩ := bind_eq_ok.mp h
    obtain ⟨dv, h1, h⟩ := bind_eq_ok.mp h
    obtain ⟨e, h2, h⟩ := bind_eq_ok.mp h
    obtain ⟨l, h3, h⟩ := bind_eq_ok.mp h
    obtain ⟨k1, k2, k3⟩ := (hstack dv e l).mp ⟨fields, h0, h1, h2, h3⟩
    obtain ⟨o, o1, o2⟩ := full_loop how ((downscalingGG2_ok_iff hi ho hf _).mp k1).1 (hlen _ _ _ hge hw.elevs k2) (hlen _ _ _ hgl hw.lafs k3)
    simp only [o1] at h
    cases h
    exact ⟨dv, e, l, k1, k2, k3, o2⟩
  · rintro ⟨dv, e, l, k1, k2, k3, h4⟩
    obtain ⟨o, o1, o2⟩ := full_loop how ((downscalingGG2_ok_iff hi ho hf _).mp k1).1 (hlen _ _ _ hge hw.elevs k2) (hlen _ _ _ hgl hw.lafs k3)
    obtain ⟨fields, h0, h1, h2, h3⟩ := (hstack dv e l).mpr ⟨k1, k2, k3⟩
    rw [h0, ok_bind, h1, ok_bind, h2, ok_bind, h3, ok_bind, h4.unique o2]
    simp only [o1]
    rfl

end lawful

theorem forall₂_append_left {α β : Type} {R : α → β → Prop} : ∀ {p q : List α} {o : List β}, List.Forall₂ R (p ++ q) o →
    ∃ u v, List.Forall₂ R p u ∧ List.Forall₂ R q v ∧ o = u ++ v
  | [], _, _, h => ⟨[], _, .nil, h, rfl⟩
  | _ :: _, _, _, .cons h t => by
    obtain ⟨u, v, h1, h2, rfl⟩ := forall₂_append_left t
    exact ⟨_, v, .cons h h1, h2, rfl⟩

/-- The pair for several times. -/
def PairTimes {α γ : Type} (D : List α → Res (List γ)) (grad : List (List α)) (vals : List α) (e : List (List γ) × List γ) : Prop :=
  (grad = [] ∧ e = ([], [])) ∨ (grad ≠ [] ∧ List.Forall₂ (fun g o => D g = ok o) grad e.1 ∧ D vals = ok e.2)

theorem PairTimes.at {α γ : Type} {D : List α → Res (List γ)} {grad : List (List α)} {vals : List α} {e : List (List γ) × List γ}
    (h : PairTimes D grad vals e) (hne : ∀ g ∈ grad, g ≠ []) {n : Nat} (hl : grad = [] ∨ grad.length = n) {t : Nat} (ht : t < n) :
    PairOf D D (grad.getD t []) vals (e.1.getD t [], e.2) := by
  rcases h with ⟨rfl, rfl⟩ | ⟨h1, h2, h3⟩
  · exact Or.inl ⟨rfl, rfl⟩
  · have hl := hl.resolve_left h1
    have h4 := h2.length_eq
    rw [List.getD_eq_getElem _ _ (by omega), List.getD_eq_getElem _ _ (by omega)]
    exact Or.inr ⟨hne _ (List.getElem_mem _), (List.forall₂_iff_get.mp h2).2 t (by omega) (by omega), h3⟩

theorem PairTimes.of_at {α γ : Type} {D : List α → Res (List γ)} {grad : List (List α)} {vals : List α}
    (hne : ∀ g ∈ grad, g ≠ []) {n : Nat} (hl : grad = [] ∨ grad.length = n) 
    (h : ∀ t < n, ∃ e, PairOf D D (grad.getD t []) vals e) : ∃ e, PairTimes D grad vals e := by
  by_cases hg : grad = []
  · exact ⟨([], []), Or.inl ⟨hg, rfl⟩⟩
  · have hl := hl.resolve_left hg
    have h0 : 0 < grad.length := List.length_pos_of_ne_nil hg
    have key : ∀ t (ht : t < grad.length), ∃ a b, D grad[t] = ok a ∧ D vals = ok b := by
      intro t ht
      obtain ⟨e, he⟩ := h t (by omega)
      rw [List.getD_eq_getElem _ _ ht] at he
      rcases he with ⟨h1, -⟩ | ⟨-, h2, h3⟩
      · exact absurd h1 (hne _ (List.getElem_mem _))
      · exact ⟨_, _, h2, h3⟩
    obtain ⟨-, b, -, hb⟩ := key 0 h0
    obtain ⟨a, ha⟩ := mapM_exists (f := D) grad fun g hg => by
      obtain ⟨t, ht, rfl⟩ := List.getElem_of_mem hg
      obtain ⟨a, -, q, -⟩ := key t ht
      exact ⟨a, q⟩
    exact ⟨(a, b), Or.inr ⟨hg, mapM_eq_ok ha, hb⟩⟩

/-- Reading a block of a list. -/
theorem mapM_vget_block {α : Type} (p q r : List α) : mapM (fun t : Int => vget (p ++ (q ++ r)) ((p.length : Int) + t)) (upto q.length) = ok q := by
  obtain ⟨o, e1, e2, e3⟩ := mapM_upto_exists (n := q.length) (f := fun t : Int => vget (p ++ (q ++ r)) ((p.length : Int) + t))
    (P := fun t w => q[t]? = some w) (by
      intro t ht
      refine ⟨q[t], ?_, List.getElem?_eq_getElem ht⟩
      rw [show ((p.length : Int) + (t : Int)) = ((p.length + t : Nat) : Int) by push_cast; rfl]
      refine vget_nat_eq_ok.mpr ?_
      rw [List.getElem?_append_right (by omega), List.getElem?_append_left (by omega), Nat.add_sub_cancel_left, List.getElem?_eq_getElem ht])
  rw [e1]
  congr 1
  apply List.ext_getElem?
  intro t
  by_cases ht : t < q.length
  · obtain ⟨w, w1, -, w2⟩ := e3 t ht
    rw [w1, w2]
  · rw [List.getElem?_eq_none (by omega), List.getElem?_eq_none (by omega)]

theorem mapM_vget_self {α : Type} (q : List α) {n : Nat} (h : q.length = n) : mapM (fun t : Int => vget q t) (upto n) = ok q := by
  have := mapM_vget_block [] q []
  simpa [h] using this

/-- Reading one element behind a prefix. -/
theorem vget_block {α : Type} (p : List α) (a : α) (r : List α) : vget (p ++ (a :: r)) (p.length : Int) = ok a :=
  vget_nat_eq_ok.mpr (by simp)

theorem correctionG3_eq {dgrad : List (List (List (Fl K)))} {n : Nat} (hl : dgrad = [] ∨ (dgrad.length = n ∧ ∀ g ∈ dgrad, g ≠ [])) {t : Nat} (ht : t < n)
    (dvals ovals : List (List (Fl K))) (y x : Int) :
    correctionG3 dgrad dvals ovals t y x = correctionG (dgrad.getD t []) dvals ovals y x := by
  unfold correctionG3 correctionG
  rcases hl with rfl | ⟨h1, h2⟩
  · rfl
  · have h3 := h2 _ (List.getElem_mem (show t < dgrad.length by omega))
    rw [List.getD_eq_getElem _ _ (by omega), if_neg (by omega), if_neg (by simpa using h3)]
    have : vget dgrad (t : Int) = ok dgrad[t] := vget_nat_eq_ok.mpr (List.getElem?_eq_getElem _)
    simp only [this, ok_bind]

theorem correctionP2_eq {dgrad : List (List (Fl K))} {n : Nat} (hl : dgrad = [] ∨ (dgrad.length = n ∧ ∀ g ∈ dgrad, g ≠ [])) {t : Nat} (ht : t < n)
    (dvals ovals : List (Fl K)) (i : Int) :
    correctionP2 dgrad dvals ovals t i = correctionP (dgrad.getD t []) dvals ovals i := by
  unfold correctionP2 correctionP
  rcases hl with rfl | ⟨h1, h2⟩
  · rfl
  · have h3 := h2 _ (List.getElem_mem (show t < dgrad.length by omega))
    rw [List.getD_eq_getElem _ _ (by omega), if_neg (by omega), if_neg (by simpa using h3)]
    have : vget dgrad (t : Int) = ok dgrad[t] := vget_nat_eq_ok.mpr (List.getElem?_eq_getElem _)
    simp only [vget2, this, ok_bind]

/-- Field by field: the output of every time is that of the overload for one time. -/
def EveryTime {α γ : Type} (F : List (List α) → List (List α) → List (List α) → Res γ) (fs ge gl : List (List (List α))) (out : List γ) : Prop :=
  out.length = fs.length ∧ ∀ t < fs.length, ∃ f o, fs[t]? = some f ∧ out[t]? = some o ∧ F f (ge.getD t []) (gl.getD t []) = ok o

theorem EveryTime.unique {α γ : Type} {F : List (List α) → List (List α) → List (List α) → Res γ} {fs ge gl : List (List (List α))} {a b : List γ}
    (ha : EveryTime F fs ge gl a) (hb : EveryTime F fs ge gl b) : a = b := by
  apply List.ext_getElem?
  intro k
  have := ha.1
  have := hb.1
  by_cases hk : k < fs.length
  · obtain ⟨f, o, h1, h2, h3⟩ := ha.2 k hk
    obtain ⟨f', o', h1', h2', h3'⟩ := hb.2 k hk
    rw [h1] at h1'; cases h1'
    rw [h3] at h3'; cases h3'
    rw [h2, h2']
  · rw [List.getElem?_eq_none (by omega), List.getElem?_eq_none (by omega)]

section times
variable {T : RTree K} (hT : T.Lawful) [LawfulSqrt K] {d : Downscaler}
include hT

/-- **C46** (times, Grid → Grid): for at least one time and gradients that are empty or given for every time, the overload
for several times succeeds exactly if the overload for one time succeeds for every time, with the same values. -/
theorem c46_grid_times (hd : d ≠ .other) {ig og : Grid K} {Y X oY oX : Nat} {lats lons olats olons : List (List (Fl K))} {type otype : CoordType}
    (hi : BuiltGrid ig Y X lats lons type) (ho : BuiltGrid og oY oX olats olons otype) (hv : GridValidIn type olats olons)
    (hs : ∀ y x la, cell? olats y x = some la → BoxLat type lats la) (fs ge gl : List (List (List (Fl K)))) (hne : fs ≠ [])
    (hf : ∀ f ∈ fs, Rect Y X f) (hge : ge = [] ∨ (ge.length = fs.length ∧ ∀ f ∈ ge, Rect Y X f))
    (hgl : gl = [] ∨ (gl.length = fs.length ∧ ∀ f ∈ gl, Rect Y X f)) (out : List (List (List (Fl K)))) :
    fullGradientGG3 T d ig og fs ge gl = ok out ↔ EveryTime (fullGradientGG2 T d ig og) fs ge gl out := by
  have hw := hi.wf.1
  have how := ho.wf.1
  have hY := hw.hY
  have hn0 : 0 < fs.length := List.length_pos_of_ne_nil hne
  have hrects : ∀ g : List (List (List (Fl K))), (g = [] ∨ (g.length = fs.length ∧ ∀ f ∈ g, Rect Y X f)) → ∀ f ∈ g, Rect Y X f := by
    rintro g (rfl | h) f hf
    · cases hf
    · exact h.2 f hf
  have hat : ∀ g : List (List (List (Fl K))), (g = [] ∨ (g.length = fs.length ∧ ∀ f ∈ g, Rect Y X f)) → ∀ t < fs.length, g.getD t [] = [] ∨ Rect Y X (g.getD t []) := by
    rintro g (rfl | h) t ht
    · exact Or.inl rfl
    · right
      rw [List.getD_eq_getElem _ _ (by omega)]
      exact h.2 _ (List.getElem_mem _)
  have hlens : ∀ g : List (List (List (Fl K))), (g = [] ∨ (g.length = fs.length ∧ ∀ f ∈ g, Rect Y X f)) → g = [] ∨ g.length = fs.length :=
    fun g h => h.imp id And.left
  have hnn : ∀ g : List (List (List (Fl K))), (g = [] ∨ (g.length = fs.length ∧ ∀ f ∈ g, Rect Y X f)) → ∀ f ∈ g, f ≠ [] :=
    fun g h f hf => rect_ne_nil hY (hrects g h f hf)
  have hdrect : ∀ f o, Rect Y X f → downscalingGG2 T d ig og f = ok o → Rect oY oX o := fun f o hf h =>
    ((downscalingGG2_ok_iff hi ho hf o).mp h).1
  -- the fields to be downscaled
  have hstack : ∀ (grad : List (List (List (Fl K)))) vals, (grad = [] ∨ (grad.length = fs.length ∧ ∀ f ∈ grad, Rect Y X f)) →
      stackFields3 grad vals fs = ok (if grad = [] then [] else grad ++ [vals]) := by
    rintro grad vals hg
    unfold stackFields3
    rcases hg with rfl | hg
    · rfl
    · have h0 : grad ≠ [] := by rintro rfl; simp at hg; omega
      have hc : compatibleSize33 grad fs = true := by
        unfold compatibleSize33
        refine decide_eq_true (List.ext_getElem (by simp [hg.1]) fun t h1 h2 => ?_)
        simp only [List.length_map] at h1 h2
        rw [List.getElem_map, List.getElem_map]
        have r1 := hg.2 _ (List.getElem_mem h1)
        have r2 := hf _ (List.getElem_mem h2)
        refine List.ext_getElem (by simp [r1.1, r2.1]) fun y h3 h4 => ?_
        simp only [List.length_map] at h3 h4
        rw [List.getElem_map, List.getElem_map, r1.2 _ (List.getElem_mem h3), r2.2 _ (List.getElem_mem h4)]
      rw [if_neg (by omega), hc, assert_true, ok_bind, mapM_vget_self _ hg.1, ok_bind, if_neg h0]
  have hfall : ∀ h ∈ fs ++ ((if ge = [] then [] else ge ++ [ig.elevs]) ++ (if gl = [] then [] else gl ++ [ig.lafs])), Rect Y X h := by
    intro h hh
    rw [List.mem_append, List.mem_append] at hh
    rcases hh with hh | hh | hh
    · exact hf h hh
    · split at hh
      · cases hh
      · rw [List.mem_append, List.mem_singleton] at hh
        rcases hh with hh | rfl
        · exact hrects _ hge h hh
        · exact hw.elevs
    · split at hh
      · cases hh
      · rw [List.mem_append, List.mem_singleton] at hh
        rcases hh with hh | rfl
        · exact hrects _ hgl h hh
        · exact hw.lafs
  -- reading the stack
  have hread : ∀ dvs e l, (∃ fields, downscalingGG3 T d ig og (fs ++ ((if ge = [] then [] else ge ++ [ig.elevs]) ++ (if gl = [] then [] else gl ++ [ig.lafs]))) = ok fields ∧
        mapM (fun t : Int => vget fields t) (upto fs.length) = ok dvs ∧ stackPair3 (decide (ge.length ≠ 0)) fs.length fields fs.length = ok e ∧
        stackPair3 (decide (gl.length ≠ 0)) fs.length fields (if ge.length = 0 then fs.length else 2 * fs.length + 1) = ok l) ↔
      (List.Forall₂ (fun f o => downscalingGG2 T d ig og f = ok o) fs dvs ∧ PairTimes (downscalingGG2 T d ig og) ge ig.elevs e ∧
        PairTimes (downscalingGG2 T d ig og) gl ig.lafs l) := by
    intro dvs e l
    simp only [downscalingGG3_ok_iff hT hd hi ho hv hs hfall]
    have split : ∀ (grad : List (List (List (Fl K)))) vals B, List.Forall₂ (fun f o => downscalingGG2 T d ig og f = ok o) (if grad = [] then [] else grad ++ [vals]) B →
        ∃ e, PairTimes (downscalingGG2 T d ig og) grad vals e ∧ B = if grad = [] then [] else e.1 ++ [e.2] := by
      intro grad vals B h
      by_cases hg : grad = []
      · rw [if_pos hg] at h
        cases h
        exact ⟨([], []), Or.inl ⟨hg, rfl⟩, by rw [if_pos hg]⟩
      · rw [if_neg hg] at h
        obtain ⟨u, v, h1, h2, rfl⟩ := forall₂_append_left h
        rw [List.forall₂_cons_left_iff] at h2
        obtain ⟨b, w, h2, h3, rfl⟩ := h2
        cases h3
        exact ⟨(u, b), Or.inr ⟨hg, h1, h2⟩, by rw [if_neg hg]⟩
    have join : ∀ (grad : List (List (List (Fl K)))) vals e, PairTimes (downscalingGG2 T d ig og) grad vals e →
        List.Forall₂ (fun f o => downscalingGG2 T d ig og f = ok o) (if grad = [] then [] else grad ++ [vals]) (if grad = [] then [] else e.1 ++ [e.2]) := by
      rintro grad vals e (⟨hg, -⟩ | ⟨hg, h1, h2⟩)
      · rw [if_pos hg, if_pos hg]; exact .nil
      · rw [if_neg hg, if_neg hg]
        exact List.rel_append h1 (.cons h2 .nil)
    have rd : ∀ (grad : List (List (List (Fl K)))) vals e, (grad = [] ∨ grad.length = fs.length) → PairTimes (downscalingGG2 T d ig og) grad vals e → ∀ (p q : List (List (List (Fl K)))),
        stackPair3 (decide (grad.length ≠ 0)) fs.length (p ++ ((if grad = [] then [] else e.1 ++ [e.2]) ++ q)) p.length = ok e := by
      rintro grad vals e hgl (⟨rfl, rfl⟩ | ⟨hg, h1, h2⟩) p q
      · rfl
      · have hl := h1.length_eq
        have hgl := hgl.resolve_left hg
        have hg' : grad.length ≠ 0 := by simpa using hg
        unfold stackPair3
        rw [if_neg hg, decide_eq_true hg', if_pos rfl]
        have e1 := mapM_vget_block p e.1 ([e.2] ++ q)
        have e2 := vget_block (p ++ e.1) e.2 q
        rw [← hl, hgl] at e1
        rw [List.length_append, ← hl, hgl] at e2
        simp only [List.append_assoc, List.cons_append, List.nil_append] at e1 e2 ⊢
        rw [e1, ok_bind]
        push_cast at e2
        rw [e2, ok_bind]
    have pos : ∀ dvs e, dvs.length = fs.length → PairTimes (downscalingGG2 T d ig og) ge ig.elevs e →
        (if ge.length = 0 then (fs.length : Int) else 2 * fs.length + 1) = ((dvs ++ (if ge = [] then [] else e.1 ++ [e.2])).length : Int) := by
      rintro dvs e hl (⟨hg, -⟩ | ⟨hg, h1, -⟩)
      · simp [hg, hl]
      · have hl' := h1.length_eq
        have := hge.resolve_left hg
        rw [if_neg (by simpa using hg), if_neg hg]
        simp only [List.length_append, List.length_cons, List.length_nil]
        rw [hl, ← hl', this.1]
        push_cast
        ring
    constructor
    · rintro ⟨fields, h1, h2, h3, h4⟩
      obtain ⟨A, BC, a1, a2, rfl⟩ := forall₂_append_left h1
      obtain ⟨B, C, b1, b2, rfl⟩ := forall₂_append_left a2
      obtain ⟨e', p1, rfl⟩ := split _ _ _ b1
      obtain ⟨l', p2, rfl⟩ := split _ _ _ b2
      have hA := a1.length_eq
      have r1 := mapM_vget_block [] A ((if ge = [] then [] else e'.1 ++ [e'.2]) ++ (if gl = [] then [] else l'.1 ++ [l'.2]))
      simp only [List.nil_append, List.length_nil, Nat.cast_zero, zero_add] at r1
      rw [hA, r1] at h2
      have r2 := rd ge _ e' (hlens _ hge) p1 A (if gl = [] then [] else l'.1 ++ [l'.2])
      rw [← hA] at r2
      rw [r2] at h3
      have r3 := rd gl _ l' (hlens _ hgl) p2 (A ++ (if ge = [] then [] else e'.1 ++ [e'.2])) []
      rw [← pos A e' hA.symm p1, List.append_nil, List.append_assoc] at r3
      rw [r3] at h4
      cases h2; cases h3; cases h4
      exact ⟨a1, p1, p2⟩
    · rintro ⟨a1, p1, p2⟩
      have hA := a1.length_eq
      refine ⟨_, List.rel_append a1 (List.rel_append (join _ _ _ p1) (join _ _ _ p2)), ?_, ?_, ?_⟩
      · have r1 := mapM_vget_block [] dvs ((if ge = [] then [] else e.1 ++ [e.2]) ++ (if gl = [] then [] else l.1 ++ [l.2]))
        simp only [List.nil_append, List.length_nil, Nat.cast_zero, zero_add] at r1
        rw [hA, r1]
      · have r2 := rd ge _ e (hlens _ hge) p1 dvs (if gl = [] then [] else l.1 ++ [l.2])
        rw [← hA] at r2
        exact r2
      · have r3 := rd gl _ l (hlens _ hgl) p2 (dvs ++ (if ge = [] then [] else e.1 ++ [e.2])) []
        rw [← pos dvs e hA.symm p1, List.append_nil, List.append_assoc] at r3
        exact r3
  -- the final loop
  have hpr : ∀ (grad : List (List (List (Fl K)))) vals e, (grad = [] ∨ (grad.length = fs.length ∧ ∀ f ∈ grad, Rect Y X f)) → Rect Y X vals →
      PairTimes (downscalingGG2 T d ig og) grad vals e →
      (e.1 = [] ∨ (e.1.length = fs.length ∧ ∀ g ∈ e.1, g ≠ [])) ∧
      ∀ t < fs.length, (grad.getD t [] = [] ∧ (e.1.getD t [], e.2) = (([], []) : List (List (Fl K)) × List (List (Fl K)))) ∨
        (grad.getD t [] ≠ [] ∧ Rect oY oX (e.1.getD t []) ∧ Rect oY oX e.2) := by
    rintro grad vals e hg hvals hp
    have h3 : ∀ t < fs.length, PairOf (downscalingGG2 T d ig og) (downscalingGG2 T d ig og) (grad.getD t []) vals (e.1.getD t [], e.2) :=
      fun t ht => hp.at (hnn _ hg) (hlens _ hg) ht
    refine ⟨?_, fun t ht => ?_⟩
    · rcases hp with ⟨-, rfl⟩ | ⟨h0, h1, h2⟩
      · exact Or.inl rfl
      · have hl := h1.length_eq
        have hg := hg.resolve_left h0
        refine Or.inr ⟨by omega, fun g hgm => ?_⟩
        obtain ⟨t, ht, rfl⟩ := List.getElem_of_mem hgm
        exact rect_ne_nil how.hY (hdrect _ _ (hg.2 _ (List.getElem_mem (by omega))) ((List.forall₂_iff_get.mp h1).2 t (by omega) ht))
    · rcases h3 t ht with h | ⟨h0, h1, h2⟩
      · exact Or.inl h
      · exact Or.inr ⟨h0, hdrect _ _ ((hat _ hg t ht).resolve_left h0) h1, hdrect _ _ hvals h2⟩
  have hloop : ∀ dvs e l, List.Forall₂ (fun f o => downscalingGG2 T d ig og f = ok o) fs dvs → PairTimes (downscalingGG2 T d ig og) ge ig.elevs e →
      PairTimes (downscalingGG2 T d ig og) gl ig.lafs l →
      ∃ o, omp (mapM (fun t : Int => grid2 oY oX fun y x => do
        let lc ← correctionG3 l.1 l.2 og.lafs t y x
        let ec ← correctionG3 e.1 e.2 og.elevs t y x
        let vt ← vget dvs t
        let v ← vget2 vt y x
        ok (v + (lc + ec))) (upto fs.length)) = ok o ∧ EveryTime (fullGradientGG2 T d ig og) fs ge gl o := by
    intro dvs e l h1 h2 h3
    have hlen := h1.length_eq
    obtain ⟨e1, e2⟩ := hpr _ _ _ hge hw.elevs h2
    obtain ⟨l1, l2⟩ := hpr _ _ _ hgl hw.lafs h3
    obtain ⟨o, q1, q2, q3⟩ := mapM_upto_exists (n := fs.length) (f := fun t : Int => grid2 oY oX fun y x => do
        let lc ← correctionG3 l.1 l.2 og.lafs t y x
        let ec ← correctionG3 e.1 e.2 og.elevs t y x
        let vt ← vget dvs t
        let v ← vget2 vt y x
        ok (v + (lc + ec))) (P := fun t o => ∃ f, fs[t]? = some f ∧ fullGradientGG2 T d ig og f (ge.getD t []) (gl.getD t []) = ok o) (by
      intro t ht
      have hft : fs[t]? = some fs[t] := List.getElem?_eq_getElem ht
      have hdt : downscalingGG2 T d ig og fs[t] = ok (dvs[t]'(by omega)) := (List.forall₂_iff_get.mp h1).2 t ht (by omega)
      have hR := hf _ (List.getElem_mem ht)
      obtain ⟨o, o1, o2⟩ := full_loop how (hdrect _ _ hR hdt) (e2 t ht) (l2 t ht)
      have hget : vget dvs (t : Int) = ok (dvs[t]'(by omega)) := vget_nat_eq_ok.mpr (List.getElem?_eq_getElem _)
      refine ⟨o, ?_, _, hft, (c46_grid hT hd hi ho hv hs _ _ _ hR (hat _ hge t ht) (hat _ hgl t ht) o).mpr
        ⟨_, _, _, hdt, h2.at (hnn _ hge) (hlens _ hge) ht, h3.at (hnn _ hgl) (hlens _ hgl) ht, o2⟩⟩
      simp only [correctionG3_eq e1 ht, correctionG3_eq l1 ht, hget, ok_bind]
      exact o1)
    refine ⟨o, by rw [q1]; rfl, q2, fun t ht => ?_⟩
    obtain ⟨w, w1, -, f, w2, w3⟩ := q3 t ht
    exact ⟨f, w, w2, w1, w3⟩
  unfold fullGradientGG3
  rw [how.size, ok_bind, hstack _ _ hge, ok_bind, hstack _ _ hgl, ok_bind]
  constructor
  · intro h
    obtain ⟨fields, h0, h⟩ := bind_eq_ok.mp h
    obtain ⟨dvs, h1, h⟩ := bind_eq_ok.mp h
    obtain ⟨e, h2, h⟩ := bind_eq_ok.mp h
    obtain ⟨l, h3, h⟩ := bind_eq_ok.mp h
    obtain ⟨k1, k2, k3⟩ := (hread dvs e l).mp ⟨fields, h0, h1, h2, h3⟩
    obtain ⟨o, o1, o2⟩ := hloop dvs e l k1 k2 k3
    simp only [o1] at h
    cases h
    exact o2
  · intro h
    have hall : ∀ t < fs.length, ∃ f dv e l, fs[t]? = some f ∧ downscalingGG2 T d ig og f = ok dv ∧
        PairOf (downscalingGG2 T d ig og) (downscalingGG2 T d ig og) (ge.getD t []) ig.elevs e ∧
        PairOf (downscalingGG2 T d ig og) (downscalingGG2 T d ig og) (gl.getD t []) ig.lafs l := by
      intro t ht
      obtain ⟨f, o, q1, -, q3⟩ := h.2 t ht
      have hR := hf f (List.mem_of_getElem? q1)
      obtain ⟨dv, e, l, r1, r2, r3, -⟩ := (c46_grid hT hd hi ho hv hs _ _ _ hR (hat _ hge t ht) (hat _ hgl t ht) o).mp q3
      exact ⟨f, dv, e, l, q1, r1, r2, r3⟩
    obtain ⟨dvs, hdvs⟩ := mapM_exists (f := downscalingGG2 T d ig og) fs fun f hff => by
      obtain ⟨t, ht, rfl⟩ := List.getElem_of_mem hff
      obtain ⟨f', dv, -, -, q1, q2, -, -⟩ := hall t ht
      rw [List.getElem?_eq_getElem ht] at q1
      cases q1
      exact ⟨dv, q2⟩
    obtain ⟨e, he⟩ := PairTimes.of_at (D := downscalingGG2 T d ig og) (vals := ig.elevs) (hnn _ hge) (hlens _ hge) fun t ht => by
      obtain ⟨-, -, e, -, -, -, q, -⟩ := hall t ht
      exact ⟨e, q⟩
    obtain ⟨l, hl⟩ := PairTimes.of_at (D := downscalingGG2 T d ig og) (vals := ig.lafs) (hnn _ hgl) (hlens _ hgl) fun t ht => by
      obtain ⟨-, -, -, l, -, -, -, q⟩ := hall t ht
      exact ⟨l, q⟩
    obtain ⟨o, o1, o2⟩ := hloop dvs e l (mapM_eq_ok hdvs) he hl
    obtain ⟨fields, h0, h1, h2, h3⟩ := (hread dvs e l).mpr ⟨mapM_eq_ok hdvs, he, hl⟩
    rw [h0, ok_bind, h1, ok_bind, h2, ok_bind, h3, ok_bind, h.unique o2]
    exact o1

/-- **C46** (times, Grid → Points). -/
theorem c46_points_times (hd : d ≠ .other) {ig : Grid K} {op : Points K} {Y X : Nat} {lats lons : List (List (Fl K))} {olats olons : List (Fl K)}
    {type otype : CoordType} (hi : BuiltGrid ig Y X lats lons type) (ho : BuiltPoints op olats olons otype) (hv : PointsValidIn type olats olons)
    (hs : ∀ (i : Nat) la, olats[i]? = some la → BoxLat type lats la) (hop : olats ≠ [])
    (fs ge gl : List (List (List (Fl K)))) (hne : fs ≠ [])
    (hf : ∀ f ∈ fs, Rect Y X f) (hge : ge = [] ∨ (ge.length = fs.length ∧ ∀ f ∈ ge, Rect Y X f))
    (hgl : gl = [] ∨ (gl.length = fs.length ∧ ∀ f ∈ gl, Rect Y X f)) (out : List (List (Fl K))) :
    fullGradientGP3 T d ig op fs ge gl = ok out ↔ EveryTime (fullGradientGP2 T d ig op) fs ge gl out := by
  have hw := hi.wf.1
  have hY := hw.hY
  obtain ⟨m1, m2, m3⟩ := ho.meta
  have hn0 : 0 < fs.length := List.length_pos_of_ne_nil hne
  have hp0 : 0 < olats.length := List.length_pos_of_ne_nil hop
  have hrects : ∀ g : List (List (List (Fl K))), (g = [] ∨ (g.length = fs.length ∧ ∀ f ∈ g, Rect Y X f)) → ∀ f ∈ g, Rect Y X f := by
    rintro g (rfl | h) f hf
    · cases hf
    · exact h.2 f hf
  have hat : ∀ g : List (List (List (Fl K))), (g = [] ∨ (g.length = fs.length ∧ ∀ f ∈ g, Rect Y X f)) → ∀ t < fs.length, g.getD t [] = [] ∨ Rect Y X (g.getD t []) := by
    rintro g (rfl | h) t ht
    · exact Or.inl rfl
    · right
      rw [List.getD_eq_getElem _ _ (by omega)]
      exact h.2 _ (List.getElem_mem _)
  have hlens : ∀ g : List (List (List (Fl K))), (g = [] ∨ (g.length = fs.length ∧ ∀ f ∈ g, Rect Y X f)) → g = [] ∨ g.length = fs.length :=
    fun g h => h.imp id And.left
  have hnn : ∀ g : List (List (List (Fl K))), (g = [] ∨ (g.length = fs.length ∧ ∀ f ∈ g, Rect Y X f)) → ∀ f ∈ g, f ≠ [] :=
    fun g h f hf => rect_ne_nil hY (hrects g h f hf)
  have hpair : ∀ (grad : List (List (List (Fl K)))) vals e, (grad = [] ∨ (grad.length = fs.length ∧ ∀ f ∈ grad, Rect Y X f)) →
      (pairGP3 T d ig op grad vals = ok e ↔ PairTimes (downscalingGP2 T d ig op) grad vals e) := by
    intro grad vals e hg
    unfold pairGP3 PairTimes
    by_cases h0 : grad = []
    · subst h0
      simp only [List.length_nil, if_true, ok.injEq, true_and, ne_eq, not_true, false_and, or_false]
      exact eq_comm
    · rw [if_neg (by simpa using h0)]
      constructor
      · intro h
        obtain ⟨a, h1, h⟩ := bind_eq_ok.mp h
        obtain ⟨b, h2, h⟩ := bind_eq_ok.mp h
        cases h
        exact Or.inr ⟨h0, (downscalingGP3_ok_iff hT hd hi ho hv hs (hrects _ hg) _).mp h1, h2⟩
      · rintro (⟨h, -⟩ | ⟨-, h1, h2⟩)
        · exact absurd h h0
        · rw [(downscalingGP3_ok_iff hT hd hi ho hv hs (hrects _ hg) _).mpr h1, ok_bind, h2, ok_bind]
  have hpr : ∀ (grad : List (List (List (Fl K)))) vals e, (grad = [] ∨ (grad.length = fs.length ∧ ∀ f ∈ grad, Rect Y X f)) → Rect Y X vals →
      PairTimes (downscalingGP2 T d ig op) grad vals e →
      (e.1 = [] ∨ (e.1.length = fs.length ∧ ∀ g ∈ e.1, g ≠ [])) ∧
      ∀ t < fs.length, (grad.getD t [] = [] ∧ (e.1.getD t [], e.2) = (([], []) : List (Fl K) × List (Fl K))) ∨
        (grad.getD t [] ≠ [] ∧ (e.1.getD t []).length = olats.length ∧ e.2.length = olats.length) := by
    rintro grad vals e hg hvals hp
    have h3 : ∀ t < fs.length, PairOf (downscalingGP2 T d ig op) (downscalingGP2 T d ig op) (grad.getD t []) vals (e.1.getD t [], e.2) :=
      fun t ht => hp.at (hnn _ hg) (hlens _ hg) ht
    refine ⟨?_, fun t ht => ?_⟩
    · rcases hp with ⟨-, rfl⟩ | ⟨h0, h1, h2⟩
      · exact Or.inl rfl
      · have hl := h1.length_eq
        have hg := hg.resolve_left h0
        refine Or.inr ⟨by omega, fun g hgm => ?_⟩
        obtain ⟨t, ht, rfl⟩ := List.getElem_of_mem hgm
        have := downscalingGP2_length hi ho (hg.2 _ (List.getElem_mem (by omega))) ((List.forall₂_iff_get.mp h1).2 t (by omega) ht)
        intro hc
        rw [List.get_eq_getElem, hc] at this
        simp at this
        omega
    · rcases h3 t ht with h | ⟨h0, h1, h2⟩
      · exact Or.inl h
      · exact Or.inr ⟨h0, downscalingGP2_length hi ho ((hat _ hg t ht).resolve_left h0) h1, downscalingGP2_length hi ho hvals h2⟩
  have hloop : ∀ dvs e l, List.Forall₂ (fun f o => downscalingGP2 T d ig op f = ok o) fs dvs → PairTimes (downscalingGP2 T d ig op) ge ig.elevs e →
      PairTimes (downscalingGP2 T d ig op) gl ig.lafs l →
      ∃ o, grid2 fs.length olats.length (fun t i => do
        let lc ← correctionP2 l.1 l.2 op.lafs t i
        let ec ← correctionP2 e.1 e.2 op.elevs t i
        let v ← vget2 dvs t i
        ok (v + (lc + ec))) = ok o ∧ EveryTime (fullGradientGP2 T d ig op) fs ge gl o := by
    intro dvs e l h1 h2 h3
    have hlen := h1.length_eq
    obtain ⟨e1, e2⟩ := hpr _ _ _ hge hw.elevs h2
    obtain ⟨l1, l2⟩ := hpr _ _ _ hgl hw.lafs h3
    obtain ⟨o, q1, q2, q3⟩ := mapM_upto_exists (n := fs.length) (f := fun t : Int => mapM (fun i : Int => do
        let lc ← correctionP2 l.1 l.2 op.lafs t i
        let ec ← correctionP2 e.1 e.2 op.elevs t i
        let v ← vget2 dvs t i
        ok (v + (lc + ec))) (upto olats.length)) (P := fun t o => ∃ f, fs[t]? = some f ∧ fullGradientGP2 T d ig op f (ge.getD t []) (gl.getD t []) = ok o) (by
      intro t ht
      have hft : fs[t]? = some fs[t] := List.getElem?_eq_getElem ht
      have hdt : downscalingGP2 T d ig op fs[t] = ok (dvs[t]'(by omega)) := (List.forall₂_iff_get.mp h1).2 t ht (by omega)
      have hR := hf _ (List.getElem_mem ht)
      obtain ⟨o, o1, o2⟩ := full_loop_vec m1 m2 (downscalingGP2_length hi ho hR hdt) (e2 t ht) (l2 t ht)
      have hget : vget dvs (t : Int) = ok (dvs[t]'(by omega)) := vget_nat_eq_ok.mpr (List.getElem?_eq_getElem _)
      refine ⟨o, ?_, _, hft, (c46_points hi ho _ _ _ hR (hat _ hge t ht) (hat _ hgl t ht) o).mpr
        ⟨_, _, _, hdt, h2.at (hnn _ hge) (hlens _ hge) ht, h3.at (hnn _ hgl) (hlens _ hgl) ht, o2⟩⟩
      simp only [correctionP2_eq e1 ht, correctionP2_eq l1 ht, vget2, hget, ok_bind]
      exact o1)
    refine ⟨o, q1, q2, fun t ht => ?_⟩
    obtain ⟨w, w1, -, f, w2, w3⟩ := q3 t ht
    exact ⟨f, w, w2, w1, w3⟩
  unfold fullGradientGP3
  rw [m3]
  constructor
  · intro h
    obtain ⟨dvs, h1, h⟩ := bind_eq_ok.mp h
    obtain ⟨e, h2, h⟩ := bind_eq_ok.mp h
    obtain ⟨l, h3, h⟩ := bind_eq_ok.mp h
    obtain ⟨o, o1, o2⟩ := hloop dvs e l ((downscalingGP3_ok_iff hT hd hi ho hv hs hf dvs).mp h1) ((hpair _ _ _ hge).mp h2) ((hpair _ _ _ hgl).mp h3)
    rw [o1] at h
    cases h
    exact o2
  · intro h
    have hall : ∀ t < fs.length, ∃ f dv e l, fs[t]? = some f ∧ downscalingGP2 T d ig op f = ok dv ∧
        PairOf (downscalingGP2 T d ig op) (downscalingGP2 T d ig op) (ge.getD t []) ig.elevs e ∧
        PairOf (downscalingGP2 T d ig op) (downscalingGP2 T d ig op) (gl.getD t []) ig.lafs l := by
      intro t ht
      obtain ⟨f, o, q1, -, q3⟩ := h.2 t ht
      have hR := hf f (List.mem_of_getElem? q1)
      obtain ⟨dv, e, l, r1, r2, r3, -⟩ := (c46_points hi ho _ _ _ hR (hat _ hge t ht) (hat _ hgl t ht) o).mp q3
      exact ⟨f, dv, e, l, q1, r1, r2, r3⟩
    obtain ⟨dvs, hdvs⟩ := mapM_exists (f := downscalingGP2 T d ig op) fs fun f hff => by
      obtain ⟨t, ht, rfl⟩ := List.getElem_of_mem hff
      obtain ⟨f', dv, -, -, q1, q2, -, -⟩ := hall t ht
      rw [List.getElem?_eq_getElem ht] at q1
      cases q1
      exact ⟨dv, q2⟩
    obtain ⟨e, he⟩ := PairTimes.of_at (D := downscalingGP2 T d ig op) (vals := ig.elevs) (hnn _ hge) (hlens _ hge) fun t ht => by
      obtain ⟨-, -, e, -, -, -, q, -⟩ := hall t ht
      exact ⟨e, q⟩
    obtain ⟨l, hl⟩ := PairTimes.of_at (D := downscalingGP2 T d ig op) (vals := ig.lafs) (hnn _ hgl) (hlens _ hgl) fun t ht => by
      obtain ⟨-, -, -, l, -, -, -, q⟩ := hall t ht
      exact ⟨l, q⟩
    obtain ⟨o, o1, o2⟩ := hloop dvs e l (mapM_eq_ok hdvs) he hl
    rw [(downscalingGP3_ok_iff hT hd hi ho hv hs hf dvs).mpr (mapM_eq_ok hdvs), ok_bind, (hpair _ _ _ hge).mpr he, ok_bind,
      (hpair _ _ _ hgl).mpr hl, ok_bind, h.unique o2]
    exact o1

end times

theorem corr_none {o i g : Fl K} (h : o.isValid = false ∨ i.isValid = false ∨ g = fin 0) : corr o i g = 0 := by
  unfold corr
  split
  · rename_i hv
    rcases h with h | h | rfl
    · rw [h] at hv; cases hv.1
    · rw [h] at hv; cases hv.2
    · obtain ⟨a, rfl⟩ := exists_fin_of_valid hv.1
      obtain ⟨b, rfl⟩ := exists_fin_of_valid hv.2
      rw [fin_sub, fin_mul, zero_mul]; rfl
  · rfl

/-- No correction is possible at cell (y, x): the gradient is not given, the output value or the downscaled input value is
missing, or the downscaled gradient is zero. -/
def NoCorrection (grad : List (List (Fl K))) (e : List (List (Fl K)) × List (List (Fl K))) (ovals : List (List (Fl K))) (y x : Nat) : Prop :=
  grad = [] ∨ (∃ o, cell? ovals y x = some o ∧ o.isValid = false) ∨ (∃ i, cell? e.2 y x = some i ∧ i.isValid = false) ∨
    cell? e.1 y x = some (fin 0)

theorem CellCorr.none {grad : List (List (Fl K))} {e : List (List (Fl K)) × List (List (Fl K))} {ovals : List (List (Fl K))} {y x : Nat} {a : Fl K}
    (h : CellCorr grad e ovals y x a) (hn : NoCorrection grad e ovals y x) : a = 0 := by
  rcases h with ⟨-, rfl⟩ | ⟨h0, g, i, o, h1, h2, h3, rfl⟩
  · rfl
  · apply corr_none
    rcases hn with hn | ⟨o', k1, k2⟩ | ⟨i', k1, k2⟩ | k
    · exact absurd hn h0
    · rw [h3] at k1; cases k1; exact Or.inl k2
    · rw [h2] at k1; cases k1; exact Or.inr (Or.inl k2)
    · rw [h1] at k; cases k; exact Or.inr (Or.inr rfl)

/-- **C46** (no correction possible): such a cell keeps the downscaled value. -/
theorem c46_plain {Y X : Nat} {ge gl dv : List (List (Fl K))} {e l : List (List (Fl K)) × List (List (Fl K))} {oelevs olafs out : List (List (Fl K))}
    (h : Corrected Y X ge gl dv e l oelevs olafs out) {y x : Nat} (hy : y < Y) (hx : x < X) (he : NoCorrection ge e oelevs y x)
    (hl : NoCorrection gl l olafs y x) : cell? out y x = cell? dv y x := by
  obtain ⟨v, a, b, h1, h2, h3, h4⟩ := h.2 y hy x hx
  rw [h4, h1, h2.none he, h3.none hl, add_zero_fl, add_zero_fl]

section zero
variable {T : RTree K} (hT : T.Lawful) [LawfulSqrt K] {d : Downscaler}
include hT

/-- The downscaled value of a constant field is the constant. -/
theorem downValue_const {ig : Grid K} {Y X : Nat} {lats lons : List (List (Fl K))} {type : CoordType}
    (hi : BuiltGrid ig Y X lats lons type) {la lo : Fl K} (hv : ∃ p, convertCoordinates la lo type = ok p) (hs : BoxLat type lats la)
    {f : List (List (Fl K))} (hf : Rect Y X f) {c : K} (hc : ∀ y x v, cell? f y x = some v → v = fin c) {v : Fl K}
    (h : downValue T d ig f la lo = ok v) : v = fin c := by
  cases d with
  | other => cases h
  | nearest =>
    obtain ⟨n, c1, c2, c3, -⟩ := nearestCell_to hT hi hv
    obtain ⟨vc, e1, e2⟩ := nearestValue_eq hT hf c1 c2 c3
    have h : nearestValue T ig f la lo = ok v := h
    rw [e2] at h
    cases h
    exact hc _ _ _ e1
  | bilinear =>
    obtain ⟨m, n, -, -, -, ⟨y, x, A, B, C, D, p, q, r, s, w, -, -, -, ⟨q1, q2, q3, q4⟩, rfl, hw⟩ | ⟨h1, -⟩⟩ := c43_location hT hi hv hs hf v h
    · have e1 := hc _ _ _ q1
      have e2 := hc _ _ _ q2
      have e3 := hc _ _ _ q3
      have e4 := hc _ _ _ q4
      cases e1; cases e2; cases e3; cases e4
      obtain ⟨b1, b2⟩ := hw.between ⟨le_refl c, le_refl c, le_refl c, le_refl c⟩ ⟨le_refl c, le_refl c, le_refl c, le_refl c⟩
      rw [le_antisymm b2 b1]
    · exact hc _ _ _ h1

/-- **C46** (no gradient or a zero gradient): if each of the gradients is empty or zero everywhere, `full_gradient` gives the
plain downscaling. -/
theorem c46_zero_grid (hd : d ≠ .other) {ig og : Grid K} {Y X oY oX : Nat} {lats lons olats olons : List (List (Fl K))} {type otype : CoordType}
    (hi : BuiltGrid ig Y X lats lons type) (ho : BuiltGrid og oY oX olats olons otype) (hv : GridValidIn type olats olons)
    (hs : ∀ y x la, cell? olats y x = some la → BoxLat type lats la) (f ge gl : List (List (Fl K)))
    (hf : Rect Y X f) (hge : ge = [] ∨ (Rect Y X ge ∧ ∀ y x v, cell? ge y x = some v → v = fin 0))
    (hgl : gl = [] ∨ (Rect Y X gl ∧ ∀ y x v, cell? gl y x = some v → v = fin 0)) (out : List (List (Fl K)))
    (h : fullGradientGG2 T d ig og f ge gl = ok out) : downscalingGG2 T d ig og f = ok out := by
  obtain ⟨dv, e, l, h1, h2, h3, h4⟩ := (c46_grid hT hd hi ho hv hs f ge gl hf (hge.imp id And.left) (hgl.imp id And.left) out).mp h
  have key : ∀ (grad : List (List (Fl K))) vals (e : List (List (Fl K)) × List (List (Fl K))) ovals,
      (grad = [] ∨ (Rect Y X grad ∧ ∀ y x v, cell? grad y x = some v → v = fin 0)) →
      PairOf (downscalingGG2 T d ig og) (downscalingGG2 T d ig og) grad vals e → ∀ y < oY, ∀ x < oX, NoCorrection grad e ovals y x := by
    rintro grad vals e ovals hg (⟨h0, -⟩ | ⟨h0, k1, -⟩) y hy x hx
    · exact Or.inl h0
    · obtain ⟨g1, g2⟩ := hg.resolve_left h0
      obtain ⟨la, lo, v, q1, q2, q3, q4⟩ := ((downscalingGG2_ok_iff hi ho g1 _).mp k1).2 y hy x hx
      refine Or.inr (Or.inr (Or.inr ?_))
      rw [q3, downValue_const hT hi (hv y x la lo q1 q2) (hs y x la q1) g1 g2 q4]
  have hdv := ((downscalingGG2_ok_iff hi ho hf _).mp h1).1
  rw [h1, Rect.ext hdv h4.1 fun y hy x hx => (c46_plain h4 hy hx (key _ _ _ _ hge h2 y hy x hx) (key _ _ _ _ hgl h3 y hy x hx)).symm]

/-- **C46** (nearest neighbour): with valid output locations and fields of the right size `full_gradient` always succeeds. -/
theorem c46_nearest_total {ig og : Grid K} {Y X oY oX : Nat} {lats lons olats olons : List (List (Fl K))} {type otype : CoordType}
    (hi : BuiltGrid ig Y X lats lons type) (ho : BuiltGrid og oY oX olats olons otype) (hv : GridValidIn type olats olons)
    (hs : ∀ y x la, cell? olats y x = some la → BoxLat type lats la) (f ge gl : List (List (Fl K)))
    (hf : Rect Y X f) (hge : ge = [] ∨ Rect Y X ge) (hgl : gl = [] ∨ Rect Y X gl) :
    ∃ out, fullGradientGG2 T .nearest ig og f ge gl = ok out := by
  have hw := hi.wf.1
  have hdown : ∀ g, Rect Y X g → ∃ o, downscalingGG2 T .nearest ig og g = ok o ∧ Rect oY oX o := by
    intro g hg
    obtain ⟨o, o1, o2⟩ := nearestGG2_cells hT hi ho hv g hg
    exact ⟨o, (downscalingGG2_ok_iff hi ho hg o).mpr o2, o2.1⟩
  have hpair : ∀ grad vals, (grad = [] ∨ Rect Y X grad) → Rect Y X vals →
      ∃ e, PairOf (downscalingGG2 T .nearest ig og) (downscalingGG2 T .nearest ig og) grad vals e ∧
        ((grad = [] ∧ e = ([], [])) ∨ (grad ≠ [] ∧ Rect oY oX e.1 ∧ Rect oY oX e.2)) := by
    rintro grad vals (rfl | hg) hvv
    · exact ⟨([], []), Or.inl ⟨rfl, rfl⟩, Or.inl ⟨rfl, rfl⟩⟩
    · obtain ⟨a, a1, a2⟩ := hdown grad hg
      obtain ⟨b, b1, b2⟩ := hdown vals hvv
      have hn := rect_ne_nil hw.hY hg
      exact ⟨(a, b), Or.inr ⟨hn, a1, b1⟩, Or.inr ⟨hn, a2, b2⟩⟩
  obtain ⟨dv, d1, d2⟩ := hdown f hf
  obtain ⟨e, e1, e2⟩ := hpair ge ig.elevs hge hw.elevs
  obtain ⟨l, l1, l2⟩ := hpair gl ig.lafs hgl hw.lafs
  obtain ⟨o, -, o2⟩ := full_loop ho.wf.1 d2 e2 l2
  exact ⟨o, (c46_grid hT (by simp) hi ho hv hs f ge gl hf hge hgl o).mpr ⟨dv, e, l, d1, e1, l1, o2⟩⟩

end zero

section debug
variable {T : RTree K} [HasSqrt K] {d : Downscaler}

/-- The nine values of a cell of the debug output. -/
def DebugCell (dv : List (List (Fl K))) (e l : List (List (Fl K)) × List (List (Fl K))) (oelevs olafs : List (List (Fl K))) (y x : Nat) (w : List (Fl K)) : Prop :=
  ∃ v gE iE oE gL iL oL, cell? dv y x = some v ∧ cell? e.1 y x = some gE ∧ cell? e.2 y x = some iE ∧ cell? oelevs y x = some oE ∧
    cell? l.1 y x = some gL ∧ cell? l.2 y x = some iL ∧ cell? olafs y x = some oL ∧
    w = [v + corr oL iL gL + corr oE iE gE, oL - iL, oE - iE, corr oL iL gL, corr oE iE gE, oL, iL, v + corr oL iL gL, v + corr oE iE gE]

/-- **C46** (`full_gradient_debug`): with both gradients given it reports the corrected value, the differences, the two
corrections, the land fractions and the values with one correction each. -/
theorem c46_debug_partial {ig og : Grid K} {Y X oY oX : Nat} {lats lons olats olons : List (List (Fl K))} {type otype : CoordType}
    (hi : BuiltGrid ig Y X lats lons type) (ho : BuiltGrid og oY oX olats olons otype) (f ge gl : List (List (Fl K)))
    (hf : Rect Y X f) (hge : Rect Y X ge) (hgl : Rect Y X gl) (out : List (List (List (Fl K))))
    (h : fullGradientDebug T d ig og f ge gl = ok out) :
    ∃ dv e l, downscalingGG2 T d ig og f = ok dv ∧ downscalingGG2 T d ig og ge = ok e.1 ∧ downscalingGG2 T d ig og ig.elevs = ok e.2 ∧
      downscalingGG2 T d ig og gl = ok l.1 ∧ downscalingGG2 T d ig og ig.lafs = ok l.2 ∧ Rect oY oX out ∧
      ∀ y < oY, ∀ x < oX, ∃ w, cell? out y x = some w ∧ DebugCell dv e l og.elevs og.lafs y x w := by
  have hw := hi.wf.1
  have how := ho.wf.1
  have hY := hw.hY
  unfold fullGradientDebug at h
  rw [how.size, ok_bind] at h
  obtain ⟨dv, h1, h⟩ := bind_eq_ok.mp h
  obtain ⟨e, h2, h⟩ := bind_eq_ok.mp h
  obtain ⟨l, h3, h⟩ := bind_eq_ok.mp h
  unfold pairGG2 at h2 h3
  rw [if_neg (by rw [hge.1]; omega)] at h2
  rw [if_neg (by rw [hgl.1]; omega)] at h3
  obtain ⟨e1, k1, h2⟩ := bind_eq_ok.mp h2
  obtain ⟨e2, k2, h2⟩ := bind_eq_ok.mp h2
  obtain ⟨l1, k3, h3⟩ := bind_eq_ok.mp h3
  obtain ⟨l2, k4, h3⟩ := bind_eq_ok.mp h3
  cases h2; cases h3
  have hdrect : ∀ f o, Rect Y X f → downscalingGG2 T d ig og f = ok o → Rect oY oX o := fun f o hf h =>
    ((downscalingGG2_ok_iff hi ho hf o).mp h).1
  have hoY := how.hY
  obtain ⟨o, q1, q2, q3⟩ := grid2_exists (Y := oY) (X := oX) (f := fun y x => do
    let olaf ← vget2 og.lafs y x
    let ilaf ← vget2 l2 y x
    let oelev ← vget2 og.elevs y x
    let ielev ← vget2 e2 y x
    let lc ← correctionD l1 olaf ilaf y x
    let ec ← correctionD e1 oelev ielev y x
    let v ← vget2 dv y x
    ok [v + lc + ec, olaf - ilaf, oelev - ielev, lc, ec, olaf, ilaf, v + lc, v + ec]) (P := DebugCell dv (e1, e2) (l1, l2) og.elevs og.lafs) (by
    intro y hy x hx
    obtain ⟨v, a1, a2⟩ := vget2_of_rect (hdrect _ _ hf h1) hy hx
    obtain ⟨gE, b1, b2⟩ := vget2_of_rect (hdrect _ _ hge k1) hy hx
    obtain ⟨iE, c1, c2⟩ := vget2_of_rect (hdrect _ _ hw.elevs k2) hy hx
    obtain ⟨oE, d1, d2⟩ := vget2_of_rect how.elevs hy hx
    obtain ⟨gL, p1, p2⟩ := vget2_of_rect (hdrect _ _ hgl k3) hy hx
    obtain ⟨iL, q1, q2⟩ := vget2_of_rect (hdrect _ _ hw.lafs k4) hy hx
    obtain ⟨oL, r1, r2⟩ := vget2_of_rect how.lafs hy hx
    refine ⟨_, ?_, v, gE, iE, oE, gL, iL, oL, a1, b1, c1, d1, p1, q1, r1, rfl⟩
    unfold correctionD
    have n1 : ¬ l1.length = 0 := by rw [(hdrect _ _ hgl k3).1]; omega
    have n2 : ¬ e1.length = 0 := by rw [(hdrect _ _ hge k1).1]; omega
    simp only [if_neg n1, if_neg n2, a2, b2, c2, d2, p2, q2, r2, ok_bind, correction_eq])
  simp only [q1] at h
  cases h
  refine ⟨dv, (e1, e2), (l1, l2), h1, k1, k2, k3, k4, q2, fun y hy x hx => ?_⟩
  obtain ⟨w, w1, -, w2⟩ := q3 y hy x hx
  exact ⟨w, w1, w2⟩

/-- **C46** (negation): without one of the gradients `full_gradient_debug` reads outside an empty field as soon as the
fields can be downscaled. -/
theorem c46_debug_reads_outside {ig og : Grid K} {Y X oY oX : Nat} {lats lons olats olons : List (List (Fl K))} {type otype : CoordType}
    (hi : BuiltGrid ig Y X lats lons type) (ho : BuiltGrid og oY oX olats olons otype) (f ge gl dv : List (List (Fl K)))
    (e l : List (List (Fl K)) × List (List (Fl K))) (hnone : ge = [] ∨ gl = [])
    (hdv : downscalingGG2 T d ig og f = ok dv) (he : PairOf (downscalingGG2 T d ig og) (downscalingGG2 T d ig og) ge ig.elevs e)
    (hl : PairOf (downscalingGG2 T d ig og) (downscalingGG2 T d ig og) gl ig.lafs l) :
    fullGradientDebug T d ig og f ge gl = ub := by
  have hw := hi.wf.1
  have how := ho.wf.1
  have hY := hw.hY
  have hpair : ∀ grad vals e, PairOf (downscalingGG2 T d ig og) (downscalingGG2 T d ig og) grad vals e → pairGG2 T d ig og grad vals = ok e := by
    rintro grad vals e (⟨rfl, rfl⟩ | ⟨h0, h1, h2⟩)
    · rfl
    · unfold pairGG2
      rw [if_neg (by simpa using h0), h1, ok_bind, h2, ok_bind]
  unfold fullGradientDebug
  rw [how.size, ok_bind, hdv, ok_bind, hpair _ _ _ he, ok_bind, hpair _ _ _ hl, ok_bind]
  refine mapM_upto_first_ub how.hY (mapM_upto_first_ub how.hX ?_)
  obtain ⟨a, -, a2⟩ := vget2_of_rect how.lafs how.hY how.hX
  obtain ⟨b, -, b2⟩ := vget2_of_rect how.elevs how.hY how.hX
  simp only [Nat.cast_zero] at a2 b2
  beta_reduce
  rw [a2, ok_bind]
  rcases hl with ⟨-, rfl⟩ | ⟨h0, -, h2⟩
  · rfl
  · obtain ⟨c, -, c2⟩ := vget2_of_rect ((downscalingGG2_ok_iff hi ho hw.lafs _).mp h2).1 how.hY how.hX
    simp only [Nat.cast_zero] at c2
    rw [c2, ok_bind, b2, ok_bind]
    rcases he with ⟨-, rfl⟩ | ⟨h0', -⟩
    · rfl
    · exact absurd (hnone.resolve_left h0') h0

end debug

/-- **C46** (sizes): values, or given gradients, with a wrong number of rows or a wrong length of the first row are
rejected. -/
theorem c46_size [HasSqrt K] {T : RTree K} {d : Downscaler} {ig og : Grid K} {Y X oY oX : Nat} {lats lons olats olons : List (List (Fl K))} {type otype : CoordType}
    (hi : BuiltGrid ig Y X lats lons type) (ho : BuiltGrid og oY oX olats olons otype) (f ge gl : List (List (Fl K)))
    (h : f.length ≠ Y ∨ (Rect Y X f ∧ ge = [] ∧ gl ≠ [] ∧ (gl.length ≠ Y ∨ ∃ r, gl[0]? = some r ∧ r.length ≠ X)) ∨
      (Rect Y X f ∧ gl = [] ∧ ge ≠ [] ∧ (ge.length ≠ Y ∨ ∃ r, ge[0]? = some r ∧ r.length ≠ X))) :
    fullGradientGG2 T d ig og f ge gl = .throw .invalidArgument := by
  have hw := hi.wf.1
  have how := ho.wf.1
  have hY := hw.hY
  have bad : ∀ g : List (List (Fl K)), g ≠ [] → (g.length ≠ Y ∨ ∃ r, g[0]? = some r ∧ r.length ≠ X) → sizeMismatchOpt (Y, X) g = ok true := by
    intro g h0 h
    unfold sizeMismatchOpt sizeMismatch
    rw [if_neg (by simpa using h0)]
    by_cases h1 : g.length = Y
    · rw [if_neg (by simpa using h1)]
      rcases h with h | ⟨r, r1, r2⟩
      · exact absurd h1 h
      · have : vget g 0 = ok r := vget_nat_eq_ok.mpr r1
        rw [this, ok_bind, decide_eq_true r2]
    · rw [if_pos h1]
  unfold fullGradientGG2
  rw [how.size, ok_bind, hw.size, ok_bind]
  rcases h with h | ⟨h, rfl, h0, h1⟩ | ⟨h, rfl, h0, h1⟩
  · unfold sizeMismatch
    rw [if_pos h]
    rfl
  · rw [sizeMismatch_rect hY h, ok_bind, if_neg (by simp), bad _ h0 h1]
    rfl
  · rw [sizeMismatch_rect hY h, ok_bind, if_neg (by simp), sizeMismatchOpt_rect hY (Or.inl rfl), ok_bind, if_neg (by simp), bad _ h0 h1]
    rfl

/-- A 2 × 2 input grid with elevations and land fractions. -/
def witnessGrid : Res (Grid ℚ) :=
  Grid.new [[fin 0, fin 0], [fin 1, fin 1]] [[fin 0, fin 1], [fin 0, fin 1]] [[fin 0, fin 100], [fin 200, nan]] [[fin 0, fin 1], [fin 1, fin 0]] .cartesian

/-- A 1 × 2 output grid. -/
def witnessOut : Res (Grid ℚ) := Grid.new [[fin 0, fin 1]] [[fin 0, fin 1]] [[fin 10, fin 20]] [[fin (1 / 2), fin 1]] .cartesian

/-- A concrete case: the elevation correction is used at the first cell only (the input elevation of the second is
missing), the land fraction correction at both. -/
example : (do let g ← witnessGrid
              let o ← witnessOut
              fullGradientGG2 RTree.scan .nearest g o [[fin 1, fin 2], [fin 3, fin 4]] [[fin 1, fin 1], [fin 1, fin 1]] [[fin 2, fin 2], [fin 2, fin 4]]) =
    ok [[fin 12, fin 8]] := by decide +kernel

/-- The same with simple_gradient: the value is missing where the elevation is. -/
example : (do let g ← witnessGrid
              let o ← witnessOut
              simpleGradientGG2 RTree.scan .nearest g o [[fin 1, fin 2], [fin 3, fin 4]] (fin (1 / 2))) = ok [[fin 6, nan]] := by decide +kernel

/-- **C45** (negation of the literal claim): with gradient 0 the value is missing where an elevation is missing, unlike the
plain downscaling. -/
theorem c45_missing_elevation : (do let g ← witnessGrid
                                    let o ← witnessOut
                                    simpleGradientGG2 RTree.scan .nearest g o [[fin 1, fin 2], [fin 3, fin 4]] (fin 0)) = ok [[fin 1, nan]] ∧
    (do let g ← witnessGrid
        let o ← witnessOut
        downscalingGG2 RTree.scan .nearest g o [[fin 1, fin 2], [fin 3, fin 4]]) = ok [[fin 1, fin 4]] := by
  constructor <;> decide +kernel

/-- **C46** (negation): `full_gradient_debug` without gradients, where `full_gradient` gives the plain downscaling. -/
theorem c46_debug_counterexample : (do let g ← witnessGrid
                                       let o ← witnessOut
                                       fullGradientDebug RTree.scan .nearest g o [[fin 1, fin 2], [fin 3, fin 4]] [] []) = ub ∧
    (do let g ← witnessGrid
        let o ← witnessOut
        fullGradientGG2 RTree.scan .nearest g o [[fin 1, fin 2], [fin 3, fin 4]] [] []) = ok [[fin 1, fin 4]] := by
  constructor <;> decide +kernel

/-- **C46** (negation): the overload for points and several times reads outside the downscaled gradients if they are given
for fewer times than the values. -/
theorem c46_times_counterexample : (do let g ← witnessGrid
                                       let o ← Points.new [fin 0] [fin 0] [fin 10] [fin 1] .cartesian
                                       fullGradientGP3 RTree.scan .nearest g o [[[fin 1, fin 2], [fin 3, fin 4]], [[fin 1, fin 2], [fin 3, fin 4]]]
                                         [[[fin 1, fin 1], [fin 1, fin 1]]] []) = ub := by decide +kernel

/-- With one gradient per time the same call succeeds. -/
example : (do let g ← witnessGrid
              let o ← Points.new [fin 0] [fin 0] [fin 10] [fin 1] .cartesian
              fullGradientGP3 RTree.scan .nearest g o [[[fin 1, fin 2], [fin 3, fin 4]], [[fin 1, fin 2], [fin 3, fin 4]]]
                [[[fin 1, fin 1], [fin 1, fin 1]], [[fin 2, fin 2], [fin 2, fin 2]]] []) = ok [[fin 11], [fin 21]] := by decide +kernel

example : (do let g ← witnessGrid
              let o ← witnessOut
              fullGradientGG3 RTree.scan .nearest g o [[[fin 1, fin 2], [fin 3, fin 4]], [[fin 1, fin 2], [fin 3, fin 4]]]
                [[[fin 1, fin 1], [fin 1, fin 1]], [[fin 2, fin 2], [fin 2, fin 2]]] []) = ok [[[fin 11, fin 4]], [[fin 21, fin 4]]] := by decide +kernel

/-- The debug output with both gradients. -/
example : (do let g ← witnessGrid
              let o ← witnessOut
              fullGradientDebug RTree.scan .nearest g o [[fin 1, fin 2], [fin 3, fin 4]] [[fin 1, fin 1], [fin 1, fin 1]] [[fin 2, fin 2], [fin 2, fin 4]]) =
    ok [[[fin 12, fin (1 / 2), fin 10, fin 1, fin 10, fin (1 / 2), fin 0, fin 2, fin 11],
         [fin 8, fin 1, nan, fin 4, fin 0, fin 1, fin 0, fin 8, fin 4]]] := by decide +kernel

/-- The hypotheses of the theorems about grids hold for the concrete grids. -/
example : ∃ g o : Grid ℚ, BuiltGrid g 2 2 [[fin 0, fin 0], [fin 1, fin 1]] [[fin 0, fin 1], [fin 0, fin 1]] .cartesian ∧
    BuiltGrid o 1 2 [[fin 0, fin 1]] [[fin 0, fin 1]] .cartesian ∧ GridValidIn .cartesian [[fin (0 : ℚ), fin 1]] [[fin 0, fin 1]] ∧
    (∀ y x la, cell? [[fin (0 : ℚ), fin 1]] y x = some la → BoxLat .cartesian [[fin 0, fin 0], [fin 1, fin 1]] la) := by
  obtain ⟨g, hg⟩ : ∃ g, witnessGrid = ok g := ⟨_, rfl⟩
  obtain ⟨o, ho⟩ : ∃ g, witnessOut = ok g := ⟨_, rfl⟩
  have hr : Rect 1 2 [[fin (0 : ℚ), fin 1]] := ⟨rfl, by simp⟩
  have hr1 : Rect 2 2 [[fin (0 : ℚ), fin 0], [fin 1, fin 1]] := ⟨rfl, by simp⟩
  refine ⟨g, o, ⟨by decide, by decide, hr1, ⟨rfl, by simp⟩, _, _, Or.inr ⟨rfl, by simp⟩, Or.inr ⟨rfl, by simp⟩, hg⟩,
    ⟨by decide, by decide, hr, hr, _, _, Or.inr ⟨rfl, by simp⟩, Or.inr ⟨rfl, by simp⟩, ho⟩, ?_, ?_⟩
  · intro y x la lo h1 h2
    obtain ⟨hy, hx⟩ := cell?_lt hr h1
    match y, x, hy, hx, h1, h2 with
    | 0, 0, _, _, h1, h2 => cases h1; cases h2; exact ⟨_, rfl⟩
    | 0, 1, _, _, h1, h2 => cases h1; cases h2; exact ⟨_, rfl⟩
  · intro y x la h _
    refine ⟨fun y x v h => ?_, fun v hv => ?_⟩
    · obtain ⟨hy, hx⟩ := cell?_lt hr1 h
      match y, x, hy, hx, h with
      | 0, 0, _, _, h => cases h; norm_num [LatOk]
      | 0, 1, _, _, h => cases h; norm_num [LatOk]
      | 1, 0, _, _, h => cases h; norm_num [LatOk]
      | 1, 1, _, _, h => cases h; norm_num [LatOk]
    · subst hv
      obtain ⟨hy, hx⟩ := cell?_lt hr h
      match y, x, hy, hx, h with
      | 0, 0, _, _, h => cases h; norm_num [LatOk]
      | 0, 1, _, _, h => cases h; norm_num [LatOk]

end Gridpp.Props
