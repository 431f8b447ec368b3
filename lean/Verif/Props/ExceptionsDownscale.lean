import Verif.Props.ExceptionsGrids
import Verif.Model.Gradient
import Verif.Model.NeighbourhoodScore
import Verif.Lemmas.Gridding

/-!
C67, continued: from points to other places, fields of several times, and downscaling with gradients.
-/

set_option linter.unusedSectionVars false

namespace Gridpp.Props
open Fl Res

/-- The size check of the fields of several times: none, or a first field that fits. -/
def CubeFits {α : Type} (Y X : Nat) (v : List (List (List α))) : Prop := ∀ f ∈ v.head?, FieldFits Y X f

section
variable {K : Type} [Field K] [LinearOrder K] [IsStrictOrderedRing K] [FloorRing K]

/-- `nearest` from points raises an exception exactly if the number of values is not that of the points; with several times only
the first is looked at. -/
theorem c67_nearest_points [HasGeo K] (T : RTree K) (ip op : Points K) (og : Grid K) (values : List (Fl K)) (fields : List (List (Fl K))) :
    (Raises (nearestPG1 T ip og values) ↔ values.length ≠ ip.lats.length) ∧ (Raises (nearestPP1 T ip op values) ↔ values.length ≠ ip.lats.length) ∧
    (Raises (nearestPG2 T ip og fields) ↔ ∃ r ∈ fields.head?, r.length ≠ ip.lats.length) ∧
    (Raises (nearestPP2 T ip op fields) ↔ ∃ r ∈ fields.head?, r.length ≠ ip.lats.length) := by
  have hc : compatibleSizeP2 ip fields = false ↔ ∃ r ∈ fields.head?, r.length ≠ ip.lats.length := by
    cases fields with
    | nil => simp [compatibleSizeP2]
    | cons r t => simp [compatibleSizeP2, Points.size, eq_comm]
  have hs : ip.size ≠ values.length ↔ values.length ≠ ip.lats.length := by unfold Points.size; exact ne_comm
  refine ⟨?_, ?_, ?_, ?_⟩
  · unfold nearestPG1
    rw [raises_if, raises_iff_of_not, hs]
    no_raise
  · unfold nearestPP1
    rw [raises_if, raises_iff_of_not, hs]
    no_raise
  · unfold nearestPG2
    rw [raises_if, raises_iff_of_not, hc]
    no_raise
  · unfold nearestPP2
    rw [raises_if, raises_iff_of_not, hc]
    no_raise

theorem compatible3_iff [HasGeo K] {α : Type} {g : Grid K} {Y X : Nat} {lats lons : List (List (Fl K))} {type : CoordType}
    (hg : BuiltGrid g Y X lats lons type) (v : List (List (List α))) : ∃ c, compatibleSizeG3 g v = ok c ∧ (c = false ↔ ¬ CubeFits Y X v) := by
  cases v with
  | nil => exact ⟨true, rfl, by simp [CubeFits]⟩
  | cons f t =>
    cases f with
    | nil => exact ⟨true, rfl, by simp [CubeFits, FieldFits]⟩
    | cons r s =>
      refine ⟨_, by unfold compatibleSizeG3; rw [hg.wf.1.size]; rfl, ?_⟩
      simp only [CubeFits, FieldFits, List.head?_cons, Option.mem_def, Option.some.injEq, forall_eq', reduceCtorEq, false_or, List.length_cons]
      rw [Bool.and_eq_false_iff, decide_eq_false_iff_not, decide_eq_false_iff_not, not_and_or, eq_comm (a := Y), eq_comm (a := X)]

/-- Downscaling the fields of several times: as for one field, where the first field decides about the sizes. -/
theorem c67_downscaling_times [HasGeo K] [HasSqrt K] (T : RTree K) {g : Grid K} {Y X : Nat} {glats glons : List (List (Fl K))} {type : CoordType}
    (hg : BuiltGrid g Y X glats glons type) (og : Grid K) (op : Points K) (fields : List (List (List (Fl K)))) (d : Downscaler) :
    (Raises (nearestGG3 T g og fields) ↔ ¬ CubeFits Y X fields) ∧ (Raises (nearestGP3 T g op fields) ↔ ¬ CubeFits Y X fields) ∧
    (Raises (bilinearGG3 T g og fields) ↔ ¬ CubeFits Y X fields) ∧ (Raises (bilinearGP3 T g op fields) ↔ ¬ CubeFits Y X fields) ∧
    (Raises (downscalingGG3 T d g og fields) ↔ ¬ CubeFits Y X fields ∨ d = .other) ∧
    (Raises (downscalingGP3 T d g op fields) ↔ ¬ CubeFits Y X fields ∨ d = .other) := by
  obtain ⟨c, hc, hcf⟩ := compatible3_iff hg fields
  have h1 : Raises (nearestGG3 T g og fields) ↔ ¬ CubeFits Y X fields := by
    unfold nearestGG3
    rw [hc, ok_bind, raises_if, raises_iff_of_not, hcf]
    exact not_raises_bind (not_raises_vget _ _) fun _ => not_raises_bind (not_raises_size _) fun _ => by no_raise
  have h2 : Raises (nearestGP3 T g op fields) ↔ ¬ CubeFits Y X fields := by
    unfold nearestGP3
    rw [hc, ok_bind, raises_if, raises_iff_of_not, hcf]
    exact not_raises_bind (not_raises_size _) fun _ => by no_raise
  have h3 : Raises (bilinearGG3 T g og fields) ↔ ¬ CubeFits Y X fields := by
    unfold bilinearGG3
    rw [hc, ok_bind, raises_if, raises_iff_of_not, hcf]
    exact not_raises_bind (not_raises_vget _ _) fun _ => not_raises_bind (not_raises_size _) fun _ => by no_raise
  have h4 : Raises (bilinearGP3 T g op fields) ↔ ¬ CubeFits Y X fields := by
    unfold bilinearGP3
    rw [hc, ok_bind, raises_if, raises_iff_of_not, hcf]
    exact not_raises_bind (not_raises_size _) fun _ => by no_raise
  refine ⟨h1, h2, h3, h4, ?_, ?_⟩
  · unfold downscalingGG3
    rw [hc, ok_bind, raises_if, hcf]
    cases d
    · simp [h1]
    · simp [h3]
    · simp only [or_true, iff_true]
      exact Or.inr ⟨_, rfl⟩
  · unfold downscalingGP3
    rw [hc, ok_bind, raises_if, hcf]
    cases d
    · simp [h2]
    · simp [h4]
    · simp only [or_true, iff_true]
      exact Or.inr ⟨_, rfl⟩

theorem raises_bind_first {α β : Type} {r : Res α} {f : α → Res β} (hf : ∀ a, r = ok a → ¬ Raises (f a)) :
    Raises (do let a ← r; f a) ↔ Raises r := by
  cases r with
  | ok a => exact ⟨fun h => absurd h (hf a rfl), fun h => absurd h (not_raises_ok _)⟩
  | throw e => exact ⟨fun _ => ⟨e, rfl⟩, fun _ => ⟨e, rfl⟩⟩
  | abort => exact ⟨fun h => absurd h not_raises_abort, fun h => absurd h not_raises_abort⟩
  | ub => exact ⟨fun h => absurd h not_raises_ub, fun h => absurd h not_raises_ub⟩

theorem fits_rect {α : Type} {Y X : Nat} {f : List (List α)} (h : Rect Y X f) : FieldFits Y X f := by
  right
  refine ⟨h.1, fun r hr => h.2 r ?_⟩
  cases f with
  | nil => simp at hr
  | cons a t => simp at hr; simp [hr]

theorem raises_then {α : Type} {p q : Prop} {r : Res α} (h : Raises r ↔ p ∨ q) : (p ∨ Raises r) ↔ p ∨ q := by tauto

/-- A computation after one that raises an exception in the same case, or always otherwise. -/
theorem raises_two {α β γ : Type} {p q : Prop} {r : Res α} {s : Res β} {f : α → β → Res γ} (h : Raises r ↔ p ∨ q) (hs : Raises s → q)
    (hf : ∀ a b, ¬ Raises (f a b)) : Raises (do let a ← r; let b ← s; f a b) ↔ p ∨ q :=
  (raises_bind_first fun a ha => not_raises_bind (fun hx => not_raises_ok a (ha ▸ h.mpr (Or.inr (hs hx)))) (hf a)).trans h

/-- `simple_gradient`: as `downscaling`. -/
theorem c67_simple_gradient [HasGeo K] [HasSqrt K] (T : RTree K) {g : Grid K} {Y X : Nat} {glats glons : List (List (Fl K))} {type : CoordType}
    (hg : BuiltGrid g Y X glats glons type) {og : Grid K} {Y' X' : Nat} {olats olons : List (List (Fl K))} {otype : CoordType}
    (ho : BuiltGrid og Y' X' olats olons otype) (op : Points K) (field : List (List (Fl K))) (fields : List (List (List (Fl K))))
    (slope : Fl K) (d : Downscaler) :
    (Raises (simpleGradientGP2 T d g op field slope) ↔ ¬ FieldFits Y X field ∨ d = .other) ∧
    (Raises (simpleGradientGG2 T d g og field slope) ↔ ¬ FieldFits Y X field ∨ d = .other) ∧
    (Raises (simpleGradientGP3 T d g op fields slope) ↔ ¬ CubeFits Y X fields ∨ d = .other) ∧
    (Raises (simpleGradientGG3 T d g og fields slope) ↔ ¬ CubeFits Y X fields ∨ d = .other) := by
  obtain ⟨c, hc, hcf⟩ := compatible_iff hg field
  obtain ⟨c3, hc3, hcf3⟩ := compatible3_iff hg fields
  obtain ⟨hw, -, -, -⟩ := hg.wf
  obtain ⟨-, -, -, -, d1, d2⟩ := c67_downscaling T hg og op field d
  obtain ⟨-, -, -, -, e1, e2⟩ := c67_downscaling T hg og op g.elevs d
  obtain ⟨-, -, -, -, t1, t2⟩ := c67_downscaling_times T hg og op fields d
  have hel : FieldFits Y X g.elevs := fits_rect hw.elevs
  have e1 : Raises (downscalingGG2 T d g og g.elevs) → d = .other := fun h => (e1.mp h).resolve_left fun h => h hel
  have e2 : Raises (downscalingGP2 T d g op g.elevs) → d = .other := fun h => (e2.mp h).resolve_left fun h => h hel
  refine ⟨?_, ?_, ?_, ?_⟩
  · unfold simpleGradientGP2
    rw [hc, ok_bind, raises_if, hcf]
    refine raises_then (raises_two d2 e2 fun _ _ => ?_)
    no_raise
  · unfold simpleGradientGG2
    rw [hc, ok_bind, raises_if, hcf, ho.wf.1.size, ok_bind]
    refine raises_then (raises_two d1 e1 fun _ _ => ?_)
    no_raise
  · unfold simpleGradientGP3
    rw [hc3, ok_bind, raises_if, hcf3]
    exact raises_then (raises_two t2 e2 fun _ _ => c67_parallel _)
  · unfold simpleGradientGG3
    rw [hc3, ok_bind, raises_if, hcf3, ho.wf.1.size, ok_bind]
    exact raises_then (raises_two t1 e1 fun _ _ => c67_parallel _)

/-! ## full_gradient -/

theorem mismatch_iff [HasGeo K] {g : Grid K} {Y X : Nat} {lats lons : List (List (Fl K))} {type : CoordType}
    (hg : BuiltGrid g Y X lats lons type) (f : List (List (Fl K))) :
    (∃ m, sizeMismatch (Y, X) f = ok m ∧ (m = true ↔ f = [] ∨ ¬ FieldFits Y X f)) ∧
    (∃ m, sizeMismatchOpt (Y, X) f = ok m ∧ (m = true ↔ ¬ FieldFits Y X f)) := by
  have hY := hg.1
  have h1 : ∃ m, sizeMismatch (Y, X) f = ok m ∧ (m = true ↔ f = [] ∨ ¬ FieldFits Y X f) := by
    unfold sizeMismatch
    cases f with
    | nil => exact ⟨true, by simp; omega, by simp⟩
    | cons r t =>
      by_cases hl : t.length + 1 = Y
      · refine ⟨decide (r.length ≠ X), ?_, ?_⟩
        · rw [if_neg (by simp [hl])]; rfl
        · simp [FieldFits, hl]
      · exact ⟨true, by simp [hl], by simp [FieldFits, hl]⟩
  refine ⟨h1, ?_⟩
  unfold sizeMismatchOpt
  cases f with
  | nil => exact ⟨false, rfl, by simp [FieldFits]⟩
  | cons r t => simpa using h1

theorem stack_iff (grad : List (List (List (Fl K)))) (vals : List (List (Fl K))) (iv : List (List (List (Fl K)))) :
    ((grad = [] ∨ grad.map (List.map List.length) = iv.map (List.map List.length)) → ∃ l, stackFields3 grad vals iv = ok l ∧ (iv = [] → l = [])) ∧
    (¬ (grad = [] ∨ grad.map (List.map List.length) = iv.map (List.map List.length)) → stackFields3 grad vals iv = abort) := by
  unfold stackFields3 compatibleSize33
  by_cases h0 : grad = []
  · exact ⟨fun _ => ⟨[], by simp [h0], fun _ => rfl⟩, fun h => absurd (Or.inl h0) h⟩
  · rw [if_neg (by simpa using h0)]
    refine ⟨fun h => ?_, fun h => ?_⟩
    · have h := h.resolve_left h0
      have hl : grad.length = iv.length := by simpa using congrArg List.length h
      rw [h, decide_eq_true rfl]
      have : ∃ gs, mapM (fun t : Int => vget grad t) (upto iv.length) = ok gs := by
        refine mapM_exists _ ?_
        intro a ha
        simp only [upto, List.mem_map, List.mem_range] at ha
        obtain ⟨i, hi, rfl⟩ := ha
        exact ⟨_, vget_eq_ok_of_lt (by omega)⟩
      obtain ⟨gs, hgs⟩ := this
      refine ⟨gs ++ [vals], by rw [hgs]; rfl, fun hiv => absurd (by simpa [hiv] using hl) h0⟩
    · rw [not_or] at h
      rw [decide_eq_false h.2]
      rfl

/-- `full_gradient` to a grid checks the sizes of the field and of the gradients; a downscaler that does not exist is reported. With several times it checks
only the first field; gradients of other sizes than the values terminate the process instead. -/
theorem c67_full_gradient_grid [HasGeo K] [HasSqrt K] (T : RTree K) {g : Grid K} {Y X : Nat} {glats glons : List (List (Fl K))} {type : CoordType}
    (hg : BuiltGrid g Y X glats glons type) {og : Grid K} {Y' X' : Nat} {olats olons : List (List (Fl K))} {otype : CoordType}
    (ho : BuiltGrid og Y' X' olats olons otype) (v e l : List (List (Fl K))) (vs es ls : List (List (List (Fl K)))) (d : Downscaler) :
    (Raises (fullGradientGG2 T d g og v e l) ↔ (v = [] ∨ ¬ FieldFits Y X v) ∨ ¬ FieldFits Y X l ∨ ¬ FieldFits Y X e ∨ d = .other) ∧
    (Raises (fullGradientGG3 T d g og vs es ls) ↔ (∀ f ∈ [es, ls], f = [] ∨ f.map (List.map List.length) = vs.map (List.map List.length)) ∧
      (¬ CubeFits Y X vs ∨ d = .other)) ∧
    (fullGradientGG3 T d g og vs es ls = abort ∨ Raises (fullGradientGG3 T d g og vs es ls) ∨
      ∀ f ∈ [es, ls], f = [] ∨ f.map (List.map List.length) = vs.map (List.map List.length)) := by
  obtain ⟨⟨mv, hv, hvm⟩, -⟩ := mismatch_iff hg v
  obtain ⟨-, me, he, hem⟩ := mismatch_iff hg e
  obtain ⟨-, ml, hl, hlm⟩ := mismatch_iff hg l
  have hsz := hg.wf.1.size
  have hso := ho.wf.1.size
  refine ⟨?_, ?_, ?_⟩
  · unfold fullGradientGG2
    rw [hso, ok_bind, hsz, ok_bind, hv, ok_bind, raises_if, hvm, hl, ok_bind, raises_if, hlm, he, ok_bind, raises_if, hem]
    by_cases hfit : v = [] ∨ ¬ FieldFits Y X v
    · simp [hfit]
    · have hfit' : CubeFits Y X (v :: (stackFields e g.elevs ++ stackFields l g.lafs)) := by
        rw [not_or, not_not] at hfit
        simpa [CubeFits] using hfit.2
      have key : ∀ {γ : Type} (k : List (List (List (Fl K))) → Res γ), (∀ f, ¬ Raises (k f)) →
          (Raises (do let f ← downscalingGG3 T d g og (v :: (stackFields e g.elevs ++ stackFields l g.lafs)); k f) ↔ d = .other) := by
        intro γ k hk
        refine (raises_bind_first fun a _ => hk a).trans ?_
        obtain ⟨-, -, -, -, t1, -⟩ := c67_downscaling_times T hg og ⟨[], [], [], [], g.tree⟩ (v :: (stackFields e g.elevs ++ stackFields l g.lafs)) d
        rw [t1]
        simp [hfit']
      rw [key]
      intro f
      refine not_raises_bind (not_raises_vget _ _) fun _ => not_raises_bind ?_ fun _ => not_raises_bind ?_ fun _ => c67_parallel _
      · unfold stackPair; no_raise
      · unfold stackPair; no_raise
  all_goals
    obtain ⟨a1, a2⟩ := stack_iff es g.elevs vs
    obtain ⟨b1, b2⟩ := stack_iff ls g.lafs vs
    simp only [List.mem_cons, List.not_mem_nil, or_false, forall_eq_or_imp, forall_eq]
  · unfold fullGradientGG3
    rw [hso, ok_bind]
    by_cases ha : es = [] ∨ es.map (List.map List.length) = vs.map (List.map List.length)
    · obtain ⟨fe, hfe, fe0⟩ := a1 ha
      rw [hfe, ok_bind]
      by_cases hb : ls = [] ∨ ls.map (List.map List.length) = vs.map (List.map List.length)
      · obtain ⟨fl, hfl, fl0⟩ := b1 hb
        rw [hfl, ok_bind]
        have hcube : CubeFits Y X (vs ++ (fe ++ fl)) ↔ CubeFits Y X vs := by
          cases vs with
          | nil => simp [fe0 rfl, fl0 rfl]
          | cons a t => simp [CubeFits]
        have key : ∀ {γ : Type} (k : List (List (List (Fl K))) → Res γ), (∀ f, ¬ Raises (k f)) →
            (Raises (do let f ← downscalingGG3 T d g og (vs ++ (fe ++ fl)); k f) ↔ ¬ CubeFits Y X vs ∨ d = .other) := by
          intro γ k hk
          refine (raises_bind_first fun a _ => hk a).trans ?_
          obtain ⟨-, -, -, -, t1, -⟩ := c67_downscaling_times T hg og ⟨[], [], [], [], g.tree⟩ (vs ++ (fe ++ fl)) d
          rw [t1, hcube]
        rw [key]
        · simp [ha, hb]
        · intro f
          refine not_raises_bind (by no_raise) fun _ => not_raises_bind ?_ fun _ => not_raises_bind ?_ fun _ => c67_parallel _
          · unfold stackPair3; no_raise
          · unfold stackPair3; no_raise
      · rw [b2 hb]
        refine ⟨fun h => absurd h not_raises_abort, fun h => absurd h.1.2 hb⟩
    · rw [a2 ha]
      refine ⟨fun h => absurd h not_raises_abort, fun h => absurd h.1.1 ha⟩
  · by_cases ha : es = [] ∨ es.map (List.map List.length) = vs.map (List.map List.length)
    · by_cases hb : ls = [] ∨ ls.map (List.map List.length) = vs.map (List.map List.length)
      · exact Or.inr (Or.inr ⟨ha, hb⟩)
      · left
        unfold fullGradientGG3
        obtain ⟨fe, hfe, -⟩ := a1 ha
        rw [hso, ok_bind, hfe, ok_bind, b2 hb]
        rfl
    · left
      unfold fullGradientGG3
      rw [hso, ok_bind, a2 ha]
      rfl

theorem raises_second {α β γ : Type} {p : Prop} {r : Res α} {s : Res β} {f : α → β → Res γ} (h : Raises r ↔ p) (hs : ∀ a, r = ok a → ¬ Raises s)
    (hf : ∀ a b, ¬ Raises (f a b)) : Raises (do let a ← r; let b ← s; f a b) ↔ p :=
  (raises_bind_first fun a ha => not_raises_bind (hs a ha) (hf a)).trans h

/-- `full_gradient` to points: the field and the downscaler are checked; gradients of another size than the field terminate the process. With several times
also the sizes of the gradients are checked. -/
theorem c67_full_gradient_points [HasGeo K] [HasSqrt K] (T : RTree K) {g : Grid K} {Y X : Nat} {glats glons : List (List (Fl K))} {type : CoordType}
    (hg : BuiltGrid g Y X glats glons type) (op : Points K) (v e l : List (List (Fl K))) (vs es ls : List (List (List (Fl K)))) (d : Downscaler) :
    (Raises (fullGradientGP2 T d g op v e l) ↔ ¬ FieldFits Y X v ∨ d = .other) ∧
    (Raises (fullGradientGP3 T d g op vs es ls) → ¬ CubeFits Y X vs ∨ d = .other ∨ ¬ CubeFits Y X es ∨ ¬ CubeFits Y X ls) ∧
    (¬ CubeFits Y X vs ∨ d = .other → Raises (fullGradientGP3 T d g op vs es ls)) ∧
    (∀ out, downscalingGP3 T d g op vs = ok out → ¬ CubeFits Y X es → Raises (fullGradientGP3 T d g op vs es ls)) := by
  obtain ⟨hw, -, -, -⟩ := hg.wf
  have hd : ∀ f, Raises (downscalingGP2 T d g op f) ↔ ¬ FieldFits Y X f ∨ d = .other := fun f => (c67_downscaling T hg g op f d).2.2.2.2.2
  have hd3 : ∀ f, Raises (downscalingGP3 T d g op f) ↔ ¬ CubeFits Y X f ∨ d = .other := fun f => (c67_downscaling_times T hg g op f d).2.2.2.2.2
  have hpair : ∀ (f vals : List (List (Fl K))), FieldFits Y X vals → FieldFits Y X v → d ≠ .other → ¬ Raises (pairGP2 T d g op f vals v) := by
    intro f vals hvals hv hdo
    unfold pairGP2
    split_ifs with h0
    · exact not_raises_ok _
    · cases f with
      | nil => simp at h0
      | cons r t =>
        cases v with
        | nil => simp [assert, not_raises_abort]
        | cons r' t' =>
          by_cases hl : t.length = t'.length
          · by_cases hr : r.length = r'.length
            · have hfit : FieldFits Y X (r :: t) := by
                simp only [FieldFits, List.head?_cons, Option.mem_def, Option.some.injEq, forall_eq', reduceCtorEq, false_or, List.length_cons] at hv ⊢
                exact ⟨by omega, by omega⟩
              refine not_raises_bind (not_raises_assert _) fun _ => not_raises_bind (not_raises_vget _ _) fun _ =>
                not_raises_bind (not_raises_vget _ _) fun _ => not_raises_bind (not_raises_assert _) fun _ => not_raises_bind ?_ fun _ => not_raises_bind ?_ fun _ => not_raises_ok _
              · rw [hd]; simp [hfit, hdo]
              · rw [hd]; simp [hvals, hdo]
            · have : (do
                  assert (decide ((r :: t).length = (r' :: t').length))
                  let g0 ← vget (r :: t) 0
                  let v0 ← vget (r' :: t') 0
                  assert (decide (g0.length = v0.length))
                  let dg ← downscalingGP2 T d g op (r :: t)
                  let dv ← downscalingGP2 T d g op vals
                  ok (dg, dv)) = (abort : Res (List (Fl K) × List (Fl K))) := by
                simp [assert, hl, hr, vget]
              rw [this]
              exact not_raises_abort
          · simp [assert, hl]
            exact not_raises_abort
  refine ⟨?_, ?_, ?_, ?_⟩
  · unfold fullGradientGP2
    refine (raises_bind_first fun a ha => ?_).trans (hd v)
    have hn : ¬ (¬ FieldFits Y X v ∨ d = .other) := by rw [← hd, ha]; exact not_raises_ok _
    rw [not_or, not_not] at hn
    refine not_raises_bind (hpair _ _ (fits_rect hw.elevs) hn.1 hn.2) fun _ => not_raises_bind (hpair _ _ (fits_rect hw.lafs) hn.1 hn.2) fun _ => ?_
    unfold correctionP correction
    no_raise
  · intro h
    by_contra hx
    simp only [not_or, not_not] at hx
    obtain ⟨x1, x2, x3, x4⟩ := hx
    have hp3 : ∀ (f : List (List (List (Fl K)))) (vals : List (List (Fl K))), CubeFits Y X f → FieldFits Y X vals → ¬ Raises (pairGP3 T d g op f vals) := by
      intro f vals h1 h2
      unfold pairGP3
      split_ifs
      · exact not_raises_ok _
      · refine not_raises_bind ?_ fun _ => not_raises_bind ?_ fun _ => not_raises_ok _
        · rw [hd3]; simp [h1, x2]
        · rw [hd]; simp [h2, x2]
    revert h
    unfold fullGradientGP3
    refine not_raises_bind (by rw [hd3]; simp [x1, x2]) fun _ => not_raises_bind (hp3 _ _ x3 (fits_rect hw.elevs)) fun _ =>
      not_raises_bind (hp3 _ _ x4 (fits_rect hw.lafs)) fun _ => ?_
    unfold correctionP2 correction
    no_raise
  · intro h
    obtain ⟨x, hx⟩ := (hd3 vs).mpr h
    unfold fullGradientGP3
    rw [hx]
    exact ⟨x, rfl⟩
  · intro out hout hes
    have hne : es.length ≠ 0 := by
      intro h0
      rw [List.length_eq_zero_iff] at h0
      exact hes (by simp [h0, CubeFits])
    obtain ⟨x, hx⟩ := (hd3 es).mpr (Or.inl hes)
    unfold fullGradientGP3 pairGP3
    rw [hout, ok_bind, if_neg hne, hx]
    exact ⟨x, rfl⟩

end
end Gridpp.Props
