import Verif.Props.ExceptionsEnsemble
import Verif.Props.EnsiGrid

/-!
C67, continued: the methods for ensembles on grids, and `full_gradient_debug`.
-/

set_option linter.unusedSectionVars false

namespace Gridpp.Props
open Fl Res

theorem reported_bind {α β : Type} {r : Res α} {f : α → Res β} (hf : ∀ a, r = ok a → Unreported (f a)) :
    (do let a ← r; f a) = .throw .invalidArgument ↔ r = .throw .invalidArgument := by
  cases r with
  | ok a => exact ⟨fun h => absurd h (hf a rfl), fun h => by cases h⟩
  | throw e => exact ⟨fun h => by cases e <;> first | rfl | (cases h), fun h => by cases h; rfl⟩
  | abort => exact ⟨fun h => (by cases h), fun h => (by cases h)⟩
  | ub => exact ⟨fun h => (by cases h), fun h => (by cases h)⟩

theorem chain7 {A0 A1 A2 A3 A4 A5 A6 t : Prop} (h : ¬ A0 → ¬ A1 → ¬ A2 → ¬ A3 → ¬ A4 → ¬ A5 → ¬ A6 → ¬ t) : (A0 ∨ A1 ∨ A2 ∨ A3 ∨ A4 ∨ A5 ∨ A6 ∨ t) ↔ (A0 ∨ A1 ∨ A2 ∨ A3 ∨ A4 ∨ A5 ∨ A6) := by
  tauto

theorem chain6 {A0 A1 A2 A3 A4 A5 t L : Prop} (h : ¬ A0 → ¬ A1 → ¬ A2 → ¬ A3 → ¬ A4 → ¬ A5 → (t ↔ L)) :
    (A0 ∨ A1 ∨ A2 ∨ A3 ∨ A4 ∨ A5 ∨ t) ↔ (A0 ∨ A1 ∨ A2 ∨ A3 ∨ A4 ∨ A5 ∨ L) := by
  tauto

theorem chain9 {A0 A1 A2 A3 A4 A5 A6 A7 A8 t : Prop} (h : ¬ A0 → ¬ A1 → ¬ A2 → ¬ A3 → ¬ A4 → ¬ A5 → ¬ A6 → ¬ A7 → ¬ A8 → ¬ t) : (A0 ∨ A1 ∨ A2 ∨ A3 ∨ A4 ∨ A5 ∨ A6 ∨ A7 ∨ A8 ∨ t) ↔ (A0 ∨ A1 ∨ A2 ∨ A3 ∨ A4 ∨ A5 ∨ A6 ∨ A7 ∨ A8) := by
  tauto

section
variable {K : Type} [Field K] [LinearOrder K] [IsStrictOrderedRing K] [FloorRing K]

theorem reported_check2 {β : Type} (a b : Nat) (v0 : List (Fl K)) (vs : List (List (Fl K))) (k : Unit → Res β) :
    (do let u ← multiCheck2 a b (v0 :: vs); k u) = .throw .invalidArgument ↔
      ((v0 :: vs).length ≠ a ∨ v0.length ≠ b) ∨ k () = .throw .invalidArgument := by
  have : multiCheck2 a b (v0 :: vs) = if (v0 :: vs).length ≠ a ∨ v0.length ≠ b then .throw .invalidArgument else ok () := rfl
  rw [this]
  split <;> rename_i h
  · exact ⟨fun _ => Or.inl h, fun _ => rfl⟩
  · exact ⟨fun h' => Or.inr h', fun h' => h'.resolve_left h⟩

theorem reported_check3 {β : Type} (n : Nat × Nat × Nat) (c : List (Fl K)) (r : List (List (Fl K))) (rows : List (List (List (Fl K)))) (k : Unit → Res β) :
    (do let u ← multiCheck3 n ((c :: r) :: rows); k u) = .throw .invalidArgument ↔
      (((c :: r) :: rows).length ≠ n.1 ∨ (c :: r).length ≠ n.2.1 ∨ c.length ≠ n.2.2) ∨ k () = .throw .invalidArgument := by
  have : multiCheck3 n ((c :: r) :: rows) = if ((c :: r) :: rows).length ≠ n.1 ∨ (c :: r).length ≠ n.2.1 ∨ c.length ≠ n.2.2 then
    .throw .invalidArgument else ok () := rfl
  rw [this]
  split <;> rename_i h
  · exact ⟨fun _ => Or.inl h, fun _ => rfl⟩
  · exact ⟨fun h' => Or.inr h', fun h' => h'.resolve_left h⟩

theorem reported_sizes {β : Type} [HasGeo K] {g : Grid K} {Y X : Nat} {lats lons : List (List (Fl K))} {type : CoordType} (hg : BuiltGrid g Y X lats lons type)
    (points : Points K) (c : List (Fl K)) (r : List (List (Fl K))) (rows : List (List (List (Fl K)))) (k : Nat × Nat × Nat → Res β) :
    (do let n ← multiGridSizes g points ((c :: r) :: rows); k n) = .throw .invalidArgument ↔
      type ≠ points.type ∨ (((c :: r) :: rows).length ≠ Y ∨ (c :: r).length ≠ X) ∨ k (Y, X, c.length) = .throw .invalidArgument := by
  obtain ⟨hw, -, -, ht⟩ := hg.wf
  have ht' : g.type = type := ht
  have hY := hw.hY
  have hX := hw.hX
  have : multiGridSizes g points ((c :: r) :: rows) = if type ≠ points.type then .throw .invalidArgument else
      if ((c :: r) :: rows).length ≠ Y ∨ (c :: r).length ≠ X then .throw .invalidArgument else ok (Y, X, c.length) := by
    unfold multiGridSizes
    rw [hw.size, ok_bind, if_neg (by simp only [not_or]; omega), ht']
    rfl
  rw [this]
  split <;> rename_i h
  · exact ⟨fun _ => Or.inl h, fun _ => rfl⟩
  · split <;> rename_i h'
    · exact ⟨fun _ => Or.inr (Or.inl h'), fun _ => rfl⟩
    · exact ⟨fun e => Or.inr (Or.inr e), fun e => (e.resolve_left h).resolve_left h'⟩

/-- The points of a grid have usable locations. -/
theorem validIn_of_grid [HasGeo K] {g : Grid K} {Y X : Nat} {lats lons : List (List (Fl K))} {type : CoordType} (hg : BuiltGrid g Y X lats lons type) :
    ∃ P, g.toPoints = ok P ∧ P.size = Y * X ∧ P.type = type ∧ PointsValidIn P.type P.lats P.lons := by
  obtain ⟨P, h1, -, h3, h4, h5, h6⟩ := hg.pointsWF
  refine ⟨P, h1, h3, h4, fun i la lo hla hlo => ?_⟩
  obtain ⟨hw, e1, e2, -⟩ := hg.wf
  rw [h5, flatten_getElem?_div (e1 ▸ hw.lats) hw.hX] at hla
  rw [h6, flatten_getElem?_div (e2 ▸ hw.lons) hw.hX] at hlo
  rw [h4]
  exact hg.validIn _ _ _ _ hla hlo

theorem flatten3_length {Y X E : Nat} {v : List (List (List (Fl K)))} {b : List (List (Fl K))} (h : flatten3 Y X E v = ok b) : b.length = Y * X := by
  obtain ⟨r, h1, h2⟩ := bind_eq_ok.mp h
  cases h2
  exact flatten_length (grid2_eq_ok h1).1

theorem not_raises_flatten3 (Y X E : Nat) (v : List (List (List (Fl K)))) : ¬ Raises (flatten3 Y X E v) := by
  unfold flatten3 grid2
  no_raise

theorem not_raises_unflatten3 (Y X E : Nat) (v : List (List (Fl K))) : ¬ Raises (unflatten3 Y X E v) := by
  unfold unflatten3 grid2
  no_raise

theorem not_raises_ratios (Y X : Nat) (v : List (List (Fl K))) : ¬ Raises (grid2 Y X fun y x => vget2 v y x) := by
  unfold grid2
  no_raise

variable {g : Grid K} {Y X : Nat} {lats lons : List (List (Fl K))} {type : CoordType}

/-- `optimal_interpolation_ensi` for grids: the sizes of the first row and of the number of members are checked too. The background is a rectangle and nothing is
empty; without points nothing but `max_points` is checked. -/
theorem c67_ensi_grid [HasGeo K] [HasSqrt K] [HasExp K] {T : RTree K} {A : ArmaE K} {s : SF K} (h : NoReports T A.toArma s)
    (hg : BuiltGrid g Y X lats lons type) {Y' X' E : Nat} {background : List (List (List (Fl K)))} (hb : Box Y' X' E background) (hY' : 0 < Y') (hX' : 0 < X')
    (points : Points K) (pobs psigmas p0 : List (Fl K)) (ps : List (List (Fl K))) (maxPoints : Int) (extrap : Bool) :
    (points.size ≠ 0 → (ensiGrid T A g background points pobs psigmas (p0 :: ps) s maxPoints extrap = .throw .invalidArgument ↔
      maxPoints < 0 ∨ type ≠ points.type ∨ (Y' ≠ Y ∨ X' ≠ X) ∨ pobs.length ≠ points.size ∨ psigmas.length ≠ points.size ∨ E ≠ p0.length ∨
        (p0 :: ps).length ≠ points.size)) ∧
    (points.size = 0 → (ensiGrid T A g background points pobs psigmas (p0 :: ps) s maxPoints extrap = .throw .invalidArgument ↔ maxPoints < 0)) := by
  obtain ⟨hw, -, -, ht⟩ := hg.wf
  have ht' : g.type = type := ht
  have hY := hw.hY
  have hX := hw.hX
  obtain ⟨b0, b00, k1, k2, k3, k4⟩ := hb.first hY' hX'
  obtain ⟨P, p1, p2, p3, p4⟩ := validIn_of_grid hg
  constructor
  · intro hn
    unfold ensiGrid
    rw [reported_if, if_neg hn, hw.size, ok_bind, if_neg (by simp only [not_or]; omega), reported_if, ht', k1, ok_bind, reported_if, hb.1.1, k2, k3, ok_bind,
      reported_if, reported_if]
    have hp0 : vget (p0 :: ps) 0 = ok p0 := rfl
    rw [hp0, ok_bind, reported_if, k4, p1, ok_bind]
    simp only
    refine chain6 fun h0 h1 h2 h3 h4 h5 => ?_
    obtain ⟨rfl, rfl⟩ : Y' = Y ∧ X' = X := by omega
    rw [flatten3_eq hb, ok_bind, reported_bind fun _ _ => unreported_of (not_raises_unflatten3 _ _ _ _), reported_ensi h p4, p2, p3, hb.flat.1]
    exact ⟨fun e => by rcases e with e | e | e | e | e | e <;> first | exact e | exact absurd e h1 | omega, fun e => Or.inr (Or.inr (Or.inr (Or.inr (Or.inr e))))⟩
  · intro hn
    unfold ensiGrid
    rw [reported_if, if_pos hn]
    simp

/-- `optimal_interpolation_ensi_multi_ebesc` for grids. The first rows are there. -/
theorem c67_ebesc_grid [HasGeo K] [HasSqrt K] [HasExp K] {T : RTree K} {A : Arma K} {s : SF K} (h : NoReports T A s) (hg : BuiltGrid g Y X lats lons type)
    (r0 : List (Fl K)) (rs : List (List (Fl K))) (c : List (Fl K)) (r : List (List (Fl K))) (rows : List (List (List (Fl K)))) (points : Points K)
    (o0 : List (Fl K)) (os : List (List (Fl K))) (pratios p0 : List (Fl K)) (ps : List (List (Fl K))) (maxPoints : Int) (extrap : Bool) :
    (points.size ≠ 0 → (ebescGrid T A g (r0 :: rs) ((c :: r) :: rows) points (o0 :: os) pratios (p0 :: ps) s maxPoints extrap = .throw .invalidArgument ↔
      maxPoints < 0 ∨ type ≠ points.type ∨ (rows.length + 1 ≠ Y ∨ r.length + 1 ≠ X) ∨ (rs.length + 1 ≠ Y ∨ r0.length ≠ X) ∨
        (ps.length + 1 ≠ points.size ∨ p0.length ≠ c.length) ∨ (os.length + 1 ≠ points.size ∨ o0.length ≠ c.length) ∨ pratios.length ≠ points.size)) ∧
    (points.size = 0 → (ebescGrid T A g (r0 :: rs) ((c :: r) :: rows) points (o0 :: os) pratios (p0 :: ps) s maxPoints extrap = .throw .invalidArgument ↔
      maxPoints < 0)) := by
  obtain ⟨P, p1, p2, p3, p4⟩ := validIn_of_grid hg
  constructor
  · intro hn
    unfold ebescGrid
    rw [reported_if, if_neg hn, reported_sizes hg, reported_check2, reported_check2, reported_check2, reported_if, p1, ok_bind]
    simp only [List.length_cons]
    refine chain7 fun h0 h1 h2 h3 h4 h5 h6 => ?_
    refine unreported_bind (unreported_of (not_raises_flatten3 _ _ _ _)) fun b1 hb1 => unreported_bind (unreported_of (not_raises_ratios _ _ _)) fun r1 hr1 =>
      unreported_bind ?_ fun _ _ => unreported_of (not_raises_unflatten3 _ _ _ _)
    unfold Unreported
    rw [Ne, reported_ebesc h p4, p2, p3, flatten3_length hb1, flatten_length (grid2_eq_ok hr1).1]
    simp only [List.length_cons]
    rintro (e | e | e | e | e | e | e) <;> first | exact h1 e | omega
  · intro hn
    unfold ebescGrid
    rw [reported_if, if_pos hn]
    simp

/-- `optimal_interpolation_ensi_multi_ebe` for grids. -/
theorem c67_ebe_grid [HasGeo K] [HasSqrt K] [HasExp K] {T : RTree K} {A : Arma K} {s : SF K} (h : NoReports T A s) (hg : BuiltGrid g Y X lats lons type)
    (r0 : List (Fl K)) (rs : List (List (Fl K))) (c cc : List (Fl K)) (r rc : List (List (Fl K))) (rows rowsc : List (List (List (Fl K)))) (points : Points K)
    (o0 : List (Fl K)) (os : List (List (Fl K))) (pratios p0 q0 : List (Fl K)) (ps qs : List (List (Fl K))) (maxPoints : Int) (extrap : Bool) :
    (points.size ≠ 0 →
      (ebeGrid T A g (r0 :: rs) ((c :: r) :: rows) ((cc :: rc) :: rowsc) points (o0 :: os) pratios (p0 :: ps) (q0 :: qs) s maxPoints extrap =
          .throw .invalidArgument ↔
        maxPoints < 0 ∨ type ≠ points.type ∨ (rows.length + 1 ≠ Y ∨ r.length + 1 ≠ X) ∨
          (rowsc.length + 1 ≠ Y ∨ rc.length + 1 ≠ X ∨ cc.length ≠ c.length) ∨ (rs.length + 1 ≠ Y ∨ r0.length ≠ X) ∨
          (ps.length + 1 ≠ points.size ∨ p0.length ≠ c.length) ∨ (qs.length + 1 ≠ points.size ∨ q0.length ≠ c.length) ∨
          (os.length + 1 ≠ points.size ∨ o0.length ≠ c.length) ∨ pratios.length ≠ points.size)) ∧
    (points.size = 0 →
      (ebeGrid T A g (r0 :: rs) ((c :: r) :: rows) ((cc :: rc) :: rowsc) points (o0 :: os) pratios (p0 :: ps) (q0 :: qs) s maxPoints extrap =
          .throw .invalidArgument ↔ maxPoints < 0)) := by
  obtain ⟨P, p1, p2, p3, p4⟩ := validIn_of_grid hg
  constructor
  · intro hn
    unfold ebeGrid
    rw [reported_if, if_neg hn, reported_sizes hg, reported_check3, reported_check2, reported_check2, reported_check2, reported_check2, reported_if, p1, ok_bind]
    simp only [List.length_cons]
    refine chain9 fun h0 h1 h2 h3 h4 h5 h6 h7 h8 => ?_
    refine unreported_bind (unreported_of (not_raises_flatten3 _ _ _ _)) fun b1 hb1 => unreported_bind (unreported_of (not_raises_flatten3 _ _ _ _)) fun c1 hc1 =>
      unreported_bind (unreported_of (not_raises_ratios _ _ _)) fun r1 hr1 => unreported_bind ?_ fun _ _ => unreported_of (not_raises_unflatten3 _ _ _ _)
    unfold Unreported
    rw [Ne, reported_ebe h p4, p2, p3, flatten3_length hb1, flatten3_length hc1, flatten_length (grid2_eq_ok hr1).1]
    simp only [List.length_cons]
    rintro (e | e | e | e | e | e | e | e | e) <;> first | exact h1 e | omega
  · intro hn
    unfold ebeGrid
    rw [reported_if, if_pos hn]
    simp

/-- `optimal_interpolation_ensi_multi_utem` for grids. -/
theorem c67_utem_grid [HasGeo K] [HasSqrt K] [HasExp K] {T : RTree K} {A : ArmaE K} {s : SF K} (h : NoReports T A.toArma s)
    (hg : BuiltGrid g Y X lats lons type) (r0 : List (Fl K)) (rs : List (List (Fl K))) (c cc : List (Fl K)) (r rc : List (List (Fl K)))
    (rows rowsc : List (List (List (Fl K)))) (points : Points K) (pobs pratios p0 q0 : List (Fl K)) (ps qs : List (List (Fl K))) (maxPoints : Int)
    (extrap : Bool) :
    (points.size ≠ 0 →
      (utemGrid T A g (r0 :: rs) ((c :: r) :: rows) ((cc :: rc) :: rowsc) points pobs pratios (p0 :: ps) (q0 :: qs) s maxPoints extrap =
          .throw .invalidArgument ↔
        maxPoints < 0 ∨ type ≠ points.type ∨ (rows.length + 1 ≠ Y ∨ r.length + 1 ≠ X) ∨
          (rowsc.length + 1 ≠ Y ∨ rc.length + 1 ≠ X ∨ cc.length ≠ c.length) ∨ (rs.length + 1 ≠ Y ∨ r0.length ≠ X) ∨
          (ps.length + 1 ≠ points.size ∨ p0.length ≠ c.length) ∨ (qs.length + 1 ≠ points.size ∨ q0.length ≠ c.length) ∨
          pobs.length ≠ points.size ∨ pratios.length ≠ points.size)) ∧
    (points.size = 0 →
      (utemGrid T A g (r0 :: rs) ((c :: r) :: rows) ((cc :: rc) :: rowsc) points pobs pratios (p0 :: ps) (q0 :: qs) s maxPoints extrap =
          .throw .invalidArgument ↔ maxPoints < 0)) := by
  obtain ⟨P, p1, p2, p3, p4⟩ := validIn_of_grid hg
  constructor
  · intro hn
    unfold utemGrid
    rw [reported_if, if_neg hn, reported_sizes hg, reported_check3, reported_check2, reported_check2, reported_check2, reported_if, reported_if, p1, ok_bind]
    simp only [List.length_cons]
    refine chain9 fun h0 h1 h2 h3 h4 h5 h6 h7 h8 => ?_
    refine unreported_bind (unreported_of (not_raises_flatten3 _ _ _ _)) fun b1 hb1 => unreported_bind (unreported_of (not_raises_flatten3 _ _ _ _)) fun c1 hc1 =>
      unreported_bind (unreported_of (not_raises_ratios _ _ _)) fun r1 hr1 => unreported_bind ?_ fun _ _ => unreported_of (not_raises_unflatten3 _ _ _ _)
    unfold Unreported
    rw [Ne, reported_utem h p4, p2, p3, flatten3_length hb1, flatten3_length hc1, flatten_length (grid2_eq_ok hr1).1]
    simp only [List.length_cons]
    rintro (e | e | e | e | e | e | e | e | e) <;> first | exact h1 e | omega
  · intro hn
    unfold utemGrid
    rw [reported_if, if_pos hn]
    simp

/-! ## full_gradient_debug -/

theorem raises_after {α β : Type} {r : Res α} {f : α → Res β} {Q : Prop} (hf : ∀ a, r = ok a → (Raises (f a) ↔ Q)) :
    Raises (do let a ← r; f a) ↔ Raises r ∨ (∃ a, r = ok a) ∧ Q := by
  cases r with
  | ok a =>
    rw [ok_bind, hf a rfl]
    exact ⟨fun q => Or.inr ⟨⟨a, rfl⟩, q⟩, fun q => q.elim (fun h => absurd h (not_raises_ok _)) fun h => h.2⟩
  | throw e => exact ⟨fun _ => Or.inl ⟨e, rfl⟩, fun _ => ⟨e, rfl⟩⟩
  | abort => exact ⟨fun ⟨_, h⟩ => (by cases h), fun h => by rcases h with ⟨_, h⟩ | ⟨⟨_, h⟩, -⟩ <;> cases h⟩
  | ub => exact ⟨fun ⟨_, h⟩ => (by cases h), fun h => by rcases h with ⟨_, h⟩ | ⟨⟨_, h⟩, -⟩ <;> cases h⟩

/-- `full_gradient_debug` raises an exception exactly if the downscaling of the values does, or if a gradient that is given does not fit and what is
downscaled before it could be downscaled. -/
theorem c67_full_gradient_debug [HasGeo K] [HasSqrt K] (T : RTree K) (hg : BuiltGrid g Y X lats lons type) {og : Grid K} {Y' X' : Nat}
    {olats olons : List (List (Fl K))} {otype : CoordType} (ho : BuiltGrid og Y' X' olats olons otype) (v e l : List (List (Fl K))) (d : Downscaler) :
    Raises (fullGradientDebug T d g og v e l) ↔
      (¬ FieldFits Y X v ∨ d = .other) ∨
        (∃ o, downscalingGG2 T d g og v = ok o) ∧ (¬ FieldFits Y X e ∨
          (e = [] ∨ (∃ o, downscalingGG2 T d g og e = ok o) ∧ ∃ o, downscalingGG2 T d g og g.elevs = ok o) ∧ ¬ FieldFits Y X l) := by
  have hw := hg.wf.1
  have key : ∀ f, Raises (downscalingGG2 T d g og f) ↔ ¬ FieldFits Y X f ∨ d = .other := fun f =>
    (c67_downscaling T hg og ⟨[], [], [], [], g.tree⟩ f d).2.2.2.2.1
  have fits : ∀ f : List (List (Fl K)), Rect Y X f → FieldFits Y X f := fun f h =>
    Or.inr ⟨h.1, fun r hr => h.2 r (List.mem_of_mem_head? hr)⟩
  unfold fullGradientDebug
  rw [ho.wf.1.size, ok_bind]
  refine (raises_after (Q := ¬ FieldFits Y X e ∨
          (e = [] ∨ (∃ o, downscalingGG2 T d g og e = ok o) ∧ ∃ o, downscalingGG2 T d g og g.elevs = ok o) ∧ ¬ FieldFits Y X l) fun dv hdv => ?_).trans
    (or_congr (key v) Iff.rfl)
  have hd : d ≠ .other := fun hd => by
    obtain ⟨x, hx⟩ := (key v).mpr (Or.inr hd)
    rw [hdv] at hx
    cases hx
  have pair : ∀ grad vals, Rect Y X vals → (Raises (pairGG2 T d g og grad vals) ↔ ¬ FieldFits Y X grad) ∧
      ((∃ a, pairGG2 T d g og grad vals = ok a) ↔ grad = [] ∨ (∃ o, downscalingGG2 T d g og grad = ok o) ∧ ∃ o, downscalingGG2 T d g og vals = ok o) := by
    intro grad vals hvals
    unfold pairGG2
    by_cases hgr : grad = []
    · subst hgr
      simp [FieldFits, not_raises_ok]
    · rw [if_neg (by simpa using hgr)]
      constructor
      · refine (raises_bind_first fun a _ => not_raises_bind ?_ fun _ => not_raises_ok _).trans ?_
        · rw [key]
          exact fun h => h.elim (fun h => h (fits _ hvals)) hd
        · rw [key, or_iff_left hd]
      · simp only [hgr, false_or]
        constructor
        · rintro ⟨a, h⟩
          obtain ⟨x, h1, h⟩ := bind_eq_ok.mp h
          obtain ⟨y, h2, h⟩ := bind_eq_ok.mp h
          exact ⟨⟨x, h1⟩, ⟨y, h2⟩⟩
        · rintro ⟨⟨x, h1⟩, ⟨y, h2⟩⟩
          exact ⟨(x, y), by rw [h1, ok_bind, h2]; rfl⟩
  refine (raises_after (Q := ¬ FieldFits Y X l) fun pe _ => ?_).trans (by rw [(pair e g.elevs hw.elevs).1, (pair e g.elevs hw.elevs).2])
  refine (raises_bind_first fun a _ => ?_).trans (pair l g.lafs hw.lafs).1
  unfold grid2 correctionD correction
  no_raise

end

/-! ## Concrete cases -/

/-- A grid of two cells meets the hypotheses. A matrix without inverse is reported in another way than an argument, one ratio too few and a wrong number of members
are reported as arguments, and without points nothing is. -/
theorem c67_case_ensemble_grid :
    (∃ g : Grid ℚ, BuiltGrid g 1 2 [[fin 0, fin 0]] [[fin 0, fin 10]] .cartesian) ∧ Box 1 2 1 [[[fin (5 : ℚ)], [fin 6]]] ∧
    (do
      let g ← Grid.new [[fin (0 : ℚ), fin 0]] [[fin 0, fin 10]] [] [] .cartesian
      let p ← Points.new [fin (0 : ℚ)] [fin 0] [] [] .cartesian
      ebescGrid RTree.scan ⟨fun _ => .throw .runtimeError, id⟩ g [[fin 1, fin 1]] [[[fin 5], [fin 6]]] p [[fin 6]] [fin 1] [[fin 5]]
        (.cressman (fin 1) (fin 1) (fin 1)) 0 true) = .throw .runtimeError ∧
    (do
      let g ← Grid.new [[fin (0 : ℚ), fin 0]] [[fin 0, fin 10]] [] [] .cartesian
      let p ← Points.new [fin (0 : ℚ)] [fin 0] [] [] .cartesian
      ebescGrid RTree.scan ⟨fun _ => .throw .runtimeError, id⟩ g [[fin 1]] [[[fin 5], [fin 6]]] p [[fin 6]] [fin 1] [[fin 5]]
        (.cressman (fin 1) (fin 1) (fin 1)) 0 true) = .throw .invalidArgument ∧
    (do
      let g ← Grid.new [[fin (0 : ℚ), fin 0]] [[fin 0, fin 10]] [] [] .cartesian
      let p ← Points.new [fin (0 : ℚ)] [fin 0] [] [] .cartesian
      ebescGrid RTree.scan ⟨fun _ => .throw .runtimeError, id⟩ g [[fin 1, fin 1]] [[[fin 5], [fin 6]]] p [[fin 6]] [fin 1] [[fin 5, fin 5]]
        (.cressman (fin 1) (fin 1) (fin 1)) 0 true) = .throw .invalidArgument ∧
    (do
      let g ← Grid.new [[fin (0 : ℚ), fin 0]] [[fin 0, fin 10]] [] [] .cartesian
      let p ← Points.new ([] : List (Fl ℚ)) [] [] [] .cartesian
      ebescGrid RTree.scan ⟨fun _ => .throw .runtimeError, id⟩ g [[fin 1]] [[[fin 5], [fin 6]]] p [[fin 6]] [fin 1] [[fin 5, fin 5]]
        (.cressman (fin 1) (fin 1) (fin 1)) 0 true) = ok [[[fin 5], [fin 6]]] := by
  refine ⟨?_, ⟨by decide +kernel, by decide +kernel⟩, ?_, ?_, ?_, ?_⟩
  · have h : (do let _ ← Grid.new [[fin (0 : ℚ), fin 0]] [[fin 0, fin 10]] [] [] .cartesian; ok ()) = ok () := by decide +kernel
    obtain ⟨g, hg, -⟩ := bind_eq_ok.mp h
    exact ⟨g, by decide, by decide, by decide +kernel, by decide +kernel, [], [], Or.inl rfl, Or.inl rfl, hg⟩
  all_goals decide +kernel

/-- `full_gradient_debug` for a field that fits, with a gradient that does not fit and with an unknown downscaler. -/
theorem c67_case_debug :
    (do
      let g ← Grid.new [[fin (0 : ℚ), fin 0]] [[fin 0, fin 10]] [] [] .cartesian
      fullGradientDebug RTree.scan .nearest g g [[fin 7, fin 8]] [[fin 1]] []) = .throw .invalidArgument ∧
    (do
      let g ← Grid.new [[fin (0 : ℚ), fin 0]] [[fin 0, fin 10]] [] [] .cartesian
      fullGradientDebug RTree.scan .other g g [[fin 7, fin 8]] [[fin 1, fin 1]] []) = .throw .invalidArgument ∧
    (do
      let g ← Grid.new [[fin (0 : ℚ), fin 0]] [[fin 0, fin 10]] [[fin 1, fin 2]] [[fin 1, fin 1]] .cartesian
      let r ← fullGradientDebug RTree.scan .nearest g g [[fin 7, fin 8]] [[fin 1, fin 1]] [[fin 1, fin 1]]
      ok (r.map List.length)) = ok [2] := by
  decide +kernel

end Gridpp.Props
