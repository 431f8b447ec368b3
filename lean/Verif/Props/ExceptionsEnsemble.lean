import Verif.Props.ExceptionsGridding
import Verif.Model.Ensi

/-!
C67, continued: the methods for ensembles, and `metric_optimizer_curve`. The loops of the methods for ensembles are not parallel, so that a matrix without inverse
or a structure function that fails is reported too. The theorems are about `std::invalid_argument`.
-/

set_option linter.unusedSectionVars false

namespace Gridpp.Props
open Fl Res

/-- The result is not that an argument is reported. -/
def Unreported {α : Type} (r : Res α) : Prop := r ≠ .throw .invalidArgument

theorem unreported_of {α : Type} {r : Res α} (h : ¬ Raises r) : Unreported r := fun h' => h ⟨_, h'⟩

theorem unreported_bind {α β : Type} {r : Res α} {f : α → Res β} (hr : Unreported r) (hf : ∀ a, r = ok a → Unreported (f a)) :
    Unreported (do let a ← r; f a) := by
  cases r with
  | ok a => exact hf a rfl
  | throw e => intro h; apply hr; cases e <;> first | rfl | cases h
  | abort => intro h; cases h
  | ub => intro h; cases h

theorem unreported_mapM {α β : Type} {f : α → Res β} (l : List α) (h : ∀ a ∈ l, Unreported (f a)) : Unreported (mapM f l) := by
  induction l with
  | nil => exact unreported_of (not_raises_ok _)
  | cons a t ih =>
    rw [mapM_cons]
    exact unreported_bind (h a (by simp)) fun _ _ => unreported_bind (ih fun b hb => h b (by simp [hb])) fun _ _ => unreported_of (not_raises_ok _)

theorem unreported_foldM {α β : Type} {f : β → α → Res β} (l : List α) (b : β) (h : ∀ b a, Unreported (f b a)) : Unreported (foldM f b l) := by
  induction l generalizing b with
  | nil => exact unreported_of (not_raises_ok _)
  | cons a t ih => rw [foldM_cons]; exact unreported_bind (h b a) fun _ _ => ih _

theorem reported_if {α : Type} {p : Prop} [Decidable p] {r : Res α} :
    (if p then .throw .invalidArgument else r) = .throw .invalidArgument ↔ p ∨ r = .throw .invalidArgument := by
  by_cases h : p <;> simp [h]

section
variable {K : Type} [Field K] [LinearOrder K] [IsStrictOrderedRing K] [FloorRing K]

/-- What the structure function and the inverse of Armadillo do not do: report an argument. `arma::inv` throws `std::runtime_error` for a singular matrix. A
structure function with constant scales does not throw; one with scales on a grid looks up the location of the point in that grid, and so does report a location
that is not usable there. -/
structure NoReports [HasGeo K] [HasSqrt K] [HasExp K] (T : RTree K) (A : Arma K) (s : SF K) : Prop where
  dist : ∀ p, Unreported (s.locDist T p)
  background : ∀ p l, Unreported (s.corrBgVec T p l)
  corr : ∀ p l, Unreported (s.corrVec T p l)
  inv : ∀ M, Unreported (A.inv M)

theorem unreported_select [HasGeo K] [HasSqrt K] [HasExp K] {T : RTree K} {A : Arma K} {s : SF K} (h : NoReports T A s) {bp points : Points K}
    (hv : PointsValidIn bp.type bp.lats bp.lons) (ht : bp.type = points.type) (pts : List (Point K)) (maxPoints : Int)
    (obs : Nat → Res (Fl K)) (ho : ∀ i, ¬ Raises (obs i)) (y : Nat) : Unreported (ensiSelect T A bp points pts s maxPoints obs y) := by
  unfold ensiSelect
  refine unreported_bind (unreported_of (not_raises_vget _ _)) fun lat hlat => unreported_bind (unreported_of (not_raises_vget _ _)) fun lon hlon =>
    unreported_bind (unreported_of (not_raises_getPoint _ _)) fun p1 _ => unreported_bind (h.dist _) fun radius _ => unreported_bind ?_ fun idx _ => ?_
  · rw [vget_nat_eq_ok] at hlat hlon
    obtain ⟨p, hp⟩ := hv y lat lon hlat hlon
    unfold Points.getNeighbours KDTree.getNeighbours
    rw [ht] at hp
    unfold Points.type at hp
    rw [hp]
    exact unreported_of (not_raises_ok _)
  · split
    · exact unreported_of (not_raises_ok _)
    · refine unreported_bind (unreported_of (by no_raise)) fun p2 _ => unreported_bind (h.background _ _) fun _ _ => unreported_bind ?_ fun _ _ => unreported_of (not_raises_ok _)
      unfold ensiUsable
      refine unreported_of (not_raises_bind (not_raises_mapM _ fun _ => not_raises_bind (not_raises_vget _ _) fun _ => not_raises_bind (ho _) fun _ => ?_) fun _ => not_raises_ok _)
      no_raise

theorem not_raises_members (n : Nat) (rows : List (List (Fl K))) : ¬ Raises (validMembers n rows) := by
  unfold validMembers memberValid
  no_raise

theorem unreported_transform [HasSqrt K] {A : ArmaE K} (h : ∀ M, Unreported (A.inv M)) (n : Nat) (rows : List (EnsiObs K)) (diag : Fl K) :
    Unreported (ensiTransform A n rows diag) := by
  unfold ensiTransform
  simp only
  split
  · exact unreported_of (not_raises_ok _)
  · exact unreported_bind (h _) fun _ _ => unreported_of (not_raises_ok _)

theorem not_raises_write (row : List (Fl K)) (members : List Nat) (vals : List (Fl K)) : ¬ Raises (writeMembers row members vals) := by
  unfold writeMembers
  no_raise

theorem not_raises_points (p : Points K) (n : Nat) : ¬ Raises (mapM (fun i : Nat => p.getPoint (i : Int)) (List.range n)) :=
  not_raises_mapM _ fun _ => not_raises_getPoint _ _

theorem reported_ensi [HasGeo K] [HasSqrt K] [HasExp K] {T : RTree K} {A : ArmaE K} {s : SF K} (h : NoReports T A.toArma s) {bp : Points K}
    (hv : PointsValidIn bp.type bp.lats bp.lons) (background : List (List (Fl K))) (points : Points K)
    (pobs psigmas : List (Fl K)) (pbg : List (List (Fl K))) (maxPoints : Int) (extrap : Bool) :
    ensiPoints T A bp background points pobs psigmas pbg s maxPoints extrap = .throw .invalidArgument ↔
      maxPoints < 0 ∨ bp.type ≠ points.type ∨ background.length ≠ bp.size ∨ pobs.length ≠ points.size ∨ psigmas.length ≠ points.size ∨
        pbg.length ≠ points.size := by
  unfold ensiPoints
  rw [reported_if, reported_if, reported_if, reported_if, reported_if, reported_if]
  by_cases ht : bp.type = points.type
  · refine or_congr Iff.rfl (or_congr Iff.rfl (or_congr Iff.rfl (or_congr Iff.rfl (or_congr Iff.rfl (or_iff_left ?_)))))
    split
    · simp
    · refine unreported_bind (unreported_of (not_raises_vget _ _)) fun _ _ => unreported_bind (unreported_of ?_) fun _ _ =>
        unreported_bind (unreported_of (not_raises_points _ _)) fun _ _ => unreported_bind (unreported_of (not_raises_members _ _)) fun _ _ =>
        unreported_mapM _ fun y _ => ?_
      · unfold ensiPerturb; no_raise
      · unfold ensiCell
        refine unreported_bind (unreported_of (not_raises_vget _ _)) fun _ _ => unreported_bind
          (unreported_select h hv ht _ _ _ (fun _ => not_raises_vget _ _) _) fun _ _ => ?_
        split
        · exact unreported_of (not_raises_ok _)
        · refine unreported_bind (unreported_of ?_) fun _ _ => unreported_bind (unreported_transform h.inv _ _ _) fun t _ => ?_
          · unfold ensiRow; no_raise
          · unfold ensiUpdate
            split
            · exact unreported_of (not_raises_ok _)
            · exact unreported_of (not_raises_bind (by no_raise) fun _ => not_raises_write _ _ _)
  · simp [ht]

/-- `optimal_interpolation_ensi` for points reports an argument exactly for a negative number of points, different coordinate types and sizes that do not fit. -/
theorem c67_ensi [HasGeo K] [HasSqrt K] [HasExp K] {T : RTree K} {A : ArmaE K} {s : SF K} (h : NoReports T A.toArma s) {bp : Points K}
    {lats lons : List (Fl K)} {type : CoordType} (hb : BuiltPoints bp lats lons type) (background : List (List (Fl K))) (points : Points K)
    (pobs psigmas : List (Fl K)) (pbg : List (List (Fl K))) (maxPoints : Int) (extrap : Bool) :
    ensiPoints T A bp background points pobs psigmas pbg s maxPoints extrap = .throw .invalidArgument ↔
      maxPoints < 0 ∨ type ≠ points.type ∨ background.length ≠ lats.length ∨ pobs.length ≠ points.size ∨ psigmas.length ≠ points.size ∨
        pbg.length ≠ points.size := by
  obtain ⟨b1, b2, -, -, b5, -⟩ := hb.wf
  have hty : bp.type = type := b5
  have hsz : bp.size = lats.length := by unfold Points.size; rw [b1]
  rw [← hty, ← hsz]
  exact reported_ensi h (by rw [b1, b2, hty]; exact hb.validIn) background points pobs psigmas pbg maxPoints extrap

theorem unreported_innov (members : List Nat) (obs pb : List (Fl K)) : Unreported (multiInnov members obs pb) := by
  unfold multiInnov
  refine unreported_foldM _ _ fun row ei => unreported_bind (unreported_of (not_raises_vget _ _)) fun _ _ =>
    unreported_bind (unreported_of (not_raises_vget _ _)) fun _ _ => ?_
  split
  · exact unreported_of (not_raises_vset _ _ _)
  · intro h; cases h

theorem unreported_multiRow [HasGeo K] [HasSqrt K] [HasExp K] {T : RTree K} {A : Arma K} {s : SF K} (h : NoReports T A s) (pts : List (Point K))
    (members : List Nat) (pobs : List (List (Fl K))) (pratios : List (Fl K)) (pbg : List (List (Fl K))) (z : Nat → Res (List (Fl K)))
    (hz : ∀ i, ¬ Raises (z i)) (sel : List (Fl K × Nat)) (e : Fl K × Nat) : Unreported (multiRow T s pts members pobs pratios pbg z sel e) := by
  unfold multiRow
  exact unreported_bind (unreported_of (not_raises_vget _ _)) fun _ _ => unreported_bind (unreported_of (hz _)) fun _ _ =>
    unreported_bind (unreported_of (not_raises_vget _ _)) fun _ _ => unreported_bind (unreported_of (not_raises_vget _ _)) fun _ _ =>
    unreported_bind (unreported_innov _ _ _) fun _ _ => unreported_bind (unreported_of (not_raises_vget _ _)) fun _ _ =>
    unreported_bind (unreported_of (by no_raise)) fun _ _ => unreported_bind (h.corr _ _) fun _ _ => unreported_of (by no_raise)

theorem unreported_increments {A : Arma K} (h : ∀ M, Unreported (A.inv M)) (n : Nat) (rows : List (MultiObs K)) (lr : List (Fl K))
    (R : List (List (Fl K))) (br : Fl K) (extrap : Bool) : Unreported (multiIncrements A n rows lr R br extrap) := by
  unfold multiIncrements
  exact unreported_bind (h _) fun _ _ => unreported_of (not_raises_ok _)

theorem not_raises_multiWrite (row : List (Fl K)) (members : List Nat) (dx : List (Fl K)) : ¬ Raises (multiWrite row members dx) := by
  unfold multiWrite
  exact not_raises_bind (by no_raise) fun _ => not_raises_write _ _ _

theorem not_raises_obsRow (n i : Nat) (r : List (Fl K)) : ¬ Raises (obsRow n i r) := by
  unfold obsRow
  split <;> rintro ⟨_, h⟩ <;> cases h

theorem reported_ebesc [HasGeo K] [HasSqrt K] [HasExp K] {T : RTree K} {A : Arma K} {s : SF K} (h : NoReports T A s) {bp : Points K}
    (hv : PointsValidIn bp.type bp.lats bp.lons) (bratios : List (Fl K)) (background : List (List (Fl K)))
    (points : Points K) (pobs : List (List (Fl K))) (pratios : List (Fl K)) (pbg : List (List (Fl K))) (maxPoints : Int) (extrap : Bool) :
    ebescPoints T A bp bratios background points pobs pratios pbg s maxPoints extrap = .throw .invalidArgument ↔
      maxPoints < 0 ∨ bp.type ≠ points.type ∨ background.length ≠ bp.size ∨ bratios.length ≠ bp.size ∨ pobs.length ≠ points.size ∨
        pratios.length ≠ points.size ∨ pbg.length ≠ points.size := by
  unfold ebescPoints
  rw [reported_if, reported_if, reported_if, reported_if, reported_if, reported_if, reported_if]
  by_cases ht : bp.type = points.type
  · refine or_congr Iff.rfl (or_congr Iff.rfl (or_congr Iff.rfl (or_congr Iff.rfl (or_congr Iff.rfl (or_congr Iff.rfl (or_iff_left ?_))))))
    split
    · simp
    · refine unreported_bind (unreported_of (not_raises_vget _ _)) fun _ _ => unreported_bind (unreported_of (not_raises_points _ _)) fun _ _ =>
        unreported_bind (unreported_of (not_raises_members _ _)) fun _ _ => ?_
      unfold ebescLoop
      split
      · exact unreported_of (not_raises_ok _)
      · refine unreported_mapM _ fun y _ => ?_
        unfold ebescCell
        refine unreported_bind (unreported_of (not_raises_vget _ _)) fun _ _ => unreported_bind (unreported_of (not_raises_vget _ _)) fun _ _ =>
          unreported_bind (unreported_select h hv ht _ _ _ (fun _ => not_raises_vget2 _ _ _) _) fun _ _ => ?_
        split
        · exact unreported_of (not_raises_ok _)
        · exact unreported_bind (unreported_mapM _ fun _ _ => unreported_multiRow h _ _ _ _ _ _ (fun _ => not_raises_ok _) _ _) fun _ _ =>
            unreported_bind (unreported_increments h.inv _ _ _ _ _ _) fun _ _ => unreported_of (not_raises_multiWrite _ _ _)
  · simp [ht]

/-- `optimal_interpolation_ensi_multi_ebesc` for points: the same with the sizes of the ratios. -/
theorem c67_ebesc [HasGeo K] [HasSqrt K] [HasExp K] {T : RTree K} {A : Arma K} {s : SF K} (h : NoReports T A s) {bp : Points K}
    {lats lons : List (Fl K)} {type : CoordType} (hb : BuiltPoints bp lats lons type) (bratios : List (Fl K)) (background : List (List (Fl K)))
    (points : Points K) (pobs : List (List (Fl K))) (pratios : List (Fl K)) (pbg : List (List (Fl K))) (maxPoints : Int) (extrap : Bool) :
    ebescPoints T A bp bratios background points pobs pratios pbg s maxPoints extrap = .throw .invalidArgument ↔
      maxPoints < 0 ∨ type ≠ points.type ∨ background.length ≠ lats.length ∨ bratios.length ≠ lats.length ∨ pobs.length ≠ points.size ∨
        pratios.length ≠ points.size ∨ pbg.length ≠ points.size := by
  obtain ⟨b1, b2, -, -, b5, -⟩ := hb.wf
  have hty : bp.type = type := b5
  have hsz : bp.size = lats.length := by unfold Points.size; rw [b1]
  rw [← hty, ← hsz]
  exact reported_ebesc h (by rw [b1, b2, hty]; exact hb.validIn) bratios background points pobs pratios pbg maxPoints extrap

theorem reported_ebe [HasGeo K] [HasSqrt K] [HasExp K] {T : RTree K} {A : Arma K} {s : SF K} (h : NoReports T A s) {bp : Points K}
    (hv : PointsValidIn bp.type bp.lats bp.lons) (bratios : List (Fl K)) (background backgroundc : List (List (Fl K)))
    (points : Points K) (pobs : List (List (Fl K))) (pratios : List (Fl K)) (pbg pbgc : List (List (Fl K))) (maxPoints : Int) (extrap : Bool) :
    ebePoints T A bp bratios background backgroundc points pobs pratios pbg pbgc s maxPoints extrap = .throw .invalidArgument ↔
      maxPoints < 0 ∨ bp.type ≠ points.type ∨ background.length ≠ bp.size ∨ backgroundc.length ≠ bp.size ∨ bratios.length ≠ bp.size ∨
        pobs.length ≠ points.size ∨ pratios.length ≠ points.size ∨ pbg.length ≠ points.size ∨ pbgc.length ≠ points.size := by
  unfold ebePoints
  rw [reported_if, reported_if, reported_if, reported_if, reported_if, reported_if, reported_if, reported_if, reported_if]
  by_cases ht : bp.type = points.type
  · refine or_congr Iff.rfl (or_congr Iff.rfl (or_congr Iff.rfl (or_congr Iff.rfl (or_congr Iff.rfl (or_congr Iff.rfl (or_congr Iff.rfl
      (or_congr Iff.rfl (or_iff_left ?_))))))))
    split
    · simp
    · refine unreported_bind (unreported_of (not_raises_vget _ _)) fun _ _ => unreported_bind (unreported_of (not_raises_points _ _)) fun _ _ =>
        unreported_bind (unreported_of (not_raises_members _ _)) fun _ _ => ?_
      unfold ebeLoop
      split
      · exact unreported_of (not_raises_ok _)
      · refine unreported_bind (unreported_of ?_) fun _ _ => unreported_mapM _ fun y _ => ?_
        · unfold ebeZ
          exact not_raises_mapM _ fun _ => not_raises_bind (not_raises_vget _ _) fun _ => not_raises_bind (by no_raise) fun _ => not_raises_obsRow _ _ _
        · unfold ebeCell
          refine unreported_bind (unreported_of (not_raises_vget _ _)) fun _ _ => unreported_bind (unreported_of (not_raises_vget _ _)) fun _ _ =>
            unreported_bind (unreported_select h hv ht _ _ _ (fun _ => not_raises_vget2 _ _ _) _) fun _ _ => ?_
          split
          · exact unreported_of (not_raises_ok _)
          · exact unreported_bind (unreported_of (not_raises_vget _ _)) fun _ _ => unreported_bind (unreported_of (by no_raise)) fun _ _ =>
              unreported_bind (unreported_mapM _ fun _ _ => unreported_multiRow h _ _ _ _ _ _ (fun _ => not_raises_vget _ _) _ _) fun _ _ =>
              unreported_bind (unreported_increments h.inv _ _ _ _ _ _) fun _ _ => unreported_of (not_raises_multiWrite _ _ _)
  · simp [ht]

/-- `optimal_interpolation_ensi_multi_ebe` for points: the same with the sizes of the fields for the correlations. -/
theorem c67_ebe [HasGeo K] [HasSqrt K] [HasExp K] {T : RTree K} {A : Arma K} {s : SF K} (h : NoReports T A s) {bp : Points K}
    {lats lons : List (Fl K)} {type : CoordType} (hb : BuiltPoints bp lats lons type) (bratios : List (Fl K)) (background backgroundc : List (List (Fl K)))
    (points : Points K) (pobs : List (List (Fl K))) (pratios : List (Fl K)) (pbg pbgc : List (List (Fl K))) (maxPoints : Int) (extrap : Bool) :
    ebePoints T A bp bratios background backgroundc points pobs pratios pbg pbgc s maxPoints extrap = .throw .invalidArgument ↔
      maxPoints < 0 ∨ type ≠ points.type ∨ background.length ≠ lats.length ∨ backgroundc.length ≠ lats.length ∨ bratios.length ≠ lats.length ∨
        pobs.length ≠ points.size ∨ pratios.length ≠ points.size ∨ pbg.length ≠ points.size ∨ pbgc.length ≠ points.size := by
  obtain ⟨b1, b2, -, -, b5, -⟩ := hb.wf
  have hty : bp.type = type := b5
  have hsz : bp.size = lats.length := by unfold Points.size; rw [b1]
  rw [← hty, ← hsz]
  exact reported_ebe h (by rw [b1, b2, hty]; exact hb.validIn) bratios background backgroundc points pobs pratios pbg pbgc maxPoints extrap

theorem reported_utem [HasGeo K] [HasSqrt K] [HasExp K] {T : RTree K} {A : ArmaE K} {s : SF K} (h : NoReports T A.toArma s) {bp : Points K}
    (hv : PointsValidIn bp.type bp.lats bp.lons) (bratios : List (Fl K)) (background backgroundc : List (List (Fl K)))
    (points : Points K) (pobs pratios : List (Fl K)) (pbg pbgc : List (List (Fl K))) (maxPoints : Int) (extrap : Bool) :
    utemPoints T A bp bratios background backgroundc points pobs pratios pbg pbgc s maxPoints extrap = .throw .invalidArgument ↔
      maxPoints < 0 ∨ bp.type ≠ points.type ∨ background.length ≠ bp.size ∨ backgroundc.length ≠ bp.size ∨ bratios.length ≠ bp.size ∨
        pobs.length ≠ points.size ∨ pratios.length ≠ points.size ∨ pbg.length ≠ points.size ∨ pbgc.length ≠ points.size := by
  unfold utemPoints
  rw [reported_if, reported_if, reported_if, reported_if, reported_if, reported_if, reported_if, reported_if, reported_if]
  by_cases ht : bp.type = points.type
  · refine or_congr Iff.rfl (or_congr Iff.rfl (or_congr Iff.rfl (or_congr Iff.rfl (or_congr Iff.rfl (or_congr Iff.rfl (or_congr Iff.rfl
      (or_congr Iff.rfl (or_iff_left ?_))))))))
    split
    · simp
    · refine unreported_bind (unreported_of (not_raises_vget _ _)) fun _ _ => unreported_bind (unreported_of (not_raises_points _ _)) fun _ _ =>
        unreported_bind (unreported_of (not_raises_members _ _)) fun _ _ => ?_
      unfold utemLoop
      split
      · exact unreported_of (not_raises_ok _)
      · refine unreported_bind (unreported_of ?_) fun _ _ => unreported_mapM _ fun y _ => ?_
        · exact not_raises_mapM _ fun _ => by
            unfold utemPerturb
            exact not_raises_bind (not_raises_vget _ _) fun _ => not_raises_bind (not_raises_vget _ _) fun _ => not_raises_bind (by no_raise) fun _ =>
              not_raises_bind (by no_raise) fun _ => not_raises_bind (not_raises_obsRow _ _ _) fun _ => not_raises_bind (not_raises_obsRow _ _ _) fun _ =>
              not_raises_ok _
        · unfold utemCell
          refine unreported_bind (unreported_of (not_raises_vget _ _)) fun _ _ => unreported_bind (unreported_of (not_raises_vget _ _)) fun _ _ =>
            unreported_bind (unreported_of (not_raises_vget _ _)) fun _ _ =>
            unreported_bind (unreported_select h hv ht _ _ _ (fun _ => not_raises_vget _ _) _) fun _ _ => ?_
          split
          · exact unreported_of (not_raises_ok _)
          · refine unreported_bind (unreported_of ?_) fun _ _ => unreported_bind (unreported_transform h.inv _ _ _) fun t _ => ?_
            · unfold utemRow; no_raise
            · unfold utemUpdate
              split
              · exact unreported_of (not_raises_ok _)
              · exact unreported_of (not_raises_bind (by no_raise) fun _ => not_raises_bind (by no_raise) fun _ => not_raises_write _ _ _)
  · simp [ht]

/-- `optimal_interpolation_ensi_multi_utem` for points: the same sizes. -/
theorem c67_utem [HasGeo K] [HasSqrt K] [HasExp K] {T : RTree K} {A : ArmaE K} {s : SF K} (h : NoReports T A.toArma s) {bp : Points K}
    {lats lons : List (Fl K)} {type : CoordType} (hb : BuiltPoints bp lats lons type) (bratios : List (Fl K)) (background backgroundc : List (List (Fl K)))
    (points : Points K) (pobs pratios : List (Fl K)) (pbg pbgc : List (List (Fl K))) (maxPoints : Int) (extrap : Bool) :
    utemPoints T A bp bratios background backgroundc points pobs pratios pbg pbgc s maxPoints extrap = .throw .invalidArgument ↔
      maxPoints < 0 ∨ type ≠ points.type ∨ background.length ≠ lats.length ∨ backgroundc.length ≠ lats.length ∨ bratios.length ≠ lats.length ∨
        pobs.length ≠ points.size ∨ pratios.length ≠ points.size ∨ pbg.length ≠ points.size ∨ pbgc.length ≠ points.size := by
  obtain ⟨b1, b2, -, -, b5, -⟩ := hb.wf
  have hty : bp.type = type := b5
  have hsz : bp.size = lats.length := by unfold Points.size; rw [b1]
  rw [← hty, ← hsz]
  exact reported_utem h (by rw [b1, b2, hty]; exact hb.validIn) bratios background backgroundc points pobs pratios pbg pbgc maxPoints extrap

/-- The structure function of Cressman reports nothing, whatever the locations. -/
theorem noReports_cressman [HasGeo K] [HasSqrt K] [HasExp K] (T : RTree K) {A : Arma K} (h : ∀ M, Unreported (A.inv M)) (a b c : Fl K) :
    NoReports T A (.cressman a b c) :=
  ⟨fun _ => unreported_of (not_raises_ok _), fun _ _ => unreported_of (not_raises_mapM _ fun _ => not_raises_ok _),
    fun _ _ => unreported_of (not_raises_mapM _ fun _ => not_raises_ok _), h⟩

theorem countPairs_ok {ref fcst : List (Fl K)} (hl : ref.length = fcst.length) (t f : Fl K) : ∃ n, countPairs ref fcst t f = ok n := by
  unfold countPairs
  have : ∀ (l : List Int) (b : Counts K), (∀ i ∈ l, i ∈ upto fcst.length) → ∃ n, foldM (fun n i => do
      let f' ← vget fcst i
      let r ← vget ref i
      ok (countPair t f n f' r)) b l = ok n := by
    intro l
    induction l with
    | nil => exact fun b _ => ⟨b, rfl⟩
    | cons i l ih =>
      intro b hi
      obtain ⟨k, hk, rfl⟩ := mem_upto.mp (hi i (by simp))
      rw [foldM_cons, vget_eq_ok_of_lt hk, ok_bind, vget_eq_ok_of_lt (by omega : k < ref.length), ok_bind, ok_bind]
      exact ih _ fun j hj => hi j (by simp [hj])
  exact this _ _ fun _ h => h

/-- `metric_optimizer_curve` raises an exception exactly for lists of different sizes, and for a metric that does not exist if there is a threshold. -/
theorem c67_metric_optimizer (B : Brent K) (ref fcst thresholds : List (Fl K)) (metric : Metric) :
    Raises (metricOptimizerCurve B ref fcst thresholds metric) ↔ ref.length ≠ fcst.length ∨ (metric = .other ∧ thresholds ≠ []) := by
  unfold metricOptimizerCurve
  rw [raises_if]
  by_cases hl : ref.length = fcst.length
  · refine or_congr Iff.rfl ?_
    have hs : ∀ t x, Raises (scoreFunc ref fcst t metric x) ↔ metric = .other := by
      intro t x
      obtain ⟨n, hn⟩ := countPairs_ok hl t x
      unfold scoreFunc calcScoreAt
      rw [hn, ok_bind]
      exact (raises_bind_first fun _ _ => not_raises_ok _).trans (c67_score_partial _ _ _ _ _)
    have hr : ¬ Raises (fcstRange ref fcst) := by unfold fcstRange; no_raise
    have hro : ∃ r, fcstRange ref fcst = ok r := by
      unfold fcstRange
      have : ∀ (l : List Int) (b : Fl K × Fl K), (∀ i ∈ l, i ∈ upto ref.length) → ∃ n, foldM (fun (m : Fl K × Fl K) i => do
          let f ← vget fcst i
          ok (if !isValid m.1 || lt f m.1 then f else m.1, if !isValid m.2 || gt f m.2 then f else m.2)) b l = ok n := by
        intro l
        induction l with
        | nil => exact fun b _ => ⟨b, rfl⟩
        | cons i l ih =>
          intro b hi
          obtain ⟨k, hk, rfl⟩ := mem_upto.mp (hi i (by simp))
          rw [foldM_cons, vget_eq_ok_of_lt (by omega : k < fcst.length), ok_bind, ok_bind]
          exact ih _ fun j hj => hi j (by simp [hj])
      exact this _ _ fun _ h => h
    by_cases hm : metric = .other
    · cases thresholds with
      | nil => simp [foldM, not_raises_ok]
      | cons t ts =>
        simp only [hm, true_and, ne_eq, reduceCtorEq, not_false_eq_true, iff_true]
        obtain ⟨r, hr'⟩ := hro
        obtain ⟨e, he⟩ := (hs t r.1).mpr hm
        rw [hm] at he
        refine ⟨e, ?_⟩
        rw [foldM_cons]
        unfold getOptimalThreshold
        rw [hr', ok_bind, he]
        rfl
    · simp only [hm, false_and, iff_false]
      have hs' : ∀ t x, ¬ Raises (scoreFunc ref fcst t metric x) := fun t x h => hm ((hs t x).mp h)
      refine not_raises_foldM _ _ fun _ t => not_raises_bind ?_ fun _ => not_raises_ok _
      unfold getOptimalThreshold
      refine not_raises_bind hr fun _ => not_raises_bind (hs' _ _) fun _ => not_raises_bind (not_raises_foldM _ _ fun _ _ => ?_) fun _ =>
        not_raises_bind (hs' _ _) fun _ => not_raises_bind (hs' _ _) fun _ => not_raises_ok _
      unfold optimizerStep
      exact not_raises_bind (hs' _ _) fun _ => not_raises_ok _
  · simp [hl]

end

/-! ## Concrete cases -/

/-- A library that never finds an inverse and Cressman's function meet `NoReports`, and there are points; one call with a report and one without; calls of the
functions of the previous two files. -/
theorem c67_case_ensemble :
    NoReports RTree.scan (⟨fun _ => .throw .runtimeError, id⟩ : Arma ℚ) (.cressman (fin 1) (fin 1) (fin 1)) ∧
    (∃ p : Points ℚ, BuiltPoints p [fin 0] [fin 1] .cartesian) ∧
    (do
      let p ← Points.new [fin (0 : ℚ)] [fin 1] [] [] .cartesian
      ebescPoints RTree.scan ⟨fun _ => .throw .runtimeError, id⟩ p [fin 1] [[fin 5]] p [[fin 6]] [fin 1] [[fin 5]] (.cressman (fin 1) (fin 1) (fin 1)) 0 true) =
      .throw .runtimeError ∧
    (do
      let p ← Points.new [fin (0 : ℚ)] [fin 1] [] [] .cartesian
      ebescPoints RTree.scan ⟨fun _ => .throw .runtimeError, id⟩ p [] [[fin 5]] p [[fin 6]] [fin 1] [[fin 5]] (.cressman (fin 1) (fin 1) (fin 1)) 0 true) =
      .throw .invalidArgument ∧
    metricOptimizerCurve (⟨fun f lo _ => (lo, f lo)⟩ : Brent ℚ) [fin 1, fin 2] [fin 1, fin 2] [fin 1] .other = .throw .invalidArgument ∧
    metricOptimizerCurve (⟨fun f lo _ => (lo, f lo)⟩ : Brent ℚ) [fin 1, fin 2] [fin 1, fin 2] [] .other = ok ([], []) ∧
    metricOptimizerCurve (⟨fun f lo _ => (lo, f lo)⟩ : Brent ℚ) [fin 1, fin 2] [fin 1] [fin 1] .pc = .throw .invalidArgument := by
  refine ⟨noReports_cressman _ (fun _ h => by cases h) _ _ _, ⟨_, [], [], rfl⟩, ?_, ?_, ?_, ?_, ?_⟩ <;> decide +kernel

/-- A grid of two cells: the simple gradient for a field that fits and one that does not, with a downscaler that does not exist, and with several times, where
only the sizes of the gradients terminate the process. -/
theorem c67_case_gradient :
    (do
      let g ← Grid.new [[fin (0 : ℚ), fin 0]] [[fin 0, fin 10]] [] [] .cartesian
      let p ← Points.new [fin 0] [fin 9] [] [] .cartesian
      simpleGradientGP2 RTree.scan .nearest g p [[fin 7]] (fin 0)) = .throw .invalidArgument ∧
    (do
      let g ← Grid.new [[fin (0 : ℚ), fin 0]] [[fin 0, fin 10]] [] [] .cartesian
      let p ← Points.new [fin 0] [fin 9] [] [] .cartesian
      simpleGradientGP2 RTree.scan .other g p [[fin 7, fin 8]] (fin 0)) = .throw .invalidArgument ∧
    (do
      let g ← Grid.new [[fin (0 : ℚ), fin 0]] [[fin 0, fin 10]] [[fin 0, fin 0]] [[fin 0, fin 0]] .cartesian
      let p ← Points.new [fin 0] [fin 9] [fin 2] [fin 0] .cartesian
      simpleGradientGP2 RTree.scan .nearest g p [[fin 7, fin 8]] (fin 3)) = ok [fin 14] ∧
    (do
      let g ← Grid.new [[fin (0 : ℚ), fin 0]] [[fin 0, fin 10]] [] [] .cartesian
      fullGradientGG3 RTree.scan .nearest g g [[[fin 7, fin 8]]] [[[fin 1]]] []) = abort := by
  decide +kernel

/-- A point that is usable in the plane only cannot be put on a geodetic grid, which is reported because this loop is not parallel; another point can. -/
theorem c67_case_gridding_nearest :
    (do
      let g ← Grid.new [[fin (0 : ℚ), fin 0]] [[fin 0, fin 10]] [] [] .geodetic
      let p ← Points.new [fin 100] [fin 5] [] [] .cartesian
      griddingNearestG RTree.scan (fun _ => 0) g p [fin 7] 0 .count) = .throw .invalidArgument ∧
    (do
      let g ← Grid.new [[fin (0 : ℚ), fin 0]] [[fin 0, fin 10]] [] [] .geodetic
      let p ← Points.new [fin 0] [fin 5] [] [] .cartesian
      let r ← griddingNearestG RTree.scan (fun _ => 0) g p [fin 7] 0 .count
      ok (r.map List.length)) = ok [2] := by
  decide +kernel

end Gridpp.Props
