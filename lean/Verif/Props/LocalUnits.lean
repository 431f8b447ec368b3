import Verif.Props.ScoreLaws
import Verif.Props.LocalDistribution

/-! C183: neighbourhood scores and local distribution correction in other units. -/

set_option linter.unusedSectionVars false

namespace Gridpp.Props
open Fl Res Spec

section
variable {K : Type} [Field K] [LinearOrder K] [IsStrictOrderedRing K]

/-! ### Neighbourhood scores -/

theorem cellTable_units [FloorRing K] [HasSqrt K] [HasGeo K] {c : K} (hc : 0 < c) (d : K) (t f r : Fl K) :
    cellTable (inUnits c d t) (inUnits c d f) (inUnits c d r) = cellTable t f r := by
  unfold cellTable
  rw [inUnits_isValid hc.ne', inUnits_isValid hc.ne', inUnits_gt hc, inUnits_gt hc, inUnits_le hc]

/-- **C183**, neighbourhood scores: they do not depend on the unit of forecasts, references and threshold, whatever the input. -/
theorem c183_score [FloorRing K] [HasSqrt K] [HasGeo K] {c : K} (hc : 0 < c) (d : K) (T : RTree K) (rnd : Rnd K) (grid : Grid K) (points : Points K)
    (fcst : List (List (Fl K))) (ref : List (Fl K)) (hw : Int) (metric : Metric) (threshold : Fl K) :
    neighbourhoodScore T rnd grid points (fcst.map (List.map (inUnits c d))) (ref.map (inUnits c d)) hw metric (inUnits c d threshold) =
      neighbourhoodScore T rnd grid points fcst ref hw metric threshold := by
  have hg := (c177_gridding_nearest T rnd c d hc grid points points ref 1 .mean ⟨by simp, by simp, by simp⟩).1
  unfold neighbourhoodScore
  rw [compatibleSizeG2_map, hg]
  refine congrArg (compatibleSizeG2 grid fcst >>= ·) (funext fun comp => ?_)
  split_ifs
  · rfl
  · rfl
  · rw [vget_map, map_bind_eq]
    refine congrArg (vget fcst 0 >>= ·) (funext fun row => ?_)
    rw [map_bind_eq]
    refine congrArg (griddingNearestG T rnd grid points ref 1 .mean >>= ·) (funext fun rg => ?_)
    simp only [List.length_map]
    have e : (fun y x => vget2 (rg.map (List.map (statChange c d .mean))) y x >>= fun r => vget2 (fcst.map (List.map (inUnits c d))) y x >>= fun f =>
        ok (cellTable (inUnits c d threshold) f r)) =
        (fun y x => vget2 rg y x >>= fun r => vget2 fcst y x >>= fun f => ok (cellTable threshold f r)) := by
      funext y x
      rw [vget2_map, map_bind_eq]
      refine congrArg (vget2 rg y x >>= ·) (funext fun r => ?_)
      rw [vget2_map, map_bind_eq]
      refine congrArg (vget2 fcst y x >>= ·) (funext fun f => ?_)
      show ok (cellTable (inUnits c d threshold) (inUnits c d f) (inUnits c d r)) = _
      rw [cellTable_units hc]
    rw [e]

/-! ### Local distribution correction -/

/-- A sort that only compares: in another unit the elements end up in the same places. -/
def SameSort (A : Arma K) (c : K) : Prop :=
  ∀ l : List (Fl K × Nat), A.sortFirst (l.map fun e => (fin c * e.1, e.2)) = (A.sortFirst l).map fun e => (fin c * e.1, e.2)

theorem scale_inUnits (c : K) (x : Fl K) : inUnits c 0 x = fin c * x := by
  unfold inUnits
  cases fin c * x <;> first | rfl | exact congrArg fin (add_zero _)

theorem unit_inUnits (x : Fl K) : inUnits 1 0 x = x := by rw [scale_inUnits, scale_one]

theorem scale_lt_zero {c : K} (hc : 0 < c) (x : Fl K) : (fin c * x).lt 0 = x.lt 0 := by
  conv_lhs => rw [← scale_zero c]
  exact scale_lt_pos hc x 0

theorem scale_zero_le {c : K} (hc : 0 < c) (x : Fl K) : (fin c * x).ge 0 = x.ge 0 := by
  unfold ge
  conv_lhs => rw [← scale_zero c]
  exact scale_le_pos hc 0 x

theorem scale_le_zero {c : K} (hc : 0 < c) (x : Fl K) : (fin c * x).le 0 = x.le 0 := by
  conv_lhs => rw [← scale_zero c]
  exact scale_le_pos hc x 0

theorem ldcPair_units {c : K} (hc : 0 < c) (pobs pbg : List (List (Fl K))) (rho : Fl K) (i t : Nat) :
    ldcPair (pobs.map (List.map (fin c * ·))) (pbg.map (List.map (fin c * ·))) rho i t =
      Option.map (fun e : Fl K × Fl K × Fl K => (fin c * e.1, fin c * e.2.1, e.2.2)) <$> ldcPair pobs pbg rho i t := by
  unfold ldcPair
  rw [vget2_map, map_bind_eq, bind_map_eq]
  refine congrArg (vget2 pobs (t : Int) (i : Int) >>= ·) (funext fun o => ?_)
  rw [scale_isValid hc.ne']
  by_cases ho : o.isValid = true
  · rw [if_pos ho, if_pos ho, vget2_map, map_bind_eq, bind_map_eq]
    refine congrArg (vget2 pbg (t : Int) (i : Int) >>= ·) (funext fun f => ?_)
    rw [scale_isValid hc.ne', scale_lt_zero hc, scale_lt_zero hc, scale_zero_le hc, scale_zero_le hc]
    by_cases hf : f.isValid = true
    · rw [if_pos hf, if_pos hf]
      by_cases hn : (o.lt 0 || f.lt 0) = true
      · rw [if_pos hn, if_pos hn]; rfl
      · rw [if_neg hn, if_neg hn, bind_map_eq]
        refine congrArg (Res.assert (o.ge 0) >>= ·) (funext fun _ => ?_)
        rw [bind_map_eq]
        rfl
    · rw [if_neg hf, if_neg hf]; rfl
  · rw [if_neg ho, if_neg ho]; rfl

theorem filterMap_map_id {α β : Type} (f : α → β) (l : List (Option α)) : (l.map (Option.map f)).filterMap id = (l.filterMap id).map f := by
  induction l with
  | nil => rfl
  | cons a t ih => cases a <;> simp_all

theorem ldcGather_units [HasGeo K] [HasSqrt K] [HasExp K] {c : K} (hc : 0 < c) (T : RTree K) (points : Points K) (pobs pbg : List (List (Fl K))) (s : SF K)
    (p1 : Point K) (idx : List Nat) :
    ldcGather T points (pobs.map (List.map (fin c * ·))) (pbg.map (List.map (fin c * ·))) s p1 idx =
      List.map (fun e : Fl K × Fl K × Fl K => (fin c * e.1, fin c * e.2.1, e.2.2)) <$> ldcGather T points pobs pbg s p1 idx := by
  unfold ldcGather
  have e : (fun index : Nat => points.getPoint (index : Int) >>= fun p2 => s.corrBg T p1 p2 >>= fun rho =>
        mapM (ldcPair (pobs.map (List.map (fin c * ·))) (pbg.map (List.map (fin c * ·))) rho index) (List.range (pobs.map (List.map (fin c * ·))).length) >>=
          fun row => ok (row.filterMap id)) =
      fun index : Nat => List.map (fun e : Fl K × Fl K × Fl K => (fin c * e.1, fin c * e.2.1, e.2.2)) <$> (points.getPoint (index : Int) >>= fun p2 => s.corrBg T p1 p2 >>= fun rho =>
        mapM (ldcPair pobs pbg rho index) (List.range pobs.length) >>= fun row => ok (row.filterMap id)) := by
    funext index
    rw [bind_map_eq]
    refine congrArg (points.getPoint (index : Int) >>= ·) (funext fun p2 => ?_)
    rw [bind_map_eq]
    refine congrArg (s.corrBg T p1 p2 >>= ·) (funext fun rho => ?_)
    rw [List.length_map, bind_map_eq, show ldcPair (pobs.map (List.map (fin c * ·))) (pbg.map (List.map (fin c * ·))) rho index =
      fun t => Option.map (fun e : Fl K × Fl K × Fl K => (fin c * e.1, fin c * e.2.1, e.2.2)) <$> ldcPair pobs pbg rho index t from
        funext fun t => ldcPair_units hc pobs pbg rho index t, mapM_map_eq, map_bind_eq]
    refine congrArg (mapM _ _ >>= ·) (funext fun row => ?_)
    show ok _ = ok _
    rw [filterMap_map_id]
  rw [e, mapM_map_eq, map_bind_eq, bind_map_eq]
  refine congrArg (mapM _ _ >>= ·) (funext fun r => ?_)
  show ok _ = ok _
  rw [List.map_flatten]

theorem subRange_map {α β : Type} (f : α → β) (v : List α) (d0 d1 : Int) : subRange (v.map f) d0 d1 = List.map f <$> subRange v d0 d1 := by
  unfold subRange
  rw [List.length_map]
  by_cases h : 0 ≤ d0 ∧ d0 ≤ d1 ∧ d1 ≤ (v.length : Int)
  · rw [if_pos h, if_pos h]
    show ok _ = ok _
    rw [List.map_drop, List.map_take]
  · rw [if_neg h, if_neg h]; rfl

theorem scale_isNan {c : K} (hc : 0 < c) (x : Fl K) : (fin c * x).isNan = x.isNan := by
  rw [← scale_inUnits]; exact inUnits_isNan hc 0 x

theorem ldcTrim_units [FloorRing K] {A : Arma K} {c : K} (hc : 0 < c) (hA : SameSort A c) (values rhos : List (Fl K)) (mn mx : Fl K) :
    ldcTrim A (values.map (fin c * ·)) rhos mn mx = List.map (fun e : Fl K × Fl K => (fin c * e.1, e.2)) <$> ldcTrim A values rhos mn mx := by
  have hz : (values.map (fin c * ·)).zipIdx = values.zipIdx.map fun e => (fin c * e.1, e.2) := by
    rw [List.zipIdx_map]; rfl
  have hs : sortPairs A (values.map (fin c * ·)).zipIdx = List.map (fun e : Fl K × Nat => (fin c * e.1, e.2)) <$> sortPairs A values.zipIdx := by
    unfold sortPairs
    rw [hz, List.any_map, hA]
    have : ((fun e : Fl K × Nat => e.1.isNan) ∘ fun e : Fl K × Nat => (fin c * e.1, e.2)) = fun e => e.1.isNan := by
      funext e; exact scale_isNan hc e.1
    rw [this]
    by_cases h : values.zipIdx.any (fun e => e.1.isNan) = true
    · rw [if_pos h, if_pos h]; rfl
    · rw [if_neg h, if_neg h]; rfl
  unfold ldcTrim
  rw [hs, map_bind_eq, bind_map_eq]
  refine congrArg (sortPairs A values.zipIdx >>= ·) (funext fun sorted => ?_)
  have hm : mapM (fun e : Fl K × Nat => vget rhos (e.2 : Int) >>= fun r => ok (e.1, r)) (sorted.map fun e => (fin c * e.1, e.2)) =
      List.map (fun e : Fl K × Fl K => (fin c * e.1, e.2)) <$> mapM (fun e : Fl K × Nat => vget rhos (e.2 : Int) >>= fun r => ok (e.1, r)) sorted := by
    induction sorted with
    | nil => rfl
    | cons a t ih =>
      rw [List.map_cons, mapM_cons, mapM_cons, ih]
      cases vget rhos (a.2 : Int) <;> try rfl
      simp only [ok_bind]
      cases mapM (fun e : Fl K × Nat => vget rhos (e.2 : Int) >>= fun r => ok (e.1, r)) t <;> rfl
  rw [hm, map_bind_eq, bind_map_eq]
  refine congrArg (mapM _ _ >>= ·) (funext fun pairs => ?_)
  rw [List.length_map, bind_map_eq]
  refine congrArg (Fl.truncInt _ >>= ·) (funext fun d0 => ?_)
  rw [bind_map_eq]
  refine congrArg (Fl.truncInt _ >>= ·) (funext fun d1 => ?_)
  exact subRange_map _ _ _ _

theorem getLastD_scale (c : K) (l : List (Fl K)) : (l.map (fin c * ·)).getLastD 0 = fin c * l.getLastD 0 := by
  rw [List.getLastD_eq_getLast?, List.getLastD_eq_getLast?, List.getLast?_map]
  cases l.getLast? with
  | none => exact (scale_zero c).symm
  | some v => rfl

theorem interpolate_scale_x {c : K} (hc : 0 < c) (x : Fl K) (X Y : List (Fl K)) :
    interpolate (fin c * x) (X.map (fin c * ·)) Y = interpolate x X Y := by
  have h := c176_interpolate c 0 1 0 hc one_ne_zero x X Y
  have e1 : inUnits c 0 = (fin c * · : Fl K → Fl K) := funext (scale_inUnits c)
  have e2 : inUnits (1 : K) 0 = id := funext unit_inUnits
  rw [e1, e2, List.map_id] at h
  rw [h]
  cases interpolate x X Y <;> rfl

theorem interpolate_scale_y {c : K} (hc : 0 < c) (x : Fl K) (X Y : List (Fl K)) :
    interpolate x X (Y.map (fin c * ·)) = (fin c * ·) <$> interpolate x X Y := by
  have h := c176_interpolate 1 0 c 0 one_pos hc.ne' x X Y
  have e1 : inUnits c 0 = (fin c * · : Fl K → Fl K) := funext (scale_inUnits c)
  have e2 : inUnits (1 : K) 0 = id := funext unit_inUnits
  rw [e1, e2, List.map_id] at h
  exact h

/-- A background value is on the same side of the two limits for no precipitation (0.01 and 0.1) in both units. -/
def SameSide (c : K) (b : Fl K) : Prop :=
  (fin c * b).lt (fin (1 / 100)) = b.lt (fin (1 / 100)) ∧ (fin c * b).lt (fin (1 / 10)) = b.lt (fin (1 / 10))

theorem ldcValue_units [HasExp K] {c : K} (hc : 0 < c) {b : Fl K} (hb : SameSide c b) (sumRho : Fl K) (ref refQ fcst fcstQ : List (Fl K)) :
    ldcValue (fin c * b) sumRho (ref.map (fin c * ·)) refQ (fcst.map (fin c * ·)) fcstQ = (fin c * ·) <$> ldcValue b sumRho ref refQ fcst fcstQ := by
  unfold ldcValue
  simp only [getLastD_scale, hb.1, hb.2, scale_le_zero hc]
  have e3 : fin 3 * (fin c * fcst.getLastD 0) = fin c * (fin 3 * fcst.getLastD 0) := scale_mul_right hc.ne' _ _
  have e4 : (fin c * b).ge (fin c * fcst.getLastD 0) = b.ge (fcst.getLastD 0) := scale_le_pos hc _ _
  rw [e3, scale_lt_pos hc, e4]
  by_cases h1 : b.lt (fin (1 / 100)) = true
  · rw [if_pos h1, if_pos h1]
    exact congrArg ok (scale_zero c).symm
  · rw [if_neg h1, if_neg h1]
    by_cases h2 : (ref.getLastD 0).le 0 = true
    · rw [if_pos h2, if_pos h2]
      by_cases h3 : b.lt (fin 3 * fcst.getLastD 0) = true
      · rw [if_pos h3, if_pos h3]
        exact congrArg ok (scale_zero c).symm
      · rw [if_neg h3, if_neg h3]
        by_cases h4 : b.lt (fin (1 / 10)) = true
        · rw [if_pos h4, if_pos h4]
          exact congrArg ok (scale_zero c).symm
        · rw [if_neg h4, if_neg h4]; rfl
    · rw [if_neg h2, if_neg h2]
      by_cases h3 : b.ge (fcst.getLastD 0) = true
      · rw [if_pos h3, if_pos h3, ← scale_sub hc.ne', ← scale_add hc.ne']; rfl
      · rw [if_neg h3, if_neg h3, interpolate_scale_x hc, bind_map_eq]
        refine congrArg (interpolate b fcst fcstQ >>= ·) (funext fun q => ?_)
        rw [interpolate_scale_y hc, map_bind_eq, bind_map_eq]
        refine congrArg (interpolate q refQ ref >>= ·) (funext fun n => ?_)
        show ok _ = ok _
        rw [scale_mul_right hc.ne', scale_mul_right hc.ne', ← scale_add hc.ne']

theorem ldcCell_units [HasGeo K] [HasSqrt K] [HasExp K] [FloorRing K] {A : Arma K} {c : K} (hc : 0 < c) (hA : SameSort A c) (T : RTree K) (g : Grid K)
    (background : List (List (Fl K))) (hb : ∀ row ∈ background, ∀ b ∈ row, SameSide c b) (points : Points K) (pobs pbg : List (List (Fl K))) (s : SF K)
    (mn mx : Fl K) (minPoints : Int) (y x : Int) :
    ldcCell T A g (background.map (List.map (fin c * ·))) points (pobs.map (List.map (fin c * ·))) (pbg.map (List.map (fin c * ·))) s mn mx minPoints y x =
      (fin c * ·) <$> ldcCell T A g background points pobs pbg s mn mx minPoints y x := by
  unfold ldcCell
  rw [vget2_map]
  cases hv : vget2 background y x with
  | throw e => rfl
  | abort => rfl
  | ub => rfl
  | ok b =>
    have hs : SameSide c b := by
      unfold vget2 vget at hv
      split at hv
      · cases hv
      · cases hr : background[y.toNat]? with
        | none => rw [hr] at hv; cases hv
        | some row =>
          rw [hr] at hv
          simp only [ok_bind] at hv
          split at hv
          · cases hv
          · cases hx : row[x.toNat]? with
            | none => rw [hx] at hv; cases hv
            | some w =>
              rw [hx] at hv
              cases hv
              exact hb row (List.mem_of_getElem? hr) b (List.mem_of_getElem? hx)
    rw [map_bind_eq, ok_bind, ok_bind, scale_isValid hc.ne']
    by_cases h : b.isValid = true
    · rw [if_pos h, if_pos h, bind_map_eq]
      refine congrArg (vget2 g.lats y x >>= ·) (funext fun lat => ?_)
      rw [bind_map_eq]
      refine congrArg (vget2 g.lons y x >>= ·) (funext fun lon => ?_)
      rw [bind_map_eq]
      refine congrArg (g.getPoint y x >>= ·) (funext fun p1 => ?_)
      rw [bind_map_eq]
      refine congrArg (s.locDist T p1 >>= ·) (funext fun radius => ?_)
      rw [bind_map_eq]
      refine congrArg (points.getNeighbours T lat lon radius true >>= ·) (funext fun idx => ?_)
      rw [ldcGather_units hc, map_bind_eq, bind_map_eq]
      refine congrArg (ldcGather T points pobs pbg s p1 idx >>= ·) (funext fun l => ?_)
      rw [List.length_map]
      by_cases hm : minPoints ≤ (l.length : Int)
      · rw [if_pos hm, if_pos hm, bind_map_eq]
        have e1 : (l.map fun e : Fl K × Fl K × Fl K => (fin c * e.1, fin c * e.2.1, e.2.2)).map (fun e => e.2.2) = l.map fun e => e.2.2 := by
          rw [List.map_map]; rfl
        have e2 : (l.map fun e : Fl K × Fl K × Fl K => (fin c * e.1, fin c * e.2.1, e.2.2)).map (fun e => e.1) = (l.map fun e => e.1).map (fin c * ·) := by
          rw [List.map_map, List.map_map]; rfl
        have e3 : (l.map fun e : Fl K × Fl K × Fl K => (fin c * e.1, fin c * e.2.1, e.2.2)).map (fun e => e.2.1) = (l.map fun e => e.2.1).map (fin c * ·) := by
          rw [List.map_map, List.map_map]; rfl
        rw [e1, e2, e3]
        dsimp only
        rw [ldcTrim_units hc hA, map_bind_eq]
        refine congrArg (ldcTrim A (l.map fun e => e.1) _ mn mx >>= ·) (funext fun ref => ?_)
        rw [ldcTrim_units hc hA, map_bind_eq, bind_map_eq]
        refine congrArg (ldcTrim A (l.map fun e => e.2.1) _ mn mx >>= ·) (funext fun fcst => ?_)
        rw [List.length_map, List.length_map, bind_map_eq]
        refine congrArg (Res.assert _ >>= ·) (funext fun _ => ?_)
        have z : ∀ p : List (Fl K × Fl K), (0 : Fl K) :: (p.map fun e => (fin c * e.1, e.2)).map Prod.fst = (0 :: p.map Prod.fst).map (fin c * ·) := by
          intro p
          rw [List.map_cons, scale_zero, List.map_map, List.map_map]; rfl
        have w : ∀ p : List (Fl K × Fl K), (p.map fun e => (fin c * e.1, e.2)).map Prod.snd = p.map Prod.snd := by
          intro p
          rw [List.map_map]; rfl
        rw [z, z, w, w]
        exact ldcValue_units hc hs _ _ _ _ _
      · rw [if_neg hm, if_neg hm]; rfl
    · rw [if_neg h, if_neg h]; rfl

/-- **C183**, local distribution correction: multiplying the background, the observations and the forecasts by a positive factor
multiplies the result, if every background value stays on its side of the limits 0.01 and 0.1. -/
theorem c183_ldc_partial [HasGeo K] [HasSqrt K] [HasExp K] [FloorRing K] {A : Arma K} {c : K} (hc : 0 < c) (hA : SameSort A c) (T : RTree K) (g : Grid K)
    (background : List (List (Fl K))) (hb : ∀ row ∈ background, ∀ b ∈ row, SameSide c b) (points : Points K) (pobs pbg : List (List (Fl K))) (s : SF K)
    (mn mx : Fl K) (minPoints : Int) :
    localDistributionCorrection T A g (background.map (List.map (fin c * ·))) points (pobs.map (List.map (fin c * ·))) (pbg.map (List.map (fin c * ·)))
        s mn mx minPoints =
      List.map (List.map (fin c * ·)) <$> localDistributionCorrection T A g background points pobs pbg s mn mx minPoints := by
  unfold localDistributionCorrection
  rw [vget_map, map_bind_eq, bind_map_eq]
  refine congrArg (vget background 0 >>= ·) (funext fun row => ?_)
  simp only [List.length_map]
  by_cases h : pobs.length ≠ pbg.length
  · rw [if_pos h, if_pos h, vget_map, vget_map]
    cases vget pobs 0 <;> try rfl
    cases vget pbg 0 <;> rfl
  · rw [if_neg h, if_neg h]
    have e : ldcCell T A g (background.map (List.map (fin c * ·))) points (pobs.map (List.map (fin c * ·))) (pbg.map (List.map (fin c * ·))) s mn mx minPoints =
        fun y x => (fin c * ·) <$> ldcCell T A g background points pobs pbg s mn mx minPoints y x :=
      funext fun y => funext fun x => ldcCell_units hc hA T g background hb points pobs pbg s mn mx minPoints y x
    rw [e, grid2_map_eq, omp_map]

end

/-! ### Concrete cases -/

/-- Merge sort ends up in the same places in every unit. -/
theorem c183_case_sort {K : Type} [Field K] [LinearOrder K] [IsStrictOrderedRing K] (inv : List (List (Fl K)) → Res (List (List (Fl K)))) {c : K}
    (hc : 0 < c) : SameSort (⟨inv, fun l => l.mergeSort fun a b => !(b.1.lt a.1)⟩ : Arma K) c := fun l =>
  (List.map_mergeSort fun a _ b _ => by rw [scale_lt_pos hc]).symm

/-- **C183** is false for the local distribution correction: 0.005 mm are no precipitation, the same amount in micrometres is. -/
theorem c183_ldc_unit : oneCellLdc cress (fin (1 / 200)) [[fin 4]] [[fin 3]] (fin 0) (fin 1) 1 = ok [[fin 0]] ∧
    oneCellLdc cress (fin 5) [[fin 4000]] [[fin 3000]] (fin 0) (fin 1) 1 ≠ ok [[fin 0]] := by decide +kernel

/-- The factor 2 is allowed for the values 3 and 0.001. -/
theorem c183_case : SameSide (2 : ℚ) (fin 3) ∧ SameSide (2 : ℚ) (fin (1 / 1000)) ∧ SameSort (⟨fun _ => ub, id⟩ : Arma ℚ) 2 ∧
    oneCellLdc cress (fin 10) [[fin 1]] [[fin 3]] (fin 0) (fin 1) 1 = ok [[fin 8]] ∧
    oneCellLdc cress (fin 20) [[fin 2]] [[fin 6]] (fin 0) (fin 1) 1 = ok [[fin 16]] ∧
    c75Example .pc [[fin 4, fin 0, fin 9]] = ok [[fin (1 / 2), fin (1 / 2), fin 0]] :=
  ⟨⟨by decide +kernel, by decide +kernel⟩, ⟨by decide +kernel, by decide +kernel⟩, fun _ => rfl, by decide +kernel, by decide +kernel, by decide +kernel⟩

end Gridpp.Props
