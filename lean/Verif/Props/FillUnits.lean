import Verif.Props.DownscalingUnits
import Verif.Props.CurveUnits
import Verif.Model.Fill
import Verif.Model.Gridding
import Verif.Model.Smart
import Verif.Base.Inst

/-! C177: filling, doping, gridding and smart downscaling in other units. -/

set_option linter.unusedSectionVars false

namespace Gridpp.Props
open Fl Res Spec

/-! ### Loops -/

theorem foldM_sim2 {α β γ : Type} {f : β → α → Res β} {f' : γ → α → Res γ} (g : β → γ) (h : ∀ b a, f' (g b) a = g <$> f b a) (b : β) (l : List α) :
    foldM f' (g b) l = g <$> foldM f b l := by
  induction l generalizing b with
  | nil => rfl
  | cons a t ih =>
    simp only [foldM_cons, h, map_bind_eq, bind_map_eq, ih]

theorem vsetFill_map {α β : Type} (f : α → β) (v : List α) (i : Int) (a : α) : vset (v.map f) i (f a) = List.map f <$> vset v i a := by
  unfold vset
  rw [List.length_map]
  split
  · rfl
  split
  · rw [map_ok, List.map_set]
  · rfl

theorem vset2_map {α β : Type} (f : α → β) (v : List (List α)) (i j : Int) (a : α) : vset2 (v.map (List.map f)) i j (f a) = List.map (List.map f) <$> vset2 v i j a := by
  unfold vset2
  simp only [vget_map, map_bind_eq, vsetFill_map, bind_map_eq]

section
variable {K : Type} [Field K] [LinearOrder K] [IsStrictOrderedRing K] [HasGeo K] [HasSqrt K]

/-! ### `fill` and the doping functions -/

theorem paint_map (f : Fl K → Fl K) (w w' : Int → Int → Res (Option (Fl K))) (hw : ∀ y x, w' y x = Option.map f <$> w y x) (output : List (List (Fl K)))
    (cells : List (Int × Int)) : paint w' (output.map (List.map f)) cells = List.map (List.map f) <$> paint w output cells := by
  unfold paint
  refine foldM_sim2 (List.map (List.map f)) (fun b a => ?_) output cells
  simp only [hw, map_bind_eq, bind_map_eq]
  congr 1; funext v
  cases v with
  | none => rfl
  | some v => exact vset2_map f b a.1 a.2 v

/-- **C177**: `fill` takes every change of the values to the output. -/
theorem c177_fill (T : RTree K) (f : Fl K → Fl K) (igrid : Grid K) (input : List (List (Fl K))) (points : Points K) (radii : List (Fl K)) (value : Fl K) (outside : Bool) :
    fill T igrid (input.map (List.map f)) points radii (f value) outside = List.map (List.map f) <$> fill T igrid input points radii value outside := by
  unfold fill
  simp only [compatibleSizeG2_map, bind_map_eq]
  congr 1; funext b
  split
  · rfl
  split
  · rfl
  split
  · rfl
  have e : (if outside then (input.map (List.map f)).map fun r => List.replicate r.length (f value) else input.map (List.map f)) =
      (if outside then input.map fun r => List.replicate r.length value else input).map (List.map f) := by
    split
    · simp [Function.comp_def]
    · rfl
  show foldM _ (if outside then _ else _) _ = _
  rw [e]
  refine foldM_sim2 (List.map (List.map f)) (fun o i => ?_) _ _
  unfold fillPoint
  simp only [bind_map_eq]
  congr 1; funext la
  congr 1; funext lo
  congr 1; funext r
  congr 1; funext I
  refine paint_map f _ _ (fun y x => ?_) o _
  unfold fillValue
  split
  · simp only [vget2_map, map_bind_eq, bind_map_eq]
    rfl
  · rfl

theorem dopeValue_map (f : Fl K → Fl K) (ielevs : List (List (Fl K))) (elevs : List (Fl K)) (m curr : Fl K) (i y x : Int) :
    dopeValue ielevs elevs m (f curr) i y x = Option.map f <$> dopeValue ielevs elevs m curr i y x := by
  unfold dopeValue
  split
  · simp only [bind_map_eq]
    congr 1; funext e
    congr 1; funext ie
    split <;> rfl
  · rfl

/-- **C177**: the doping functions take every change of the values to the output. -/
theorem c177_doping (T : RTree K) (f : Fl K → Fl K) (igrid : Grid K) (background : List (List (Fl K))) (points : Points K) (obs : List (Fl K)) (halfwidth : List Int)
    (radii : List (Fl K)) (maxElevDiff : Fl K) :
    dopingSquare T igrid (background.map (List.map f)) points (obs.map f) halfwidth maxElevDiff =
      List.map (List.map f) <$> dopingSquare T igrid background points obs halfwidth maxElevDiff ∧
    dopingCircle T igrid (background.map (List.map f)) points (obs.map f) radii maxElevDiff =
      List.map (List.map f) <$> dopingCircle T igrid background points obs radii maxElevDiff := by
  constructor
  · unfold dopingSquare
    simp only [compatibleSizeG2_map, bind_map_eq, List.length_map]
    congr 1; funext b
    split
    · rfl
    split
    · rfl
    split
    · rfl
    split
    · rfl
    simp only [bind_map_eq]
    congr 1; funext s
    split
    · rfl
    refine foldM_sim2 (List.map (List.map f)) (fun o i => ?_) _ _
    unfold dopeSquarePoint
    simp only [vget_map, map_bind_eq, bind_map_eq, paint_map f _ _ (dopeValue_map f _ _ _ _ _)]
  · unfold dopingCircle
    simp only [compatibleSizeG2_map, bind_map_eq, List.length_map]
    congr 1; funext b
    split
    · rfl
    split
    · rfl
    split
    · rfl
    split
    · rfl
    split
    · rfl
    refine foldM_sim2 (List.map (List.map f)) (fun o i => ?_) _ _
    unfold dopeCirclePoint
    simp only [vget_map, map_bind_eq, bind_map_eq, paint_map f _ _ (dopeValue_map f _ _ _ _ _)]

/-! ### `fill_missing` -/

theorem fillNext_units {c : K} (hc : c ≠ 0) (d : K) (get : Int → Res (Fl K)) (n : Nat) (x : Int) :
    fillNext (fun i => inUnits c d <$> get i) n x = fillNext get n x := by
  induction n generalizing x with
  | zero => rfl
  | succ n ih => simp only [fillNext, map_bind_eq, inUnits_isValid hc, ih]

theorem fillGap_units {c : K} (hc : c ≠ 0) (d : K) (get : Int → Res (Fl K)) (n : Nat) (last next x : Int) :
    fillGap (fun i => inUnits c d <$> get i) n last next x = inUnits c d <$> fillGap get n last next x := by
  unfold fillGap
  split
  · rfl
  · simp only [map_bind_eq, bind_map_eq, map_ok]
    congr 1; funext a
    congr 1; funext b
    rw [inUnits_sub hc, ← scale_mul hc, scale_div_num hc, inUnits_add hc]

theorem fillStep_units {c : K} (hc : c ≠ 0) (d : K) (get : Int → Res (Fl K)) (n : Nat) (s : FillState K) (x : Int) :
    fillStep (fun i => inUnits c d <$> get i) n { s with out := s.out.map (inUnits c d) } x =
      (fun s : FillState K => { s with out := s.out.map (inUnits c d) }) <$> fillStep get n s x := by
  unfold fillStep fillFind
  simp only [map_bind_eq, bind_map_eq, inUnits_isValid hc, fillNext_units hc, fillGap_units hc]
  congr 1; funext v
  split
  · simp only [bind_map_eq]
    congr 1; funext nx
    congr 1; funext r
    simp [map_ok]
  · simp [map_ok]

theorem fillLine_units {c : K} (hc : c ≠ 0) (d : K) (get : Int → Res (Fl K)) (n : Nat) :
    fillLine (fun i => inUnits c d <$> get i) n = List.map (inUnits c d) <$> fillLine get n := by
  unfold fillLine
  have := foldM_sim2 (fun s : FillState K => { s with out := s.out.map (inUnits c d) }) (fillStep_units hc d get n) ⟨0, -1, []⟩ (upto n)
  rw [show (⟨0, -1, []⟩ : FillState K) = (fun s : FillState K => { s with out := s.out.map (inUnits c d) }) ⟨0, -1, []⟩ from rfl, this, map_bind_eq, bind_map_eq]
  rfl

theorem fillCombine_units {c : K} (hc : c ≠ 0) (d : K) (a b : Fl K) : fillCombine (inUnits c d a) (inUnits c d b) = inUnits c d (fillCombine a b) := by
  unfold fillCombine
  simp only [inUnits_isValid hc]
  cases ha : a.isValid with
  | false =>
    cases hb : b.isValid with
    | false => simp [inUnits_missing, MV]
    | true =>
      obtain ⟨q, rfl⟩ := isValid_fin hb
      simp [inUnits_fin]
  | true =>
    obtain ⟨p, rfl⟩ := isValid_fin ha
    cases hb : b.isValid with
    | false => simp [inUnits_fin]
    | true =>
      obtain ⟨q, rfl⟩ := isValid_fin hb
      have h := half_units hc d (fin p) (fin q)
      simp only [inUnits_fin] at h
      simpa [inUnits_fin] using h

/-- **C177**: `fill_missing` does not depend on the unit. -/
theorem c177_fill_missing (c d : K) (hc : c ≠ 0) (values : List (List (Fl K))) :
    fillMissing (values.map (List.map (inUnits c d))) = List.map (List.map (inUnits c d)) <$> fillMissing values := by
  unfold fillMissing
  simp only [vget_map, map_bind_eq, vget2_map, fillLine_units hc, List.length_map, mapM_map_eq, fillCombine_units hc, bind_map_eq, ← grid2_map_eq, map_ok]

/-! ### `smart` -/

theorem foldl_add_units {c : K} (hc : c ≠ 0) (d : K) (l : List (Fl K)) (s : Fl K) (e : K) :
    (l.map (inUnits c d)).foldl (· + ·) (fin c * s + fin e) = fin c * l.foldl (· + ·) s + fin (e + l.length * d) := by
  induction l generalizing s e with
  | nil => simp
  | cons v t ih =>
    have h : fin c * s + fin e + inUnits c d v = fin c * (s + v) + fin (e + d) := by
      unfold inUnits
      rw [scale_add hc]
      generalize fin c * s = a
      generalize fin c * v = b
      cases a <;> cases b <;> first | rfl | skip
      show fin _ = fin _
      congr 1
      ring
    rw [List.map_cons, List.foldl_cons, h, ih, List.foldl_cons]
    congr 2
    rw [List.length_cons]
    push_cast
    ring

theorem meanSmart_units {c : K} (hc : c ≠ 0) (d : K) (l : List (Fl K)) (h : 0 < l.length) :
    (l.map (inUnits c d)).foldl (· + ·) 0 / Fl.ofNat l.length = inUnits c d (l.foldl (· + ·) 0 / Fl.ofNat l.length) := by
  have hn : (0 : K) < l.length := Nat.cast_pos.mpr h
  have hi : ((l.length : K))⁻¹ ≠ 0 := inv_ne_zero hn.ne'
  have e0 := foldl_add_units hc d l 0 0
  rw [scale_zero, show (0 : Fl K) + fin 0 = 0 from by simp, zero_add] at e0
  have e : ∀ z : Fl K, z / Fl.ofNat l.length = fin ((l.length : K))⁻¹ * z := by
    intro z
    have := scale_div_den hn z (fin 1)
    rw [fin_mul, mul_one] at this
    show z / fin (l.length : K) = _
    rw [this]
    congr 1
    cases z with
    | fin q => show (if (1 : K) = 0 then _ else fin (q / 1)) = _; rw [if_neg one_ne_zero, div_one]
    | nan => rfl
    | pinf => exact if_neg (not_lt.mpr zero_le_one)
    | ninf => exact if_neg (not_lt.mpr zero_le_one)
  rw [e0, e, e, scale_add hi]
  unfold inUnits
  rw [scale_scale_eq _ _ hc, mul_comm c, ← scale_scale_eq _ _ hi, fin_mul, ← mul_assoc, inv_mul_cancel₀ hn.ne', one_mul]

/-- **C177**: `smart` does not depend on the unit. -/
theorem c177_smart [HasExp K] (T : RTree K) (A : Arma K) (c d : K) (hc : c ≠ 0) (ig og : Grid K) (ivalues : List (List (Fl K))) (num : Int) (s : SF K) :
    smart T A ig og (ivalues.map (List.map (inUnits c d))) num s = List.map (List.map (inUnits c d)) <$> smart T A ig og ivalues num s := by
  have hm : ∀ idx rhos, smartMean (ivalues.map (List.map (inUnits c d))) idx rhos num = inUnits c d <$> smartMean ivalues idx rhos num := by
    intro idx rhos
    unfold smartMean
    simp only [vget2_map, ← bind_map_eq, mapM_map_eq]
    simp only [map_bind_eq, bind_map_eq, List.length_map]
    congr 1; funext values
    split
    · rename_i h
      rw [meanSmart_units hc d values h, map_ok]
    · rfl
  have hcell : ∀ i j, smartCell T A ig og (ivalues.map (List.map (inUnits c d))) num s i j = inUnits c d <$> smartCell T A ig og ivalues num s i j := by
    intro i j
    unfold smartCell
    simp only [hm, bind_map_eq]
  unfold smart
  simp only [bind_map_eq, ← grid2_map_eq]
  congr 1; funext n
  congr 1
  funext i j
  exact hcell i j

/-! ### `gridding` and `gridding_nearest` -/

variable [FloorRing K]

/-- The unit of a statistic of values in other units, for the statistics for which there is one. -/
def statChange (c d : K) : Statistic → (Fl K → Fl K)
  | .variance => times (c ^ 2)
  | .std => times c
  | .count => fun v => v
  | _ => inUnits c d

/-- The statistics covered: all but the random choice, the sum for units without an offset, the standard deviation with an exact square root. -/
def StatUnits (d : K) (s : Statistic) : Prop :=
  (s = .sum → d = 0) ∧ (s = .std → ∀ x : K, 0 ≤ x → 0 ≤ HasSqrt.sqrt x ∧ HasSqrt.sqrt x * HasSqrt.sqrt x = x) ∧ s ≠ .randomChoice

theorem statistic_units (rnd : Rnd K) (c d : K) (hc : 0 < c) (l : List (Fl K)) (s : Statistic) (hs : StatUnits d s) :
    calcStatistic rnd (l.map (inUnits c d)) s = statChange c d s <$> calcStatistic rnd l s := by
  obtain ⟨h1, h2, h3, h4⟩ := stat_inUnits rnd c d l
  have hq : ∀ q : K, 0 ≤ q → q ≤ 1 → calcQuantile (l.map (inUnits c d)) (fin q) = inUnits c d <$> calcQuantile l (fin q) := by
    intro q h0 h1
    have : ∃ v, calcQuantile l (fin q) = ok v := by
      by_cases hl : vals l = []
      · exact ⟨_, calcQuantile_none l hl h0 h1⟩
      · obtain ⟨v, hv, -⟩ := calcQuantile_polyline l hl h0 h1
        exact ⟨_, hv⟩
    obtain ⟨v, hv⟩ := this
    rw [hv, (quantile_inUnits c d l h0 h1 hv).1 hc.le, map_ok]
  cases s with
  | mean => exact h1 _ rfl
  | min => exact hq 0 le_rfl zero_le_one
  | median => exact hq (1 / 2) (by norm_num) (by norm_num)
  | max => exact hq 1 zero_le_one le_rfl
  | count => exact h2 _ rfl
  | variance => exact h4 _ rfl
  | quantile => rfl
  | unknown => rfl
  | sum =>
    have := h3 _ _ rfl rfl
    rw [hs.1 rfl] at this ⊢
    rw [this, ofNat_def, fin_mul, mul_zero]
    rfl
  | std =>
    have hr := hs.2.1 rfl
    have hv : calcVariance (l.map (inUnits c d)) = fin (c ^ 2) * calcVariance l := Res.ok.inj (h4 _ rfl)
    show ok (Fl.sqrt (calcVariance (l.map (inUnits c d)))) = ok (fin c * Fl.sqrt (calcVariance l))
    rw [hv]
    by_cases hl : vals l = []
    · rw [calcVariance_none l hl]
      rfl
    · rw [calcVariance_eq l hl, fin_mul]
      have h0 := variance_nonneg (vals l)
      have h1 : 0 ≤ c ^ 2 * variance (vals l) := mul_nonneg (sq_nonneg c) h0
      show ok (if c ^ 2 * variance (vals l) < 0 then nan else fin (HasSqrt.sqrt (c ^ 2 * variance (vals l)))) =
        ok (fin c * if variance (vals l) < 0 then nan else fin (HasSqrt.sqrt (variance (vals l))))
      rw [if_neg (not_lt.mpr h1), if_neg (not_lt.mpr h0), fin_mul]
      congr 2
      refine (mul_self_inj (hr _ h1).1 (mul_nonneg hc.le (hr _ h0).1)).mp ?_
      rw [(hr _ h1).2, mul_mul_mul_comm, (hr _ h0).2, sq]
  | randomChoice => exact absurd rfl hs.2.2

theorem statChange_missing (c d : K) (s : Statistic) : statChange c d s nan = nan := by cases s <;> rfl

/-- **C177**: `gridding` in other units: the mean, the least, the greatest and the middle value in the other units, the number of values unchanged, the variance and the standard
deviation without the offset, the sum if there is no offset. -/
theorem c177_gridding (T : RTree K) (rnd : Rnd K) (c d : K) (hc : 0 < c) (grid : Grid K) (opoints points : Points K) (values : List (Fl K)) (radius : Fl K) (minNum : Int)
    (s : Statistic) (hs : StatUnits d s) :
    griddingG T rnd grid points (values.map (inUnits c d)) radius minNum s = List.map (List.map (statChange c d s)) <$> griddingG T rnd grid points values radius minNum s ∧
    griddingP T rnd opoints points (values.map (inUnits c d)) radius minNum s = List.map (statChange c d s) <$> griddingP T rnd opoints points values radius minNum s := by
  have hk : griddingChecks points (values.map (inUnits c d)) radius minNum = griddingChecks points values radius minNum := by
    unfold griddingChecks compatibleSizeP1
    rw [List.length_map]
  have hat : ∀ la lo, griddingAt T rnd points (values.map (inUnits c d)) radius minNum s la lo = statChange c d s <$> griddingAt T rnd points values radius minNum s la lo := by
    intro la lo
    unfold griddingAt
    simp only [vget_map, mapM_map_eq, map_bind_eq, statistic_units rnd c d hc _ s hs, bind_map_eq]
    congr 1; funext I
    split
    · simp only [bind_map_eq]
    · rw [map_ok, show MV = (nan : Fl K) from rfl, statChange_missing]
  constructor
  · unfold griddingG
    simp only [hk, hat, ← bind_map_eq, grid2_map_eq, omp_map]
  · unfold griddingP
    simp only [hk, hat, ← bind_map_eq, mapM_map_eq, omp_map]

theorem push2_map {α β : Type} (f : α → β) (temp : List (List (List α))) (y x : Int) (v : α) :
    push2 (temp.map (List.map (List.map f))) y x (f v) = List.map (List.map (List.map f)) <$> push2 temp y x v := by
  unfold push2
  simp only [vget2_map, map_bind_eq, bind_map_eq]
  congr 1; funext a
  rw [← vset2_map]
  simp

theorem push1_map {α β : Type} (f : α → β) (temp : List (List α)) (i : Int) (v : α) :
    push1 (temp.map (List.map f)) i (f v) = List.map (List.map f) <$> push1 temp i v := by
  unfold push1 vmodify
  simp only [vget_map, map_bind_eq, bind_map_eq]
  congr 1; funext a
  rw [← vsetFill_map]
  simp

/-- **C177**: `gridding_nearest` in other units: the mean, the least, the greatest and the middle value in the other units, the number of values unchanged, the variance and the standard
deviation without the offset, the sum if there is no offset. -/
theorem c177_gridding_nearest (T : RTree K) (rnd : Rnd K) (c d : K) (hc : 0 < c) (grid : Grid K) (opoints points : Points K) (values : List (Fl K)) (minNum : Int)
    (s : Statistic) (hs : StatUnits d s) :
    griddingNearestG T rnd grid points (values.map (inUnits c d)) minNum s = List.map (List.map (statChange c d s)) <$> griddingNearestG T rnd grid points values minNum s ∧
    griddingNearestP T rnd opoints points (values.map (inUnits c d)) minNum s = List.map (statChange c d s) <$> griddingNearestP T rnd opoints points values minNum s := by
  have hk : griddingNearestChecks points (values.map (inUnits c d)) minNum = griddingNearestChecks points values minNum := by
    unfold griddingNearestChecks compatibleSizeP1
    rw [List.length_map]
  have hat : ∀ l : List (Fl K), griddingNearestAt rnd minNum s (l.map (inUnits c d)) = statChange c d s <$> griddingNearestAt rnd minNum s l := by
    intro l
    unfold griddingNearestAt
    rw [List.length_map, statistic_units rnd c d hc _ s hs]
    split
    · split
      · rfl
      · rw [map_ok, show MV = (nan : Fl K) from rfl, statChange_missing]
    · rw [map_ok, show MV = (nan : Fl K) from rfl, statChange_missing]
  constructor
  · have ha : ∀ Y X, assignCells T grid points (values.map (inUnits c d)) Y X = List.map (List.map (List.map (inUnits c d))) <$> assignCells T grid points values Y X := by
      intro Y X
      unfold assignCells
      rw [List.length_map]
      have h0 : (initVec2 Y X [] : List (List (List (Fl K)))) = (initVec2 Y X []).map (List.map (List.map (inUnits c d))) := by rw [initVec2_map]; rfl
      refine (congrArg (fun z => foldM _ z _) h0).trans (foldM_sim2 (List.map (List.map (List.map (inUnits c d)))) (fun b a => ?_) _ _)
      simp only [vget_map, map_bind_eq, bind_map_eq, push2_map]
    unfold griddingNearestG
    simp only [hk, ha, map_bind_eq, vget2_map, hat, ← bind_map_eq, grid2_map_eq, omp_map]
  · have ha : assignPoints T opoints points (values.map (inUnits c d)) = List.map (List.map (inUnits c d)) <$> assignPoints T opoints points values := by
      unfold assignPoints
      rw [List.length_map]
      have h0 : (List.replicate opoints.size [] : List (List (Fl K))) = (List.replicate opoints.size []).map (List.map (inUnits c d)) := by simp
      refine (congrArg (fun z => foldM _ z _) h0).trans (foldM_sim2 (List.map (List.map (inUnits c d))) (fun b a => ?_) _ _)
      simp only [vget_map, map_bind_eq, bind_map_eq, push1_map]
    unfold griddingNearestP
    simp only [hk, ha, map_bind_eq, vget_map, hat, ← bind_map_eq, mapM_map_eq, omp_map]

end

/-! ### Concrete cases -/

/-- A field with gaps in °C and in °F. -/
example : fillMissing [[fin (0 : ℚ), nan, fin 4], [nan, nan, nan], [fin 8, nan, nan]] = ok [[fin 0, fin 2, fin 4], [fin 4, nan, nan], [fin 8, nan, nan]] ∧
    fillMissing ([[fin (0 : ℚ), nan, fin 4], [nan, nan, nan], [fin 8, nan, nan]].map (List.map (inUnits (9 / 5) 32))) =
      ok ([[fin 0, fin 2, fin 4], [fin 4, nan, nan], [fin 8, nan, nan]].map (List.map (inUnits (9 / 5) 32))) := by
  constructor <;> decide +kernel

/-- Means of the values around two places, in °C and in °F; at the second there are too few. -/
example : (do let p ← Points.new [fin (0 : ℚ), fin 0, fin 1000] [fin 0, fin 1, fin 0] [] [] .cartesian
              let o ← Points.new [fin (0 : ℚ), fin 1000] [fin 0, fin 0] [] [] .cartesian
              griddingP RTree.scan (fun _ => 0) o p ([fin 1, fin 3, fin 5].map (inUnits (9 / 5) 32)) (fin 10) 2 .mean) = ok ([fin 2, nan].map (inUnits (9 / 5) 32)) ∧
    StatUnits (32 : ℚ) .mean := by
  refine ⟨by decide +kernel, ?_, ?_, ?_⟩ <;> simp

/-- **C177** (negation for sums in units with an offset): the offset is added once for every value. -/
theorem c177_sum_offset : (do let p ← Points.new [fin (0 : ℚ), fin 0] [fin 0, fin 1] [] [] .cartesian
                              griddingNearestP RTree.scan (fun _ => 0) p p [fin 1, fin 3] 0 .sum) = ok [fin 1, fin 3] ∧
    (do let p ← Points.new [fin (0 : ℚ), fin 0] [fin 0, fin 1] [] [] .cartesian
        let o ← Points.new [fin (0 : ℚ)] [fin 0] [] [] .cartesian
        griddingNearestP RTree.scan (fun _ => 0) o p [fin 1, fin 3] 0 .sum) = ok [fin 4] ∧
    (do let p ← Points.new [fin (0 : ℚ), fin 0] [fin 0, fin 1] [] [] .cartesian
        let o ← Points.new [fin (0 : ℚ)] [fin 0] [] [] .cartesian
        griddingNearestP RTree.scan (fun _ => 0) o p ([fin 1, fin 3].map (inUnits 1 273)) 0 .sum) = ok [fin (4 + 2 * 273)] := by
  refine ⟨?_, ?_, ?_⟩ <;> decide +kernel

end Gridpp.Props
