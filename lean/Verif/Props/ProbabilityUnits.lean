import Verif.Props.FillUnits
import Verif.Props.CalcGradient
import Verif.Model.Probability

/-! C179: probabilities, masks and gradients in other units. -/

set_option linter.unusedSectionVars false

namespace Gridpp.Spec

/-- The operator that compares in the opposite direction. -/
def opposite : ComparisonOperator → ComparisonOperator
  | .lt => .gt
  | .gt => .lt
  | .leq => .geq
  | .geq => .leq
  | .other => .other

end Gridpp.Spec

namespace Gridpp.Props
open Fl Res Spec

section
variable {K : Type} [Field K] [LinearOrder K] [IsStrictOrderedRing K]

theorem inUnits_lt_neg {c : K} (hc : c < 0) (d : K) (x y : Fl K) : (inUnits c d x).lt (inUnits c d y) = y.lt x := by
  have h1 : inUnits c d pinf = (ninf : Fl K) := by unfold inUnits; rw [fin_mul_pinf, infOfSign_neg hc]; rfl
  have h2 : inUnits c d ninf = (pinf : Fl K) := by unfold inUnits; rw [fin_mul_ninf, infOfSign_pos (neg_pos.mpr hc)]; rfl
  cases x <;> cases y <;> simp [inUnits_fin, inUnits_missing, h1, h2, Fl.lt, hc, mul_lt_mul_left_of_neg]

theorem inUnits_feq_neg {c : K} (hc : c < 0) (d : K) (x y : Fl K) : (inUnits c d x).feq (inUnits c d y) = y.feq x := by
  have h1 : inUnits c d pinf = (ninf : Fl K) := by unfold inUnits; rw [fin_mul_pinf, infOfSign_neg hc]; rfl
  have h2 : inUnits c d ninf = (pinf : Fl K) := by unfold inUnits; rw [fin_mul_ninf, infOfSign_pos (neg_pos.mpr hc)]; rfl
  cases x <;> cases y <;> simp [inUnits_fin, inUnits_missing, h1, h2, Fl.feq, hc.ne, eq_comm]

theorem inUnits_le_neg {c : K} (hc : c < 0) (d : K) (x y : Fl K) : (inUnits c d x).le (inUnits c d y) = y.le x := by
  unfold Fl.le
  rw [inUnits_lt_neg hc, inUnits_feq_neg hc]

theorem scale_abs {c : K} (hc : 0 < c) (x : Fl K) : Fl.abs (fin c * x) = fin c * Fl.abs x := by
  have h1 : (fin c * pinf : Fl K) = pinf := by rw [fin_mul_pinf, infOfSign_pos hc]
  have h2 : (fin c * ninf : Fl K) = ninf := by rw [fin_mul_ninf, infOfSign_neg (neg_neg_of_pos hc)]
  cases x with
  | fin q => simp [Fl.abs, abs_mul, abs_of_pos hc]
  | _ => simp [Fl.abs, h1, h2]

theorem scale_le_pos {c : K} (hc : 0 < c) (x y : Fl K) : (fin c * x).le (fin c * y) = x.le y := by
  have h1 : (fin c * pinf : Fl K) = pinf := by rw [fin_mul_pinf, infOfSign_pos hc]
  have h2 : (fin c * ninf : Fl K) = ninf := by rw [fin_mul_ninf, infOfSign_neg (neg_neg_of_pos hc)]
  cases x <;> cases y <;> simp [h1, h2, Fl.le, Fl.lt, Fl.feq, hc, hc.ne']

/-- The comparison `op` of changed values is the comparison `op'` of the values. -/
def SameComparison (f : Fl K → Fl K) (op op' : ComparisonOperator) : Prop :=
  (∀ v, (f v).isValid = v.isValid) ∧ ∀ v t, compareM op (f v) (f <$> t) = compareM op' v t

theorem sameComparison_pos {c : K} (hc : 0 < c) (d : K) (op : ComparisonOperator) : SameComparison (inUnits c d) op op := by
  refine ⟨inUnits_isValid hc.ne' d, fun v t => ?_⟩
  cases op <;> simp only [compareM, map_bind_eq, inUnits_lt hc, inUnits_le hc, inUnits_gt hc, inUnits_ge hc]

theorem sameComparison_neg {c : K} (hc : c < 0) (d : K) (op : ComparisonOperator) : SameComparison (inUnits c d) op (opposite op) := by
  refine ⟨inUnits_isValid hc.ne d, fun v t => ?_⟩
  cases op <;> simp only [compareM, opposite, map_bind_eq, inUnits_lt_neg hc, inUnits_le_neg hc, Fl.gt, Fl.ge]

variable [HasGeo K]

theorem probability_same {f : Fl K → Fl K} {op op' : ComparisonOperator} (h : SameComparison f op op') (T : RTree K) (ig og : Grid K) (iv : List (List (List (Fl K))))
    (threshold : List (List (Fl K))) :
    downscaleProbability T ig og (iv.map (List.map (List.map f))) (threshold.map (List.map f)) op = downscaleProbability T ig og iv threshold op' := by
  have step : ∀ members thr s k, probabilityStep op (List.map f <$> members) (f <$> thr) s k = probabilityStep op' members thr s k := by
    intro members thr s k
    unfold probabilityStep
    simp only [map_bind_eq, vget_map, h.1, h.2]
  unfold downscaleProbability probabilityCell
  simp only [vget2_map, map_bind_eq, List.length_map]
  have e : ∀ members thr, probabilityStep op (List.map f <$> members) (f <$> thr) = probabilityStep op' members thr := fun m t => by
    funext s k
    exact step m t s k
  simp only [e]

/-- **C179**: probabilities do not depend on the unit, if the threshold is in the same unit. -/
theorem c179_probability (c d : K) (hc : 0 < c) (T : RTree K) (ig og : Grid K) (iv : List (List (List (Fl K)))) (threshold : List (List (Fl K))) (op : ComparisonOperator) :
    downscaleProbability T ig og (iv.map (List.map (List.map (inUnits c d)))) (threshold.map (List.map (inUnits c d))) op = downscaleProbability T ig og iv threshold op :=
  probability_same (sameComparison_pos hc d op) T ig og iv threshold

/-- **C179**: in a unit that counts the other way round, the opposite comparison gives the same probability. -/
theorem c179_probability_reversed (c d : K) (hc : c < 0) (T : RTree K) (ig og : Grid K) (iv : List (List (List (Fl K)))) (threshold : List (List (Fl K)))
    (op : ComparisonOperator) :
    downscaleProbability T ig og (iv.map (List.map (List.map (inUnits c d)))) (threshold.map (List.map (inUnits c d))) op =
      downscaleProbability T ig og iv threshold (opposite op) :=
  probability_same (sameComparison_neg hc d op) T ig og iv threshold

theorem mask_same {f g r : Fl K → Fl K} (hg : g nan = nan) {op op' : ComparisonOperator} (h : SameComparison f op op') {stat : List (Fl K) → Res (Fl K)}
    (hs : ∀ l, stat (l.map g) = r <$> stat l) (T : RTree K) (ig og : Grid K) (ivTrue ivFalse tv : List (List (List (Fl K)))) (threshold : List (List (Fl K))) :
    maskThresholdWith stat T ig og (ivTrue.map (List.map (List.map g))) (ivFalse.map (List.map (List.map g))) (tv.map (List.map (List.map f))) (threshold.map (List.map f)) op =
      List.map (List.map r) <$> maskThresholdWith stat T ig og ivTrue ivFalse tv threshold op' := by
  have e : ∀ t a b thr, maskStep op (List.map f <$> t) (List.map g <$> a) (List.map g <$> b) (f <$> thr) = fun k => g <$> maskStep op' t a b thr k := by
    intro t a b thr
    funext k
    unfold maskStep
    simp only [map_bind_eq, vget_map, h.1, h.2, bind_map_eq]
    congr 1; funext t
    congr 1; funext v
    cases v.isValid with
    | false => simp only [Bool.false_eq_true, if_false, map_ok]; rw [show MV = (nan : Fl K) from rfl, hg]
    | true =>
      simp only [if_true, bind_map_eq]
      congr 1; funext o
      rcases o with _ | _ | _
      · simp only [map_ok]; rw [show MV = (nan : Fl K) from rfl, hg]
      · simp only [bind_map_eq]
      · simp only [bind_map_eq]
  unfold maskThresholdWith
  simp only [vget2_map, map_bind_eq, List.length_map, e, mapM_map_eq, hs, ← bind_map_eq, grid2_map_eq, omp_map]

variable [FloorRing K] [HasSqrt K]

/-- **C179**: the values that select and their threshold may be in any unit, the values that are selected in another: the result is in the unit of the latter. -/
theorem c179_mask_consensus (rnd : Rnd K) (c d c' d' : K) (hc : 0 < c) (hc' : 0 < c') (T : RTree K) (ig og : Grid K) (ivTrue ivFalse tv : List (List (List (Fl K))))
    (threshold : List (List (Fl K))) (op : ComparisonOperator) (s : Statistic) (hs : StatUnits d' s) :
    maskThresholdDownscaleConsensus rnd T ig og (ivTrue.map (List.map (List.map (inUnits c' d')))) (ivFalse.map (List.map (List.map (inUnits c' d'))))
        (tv.map (List.map (List.map (inUnits c d)))) (threshold.map (List.map (inUnits c d))) op s =
      List.map (List.map (statChange c' d' s)) <$> maskThresholdDownscaleConsensus rnd T ig og ivTrue ivFalse tv threshold op s := by
  refine mask_same rfl (sameComparison_pos hc d op) (fun l => ?_) T ig og ivTrue ivFalse tv threshold
  unfold maskStatistic
  by_cases hq : s = .quantile
  · subst hq
    simp only [if_true]
    have : ∃ v, calcQuantile l (fin 0) = ok v := by
      by_cases hl : vals l = []
      · exact ⟨_, calcQuantile_none l hl le_rfl zero_le_one⟩
      · obtain ⟨v, hv, -⟩ := calcQuantile_polyline l hl le_rfl zero_le_one
        exact ⟨_, hv⟩
    obtain ⟨v, hv⟩ := this
    rw [hv, (quantile_inUnits c' d' l le_rfl zero_le_one hv).1 hc'.le, map_ok]
    rfl
  · simp only [hq, if_false]
    exact statistic_units rnd c' d' hc' l s hs

/-- **C179**: the same for quantiles of the selected values. -/
theorem c179_mask_quantile (rnd : Rnd K) (c d c' d' : K) (hc : 0 < c) (hc' : 0 < c') (T : RTree K) (ig og : Grid K) (ivTrue ivFalse tv : List (List (List (Fl K))))
    (threshold : List (List (Fl K))) (op : ComparisonOperator) (q : K) (h0 : 0 ≤ q) (h1 : q ≤ 1) :
    maskThresholdDownscaleQuantile rnd T ig og (ivTrue.map (List.map (List.map (inUnits c' d')))) (ivFalse.map (List.map (List.map (inUnits c' d'))))
        (tv.map (List.map (List.map (inUnits c d)))) (threshold.map (List.map (inUnits c d))) op (fin q) =
      List.map (List.map (inUnits c' d')) <$> maskThresholdDownscaleQuantile rnd T ig og ivTrue ivFalse tv threshold op (fin q) := by
  refine mask_same rfl (sameComparison_pos hc d op) (fun l => ?_) T ig og ivTrue ivFalse tv threshold
  unfold maskStatistic
  simp only [if_true]
  have : ∃ v, calcQuantile l (fin q) = ok v := by
    by_cases hl : vals l = []
    · exact ⟨_, calcQuantile_none l hl h0 h1⟩
    · obtain ⟨v, hv, -⟩ := calcQuantile_polyline l hl h0 h1
      exact ⟨_, hv⟩
  obtain ⟨v, hv⟩ := this
  rw [hv, (quantile_inUnits c' d' l h0 h1 hv).1 hc'.le, map_ok]

/-- **C179**: in a unit that counts the other way round, the opposite comparison selects the same values. -/
theorem c179_mask_reversed (rnd : Rnd K) (c d c' d' : K) (hc : c < 0) (hc' : 0 < c') (T : RTree K) (ig og : Grid K) (ivTrue ivFalse tv : List (List (List (Fl K))))
    (threshold : List (List (Fl K))) (op : ComparisonOperator) (q : K) (h0 : 0 ≤ q) (h1 : q ≤ 1) :
    maskThresholdDownscaleQuantile rnd T ig og (ivTrue.map (List.map (List.map (inUnits c' d')))) (ivFalse.map (List.map (List.map (inUnits c' d'))))
        (tv.map (List.map (List.map (inUnits c d)))) (threshold.map (List.map (inUnits c d))) op (fin q) =
      List.map (List.map (inUnits c' d')) <$> maskThresholdDownscaleQuantile rnd T ig og ivTrue ivFalse tv threshold (opposite op) (fin q) := by
  refine mask_same rfl (sameComparison_neg hc d op) (fun l => ?_) T ig og ivTrue ivFalse tv threshold
  unfold maskStatistic
  simp only [if_true]
  have : ∃ v, calcQuantile l (fin q) = ok v := by
    by_cases hl : vals l = []
    · exact ⟨_, calcQuantile_none l hl h0 h1⟩
    · obtain ⟨v, hv, -⟩ := calcQuantile_polyline l hl h0 h1
      exact ⟨_, hv⟩
  obtain ⟨v, hv⟩ := this
  rw [hv, (quantile_inUnits c' d' l h0 h1 hv).1 hc'.le, map_ok]

end

section
variable {K : Type} [Field K] [LinearOrder K] [IsStrictOrderedRing K] [FloorRing K] [HasSqrt K]

/-! ### `calc_gradient` -/

/-- The state of the loop with the base in other units. -/
def minMaxUnits (c d : K) (s : MinMaxState K) : MinMaxState K := { s with cmax := inUnits c d s.cmax, cmin := inUnits c d s.cmin }

theorem minMaxStep_units {c c' : K} (hc : 0 < c) (hc' : c' ≠ 0) (d d' : K) (base values : List (List (Fl K))) (s : MinMaxState K) (yy xx : Int) :
    minMaxStep (base.map (List.map (inUnits c d))) (values.map (List.map (inUnits c' d'))) (minMaxUnits c d s) yy xx = minMaxUnits c d <$> minMaxStep base values s yy xx := by
  unfold minMaxStep
  simp only [vget2_map, map_bind_eq, inUnits_isValid hc.ne', inUnits_isValid hc']
  rw [bind_map_eq]
  congr 1; funext b
  cases hb : b.isValid with
  | false => rfl
  | true =>
    simp only [Bool.not_true, Bool.false_eq_true, if_false, bind_map_eq]
    congr 1; funext v
    cases hv : v.isValid with
    | false => rfl
    | true =>
      simp only [Bool.not_true, Bool.false_eq_true, if_false, map_ok, minMaxUnits, inUnits_isValid hc.ne', inUnits_gt hc, inUnits_lt hc]
      congr 2
      · split <;> rfl
      · split <;> rfl

theorem minMaxCell_units {c c' : K} (hc : 0 < c) (hc' : c' ≠ 0) (d d' : K) (base values : List (List (Fl K))) (nY nX : Nat) (halfwidth numMin : Int) (minRange default : Fl K)
    (y x : Int) :
    minMaxCell (base.map (List.map (inUnits c d))) (values.map (List.map (inUnits c' d'))) nY nX halfwidth numMin (times c minRange) (times (c' / c) default) y x =
      times (c' / c) <$> minMaxCell base values nY nX halfwidth numMin minRange default y x := by
  unfold minMaxCell
  rw [bind_map_eq]
  have h0 : ({ cmax := MV, cmin := MV, imax := (0, 0), imin := (0, 0), count := 0 } : MinMaxState K) =
      minMaxUnits c d { cmax := MV, cmin := MV, imax := (0, 0), imin := (0, 0), count := 0 } := rfl
  have e := foldM_sim2 (f := fun s yy => foldM (fun s xx => minMaxStep base values s yy xx) s
      (irange (max 0 (x - halfwidth)) (min ((nX : Int) - 1) (x + halfwidth))))
    (f' := fun s yy => foldM (fun s xx => minMaxStep (base.map (List.map (inUnits c d))) (values.map (List.map (inUnits c' d'))) s yy xx) s
      (irange (max 0 (x - halfwidth)) (min ((nX : Int) - 1) (x + halfwidth)))) (minMaxUnits c d)
    (fun b a => foldM_sim2 (minMaxUnits c d) (fun b' a' => minMaxStep_units hc hc' d d' base values b' a a') b _)
    { cmax := MV, cmin := MV, imax := (0, 0), imin := (0, 0), count := 0 } (irange (max 0 (y - halfwidth)) (min ((nY : Int) - 1) (y + halfwidth)))
  rw [h0, e, map_bind_eq]
  congr 1; funext s
  simp only [minMaxUnits, inUnits_isValid hc.ne', inUnits_sub hc.ne', scale_abs hc, scale_le_pos hc, vget2_map, map_bind_eq, inUnits_sub hc']
  split
  · rfl
  · split
    · rfl
    · split
      · rfl
      · rw [bind_map_eq]
        congr 1; funext v1
        rw [bind_map_eq]
        congr 1; funext v0
        rw [map_ok, scale_div_num hc', scale_div_den hc, scale_scale_eq _ _ hc', ← div_eq_mul_inv]

/-- **C179**: `calc_gradient` of values in one unit with respect to a base in another, by the difference of the extremes: the gradient in the quotient of the units, if the least
range is in the unit of the base and the default in the unit of the gradient. -/
theorem c179_minmax (rnd : Rnd K) (c d c' d' : K) (hc : 0 < c) (hc' : c' ≠ 0) (base values : List (List (Fl K))) (halfwidth numMin : Int) (minRange default : Fl K) :
    calcGradient rnd (base.map (List.map (inUnits c d))) (values.map (List.map (inUnits c' d'))) .minMax halfwidth numMin (times c minRange) (times (c' / c) default) =
      List.map (List.map (times (c' / c))) <$> calcGradient rnd base values .minMax halfwidth numMin minRange default := by
  have hz : (times c minRange).lt (fin 0) = minRange.lt (fin 0) := by
    have := scale_lt_pos hc minRange (fin 0)
    rwa [show (fin c * fin 0 : Fl K) = fin 0 by simp] at this
  have hlen : compatibleSize22 (base.map (List.map (inUnits c d))) (values.map (List.map (inUnits c' d'))) = compatibleSize22 base values := by
    unfold compatibleSize22
    simp only [List.map_map]
    congr 2
    · simp [Function.comp_def]
    · simp [Function.comp_def]
  have hrow : ∀ nY nX y, minMaxRow (base.map (List.map (inUnits c d))) (values.map (List.map (inUnits c' d'))) nY nX halfwidth numMin (times c minRange) (times (c' / c) default) y =
      List.map (times (c' / c)) <$> minMaxRow base values nY nX halfwidth numMin minRange default y := by
    intro nY nX y
    have hcell : minMaxCell (base.map (List.map (inUnits c d))) (values.map (List.map (inUnits c' d'))) nY nX halfwidth numMin (times c minRange) (times (c' / c) default) y =
        fun x => times (c' / c) <$> minMaxCell base values nY nX halfwidth numMin minRange default y x := by
      funext x
      exact minMaxCell_units hc hc' d d' base values nY nX halfwidth numMin minRange default y x
    unfold minMaxRow
    rw [hcell, vget_map, map_bind_eq, bind_map_eq]
    congr 1; funext row
    rw [List.length_map, mapM_map_eq, map_bind_eq, bind_map_eq]
    congr 1; funext cells
    split
    · rfl
    · rw [map_ok, List.map_append, List.map_replicate]
  unfold calcGradient
  rw [scale_isValid hc.ne', hz, hlen, List.length_map]
  split
  · rfl
  · split
    · rfl
    · split
      · rfl
      · split
        · rfl
        · split
          · rfl
          · rw [vget_map, map_bind_eq, bind_map_eq]
            congr 1; funext row0
            simp only [List.length_map]
            rw [← mapM_map_eq]
            congr 1; funext y
            exact hrow _ _ y

end

section
variable {K : Type} [Field K] [LinearOrder K] [IsStrictOrderedRing K] [FloorRing K] [LawfulSqrt K]

theorem bothValid_units {c c' : K} (hc : c ≠ 0) (hc' : c' ≠ 0) (d d' : K) (l : List (Fl K × Fl K)) :
    bothValid (l.map (Prod.map (inUnits c d) (inUnits c' d'))) = (bothValid l).map fun p => (c * p.1 + d, c' * p.2 + d') := by
  have nofin : ∀ {c d : K} {a : Fl K}, c ≠ 0 → (∀ q, a ≠ fin q) → ∀ q, inUnits c d a ≠ fin q := by
    intro c d a hc ha q h
    have h1 := inUnits_isValid hc d a
    rw [h] at h1
    cases a with
    | fin r => exact ha r rfl
    | _ => cases h1
  have skip : ∀ (a b : Fl K) (t : List (Fl K × Fl K)), ((∀ q, a ≠ fin q) ∨ ∀ q, b ≠ fin q) → bothValid ((a, b) :: t) = bothValid t := by
    intro a b t h
    cases a with
    | fin q =>
      cases b with
      | fin r => rcases h with h | h; exacts [absurd rfl (h q), absurd rfl (h r)]
      | _ => rfl
    | _ => rfl
  induction l with
  | nil => rfl
  | cons p t ih =>
    obtain ⟨a, b⟩ := p
    rw [List.map_cons]
    by_cases h : (∀ q, a ≠ fin q) ∨ ∀ q, b ≠ fin q
    · rw [skip a b t h]
      show bothValid ((inUnits c d a, inUnits c' d' b) :: _) = _
      rw [skip _ _ _ (h.imp (nofin hc) (nofin hc')), ih]
    · push Not at h
      obtain ⟨⟨q, rfl⟩, r, rfl⟩ := h
      show (c * q + d, c' * r + d') :: bothValid (t.map _) = _
      rw [ih]
      rfl

theorem windowPairs_units {c c' : K} (hc : c ≠ 0) (hc' : c' ≠ 0) (d d' : K) (base values : List (List (Fl K))) (hw y x : Nat) :
    windowPairs (base.map (List.map (inUnits c d))) (values.map (List.map (inUnits c' d'))) hw y x =
      (windowPairs base values hw y x).map fun p => (c * p.1 + d, c' * p.2 + d') := by
  unfold windowPairs
  rw [← bothValid_units hc hc', ← square_mapped, List.zipWith_map, List.map_zipWith]
  congr 2
  refine congrArg (fun F => List.zipWith F base values) ?_
  funext a b
  exact List.zip_map

theorem mean_affine (c d : K) {xs : List K} (h : xs ≠ []) : Spec.mean (xs.map fun v => c * v + d) = c * Spec.mean xs + d := by
  unfold Spec.mean
  have hl : (xs.length : K) ≠ 0 := length_ne_zero h
  have hsum : (xs.map fun v => c * v + d).sum = c * xs.sum + xs.length * d := by
    clear h hl
    induction xs with
    | nil => simp
    | cons a t ih => simp only [List.map_cons, List.sum_cons, ih, List.length_cons]; push_cast; ring
  rw [hsum, List.length_map]
  field_simp

theorem slope_affine {c : K} (hc : c ≠ 0) (c' d d' : K) {P : List (K × K)} (h : P ≠ []) :
    Spec.slope (P.map fun p => (c * p.1 + d, c' * p.2 + d')) = c' / c * Spec.slope P := by
  have e1 : (P.map fun p => (c * p.1 + d, c' * p.2 + d')).map Prod.fst = (P.map Prod.fst).map fun v => c * v + d := by simp [Function.comp_def]
  have e2 : (P.map fun p => (c * p.1 + d, c' * p.2 + d')).map Prod.snd = (P.map Prod.snd).map fun v => c' * v + d' := by simp [Function.comp_def]
  have hcov : covariance (P.map fun p => (c * p.1 + d, c' * p.2 + d')) = c * c' * covariance P := by
    unfold covariance
    rw [e1, e2, mean_affine c d (by simpa using h), mean_affine c' d' (by simpa using h), List.map_map]
    generalize Spec.mean (P.map Prod.fst) = m
    generalize Spec.mean (P.map Prod.snd) = m'
    unfold Spec.mean
    rw [List.length_map, List.length_map, ← mul_div_assoc, ← List.sum_map_mul_left]
    congr 2
    refine congrArg (fun F => List.map F P) ?_
    funext p
    simp only [Function.comp]
    ring
  unfold Spec.slope
  rw [hcov, e1, variance_affine c d (by simpa using h)]
  by_cases hv : Spec.variance (P.map Prod.fst) = 0
  · rw [hv]; simp
  · field_simp

/-- **C179**: the same for the gradient by linear regression. -/
theorem c179_regression (rnd : Rnd K) (c d c' d' : K) (hc : 0 < c) (hc' : c' ≠ 0) (Y X : Nat) (base values : List (List (Fl K))) (hb : Rect Y X base) (hv : Rect Y X values)
    (hY : 0 < Y) (hX : 0 < X) (hw n : Nat) (hhw : 0 < hw) (minRange default : Fl K) (hr : ∀ r, minRange = fin r → 0 ≤ r) :
    ∃ out, calcGradient rnd base values .linearRegression hw n minRange default = ok out ∧ Rect Y X out ∧
      calcGradient rnd (base.map (List.map (inUnits c d))) (values.map (List.map (inUnits c' d'))) .linearRegression hw n (times c minRange) (times (c' / c) default) =
        ok (out.map (List.map (times (c' / c)))) := by
  have rm : ∀ (f : Fl K → Fl K) {a : List (List (Fl K))}, Rect Y X a → Rect Y X (a.map (List.map f)) := by
    intro f a ha
    refine ⟨by rw [List.length_map, ha.1], fun r hr => ?_⟩
    obtain ⟨r', hr', rfl⟩ := List.mem_map.mp hr
    rw [List.length_map, ha.2 r' hr']
  have hmr : ∀ r, times c minRange = fin r ↔ ∃ s, minRange = fin s ∧ r = c * s := by
    intro r
    have h1 : (fin c * pinf : Fl K) = pinf := by rw [fin_mul_pinf, infOfSign_pos hc]
    have h2 : (fin c * ninf : Fl K) = ninf := by rw [fin_mul_ninf, infOfSign_neg (neg_neg_of_pos hc)]
    cases minRange <;> simp [times, h1, h2, eq_comm]
  obtain ⟨out, h1, h2, h3⟩ := c65_regression rnd Y X base values hb hv hY hX hw n hhw minRange default hr
  obtain ⟨out', k1, k2, k3⟩ := c65_regression rnd Y X _ _ (rm (inUnits c d) hb) (rm (inUnits c' d') hv) hY hX hw n hhw (times c minRange) (times (c' / c) default)
    (fun r h => by
      obtain ⟨s, e, rfl⟩ := (hmr r).mp h
      exact mul_nonneg hc.le (hr s e))
  refine ⟨out, h1, h2, k1.trans (congrArg ok ?_)⟩
  refine Rect.ext k2 (rm _ h2) fun y hy x hx => ?_
  obtain ⟨v, e1, e2, e3⟩ := h3 y hy x hx
  obtain ⟨v', f1, f2, f3⟩ := k3 y hy x hx
  rw [f1, cell?_map, e1]
  rw [windowPairs_units hc.ne' hc'] at f2 f3
  generalize windowPairs base values hw y x = P at *
  have hfst : (P.map fun p => (c * p.1 + d, c' * p.2 + d')).map Prod.fst = (P.map Prod.fst).map fun v => c * v + d := by simp [Function.comp_def]
  have hvar : Spec.variance ((P.map fun p => (c * p.1 + d, c' * p.2 + d')).map Prod.fst) = c ^ 2 * Spec.variance (P.map Prod.fst) := by
    rw [hfst]
    by_cases hP : P = []
    · subst hP; simp [Spec.variance]
    · exact variance_affine c d (by simpa using hP)
  have hiff : (n ≤ (P.map fun p => (c * p.1 + d, c' * p.2 + d')).length ∧ Spec.variance ((P.map fun p => (c * p.1 + d, c' * p.2 + d')).map Prod.fst) ≠ 0 ∧
      ∀ r, times c minRange = fin r → r ^ 2 ≤ Spec.variance ((P.map fun p => (c * p.1 + d, c' * p.2 + d')).map Prod.fst)) ↔
      (n ≤ P.length ∧ Spec.variance (P.map Prod.fst) ≠ 0 ∧ ∀ r, minRange = fin r → r ^ 2 ≤ Spec.variance (P.map Prod.fst)) := by
    rw [List.length_map, hvar]
    refine and_congr Iff.rfl (and_congr ?_ ?_)
    · simp [hc.ne']
    · have hp : 0 < c ^ 2 := by positivity
      constructor
      · intro h r hr'
        have := h (c * r) ((hmr _).mpr ⟨r, hr', rfl⟩)
        rw [mul_pow] at this
        exact le_of_mul_le_mul_left this hp
      · intro h r hr'
        obtain ⟨s, hs, rfl⟩ := (hmr r).mp hr'
        rw [mul_pow]
        exact mul_le_mul_of_nonneg_left (h s hs) hp.le
  rw [hiff] at f2 f3
  by_cases hg : n ≤ P.length ∧ Spec.variance (P.map Prod.fst) ≠ 0 ∧ ∀ r, minRange = fin r → r ^ 2 ≤ Spec.variance (P.map Prod.fst)
  · have hP : P ≠ [] := by
      rintro rfl
      exact hg.2.1 (by simp [Spec.variance])
    rw [f2 hg, e2 hg, slope_affine hc.ne' c' d d' hP]
    rfl
  · rw [f3 hg, e3 hg]
    rfl

end

/-- A gradient in K per km instead of in degrees Celsius per m. -/
example : calcGradient (fun _ => 0) [[fin (0 : ℚ), fin 100]] [[fin 10, fin 9]] .minMax 1 2 (fin 50) (fin 0) = ok [[fin (-1 / 100), fin (-1 / 100)]] ∧
    calcGradient (fun _ => 0) [[fin (0 : ℚ), fin (1 / 10)]] [[fin (10 + 27315 / 100), fin (9 + 27315 / 100)]] .minMax 1 2 (fin (1 / 20)) (fin 0) = ok [[fin (-10), fin (-10)]] := by
  constructor <;> decide +kernel

/-- Probability of more than 1 mm, in m. -/
example : (do let g ← Grid.new [[fin (0 : ℚ)]] [[fin 0]] [] [] .cartesian
              downscaleProbability RTree.scan g g [[[fin 0, fin 2, nan]]] [[fin 1]] .gt) = ok [[fin (1 / 2)]] ∧
    (do let g ← Grid.new [[fin (0 : ℚ)]] [[fin 0]] [] [] .cartesian
        downscaleProbability RTree.scan g g [[[fin 0, fin (2 / 1000), nan]]] [[fin (1 / 1000)]] .gt) = ok [[fin (1 / 2)]] ∧
    (do let g ← Grid.new [[fin (0 : ℚ)]] [[fin 0]] [] [] .cartesian
        downscaleProbability RTree.scan g g [[[fin 0, fin (-2), nan]]] [[fin (-1)]] .lt) = ok [[fin (1 / 2)]] := by
  decide +kernel

/-- **C179** (the least range is not optional): without changing the unit of the least range the result is different. -/
theorem c179_range_units : calcGradient (fun _ => 0) [[fin (0 : ℚ), fin (1 / 10)]] [[fin 10, fin 9]] .minMax 1 2 (fin 50) (fin 0) = ok [[fin 0, fin 0]] := by
  decide +kernel

end Gridpp.Props
