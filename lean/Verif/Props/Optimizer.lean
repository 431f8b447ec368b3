import Verif.Props.Score

/-! # C74: the metric optimizer -/

set_option linter.unusedSectionVars false

namespace Gridpp.Props
open Fl Res Spec.Score

variable {K : Type} [Field K] [LinearOrder K] [IsStrictOrderedRing K]

/-- `lo` and `hi` are the smallest and the largest valid forecast. -/
structure ForecastRange (fcst : List (Fl K)) (lo hi : K) : Prop where
  lo_mem : fin lo ∈ fcst
  hi_mem : fin hi ∈ fcst
  bounds : ∀ q, fin q ∈ fcst → lo ≤ q ∧ q ≤ hi

theorem ForecastRange.le {fcst : List (Fl K)} {lo hi : K} (h : ForecastRange fcst lo hi) : lo ≤ hi := (h.bounds lo h.lo_mem).2

/-- One step of the loop over the forecasts. -/
def rangeStep (m : Fl K × Fl K) (f : Fl K) : Fl K × Fl K :=
  (if !isValid m.1 || lt f m.1 then f else m.1, if !isValid m.2 || gt f m.2 then f else m.2)

theorem fcstRange_eq {ref fcst : List (Fl K)} (h : ref.length = fcst.length) : fcstRange ref fcst = ok (fcst.foldl rangeStep (MV, MV)) := by
  have key : ∀ k ≤ fcst.length, foldM (fun (m : Fl K × Fl K) i => do
      let f ← vget fcst i
      ok (if !isValid m.1 || lt f m.1 then f else m.1, if !isValid m.2 || gt f m.2 then f else m.2)) (MV, MV) (upto k) =
      ok ((fcst.take k).foldl rangeStep (MV, MV)) := by
    intro k
    induction k with
    | zero => intro _; rfl
    | succ k ih =>
      intro hk
      have h1 : k < fcst.length := hk
      have e : upto (k + 1) = upto k ++ [(k : Int)] := by simp [upto, List.range_succ]
      rw [e, foldM_append, ih (by omega), ok_bind, foldM_cons, vget_eq_ok_of_lt h1, List.take_add_one, List.getElem?_eq_getElem h1,
        List.foldl_append]
      rfl
  unfold fcstRange
  rw [h, key _ (le_refl _), List.take_of_length_le (le_refl _)]

theorem foldl_rangeStep (fcst : List (Fl K)) (hf : ∀ f ∈ fcst, f ≠ pinf ∧ f ≠ ninf) :
    (∃ lo hi, ForecastRange fcst lo hi ∧ fcst.foldl rangeStep (MV, MV) = (fin lo, fin hi)) ∨
    ((∀ f ∈ fcst, f = nan) ∧ fcst.foldl rangeStep (MV, MV) = (nan, nan)) := by
  induction fcst using List.reverseRecOn with
  | nil => right; exact ⟨by simp, rfl⟩
  | append_singleton l f ih =>
    have ih := ih (fun x hx => hf x (by simp [hx]))
    have hfin := hf f (by simp)
    rw [List.foldl_append]
    simp only [List.foldl_cons, List.foldl_nil]
    rcases ih with ⟨lo, hi, hr, e⟩ | ⟨hn, e⟩
    · left
      rw [e]
      cases f with
      | pinf => exact absurd rfl hfin.1
      | ninf => exact absurd rfl hfin.2
      | nan =>
        refine ⟨lo, hi, ⟨by simp [hr.lo_mem], by simp [hr.hi_mem], ?_⟩, by simp [rangeStep]⟩
        intro q hq
        exact hr.bounds q (by simpa using hq)
      | fin q =>
        have hle := hr.le
        refine ⟨min q lo, max q hi, ⟨?_, ?_, ?_⟩, ?_⟩
        · rcases min_choice q lo with h | h <;> rw [h]
          · simp
          · simp [hr.lo_mem]
        · rcases max_choice q hi with h | h <;> rw [h]
          · simp
          · simp [hr.hi_mem]
        · intro p hp
          rcases List.mem_append.mp hp with h | h
          · have := hr.bounds p h
            exact ⟨le_trans (min_le_right _ _) this.1, le_trans this.2 (le_max_right _ _)⟩
          · have : p = q := by simpa using h
            rw [this]
            exact ⟨min_le_left _ _, le_max_left _ _⟩
        · simp only [rangeStep, isValid_fin, Bool.not_true, Bool.false_or, lt_fin, gt_fin, decide_eq_true_eq]
          congr 1
          · split_ifs with h
            · rw [min_eq_left h.le]
            · rw [min_eq_right (not_lt.mp h)]
          · split_ifs with h
            · rw [max_eq_left h.le]
            · rw [max_eq_right (not_lt.mp h)]
    · rw [e]
      cases f with
      | pinf => exact absurd rfl hfin.1
      | ninf => exact absurd rfl hfin.2
      | nan => right; exact ⟨by simp only [List.mem_append, List.mem_singleton]; rintro x (hx | hx); exacts [hn x hx, hx], by simp [rangeStep]⟩
      | fin q =>
        left
        refine ⟨q, q, ⟨by simp, by simp, ?_⟩, by simp [rangeStep]⟩
        intro p hp
        have : p = q := by
          rcases List.mem_append.mp hp with h | h
          · exact absurd (hn _ h) (by simp)
          · simpa using h
        simp [this]

/-- The optimizer's view of the score: negative, always defined for a metric and matching sizes. -/
theorem calcScore_ok (a b c d : Fl K) {metric : Metric} (hm : metric ≠ .other) : ∃ s, calcScore a b c d metric = ok s := by
  cases metric <;> simp only [calcScore]
  case other => exact absurd rfl hm
  all_goals first | exact ⟨_, rfl⟩ | (split_ifs <;> exact ⟨_, rfl⟩)

theorem scoreFunc_ok {ref fcst : List (Fl K)} (h : ref.length = fcst.length) (threshold : Fl K) {metric : Metric} (hm : metric ≠ .other) (x : Fl K) :
    ∃ s, calcScoreAt ref fcst threshold x metric = ok s ∧ scoreFunc ref fcst threshold metric x = ok (-s) ∧
      scoreValue ref fcst threshold metric x = -s := by
  have : ∃ s, calcScoreAt ref fcst threshold x metric = ok s := by
    unfold calcScoreAt
    rw [countPairs_eq (by omega), ok_bind]
    exact calcScore_ok _ _ _ _ hm
  obtain ⟨s, hs⟩ := this
  refine ⟨s, hs, ?_, ?_⟩
  · unfold scoreFunc; rw [hs]; rfl
  · unfold scoreValue scoreFunc; rw [hs]; rfl

theorem optimizer_loop {ref fcst : List (Fl K)} (h : ref.length = fcst.length) (threshold : Fl K) {metric : Metric} (hm : metric ≠ .other)
    (lo hi : Fl K) (bs : List Nat) (hb : ∀ b ∈ bs, b ≤ 9) (m : Nat × Fl K) (h0 : m.1 ≤ 9) :
    ∃ m', foldM (optimizerStep ref fcst threshold metric lo hi) m bs = ok m' ∧ m'.1 ≤ 9 := by
  induction bs generalizing m with
  | nil => exact ⟨m, rfl, h0⟩
  | cons b t ih =>
    obtain ⟨s, -, hs, -⟩ := scoreFunc_ok h threshold hm (optimizerBin lo hi b)
    rw [foldM_cons]
    have e : optimizerStep ref fcst threshold metric lo hi m b = ok (if lt (-s) m.2 then (b, -s) else m) := by
      unfold optimizerStep; rw [hs]; rfl
    rw [e, ok_bind]
    refine ih (fun b hb' => hb b (by simp [hb'])) _ ?_
    split_ifs
    · exact hb b (by simp)
    · exact h0

theorem optimizerBin_fin (lo hi : K) (b : Nat) : optimizerBin (fin lo) (fin hi) b = fin (lo + (hi - lo) / 9 * b) := by
  unfold optimizerBin
  split_ifs with h
  · simp [h]
  · rw [fin_sub, fin_div_of_ne _ (by norm_num), fin_mul, fin_add]

theorem neg_neg_fl (x : Fl K) : - -x = x := by cases x <;> first | rfl | simp

/-- **C74**, one threshold: with references and forecasts of the same size and finite or missing forecasts, not all
missing, the result is missing or lies between the smallest and the largest forecast, and then its score is above 0.0001.
Missing from the full statement: thresholds that are not better than the ends of the forecast range are not removed
(`c74_boundary_kept`). -/
theorem c74_threshold_partial {B : Brent K} (hB : B.Lawful) {ref fcst : List (Fl K)} (h : ref.length = fcst.length)
    (hf : ∀ f ∈ fcst, f ≠ pinf ∧ f ≠ ninf) {lo hi : K} (hr : ForecastRange fcst lo hi) (threshold : Fl K) {metric : Metric} (hm : metric ≠ .other) :
    getOptimalThreshold B ref fcst threshold metric = ok MV ∨
    ∃ x s, getOptimalThreshold B ref fcst threshold metric = ok (fin x) ∧ lo ≤ x ∧ x ≤ hi ∧
      calcScoreAt ref fcst threshold (fin x) metric = ok (fin s) ∧ 1 / 10000 < s := by
  have e1 : fcstRange ref fcst = ok (fin lo, fin hi) := by
    rw [fcstRange_eq h]
    rcases foldl_rangeStep fcst hf with ⟨lo', hi', hr', e⟩ | ⟨hn, -⟩
    · rw [e]
      have a1 := (hr.bounds _ hr'.lo_mem).1
      have a2 := (hr'.bounds _ hr.lo_mem).1
      have a3 := (hr.bounds _ hr'.hi_mem).2
      have a4 := (hr'.bounds _ hr.hi_mem).2
      rw [le_antisymm a1 a2, le_antisymm a4 a3]
    · exact absurd (hn _ hr.lo_mem) (by simp)
  obtain ⟨s0, -, f0, -⟩ := scoreFunc_ok h threshold hm (fin lo)
  obtain ⟨s1, -, f1, -⟩ := scoreFunc_ok h threshold hm (fin hi)
  obtain ⟨m, hl, hm9⟩ := optimizer_loop h threshold hm (fin lo) (fin hi) [1, 2, 3, 4, 5, 6, 7, 8, 9] (by simp) (0, -s0) (by simp)
  unfold getOptimalThreshold
  rw [e1, ok_bind]
  simp only [f0, f1, ok_bind, hl, optimizerBin_fin]
  generalize hlb : (if m.1 > 0 then m.1 - 1 else 0) = left
  generalize hrb : (if m.1 < 9 then m.1 + 1 else 9) = right
  have hlr : left ≤ right ∧ right ≤ 9 := by
    constructor <;> (subst hlb; subst hrb; split_ifs <;> omega)
  have hle := hr.le
  have hstep : 0 ≤ (hi - lo) / 9 := div_nonneg (by linarith) (by norm_num)
  have c1 : ((left : Nat) : K) ≤ (right : K) := by exact_mod_cast hlr.1
  have c2 : ((right : Nat) : K) ≤ 9 := by exact_mod_cast hlr.2
  have c3 : (0 : K) ≤ (left : K) := Nat.cast_nonneg _
  obtain ⟨x, hx, x1, x2⟩ := hB.inside (scoreValue ref fcst threshold metric) (lo + (hi - lo) / 9 * left) (lo + (hi - lo) / 9 * right)
    (by nlinarith)
  have hv := hB.value (scoreValue ref fcst threshold metric) (fin (lo + (hi - lo) / 9 * left)) (fin (lo + (hi - lo) / 9 * right))
  generalize hq : B.minima (scoreValue ref fcst threshold metric) (fin (lo + (hi - lo) / 9 * left)) (fin (lo + (hi - lo) / 9 * right)) = q at hx hv ⊢
  obtain ⟨s, hs, -, hsv⟩ := scoreFunc_ok h threshold hm (fin x)
  rw [hx, hsv] at hv
  rw [hv, hx, neg_neg_fl]
  by_cases v1 : isValid s
  · obtain ⟨s, rfl⟩ := exists_fin_of_valid v1
    by_cases v2 : s ≤ 1 / 10000
    · left; simp only [isValid_fin, Bool.not_true, Bool.false_eq_true, if_false, le_fin, decide_eq_true_eq, if_pos v2]
    · simp only [isValid_fin, Bool.not_true, Bool.false_eq_true, if_false, le_fin, decide_eq_true_eq, if_neg v2]
      split_ifs with v3
      · left; rfl
      · right
        refine ⟨x, s, rfl, ?_, ?_, hs, not_le.mp v2⟩
        · nlinarith [mul_nonneg hstep c3]
        · have : (hi - lo) / 9 * right ≤ (hi - lo) / 9 * 9 := mul_le_mul_of_nonneg_left c2 hstep
          have e9 : (hi - lo) / 9 * 9 = hi - lo := by field_simp
          linarith
  · left; simp only [Bool.eq_false_iff.mpr v1, Bool.not_false, if_true]

/-- **C74**, the curve: one point for every threshold with a valid optimum, in the order of the thresholds; both returned
lists have the same size. -/
theorem c74_curve (B : Brent K) (ref fcst thresholds : List (Fl K)) (metric : Metric) (out : List (Fl K) × List (Fl K)) :
    metricOptimizerCurve B ref fcst thresholds metric = ok out ↔
      ref.length = fcst.length ∧ ∃ best : List (Fl K), best.length = thresholds.length ∧
        (∀ i (h : i < thresholds.length) (h' : i < best.length), getOptimalThreshold B ref fcst thresholds[i] metric = ok best[i]) ∧
        out.1 = best.filter isValid ∧ out.2 = ((thresholds.zip best).filter (fun p => isValid p.2)).map Prod.fst := by
  unfold metricOptimizerCurve
  by_cases h : ref.length = fcst.length
  · rw [if_neg (by simpa using h)]
    simp only [h, true_and]
    have key : ∀ (ts : List (Fl K)) (o o' : List (Fl K) × List (Fl K)), foldM (fun (o : List (Fl K) × List (Fl K)) t => do
        let v ← getOptimalThreshold B ref fcst t metric
        ok (if isValid v then (o.1 ++ [v], o.2 ++ [t]) else o)) o ts = ok o' ↔
        ∃ best : List (Fl K), List.Forall₂ (fun t v => getOptimalThreshold B ref fcst t metric = ok v) ts best ∧
          o'.1 = o.1 ++ best.filter isValid ∧ o'.2 = o.2 ++ ((ts.zip best).filter (fun p => isValid p.2)).map Prod.fst := by
      intro ts
      induction ts with
      | nil =>
        intro o o'
        constructor
        · intro e; cases e; exact ⟨[], .nil, by simp, by simp⟩
        · rintro ⟨best, hb, e1, e2⟩
          cases hb
          simp only [List.filter_nil, List.append_nil, List.zip_nil_right, List.map_nil] at e1 e2
          rw [foldM_nil]; congr 1; exact Prod.ext e1.symm e2.symm
      | cons t ts ih =>
        intro o o'
        rw [foldM_cons, bind_eq_ok]
        constructor
        · rintro ⟨o1, e1, e2⟩
          obtain ⟨v, hv, e1⟩ := bind_eq_ok.mp e1
          obtain ⟨best, hb, f1, f2⟩ := (ih _ _).mp e2
          refine ⟨v :: best, .cons hv hb, ?_, ?_⟩
          · cases e1; cases hv' : isValid v <;> simp [f1, hv']
          · cases e1; cases hv' : isValid v <;> simp [f2, hv']
        · rintro ⟨best, hb, f1, f2⟩
          cases hb with
          | cons hv hb =>
            rename_i v best
            refine ⟨_, bind_eq_ok.mpr ⟨v, hv, rfl⟩, (ih _ _).mpr ⟨best, hb, ?_, ?_⟩⟩
            · rw [f1]; cases hv' : isValid v <;> simp [hv']
            · rw [f2]; cases hv' : isValid v <;> simp [hv']
    rw [key]
    constructor
    · rintro ⟨best, hb, e1, e2⟩
      refine ⟨best, hb.length_eq.symm, ?_, by simpa using e1, by simpa using e2⟩
      intro i h1 h2
      exact List.forall₂_iff_get.mp hb |>.2 i h1 h2
    · rintro ⟨best, hl, hb, e1, e2⟩
      exact ⟨best, List.forall₂_iff_get.mpr ⟨hl.symm, fun i h1 h2 => hb i h1 h2⟩, by simpa using e1, by simpa using e2⟩
  · rw [if_pos h]
    simp [h]

/-- **C74**, sizes: different sizes are reported. -/
theorem c74_sizes (B : Brent K) {ref fcst : List (Fl K)} (h : ref.length ≠ fcst.length) (thresholds : List (Fl K)) (metric : Metric) :
    metricOptimizerCurve B ref fcst thresholds metric = .throw .invalidArgument := if_pos h

/-- **C74** is false for the boundary: thresholds whose score is that of the ends of the forecast range should be removed,
but scores of opposite sign are compared. All forecasts are 1, every threshold in the range has the score 1/2, and 1 is
returned. -/
theorem c74_boundary_kept (B : Brent ℚ) (hB : B.Lawful) :
    getOptimalThreshold B [fin 2, fin 0] [fin 1, fin 1] (fin 1) .pc = ok (fin 1) ∧
    calcScoreAt [fin (2 : ℚ), fin 0] [fin 1, fin 1] (fin 1) (fin 1) .pc = ok (fin (1 / 2)) := by
  refine ⟨?_, by decide +kernel⟩
  have e1 : fcstRange [fin (2 : ℚ), fin 0] [fin 1, fin 1] = ok (fin 1, fin 1) := by decide +kernel
  have e2 : scoreFunc [fin (2 : ℚ), fin 0] [fin 1, fin 1] (fin 1) .pc (fin 1) = ok (fin (-(1 / 2))) := by decide +kernel
  have e3 : foldM (optimizerStep [fin (2 : ℚ), fin 0] [fin 1, fin 1] (fin 1) .pc (fin 1) (fin 1)) (0, fin (-(1 / 2))) [1, 2, 3, 4, 5, 6, 7, 8, 9] =
    ok (0, fin (-(1 / 2))) := by decide +kernel
  unfold getOptimalThreshold
  rw [e1, ok_bind]
  simp only [e2, ok_bind, e3]
  have b0 : optimizerBin (fin (1 : ℚ)) (fin 1) (if 0 > 0 then 0 - 1 else 0) = fin 1 := by decide +kernel
  have b1 : optimizerBin (fin (1 : ℚ)) (fin 1) (if 0 < 9 then 0 + 1 else 9) = fin 1 := by decide +kernel
  rw [b0, b1]
  obtain ⟨x, hx, x1, x2⟩ := hB.inside (scoreValue [fin (2 : ℚ), fin 0] [fin 1, fin 1] (fin 1) .pc) 1 1 (le_refl _)
  have hv := hB.value (scoreValue [fin (2 : ℚ), fin 0] [fin 1, fin 1] (fin 1) .pc) (fin 1) (fin 1)
  rw [hx, le_antisymm x2 x1] at hv
  have e4 : scoreValue [fin (2 : ℚ), fin 0] [fin 1, fin 1] (fin 1) .pc (fin 1) = fin (-(1 / 2)) := by decide +kernel
  rw [e4] at hv
  rw [hv, hx, le_antisymm x2 x1]
  decide +kernel

/-- **C74**, all forecasts missing: there is no range to search, and the result is missing. Of Brent's method it is assumed that it finds no place in an interval
whose ends are missing (it starts at the upper end and moves by differences of its places). -/
theorem c74_all_missing {B : Brent K} (hB : ∀ f, (B.minima f nan nan).1 = nan) {ref fcst : List (Fl K)} (h : ref.length = fcst.length)
    (hf : ∀ f ∈ fcst, f = nan) (threshold : Fl K) {metric : Metric} (hm : metric ≠ .other) : getOptimalThreshold B ref fcst threshold metric = ok MV := by
  have e1 : fcstRange ref fcst = ok (nan, nan) := by
    rw [fcstRange_eq h]
    rcases foldl_rangeStep fcst (fun f hm => by rw [hf f hm]; simp) with ⟨lo, hi, hr, -⟩ | ⟨-, e⟩
    · exact absurd (hf _ hr.lo_mem) (by simp)
    · rw [e]
  have hbin : ∀ b, optimizerBin (nan : Fl K) nan b = nan := by
    intro b
    unfold optimizerBin
    split_ifs <;> rfl
  obtain ⟨s0, -, f0, -⟩ := scoreFunc_ok h threshold hm nan
  obtain ⟨m, hl, -⟩ := optimizer_loop h threshold hm nan nan [1, 2, 3, 4, 5, 6, 7, 8, 9] (by simp) (0, -s0) (by simp)
  unfold getOptimalThreshold
  rw [e1, ok_bind]
  simp only [f0, ok_bind, hl, hbin, hB]
  split_ifs <;> rfl

/-- **C74** is false for infinite forecasts: an infinite bound of the range is replaced by the next forecast, and the forecast 5 is outside of the range. -/
theorem c74_infinite : fcstRange [fin (1 : ℚ), fin 1, fin 1] [fin 5, pinf, fin 3] = ok (fin 3, fin 3) ∧
    fcstRange [fin (1 : ℚ), fin 1, fin 1] [pinf, fin 5, fin 3] = ok (fin 3, fin 5) := by decide +kernel

/-- The assumption of `c74_all_missing` holds for a stand-in for Brent's method, and a case. -/
theorem c74_case_missing : (∀ f, ((⟨fun f _ hi => (hi, f hi)⟩ : Brent ℚ).minima f nan nan).1 = nan) ∧
    scoreFunc [fin (0 : ℚ), fin 2] [nan, nan] (fin 1) .pc nan = ok (fin (-(1 / 2))) ∧
    getOptimalThreshold (⟨fun f _ hi => (hi, f hi)⟩ : Brent ℚ) [fin 0, fin 2] [nan, nan] (fin 1) .pc = ok MV :=
  ⟨fun _ => rfl, by decide +kernel, by decide +kernel⟩

/-- A lawful stand-in for Brent's method exists. -/
example : (⟨fun f lo _ => (lo, f lo)⟩ : Brent ℚ).Lawful := ⟨fun _ _ _ => rfl, fun _ lo _ h => ⟨lo, rfl, le_refl _, h⟩⟩

/-- Concrete case for `c74_threshold_partial` and `c74_curve`. -/
example : ForecastRange [fin (1 : ℚ), nan, fin 5, fin 3] 1 5 ∧
    metricOptimizerCurve ⟨fun f lo _ => (lo, f lo)⟩ [fin (1 : ℚ), fin 2, fin 5, fin 3] [fin 1, nan, fin 5, fin 3] [fin 2, fin 9] .ts =
      ok ([fin 1], [fin 2]) := by
  refine ⟨⟨by simp, by simp, ?_⟩, by decide +kernel⟩
  intro q hq
  simp at hq
  rcases hq with rfl | rfl | rfl <;> norm_num

end Gridpp.Props
