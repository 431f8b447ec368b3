import Verif.Model.NeighbourhoodScore
import Verif.Props.Score
import Verif.Props.Gridding
import Verif.Props.Neighbourhood
import Verif.Base.Loops

/-! # C75: neighbourhood_score -/

set_option linter.unusedSectionVars false

namespace Gridpp.Props
open Fl Res Spec Spec.Score

section
variable {K : Type} [Field K] [LinearOrder K] [IsStrictOrderedRing K]

/-! ### Specification -/

/-- The textbook score of a table with real entries that are not negative, `nan` where it is undefined. -/
def textbookScore (a b c d : K) : Metric → Fl K
  | .ets => if b = 0 ∧ c = 0 ∧ (a = 0 ∨ d = 0) then nan else fin (equitableThreat a b c d)
  | .ts => if a + b + c = 0 then nan else fin (threat a b c)
  | .pc => if a + b + c + d = 0 then nan else fin (correct a b c d)
  | .kss => if a + c = 0 ∨ b + d = 0 then nan else fin (hanssenKuipers a b c d)
  | .bias => if b = c then fin 1 else fin (1 - |b - c| / (b + c))
  | .hss => if b = 0 ∧ c = 0 ∧ (a = 0 ∨ d = 0) then nan else fin (heidke a b c d)
  | .other => nan

/-- The pairs of forecast and observation, cell by cell. -/
def pairUp (fcst obs : List (List (Fl K))) : List (List (Fl K × Fl K)) := List.zipWith List.zip fcst obs

/-- The number of cells in the square around (y, x) where both values are valid and the outcome is `o`. -/
def hoodCount (fcst obs : List (List (Fl K))) (threshold : Fl K) (hw y x : Nat) (o : Outcome) : Nat :=
  (square (pairUp fcst obs) hw y x).countP fun p => p.1.isValid && p.2.isValid && decide (outcome threshold threshold p = some o)

/-! ### Scores do not depend on the scale of the table -/

theorem calcScore_textbook {a b c d : K} (ha : 0 ≤ a) (hb : 0 ≤ b) (hc : 0 ≤ c) (hd : 0 ≤ d) {m : Metric} (hm : m ≠ .other) :
    calcScore (fin a) (fin b) (fin c) (fin d) m = ok (textbookScore a b c d m) := by
  cases m with
  | ets => exact (c53_ets ha hb hc hd).1
  | ts => exact (c53_ts ha hb hc hd).1
  | pc => exact (c53_pc ha hb hc hd).1
  | kss => exact (c53_kss ha hb hc hd).1
  | hss => exact (c53_hss ha hb hc hd).1
  | other => exact absurd rfl hm
  | bias =>
    simp only [calcScore, feq_fin, decide_eq_true_eq, fin_add, fin_sub, Fl.abs, textbookScore]
    by_cases h : b = c
    · rw [if_pos h, if_pos h]
    · have hs : b + c ≠ 0 := fun e => h (by rw [show b = 0 by linarith, show c = 0 by linarith])
      rw [if_neg h, if_neg h, fin_div_of_ne _ hs, fin_sub]

theorem div_eq_zero' {a n : K} (hn : n ≠ 0) : a / n = 0 ↔ a = 0 := by simp [hn]

/-- Scores are homogeneous of degree 0. -/
theorem textbookScore_div (a b c d : K) {n : K} (hn : 0 < n) (m : Metric) :
    textbookScore (a / n) (b / n) (c / n) (d / n) m = textbookScore a b c d m := by
  have h0 := hn.ne'
  have s3 : a / n + b / n + c / n = (a + b + c) / n := by ring
  have s4 : a / n + b / n + c / n + d / n = (a + b + c + d) / n := by ring
  have ac : a / n + c / n = (a + c) / n := by ring
  have bd : b / n + d / n = (b + d) / n := by ring
  have ab : a / n + b / n = (a + b) / n := by ring
  have db : d / n + b / n = (d + b) / n := by ring
  have dc : d / n + c / n = (d + c) / n := by ring
  have ch : chanceHits (a / n) (b / n) (c / n) (d / n) = chanceHits a b c d / n := by
    unfold chanceHits
    rw [s4, ab, ac]
    by_cases h : a + b + c + d = 0
    · simp [h]
    · field_simp
  have cn : chanceNegatives (a / n) (b / n) (c / n) (d / n) = chanceNegatives a b c d / n := by
    unfold chanceNegatives
    rw [s4, db, dc]
    by_cases h : a + b + c + d = 0
    · simp [h]
    · field_simp
  cases m with
  | ets =>
    simp only [textbookScore, div_eq_zero' h0]
    congr 2
    unfold equitableThreat
    rw [ch, s3, ← sub_div, ← sub_div, div_div_div_cancel_right₀ h0]
  | ts =>
    simp only [textbookScore, s3, div_eq_zero' h0, threat]
    rw [div_div_div_cancel_right₀ h0]
  | pc =>
    simp only [textbookScore, s4, div_eq_zero' h0, correct]
    rw [show a / n + d / n = (a + d) / n by ring, div_div_div_cancel_right₀ h0]
  | kss =>
    simp only [textbookScore, ac, bd, div_eq_zero' h0, hanssenKuipers, hitRate, falseAlarmRate]
    rw [div_div_div_cancel_right₀ h0, div_div_div_cancel_right₀ h0]
  | bias =>
    simp only [textbookScore, div_left_inj' h0]
    congr 2
    rw [← sub_div, abs_div, abs_of_pos hn, ← add_div, div_div_div_cancel_right₀ h0]
  | hss =>
    simp only [textbookScore, div_eq_zero' h0]
    congr 2
    have cc : chanceCorrect (a / n) (b / n) (c / n) (d / n) = chanceCorrect a b c d := by
      unfold chanceCorrect
      rw [ch, cn, s4, ← add_div, div_div_div_cancel_right₀ h0]
    have co : correct (a / n) (b / n) (c / n) (d / n) = correct a b c d := by
      unfold correct
      rw [s4, show a / n + d / n = (a + d) / n by ring, div_div_div_cancel_right₀ h0]
    unfold heidke
    rw [cc, co]
  | other => rfl

/-! ### The four fields -/

theorem slice_map {α β : Type} (f : α → β) (lo hi : Nat) (l : List α) : slice lo hi (l.map f) = (slice lo hi l).map f := by
  simp [slice, List.map_take, List.map_drop]

theorem square_map {α β : Type} (f : α → β) (a : List (List α)) (hw y x : Nat) :
    square (a.map (List.map f)) hw y x = (square a hw y x).map f := by
  simp only [square, slice_map, List.flatMap_map, List.map_flatMap]

/-- The indicator of an outcome at a valid pair. -/
def indicator (threshold : Fl K) (o : Outcome) (p : Fl K × Fl K) : Fl K :=
  if (p.1.isValid && p.2.isValid && decide (outcome threshold threshold p = some o)) = true then fin 1 else fin 0

theorem cellTable_eq (threshold f r : Fl K) : cellTable threshold f r = ⟨indicator threshold .hit (f, r),
    indicator threshold .falseAlarm (f, r), indicator threshold .miss (f, r), indicator threshold .correctNegative (f, r)⟩ := by
  unfold cellTable indicator outcome ofBool
  by_cases hf : f.isValid = true
  · by_cases hr : r.isValid = true
    · have hn : r ≠ nan := by rintro rfl; cases hr
      simp only [hf, hr, Bool.and_true, if_true, Bool.true_and, decide_eq_true_eq, hn, false_or]
      by_cases ht : threshold = nan
      · subst ht
        simp [gt, lt, le, feq]
      · rw [gt_or_le hn ht]
        simp only [ht, if_false]
        cases f.gt threshold <;> cases r.gt threshold <;> simp
    · simp [hf, hr]
  · simp [hf]

theorem vals_zero_one {α : Type} (q : α → Bool) (l : List α) :
    (vals (l.map fun p => if q p = true then (fin 1 : Fl K) else fin 0)).length = l.length ∧
    (vals (l.map fun p => if q p = true then (fin 1 : Fl K) else fin 0)).sum = (l.countP q : K) := by
  induction l with
  | nil => exact ⟨rfl, by simp⟩
  | cons p t ih =>
    obtain ⟨h1, h2⟩ := ih
    rw [List.map_cons, List.countP_cons]
    by_cases h : q p = true
    · rw [if_pos h, if_pos h]
      refine ⟨congrArg (· + 1) h1, ?_⟩
      change (1 : K) + (vals (t.map _)).sum = _
      rw [h2]; push_cast; ring
    · rw [if_neg h, if_neg h]
      refine ⟨congrArg (· + 1) h1, ?_⟩
      change (0 : K) + (vals (t.map _)).sum = _
      rw [h2]; push_cast; ring

theorem cell?_pairUp {Y X : Nat} {fcst obs : List (List (Fl K))} (hf : Rect Y X fcst) (ho : Rect Y X obs) :
    Rect Y X (pairUp fcst obs) ∧ ∀ y x f r, cell? fcst y x = some f → cell? obs y x = some r →
      cell? (pairUp fcst obs) y x = some (f, r) := by
  refine ⟨⟨by simp [pairUp, hf.1, ho.1], fun r hr => ?_⟩, fun y x f r h1 h2 => ?_⟩
  · obtain ⟨k, hk, rfl⟩ := List.getElem_of_mem hr
    simp only [pairUp, List.getElem_zipWith, List.length_zip]
    rw [hf.2 _ (List.getElem_mem _), ho.2 _ (List.getElem_mem _), min_self]
  · simp only [cell?, Option.bind_eq_some_iff] at h1 h2
    obtain ⟨a, a1, a2⟩ := h1
    obtain ⟨b, b1, b2⟩ := h2
    have : (pairUp fcst obs)[y]? = some (a.zip b) := by rw [pairUp, List.getElem?_zipWith, a1, b1]
    simp only [cell?, this, Option.bind_some]
    rw [List.getElem?_zip_eq_some]
    exact ⟨a2, b2⟩

/-- The fraction of cells in the square, for one of the four fields. -/
theorem hood_mean [FloorRing K] [HasSqrt K] (rnd : Rnd K) {Y X : Nat} {fcst obs : List (List (Fl K))} (hf : Rect Y X fcst)
    (ho : Rect Y X obs) (hY : 0 < Y) (hX : 0 < X) (threshold : Fl K) (hw : Nat) (o : Outcome) :
    ∃ out, neighbourhood rnd ((pairUp fcst obs).map (List.map (indicator threshold o))) (hw : Int) .mean = ok out ∧
      ∀ y < Y, ∀ x < X, vget2 out (y : Int) (x : Int) =
        ok (fin ((hoodCount fcst obs threshold hw y x o : K) / ((square (pairUp fcst obs) hw y x).length : K))) ∧
        0 < (square (pairUp fcst obs) hw y x).length := by
  obtain ⟨hr, -⟩ := cell?_pairUp hf ho
  have hr' : Rect Y X ((pairUp fcst obs).map (List.map (indicator threshold o))) := by
    refine ⟨by simp [hr.1], fun r h => ?_⟩
    obtain ⟨r', h1, rfl⟩ := List.mem_map.mp h
    rw [List.length_map, hr.2 _ h1]
  obtain ⟨out, h1, ⟨h2, h3⟩, -⟩ := neighbourhood_total rnd hr' hY hX hw (s := .mean) (by simp [Deterministic])
  refine ⟨out, h1, fun y hy x hx => ?_⟩
  obtain ⟨v, v1, v2⟩ := h3 y hy x hx
  obtain ⟨p, hp⟩ := hr.cell?_some hy hx
  have hpos : 0 < (square (pairUp fcst obs) hw y x).length :=
    List.length_pos_of_mem (mem_square.mpr ⟨y, x, by omega, by omega, by omega, by omega, hp⟩)
  refine ⟨?_, hpos⟩
  rw [vget2_of_cell? v1]
  have e := vals_zero_one (K := K) (fun p : Fl K × Fl K => p.1.isValid && p.2.isValid && decide (outcome threshold threshold p = some o))
    (square (pairUp fcst obs) hw y x)
  have e' : (vals ((square (pairUp fcst obs) hw y x).map (indicator threshold o))).length = _ ∧
    (vals ((square (pairUp fcst obs) hw y x).map (indicator threshold o))).sum = _ := e
  rw [square_map] at v2
  simp only [calcStatistic, sumCount_eq] at v2
  rw [e'.1, e'.2, if_pos hpos, ofNat_def, fin_div_of_ne _ (by exact_mod_cast hpos.ne')] at v2
  rw [← v2]
  rfl

end

section
variable {K : Type} [Field K] [LinearOrder K] [IsStrictOrderedRing K]

theorem first_row' {Y X : Nat} {fcst : List (List (Fl K))} (hf : Rect Y X fcst) (hY : 0 < Y) : ∃ r, vget fcst 0 = ok r ∧ r.length = X :=
  ⟨fcst[0]'(by rw [hf.1]; exact hY), vget_eq_ok_of_lt (by rw [hf.1]; exact hY), hf.2 _ (List.getElem_mem _)⟩

theorem compatible_of_rect [HasGeo K] {g : Grid K} {Y X : Nat} {glats glons : List (List (Fl K))} {gtype : CoordType}
    (hg : BuiltGrid g Y X glats glons gtype) {fcst : List (List (Fl K))} (hf : Rect Y X fcst) : compatibleSizeG2 g fcst = ok true := by
  unfold compatibleSizeG2
  match fcst, hf with
  | [], hf => rfl
  | r :: t, hf =>
    simp only [hg.wf.1.size, ok_bind, hf.1, hf.2 r (by simp)]
    simp

/-- The tables of all cells, and the four smoothed fields. -/
theorem neighbourhood_fields [FloorRing K] [HasSqrt K] (rnd : Rnd K) {Y X : Nat} {fcst obs : List (List (Fl K))} (hf : Rect Y X fcst)
    (o2 : Rect Y X obs) (hY : 0 < Y) (hX : 0 < X) (hw : Nat) (threshold : Fl K) :
    ∃ t, grid2 Y X (fun y x => do
      let r ← vget2 obs y x
      let f ← vget2 fcst y x
      ok (cellTable threshold f r)) = ok t ∧ ∃ a b c d, neighbourhood rnd (t.map (List.map Counts.a)) (hw : Int) .mean = ok a ∧
      neighbourhood rnd (t.map (List.map Counts.b)) (hw : Int) .mean = ok b ∧
      neighbourhood rnd (t.map (List.map Counts.c)) (hw : Int) .mean = ok c ∧
      neighbourhood rnd (t.map (List.map Counts.d)) (hw : Int) .mean = ok d ∧
      ∀ y < Y, ∀ x < X, ∃ n : K, 0 < n ∧ vget2 a (y : Int) (x : Int) = ok (fin ((hoodCount fcst obs threshold hw y x .hit : K) / n)) ∧
        vget2 b (y : Int) (x : Int) = ok (fin ((hoodCount fcst obs threshold hw y x .falseAlarm : K) / n)) ∧
        vget2 c (y : Int) (x : Int) = ok (fin ((hoodCount fcst obs threshold hw y x .miss : K) / n)) ∧
        vget2 d (y : Int) (x : Int) = ok (fin ((hoodCount fcst obs threshold hw y x .correctNegative : K) / n)) := by
  obtain ⟨hpr, hpc⟩ := cell?_pairUp hf o2
  have ht : grid2 Y X (fun y x => do
      let r ← vget2 obs y x
      let f ← vget2 fcst y x
      ok (cellTable threshold f r)) = ok ((pairUp fcst obs).map (List.map fun p => cellTable threshold p.1 p.2)) := by
    obtain ⟨t, t1, t2, t3⟩ := grid2_exists (Y := Y) (X := X) (f := fun y x => do
      let r ← vget2 obs y x
      let f ← vget2 fcst y x
      ok (cellTable threshold f r)) (P := fun y x v => ∃ f r, cell? fcst y x = some f ∧ cell? obs y x = some r ∧ v = cellTable threshold f r)
      (fun y hy x hx => by
        obtain ⟨r, a1, a2⟩ := vget2_of_rect o2 hy hx
        obtain ⟨f, b1, b2⟩ := vget2_of_rect hf hy hx
        exact ⟨_, by simp only [a2, b2, ok_bind], f, r, b1, a1, rfl⟩)
    rw [t1]
    congr 1
    refine Rect.ext t2 ⟨by simp [hpr.1], fun r h => ?_⟩ fun y hy x hx => ?_
    · obtain ⟨r', h1, rfl⟩ := List.mem_map.mp h
      rw [List.length_map, hpr.2 _ h1]
    · obtain ⟨v, v1, -, f, r, b1, b2, rfl⟩ := t3 y hy x hx
      rw [v1, cell?_map, hpc y x f r b1 b2]
      rfl
  have fields : ∀ (sel : Counts K → Fl K) (o : Outcome), (∀ f r, sel (cellTable threshold f r) = indicator threshold o (f, r)) →
      ((pairUp fcst obs).map (List.map fun p => cellTable threshold p.1 p.2)).map (List.map sel) =
        (pairUp fcst obs).map (List.map (indicator threshold o)) := by
    intro sel o h
    rw [List.map_map]
    refine List.map_congr_left fun r _ => ?_
    rw [Function.comp, List.map_map]
    exact List.map_congr_left fun p _ => h p.1 p.2
  obtain ⟨a, a1, a2⟩ := hood_mean rnd hf o2 hY hX threshold hw .hit
  obtain ⟨b, b1, b2⟩ := hood_mean rnd hf o2 hY hX threshold hw .falseAlarm
  obtain ⟨c, c1, c2⟩ := hood_mean rnd hf o2 hY hX threshold hw .miss
  obtain ⟨d, d1, d2⟩ := hood_mean rnd hf o2 hY hX threshold hw .correctNegative
  refine ⟨_, ht, a, b, c, d, ?_, ?_, ?_, ?_, fun y hy x hx => ?_⟩
  · rw [fields Counts.a .hit (fun f r => by rw [cellTable_eq]), a1]
  · rw [fields Counts.b .falseAlarm (fun f r => by rw [cellTable_eq]), b1]
  · rw [fields Counts.c .miss (fun f r => by rw [cellTable_eq]), c1]
  · rw [fields Counts.d .correctNegative (fun f r => by rw [cellTable_eq]), d1]
  · obtain ⟨a3, hlen⟩ := a2 y hy x hx
    exact ⟨_, by exact_mod_cast hlen, a3, (b2 y hy x hx).1, (c2 y hy x hx).1, (d2 y hy x hx).1⟩

end

section
variable {K : Type} [Field K] [LinearOrder K] [IsStrictOrderedRing K] [FloorRing K] [LawfulSqrt K] [HasGeo K]
variable {T : RTree K} (hT : RTree.Lawful T)
include hT

/-- **C75**. For a forecast of the size of the grid and a positive half width, the output has the size of the grid and is, at each
cell, the textbook score of the contingency table of all cells in the (clipped) square around it that have a valid forecast and
a valid observation; the observation of a cell is the mean of the observations whose nearest cell it is. -/
theorem c75_neighbourhood_score {g : Grid K} {Y X : Nat} {glats glons : List (List (Fl K))} {gtype : CoordType}
    (hg : BuiltGrid g Y X glats glons gtype) {P : Points K} {lats lons : List (Fl K)} {type : CoordType}
    (hP : BuiltPoints P lats lons type) (hv : PointsValidIn gtype lats lons) (ref : List (Fl K)) (hl : ref.length = lats.length) :
    ∃ near : Nat → Nat × Nat,
      (∀ i la lo, lats[i]? = some la → lons[i]? = some lo → (near i).1 < Y ∧ (near i).2 < X ∧ NearestCellTo glats glons gtype la lo (near i)) ∧
      ∀ rnd : Rnd K, ∃ obs, Rect Y X obs ∧
        (∀ y < Y, ∀ x < X, ∃ v, cell? obs y x = some v ∧ GroupStat rnd near ref 1 .mean (y, x) v) ∧
        ∀ fcst, Rect Y X fcst → ∀ hw : Nat, 0 < hw → ∀ metric ≠ Metric.other, ∀ threshold,
          ∃ out, neighbourhoodScore T rnd g P fcst ref (hw : Int) metric threshold = ok out ∧ Rect Y X out ∧
            ∀ y < Y, ∀ x < X, cell? out y x = some (textbookScore (hoodCount fcst obs threshold hw y x .hit : K)
              (hoodCount fcst obs threshold hw y x .falseAlarm) (hoodCount fcst obs threshold hw y x .miss)
              (hoodCount fcst obs threshold hw y x .correctNegative) metric) := by
  obtain ⟨near, n1, n2⟩ := c41_grid hT hg hP hv ref hl
  refine ⟨near, n1, fun rnd => ?_⟩
  obtain ⟨obs, o1, o2, o3⟩ := n2 rnd 1 (by omega) .mean (by simp [Deterministic])
  refine ⟨obs, o2, o3, fun fcst hf hw hpos metric hm threshold => ?_⟩
  have hY : 0 < Y := hg.1
  have hX : 0 < X := hg.2.1
  obtain ⟨row0, hr0, hrl⟩ := first_row' hf hY
  obtain ⟨t, ht, a, b, c, d, ha, hb, hc, hd, h00⟩ := neighbourhood_fields rnd hf o2 hY hX hw threshold
  have hout : grid2 Y X (fun y x => do
      let a ← vget2 a y x
      let b ← vget2 b y x
      let c ← vget2 c y x
      let d ← vget2 d y x
      calcScore a b c d metric) = ok (tabulate Y X fun y x => textbookScore (hoodCount fcst obs threshold hw y x .hit : K)
              (hoodCount fcst obs threshold hw y x .falseAlarm) (hoodCount fcst obs threshold hw y x .miss)
              (hoodCount fcst obs threshold hw y x .correctNegative) metric) := by
    refine grid2_ok fun y hy x hx => ?_
    obtain ⟨n, hn, h1, h2, h3, h4⟩ := h00 y hy x hx
    simp only [h1, h2, h3, h4, ok_bind]
    rw [calcScore_textbook _ _ _ _ hm, textbookScore_div _ _ _ _ hn]
    all_goals exact div_nonneg (Nat.cast_nonneg _) hn.le
  refine ⟨_, ?_, rect_tabulate _ _ _, fun y hy x hx => cell?_tabulate _ hy hx⟩
  unfold neighbourhoodScore
  simp only [compatible_of_rect hg hf, ok_bind, if_neg (show ¬((hw : Int) ≤ 0) by omega), hr0, o1, hf.1, hrl, ht, omp_ok, ha, hb, hc, hd,
    hout]
  simp

/-- **C75**, unknown metric: the exception is raised inside the parallel loop, which ends the process. -/
theorem c75_unknown_metric {g : Grid K} {Y X : Nat} {glats glons : List (List (Fl K))} {gtype : CoordType}
    (hg : BuiltGrid g Y X glats glons gtype) {P : Points K} {lats lons : List (Fl K)} {type : CoordType}
    (hP : BuiltPoints P lats lons type) (hv : PointsValidIn gtype lats lons) (ref : List (Fl K)) (hl : ref.length = lats.length)
    (rnd : Rnd K) (fcst : List (List (Fl K))) (hf : Rect Y X fcst) (hw : Nat) (hpos : 0 < hw) (threshold : Fl K) :
    neighbourhoodScore T rnd g P fcst ref (hw : Int) .other threshold = abort := by
  have hY : 0 < Y := hg.1
  have hX : 0 < X := hg.2.1
  obtain ⟨near, -, n2⟩ := c41_grid hT hg hP hv ref hl
  obtain ⟨obs, o1, o2, -⟩ := n2 rnd 1 (by omega) .mean (by simp [Deterministic])
  obtain ⟨t, ht, a, b, c, d, ha, hb, hc, hd, h00⟩ := neighbourhood_fields rnd hf o2 hY hX hw threshold
  obtain ⟨row0, hr0, hrl⟩ := first_row' hf hY
  unfold neighbourhoodScore
  simp only [compatible_of_rect hg hf, ok_bind, if_neg (show ¬((hw : Int) ≤ 0) by omega), hr0, o1, hf.1, hrl, ht, omp_ok, ha, hb, hc, hd]
  obtain ⟨n, -, h1, h2, h3, h4⟩ := h00 0 hY 0 hX
  rw [grid2_first_throw hY hX (e := .invalidArgument) (by
    simp only [Nat.cast_zero] at h1 h2 h3 h4
    simp only [h1, h2, h3, h4, ok_bind]
    rfl)]
  rfl

omit hT in
/-- **C75**, refused arguments: a forecast of another size, a half width that is not positive, a wrong number of observations.
Missing: an empty forecast is not refused (`c75_empty_forecast`). -/
theorem c75_throws_partial {g : Grid K} {Y X : Nat} {glats glons : List (List (Fl K))} {gtype : CoordType}
    (hg : BuiltGrid g Y X glats glons gtype) {P : Points K} {lats lons : List (Fl K)} {type : CoordType}
    (hP : BuiltPoints P lats lons type) (ref : List (Fl K)) (rnd : Rnd K) (r0 : List (Fl K)) (rest : List (List (Fl K))) (hw : Int)
    (metric : Metric) (threshold : Fl K)
    (h : (r0 :: rest).length ≠ Y ∨ r0.length ≠ X ∨ hw ≤ 0 ∨ ref.length ≠ lats.length) :
    neighbourhoodScore T rnd g P (r0 :: rest) ref hw metric threshold = .throw .invalidArgument := by
  unfold neighbourhoodScore compatibleSizeG2
  simp only [hg.wf.1.size, ok_bind]
  by_cases h1 : Y = (r0 :: rest).length ∧ X = r0.length
  · rw [if_neg (by simp [h1.1, h1.2])]
    by_cases h2 : hw ≤ 0
    · rw [if_pos h2]
    · rw [if_neg h2]
      have h3 : ref.length ≠ lats.length := by
        rcases h with h | h | h | h
        · exact absurd h1.1.symm h
        · exact absurd h1.2.symm h
        · exact absurd h h2
        · exact h
      rw [(c41_throws g P hP rnd ref 1 .mean (Or.inl h3)).1]
      rfl
  · rw [if_pos]
    by_contra hc
    simp only [Bool.not_eq_false, Bool.and_eq_true, decide_eq_true_eq] at hc
    exact h1 hc

omit hT in
/-- **C75** fails for an empty forecast: it passes the size check for every grid and its first row is then read. -/
theorem c75_empty_forecast (g : Grid K) (P : Points K) (ref : List (Fl K)) (rnd : Rnd K) (hw : Nat) (hpos : 0 < hw)
    (metric : Metric) (threshold : Fl K) : neighbourhoodScore T rnd g P [] ref (hw : Int) metric threshold = ub := by
  unfold neighbourhoodScore compatibleSizeG2
  simp only [ok_bind, if_neg (show ¬((hw : Int) ≤ 0) by omega)]
  rfl

end

/-- A 1 x 3 grid with three observations, two of them in the first cell and none in the last one; the forecast is 4 0 9, the
threshold 2. The first and second cell see one hit and one miss, the last one only the miss. -/
def c75Example (m : Metric) (f : List (List (Fl ℚ))) : Res (List (List (Fl ℚ))) := do
  let g ← Grid.new [[fin (0 : ℚ), fin 0, fin 0]] [[fin 0, fin 10, fin 20]] [] [] .cartesian
  let p ← Points.new [fin 0, fin 0, fin 0] [fin 1, fin (-1), fin 12] [] [] .cartesian
  neighbourhoodScore RTree.scan (fun _ => 0) g p f [fin 3, fin 5, fin 7] 1 m (fin 2)

example : c75Example .ts [[fin 4, fin 0, fin 9]] = ok [[fin (1 / 2), fin (1 / 2), fin 0]] ∧
    c75Example .ets [[fin 4, nan, fin 9]] = ok [[nan, nan, nan]] ∧
    c75Example .other [[fin 4, fin 0, fin 9]] = abort ∧ c75Example .ts [[fin 4, fin 0]] = .throw .invalidArgument ∧
    c75Example .ts [] = ub := by decide +kernel

end Gridpp.Props
