import Verif.Lemmas.QuantileFast
import Verif.Lemmas.Omp
import Verif.Props.Interp
import Verif.Props.EvenQuantiles

/-! # C26, C27: neighbourhood_quantile_fast -/

set_option linter.unusedSectionVars false

namespace Gridpp.Props
open Fl Res Spec Omp

variable {K : Type} [Field K] [LinearOrder K] [IsStrictOrderedRing K] [FloorRing K] [HasSqrt K]

theorem vget_last_map (l : List K) (g : K → Fl K) (h : 0 < l.length) :
    vget (l.map g) (((l.map g).length : Int) - 1) = ok (g (l[l.length - 1]'(by omega))) := by
  have := vget_eq_ok_of_lt (v := l.map g) (n := l.length - 1) (by simp; omega)
  have hc : ((l.length - 1 : Nat) : Int) = ((l.map g).length : Int) - 1 := by simp; omega
  rw [hc] at this
  simpa using this

theorem vget_first_map (l : List K) (g : K → Fl K) (h : 0 < l.length) : vget (l.map g) 0 = ok (g l[0]) := by
  have := vget_eq_ok_of_lt (v := l.map g) (n := 0) (by simpa using h)
  simpa using this

/-- What the fast quantile must be for a window whose cumulative fractions at the thresholds are `P`: the thresholds
interpolated at the level as a function of `P`, with the two documented special cases. -/
def FastQuantile (ts : List K) (hne : 0 < ts.length) (P : K → K) (q v : Fl K) : Prop :=
  (q.isValid = false → v = nan) ∧
  ∀ p, q = fin p → ∃ r, v = fin r ∧ ts[0] ≤ r ∧ r ≤ ts[ts.length - 1] ∧
    (p = 1 ∧ P ts[0] = 1 → r = ts[0]) ∧
    (p = 0 ∧ P ts[ts.length - 1] = 0 → r = ts[ts.length - 1]) ∧
    (¬ (p = 1 ∧ P ts[0] = 1) → ¬ (p = 0 ∧ P ts[ts.length - 1] = 0) →
      interpolate (fin p) ((ts.map P).map fin) (ts.map fin) = ok (fin r))

theorem fastValue_spec {ts : List K} (hs : ts.Pairwise (· ≤ ·)) (hne : 0 < ts.length) (c : List (List K)) (q1 q2 q3 : Fl K) :
    ∃ v, fastValue ts c q1 q2 q3 = ok v ∧ (c.flatten = [] → v = nan) ∧
      (v = nan ∨ ∃ r, v = fin r ∧ ts[0] ≤ r ∧ r ≤ ts[ts.length - 1]) ∧
      (c.flatten ≠ [] → q1 = q2 → q2 = q3 → FastQuantile ts hne (meanFraction c) q3 v) := by
  unfold fastValue
  by_cases hc : c.flatten = []
  · exact ⟨nan, by rw [if_pos hc], fun _ => rfl, .inl rfl, fun h => absurd hc h⟩
  rw [if_neg hc]
  have hmono := fun {i j : Nat} (hij : i ≤ j) (hj : j < ts.length) => sorted_le hs hij hj
  have hfl := hmono (Nat.zero_le (ts.length - 1)) (by omega)
  have hb : ∀ t ∈ ts, ts[0] ≤ t ∧ t ≤ ts[ts.length - 1] := by
    intro t ht
    obtain ⟨i, hi, rfl⟩ := List.mem_iff_getElem.mp ht
    exact ⟨hmono (Nat.zero_le i) hi, hmono (show i ≤ ts.length - 1 by omega) (by omega)⟩
  have hsp : (ts.map (meanFraction c)).Pairwise (· ≤ ·) := by
    rw [List.pairwise_map]
    exact hs.imp fun h => meanFraction_mono c h
  have hmm : (ts.map fun t => fin (meanFraction c t)) = (ts.map (meanFraction c)).map fin := by simp
  have hint : ∀ q3 : Fl K, ∃ v, interpolate q3 ((ts.map (meanFraction c)).map fin) (ts.map fin) = ok v ∧
      (q3.isValid = false → v = nan) ∧ ∀ p, q3 = fin p → ∃ r, v = fin r ∧ ts[0] ≤ r ∧ r ≤ ts[ts.length - 1] := by
    intro q3
    cases q3 with
    | fin p =>
      obtain ⟨r, h1, -, -, -, -, h2⟩ := c07_interpolate (ts.map (meanFraction c)) ts (by simp) hsp (by simpa using hne) p
      exact ⟨fin r, h1, by simp, fun p hp => ⟨r, rfl, h2 _ _ hb⟩⟩
    | _ => exact ⟨nan, by simp [interpolate], fun _ => rfl, fun p hp => by cases hp⟩
  unfold fastCell
  simp only [vget_last_map ts _ hne, vget_first_map ts _ hne, ok_bind]
  by_cases h1 : (q1.feq 1 && (fin (meanFraction c ts[0])).feq 1) = true
  · refine ⟨fin ts[0], by rw [if_pos h1], fun h => absurd h hc, .inr ⟨_, rfl, le_refl _, hfl⟩, fun _ h12 h23 => ?_⟩
    subst h12; subst h23
    rw [Bool.and_eq_true] at h1
    obtain ⟨ha, hb'⟩ := h1
    rw [Fl.one_def] at ha hb'
    have hP : meanFraction c ts[0] = 1 := by simpa using hb'
    refine ⟨fun h => ?_, fun p hp => ⟨_, rfl, le_refl _, hfl, fun _ => rfl, fun h => ?_, fun h => ?_⟩⟩
    · cases q1 <;> simp [Fl.feq] at h ha
    · have : p = 1 := by subst hp; simpa using ha
      exact absurd (h.1.symm.trans this) (by norm_num)
    · have : p = 1 := by subst hp; simpa using ha
      exact absurd ⟨this, hP⟩ h
  rw [if_neg h1]
  by_cases h2 : (q2.feq 0 && (fin (meanFraction c ts[ts.length - 1])).feq 0) = true
  · refine ⟨fin ts[ts.length - 1], by rw [if_pos h2], fun h => absurd h hc, .inr ⟨_, rfl, hfl, le_refl _⟩, fun _ h12 h23 => ?_⟩
    subst h12; subst h23
    rw [Bool.and_eq_true] at h2
    obtain ⟨ha, hb'⟩ := h2
    rw [Fl.zero_def] at ha hb'
    have hP : meanFraction c ts[ts.length - 1] = 0 := by simpa using hb'
    refine ⟨fun h => ?_, fun p hp => ⟨_, rfl, hfl, le_refl _, fun h => ?_, fun _ => rfl, fun _ h => ?_⟩⟩
    · cases q1 <;> simp [Fl.feq] at h ha
    · have : p = 0 := by subst hp; simpa using ha
      exact absurd (h.1.symm.trans this) (by norm_num)
    · have : p = 0 := by subst hp; simpa using ha
      exact absurd ⟨this, hP⟩ h
  rw [if_neg h2]
  obtain ⟨v, hv, hv1, hv2⟩ := hint q3
  rw [hmm]
  refine ⟨v, hv, fun h => absurd h hc, ?_, fun _ h12 h23 => ?_⟩
  · cases q3 with
    | fin p => exact .inr (hv2 p rfl)
    | _ => exact .inl (hv1 rfl)
  · subst h12; subst h23
    refine ⟨hv1, fun p hp => ?_⟩
    obtain ⟨r, hr, hr1, hr2⟩ := hv2 p hp
    subst hp
    refine ⟨r, hr, hr1, hr2, fun h => ?_, fun h => ?_, fun _ _ => by rw [hv, hr]⟩
    · exact absurd (by simp [Fl.one_def, h.1, h.2]) h1
    · exact absurd (by simp [Fl.zero_def, h.1, h.2]) h2

/-- A field of levels that the function accepts: one level, or one level per cell. -/
def LevelField (Y X : Nat) (quantile : List (List (Fl K))) : Prop :=
  ((∃ q, quantile = [[q]]) ∨ Rect Y X quantile) ∧ ∀ row ∈ quantile, ∀ q ∈ row, ∀ p, q = fin p → 0 ≤ p ∧ p ≤ 1

/-- The level that applies at a cell. -/
def levelAt (quantile : List (List (Fl K))) (y x : Nat) : Fl K :=
  match quantile with
  | [[q]] => q
  | _ => (cell? quantile y x).getD nan

theorem levelField_ok {Y X : Nat} {quantile : List (List (Fl K))} (h : LevelField Y X quantile) (hY : 0 < Y) :
    (!levelFixed quantile && !levelSameSize Y X quantile) = false ∧ (quantile.any fun r => r.any fun q => q.isValid && (q.lt 0 || q.gt 1)) = false ∧
    ∀ y < Y, ∀ x < X, (if levelFixed quantile then vget2 quantile 0 0 else vget2 quantile (y : Int) (x : Int) : Res (Fl K)) = ok (levelAt quantile y x) := by
  have hb : (quantile.any fun r => r.any fun q => q.isValid && (q.lt 0 || q.gt 1)) = false := by
    rw [List.any_eq_false]
    intro row hrow
    rw [Bool.not_eq_true, List.any_eq_false]
    intro q hq
    cases q with
    | fin p =>
      have := h.2 row hrow _ hq p rfl
      simp [Fl.zero_def, Fl.one_def, this.1, this.2]
    | _ => simp
  obtain ⟨h1, h2⟩ := h
  refine ⟨?_, hb, ?_⟩
  · rcases h1 with ⟨q, rfl⟩ | h1
    · rfl
    · have : levelSameSize Y X quantile = true := by
        cases quantile with
        | nil => exact absurd h1.1 (by simp; omega)
        | cons r l =>
          have h3 := h1.2 r (by simp)
          have h4 := h1.1
          simp only [levelSameSize, h3, h4, decide_true, Bool.and_self]
      rw [this]; simp
  · intro y hy x hx
    rcases h1 with ⟨q, rfl⟩ | h1
    · rfl
    · by_cases hq : ∃ q, quantile = [[q]]
      · obtain ⟨q, rfl⟩ := hq; rfl
      · have hf : levelFixed quantile = false := by
          unfold levelFixed
          split
          · next q => exact absurd ⟨q, rfl⟩ hq
          · rfl
        have hl : levelAt quantile y x = (cell? quantile y x).getD nan := by
          unfold levelAt
          split
          · next q => exact absurd ⟨q, rfl⟩ hq
          · rfl
        rw [hf, hl]
        obtain ⟨v, hv⟩ := h1.cell?_some hy hx
        simp [vget2_of_cell? hv, hv]

theorem quantileFastCore_ok (rnd : Rnd K) {Y X : Nat} {b : List (List (List (Fl K)))} (h : Rect Y X b) (hY : 0 < Y) (hX : 0 < X) (hw : Nat)
    {members : Int → Int → Res (List (Fl K))} (hm : ∀ (y x : Nat) v, cell? b y x = some v → members (y : Int) (x : Int) = ok v)
    {copies : Nat} (hc : 0 < copies) {ts : List K} (hs : ts.Pairwise (· ≤ ·)) (hne : 0 < ts.length)
    {quantile : List (List (Fl K))} (hq : LevelField Y X quantile) :
    ∃ out, quantileFastCore rnd members Y X copies quantile hw (ts.map fin) = ok out ∧ Rect Y X out ∧
      ∀ y < Y, ∀ x < X, ∃ v, cell? out y x = some v ∧
        fastValue ts (cells b hw y x) (levelAt quantile y x) (levelAt quantile y x) (levelAt quantile y x) = ok v := by
  obtain ⟨h1, h2, h3⟩ := levelField_ok hq hY
  choose g hg using fun (p : Nat × Nat) => fastValue_spec hs hne (cells b hw p.1 p.2) (levelAt quantile p.1 p.2) (levelAt quantile p.1 p.2) (levelAt quantile p.1 p.2)
  refine ⟨tabulate Y X fun y x => g (y, x), ?_, rect_tabulate _ _ _, fun y hy x hx => ⟨_, cell?_tabulate _ hy hx, (hg (y, x)).1⟩⟩
  unfold quantileFastCore
  have hts : ts ≠ [] := List.length_pos_iff.mp hne
  rw [if_neg (by rw [h1]; simp), if_neg (by rw [h2]; simp), if_neg (by simpa using hts), fastStats_ok rnd h hY hX hw hm ts, ok_bind]
  rw [grid2_ok (g := fun y x => g (y, x))]
  · rfl
  · intro y hy x hx
    simp only [h3 y hy x hx, ok_bind]
    rw [fastIter_ok ts (fun y x => cells b hw y x) hc hts hy hx, (hg (y, x)).1]

theorem cells_singleton {a : List (List (Fl K))} (hw y x : Nat) :
    (cells (a.map (List.map fun v => [v])) hw y x).flatten = vals (square a hw y x) ∧
    ∀ d ∈ cells (a.map (List.map fun v => [v])) hw y x, d = [] ∨ d.length = 1 := by
  unfold cells
  rw [square_map, List.map_map]
  generalize square a hw y x = w
  constructor
  · induction w with
    | nil => rfl
    | cons v l ih => cases v <;> simp_all
  · intro d hd
    obtain ⟨v, _, rfl⟩ := List.mem_map.mp hd
    cases v <;> simp

/-- **C27**. For sorted thresholds and an accepted level field, `neighbourhood_quantile_fast` has no invalid read and
its value at each cell is determined by the level and the clipped window `square a hw y x`: missing if the window has
no valid value, otherwise the thresholds interpolated at the level with respect to the fractions of the window's
valid values that are at most each threshold. These fractions are in `[0, 1]` and non-decreasing. -/
theorem c27_fast_quantile (rnd : Rnd K) (Y X : Nat) (a : List (List (Fl K))) (h : Rect Y X a) (hY : 0 < Y) (hX : 0 < X) (hw : Nat)
    (ts : List K) (hs : ts.Pairwise (· ≤ ·)) (hne : 0 < ts.length) (quantile : List (List (Fl K))) (hq : LevelField Y X quantile) :
    (∃ out, neighbourhoodQuantileFast rnd a quantile hw (ts.map fin) = ok out ∧ Rect Y X out ∧
      ∀ y < Y, ∀ x < X, ∃ v, cell? out y x = some v ∧
        (vals (square a hw y x) = [] → v = nan) ∧
        (vals (square a hw y x) ≠ [] → FastQuantile ts hne (fractionBelow (vals (square a hw y x))) (levelAt quantile y x) v)) ∧
    ∀ w : List K, (ts.map (fractionBelow w)).Pairwise (· ≤ ·) ∧ ∀ p ∈ ts.map (fractionBelow w), 0 ≤ p ∧ p ≤ 1 := by
  refine ⟨?_, fun w => ⟨?_, ?_⟩⟩
  · have hne' : a ≠ [] := by rintro rfl; exact absurd h.1 (by simp; omega)
    obtain ⟨r, l, rfl⟩ := List.exists_cons_of_ne_nil hne'
    have hr : r.length = X := h.2 r (by simp)
    have hl : (r :: l).length = Y := h.1
    obtain ⟨out, ho, hrect, hcell⟩ := quantileFastCore_ok rnd (rect_map (fun v => [v]) h) hY hX hw
      (members := fun y x => do let v ← vget2 (r :: l) y x; ok [v]) (by
        intro y x v hv
        rw [cell?_map] at hv
        obtain ⟨u, hu, rfl⟩ := Option.map_eq_some_iff.mp hv
        simp only [vget2_of_cell? hu, ok_bind]) (Nat.one_pos) hs hne hq
    refine ⟨out, ?_, hrect, fun y hy x hx => ?_⟩
    · unfold neighbourhoodQuantileFast
      simp only [hr, hl]
      rw [if_neg (by omega), if_neg (by omega)]
      exact ho
    · obtain ⟨v, hv, hf⟩ := hcell y hy x hx
      obtain ⟨v', h1, h2, h3, h4⟩ := fastValue_spec hs hne (cells ((r :: l).map (List.map fun v => [v])) hw y x) (levelAt quantile y x)
        (levelAt quantile y x) (levelAt quantile y x)
      rw [hf] at h1
      obtain rfl : v = v' := by simpa using h1
      obtain ⟨hc1, hc2⟩ := cells_singleton (a := r :: l) hw y x
      rw [hc1] at h2 h4
      have hP : meanFraction (cells ((r :: l).map (List.map fun v => [v])) hw y x) = fractionBelow (vals (square (r :: l) hw y x)) := by
        funext t
        rw [meanFraction_pooled Nat.one_pos hc2, hc1]
      rw [hP] at h4
      exact ⟨v, hv, h2, fun hn => h4 hn rfl rfl⟩
  · rw [List.pairwise_map]; exact hs.imp fun h => fractionBelow_mono w h
  · intro p hp
    obtain ⟨t, _, rfl⟩ := List.mem_map.mp hp
    exact ⟨fractionBelow_nonneg _ _, fractionBelow_le_one _ _⟩

/-- The hypotheses are met by a 2 x 2 field with a missing value and one level per cell. -/
example : Rect 2 2 ([[fin 1, nan], [fin 3, fin 5]] : List (List (Fl ℚ))) ∧ ([1, 2, 5] : List ℚ).Pairwise (· ≤ ·) ∧
    LevelField 2 2 ([[fin 0, fin (1/2)], [nan, fin 1]] : List (List (Fl ℚ))) := by
  refine ⟨by simp [Rect], by decide, Or.inr (by simp [Rect]), ?_⟩
  intro row hrow q hq p hp
  subst hp
  simp at hrow
  rcases hrow with rfl | rfl <;> simp at hq <;> rcases hq with rfl | rfl <;> norm_num

/-- **C27** (ensemble version). The fraction used is the average over the cells of the window (those with a valid
member) of the fraction of the cell's valid members; it is the fraction of the pooled valid values when the cells have
the same number of valid members. -/
theorem c27_fast_quantile_ensemble (rnd : Rnd K) (Y X E : Nat) (b : List (List (List (Fl K)))) (h : Rect Y X b)
    (hE : ∀ row ∈ b, ∀ c ∈ row, c.length = E) (hY : 0 < Y) (hX : 0 < X) (hE0 : 0 < E) (hw : Nat)
    (ts : List K) (hs : ts.Pairwise (· ≤ ·)) (hne : 0 < ts.length) (quantile : List (List (Fl K))) (hq : LevelField Y X quantile) :
    ∃ out, neighbourhoodQuantileFast3 rnd b quantile hw (ts.map fin) = ok out ∧ Rect Y X out ∧
      ∀ y < Y, ∀ x < X, ∃ v, cell? out y x = some v ∧
        (vals (square b hw y x).flatten = [] → v = nan) ∧
        (vals (square b hw y x).flatten ≠ [] →
          FastQuantile ts hne (meanFraction ((square b hw y x).map vals)) (levelAt quantile y x) v ∧
          ∀ n, 0 < n → (∀ c ∈ square b hw y x, vals c = [] ∨ (vals c).length = n) →
            FastQuantile ts hne (fractionBelow (vals (square b hw y x).flatten)) (levelAt quantile y x) v) := by
  have hfl : ∀ w : List (List (Fl K)), vals w.flatten = (w.map vals).flatten := by
    intro w
    induction w with
    | nil => rfl
    | cons c l ih => rw [List.flatten_cons, List.map_cons, List.flatten_cons, ← ih]; exact vals_append _ _
  have hne' : b ≠ [] := by rintro rfl; exact absurd h.1 (by simp; omega)
  obtain ⟨r, l, rfl⟩ := List.exists_cons_of_ne_nil hne'
  have hr : r.length = X := h.2 r (by simp)
  have hl : (r :: l).length = Y := h.1
  have hr' : r ≠ [] := by rintro rfl; simp at hr; omega
  obtain ⟨c, r', rfl⟩ := List.exists_cons_of_ne_nil hr'
  have hc : c.length = E := hE _ List.mem_cons_self _ List.mem_cons_self
  obtain ⟨out, ho, hrect, hcell⟩ := quantileFastCore_ok rnd h hY hX hw
    (members := fun y x => do
        let c ← vget2 ((c :: r') :: l) y x
        mapM (fun e => vget c e) (upto E)) (by
      intro y x v hv
      have hv' : v.length = E := by
        unfold cell? at hv
        cases hrow : ((c :: r') :: l)[y]? with
        | none => simp [hrow] at hv
        | some row =>
          simp only [hrow, Option.bind_some] at hv
          exact hE row (List.mem_of_getElem? hrow) v (List.mem_of_getElem? hv)
      simp only [vget2_of_cell? hv, ok_bind]
      rw [mapM_upto_list (f := id) hv', List.map_id]
      intro i hi
      exact vget_eq_ok_of_lt hi) hE0 hs hne hq
  refine ⟨out, ?_, hrect, fun y hy x hx => ?_⟩
  · unfold neighbourhoodQuantileFast3
    simp only [hr, hl, hc]
    rw [if_neg (by omega), if_neg (by omega)]
    exact ho
  · obtain ⟨v, hv, hf⟩ := hcell y hy x hx
    obtain ⟨v', h1, h2, h3, h4⟩ := fastValue_spec hs hne (cells ((c :: r') :: l) hw y x) (levelAt quantile y x)
      (levelAt quantile y x) (levelAt quantile y x)
    rw [hf] at h1
    obtain rfl : v = v' := by simpa using h1
    unfold cells at h2 h4
    rw [← hfl] at h2 h4
    refine ⟨v, hv, h2, fun hn => ⟨h4 hn rfl rfl, fun n hn0 hcn => ?_⟩⟩
    have hP : meanFraction ((square ((c :: r') :: l) hw y x).map vals) = fractionBelow (vals (square ((c :: r') :: l) hw y x).flatten) := by
      funext t
      rw [meanFraction_pooled hn0 (by
        intro d hd
        obtain ⟨u, hu, rfl⟩ := List.mem_map.mp hd
        exact hcn u hu), ← hfl]
    rw [← hP]
    exact h4 hn rfl rfl

example : ∃ b : List (List (List (Fl ℚ))), Rect 1 2 b ∧ (∀ row ∈ b, ∀ c ∈ row, c.length = 2) ∧
    ∀ c ∈ square b 1 0 0, vals c = [] ∨ (vals c).length = 2 :=
  ⟨[[[fin 1, fin 2], [fin 0, fin 3]]], by simp [Rect], by simp, by decide⟩

/-- With missing members the fraction is not that of the pooled values: of the values 0, 10, 10 (one cell with one
missing member) one third is at most 0, but the code uses (1/1 + 0/2)/2 = 1/2. -/
theorem c27_ensemble_not_pooled :
    neighbourhoodQuantileFast3 (fun _ => 0) ([[[fin 0, nan], [fin 10, fin 10]]] : List (List (List (Fl ℚ)))) [[fin (1/2)]] 1
      [fin 0, fin 10] = ok [[fin 0, fin 0]] ∧
    fractionBelow ([0, 10, 10] : List ℚ) 0 = 1/3 ∧
    interpolate (fin (1/2)) ([1/3, 1].map fin) ([0, 10].map fin) = ok (fin (5/2 : ℚ)) := by
  refine ⟨by decide +kernel, by decide +kernel, by decide +kernel⟩

/-- **C27** (thresholds). The thresholds produced by `get_neighbourhood_thresholds` for a field with a valid value are
finite, sorted, taken from the field and run from its minimum to its maximum, i.e. they satisfy the hypotheses of
`c27_fast_quantile`. -/
theorem c27_thresholds (Y X : Nat) (a : List (List (Fl K))) (h : Rect Y X a) (hY : 0 < Y) (hX : 0 < X) (num : Int) (hnum : 2 ≤ num)
    (hv : vals a.flatten ≠ []) :
    ∃ ts : List K, getNeighbourhoodThresholds a num = ok (ts.map fin) ∧ ts.Pairwise (· ≤ ·) ∧ 0 < ts.length ∧
      (ts.length : Int) ≤ num ∧ (∀ t ∈ ts, t ∈ vals a.flatten) ∧
      (∃ m, ts.head? = some m ∧ MinOf m (vals a.flatten)) ∧ (∃ m, ts.getLast? = some m ∧ MaxOf m (vals a.flatten)) := by
  have hval : ∀ l : List (Fl K), l.filter isValid = (vals l).map fin := by
    intro l
    induction l with
    | nil => rfl
    | cons v l ih => cases v <;> simp [List.filter_cons, ih]
  have hall : grid2 Y X (fun y x => vget2 a y x) = ok a := by
    rw [grid2_map h (f := id) (by intro y x v hv; exact vget2_of_cell? hv)]
    simp
  have hne : vals a.flatten ≠ [] := hv
  have hne2 : sorted (vals a.flatten) ≠ [] := by
    intro hc
    have := length_sorted (vals a.flatten)
    rw [hc] at this
    exact hne (List.length_eq_zero_iff.mp this.symm)
  obtain ⟨out, h1, h2, h3, h4, h5, h6, -⟩ := c05_even_quantiles (sorted (vals a.flatten)) hne2 num hnum
  have hperm : ∀ z, z ∈ sorted (vals a.flatten) ↔ z ∈ vals a.flatten := fun z => (sorted_perm _).mem_iff
  have hne' : a ≠ [] := by rintro rfl; exact absurd h.1 (by simp; omega)
  obtain ⟨r, l, rfl⟩ := List.exists_cons_of_ne_nil hne'
  have hr : r.length = X := h.2 r (by simp)
  have hl : (r :: l).length = Y := h.1
  refine ⟨out, ?_, h2, ?_, h4, fun t ht => (hperm t).mp (h3 t ht), ?_, ?_⟩
  · unfold getNeighbourhoodThresholds
    simp only [hr, hl]
    rw [if_neg (by omega), if_neg (by omega), hall, ok_bind, hval, stdSort_map_fin, ok_bind, h1]
  · obtain ⟨m, hm, -⟩ := h5
    cases out with
    | nil => simp at hm
    | cons => simp
  · obtain ⟨m, hm, hm'⟩ := h5
    exact ⟨m, hm, (hperm m).mp hm'.1, fun z hz => hm'.2 z ((hperm z).mpr hz)⟩
  · obtain ⟨m, hm, hm'⟩ := h6
    exact ⟨m, hm, (hperm m).mp hm'.1, fun z hz => hm'.2 z ((hperm z).mpr hz)⟩

example : Rect 2 2 ([[fin 1, nan], [fin 3, fin 5]] : List (List (Fl ℚ))) ∧ (2 : Int) ≤ 3 ∧
    vals ([[fin 1, nan], [fin 3, fin 5]] : List (List (Fl ℚ))).flatten ≠ [] ∧
    getNeighbourhoodThresholds ([[fin 1, nan], [fin 3, fin 5]] : List (List (Fl ℚ))) 3 = ok [fin 1, fin 3, fin 5] := by
  refine ⟨by simp [Rect], by omega, by decide, by decide +kernel⟩

/-! ### C26: schedules -/

/-- The steps of the second parallel loop for a given call. -/
abbrev fastLoop (copies Y X : Nat) (thresholds : List (Fl K)) (stats : List (List (List (Fl K)))) (level : Nat → Nat → Fl K) :
    Nat → List (Step QLoc (Res (Fl K))) :=
  quantileLoop Y X (fun y x => ok (level y x)) (fun y x q1 q2 q3 => do
    let a ← q1
    let b ← q2
    let c ← q3
    fastIter copies thresholds stats y x a b c)

/-- **C26** (partial). With one level for all cells, every interleaving of the iterations gives the output of the
sequential run; the output is missing or between the smallest and the largest threshold. Missing: level fields that
differ between cells, for which the claim is false (`c26_schedule_dependent`). -/
theorem c26_fixed_level_partial (rnd : Rnd K) (Y X : Nat) (a : List (List (Fl K))) (h : Rect Y X a) (hY : 0 < Y) (hX : 0 < X) (hw : Nat)
    (ts : List K) (hs : ts.Pairwise (· ≤ ·)) (hne : 0 < ts.length) (q : Fl K) (hq : ∀ p, q = fin p → 0 ≤ p ∧ p ≤ 1) :
    ∃ out stats, neighbourhoodQuantileFast1 rnd a q hw (ts.map fin) = ok out ∧
      fastStats rnd (fun y x => do let v ← vget2 a y x; ok [v]) Y X hw (ts.map fin) = ok stats ∧
      (∀ s s', Exec (fastLoop 1 Y X (ts.map fin) stats fun _ _ => q) s s' →
        ∀ y < Y, ∀ x < X, ∃ v, cell? out y x = some v ∧ s' (.out y x) = ok v) ∧
      ∀ y < Y, ∀ x < X, ∃ v, cell? out y x = some v ∧ (v = nan ∨ ∃ r, v = fin r ∧ ts[0] ≤ r ∧ r ≤ ts[ts.length - 1]) := by
  have hlf : LevelField Y X [[q]] := ⟨.inl ⟨q, rfl⟩, by
    intro row hr q' hq' p hp
    simp at hr; subst hr; simp at hq'; subst hq'; exact hq p hp⟩
  have hm : ∀ (y x : Nat) v, cell? (a.map (List.map fun v => [v])) y x = some v →
      (do let v ← vget2 a (y : Int) (x : Int); ok [v] : Res (List (Fl K))) = ok v := by
    intro y x v hv
    rw [cell?_map] at hv
    obtain ⟨u, hu, rfl⟩ := Option.map_eq_some_iff.mp hv
    simp only [vget2_of_cell? hu, ok_bind]
  obtain ⟨out, ho, hrect, hcell⟩ := quantileFastCore_ok rnd (rect_map (fun v => [v]) h) hY hX hw
      (members := fun y x => do let v ← vget2 a y x; ok [v]) hm (Nat.one_pos) hs hne hlf
  have hst := fastStats_ok rnd (rect_map (fun v => [v]) h) hY hX hw (members := fun y x => do let v ← vget2 a y x; ok [v]) hm ts
  have hts : ts ≠ [] := List.length_pos_iff.mp hne
  refine ⟨out, _, ?_, hst, fun s s' hex y hy x hx => ?_, fun y hy x hx => ?_⟩
  · have hne' : a ≠ [] := by rintro rfl; exact absurd h.1 (by simp; omega)
    obtain ⟨r, l, rfl⟩ := List.exists_cons_of_ne_nil hne'
    have hr : r.length = X := h.2 r (by simp)
    have hl : (r :: l).length = Y := h.1
    unfold neighbourhoodQuantileFast1 neighbourhoodQuantileFast
    simp only [hr, hl]
    rw [if_neg (by omega), if_neg (by omega)]
    exact ho
  · obtain ⟨v, hv, hf⟩ := hcell y hy x hx
    refine ⟨v, hv, ?_⟩
    rw [quantileLoop_fixed _ _ hex hy hx]
    simp only [ok_bind]
    rw [fastIter_ok ts (fun y x => cells (a.map (List.map fun v => [v])) hw y x) Nat.one_pos hts hy hx]
    exact hf
  · obtain ⟨v, hv, hf⟩ := hcell y hy x hx
    obtain ⟨v', h1, -, h3, -⟩ := fastValue_spec hs hne (cells (a.map (List.map fun v => [v])) hw y x) (levelAt [[q]] y x)
        (levelAt [[q]] y x) (levelAt [[q]] y x)
    rw [hf] at h1
    obtain rfl : v = v' := by simpa using h1
    exact ⟨v, hv, h3⟩

example : Rect 2 2 ([[fin 1, nan], [fin 3, fin 5]] : List (List (Fl ℚ))) ∧ ([1, 2, 5] : List ℚ).Pairwise (· ≤ ·) ∧
    (∀ p : ℚ, fin (1/2) = fin p → 0 ≤ p ∧ p ≤ 1) := by
  refine ⟨by simp [Rect], by decide, fun p hp => ?_⟩
  rw [fin_inj] at hp; subst hp; norm_num

/-- The cells read by an iteration before they are written hold a level or `MV`; whatever the schedule, each of the
three reads of `curr_quantile` sees some level, so the output stays within the thresholds. -/
theorem c26_bounds_any_schedule (rnd : Rnd K) (Y X : Nat) (a : List (List (Fl K))) (h : Rect Y X a) (hY : 0 < Y) (hX : 0 < X) (hw : Nat)
    (ts : List K) (hs : ts.Pairwise (· ≤ ·)) (hne : 0 < ts.length) (level : Nat → Nat → Fl K) (stats : List (List (List (Fl K))))
    (hst : fastStats rnd (fun y x => do let v ← vget2 a y x; ok [v]) Y X hw (ts.map fin) = ok stats)
    (s s' : Store QLoc (Res (Fl K))) (hinit : ∀ l, s l = ok nan) (hex : Exec (fastLoop 1 Y X (ts.map fin) stats level) s s') :
    ∀ y < Y, ∀ x < X, ∃ v, s' (.out y x) = ok v ∧ (v = nan ∨ ∃ r, v = fin r ∧ ts[0] ≤ r ∧ r ≤ ts[ts.length - 1]) := by
  have hm : ∀ (y x : Nat) v, cell? (a.map (List.map fun v => [v])) y x = some v →
      (do let v ← vget2 a (y : Int) (x : Int); ok [v] : Res (List (Fl K))) = ok v := by
    intro y x v hv
    rw [cell?_map] at hv
    obtain ⟨u, hu, rfl⟩ := Option.map_eq_some_iff.mp hv
    simp only [vget2_of_cell? hu, ok_bind]
  have hst' := fastStats_ok rnd (rect_map (fun v => [v]) h) hY hX hw (members := fun y x => do let v ← vget2 a y x; ok [v]) hm ts
  have hts : ts ≠ [] := List.length_pos_iff.mp hne
  rw [hst] at hst'
  obtain rfl : stats = _ := by simpa using hst'
  let Inv : Store QLoc (Res (Fl K)) → Prop := fun s => (∃ v, s .curr = ok v) ∧ (∀ y x, ∃ v, s (.read1 y x) = ok v) ∧
    (∀ y x, ∃ v, s (.read2 y x) = ok v) ∧
    ∀ y x, ∃ v, s (.out y x) = ok v ∧ (v = nan ∨ ∃ r, v = fin r ∧ ts[0] ≤ r ∧ r ≤ ts[ts.length - 1])
  have hstep : ∀ (p : Nat → List (Step QLoc (Res (Fl K)))) (s s' : Store QLoc (Res (Fl K))), Exec p s s' →
      (∀ i, ∀ f ∈ p i, ∀ s, Inv s → Inv (f s)) → Inv s → Inv s' := by
    intro p s s' hex
    induction hex with
    | done _ => intro _ h; exact h
    | @step p s s' i f t hp _ ih =>
      intro hl hi
      apply ih
      · intro j g hg
        by_cases hj : j = i
        · subst hj; rw [Function.update_self] at hg; exact hl j g (by rw [hp]; simp [hg])
        · rw [Function.update_of_ne hj] at hg; exact hl j g hg
      · exact hl i f (by rw [hp]; simp) s hi
  have hinv : Inv s' := by
    apply hstep _ _ _ hex
    · intro i f hf s hI
      obtain ⟨⟨c, hc⟩, h1, h2, h3⟩ := hI
      unfold fastLoop quantileLoop at hf
      split at hf
      swap
      · simp at hf
      next hi =>
      obtain ⟨x, hxm, hx⟩ := List.mem_flatMap.mp hf
      have hx' : x < X := by simpa using hxm
      unfold quantileCell at hx
      simp only [List.mem_cons, List.not_mem_nil, or_false] at hx
      rcases hx with rfl | rfl | rfl | rfl
      · refine ⟨⟨_, Function.update_self _ _ _⟩, fun y x => ?_, fun y x => ?_, fun y x => ?_⟩
        · beta_reduce; rw [Function.update_of_ne (by simp)]; exact h1 y x
        · beta_reduce; rw [Function.update_of_ne (by simp)]; exact h2 y x
        · beta_reduce; rw [Function.update_of_ne (by simp)]; exact h3 y x
      · refine ⟨⟨c, by beta_reduce; rw [Function.update_of_ne (by simp)]; exact hc⟩, fun y' x' => ?_, fun y x => ?_, fun y x => ?_⟩
        · by_cases he : QLoc.read1 y' x' = QLoc.read1 i x
          · beta_reduce; rw [he, Function.update_self]; exact ⟨c, hc⟩
          · beta_reduce; rw [Function.update_of_ne he]; exact h1 y' x'
        · beta_reduce; rw [Function.update_of_ne (by simp)]; exact h2 y x
        · beta_reduce; rw [Function.update_of_ne (by simp)]; exact h3 y x
      · refine ⟨⟨c, by beta_reduce; rw [Function.update_of_ne (by simp)]; exact hc⟩, fun y x => ?_, fun y' x' => ?_, fun y x => ?_⟩
        · beta_reduce; rw [Function.update_of_ne (by simp)]; exact h1 y x
        · by_cases he : QLoc.read2 y' x' = QLoc.read2 i x
          · beta_reduce; rw [he, Function.update_self]; exact ⟨c, hc⟩
          · beta_reduce; rw [Function.update_of_ne he]; exact h2 y' x'
        · beta_reduce; rw [Function.update_of_ne (by simp)]; exact h3 y x
      · refine ⟨⟨c, by beta_reduce; rw [Function.update_of_ne (by simp)]; exact hc⟩, fun y x => ?_, fun y x => ?_, fun y' x' => ?_⟩
        · beta_reduce; rw [Function.update_of_ne (by simp)]; exact h1 y x
        · beta_reduce; rw [Function.update_of_ne (by simp)]; exact h2 y x
        · by_cases he : QLoc.out y' x' = QLoc.out i x
          · beta_reduce; rw [he, Function.update_self]
            obtain ⟨q1, hq1⟩ := h1 i x
            obtain ⟨q2, hq2⟩ := h2 i x
            rw [hq1, hq2, hc]
            simp only [ok_bind]
            rw [fastIter_ok ts (fun y x => cells (a.map (List.map fun v => [v])) hw y x) Nat.one_pos hts hi hx']
            obtain ⟨v, hv, -, hb, -⟩ := fastValue_spec hs hne (cells (a.map (List.map fun v => [v])) hw i x) q1 q2 c
            exact ⟨v, hv, hb⟩
          · beta_reduce; rw [Function.update_of_ne he]; exact h3 y' x'
    · exact ⟨⟨_, hinit _⟩, fun _ _ => ⟨_, hinit _⟩, fun _ _ => ⟨_, hinit _⟩, fun _ _ => ⟨_, hinit _, .inl rfl⟩⟩
  exact fun y _ x _ => hinv.2.2.2 y x

/-- The hypotheses are met: the accumulated fields exist for every field, and every store has a complete run. -/
example (level : Nat → Nat → Fl ℚ) : ∃ stats s', fastStats (fun _ => 0) (fun y x => do let v ← vget2 [[fin 0], [fin (10 : ℚ)]] y x; ok [v]) 2 1 1
      ([0, 10].map fin) = ok stats ∧ Exec (fastLoop 1 2 1 ([0, 10].map fin) stats level) (fun _ => ok nan) s' := by
  refine ⟨[[[fin (1/2)], [fin (1/2)]], [[fin 1], [fin 1]]], ?_⟩
  obtain ⟨s', hs'⟩ := exec_exists 2 (fastLoop 1 2 1 ([0, 10].map fin) [[[fin (1/2)], [fin (1/2)]], [[fin 1], [fin 1]]] level)
    (fun k hk => by unfold fastLoop quantileLoop; rw [if_neg (by omega)]) (fun _ => ok nan)
  exact ⟨s', by decide +kernel, hs'⟩

/-- **C26** is false with levels that differ between cells: `curr_quantile` is shared by the threads
(neighbourhood.cpp:365). For the rows (0), (10), half width 1, thresholds 0 and 10 and the levels 0 and 1, the
sequential run gives 0 in the first row; if the second row's thread writes `curr_quantile` between the first row's
write and its reads, the first row becomes 10. -/
theorem c26_schedule_dependent :
    let a : List (List (Fl ℚ)) := [[fin 0], [fin 10]]
    let ts : List (Fl ℚ) := [fin 0, fin 10]
    let level : Nat → Nat → Fl ℚ := fun y _ => if y = 0 then fin 0 else fin 1
    neighbourhoodQuantileFast (fun _ => 0) a [[fin 0], [fin 1]] 1 ts = ok [[fin 0], [fin 10]] ∧
    ∃ stats, fastStats (fun _ => 0) (fun y x => do let v ← vget2 a y x; ok [v]) 2 1 1 ts = ok stats ∧
    ∃ s', Exec (fastLoop 1 2 1 ts stats level) (fun _ => ok nan) s' ∧ s' (.out 0 0) = ok (fin 10) := by
  intro a ts level
  refine ⟨by decide +kernel, [[[fin (1/2)], [fin (1/2)]], [[fin 1], [fin 1]]], by decide +kernel, ?_⟩
  refine ⟨_, .step 0 _ _ rfl (.step 1 _ _ rfl (.step 0 _ _ rfl (.step 0 _ _ rfl (.step 0 _ _ rfl (.step 1 _ _ rfl (.step 1 _ _ rfl
    (.step 1 _ _ rfl (.done ?_)))))))), ?_⟩
  · intro i
    match i with
    | 0 => rfl
    | 1 => rfl
    | i + 2 => simp [Function.update, quantileLoop]
  · decide +kernel

end Gridpp.Props
