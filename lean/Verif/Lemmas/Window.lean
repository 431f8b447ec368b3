import Verif.Model.Window
import Verif.Spec.Window
import Verif.Lemmas.Neighbourhood2

/-! Lemmas about `window`. -/

set_option linter.unusedSectionVars false

namespace Gridpp
open Fl Res Spec

variable {K : Type} [Field K] [LinearOrder K] [IsStrictOrderedRing K] [FloorRing K] [HasSqrt K]

/-- A table entry: sum and number of the valid values, both as floats. -/
def enc2 (t : K × Int) : Fl K × Fl K := (fin t.1, fin (t.2 : K))

theorem windowTable_ok (row : List (Fl K)) :
    windowTable row = ok ((List.range row.length).map fun x => enc2 (tot (row.take (x + 1)))) := by
  unfold windowTable
  apply buildM_ok
  intro k hk
  have hv := vget_eq_ok_of_lt hk
  rw [hv, ok_bind]
  have ht := take_succ_tot hk
  by_cases h0 : k = 0
  · subst h0
    rw [if_pos rfl, ht]
    simp only [List.take_zero, tot_nil, zero_add]
    cases row[0] <;> simp [tot, enc2]
  · rw [if_neg h0]
    have hp : vget ((List.range k).map fun x => enc2 (tot (row.take (x + 1)))) ((k : Int) - 1) = ok (enc2 (tot (row.take k))) := by
      have := vget_eq_ok_of_lt (v := (List.range k).map fun x => enc2 (tot (row.take (x + 1)))) (n := k - 1) (by simp; omega)
      have hc : ((k - 1 : Nat) : Int) = (k : Int) - 1 := by omega
      have hc' : k - 1 + 1 = k := by omega
      rw [hc] at this
      rw [this]
      simp [hc']
    rw [hp, ok_bind, ht]
    cases row[k] <;> simp [tot, enc2, add_comm]

/-- Number of valid values of a slice against its length. -/
theorem length_vals_lt {l : List (Fl K)} : (vals l).length < l.length ↔ ∃ v ∈ l, v.isValid = false := by
  induction l with
  | nil => simp
  | cons v l ih =>
    have hle : (vals l).length ≤ l.length := by
      clear ih
      induction l with
      | nil => simp
      | cons v l ih => cases v <;> simp <;> omega
    cases v with
    | fin q =>
      simp only [vals_fin, List.length_cons, List.mem_cons, exists_eq_or_imp, isValid_fin, Bool.true_eq_false, false_or, ← ih]
      omega
    | _ => simp; omega

variable {row : List (Fl K)} {lo hi : Nat}

/-- Sum and count over a slice as differences of table entries. -/
theorem tot_slice_parts (row : List (Fl K)) (h : lo ≤ hi + 1) :
    (tot (row.take (hi + 1))).1 - (tot (row.take lo)).1 = (vals (slice lo hi row)).sum ∧
    (((tot (row.take (hi + 1))).2 : Int) : K) - (((tot (row.take lo)).2 : Int) : K) = ((vals (slice lo hi row)).length : K) := by
  have := tot_slice row lo hi h
  have h1 : (tot (slice lo hi row)).1 = (tot (row.take (hi + 1))).1 - (tot (row.take lo)).1 := by rw [this]; rfl
  have h2 : (tot (slice lo hi row)).2 = (tot (row.take (hi + 1))).2 - (tot (row.take lo)).2 := by rw [this]; rfl
  refine ⟨h1.symm, ?_⟩
  rw [← Int.cast_sub, ← h2]
  simp [tot]

theorem vget_table (row : List (Fl K)) {k : Nat} (hk : k < row.length) :
    vget ((List.range row.length).map fun x => enc2 (tot (row.take (x + 1)))) (k : Int) = ok (enc2 (tot (row.take (k + 1)))) := by
  have := vget_eq_ok_of_lt (v := (List.range row.length).map fun x => enc2 (tot (row.take (x + 1)))) (n := k) (by simpa using hk)
  rw [this]; simp

theorem vget_table_pred (row : List (Fl K)) {k : Nat} (hk : k < row.length) (h1 : 1 ≤ k) :
    vget ((List.range row.length).map fun x => enc2 (tot (row.take (x + 1)))) ((k : Int) - 1) = ok (enc2 (tot (row.take k))) := by
  have := vget_table row (k := k - 1) (by omega)
  have hc : ((k - 1 : Nat) : Int) = (k : Int) - 1 := by omega
  have hc' : k - 1 + 1 = k := by omega
  rw [hc, hc'] at this
  exact this

/-- Sum over the window, before the other adjustments. -/
def winSum (w : List (Fl K)) : Fl K := if vals w = [] then nan else fin (vals w).sum

theorem winOut0 (row : List (Fl K)) (hlo : lo ≤ hi) (hhi : hi < row.length) :
    (if (lo : Int) - 1 ≥ 0 then do
      let e ← vget ((List.range row.length).map fun x => enc2 (tot (row.take (x + 1)))) (hi : Int)
      let p ← vget ((List.range row.length).map fun x => enc2 (tot (row.take (x + 1)))) ((lo : Int) - 1)
      if (e.2 - p.2).fne 0 then ok (e.1 - p.1) else ok MV
    else do
      let e ← vget ((List.range row.length).map fun x => enc2 (tot (row.take (x + 1)))) (hi : Int)
      if e.2.fne 0 then ok e.1 else ok MV : Res (Fl K)) = ok (winSum (slice lo hi row)) := by
  obtain ⟨h1, h2⟩ := tot_slice_parts row (show lo ≤ hi + 1 by omega)
  rw [vget_table row hhi]
  unfold winSum
  by_cases hl : 1 ≤ lo
  · rw [if_pos (by omega), vget_table_pred row (by omega) hl]
    simp only [ok_bind, enc2, fin_sub, h1, h2, Fl.zero_def, fne_fin]
    by_cases hv : vals (slice lo hi row) = []
    · simp [hv]
    · simp [hv]
  · obtain rfl : lo = 0 := by omega
    rw [if_neg (by omega)]
    have e1 : (tot (row.take (hi + 1))).1 = (vals (slice 0 hi row)).sum := by simp [tot, slice]
    have e2 : (((tot (row.take (hi + 1))).2 : Int) : K) = ((vals (slice 0 hi row)).length : K) := by simp [tot, slice]
    simp only [ok_bind, enc2, e1, e2, Fl.zero_def, fne_fin]
    by_cases hv : vals (slice 0 hi row) = []
    · simp [hv]
    · simp [hv]

/-- The window limits as natural numbers. -/
theorem windowBounds_nat {n L x : Nat} (before : Bool) (hL : 0 < L) (hx : x < n) :
    ∃ lo hi : Nat, windowBounds n (L : Int) before (x : Int) = ((lo : Int), (hi : Int)) ∧ lo ≤ hi ∧ hi < n ∧
      (∀ r : List (Fl K), r.length = n → slice lo hi r = windowAt before L x r) ∧
      (lo = 0 ↔ if before then x + 1 ≤ L else x ≤ L / 2) := by
  have htd : (L : Int).tdiv 2 = ((L / 2 : Nat) : Int) := by rw [Int.tdiv_eq_ediv_of_nonneg (by omega)]; omega
  unfold windowBounds windowAt
  cases before with
  | true =>
    refine ⟨x + 1 - L, x, ?_, by omega, hx, fun r _ => rfl, by simp; omega⟩
    simp only [if_true]
    congr 1
    omega
  | false =>
    refine ⟨x - L / 2, min (n - 1) (x + L / 2), ?_, by omega, by omega, fun r hr => ?_, by simp; omega⟩
    · simp only [Bool.false_eq_true, if_false, htd]
      congr 1 <;> omega
    · simp only [Bool.false_eq_true, if_false]
      obtain ⟨m, rfl⟩ : ∃ m, n = m + 1 := ⟨n - 1, by omega⟩
      exact slice_min _ _ _ m hr

theorem edges_iff {n L x : Nat} (before : Bool) (hL : 0 < L) (v : Fl K) :
    (if !before then
        if (x : Int) < (L : Int).tdiv 2 ∨ (x : Int) + (L : Int).tdiv 2 + 1 > (n : Int) then ok MV else ok v
      else
        if (x : Int) < (L : Int) - 1 then ok MV else ok v : Res (Fl K)) = ok (if overshoots before L x n then nan else v) := by
  have htd : (L : Int).tdiv 2 = ((L / 2 : Nat) : Int) := by rw [Int.tdiv_eq_ediv_of_nonneg (by omega)]; omega
  unfold overshoots
  cases before with
  | true =>
    simp only [Bool.not_true, Bool.false_eq_true, if_false, if_true]
    by_cases h : x + 1 < L
    · rw [if_pos (by omega), if_pos h]
    · rw [if_neg (by omega), if_neg h]
  | false =>
    simp only [Bool.not_false, Bool.false_eq_true, if_false, if_true, htd]
    by_cases h : x < L / 2 ∨ n ≤ x + L / 2
    · rw [if_pos (by omega), if_pos h]
    · rw [if_neg (by omega), if_neg h]

/-- What `window` should give at `x`. -/
def winExpected (rnd : Rnd K) (s : Statistic) (before keep edges : Bool) (L x : Nat) (row : List (Fl K)) : Res (Fl K) :=
  if (keep = true ∧ ∃ v ∈ windowAt before L x row, v.isValid = false) ∨ (edges = true ∧ overshoots before L x row.length) then ok nan
  else calcStatistic rnd (windowAt before L x row) s

/-- The accumulating branch where `start >= 1`, or for Sum without `keep_missing`. -/
theorem windowAccCell_ok (rnd : Rnd K) (row : List (Fl K)) {L x : Nat} {s : Statistic} (hs : s = .mean ∨ s = .sum) (before keep edges : Bool)
    (hL : 0 < L) (hx : x < row.length)
    (hok : (s = .sum ∧ keep = false) ∨ ¬ if before then x + 1 ≤ L else x ≤ L / 2) :
    windowAccCell ((List.range row.length).map fun x => enc2 (tot (row.take (x + 1)))) row.length row.length (L : Int) s before keep edges (x : Int)
      = winExpected rnd s before keep edges L x row := by
  obtain ⟨lo, hi, hb, hlohi, hhi, hsl, hlo0⟩ := windowBounds_nat (K := K) before hL hx
  have hw := hsl row rfl
  obtain ⟨h1, h2⟩ := tot_slice_parts row (show lo ≤ hi + 1 by omega)
  unfold windowAccCell winExpected
  simp only [hb, winOut0 row hlohi hhi, ok_bind]
  rw [if_neg (by rcases hs with rfl | rfl <;> simp), ← hw]
  have hlenw : (slice lo hi row).length = hi + 1 - lo := by simp [slice]; omega
  -- the mean step
  have hmean : (if s = .mean then do
        let e ← vget ((List.range row.length).map fun x => enc2 (tot (row.take (x + 1)))) (hi : Int)
        if e.2.fne 0 then do
          let p ← vget ((List.range row.length).map fun x => enc2 (tot (row.take (x + 1)))) ((lo : Int) - 1)
          ok (winSum (slice lo hi row) / (e.2 - p.2))
        else ok (winSum (slice lo hi row))
      else ok (winSum (slice lo hi row)) : Res (Fl K)) = calcStatistic rnd (slice lo hi row) s := by
    rcases hs with rfl | rfl
    · have hl1 : 1 ≤ lo := by
        rcases hok with ⟨h, _⟩ | h
        · cases h
        · rw [← hlo0] at h; omega
      rw [if_pos rfl, vget_table row hhi, vget_table_pred row (by omega) hl1, calcStatistic_mean]
      simp only [ok_bind, enc2, fin_sub, h2, winSum]
      by_cases hv : vals (slice lo hi row) = []
      · simp only [hv, if_true]; split <;> simp
      · rw [if_neg hv, if_neg hv]
        have hpos : (0 : K) < (vals (slice lo hi row)).length := length_pos' hv
        have : (((tot (row.take (hi + 1))).2 : Int) : K) ≠ 0 := by
          have h3 : (0 : K) ≤ (((tot (row.take lo)).2 : Int) : K) := by simp [tot]
          linarith
        simp only [Fl.zero_def, fne_fin, this, decide_false, Bool.not_false, if_true]
        rw [fin_div_of_ne _ (length_ne_zero hv)]; rfl
    · rw [if_neg (by simp), calcStatistic_sum]; rfl
  rw [hmean]
  obtain ⟨v, hv⟩ : ∃ v, calcStatistic rnd (slice lo hi row) s = ok v := by
    rcases hs with rfl | rfl
    · exact ⟨_, calcStatistic_mean _ _⟩
    · exact ⟨_, calcStatistic_sum _ _⟩
  rw [hv]
  simp only [ok_bind]
  have hkeep : (if keep then do
        let e ← vget ((List.range row.length).map fun x => enc2 (tot (row.take (x + 1)))) (hi : Int)
        let p ← vget ((List.range row.length).map fun x => enc2 (tot (row.take (x + 1)))) ((lo : Int) - 1)
        if (e.2 - p.2).lt (Fl.ofInt ((hi : Int) - ((lo : Int) - 1))) then ok MV else ok v
      else ok v : Res (Fl K)) = ok (if keep = true ∧ ∃ v ∈ slice lo hi row, v.isValid = false then nan else v) := by
    cases keep with
    | false => simp
    | true =>
      have hl1 : 1 ≤ lo := by
        rcases hok with ⟨_, h⟩ | h
        · cases h
        · rw [← hlo0] at h; omega
      rw [if_pos rfl, vget_table row hhi, vget_table_pred row (by omega) hl1]
      simp only [ok_bind, enc2, fin_sub, h2, Fl.ofInt_def, lt_fin, true_and]
      have hc : ((((hi : Int) - ((lo : Int) - 1)) : Int) : K) = ((slice lo hi row).length : K) := by
        rw [hlenw]
        have : (hi : Int) - ((lo : Int) - 1) = ((hi + 1 - lo : Nat) : Int) := by omega
        rw [this]; simp
      rw [hc]
      have : ((vals (slice lo hi row)).length : K) < ((slice lo hi row).length : K) ↔ ∃ v ∈ slice lo hi row, v.isValid = false := by
        rw [Nat.cast_lt]; exact length_vals_lt
      by_cases h : ∃ v ∈ slice lo hi row, v.isValid = false
      · rw [if_pos (by simpa using this.mpr h), if_pos h]
      · rw [if_neg (by simp only [decide_eq_true_eq]; exact fun hc => h (this.mp hc)), if_neg h]
  rw [hkeep]
  simp only [ok_bind]
  cases edges with
  | false =>
    simp only [Bool.false_eq_true, if_false, false_and, or_false]
    split <;> rfl
  | true =>
    simp only [if_true, true_and]
    rw [edges_iff before hL]
    by_cases h3 : overshoots before L x row.length
    · simp [h3]
    · simp only [h3, if_false, or_false]
      split <;> rfl

/-- The accumulating branch reads `counts[-1]` when the window starts at the first element. -/
theorem windowAccCell_ub (row : List (Fl K)) {L x : Nat} {s : Statistic} (before keep edges : Bool)
    (hL : 0 < L) (hx : x < row.length) (h0 : if before then x + 1 ≤ L else x ≤ L / 2)
    (hs : s = .count ∨ (s = .mean ∧ ∃ v ∈ windowAt before L x row, v.isValid = true) ∨ (s ≠ .count ∧ keep = true)) :
    windowAccCell ((List.range row.length).map fun x => enc2 (tot (row.take (x + 1)))) row.length row.length (L : Int) s before keep edges (x : Int)
      = ub := by
  obtain ⟨lo, hi, hb, hlohi, hhi, hsl, hlo0⟩ := windowBounds_nat (K := K) before hL hx
  have hw := hsl row rfl
  obtain rfl : lo = 0 := hlo0.mpr h0
  have hub : ∀ t : List (Fl K × Fl K), vget t ((0 : Nat) - 1 : Int) = ub := fun t => vget_neg (by omega)
  unfold windowAccCell
  simp only [hb]
  rw [winOut0 row hlohi hhi]
  simp only [ok_bind, vget_table row hhi, hub, ub_bind]
  rcases hs with rfl | ⟨rfl, v, hv, hvv⟩ | ⟨hs, rfl⟩
  · simp
  · rw [if_neg (by simp), if_pos rfl]
    have hne : vals (slice 0 hi row) ≠ [] := by
      rw [hw]
      obtain ⟨q, rfl⟩ := exists_fin_of_valid hvv
      exact List.ne_nil_of_mem (mem_vals.mpr hv)
    have e2 : (((tot (row.take (hi + 1))).2 : Int) : K) = ((vals (slice 0 hi row)).length : K) := by simp [tot, slice]
    have : ((vals (slice 0 hi row)).length : K) ≠ 0 := length_ne_zero hne
    simp [enc2, e2, hne]
  · rw [if_neg hs]
    simp only [if_true, ub_bind]
    split
    · split <;> rfl
    · rfl

/-- The other statistics, for every flag. -/
theorem windowStatCell_ok (rnd : Rnd K) (row : List (Fl K)) {L x : Nat} (s : Statistic) (before keep edges : Bool)
    (hL : 0 < L) (hx : x < row.length) :
    windowStatCell rnd row row.length (L : Int) s before keep edges (x : Int) = winExpected rnd s before keep edges L x row := by
  have htd : (L : Int).tdiv 2 = ((L / 2 : Nat) : Int) := by rw [Int.tdiv_eq_ediv_of_nonneg (by omega)]; omega
  obtain ⟨lo, hi, hb, hlohi, hhi, hsl, hlo0⟩ := windowBounds_nat (K := K) before hL hx
  have hw := hsl row rfl
  unfold windowStatCell winExpected
  have e1 : (if (if before then (x : Int) - L + 1 else (x : Int) - (L : Int).tdiv 2) < 0 then (0 : Int)
      else (if before then (x : Int) - L + 1 else (x : Int) - (L : Int).tdiv 2)) = (lo : Int) := by
    have := congrArg Prod.fst hb
    unfold windowBounds at this
    cases before <;> simp only [Bool.false_eq_true, if_false, if_true] at this ⊢ <;> split <;> omega
  have e2 : (if (if before then (x : Int) else (x : Int) + (L : Int).tdiv 2) > (row.length : Int) - 1 then (row.length : Int) - 1
      else (if before then (x : Int) else (x : Int) + (L : Int).tdiv 2)) = (hi : Int) := by
    have := congrArg Prod.snd hb
    unfold windowBounds at this
    cases before <;> simp only [Bool.false_eq_true, if_false, if_true] at this ⊢ <;> split <;> omega
  have e3 : (decide ((if before then (x : Int) - L + 1 else (x : Int) - (L : Int).tdiv 2) < 0) ||
      decide ((if before then (x : Int) else (x : Int) + (L : Int).tdiv 2) > (row.length : Int) - 1)) = decide (overshoots before L x row.length) := by
    rw [← Bool.decide_or]
    congr 1
    unfold overshoots
    rw [htd]
    cases before <;> simp <;> omega
  simp only [e1, e2, e3]
  rw [mapM_irange_slice (g := id) hhi (fun i h _ _ => vget_eq_ok_of_lt h), List.map_id, ok_bind, hw]
  have hm : (0 < ((windowAt before L x row).filter fun v => !v.isValid).length) ↔ ∃ v ∈ windowAt before L x row, v.isValid = false := by
    rw [List.length_pos_iff, ne_eq, List.filter_eq_nil_iff]
    push Not
    simp
  by_cases h1 : keep = true ∧ ∃ v ∈ windowAt before L x row, v.isValid = false
  · rw [if_pos (by simp only [Bool.and_eq_true, decide_eq_true_eq, gt_iff_lt, hm]; exact h1), if_pos (.inl h1)]
  · rw [if_neg (by simp only [Bool.and_eq_true, decide_eq_true_eq, gt_iff_lt, hm]; exact h1)]
    by_cases h2 : edges = true ∧ overshoots before L x row.length
    · rw [if_pos (by simpa using h2), if_pos (.inr h2)]
    · rw [if_neg (by simpa using h2), if_neg (not_or.mpr ⟨h1, h2⟩)]

end Gridpp
