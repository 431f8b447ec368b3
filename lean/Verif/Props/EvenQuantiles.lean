import Verif.Lemmas.EvenQuantiles2
import Verif.Base.Inst

/-! # C05, C06: calc_even_quantiles -/

set_option linter.unusedSectionVars false

namespace Gridpp.Props
open Fl Res Spec

variable {K : Type} [Field K] [LinearOrder K] [IsStrictOrderedRing K] [FloorRing K]

/-- **C05**. For a non-empty array of valid values and `num ≥ 2` the call returns normally (so neither the
'Internal error' throw nor an assert nor an invalid read is reached), and the output is non-decreasing, made of input
values, at most `num` long, starts with the minimum and ends with the maximum; for `num ≥ size` it is the strictly
increasing list of all distinct values. -/
theorem c05_even_quantiles (xs : List K) (hne : xs ≠ []) (num : Int) (hnum : 2 ≤ num) :
    ∃ out : List K, calcEvenQuantiles (xs.map fin) num = ok (out.map fin) ∧
      out.Pairwise (· ≤ ·) ∧ (∀ z ∈ out, z ∈ xs) ∧ (out.length : Int) ≤ num ∧
      (∃ m, out.head? = some m ∧ MinOf m xs) ∧ (∃ m, out.getLast? = some m ∧ MaxOf m xs) ∧
      ((xs.length : Int) ≤ num → out.Pairwise (· < ·) ∧ ∀ z ∈ xs, z ∈ out) := by
  obtain ⟨out, h, hk⟩ := calcEvenQuantiles_ok xs hne num hnum
  exact ⟨out, h, hk.sorted, hk.mem, hk.len, hk.first, hk.last, hk.distinct⟩

/-- **C05** (other `num`). `num = 0` or an empty array give an empty result; one quantile of several values is the
minimum; a negative `num` throws. -/
theorem c05_small_num (xs : List K) :
    calcEvenQuantiles (xs.map fin) 0 = ok [] ∧ (∀ num, calcEvenQuantiles ([] : List (Fl K)) num = ok []) ∧
    (xs ≠ [] → ∀ num < 0, calcEvenQuantiles (xs.map fin) num = .throw .lengthError) ∧
    (∃ out, xs ≠ [] → calcEvenQuantiles (xs.map fin) 1 = ok [fin out] ∧ MinOf out xs) := by
  refine ⟨by simp [calcEvenQuantiles], by intro n; simp [calcEvenQuantiles], ?_, ?_⟩
  · intro hne num hn
    have hl : 0 < xs.length := List.length_pos_iff.mpr hne
    have hs : (sorted xs).length = xs.length := length_sorted xs
    unfold calcEvenQuantiles
    simp only []
    rw [if_neg (by rw [List.length_map]; omega)]
    simp only [stdSort_map_fin, ok_bind, List.length_map]
    rw [if_neg (by omega)]
    have h1 : vget ((sorted xs).map (fin : K → Fl K)) 0 = ok (fin ((sorted xs)[0]'(by omega))) := by
      have := vget_eq_ok_of_lt (v := (sorted xs).map (fin : K → Fl K)) (n := 0) (by simp; omega)
      simpa using this
    have h2 : vget ((sorted xs).map (fin : K → Fl K)) ((xs.length : Int) - 1) = ok (fin ((sorted xs)[xs.length - 1]'(by omega))) := by
      have := vget_eq_ok_of_lt (v := (sorted xs).map (fin : K → Fl K)) (n := xs.length - 1) (by simp; omega)
      have e : ((xs.length - 1 : Nat) : Int) = (xs.length : Int) - 1 := by omega
      rw [← e, this]; simp
    rw [h1, h2]
    simp [hn]
  · by_cases hne : xs = []
    · exact ⟨0, fun h => absurd hne h⟩
    have hl : 0 < xs.length := List.length_pos_iff.mpr hne
    have hs : (sorted xs).length = xs.length := length_sorted xs
    refine ⟨(sorted xs)[0]'(by omega), fun _ => ⟨?_, minOf_sorted_zero _⟩⟩
    have h1 : vget ((sorted xs).map (fin : K → Fl K)) 0 = ok (fin ((sorted xs)[0]'(by omega))) := by
      have := vget_eq_ok_of_lt (v := (sorted xs).map (fin : K → Fl K)) (n := 0) (by simp; omega)
      simpa using this
    have h2 : vget ((sorted xs).map (fin : K → Fl K)) ((xs.length : Int) - 1) = ok (fin ((sorted xs)[xs.length - 1]'(by omega))) := by
      have := vget_eq_ok_of_lt (v := (sorted xs).map (fin : K → Fl K)) (n := xs.length - 1) (by simp; omega)
      have e : ((xs.length - 1 : Nat) : Int) = (xs.length : Int) - 1 := by omega
      rw [← e, this]; simp
    unfold calcEvenQuantiles
    simp only []
    rw [if_neg (by rw [List.length_map]; omega)]
    simp only [stdSort_map_fin, ok_bind, List.length_map, h1, h2]
    by_cases hone : xs.length = 1
    · rw [if_pos (by omega)]
      obtain ⟨a, ha⟩ := List.length_eq_one_iff.mp (hs.trans hone)
      simp [ha, uniqueRuns]
    · rw [if_neg (by omega), if_neg (by omega), if_neg (by omega)]
      have hrep : ∀ c : Nat, (decide ((c : Int) < (xs.length : Int)) && decide ((c : Int) > (xs.length : Int).tdiv 1)) = false := by
        intro c; simp; omega
      rw [hrep]
      simp only [Bool.false_eq_true, if_false, ok_bind, List.length_cons, List.length_nil]
      have e : vget [(fin ((sorted xs)[0]'(by omega)) : Fl K)] (((0 + 1 : Nat) : Int) - 1) = ok (fin ((sorted xs)[0]'(by omega))) := rfl
      rw [e]
      have er : irange 1 (1 - ((0 + 1 : Nat) : Int)) = [] := irange_empty (by omega)
      simp only [ok_bind, er, mapM_nil, List.append_nil]
      split <;> rfl

example : ([3, 1, 2, 2, 5] : List ℚ) ≠ [] ∧ (2 : Int) ≤ 3 ∧
    calcEvenQuantiles (([3, 1, 2, 2, 5] : List ℚ).map fin) 3 = ok [fin 1, fin 2, fin 5] := by
  refine ⟨by simp, by omega, by decide +kernel⟩

/-- **C06** is false: `calc_even_quantiles({0,0,0,0,1,2,3}, 6)` returns a value twice. -/
theorem c06_duplicates_counterexample :
    calcEvenQuantiles ([fin 0, fin 0, fin 0, fin 0, fin 1, fin 2, fin 3] : List (Fl ℚ)) 6
      = ok [fin 0, fin 1, fin 2, fin 2, fin 2, fin 3] := by decide +kernel

/-- **C06** (partial). No value occurs twice when `num` does not exceed the number of distinct values, or when it is
at least the array size. Missing: `distinct < num < size`, where the claim is false (see the counter-example). -/
theorem c06_no_duplicates_partial (xs : List K) (hne : xs ≠ []) (num : Int) (hnum : 2 ≤ num)
    (h : num ≤ (xs.toFinset.card : Int) ∨ (xs.length : Int) ≤ num) (out : List (Fl K))
    (ho : calcEvenQuantiles (xs.map fin) num = ok out) : out.Nodup := by
  obtain ⟨o, he, hk⟩ := calcEvenQuantiles_ok xs hne num hnum
  rw [he] at ho
  cases ho
  have hs : o.Pairwise (· < ·) := by
    rcases h with h | h
    · exact hk.strict h
    · exact (hk.distinct h).1
  apply List.Nodup.map (fun a b h => fin_inj.mp h)
  exact hs.imp (fun h => h.ne)

example : ([3, 1, 2, 2, 5] : List ℚ) ≠ [] ∧ (2 : Int) ≤ 3 ∧ (3 : Int) ≤ (([3, 1, 2, 2, 5] : List ℚ).toFinset.card : Int) := by
  refine ⟨by simp, by omega, by decide⟩

end Gridpp.Props
