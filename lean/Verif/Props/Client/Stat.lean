import Verif.Lemmas.Client.Stat
import Mathlib.Algebra.Order.Ring.Rat
import Mathlib.Algebra.Field.Rat
import Mathlib.Data.Rat.Floor

/-! # C89: `Util::calculateStat` of the client -/

set_option linter.unusedSectionVars false

namespace Gridpp.Props
open Fl hiding MV isValid
open Res Client Spec

variable {K : Type} [Field K] [LinearOrder K] [IsStrictOrderedRing K] [FloorRing K]

theorem statOf_unique {s : StatType} {p : K} {xs : List K} {v v' : K} (h : StatOf s p xs v) (h' : StatOf s p xs v') : v = v' := by
  cases s with
  | mean => exact h.trans h'.symm
  | sum => exact h.trans h'.symm
  | std =>
    obtain ⟨h0, h1⟩ := h
    obtain ⟨h0', h1'⟩ := h'
    exact (mul_self_inj h0 h0').mp (h1.trans h1'.symm)
  | min => exact le_antisymm (h.2 _ h'.1) (h'.2 _ h.1)
  | max => exact le_antisymm (h'.2 _ h.1) (h.2 _ h'.1)
  | median => exact polyline_unique (pairwise_sorted xs) h h'
  | quantile => exact polyline_unique (pairwise_sorted xs) h h'

/-- **C89**. With at least one value present, and a level in [0, 1] if a quantile is asked for, the result is that statistic of the
values present. -/
theorem c89_value [LawfulSqrt K] (a : List (Fl K)) (s : StatType) (q : Fl K) (p : K) (h : present a ≠ [])
    (hq : s = .quantile → q = fin p ∧ 0 ≤ p ∧ p ≤ 1) : ∃ v, calculateStat a s q = ok (fin v) ∧ StatOf s p (present a) v := by
  have hp : 0 < (present a).length := List.length_pos_iff.mpr h
  have hne : (((present a).length : Nat) : K) ≠ 0 := length_ne_zero h
  have hsl : (sorted (present a)).length = (present a).length := length_sorted _
  cases s with
  | mean =>
    refine ⟨mean (present a), ?_, rfl⟩
    simp only [calculateStat, Client.sumCount_eq, hp, if_true, ofNat_def, fin_div_of_ne _ hne, mean]
  | sum =>
    refine ⟨(present a).sum, ?_, rfl⟩
    simp only [calculateStat, Client.sumCount_eq, hp, if_true]
  | std =>
    have h0 := variance_nonneg (present a)
    refine ⟨HasSqrt.sqrt (variance (present a)), ?_, LawfulSqrt.sqrt_nonneg _ h0, LawfulSqrt.sqrt_mul_self _ h0⟩
    simp only [calculateStat, stdOf_eq a h, sqrt_fin h0]
  | min =>
    obtain ⟨v, hv, hl⟩ := quantileOf_polyline a h (q := 0) le_rfl zero_le_one
    refine ⟨v, hv, ?_⟩
    have h0 : 0 < (sorted (present a)).length := by omega
    have : v = (sorted (present a))[0] := polyline_unique (pairwise_sorted _) hl (Or.inl ⟨0, h0, by simp, rfl⟩)
    rw [this]
    exact minOf_sorted_zero h0
  | max =>
    obtain ⟨v, hv, hl⟩ := quantileOf_polyline a h (q := 1) zero_le_one le_rfl
    refine ⟨v, hv, ?_⟩
    obtain ⟨n, hn⟩ : ∃ n, (present a).length = n + 1 := ⟨(present a).length - 1, by omega⟩
    have h0 : n < (sorted (present a)).length := by omega
    have : v = (sorted (present a))[n] :=
      polyline_unique (pairwise_sorted _) hl (Or.inl ⟨n, h0, by rw [hn]; push_cast; ring, rfl⟩)
    rw [this]
    exact maxOf_sorted_last h0 (by omega)
  | median =>
    have h2 : (1 / 2 : K) ≤ 1 := by rw [div_le_one (by norm_num)]; norm_num
    obtain ⟨v, hv, hl⟩ := quantileOf_polyline a h (q := 1 / 2) (by positivity) h2
    refine ⟨v, hv, ?_⟩
    have : (1 / 2 : K) * ((present a).length - 1) = ((present a).length - 1) / 2 := by ring
    rw [this] at hl
    exact hl
  | quantile =>
    obtain ⟨rfl, h0, h1⟩ := hq rfl
    exact quantileOf_polyline a h h0 h1

example : present ([fin 3, fin (-999), fin 1, nan] : List (Fl ℚ)) ≠ [] ∧
    (StatType.quantile = .quantile → (fin (1 / 4) : Fl ℚ) = fin (1 / 4) ∧ (0 : ℚ) ≤ 1 / 4 ∧ (1 / 4 : ℚ) ≤ 1) := by
  decide +kernel

example : quantileOf ([fin 3, fin (-999), fin 1, nan] : List (Fl ℚ)) (fin (1 / 4)) = ok (fin (3 / 2)) := by decide +kernel

/-- **C89** (nothing present). The result is the missing value, whatever the statistic and the level. -/
theorem c89_missing [HasSqrt K] (a : List (Fl K)) (s : StatType) (q : Fl K) (h : present a = []) :
    calculateStat a s q = ok (fin (-999)) := by
  cases s <;> simp [calculateStat, Client.sumCount_eq, h, stdOf_none, quantileOf_none, MV]

example : present ([fin (-999), nan, pinf] : List (Fl ℚ)) = [] := by decide +kernel

/-- **C89** (bad level). A quantile with a level outside [0, 1], like the default -999, reads outside the array as soon as two
values are present; a level that is not a finite number is converted to an index. -/
theorem c89_bad_level [HasSqrt K] (a : List (Fl K)) (h : 2 ≤ (present a).length) (q : Fl K) (hq : ¬ ∃ p, q = fin p ∧ 0 ≤ p ∧ p ≤ 1) :
    calculateStat a .quantile q = .ub := by
  show quantileOf a q = .ub
  have hN : 0 < (present a).length := by omega
  have hn : (0 : K) < (present a).length - 1 := by
    have : (2 : K) ≤ (present a).length := by exact_mod_cast h
    linarith
  cases q with
  | fin p =>
    refine quantileOf_outside a h ?_
    by_contra hc
    push Not at hc
    exact hq ⟨p, rfl, hc.1, hc.2⟩
  | nan =>
    unfold quantileOf
    simp only [filter_isValid_eq, List.length_map, hN, if_true, stdSort_map_fin, ok_bind]
    rfl
  | pinf =>
    have e : (pinf : Fl K) * Fl.ofInt (((present a).length : Int) - 1) = pinf := by
      rw [ofInt_def]
      show infOfSign _ = pinf
      push_cast
      simp [infOfSign, hn]
    unfold quantileOf
    simp only [filter_isValid_eq, List.length_map, hN, if_true, stdSort_map_fin, ok_bind, e]
    rfl
  | ninf =>
    have e : (ninf : Fl K) * Fl.ofInt (((present a).length : Int) - 1) = ninf := by
      rw [ofInt_def]
      show infOfSign (-_) = ninf
      push_cast
      simp only [infOfSign, Left.neg_pos_iff, Left.neg_neg_iff, not_lt.mpr hn.le, hn, if_true, if_false]
    unfold quantileOf
    simp only [filter_isValid_eq, List.length_map, hN, if_true, stdSort_map_fin, ok_bind, e]
    rfl

example : 2 ≤ (present ([fin 3, fin (-999), fin 1, nan] : List (Fl ℚ))).length ∧
    ¬ ∃ p : ℚ, (fin (-999) : Fl ℚ) = fin p ∧ 0 ≤ p ∧ p ≤ 1 := by
  refine ⟨by decide +kernel, ?_⟩
  rintro ⟨p, h, h0, -⟩
  simp only [Fl.fin.injEq] at h
  rw [← h] at h0
  exact absurd h0 (by decide +kernel)

/-- **C89** (the result need not be told from missing). Two values are present and their median is the missing value. -/
theorem c89_ambiguous [HasSqrt ℚ] : (present ([fin (-998), fin (-1000)] : List (Fl ℚ))).length = 2 ∧
    calculateStat ([fin (-998), fin (-1000)] : List (Fl ℚ)) .median nan = ok (fin (-999)) := by
  refine ⟨by decide +kernel, ?_⟩
  show quantileOf ([fin (-998), fin (-1000)] : List (Fl ℚ)) (fin (1 / 2)) = ok (fin (-999))
  decide +kernel

end Gridpp.Props
