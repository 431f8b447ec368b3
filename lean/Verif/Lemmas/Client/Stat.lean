import Verif.Lemmas.Client.Sort
import Verif.Spec.ClientStat

/-! # Lemmas about `Util::calculateStat` of the client -/

set_option linter.unusedSectionVars false

namespace Gridpp.Client
open Fl hiding MV isValid
open Res Spec

variable {K : Type} [Field K] [LinearOrder K] [IsStrictOrderedRing K]

theorem sumCount_eq (a : List (Fl K)) : sumCount a = (fin (present a).sum, (present a).length) := by
  have h : sumCount a = (a.filter isValid).foldl (fun (s : Fl K × Nat) v => (s.1 + v, s.2 + 1)) (0, 0) := by
    unfold sumCount
    rw [List.foldl_filter]
  have key : ∀ (xs : List K) (s : K) (c : Nat), (xs.map fin).foldl (fun (s : Fl K × Nat) v => (s.1 + v, s.2 + 1)) (fin s, c) =
      (fin (s + xs.sum), c + xs.length) := by
    intro xs
    induction xs with
    | nil => simp
    | cons x t ih => intro s c; simp [ih]; constructor; ring; omega
  rw [h, filter_isValid_eq, zero_def, key]
  simp

theorem stdStep_eq (a : List (Fl K)) (h : present a ≠ []) : ∃ k, a.foldl stdStep (0, 0, MV, 0) =
    (fin (((present a).map (· - k)).sum), fin (((present a).map fun x => (x - k) * (x - k)).sum), fin k, (present a).length) := by
  have h0 : a.foldl stdStep (0, 0, MV, 0) = (a.filter isValid).foldl stdStep (0, 0, MV, 0) := by
    rw [List.foldl_filter]
    congr 1
    funext s v
    unfold stdStep
    split_ifs <;> rfl
  have hv : ∀ q ∈ present a, q ≠ -999 := fun q hq => (mem_present.mp hq).2
  have key : ∀ (xs : List K) (t t2 k : K) (c : Nat), (∀ q ∈ xs, q ≠ -999) → k ≠ -999 → (xs.map fin).foldl stdStep (fin t, fin t2, fin k, c) =
      (fin (t + (xs.map (· - k)).sum), fin (t2 + (xs.map fun x => (x - k) * (x - k)).sum), fin k, c + xs.length) := by
    intro xs
    induction xs with
    | nil => simp
    | cons x s ih =>
      intro t t2 k c hq hk
      have h1 : isValid (fin x : Fl K) = true := isValid_iff_present.mpr ⟨x, rfl, hq x (by simp)⟩
      have h2 : isValid (fin k : Fl K) = true := isValid_iff_present.mpr ⟨k, rfl, hk⟩
      simp only [List.map_cons, List.foldl_cons, stdStep, h1, h2, if_true, Bool.not_true, Bool.false_eq_true, if_false, fin_sub, fin_mul, fin_add]
      have := ih (t + (x - k)) (t2 + (x - k) * (x - k)) k (c + 1) (fun q h => hq q (by simp [h])) hk
      rw [this]
      simp only [List.sum_cons, List.length_cons, Prod.mk.injEq, Fl.fin.injEq]
      refine ⟨by ring, by ring, trivial, by omega⟩
  rw [h0, filter_isValid_eq]
  obtain ⟨k, t, hk⟩ := List.exists_cons_of_ne_nil h
  rw [hk] at hv ⊢
  refine ⟨k, ?_⟩
  have hk' := hv k (by simp)
  have h1 : isValid (fin k : Fl K) = true := isValid_iff_present.mpr ⟨k, rfl, hk'⟩
  have h2 : isValid (MV : Fl K) = false := isValid_false_iff.mpr not_present_MV
  rw [List.map_cons, List.foldl_cons]
  have : stdStep (0, 0, MV, 0) (fin k : Fl K) = (fin 0, fin 0, fin k, 1) := by
    simp [stdStep, h1, h2, zero_def]
  rw [this, key t 0 0 k 1 (fun q hq => hv q (by simp [hq])) hk']
  simp [add_comm]

theorem stdOf_eq [HasSqrt K] (a : List (Fl K)) (h : present a ≠ []) : stdOf a = Fl.sqrt (fin (variance (present a))) := by
  obtain ⟨k, hk⟩ := stdStep_eq a h
  have hne : (((present a).length : Nat) : K) ≠ 0 := length_ne_zero h
  have hv := shifted_variance (present a) k h
  have h0 := variance_nonneg (present a)
  have hp : 0 < (present a).length := List.length_pos_iff.mpr h
  unfold stdOf
  rw [hk]
  simp only [hp, if_true, ofNat_def, fin_div_of_ne _ hne, fin_mul, fin_sub, hv, zero_def, lt_fin,
    decide_eq_true_eq, not_lt.mpr h0, if_false]

theorem stdOf_none [HasSqrt K] (a : List (Fl K)) (h : present a = []) : stdOf a = MV := by
  have h0 : a.foldl stdStep (0, 0, MV, 0) = (a.filter isValid).foldl stdStep (0, 0, MV, 0) := by
    rw [List.foldl_filter]
    congr 1
    funext s v
    unfold stdStep
    split_ifs <;> rfl
  unfold stdOf
  rw [h0, filter_isValid_eq, h]
  simp

section floor
variable [FloorRing K]

theorem quantileOf_none (a : List (Fl K)) (h : present a = []) (q : Fl K) : quantileOf a q = ok MV := by
  unfold quantileOf
  simp [filter_isValid_eq, h]

theorem quantileOf_polyline (a : List (Fl K)) (h : present a ≠ []) {q : K} (h0 : 0 ≤ q) (h1 : q ≤ 1) :
    ∃ v, quantileOf a (fin q) = ok (fin v) ∧ OnPolyline (sorted (present a)) (q * ((present a).length - 1)) v := by
  set xs := present a with hxs
  have hN : 0 < xs.length := List.length_pos_iff.mpr h
  set s := sorted xs with hs
  have hsl : s.length = xs.length := length_sorted xs
  obtain ⟨n, hn⟩ : ∃ n, xs.length = n + 1 := ⟨xs.length - 1, by omega⟩
  have hcast : ((xs.length : Int) - 1) = (n : Int) := by omega
  have hcastK : ((xs.length : K) - 1) = (n : K) := by rw [hn]; push_cast; ring
  set p : K := q * n with hp
  have hp0 : 0 ≤ p := by positivity
  have hpn : p ≤ n := by
    rw [hp]; calc q * (n : K) ≤ 1 * n := by gcongr
      _ = n := one_mul _
  obtain ⟨lo, hlo⟩ : ∃ lo : Nat, ⌊p⌋ = (lo : Int) := Int.eq_ofNat_of_zero_le (Int.floor_nonneg.mpr hp0)
  have hlo1 : (lo : K) ≤ p := by have := Int.floor_le p; rw [hlo] at this; exact_mod_cast this
  have hlo2 : p < lo + 1 := by have := Int.lt_floor_add_one p; rw [hlo] at this; exact_mod_cast this
  have hlon : lo < s.length := by
    have : (lo : K) ≤ n := hlo1.trans hpn
    have : lo ≤ n := by exact_mod_cast this
    omega
  have unfolded : quantileOf a (fin q) = (do
      let lowerValue ← vget (s.map fin) (lo : Int)
      let upperValue ← vget (s.map fin) ⌈p⌉
      if (lo : Int) = ⌈p⌉ then ok lowerValue
      else do
        assert ((Fl.ofInt ⌈p⌉ / Fl.ofInt (n : Int) : Fl K).gt (Fl.ofInt (lo : Int) / Fl.ofInt (n : Int)))
        assert ((fin q : Fl K).ge (Fl.ofInt (lo : Int) / Fl.ofInt (n : Int)))
        let f := (fin q - Fl.ofInt (lo : Int) / Fl.ofInt (n : Int)) / (Fl.ofInt ⌈p⌉ / Fl.ofInt (n : Int) - Fl.ofInt (lo : Int) / Fl.ofInt (n : Int) : Fl K)
        assert (f.ge 0)
        assert (f.le 1)
        ok (lowerValue + (upperValue - lowerValue) * f)) := by
    unfold quantileOf
    simp only [filter_isValid_eq, ← hxs, List.length_map, hN, if_true,
      stdSort_map_fin, ok_bind, ← hs, ofInt_def, hcast, fin_mul, Int.cast_natCast, ← hp, Fl.floorInt, Fl.ceilInt, hlo]
  have hlov : vget (s.map fin) (lo : Int) = ok (fin s[lo]) := by
    rw [vget_eq_ok_of_lt (by simpa using hlon)]; simp
  by_cases heq : (lo : K) = p
  · have hceil : ⌈p⌉ = (lo : Int) := by rw [← heq]; exact Int.ceil_natCast lo
    refine ⟨s[lo], ?_, Or.inl ⟨lo, hlon, ?_, rfl⟩⟩
    · rw [unfolded, hceil, hlov]; simp
    · rw [hcastK]; exact heq.symm
  · have hlt : (lo : K) < p := lt_of_le_of_ne hlo1 heq
    have hceil : ⌈p⌉ = ((lo + 1 : Nat) : Int) := by
      rw [Int.ceil_eq_iff]; push_cast; constructor <;> linarith
    have hlon' : lo + 1 < s.length := by
      have : (lo : K) < n := lt_of_lt_of_le hlt hpn
      have : lo < n := by exact_mod_cast this
      omega
    have hhiv : vget (s.map fin) ((lo + 1 : Nat) : Int) = ok (fin s[lo + 1]) := by
      rw [vget_eq_ok_of_lt (by simpa using hlon')]; simp
    have hn0 : (n : K) ≠ 0 := by
      intro h; rw [h] at hpn; have : (0:K) ≤ lo := by positivity
      linarith
    have hnpos : (0 : K) < n := lt_of_le_of_ne (by positivity) (Ne.symm hn0)
    have hdiff : ((lo : K) + 1) / n - lo / n = 1 / n := by field_simp; ring
    have hdne : ((lo : K) + 1) / n - lo / n ≠ 0 := by rw [hdiff]; positivity
    have hf : (q - lo / n) / (((lo : K) + 1) / n - lo / n) = p - lo := by
      rw [hdiff, hp]; field_simp
    have hne : ¬ ((lo : Int) = ((lo + 1 : Nat) : Int)) := by omega
    have hql : (lo : K) / n ≤ q := by rw [div_le_iff₀ hnpos]; exact hlo1
    have hgt : (lo : K) / n < ((lo : K) + 1) / n := by
      have : (0 : K) < 1 / n := by positivity
      linarith
    refine ⟨s[lo] + (s[lo + 1] - s[lo]) * (p - lo), ?_, Or.inr ⟨lo, hlon', ?_, ?_, ?_⟩⟩
    · rw [unfolded, hceil, hlov, hhiv]
      simp only [ok_bind, ofInt_def, Int.cast_natCast, Nat.cast_add, Nat.cast_one, fin_div_of_ne _ hn0,
        gt_fin, ge_fin, le_fin, fin_sub, fin_div_of_ne _ hdne, hf, hgt, hql, decide_true, assert_true, zero_def, one_def,
        fin_mul, fin_add, sub_nonneg, hlo1, Int.cast_add, Int.cast_one]
      have : p - lo ≤ 1 := by linarith
      simp [this]
    · rw [hcastK]; exact hlt
    · rw [hcastK]; exact hlo2
    · rw [hcastK]

/-- A level outside [0, 1] reads outside the values if there are at least two. -/
theorem quantileOf_outside (a : List (Fl K)) (h : 2 ≤ (present a).length) {q : K} (hq : q < 0 ∨ 1 < q) : quantileOf a (fin q) = .ub := by
  set xs := present a with hxs
  obtain ⟨n, hn⟩ : ∃ n, xs.length = n + 1 := ⟨xs.length - 1, by omega⟩
  have hn1 : 1 ≤ n := by omega
  have hnK : (0 : K) < n := by exact_mod_cast hn1
  have hcast : ((xs.length : Int) - 1) = (n : Int) := by omega
  have hN : 0 < xs.length := by omega
  have hsl : (sorted xs).length = n + 1 := by rw [length_sorted, hn]
  unfold quantileOf
  simp only [filter_isValid_eq, ← hxs, List.length_map, hN, if_true, stdSort_map_fin, ok_bind, ofInt_def, hcast, fin_mul,
    Int.cast_natCast, Fl.floorInt, Fl.ceilInt]
  rcases hq with hq | hq
  · have : ⌊q * (n : K)⌋ < 0 := by
      rw [Int.floor_lt]
      push_cast
      exact mul_neg_of_neg_of_pos hq hnK
    rw [vget_neg this]
    rfl
  · have hc : (n : Int) + 1 ≤ ⌈q * (n : K)⌉ := by
      rw [Int.add_one_le_iff, Int.lt_ceil]
      push_cast
      calc (n : K) = 1 * n := by ring
        _ < q * n := by gcongr
    have hf : (n : Int) ≤ ⌊q * (n : K)⌋ := by
      rw [Int.le_floor]
      push_cast
      calc (n : K) = 1 * n := by ring
        _ ≤ q * n := by gcongr
    obtain ⟨u, hu⟩ : ∃ u : Nat, ⌈q * (n : K)⌉ = u := ⟨⌈q * (n : K)⌉.toNat, by omega⟩
    obtain ⟨l, hl⟩ : ∃ l : Nat, ⌊q * (n : K)⌋ = l := ⟨⌊q * (n : K)⌋.toNat, by omega⟩
    have hub : vget ((sorted xs).map (fin : K → Fl K)) (u : Int) = .ub := vget_ub_of_le (by rw [List.length_map, hsl]; omega)
    rw [hu, hl, hub]
    by_cases h' : l < ((sorted xs).map (fin : K → Fl K)).length
    · rw [vget_eq_ok_of_lt h', ok_bind]; rfl
    · rw [vget_ub_of_le (by omega)]; rfl

end floor

end Gridpp.Client
