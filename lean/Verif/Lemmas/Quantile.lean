import Verif.Lemmas.Stats

/-! Lemmas about `calc_quantile`. -/

set_option linter.unusedSectionVars false

namespace Gridpp
open Fl Res Spec

section
variable {K : Type} [Field K] [LinearOrder K] [IsStrictOrderedRing K]

theorem any_isNan_map_fin (xs : List K) : (xs.map fin).any Fl.isNan = false := by
  simp [Fl.isNan]

theorem stdSort_map_fin (xs : List K) : stdSort (xs.map fin) = ok ((sorted xs).map fin) := by
  unfold stdSort sorted
  rw [any_isNan_map_fin]
  simp only [Bool.false_eq_true, if_false, Res.ok.injEq]
  symm
  apply List.map_insertionSort
  intro a _ b _
  simp

theorem sorted_perm (xs : List K) : (sorted xs).Perm xs := List.perm_insertionSort _ _

theorem length_sorted (xs : List K) : (sorted xs).length = xs.length := (sorted_perm xs).length_eq

theorem pairwise_sorted (xs : List K) : (sorted xs).Pairwise (· ≤ ·) := List.pairwise_insertionSort _ _

theorem sorted_mono {xs : List K} {i j : Nat} (hij : i ≤ j) (hj : j < (sorted xs).length) :
    (sorted xs)[i]'(by omega) ≤ (sorted xs)[j] := by
  rcases Nat.lt_or_eq_of_le hij with h | rfl
  · exact List.pairwise_iff_getElem.mp (pairwise_sorted xs) i j _ hj h
  · exact le_refl _

theorem sorted_congr {xs ys : List K} (h : xs.Perm ys) : sorted xs = sorted ys := by
  apply List.Perm.eq_of_pairwise (le := (· ≤ ·)) (fun a b _ _ => le_antisymm) (pairwise_sorted _) (pairwise_sorted _)
  exact (sorted_perm xs).trans (h.trans (sorted_perm ys).symm)

theorem minOf_sorted_zero {xs : List K} (h : 0 < (sorted xs).length) : MinOf (sorted xs)[0] xs := by
  refine ⟨(sorted_perm xs).mem_iff.mp (List.getElem_mem h), fun x hx => ?_⟩
  obtain ⟨i, hi, rfl⟩ := List.getElem_of_mem ((sorted_perm xs).mem_iff.mpr hx)
  exact sorted_mono (Nat.zero_le i) hi

theorem maxOf_sorted_last {xs : List K} {n : Nat} (h : n < (sorted xs).length) (hn : n + 1 = (sorted xs).length) :
    MaxOf (sorted xs)[n] xs := by
  refine ⟨(sorted_perm xs).mem_iff.mp (List.getElem_mem h), fun x hx => ?_⟩
  obtain ⟨i, hi, rfl⟩ := List.getElem_of_mem ((sorted_perm xs).mem_iff.mpr hx)
  exact sorted_mono (by omega) h

/-- The polyline through a non-decreasing sequence is non-decreasing. -/
theorem polyline_mono {s : List K} (hs : s.Pairwise (· ≤ ·)) {p p' v v' : K} (hp : p ≤ p')
    (h : OnPolyline s p v) (h' : OnPolyline s p' v') : v ≤ v' := by
  have mono : ∀ {i j : Nat} (hij : i ≤ j) (hj : j < s.length), s[i]'(by omega) ≤ s[j] := by
    intro i j hij hj
    rcases Nat.lt_or_eq_of_le hij with h | rfl
    · exact List.pairwise_iff_getElem.mp hs i j _ hj h
    · exact le_refl _
  rcases h with ⟨i, hi, rfl, rfl⟩ | ⟨i, hi, h1, h2, rfl⟩ <;>
    rcases h' with ⟨j, hj, rfl, rfl⟩ | ⟨j, hj, h1', h2', rfl⟩
  · exact mono (by exact_mod_cast hp) hj
  · have hij : i ≤ j := by
      have : (i : K) < ((j + 1 : Nat) : K) := by push_cast; exact lt_of_le_of_lt hp h2'
      have : i < j + 1 := by exact_mod_cast this
      omega
    have := mono hij (by omega)
    have h3 := mono (Nat.le_succ j) hj
    nlinarith [mul_nonneg (sub_nonneg.mpr h3) (sub_nonneg.mpr h1'.le)]
  · have hij : i + 1 ≤ j := by
      have : (i : K) < (j : K) := lt_of_lt_of_le h1 hp
      have : i < j := by exact_mod_cast this
      omega
    have := mono hij (by omega)
    have h3 := mono (Nat.le_succ i) hi
    nlinarith [mul_nonneg (sub_nonneg.mpr h3) (sub_nonneg.mpr h2.le)]
  · have hij : i ≤ j := by
      have : (i : K) < ((j + 1 : Nat) : K) := by push_cast; exact lt_of_lt_of_le h1 (hp.trans h2'.le)
      have : i < j + 1 := by exact_mod_cast this
      omega
    have h3 := mono (Nat.le_succ i) hi
    have h3' := mono (Nat.le_succ j) hj
    rcases Nat.lt_or_eq_of_le hij with h | rfl
    · have := mono (i := i + 1) (j := j) (by omega) (by omega)
      nlinarith [mul_nonneg (sub_nonneg.mpr h3) (sub_nonneg.mpr h2.le),
        mul_nonneg (sub_nonneg.mpr h3') (sub_nonneg.mpr h1'.le)]
    · nlinarith [mul_nonneg (sub_nonneg.mpr h3) (sub_nonneg.mpr hp)]

theorem polyline_unique {s : List K} (hs : s.Pairwise (· ≤ ·)) {p v v' : K}
    (h : OnPolyline s p v) (h' : OnPolyline s p v') : v = v' :=
  le_antisymm (polyline_mono hs le_rfl h h') (polyline_mono hs le_rfl h' h)

section floor
variable [FloorRing K]

theorem calcQuantile_invalid_level (a : List (Fl K)) (q : Fl K) :
    (q.lt 0 = true ∨ q.gt 1 = true) → calcQuantile a q = .throw .invalidArgument := by
  intro h
  unfold calcQuantile
  rw [if_pos (by simpa using h)]

theorem calcQuantile_nan (a : List (Fl K)) : calcQuantile a nan = ok nan := by
  simp [calcQuantile]

theorem calcQuantile_none (a : List (Fl K)) (h : vals a = []) {q : K} (h0 : 0 ≤ q) (h1 : q ≤ 1) :
    calcQuantile a (fin q) = ok nan := by
  unfold calcQuantile
  simp [not_lt.mpr h0, not_lt.mpr h1, foldl_minStep_none a h, foldl_maxStep_none a h, filter_isValid, h]

theorem calcQuantile_zero (a : List (Fl K)) (h : vals a ≠ []) :
    ∃ r, calcQuantile a (fin 0) = ok (fin r) ∧ MinOf r (vals a) := by
  obtain ⟨r, h1, h2⟩ := foldl_minStep a h
  have hl : a ≠ [] := by rintro rfl; simp at h
  refine ⟨r, ?_, h2⟩
  simp [calcQuantile, h1, hl]

theorem calcQuantile_one (a : List (Fl K)) (h : vals a ≠ []) :
    ∃ r, calcQuantile a (fin 1) = ok (fin r) ∧ MaxOf r (vals a) := by
  obtain ⟨r, h1, h2⟩ := foldl_maxStep a h
  have hl : a ≠ [] := by rintro rfl; simp at h
  refine ⟨r, ?_, h2⟩
  simp [calcQuantile, h1, hl]

theorem calcQuantile_mid (a : List (Fl K)) (h : vals a ≠ []) {q : K} (h0 : 0 < q) (h1 : q < 1) :
    ∃ v, calcQuantile a (fin q) = ok (fin v) ∧
      OnPolyline (sorted (vals a)) (q * ((vals a).length - 1)) v := by
  have hl : a.length ≠ 0 := by intro h'; rw [List.length_eq_zero_iff] at h'; subst h'; simp at h
  set xs := vals a with hxs
  have hN : 0 < xs.length := List.length_pos_iff.mpr h
  set s := sorted xs with hs
  have hsl : s.length = xs.length := length_sorted xs
  obtain ⟨n, hn⟩ : ∃ n, xs.length = n + 1 := ⟨xs.length - 1, by omega⟩
  have hcast : ((xs.length : Int) - 1) = (n : Int) := by omega
  have hcastK : ((xs.length : K) - 1) = (n : K) := by rw [hn]; push_cast; ring
  set p : K := q * n with hp
  have hp0 : 0 ≤ p := by positivity
  have hpn : p ≤ n := by
    rw [hp]; calc q * (n : K) ≤ 1 * n := by gcongr
      _ = n := one_mul _
  obtain ⟨lo, hlo⟩ : ∃ lo : Nat, ⌊p⌋ = (lo : Int) := Int.eq_ofNat_of_zero_le (Int.floor_nonneg.mpr hp0)
  have hlo1 : (lo : K) ≤ p := by have := Int.floor_le p; rw [hlo] at this; exact_mod_cast this
  have hlo2 : p < lo + 1 := by have := Int.lt_floor_add_one p; rw [hlo] at this; exact_mod_cast this
  have hlon : lo < s.length := by
    have : (lo : K) ≤ n := hlo1.trans hpn
    have : lo ≤ n := by exact_mod_cast this
    omega
  have hq0 : ¬ q < 0 := not_lt.mpr h0.le
  have hq1 : ¬ 1 < q := not_lt.mpr h1.le
  have unfolded : calcQuantile a (fin q) = (do
      let lowerValue ← vget (s.map fin) (lo : Int)
      let upperValue ← vget (s.map fin) ⌈p⌉
      if (lo : Int) = ⌈p⌉ then ok lowerValue
      else do
        assert ((Fl.ofInt ⌈p⌉ / Fl.ofInt (n : Int) : Fl K).gt (Fl.ofInt (lo : Int) / Fl.ofInt (n : Int)))
        assert ((fin q : Fl K).ge (Fl.ofInt (lo : Int) / Fl.ofInt (n : Int)))
        let f := (fin q - Fl.ofInt (lo : Int) / Fl.ofInt (n : Int)) / (Fl.ofInt ⌈p⌉ / Fl.ofInt (n : Int) - Fl.ofInt (lo : Int) / Fl.ofInt (n : Int) : Fl K)
        assert (f.ge 0)
        assert (f.le 1)
        ok (lowerValue + (upperValue - lowerValue) * f)) := by
    unfold calcQuantile
    simp only [zero_def, one_def, lt_fin, gt_fin, hq0, hq1, decide_false, Bool.or_self, Bool.false_eq_true, if_false,
      isValid_fin, Bool.not_true, hl, feq_fin, h0.ne', h1.ne, filter_isValid, ← hxs, List.length_map, hN, if_true,
      stdSort_map_fin, ok_bind, ← hs, ofInt_def, hcast, fin_mul, Int.cast_natCast, ← hp, Fl.floorInt, Fl.ceilInt, hlo]
  have hlov : vget (s.map fin) (lo : Int) = ok (fin s[lo]) := by
    rw [vget_eq_ok_of_lt (by simpa using hlon)]; simp
  by_cases heq : (lo : K) = p
  · have hceil : ⌈p⌉ = (lo : Int) := by rw [← heq]; exact Int.ceil_natCast lo
    refine ⟨s[lo], ?_, Or.inl ⟨lo, hlon, ?_, rfl⟩⟩
    · rw [unfolded, hceil, hlov]; simp
    · rw [hcastK]; exact heq.symm
  · have hlt : (lo : K) < p := lt_of_le_of_ne hlo1 heq
    have hceil : ⌈p⌉ = ((lo + 1 : Nat) : Int) := by
      rw [Int.ceil_eq_iff]; push_cast; constructor <;> linarith
    have hlon' : lo + 1 < s.length := by
      have : (lo : K) < n := lt_of_lt_of_le hlt hpn
      have : lo < n := by exact_mod_cast this
      omega
    have hhiv : vget (s.map fin) ((lo + 1 : Nat) : Int) = ok (fin s[lo + 1]) := by
      rw [vget_eq_ok_of_lt (by simpa using hlon')]; simp
    have hn0 : (n : K) ≠ 0 := by
      intro h; rw [h] at hpn; have : (0:K) ≤ lo := by positivity
      linarith
    have hnpos : (0 : K) < n := lt_of_le_of_ne (by positivity) (Ne.symm hn0)
    have hdiff : ((lo : K) + 1) / n - lo / n = 1 / n := by field_simp; ring
    have hdne : ((lo : K) + 1) / n - lo / n ≠ 0 := by rw [hdiff]; positivity
    have hf : (q - lo / n) / (((lo : K) + 1) / n - lo / n) = p - lo := by
      rw [hdiff, hp]; field_simp
    have hne : ¬ ((lo : Int) = ((lo + 1 : Nat) : Int)) := by omega
    have hql : (lo : K) / n ≤ q := by rw [div_le_iff₀ hnpos]; exact hlo1
    have hgt : (lo : K) / n < ((lo : K) + 1) / n := by
      have : (0 : K) < 1 / n := by positivity
      linarith
    refine ⟨s[lo] + (s[lo + 1] - s[lo]) * (p - lo), ?_, Or.inr ⟨lo, hlon', ?_, ?_, ?_⟩⟩
    · rw [unfolded, hceil, hlov, hhiv]
      simp only [ok_bind, ofInt_def, Int.cast_natCast, Nat.cast_add, Nat.cast_one, fin_div_of_ne _ hn0,
        gt_fin, ge_fin, le_fin, fin_sub, fin_div_of_ne _ hdne, hf, hgt, hql, decide_true, assert_true, zero_def, one_def,
        fin_mul, fin_add, sub_nonneg, hlo1, Int.cast_add, Int.cast_one]
      have : p - lo ≤ 1 := by linarith
      simp [this]
    · rw [hcastK]; exact hlt
    · rw [hcastK]; exact hlo2
    · rw [hcastK]

theorem calcQuantile_polyline (a : List (Fl K)) (h : vals a ≠ []) {q : K} (h0 : 0 ≤ q) (h1 : q ≤ 1) :
    ∃ v, calcQuantile a (fin q) = ok (fin v) ∧
      OnPolyline (sorted (vals a)) (q * ((vals a).length - 1)) v := by
  have hN : 0 < (vals a).length := List.length_pos_iff.mpr h
  have hsl : (sorted (vals a)).length = (vals a).length := length_sorted _
  rcases eq_or_lt_of_le h0 with rfl | h0
  · obtain ⟨r, hr, hm⟩ := calcQuantile_zero a h
    refine ⟨r, hr, Or.inl ⟨0, by omega, by simp, ?_⟩⟩
    exact MinOf.unique (.refl _) hm (minOf_sorted_zero (by omega))
  · rcases eq_or_lt_of_le h1 with rfl | h1
    · obtain ⟨r, hr, hm⟩ := calcQuantile_one a h
      obtain ⟨n, hn⟩ : ∃ n, (vals a).length = n + 1 := ⟨(vals a).length - 1, by omega⟩
      refine ⟨r, hr, Or.inl ⟨n, by omega, by rw [hn]; push_cast; ring, ?_⟩⟩
      exact MaxOf.unique (.refl _) hm (maxOf_sorted_last (by omega) (by omega))
    · exact calcQuantile_mid a h h0 h1

theorem calcQuantile_perm {a b : List (Fl K)} (h : (vals a).Perm (vals b)) (q : Fl K) :
    calcQuantile a q = calcQuantile b q := by
  cases q with
  | nan => rw [calcQuantile_nan, calcQuantile_nan]
  | pinf => rw [calcQuantile_invalid_level a _ (by simp [Fl.gt, Fl.lt]), calcQuantile_invalid_level b _ (by simp [Fl.gt, Fl.lt])]
  | ninf => rw [calcQuantile_invalid_level a _ (by simp [Fl.lt]), calcQuantile_invalid_level b _ (by simp [Fl.lt])]
  | fin q =>
    by_cases hq : 0 ≤ q ∧ q ≤ 1
    · by_cases ha : vals a = []
      · have hb : vals b = [] := by rw [ha] at h; exact List.nil_perm.mp h
        rw [calcQuantile_none a ha hq.1 hq.2, calcQuantile_none b hb hq.1 hq.2]
      · have hb : vals b ≠ [] := by intro hb; rw [hb] at h; exact ha (List.perm_nil.mp h)
        obtain ⟨v, hv, hp⟩ := calcQuantile_polyline a ha hq.1 hq.2
        obtain ⟨w, hw, hp'⟩ := calcQuantile_polyline b hb hq.1 hq.2
        rw [sorted_congr h, h.length_eq] at hp
        rw [hv, hw, polyline_unique (pairwise_sorted _) hp hp']
    · have hq' : q < 0 ∨ 1 < q := by
        by_contra hc; push Not at hc; exact hq hc
      rw [calcQuantile_invalid_level a _ (by simpa using hq'), calcQuantile_invalid_level b _ (by simpa using hq')]

end floor
end
end Gridpp
