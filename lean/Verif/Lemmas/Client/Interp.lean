import Verif.Lemmas.Interp
import Verif.Lemmas.Client.Series
import Verif.Model.Client.Interp

/-! Lemmas about `Util::interpolate` of the client. -/

set_option linter.unusedSectionVars false

namespace Gridpp.Client
open Fl hiding MV isValid
open Res

variable {K : Type} [Field K] [LinearOrder K] [IsStrictOrderedRing K]

theorem isValid_fin_of_ne {q : K} (h : q ≠ -999) : isValid (fin q) = true := by simp [isValid, h]

theorem lowerLoop_eq (x : K) (xs : List K) (hv : ∀ v ∈ xs, v ≠ -999) (k : Nat) (acc : Option Nat) :
    lowerLoop (fin x) (xs.map fin) k acc = lowerScan (fin x) (xs.map fin) k acc := by
  induction xs generalizing k acc with
  | nil => rfl
  | cons v t ih =>
    have h1 := isValid_fin_of_ne (hv v (by simp))
    simp only [List.map_cons, lowerLoop, lowerScan, h1, Fl.isValid_fin, if_true, ih fun w hw => hv w (by simp [hw])]

theorem upperLoop_eq (x : K) (xs : List K) (hv : ∀ v ∈ xs, v ≠ -999) (acc : Option Nat) :
    upperLoop (fin x) (xs.map fin) acc = upperScan (fin x) (xs.map fin) acc := by
  induction xs generalizing acc with
  | nil => rfl
  | cons v t ih =>
    have h1 := isValid_fin_of_ne (hv v (by simp))
    simp only [List.map_cons, upperLoop, upperScan, h1, Fl.isValid_fin, if_true, ih fun w hw => hv w (by simp [hw])]

theorem getLowerIndex_eq (x : K) (xs : List K) (hv : ∀ v ∈ xs, v ≠ -999) :
    getLowerIndex (fin x) (xs.map fin) = Gridpp.getLowerIndex (fin x) (xs.map fin) := lowerLoop_eq x xs hv 0 none

theorem getUpperIndex_eq (x : K) (xs : List K) (hv : ∀ v ∈ xs, v ≠ -999) :
    getUpperIndex (fin x) (xs.map fin) = Gridpp.getUpperIndex (fin x) (xs.map fin) := by
  unfold getUpperIndex Gridpp.getUpperIndex
  rw [← List.map_reverse]
  exact upperLoop_eq x xs.reverse (fun v hv' => hv v (by simpa using hv')) none

/-- The ordinate chosen for the lower index `i` and upper index `j`. -/
def knotValue (xs ys : List K) (x : K) (i j : Nat) (hi : i < xs.length) (hj : j < xs.length) (hl : xs.length = ys.length) : K :=
  if xs[i] = xs[j] then (ys[i] + ys[j]) / 2
  else ys[i] + (ys[j] - ys[i]) * (x - xs[i]) / (xs[j] - xs[i])

theorem vget_map_fin {l : List K} {i : Nat} (h : i < l.length) : vget (l.map fin) (i : Int) = ok (fin l[i]) := by
  rw [vget_eq_ok_of_lt (by simpa using h)]; simp

theorem vget_map_fin_zero {l : List K} (h : 0 < l.length) : vget (l.map fin) 0 = ok (fin l[0]) := vget_map_fin h

theorem vget_map_fin_last {l : List K} {n : Nat} (h : 0 < n) (hl : n ≤ l.length) :
    vget (l.map fin) ((n : Int) - 1) = ok (fin (l[n - 1]'(by omega))) := by
  have hc : ((n - 1 : Nat) : Int) = (n : Int) - 1 := by omega
  rw [← hc, vget_map_fin]

theorem interpolateAt_eq {xs ys : List K} (hl : xs.length = ys.length) {x : K} {i j : Nat} (hi : i < xs.length) (hj : j < xs.length)
    (hij : xs[i] ≤ xs[j]) :
    interpolateAt (fin x) (xs.map fin) (ys.map fin) (some i) (some j) = ok (fin (knotValue xs ys x i j hi hj hl)) := by
  have h2 : (2 : K) ≠ 0 := two_ne_zero
  unfold interpolateAt knotValue
  simp only [List.length_map, hj, decide_true, assert_true, ok_bind, vget_map_fin hi, vget_map_fin hj, vget_map_fin (hl ▸ hi),
    vget_map_fin (hl ▸ hj), feq_fin, decide_eq_true_eq, ge_fin, hij, fin_sub, fin_mul, fin_add, fin_div_of_ne _ h2]
  by_cases heq : xs[i] = xs[j]
  · simp only [heq, if_true]
  · have : xs[j] - xs[i] ≠ 0 := sub_ne_zero.mpr (Ne.symm heq)
    simp only [heq, if_false, fin_div_of_ne _ this, fin_add]

theorem knotValue_bounds {xs ys : List K} {x : K} {i j : Nat} (hi : IsLower xs x i) (hj : IsUpper xs x j)
    (hl : xs.length = ys.length) {lo hi' : K}
    (h1 : lo ≤ ys[i]'(hl ▸ hi.lt)) (h2 : ys[i]'(hl ▸ hi.lt) ≤ hi') (h3 : lo ≤ ys[j]'(hl ▸ hj.lt)) (h4 : ys[j]'(hl ▸ hj.lt) ≤ hi') :
    lo ≤ knotValue xs ys x i j hi.lt hj.lt hl ∧ knotValue xs ys x i j hi.lt hj.lt hl ≤ hi' := by
  unfold knotValue
  split_ifs with heq
  · constructor <;> linarith
  · have hlt : xs[i]'hi.lt < xs[j]'hj.lt := lt_of_le_of_ne (hi.le.trans hj.ge) heq
    rw [mul_div_assoc]
    apply lerp_bounds _ _ h1 h2 h3 h4
    · exact div_nonneg (sub_nonneg.mpr hi.le) (sub_nonneg.mpr hlt.le)
    · rw [div_le_one (sub_pos.mpr hlt)]
      exact sub_le_sub_right hj.ge _

theorem interpolate_cases {xs ys : List K} (hv : ∀ v ∈ xs, v ≠ -999) (hl : xs.length = ys.length) (hs : xs.Pairwise (· ≤ ·)) (x : K)
    (hne : 0 < xs.length) :
    (x < xs[0] ∧ interpolate (fin x) (xs.map fin) (ys.map fin) = ok (fin (ys[0]'(hl ▸ hne)))) ∨
    (xs[xs.length - 1] < x ∧ interpolate (fin x) (xs.map fin) (ys.map fin) = ok (fin (ys[xs.length - 1]'(by omega)))) ∨
    (xs[0] ≤ x ∧ x ≤ xs[xs.length - 1] ∧ ∃ i j, ∃ (hi : IsLower xs x i) (hj : IsUpper xs x j),
      interpolate (fin x) (xs.map fin) (ys.map fin) = ok (fin (knotValue xs ys x i j hi.lt hj.lt hl))) := by
  have hall : xs[0] ≤ xs[xs.length - 1] := sorted_le hs (Nat.zero_le _) (by omega)
  unfold interpolate
  simp only [List.length_map, vget_map_fin_last hne le_rfl, vget_map_fin_last hne hl.le, ok_bind, gt_fin, lt_fin,
    vget_map_fin_zero hne, vget_map_fin_zero (hl ▸ hne), decide_eq_true_eq]
  by_cases h0 : x < xs[0]
  · left
    rw [if_neg (not_lt.mpr (h0.le.trans hall)), if_pos h0]
    exact ⟨h0, rfl⟩
  · by_cases h1 : xs[xs.length - 1] < x
    · right; left
      rw [if_pos h1]
      exact ⟨h1, rfl⟩
    · right; right
      rw [if_neg h1, if_neg h0]
      push Not at h0 h1
      obtain ⟨i, hi, hi'⟩ := getLowerIndex_some hs x ⟨hne, h0⟩
      obtain ⟨j, hj, hj'⟩ := getUpperIndex_some hs x ⟨by omega, h1⟩
      refine ⟨h0, h1, i, j, hi', hj', ?_⟩
      rw [getLowerIndex_eq x xs hv, getUpperIndex_eq x xs hv, hi, hj]
      exact interpolateAt_eq hl hi'.lt hj'.lt (hi'.le.trans hj'.ge)

/-- Monotonicity in `x` for sorted abscissas (repetitions allowed) and sorted ordinates. -/
theorem interpolate_mono {xs ys : List K} (hv : ∀ v ∈ xs, v ≠ -999) (hl : xs.length = ys.length) (hs : xs.Pairwise (· ≤ ·))
    (hy : ys.Pairwise (· ≤ ·)) {x x' : K} (hxx : x ≤ x') {r r' : K}
    (hr : interpolate (fin x) (xs.map fin) (ys.map fin) = ok (fin r))
    (hr' : interpolate (fin x') (xs.map fin) (ys.map fin) = ok (fin r')) : r ≤ r' := by
  by_cases hne : 0 < xs.length
  swap
  · have : xs = [] := List.length_eq_zero_iff.mp (by omega)
    subst this
    have : ys = [] := List.length_eq_zero_iff.mp (by simpa using hl.symm)
    subst this
    simp [interpolate, vget] at hr
  rcases eq_or_lt_of_le hxx with rfl | hlt
  · rw [hr] at hr'; cases hr'; exact le_refl _
  have hyl : 0 < ys.length := by omega
  have ymin : ∀ k (hk : k < ys.length), ys[0] ≤ ys[k] := fun k hk => sorted_le hy (Nat.zero_le k) hk
  have ymax : ∀ k (hk : k < ys.length), ys[k] ≤ ys[xs.length - 1]'(by omega) :=
    fun k hk => sorted_le hy (by omega) (by omega)
  rcases interpolate_cases hv hl hs x hne with ⟨h0, h⟩ | ⟨h0, h⟩ | ⟨h0, h0', i, j, hi, hj, h⟩ <;>
    rw [hr] at h <;> simp only [Res.ok.injEq, fin_inj] at h <;> subst h <;>
    rcases interpolate_cases hv hl hs x' hne with ⟨h1, h'⟩ | ⟨h1, h'⟩ | ⟨h1, h1', i', j', hi', hj', h'⟩ <;>
    rw [hr'] at h' <;> simp only [Res.ok.injEq, fin_inj] at h' <;> subst h'
  · exact le_refl _
  · exact ymin _ _
  · exact (knotValue_bounds hi' hj' hl (ymin _ _) (ymax _ _) (ymin _ _) (ymax _ _)).1
  · have := sorted_le hs (Nat.zero_le (xs.length - 1)) (by omega)
    exact absurd (h0.trans hlt) (not_lt.mpr (h1.le.trans this))
  · exact le_refl _
  · exact absurd (h0.trans hlt) (not_lt.mpr h1')
  · exact absurd (h0.trans_lt hlt) (not_lt.mpr h1.le)
  · exact (knotValue_bounds hi hj hl (ymin _ _) (ymax _ _) (ymin _ _) (ymax _ _)).2
  · have hij := hi.le_upper hj
    have hij' := hi'.le_upper hj'
    have hyij := sorted_le hy hij (hl ▸ hj.lt)
    have hyij' := sorted_le hy hij' (hl ▸ hj'.lt)
    have hb := knotValue_bounds hi hj hl (le_refl _) hyij hyij (le_refl _)
    have hb' := knotValue_bounds hi' hj' hl (le_refl _) hyij' hyij' (le_refl _)
    by_cases hji : j ≤ i'
    · exact hb.2.trans ((sorted_le hy hji (hl ▸ hi'.lt)).trans hb'.1)
    · push Not at hji
      have hxi' : xs[i']'hi'.lt < x' := by
        rcases eq_or_lt_of_le hi'.le with h | h
        · exfalso
          have h2 : x < xs[j]'hj.lt := lt_of_lt_of_le (h ▸ hlt) (sorted_le hs hji.le hj.lt)
          have h3 := hj.before h2 i' hji
          rw [h] at h3
          exact absurd (hlt.trans h3) (lt_irrefl _)
        · exact h
      obtain ⟨e', g'⟩ := hi'.next hj' hxi'
      have hxj' : x' < xs[j]'hj.lt := hi'.after hxi' j hj.lt hji
      have hxj : x < xs[j]'hj.lt := hlt.trans hxj'
      have hxi : xs[i]'hi.lt < x := by
        rcases eq_or_lt_of_le hi.le with h | h
        · have := (hi.eq_ends hj).mpr h
          rw [← this, h] at hxj
          exact absurd hxj (lt_irrefl _)
        · exact h
      obtain ⟨e, g⟩ := hi.next hj hxi
      have hii : i = i' := by
        have h3 := hj.before hxj i' hji
        rcases Nat.lt_trichotomy i i' with h | h | h
        · omega
        · exact h
        · have h4 := hi'.after hxi' i hi.lt h
          exact absurd (hxi.trans hlt) (not_lt.mpr h4.le)
      subst hii
      have hjj : j = j' := by omega
      subst hjj
      have hne1 : xs[i]'hi.lt ≠ xs[j]'hj.lt := (hxi.trans g).ne
      have hd : 0 < xs[j]'hj.lt - xs[i]'hi.lt := sub_pos.mpr (hxi.trans g)
      unfold knotValue
      rw [if_neg hne1, if_neg hne1]
      have h5 : (0 : K) ≤ ys[j]'(hl ▸ hj.lt) - ys[i]'(hl ▸ hi.lt) := sub_nonneg.mpr hyij
      have : (ys[j]'(hl ▸ hj.lt) - ys[i]'(hl ▸ hi.lt)) * (x - xs[i]'hi.lt) / (xs[j]'hj.lt - xs[i]'hi.lt)
          ≤ (ys[j]'(hl ▸ hj.lt) - ys[i]'(hl ▸ hi.lt)) * (x' - xs[i]'hi.lt) / (xs[j]'hj.lt - xs[i]'hi.lt) := by
        gcongr
      linarith


end Gridpp.Client
