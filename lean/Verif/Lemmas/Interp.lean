import Verif.Model.Util
import Mathlib.Tactic.LinearCombination

/-! Lemmas about `get_lower_index`, `get_upper_index` and `interpolate`. -/

set_option linter.unusedSectionVars false

namespace Gridpp
open Fl Res

section
variable {K : Type} [Field K] [LinearOrder K] [IsStrictOrderedRing K]

/-- What `get_lower_index` returns on a sorted list: the first index equal to `x`, else the last index below. -/
structure IsLower (xs : List K) (x : K) (i : Nat) : Prop where
  lt : i < xs.length
  le : xs[i] ≤ x
  before : ∀ j, (h : j < i) → xs[j] < x
  after : xs[i] < x → ∀ j, (h : j < xs.length) → i < j → x < xs[j]

/-- What `get_upper_index` returns on a sorted list: the last index equal to `x`, else the first index above. -/
structure IsUpper (xs : List K) (x : K) (i : Nat) : Prop where
  lt : i < xs.length
  ge : x ≤ xs[i]
  after : ∀ j, (h : j < xs.length) → i < j → x < xs[j]
  before : x < xs[i] → ∀ j, (h : j < i) → xs[j] < x

theorem lowerScan_eq (x : K) (xs : List K) (hs : xs.Pairwise (· ≤ ·)) (k : Nat) (acc : Option Nat) :
    ∃ c, c ≤ xs.length ∧ (∀ j, (h : j < xs.length) → (j < c ↔ xs[j] < x)) ∧
      lowerScan (fin x) (xs.map fin) k acc =
        if h : c < xs.length then (if xs[c] = x then some (k + c) else if c = 0 then acc else some (k + c - 1))
        else if c = 0 then acc else some (k + c - 1) := by
  induction xs generalizing k acc with
  | nil => exact ⟨0, by simp, by simp, by simp [lowerScan]⟩
  | cons v t ih =>
    rw [List.pairwise_cons] at hs
    by_cases hv : v < x
    · obtain ⟨c, hc, hj, he⟩ := ih hs.2 (k + 1) (some k)
      refine ⟨c + 1, by simpa using hc, ?_, ?_⟩
      · intro j h
        cases j with
        | zero => simpa using hv
        | succ j => simpa using hj j (by simpa using h)
      · simp only [List.map_cons, lowerScan, isValid_fin, if_true, lt_fin, hv, decide_true, he, List.length_cons,
          Nat.add_lt_add_iff_right, List.getElem_cons_succ]
        have h1 : k + 1 + c = k + (c + 1) := by omega
        rw [h1]
        have h2 : (if c = 0 then some k else some (k + (c + 1) - 1)) =
            (if c + 1 = 0 then acc else some (k + (c + 1) - 1)) := by
          by_cases hc0 : c = 0
          · simp [hc0]
          · simp [hc0]
        rw [h2]
    · refine ⟨0, by simp, ?_, ?_⟩
      · intro j h
        simp only [Nat.not_lt_zero, false_iff, not_lt]
        cases j with
        | zero => simpa using hv
        | succ j => exact (not_lt.mp hv).trans (hs.1 _ (by simp))
      · by_cases hvx : v = x
        · simp [lowerScan, hvx]
        · have : x < v := lt_of_le_of_ne (not_lt.mp hv) (Ne.symm hvx)
          simp [lowerScan, hv, hvx, this]

theorem getLowerIndex_some {xs : List K} (hs : xs.Pairwise (· ≤ ·)) (x : K) (h0 : ∃ h : 0 < xs.length, xs[0] ≤ x) :
    ∃ i, getLowerIndex (fin x) (xs.map fin) = some i ∧ IsLower xs x i := by
  obtain ⟨c, hc, hj, he⟩ := lowerScan_eq x xs hs 0 none
  obtain ⟨hl, h0⟩ := h0
  unfold getLowerIndex
  have hmono : ∀ {i j : Nat} (hij : i ≤ j) (hj : j < xs.length), xs[i]'(by omega) ≤ xs[j] := by
    intro i j hij hj
    rcases Nat.lt_or_eq_of_le hij with h | rfl
    · exact List.pairwise_iff_getElem.mp hs i j _ hj h
    · exact le_refl _
  by_cases hcx : ∃ h : c < xs.length, xs[c] = x
  · obtain ⟨h, hcx⟩ := hcx
    refine ⟨c, ?_, ⟨h, hcx.le, fun j h' => (hj j (by omega)).mp h', fun h' => ?_⟩⟩
    · rw [he, dif_pos h, if_pos hcx]; simp
    · rw [hcx] at h'; exact absurd h' (lt_irrefl _)
  · have hc0 : c ≠ 0 := by
      rintro rfl
      have := (hj 0 hl).not.mp (lt_irrefl 0)
      exact hcx ⟨hl, le_antisymm h0 (not_lt.mp this)⟩
    refine ⟨c - 1, ?_, ⟨by omega, ((hj (c-1) (by omega)).mp (by omega)).le, fun j h' => (hj j (by omega)).mp (by omega), ?_⟩⟩
    · rw [he]
      by_cases h : c < xs.length
      · have : ¬ xs[c] = x := fun h' => hcx ⟨h, h'⟩
        simp [h, this, hc0]
      · simp [h, hc0]
    · intro _ j hjl hcj
      have h1 := (hj c (by omega)).not.mp (lt_irrefl c)
      have h2 : x < xs[c]'(by omega) := lt_of_le_of_ne (not_lt.mp h1) (fun h' => hcx ⟨by omega, h'.symm⟩)
      exact lt_of_lt_of_le h2 (hmono (by omega) hjl)

theorem upperScan_eq (x : K) (xs : List K) (hs : xs.Pairwise (· ≤ ·)) (acc : Option Nat) :
    ∃ c, c ≤ xs.length ∧ (∀ j, (h : j < xs.length) → (j < c ↔ xs[j] ≤ x)) ∧
      upperScan (fin x) (xs.map fin).reverse acc =
        if h : 0 < c ∧ c - 1 < xs.length then
          (if xs[c - 1] = x then some (c - 1) else if c = xs.length then acc else some c)
        else if c = xs.length then acc else some c := by
  induction xs using List.reverseRecOn generalizing acc with
  | nil => exact ⟨0, by simp, by simp, by simp [upperScan]⟩
  | append_singleton t v ih =>
    rw [List.pairwise_append] at hs
    obtain ⟨hs1, -, hs2⟩ := hs
    have hle : ∀ w ∈ t, w ≤ v := fun w hw => hs2 w hw v (by simp)
    simp only [List.map_append, List.map_cons, List.map_nil, List.reverse_append, List.reverse_cons, List.reverse_nil,
      List.nil_append, List.singleton_append, upperScan, isValid_fin, if_true, gt_fin, feq_fin, lt_fin, List.length_reverse,
      List.length_map]
    by_cases hv : x < v
    · obtain ⟨c, hc, hj, he⟩ := ih hs1 (some t.length)
      refine ⟨c, by simp; omega, ?_, ?_⟩
      · intro j h
        by_cases hjt : j < t.length
        · rw [List.getElem_append_left hjt]; exact hj j hjt
        · have : j = t.length := by simp at h; omega
          subst this
          simp only [List.getElem_concat_length]
          constructor
          · intro h'; omega
          · intro h'; exact absurd hv (not_lt.mpr h')
      · have hc1 : c ≠ t.length + 1 := by omega
        simp only [hv, decide_true, if_true, he, List.length_append, List.length_cons, List.length_nil, zero_add, hc1,
          if_false]
        have h2 : (if c = t.length then some t.length else some c) = some c := by
          split
          · rename_i h; rw [h]
          · rfl
        rw [h2]
        by_cases h : 0 < c
        · have h3 : c - 1 < t.length := by omega
          have h4 : c - 1 < t.length + 1 := by omega
          simp only [h, h3, h4, and_self, dif_pos, List.getElem_append_left]
        · simp [h]
    · refine ⟨t.length + 1, by simp, ?_, ?_⟩
      · intro j h
        constructor
        · intro _
          by_cases hjt : j < t.length
          · rw [List.getElem_append_left hjt]; exact (hle _ (List.getElem_mem hjt)).trans (not_lt.mp hv)
          · have : j = t.length := by simp at h; omega
            subst this
            simpa using hv
        · intro _; simpa using h
      · by_cases hvx : v = x
        · simp [hvx]
        · have : v < x := lt_of_le_of_ne (not_lt.mp hv) hvx
          simp [hv, hvx, this]

theorem getUpperIndex_some {xs : List K} (hs : xs.Pairwise (· ≤ ·)) (x : K)
    (h0 : ∃ h : xs.length - 1 < xs.length, x ≤ xs[xs.length - 1]) :
    ∃ i, getUpperIndex (fin x) (xs.map fin) = some i ∧ IsUpper xs x i := by
  obtain ⟨c, hc, hj, he⟩ := upperScan_eq x xs hs none
  obtain ⟨hl, h0⟩ := h0
  unfold getUpperIndex
  by_cases hcx : ∃ h : 0 < c ∧ c - 1 < xs.length, xs[c - 1] = x
  · obtain ⟨h, hcx⟩ := hcx
    refine ⟨c - 1, ?_, ⟨h.2, hcx.ge, fun j h1 h2 => ?_, fun h' => ?_⟩⟩
    · rw [he, dif_pos h, if_pos hcx]
    · exact not_le.mp ((hj j h1).not.mp (by omega))
    · rw [hcx] at h'; exact absurd h' (lt_irrefl _)
  · have hc0 : c ≠ xs.length := by
      intro hce
      have := (hj (xs.length - 1) hl).mp (by omega)
      refine hcx ⟨⟨by omega, by omega⟩, ?_⟩
      subst hce
      exact le_antisymm this h0
    refine ⟨c, ?_, ⟨by omega, (not_le.mp ((hj c (by omega)).not.mp (lt_irrefl c))).le, fun j h1 h2 => ?_, fun _ j h' => ?_⟩⟩
    · rw [he]
      by_cases h : 0 < c ∧ c - 1 < xs.length
      · have : ¬ xs[c - 1] = x := fun h' => hcx ⟨h, h'⟩
        simp [h, this, hc0]
      · simp [h, hc0]
    · exact not_le.mp ((hj j h1).not.mp (by omega))
    · have h1 := (hj (c - 1) (by omega)).mp (by omega)
      have h2 : xs[c - 1]'(by omega) < x := lt_of_le_of_ne h1 (fun h'' => hcx ⟨⟨by omega, by omega⟩, h''⟩)
      have h3 : xs[j]'(by omega) ≤ xs[c - 1]'(by omega) := by
        rcases Nat.lt_or_eq_of_le (show j ≤ c - 1 by omega) with h | h
        · exact List.pairwise_iff_getElem.mp hs j (c - 1) _ (by omega) h
        · subst h; exact le_refl _
      exact lt_of_le_of_lt h3 h2

theorem IsLower.unique {xs : List K} {x : K} {i j : Nat} (hi : IsLower xs x i) (hj : IsLower xs x j) : i = j := by
  rcases Nat.lt_trichotomy i j with h | h | h
  · have h1 := hj.before i h
    have h2 := hi.after h1 j hj.lt h
    exact absurd hj.le (not_le.mpr h2)
  · exact h
  · have h1 := hi.before j h
    have h2 := hj.after h1 i hi.lt h
    exact absurd hi.le (not_le.mpr h2)

theorem IsUpper.unique {xs : List K} {x : K} {i j : Nat} (hi : IsUpper xs x i) (hj : IsUpper xs x j) : i = j := by
  rcases Nat.lt_trichotomy i j with h | h | h
  · have h1 := hi.after j hj.lt h
    have h2 := hj.before h1 i h
    exact absurd hi.ge (not_le.mpr h2)
  · exact h
  · have h1 := hj.after i hi.lt h
    have h2 := hi.before h1 j h
    exact absurd hj.ge (not_le.mpr h2)

/-- Value used by `interpolate` inside the curve, given the two indices. -/
theorem interpolate_inside {xs ys : List K} (hl : xs.length = ys.length) {x : K} {i j : Nat}
    (hne : 0 < xs.length) (hfirst : xs[0] ≤ x) (hlast : x ≤ xs[xs.length - 1])
    (hi : getLowerIndex (fin x) (xs.map fin) = some i) (hj : getUpperIndex (fin x) (xs.map fin) = some j)
    (hil : i < xs.length) (hjl : j < xs.length) (hij : xs[i] ≤ xs[j]) :
    interpolate (fin x) (xs.map fin) (ys.map fin) = ok (fin (
      if xs[i] = xs[j] then
        if i = 0 ∧ j = xs.length - 1 then (ys[i] + ys[j]) / 2
        else if i = 0 then ys[j]
        else if j = xs.length - 1 then ys[i]
        else (ys[i] + ys[j]) / 2
      else ys[i] + (ys[j] - ys[i]) * (x - xs[i]) / (xs[j] - xs[i]))) := by
  have hx0 : vget (xs.map fin) 0 = ok (fin xs[0]) := by
    have := vget_eq_ok_of_lt (v := xs.map fin) (n := 0) (by simpa using hne)
    simpa using this
  have hlast' : vget (xs.map fin) ((xs.length : Int) - 1) = ok (fin xs[xs.length - 1]) := by
    have := vget_eq_ok_of_lt (v := xs.map fin) (n := xs.length - 1) (by simp; omega)
    have hc : ((xs.length - 1 : Nat) : Int) = (xs.length : Int) - 1 := by omega
    rw [← hc, this]; simp
  have hxi : vget (xs.map fin) (i : Int) = ok (fin xs[i]) := by
    rw [vget_eq_ok_of_lt (by simpa using hil)]; simp
  have hxj : vget (xs.map fin) (j : Int) = ok (fin xs[j]) := by
    rw [vget_eq_ok_of_lt (by simpa using hjl)]; simp
  have hyi : vget (ys.map fin) (i : Int) = ok (fin ys[i]) := by
    rw [vget_eq_ok_of_lt (by simpa using hl ▸ hil)]; simp
  have hyj : vget (ys.map fin) (j : Int) = ok (fin ys[j]) := by
    rw [vget_eq_ok_of_lt (by simpa using hl ▸ hjl)]; simp
  have h2 : (2 : K) ≠ 0 := two_ne_zero
  unfold interpolate
  simp only [isValid_fin, Bool.not_true, Bool.false_eq_true, if_false, List.length_map, ← hl, ne_eq, not_true,
    hne.ne', hlast', ok_bind, gt_fin, lt_fin, not_lt.mpr hlast, not_lt.mpr hfirst, decide_false, hx0, hi, hj, vgetOpt,
    hxi, hxj, hyi, hyj, feq_fin, decide_eq_true_eq, ge_fin, hij, decide_true, assert_true, fin_sub, fin_mul, fin_add,
    fin_div_of_ne _ h2, Option.some.injEq]
  by_cases heq : xs[i] = xs[j]
  · simp only [heq, if_true]
    split_ifs <;> rfl
  · have : xs[j] - xs[i] ≠ 0 := sub_ne_zero.mpr (Ne.symm heq)
    simp only [heq, if_false, fin_div_of_ne _ this, fin_add]

theorem interpolate_below {xs ys : List K} (hl : xs.length = ys.length) (hs : xs.Pairwise (· ≤ ·)) {x : K}
    (hne : 0 < xs.length) (h : x < xs[0]) : interpolate (fin x) (xs.map fin) (ys.map fin) = ok (fin ys[0]) := by
  have hx0 : vget (xs.map fin) 0 = ok (fin xs[0]) := by
    have := vget_eq_ok_of_lt (v := xs.map fin) (n := 0) (by simpa using hne)
    simpa using this
  have hy0 : vget (ys.map fin) 0 = ok (fin ys[0]) := by
    have := vget_eq_ok_of_lt (v := ys.map fin) (n := 0) (by simpa using hl ▸ hne)
    simpa using this
  have hlast' : vget (xs.map fin) ((xs.length : Int) - 1) = ok (fin xs[xs.length - 1]) := by
    have := vget_eq_ok_of_lt (v := xs.map fin) (n := xs.length - 1) (by simp; omega)
    have hc : ((xs.length - 1 : Nat) : Int) = (xs.length : Int) - 1 := by omega
    rw [← hc, this]; simp
  have : x ≤ xs[xs.length - 1] := by
    apply h.le.trans
    by_cases h1 : xs.length = 1
    · simp [h1]
    · exact List.pairwise_iff_getElem.mp hs 0 (xs.length - 1) _ (by omega) (by omega)
  unfold interpolate
  simp only [isValid_fin, Bool.not_true, Bool.false_eq_true, if_false, List.length_map, ← hl, ne_eq, not_true,
    hne.ne', hlast', ok_bind, gt_fin, lt_fin, not_lt.mpr this, decide_false, hx0, h, decide_true, if_true, hy0]

theorem interpolate_above {xs ys : List K} (hl : xs.length = ys.length) {x : K}
    (hne : 0 < xs.length) (h : xs[xs.length - 1] < x) :
    interpolate (fin x) (xs.map fin) (ys.map fin) = ok (fin (ys[xs.length - 1]'(by omega))) := by
  have hlast' : vget (xs.map fin) ((xs.length : Int) - 1) = ok (fin xs[xs.length - 1]) := by
    have := vget_eq_ok_of_lt (v := xs.map fin) (n := xs.length - 1) (by simp; omega)
    have hc : ((xs.length - 1 : Nat) : Int) = (xs.length : Int) - 1 := by omega
    rw [← hc, this]; simp
  have hylast : vget (ys.map fin) ((xs.length : Int) - 1) = ok (fin (ys[xs.length - 1]'(by omega))) := by
    have := vget_eq_ok_of_lt (v := ys.map fin) (n := xs.length - 1) (by simp; omega)
    have hc : ((xs.length - 1 : Nat) : Int) = (xs.length : Int) - 1 := by omega
    rw [← hc, this]; simp
  unfold interpolate
  simp only [isValid_fin, Bool.not_true, Bool.false_eq_true, if_false, List.length_map, ← hl, ne_eq, not_true,
    hne.ne', hlast', ok_bind, gt_fin, h, decide_true, if_true, hylast]

end
end Gridpp

namespace Gridpp
open Fl Res
section
variable {K : Type} [Field K] [LinearOrder K] [IsStrictOrderedRing K]

/-- The ordinate chosen by `interpolate` for the lower index `i` and upper index `j`. -/
def interpValue (xs ys : List K) (x : K) (i j : Nat) (hi : i < xs.length) (hj : j < xs.length) (hl : xs.length = ys.length) : K :=
  if xs[i] = xs[j] then
    if i = 0 ∧ j = xs.length - 1 then (ys[i] + ys[j]) / 2
    else if i = 0 then ys[j]
    else if j = xs.length - 1 then ys[i]
    else (ys[i] + ys[j]) / 2
  else ys[i] + (ys[j] - ys[i]) * (x - xs[i]) / (xs[j] - xs[i])

theorem sorted_le {xs : List K} (hs : xs.Pairwise (· ≤ ·)) {i j : Nat} (hij : i ≤ j) (hj : j < xs.length) :
    xs[i]'(by omega) ≤ xs[j] := by
  rcases Nat.lt_or_eq_of_le hij with h | rfl
  · exact List.pairwise_iff_getElem.mp hs i j _ hj h
  · exact le_refl _

/-- Bracketing: inside the curve the result is `interpValue` for the lower and upper index. -/
theorem interpolate_bracket {xs ys : List K} (hl : xs.length = ys.length) (hs : xs.Pairwise (· ≤ ·)) {x : K}
    (hne : 0 < xs.length) (hfirst : xs[0] ≤ x) (hlast : x ≤ xs[xs.length - 1]) :
    ∃ i j, ∃ (hi : IsLower xs x i) (hj : IsUpper xs x j),
      interpolate (fin x) (xs.map fin) (ys.map fin) = ok (fin (interpValue xs ys x i j hi.lt hj.lt hl)) := by
  obtain ⟨i, hi, hi'⟩ := getLowerIndex_some hs x ⟨hne, hfirst⟩
  obtain ⟨j, hj, hj'⟩ := getUpperIndex_some hs x ⟨by omega, hlast⟩
  refine ⟨i, j, hi', hj', ?_⟩
  rw [interpolate_inside hl hne hfirst hlast hi hj hi'.lt hj'.lt (hi'.le.trans hj'.ge)]
  rfl

theorem IsLower.le_upper {xs : List K} {x : K} {i j : Nat} (hi : IsLower xs x i) (hj : IsUpper xs x j) : i ≤ j := by
  by_contra h
  push Not at h
  exact absurd (hj.after i hi.lt h) (not_lt.mpr hi.le)

/-- If the lower index is strictly below `x`, the upper index is the next one and strictly above. -/
theorem IsLower.next {xs : List K} {x : K} {i j : Nat} (hi : IsLower xs x i) (hj : IsUpper xs x j) (hx : xs[i]'hi.lt < x) :
    j = i + 1 ∧ x < xs[j]'hj.lt := by
  have hle := hi.le_upper hj
  have hij : i ≠ j := by
    rintro rfl
    exact absurd hx (not_lt.mpr hj.ge)
  have hlt : x < xs[j]'hj.lt := hi.after hx j hj.lt (by omega)
  refine ⟨?_, hlt⟩
  by_contra hc
  have hjl := hj.lt
  have h1 := hi.after hx (i + 1) (by omega) (by omega)
  have h2 := hj.before hlt (i + 1) (by omega)
  exact absurd h1 (not_lt.mpr h2.le)

theorem IsLower.eq_ends {xs : List K} {x : K} {i j : Nat} (hi : IsLower xs x i) (hj : IsUpper xs x j) :
    xs[i]'hi.lt = xs[j]'hj.lt ↔ xs[i]'hi.lt = x := by
  constructor
  · intro h
    exact le_antisymm hi.le (h ▸ hj.ge)
  · intro h
    by_contra hne
    have hlt : x < xs[j]'hj.lt := lt_of_le_of_ne hj.ge (fun h' => hne (h.trans h'))
    have hle := hi.le_upper hj
    have hij : i ≠ j := by rintro rfl; exact hne rfl
    have := hj.before hlt i (by omega)
    rw [h] at this
    exact lt_irrefl _ this

theorem lerp_bounds {a b t lo hi : K} (h0 : 0 ≤ t) (h1 : t ≤ 1) (ha : lo ≤ a) (ha' : a ≤ hi) (hb : lo ≤ b) (hb' : b ≤ hi) :
    lo ≤ a + (b - a) * t ∧ a + (b - a) * t ≤ hi := by
  constructor <;> nlinarith [mul_nonneg h0 (sub_nonneg.mpr hb), mul_nonneg (sub_nonneg.mpr h1) (sub_nonneg.mpr ha),
    mul_nonneg h0 (sub_nonneg.mpr hb'), mul_nonneg (sub_nonneg.mpr h1) (sub_nonneg.mpr ha')]

/-- The value lies between any bounds of the two ordinates. -/
theorem interpValue_bounds {xs ys : List K} {x : K} {i j : Nat} (hi : IsLower xs x i) (hj : IsUpper xs x j)
    (hl : xs.length = ys.length) {lo hi' : K}
    (h1 : lo ≤ ys[i]'(hl ▸ hi.lt)) (h2 : ys[i]'(hl ▸ hi.lt) ≤ hi') (h3 : lo ≤ ys[j]'(hl ▸ hj.lt)) (h4 : ys[j]'(hl ▸ hj.lt) ≤ hi') :
    lo ≤ interpValue xs ys x i j hi.lt hj.lt hl ∧ interpValue xs ys x i j hi.lt hj.lt hl ≤ hi' := by
  unfold interpValue
  split_ifs with heq
  · constructor <;> linarith
  · exact ⟨h3, h4⟩
  · exact ⟨h1, h2⟩
  · constructor <;> linarith
  · have hlt : xs[i]'hi.lt < xs[j]'hj.lt := lt_of_le_of_ne (hi.le.trans hj.ge) heq
    rw [mul_div_assoc]
    apply lerp_bounds _ _ h1 h2 h3 h4
    · exact div_nonneg (sub_nonneg.mpr hi.le) (sub_nonneg.mpr hlt.le)
    · rw [div_le_one (sub_pos.mpr hlt)]
      linarith [hj.ge]

/-- Total form: for every `x` the result is a number, and it is one of the three cases. -/
theorem interpolate_cases {xs ys : List K} (hl : xs.length = ys.length) (hs : xs.Pairwise (· ≤ ·)) (x : K)
    (hne : 0 < xs.length) :
    (x < xs[0] ∧ interpolate (fin x) (xs.map fin) (ys.map fin) = ok (fin ys[0])) ∨
    (xs[xs.length - 1] < x ∧ interpolate (fin x) (xs.map fin) (ys.map fin) = ok (fin (ys[xs.length - 1]'(by omega)))) ∨
    (xs[0] ≤ x ∧ x ≤ xs[xs.length - 1] ∧ ∃ i j, ∃ (hi : IsLower xs x i) (hj : IsUpper xs x j),
      interpolate (fin x) (xs.map fin) (ys.map fin) = ok (fin (interpValue xs ys x i j hi.lt hj.lt hl))) := by
  by_cases h0 : x < xs[0]
  · exact Or.inl ⟨h0, interpolate_below hl hs hne h0⟩
  · by_cases h1 : xs[xs.length - 1] < x
    · exact Or.inr (Or.inl ⟨h1, interpolate_above hl hne h1⟩)
    · exact Or.inr (Or.inr ⟨not_lt.mp h0, not_lt.mp h1, interpolate_bracket hl hs hne (not_lt.mp h0) (not_lt.mp h1)⟩)

/-- Monotonicity in `x` for sorted abscissas (repetitions allowed) and sorted ordinates. -/
theorem interpolate_mono {xs ys : List K} (hl : xs.length = ys.length) (hs : xs.Pairwise (· ≤ ·))
    (hy : ys.Pairwise (· ≤ ·)) {x x' : K} (hxx : x ≤ x') {r r' : K}
    (hr : interpolate (fin x) (xs.map fin) (ys.map fin) = ok (fin r))
    (hr' : interpolate (fin x') (xs.map fin) (ys.map fin) = ok (fin r')) : r ≤ r' := by
  by_cases hne : 0 < xs.length
  swap
  · have : xs = [] := List.length_eq_zero_iff.mp (by omega)
    subst this
    have : ys = [] := List.length_eq_zero_iff.mp (by simpa using hl.symm)
    subst this
    simp [interpolate] at hr
  rcases eq_or_lt_of_le hxx with rfl | hlt
  · rw [hr] at hr'; cases hr'; exact le_refl _
  have hyl : 0 < ys.length := by omega
  have ymin : ∀ k (hk : k < ys.length), ys[0] ≤ ys[k] := fun k hk => sorted_le hy (Nat.zero_le k) hk
  have ymax : ∀ k (hk : k < ys.length), ys[k] ≤ ys[xs.length - 1]'(by omega) :=
    fun k hk => sorted_le hy (by omega) (by omega)
  rcases interpolate_cases hl hs x hne with ⟨h0, h⟩ | ⟨h0, h⟩ | ⟨h0, h0', i, j, hi, hj, h⟩ <;>
    rw [hr] at h <;> simp only [Res.ok.injEq, fin_inj] at h <;> subst h <;>
    rcases interpolate_cases hl hs x' hne with ⟨h1, h'⟩ | ⟨h1, h'⟩ | ⟨h1, h1', i', j', hi', hj', h'⟩ <;>
    rw [hr'] at h' <;> simp only [Res.ok.injEq, fin_inj] at h' <;> subst h'
  · exact le_refl _
  · exact ymin _ _
  · exact (interpValue_bounds hi' hj' hl (ymin _ _) (ymax _ _) (ymin _ _) (ymax _ _)).1
  · have := sorted_le hs (Nat.zero_le (xs.length - 1)) (by omega)
    exact absurd (h0.trans hlt) (not_lt.mpr (h1.le.trans this))
  · exact le_refl _
  · exact absurd (h0.trans hlt) (not_lt.mpr h1')
  · exact absurd (h0.trans_lt hlt) (not_lt.mpr h1.le)
  · exact (interpValue_bounds hi hj hl (ymin _ _) (ymax _ _) (ymin _ _) (ymax _ _)).2
  · have hij := hi.le_upper hj
    have hij' := hi'.le_upper hj'
    have hyij := sorted_le hy hij (hl ▸ hj.lt)
    have hyij' := sorted_le hy hij' (hl ▸ hj'.lt)
    have hb := interpValue_bounds hi hj hl (le_refl _) hyij hyij (le_refl _)
    have hb' := interpValue_bounds hi' hj' hl (le_refl _) hyij' hyij' (le_refl _)
    by_cases hji : j ≤ i'
    · exact hb.2.trans ((sorted_le hy hji (hl ▸ hi'.lt)).trans hb'.1)
    · push Not at hji
      have hxi' : xs[i']'hi'.lt < x' := by
        rcases eq_or_lt_of_le hi'.le with h | h
        · exfalso
          have h2 : x < xs[j]'hj.lt := lt_of_lt_of_le (h ▸ hlt) (sorted_le hs hji.le hj.lt)
          have h3 := hj.before h2 i' hji
          rw [h] at h3
          exact absurd (hlt.trans h3) (lt_irrefl _)
        · exact h
      obtain ⟨e', g'⟩ := hi'.next hj' hxi'
      have hxj' : x' < xs[j]'hj.lt := hi'.after hxi' j hj.lt hji
      have hxj : x < xs[j]'hj.lt := hlt.trans hxj'
      have hxi : xs[i]'hi.lt < x := by
        rcases eq_or_lt_of_le hi.le with h | h
        · have := (hi.eq_ends hj).mpr h
          rw [← this, h] at hxj
          exact absurd hxj (lt_irrefl _)
        · exact h
      obtain ⟨e, g⟩ := hi.next hj hxi
      have hii : i = i' := by
        have h3 := hj.before hxj i' hji
        rcases Nat.lt_trichotomy i i' with h | h | h
        · omega
        · exact h
        · have h4 := hi'.after hxi' i hi.lt h
          exact absurd (hxi.trans hlt) (not_lt.mpr h4.le)
      subst hii
      have hjj : j = j' := by omega
      subst hjj
      have hne1 : xs[i]'hi.lt ≠ xs[j]'hj.lt := (hxi.trans g).ne
      have hd : 0 < xs[j]'hj.lt - xs[i]'hi.lt := sub_pos.mpr (hxi.trans g)
      unfold interpValue
      rw [if_neg hne1, if_neg hne1]
      have h5 : (0 : K) ≤ ys[j]'(hl ▸ hj.lt) - ys[i]'(hl ▸ hi.lt) := sub_nonneg.mpr hyij
      have : (ys[j]'(hl ▸ hj.lt) - ys[i]'(hl ▸ hi.lt)) * (x - xs[i]'hi.lt) / (xs[j]'hj.lt - xs[i]'hi.lt)
          ≤ (ys[j]'(hl ▸ hj.lt) - ys[i]'(hl ▸ hi.lt)) * (x' - xs[i]'hi.lt) / (xs[j]'hj.lt - xs[i]'hi.lt) := by
        gcongr
      linarith

end
end Gridpp
