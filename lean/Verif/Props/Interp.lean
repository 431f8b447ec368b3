import Verif.Lemmas.Interp
import Verif.Base.Inst

/-! # C07–C09: interpolate -/

set_option linter.unusedSectionVars false

namespace Gridpp.Props
open Fl Res

variable {K : Type} [Field K] [LinearOrder K] [IsStrictOrderedRing K]

/-- **C07**. `interpolate` on a sorted curve of finite values: a number for every finite `x` (no invalid read),
clamped outside, exact at a knot that is not repeated, linear between neighbouring knots, within the range of `Y`. -/
theorem c07_interpolate (xs ys : List K) (hl : xs.length = ys.length) (hs : xs.Pairwise (· ≤ ·)) (hne : 0 < xs.length)
    (x : K) :
    ∃ r, interpolate (fin x) (xs.map fin) (ys.map fin) = ok (fin r) ∧
      (x < xs[0] → r = ys[0]) ∧
      (xs[xs.length - 1] < x → r = ys[xs.length - 1]'(by omega)) ∧
      (∀ i, (h : i < xs.length) → xs[i] = x → (∀ k, (hk : k < xs.length) → k ≠ i → xs[k] ≠ x) → r = ys[i]) ∧
      (∀ i, (h : i + 1 < xs.length) → xs[i] < x → x < xs[i + 1] →
        r = ys[i] + (ys[i + 1] - ys[i]) * ((x - xs[i]) / (xs[i + 1] - xs[i]))) ∧
      (∀ lo hi, (∀ y ∈ ys, lo ≤ y ∧ y ≤ hi) → lo ≤ r ∧ r ≤ hi) := by
  have hmono := fun {i j : Nat} (hij : i ≤ j) (hj : j < xs.length) => sorted_le hs hij hj
  have hyl : 0 < ys.length := by omega
  rcases interpolate_cases hl hs x hne with ⟨h0, h⟩ | ⟨h0, h⟩ | ⟨h0, h0', i, j, hi, hj, h⟩
  · refine ⟨_, h, fun _ => rfl, fun h1 => ?_, fun i hi hix _ => ?_, fun i hi h1 _ => ?_, fun lo hi hb => hb _ (List.getElem_mem _)⟩
    · have := hmono (Nat.zero_le (xs.length - 1)) (by omega)
      exact absurd (h0.trans_le this) (not_lt.mpr h1.le)
    · have := hmono (Nat.zero_le i) hi
      rw [hix] at this; exact absurd h0 (not_lt.mpr this)
    · have := hmono (Nat.zero_le i) (by omega)
      exact absurd (h0.trans_le this) (not_lt.mpr h1.le)
  · refine ⟨_, h, fun h1 => ?_, fun _ => rfl, fun i hi hix _ => ?_, fun i hi _ h1 => ?_, fun lo hi hb => hb _ (List.getElem_mem _)⟩
    · have := hmono (Nat.zero_le (xs.length - 1)) (by omega)
      exact absurd (h1.trans_le this) (not_lt.mpr h0.le)
    · have := hmono (show i ≤ xs.length - 1 by omega) (by omega)
      rw [hix] at this; exact absurd h0 (not_lt.mpr this)
    · have := hmono (show i + 1 ≤ xs.length - 1 by omega) (by omega)
      exact absurd (h1.trans_le this) (not_lt.mpr h0.le)
  · refine ⟨_, h, fun h1 => absurd h1 (not_lt.mpr h0), fun h1 => absurd h1 (not_lt.mpr h0'), ?_, ?_, ?_⟩
    · intro k hk hkx huniq
      have hlo : IsLower xs x k := by
        refine ⟨hk, hkx.le, fun m hm => ?_, fun h' => absurd hkx h'.ne⟩
        exact lt_of_le_of_ne (hkx ▸ hmono hm.le hk) (huniq m (by omega) (by omega))
      have hup : IsUpper xs x k := by
        refine ⟨hk, hkx.ge, fun m hm hm' => ?_, fun h' => absurd hkx h'.ne'⟩
        exact lt_of_le_of_ne (hkx ▸ hmono hm'.le hm) (Ne.symm (huniq m hm (by omega)))
      obtain rfl := hi.unique hlo
      obtain rfl := hj.unique hup
      unfold interpValue
      split_ifs <;> first | rfl | ring_nf
    · intro k hk h1 h2
      have hlo : IsLower xs x k :=
        ⟨by omega, h1.le, fun m hm => lt_of_le_of_lt (hmono hm.le (by omega)) h1,
          fun _ m hm hm' => lt_of_lt_of_le h2 (hmono (show k + 1 ≤ m by omega) hm)⟩
      have hup : IsUpper xs x (k + 1) :=
        ⟨hk, h2.le, fun m hm hm' => lt_of_lt_of_le h2 (hmono (show k + 1 ≤ m by omega) hm),
          fun _ m hm => lt_of_le_of_lt (hmono (show m ≤ k by omega) (by omega)) h1⟩
      obtain rfl := hi.unique hlo
      obtain rfl := hj.unique hup
      unfold interpValue
      rw [if_neg (h1.trans h2).ne, mul_div_assoc]
    · intro lo hi' hb
      have h1 := hb _ (List.getElem_mem (hl ▸ hi.lt))
      have h2 := hb _ (List.getElem_mem (hl ▸ hj.lt))
      exact interpValue_bounds hi hj hl h1.1 h1.2 h2.1 h2.2

/-- **C07** (monotone). With non-decreasing abscissas (repetitions allowed) and ordinates the result is
non-decreasing in `x`. -/
theorem c07_mono (xs ys : List K) (hl : xs.length = ys.length) (hs : xs.Pairwise (· ≤ ·)) (hy : ys.Pairwise (· ≤ ·))
    (x x' : K) (hxx : x ≤ x') (r r' : K) (hr : interpolate (fin x) (xs.map fin) (ys.map fin) = ok (fin r))
    (hr' : interpolate (fin x') (xs.map fin) (ys.map fin) = ok (fin r')) : r ≤ r' :=
  interpolate_mono hl hs hy hxx hr hr'

example : ([1, 2, 2, 5] : List ℚ).length = ([0, 1, 3, 4] : List ℚ).length ∧ ([1, 2, 2, 5] : List ℚ).Pairwise (· ≤ ·) ∧
    ([0, 1, 3, 4] : List ℚ).Pairwise (· ≤ ·) ∧
    interpolate (fin (3/2)) ([1, 2, 2, 5].map fin) ([0, 1, 3, 4].map fin) = (ok (fin (1/2)) : Res (Fl ℚ)) ∧
    interpolate (fin (7/2)) ([1, 2, 2, 5].map fin) ([0, 1, 3, 4].map fin) = (ok (fin (7/2)) : Res (Fl ℚ)) := by
  decide +kernel

/-- **C08**. Missing `x` first, then the size check, then empty curves. -/
theorem c08_contract (x : Fl K) (iX iY : List (Fl K)) :
    (x.isValid = false → interpolate x iX iY = ok MV) ∧
    (x.isValid = true → iX.length ≠ iY.length → interpolate x iX iY = .throw .invalidArgument) ∧
    interpolate x [] [] = ok MV := by
  refine ⟨fun h => ?_, fun h hl => ?_, ?_⟩
  · simp [interpolate, h]
  · simp [interpolate, h, hl]
  · unfold interpolate
    cases x.isValid <;> simp

/-- **C08** (vector overload). The size check precedes the lookups, so it throws (and does not terminate the
process) even for an empty or all-missing lookup vector. -/
theorem c08_vec_contract (x iX iY : List (Fl K)) :
    (iX.length ≠ iY.length → interpolateVec x iX iY = .throw .invalidArgument) ∧
    (iX.length = iY.length → ∀ r, interpolateVec x iX iY = ok r → r.length = x.length ∧
      ∀ i, (h : i < x.length) → (h' : i < r.length) → interpolate x[i] iX iY = ok r[i]) := by
  refine ⟨fun h => by simp [interpolateVec, h], fun h r hr => ?_⟩
  unfold interpolateVec at hr
  rw [if_neg (by simpa using h)] at hr
  cases hm : mapM (fun v => interpolate v iX iY) x with
  | ok b =>
    rw [hm] at hr
    cases hr
    have hf := mapM_eq_ok hm
    refine ⟨(hf.length_eq).symm, fun i h1 h2 => ?_⟩
    exact (List.forall₂_iff_get.mp hf).2 i h1 h2
  | _ => rw [hm] at hr; cases hr

example : ([fin 1, fin 2] : List (Fl ℚ)).length ≠ ([fin 1] : List (Fl ℚ)).length := by decide

/-- **C09**. `x` equals the abscissas `xs[i] .. xs[j]` of a run: the average of the ordinates at both ends of the run
when the run touches neither or both ends of the curve, else the ordinate at the inner end. -/
theorem c09_ties (xs ys : List K) (hl : xs.length = ys.length) (hs : xs.Pairwise (· ≤ ·)) (x : K)
    (i j : Nat) (hij : i ≤ j) (hj : j < xs.length)
    (hrun : ∀ k, (hk : k < xs.length) → (xs[k] = x ↔ i ≤ k ∧ k ≤ j)) :
    interpolate (fin x) (xs.map fin) (ys.map fin) = ok (fin (
      if i = 0 ∧ j + 1 < xs.length then ys[j]
      else if 0 < i ∧ j + 1 = xs.length then ys[i]
      else (ys[i] + ys[j]) / 2)) := by
  have hmono := fun {i j : Nat} (hij : i ≤ j) (hj : j < xs.length) => sorted_le hs hij hj
  have hi : i < xs.length := by omega
  have hne : 0 < xs.length := by omega
  have hix : xs[i] = x := (hrun i hi).mpr ⟨le_refl _, hij⟩
  have hjx : xs[j] = x := (hrun j hj).mpr ⟨hij, le_refl _⟩
  have hlo : IsLower xs x i := by
    refine ⟨hi, hix.le, fun m hm => ?_, fun h' => absurd hix h'.ne⟩
    exact lt_of_le_of_ne (hix ▸ hmono hm.le hi) (fun h => by have := (hrun m (by omega)).mp h; omega)
  have hup : IsUpper xs x j := by
    refine ⟨hj, hjx.ge, fun m hm hm' => ?_, fun h' => absurd hjx h'.ne'⟩
    exact lt_of_le_of_ne (hjx ▸ hmono hm'.le hm) (fun h => by have := (hrun m hm).mp h.symm; omega)
  have h0 : xs[0] ≤ x := hix ▸ hmono (Nat.zero_le i) hi
  have h1 : x ≤ xs[xs.length - 1] := hjx ▸ hmono (show j ≤ xs.length - 1 by omega) (by omega)
  obtain ⟨i', j', hi', hj', h⟩ := interpolate_bracket hl hs hne h0 h1
  obtain rfl := hi'.unique hlo
  obtain rfl := hj'.unique hup
  rw [h]
  unfold interpValue
  rw [if_pos (hix.trans hjx.symm)]
  congr 2
  by_cases a : i' = 0 <;> by_cases b : j' = xs.length - 1
  · rw [if_pos ⟨a, b⟩, if_neg (by omega), if_neg (by omega)]
  · rw [if_neg (by omega), if_pos a, if_pos (by omega)]
  · have h1 : j' + 1 = xs.length := by omega
    have h2 : 0 < i' := by omega
    have h3 : ¬ (i' = 0 ∧ j' + 1 < xs.length) := by omega
    rw [if_neg (by omega), if_neg a, if_pos b, if_neg h3, if_pos ⟨h2, h1⟩]
  · rw [if_neg (by omega), if_neg a, if_neg b, if_neg (by omega), if_neg (by omega)]

/-- A run inside the curve. -/
example : ∀ k, (hk : k < ([1, 2, 2, 5] : List ℚ).length) → (([1, 2, 2, 5] : List ℚ)[k] = 2 ↔ 1 ≤ k ∧ k ≤ 2) := by
  decide

end Gridpp.Props
