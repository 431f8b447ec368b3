import Verif.Lemmas.Client.Interp
import Verif.Base.Inst

/-! # C105: interpolate in the client -/

set_option linter.unusedSectionVars false

namespace Gridpp.Props
open Fl hiding MV isValid
open Res Client

variable {K : Type} [Field K] [LinearOrder K] [IsStrictOrderedRing K]

/-- **C105** (partial: no knot may be -999, see `c105_missing_false`). On a sorted curve of numbers: a number for every
`x`; constant outside; at a run of equal knots the mean of the ordinates at its two ends, so exact at a knot that is
not repeated; linear between neighbouring knots; within the range of the ordinates. -/
theorem c105_interpolate_partial (xs ys : List K) (hv : ∀ v ∈ xs, v ≠ -999) (hl : xs.length = ys.length)
    (hs : xs.Pairwise (· ≤ ·)) (hne : 0 < xs.length) (x : K) :
    ∃ r, Client.interpolate (fin x) (xs.map fin) (ys.map fin) = ok (fin r) ∧
      (x < xs[0] → r = ys[0]) ∧
      (xs[xs.length - 1] < x → r = ys[xs.length - 1]'(by omega)) ∧
      (∀ i j, (hij : i ≤ j) → (hj : j < xs.length) → (∀ k, (hk : k < xs.length) → (xs[k] = x ↔ i ≤ k ∧ k ≤ j)) →
        r = (ys[i] + ys[j]) / 2) ∧
      (∀ i, (h : i + 1 < xs.length) → xs[i] < x → x < xs[i + 1] →
        r = ys[i] + (ys[i + 1] - ys[i]) * ((x - xs[i]) / (xs[i + 1] - xs[i]))) ∧
      (∀ lo hi, (∀ y ∈ ys, lo ≤ y ∧ y ≤ hi) → lo ≤ r ∧ r ≤ hi) := by
  have hmono := fun {i j : Nat} (hij : i ≤ j) (hj : j < xs.length) => sorted_le hs hij hj
  have hyl : 0 < ys.length := by omega
  rcases Client.interpolate_cases hv hl hs x hne with ⟨h0, h⟩ | ⟨h0, h⟩ | ⟨h0, h0', i, j, hi, hj, h⟩
  · refine ⟨_, h, fun _ => rfl, fun h1 => ?_, fun i j hij hj hrun => ?_, fun i hi h1 _ => ?_, fun lo hi hb => hb _ (List.getElem_mem _)⟩
    · have := hmono (Nat.zero_le (xs.length - 1)) (by omega)
      exact absurd (h0.trans_le this) (not_lt.mpr h1.le)
    · have := hmono (Nat.zero_le j) hj
      rw [(hrun j hj).mpr ⟨hij, le_rfl⟩] at this; exact absurd h0 (not_lt.mpr this)
    · have := hmono (Nat.zero_le i) (by omega)
      exact absurd (h0.trans_le this) (not_lt.mpr h1.le)
  · refine ⟨_, h, fun h1 => ?_, fun _ => rfl, fun i j hij hj hrun => ?_, fun i hi _ h1 => ?_, fun lo hi hb => hb _ (List.getElem_mem _)⟩
    · have := hmono (Nat.zero_le (xs.length - 1)) (by omega)
      exact absurd (h1.trans_le this) (not_lt.mpr h0.le)
    · have := hmono (show j ≤ xs.length - 1 by omega) (by omega)
      rw [(hrun j hj).mpr ⟨hij, le_rfl⟩] at this; exact absurd h0 (not_lt.mpr this)
    · have := hmono (show i + 1 ≤ xs.length - 1 by omega) (by omega)
      exact absurd (h1.trans_le this) (not_lt.mpr h0.le)
  · refine ⟨_, h, fun h1 => absurd h1 (not_lt.mpr h0), fun h1 => absurd h1 (not_lt.mpr h0'), ?_, ?_, ?_⟩
    · intro a b hab hb hrun
      have ha : a < xs.length := by omega
      have hax : xs[a] = x := (hrun a ha).mpr ⟨le_refl _, hab⟩
      have hbx : xs[b] = x := (hrun b hb).mpr ⟨hab, le_refl _⟩
      have hlo : IsLower xs x a := by
        refine ⟨ha, hax.le, fun m hm => ?_, fun h' => absurd hax h'.ne⟩
        exact lt_of_le_of_ne (hax ▸ hmono hm.le ha) (fun h => by have := (hrun m (by omega)).mp h; omega)
      have hup : IsUpper xs x b := by
        refine ⟨hb, hbx.ge, fun m hm hm' => ?_, fun h' => absurd hbx h'.ne'⟩
        exact lt_of_le_of_ne (hbx ▸ hmono hm'.le hm) (fun h => by have := (hrun m hm).mp h.symm; omega)
      obtain rfl := hi.unique hlo
      obtain rfl := hj.unique hup
      unfold knotValue
      rw [if_pos (hax.trans hbx.symm)]
    · intro k hk h1 h2
      have hlo : IsLower xs x k :=
        ⟨by omega, h1.le, fun m hm => lt_of_le_of_lt (hmono hm.le (by omega)) h1,
          fun _ m hm hm' => lt_of_lt_of_le h2 (hmono (show k + 1 ≤ m by omega) hm)⟩
      have hup : IsUpper xs x (k + 1) :=
        ⟨hk, h2.le, fun m hm hm' => lt_of_lt_of_le h2 (hmono (show k + 1 ≤ m by omega) hm),
          fun _ m hm => lt_of_le_of_lt (hmono (show m ≤ k by omega) (by omega)) h1⟩
      obtain rfl := hi.unique hlo
      obtain rfl := hj.unique hup
      unfold knotValue
      rw [if_neg (h1.trans h2).ne, mul_div_assoc]
    · intro lo hi' hb
      have h1 := hb _ (List.getElem_mem (hl ▸ hi.lt))
      have h2 := hb _ (List.getElem_mem (hl ▸ hj.lt))
      exact knotValue_bounds hi hj hl h1.1 h1.2 h2.1 h2.2

/-- **C105** (order). With non-decreasing abscissas (repetitions allowed) and ordinates the result is non-decreasing
in `x`. -/
theorem c105_mono (xs ys : List K) (hv : ∀ v ∈ xs, v ≠ -999) (hl : xs.length = ys.length) (hs : xs.Pairwise (· ≤ ·))
    (hy : ys.Pairwise (· ≤ ·)) (x x' : K) (hxx : x ≤ x') (r r' : K)
    (hr : Client.interpolate (fin x) (xs.map fin) (ys.map fin) = ok (fin r))
    (hr' : Client.interpolate (fin x') (xs.map fin) (ys.map fin) = ok (fin r')) : r ≤ r' :=
  Client.interpolate_mono hv hl hs hy hxx hr hr'

example : (∀ v ∈ ([1, 2, 2, 5] : List ℚ), v ≠ -999) ∧ ([1, 2, 2, 5] : List ℚ).Pairwise (· ≤ ·) ∧
    Client.interpolate (fin (3/2)) ([1, 2, 2, 5].map fin) ([0, 1, 3, 4].map fin) = (ok (fin (1/2)) : Res (Fl ℚ)) ∧
    Client.interpolate (fin 2) ([1, 2, 2, 5].map fin) ([0, 1, 3, 4].map fin) = (ok (fin 2) : Res (Fl ℚ)) ∧
    Client.interpolate (fin (7/2)) ([1, 2, 2, 5].map fin) ([0, 1, 3, 4].map fin) = (ok (fin (7/2)) : Res (Fl ℚ)) := by
  decide +kernel

/-- **C105** (library). Strictly inside the curve the client and `gridpp::interpolate` agree. -/
theorem c105_library (xs ys : List K) (hv : ∀ v ∈ xs, v ≠ -999) (hl : xs.length = ys.length) (hs : xs.Pairwise (· ≤ ·))
    (hne : 0 < xs.length) (x : K) (h0 : xs[0] < x) (h1 : x < xs[xs.length - 1]) :
    Client.interpolate (fin x) (xs.map fin) (ys.map fin) = Gridpp.interpolate (fin x) (xs.map fin) (ys.map fin) := by
  rcases Client.interpolate_cases hv hl hs x hne with ⟨h, -⟩ | ⟨h, -⟩ | ⟨-, -, i, j, hi, hj, h⟩
  · exact absurd h0 (not_lt.mpr h.le)
  · exact absurd h1 (not_lt.mpr h.le)
  obtain ⟨i', j', hi', hj', h'⟩ := interpolate_bracket hl hs hne h0.le h1.le
  obtain rfl := hi'.unique hi
  obtain rfl := hj'.unique hj
  rw [h, h']
  unfold knotValue interpValue
  by_cases heq : xs[i']'hi.lt = xs[j']'hj.lt
  · have hx : xs[i']'hi.lt = x := le_antisymm hi.le (heq ▸ hj.ge)
    have hi0 : i' ≠ 0 := by rintro rfl; exact absurd hx h0.ne
    have hjl : j' ≠ xs.length - 1 := by
      rintro rfl
      rw [heq] at hx
      exact absurd hx h1.ne'
    rw [if_pos heq, if_pos heq, if_neg (by tauto), if_neg hi0, if_neg hjl]
  · rw [if_neg heq, if_neg heq]

example : (0 : ℚ) < 2 ∧ Client.interpolate (fin 1) [fin 1, fin 1, fin 2] [fin 0, fin 4, fin 5] = (ok (fin 2) : Res (Fl ℚ)) ∧
    Gridpp.interpolate (fin 1) [fin 1, fin 1, fin 2] [fin 0, fin 4, fin 5] = (ok (fin 4) : Res (Fl ℚ)) := by decide +kernel

/-- **C105** (undefined cases). No knots: a read outside the vector. Fewer ordinates than knots: a read outside for `x`
above the last knot. `x` not a number: the process is terminated. -/
theorem c105_invalid (x q : Fl K) (iX iY : List (Fl K)) :
    Client.interpolate x [] iY = .ub ∧
    (iX.getLast? = some q → Fl.gt x q = true → iY.length < iX.length → Client.interpolate x iX iY = .ub) ∧
    (iX ≠ [] → Client.interpolate nan iX iY = .abort) := by
  refine ⟨by simp [Client.interpolate, vget], fun h1 h2 h3 => ?_, fun hne => ?_⟩
  · have hlen : 0 < iX.length := by omega
    have hq : vget iX ((iX.length : Int) - 1) = ok q := by
      have hc : ((iX.length - 1 : Nat) : Int) = (iX.length : Int) - 1 := by omega
      rw [List.getLast?_eq_getElem?] at h1
      obtain ⟨h, h'⟩ := List.getElem?_eq_some_iff.mp h1
      rw [← hc, vget_eq_ok_of_lt h, h']
    have hy : vget iY ((iX.length : Int) - 1) = .ub := by
      unfold vget
      rw [if_neg (by omega), List.getElem?_eq_none (by omega)]
    simp only [Client.interpolate, hq, ok_bind, h2, if_true, hy]
  · have hlen : 0 < iX.length := List.length_pos_iff.mpr hne
    have hc : ((iX.length - 1 : Nat) : Int) = (iX.length : Int) - 1 := by omega
    have hl : vget iX ((iX.length : Int) - 1) = ok iX[iX.length - 1] := by rw [← hc, vget_eq_ok_of_lt]
    have h0 : vget iX 0 = ok iX[0] := vget_eq_ok_of_lt hlen
    have hlow : ∀ (l : List (Fl K)) k, Client.lowerLoop nan l k none = none := by
      intro l
      induction l with
      | nil => intro k; rfl
      | cons v t ih => intro k; unfold Client.lowerLoop; cases v <;> simp [Fl.lt, Fl.feq, Fl.gt, ih]
    have e1 : ∀ v : Fl K, Fl.gt nan v = false := by intro v; cases v <;> rfl
    have e2 : ∀ v : Fl K, Fl.lt nan v = false := by intro v; cases v <;> rfl
    simp only [Client.interpolate, hl, h0, ok_bind, e1, e2, Bool.false_eq_true, if_false, Client.getLowerIndex, hlow]
    rfl

/-- **C105** is false with missing knots: the searches skip them, but the first knot is also compared with `x`; with the
first knot missing (-999), `x = 3` lies below the only knot, and the process is terminated. -/
theorem c105_missing_false : ∃ (x : ℚ) (iX iY : List (Fl ℚ)), iX.length = iY.length ∧ iX.any isValid = true ∧
    Client.interpolate (fin x) iX iY = .abort :=
  ⟨3, [fin (-999), fin 5], [fin 1, fin 2], by decide +kernel⟩

end Gridpp.Props
