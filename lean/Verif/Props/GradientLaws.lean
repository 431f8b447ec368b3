import Verif.Props.CalcGradient
import Verif.Props.NeighbourhoodLaws
import Verif.Base.Inst

/-! C180: gradients of mirror images. -/

set_option linter.unusedSectionVars false

namespace Gridpp.Props
open Fl Res Spec

theorem bothValid_filterMap {K : Type} (l : List (Fl K × Fl K)) :
    bothValid l = l.filterMap fun p => match p with | (fin b, fin v) => some (b, v) | _ => none := by
  induction l with
  | nil => rfl
  | cons p t ih =>
    obtain ⟨a, b⟩ := p
    cases a <;> cases b <;> simp [bothValid, ih]

theorem bothValid_perm {K : Type} {l l' : List (Fl K × Fl K)} (h : l.Perm l') : (bothValid l).Perm (bothValid l') := by
  rw [bothValid_filterMap, bothValid_filterMap]
  exact h.filterMap _

section
variable {K : Type} [Field K]

theorem mean_perm' {xs ys : List K} (h : xs.Perm ys) : Spec.mean xs = Spec.mean ys := by
  unfold Spec.mean
  rw [h.sum_eq, h.length_eq]

theorem variance_perm' {xs ys : List K} (h : xs.Perm ys) : Spec.variance xs = Spec.variance ys := by
  unfold Spec.variance
  rw [mean_perm' h, (h.map _).sum_eq, h.length_eq]

theorem slope_perm {P Q : List (K × K)} (h : P.Perm Q) : Spec.slope P = Spec.slope Q := by
  unfold Spec.slope covariance
  rw [mean_perm' (h.map Prod.fst), mean_perm' (h.map Prod.snd), mean_perm' (h.map _), variance_perm' (h.map Prod.fst)]

end

section
variable {K : Type} [Field K] [LinearOrder K] [IsStrictOrderedRing K] [FloorRing K]

theorem Mirrored.of_cells {α β : Type} {Y X Y' X' : Nat} {a b : List (List α)} {σ : Nat × Nat → Nat × Nat} (hm : Mirrored Y X a b Y' X' σ) {out out' : List (List β)}
    (key : ∀ y < Y, ∀ x < X, cell? out' (σ (y, x)).1 (σ (y, x)).2 = cell? out y x) : Mirrored Y X out out' Y' X' σ := by
  cases hm with
  | rows h => exact .rows key
  | columns h => exact .columns key
  | transposed h => exact .transposed key

/-- **C180**: the gradients by linear regression of a mirror image, or with rows and columns exchanged, are the mirror image of the gradients. -/
theorem c180_regression [LawfulSqrt K] (rnd : Rnd K) {Y X Y' X' : Nat} {base values base' values' : List (List (Fl K))} {σ : Nat × Nat → Nat × Nat}
    (hm : Mirrored Y X (List.zipWith List.zip base values) (List.zipWith List.zip base' values') Y' X' σ) (hb : Rect Y X base) (hv : Rect Y X values)
    (hb' : Rect Y' X' base') (hv' : Rect Y' X' values') (hY : 0 < Y) (hX : 0 < X) (hw n : Nat) (hhw : 0 < hw) (minRange d : Fl K) (hr : ∀ r, minRange = fin r → 0 ≤ r) :
    ∃ out out', calcGradient rnd base values .linearRegression hw n minRange d = ok out ∧ calcGradient rnd base' values' .linearRegression hw n minRange d = ok out' ∧
      Rect Y X out ∧ Rect Y' X' out' ∧ Mirrored Y X out out' Y' X' σ := by
  have hz := rect_pairField hb hv
  have hz' := rect_pairField hb' hv'
  obtain ⟨-, g1, g2⟩ := hm.perm hz hz' hw hY hX
  obtain ⟨out, h1, h2, h3⟩ := c65_regression rnd Y X base values hb hv hY hX hw n hhw minRange d hr
  obtain ⟨out', k1, k2, k3⟩ := c65_regression rnd Y' X' base' values' hb' hv' (by omega) (by omega) hw n hhw minRange d hr
  refine ⟨out, out', h1, k1, h2, k2, hm.of_cells fun y hy x hx => ?_⟩
  obtain ⟨p1, p2, p3⟩ := hm.perm hz hz' hw hy hx
  obtain ⟨v, e1, e2, e3⟩ := h3 y hy x hx
  obtain ⟨v', f1, f2, f3⟩ := k3 _ p2 _ p3
  have hp : (windowPairs base' values' hw (σ (y, x)).1 (σ (y, x)).2).Perm (windowPairs base values hw y x) := bothValid_perm p1
  rw [hp.length_eq, variance_perm' (hp.map Prod.fst), slope_perm hp] at f2
  rw [hp.length_eq, variance_perm' (hp.map Prod.fst)] at f3
  rw [e1, f1]
  congr 1
  by_cases hg : n ≤ (windowPairs base values hw y x).length ∧ Spec.variance ((windowPairs base values hw y x).map Prod.fst) ≠ 0 ∧
      ∀ r, minRange = fin r → r ^ 2 ≤ Spec.variance ((windowPairs base values hw y x).map Prod.fst)
  · rw [e2 hg, f2 hg]
  · rw [e3 hg, f3 hg]

theorem minMax_unique {P Q : List (K × K)} (hp : P.Perm Q) (hf : ∀ p ∈ P, ∀ q ∈ P, p.1 = q.1 → p.2 = q.2) {n : Nat} {minRange d v w : Fl K}
    (h : IsMinMaxGradient P n minRange d v) (h' : IsMinMaxGradient Q n minRange d w) : v = w := by
  by_cases hd : P.length < n ∨ P = []
  · rw [h.1 hd, h'.1 (hd.imp (fun hl => by rw [← hp.length_eq]; exact hl) fun he => by subst he; exact hp.nil_eq.symm)]
  · push Not at hd
    obtain ⟨b1, v1, b0, v0, f1, m1, f0, m0, k1, k2, k3⟩ := h.2 hd.1 hd.2
    obtain ⟨c1, w1, c0, w0, g1, l1, g0, l0, j1, j2, j3⟩ := h'.2 (by rw [← hp.length_eq]; exact hd.1) (by rintro rfl; exact hd.2 hp.eq_nil)
    have i1 := List.mem_of_find?_eq_some f1
    have i0 := List.mem_of_find?_eq_some f0
    have n1 := hp.mem_iff.mpr (List.mem_of_find?_eq_some g1)
    have n0 := hp.mem_iff.mpr (List.mem_of_find?_eq_some g0)
    have e1 : b1 = c1 := le_antisymm (l1 _ (hp.mem_iff.mp i1)) (m1 _ n1)
    have e0 : b0 = c0 := le_antisymm (m0 _ n0) (l0 _ (hp.mem_iff.mp i0))
    subst e1 e0
    have u1 : v1 = w1 := hf _ i1 _ n1 rfl
    have u0 : v0 = w0 := hf _ i0 _ n0 rfl
    subst u1 u0
    cases hle : (fin (b1 - b0)).le minRange with
    | true => rw [k1 hle, j1 hle]
    | false =>
      rcases (m1 _ i0).lt_or_eq with hlt | heq
      · rw [k2 hle hlt, j2 hle hlt]
      · rw [k3 hle heq, j3 hle heq]

/-- **C180**, for the difference of the extremes, if cells with the same base in one window have the same value. Otherwise the first of them counts:
`c180_minmax_first`. -/
theorem c180_minmax_partial [HasSqrt K] (rnd : Rnd K) {Y X Y' X' : Nat} {base values base' values' : List (List (Fl K))} {σ : Nat × Nat → Nat × Nat}
    (hm : Mirrored Y X (List.zipWith List.zip base values) (List.zipWith List.zip base' values') Y' X' σ) (hb : Rect Y X base) (hv : Rect Y X values)
    (hb' : Rect Y' X' base') (hv' : Rect Y' X' values') (hY : 0 < Y) (hX : 0 < X) (hw n : Nat) (hhw : 0 < hw) (minRange d : Fl K) (hr : ∀ r, minRange = fin r → 0 ≤ r)
    (hf : ∀ y < Y, ∀ x < X, ∀ p ∈ windowPairs base values hw y x, ∀ q ∈ windowPairs base values hw y x, p.1 = q.1 → p.2 = q.2) :
    ∃ out out', calcGradient rnd base values .minMax hw n minRange d = ok out ∧ calcGradient rnd base' values' .minMax hw n minRange d = ok out' ∧
      Rect Y X out ∧ Rect Y' X' out' ∧ Mirrored Y X out out' Y' X' σ := by
  have hz := rect_pairField hb hv
  have hz' := rect_pairField hb' hv'
  obtain ⟨-, g1, g2⟩ := hm.perm hz hz' hw hY hX
  obtain ⟨out, h1, h2, h3⟩ := c65_minmax rnd Y X base values hb hv hY hw n hhw minRange d hr
  obtain ⟨out', k1, k2, k3⟩ := c65_minmax rnd Y' X' base' values' hb' hv' (by omega) hw n hhw minRange d hr
  refine ⟨out, out', h1, k1, h2, k2, hm.of_cells fun y hy x hx => ?_⟩
  obtain ⟨p1, p2, p3⟩ := hm.perm hz hz' hw hy hx
  obtain ⟨v, e1, e2⟩ := h3 y hy x hx
  obtain ⟨v', f1, f2⟩ := k3 _ p2 _ p3
  have hp : (windowPairs base' values' hw (σ (y, x)).1 (σ (y, x)).2).Perm (windowPairs base values hw y x) := bothValid_perm p1
  rw [e1, f1, minMax_unique hp.symm (hf y hy x hx) e2 f2]

end

/-- **C180** is false in general for the difference of the extremes: of two cells with the same greatest base the first counts, so that the mirror image has another
gradient. -/
theorem c180_minmax_first :
    calcGradient (fun _ => 0) [[fin (1 : ℚ), fin 0, fin 1]] [[fin 5, fin 0, fin 7]] .minMax 1 2 (fin 0) (fin 0) = ok [[fin 5, fin 5, fin 7]] ∧
    calcGradient (fun _ => 0) [[fin (1 : ℚ), fin 0, fin 1]] [[fin 7, fin 0, fin 5]] .minMax 1 2 (fin 0) (fin 0) = ok [[fin 7, fin 7, fin 5]] ∧
    Mirrored 1 3 (List.zipWith List.zip [[fin (1 : ℚ), fin 0, fin 1]] [[fin (5 : ℚ), fin 0, fin 7]]) (List.zipWith List.zip [[fin 1, fin 0, fin 1]] [[fin 7, fin 0, fin 5]]) 1 3
      (fun p => (p.1, 3 - 1 - p.2)) ∧
    ¬ Mirrored 1 3 [[fin (5 : ℚ), fin 5, fin 7]] [[fin 7, fin 7, fin 5]] 1 3 (fun p => (p.1, 3 - 1 - p.2)) := by
  refine ⟨by decide +kernel, by decide +kernel, .columns (by decide +kernel), fun h => ?_⟩
  have key : cell? [[fin (7 : ℚ), fin 7, fin 5]] 0 1 = cell? [[fin (5 : ℚ), fin 5, fin 7]] 0 1 := by
    obtain ⟨σ, hσ⟩ : ∃ σ : Nat × Nat → Nat × Nat, σ = fun p => (p.1, 3 - 1 - p.2) := ⟨_, rfl⟩
    rw [← hσ] at h
    generalize hY' : (1 : Nat) = Y' at h
    generalize hX' : (3 : Nat) = X' at h
    cases h with
    | rows h =>
      have := congrFun hσ (0, 0)
      simp at this
    | columns h =>
      subst hY' hX'
      exact h 0 (by omega) 1 (by omega)
    | transposed h => omega
  revert key
  decide +kernel

/-- The hypotheses of `c180_minmax_partial` in a case with holes. -/
example : Mirrored 1 3 (List.zipWith List.zip [[fin (2 : ℚ), fin 0, nan]] [[fin (5 : ℚ), fin 0, fin 7]]) (List.zipWith List.zip [[nan, fin 0, fin 2]] [[fin 7, fin 0, fin 5]]) 1 3
      (fun p => (p.1, 3 - 1 - p.2)) ∧
    (∀ y < 1, ∀ x < 3, ∀ p ∈ windowPairs [[fin (2 : ℚ), fin 0, nan]] [[fin 5, fin 0, fin 7]] 1 y x, ∀ q ∈ windowPairs [[fin (2 : ℚ), fin 0, nan]] [[fin 5, fin 0, fin 7]] 1 y x,
      p.1 = q.1 → p.2 = q.2) ∧
    calcGradient (fun _ => 0) [[fin (2 : ℚ), fin 0, nan]] [[fin 5, fin 0, fin 7]] .minMax 1 2 (fin 0) (fin 0) = ok [[fin (5 / 2), fin (5 / 2), fin 0]] :=
  ⟨.columns (by decide +kernel), by decide +kernel, by decide +kernel⟩

end Gridpp.Props
