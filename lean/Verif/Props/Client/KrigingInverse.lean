import Verif.Props.Client.Kriging
import Verif.Props.Client.Inverse

/-! # C118: kriging with the inverse that the client computes (C158) -/

set_option linter.unusedSectionVars false

namespace Gridpp.Props
open Fl hiding MV isValid
open Res Client Spec

variable {K : Type} [Field K] [LinearOrder K] [IsStrictOrderedRing K]

/-- `Util::inverse` as it is called by the kriging; for square matrices there is always a result. -/
def krigInvert (M : List (List (Fl K))) : List (List (Fl K)) :=
  match inverse M with
  | ok X => X
  | _ => []

theorem tabulate_map {α β : Type} (N : Nat) (g : α → β) (A : Nat → Nat → α) : (tabulate N N A).map (List.map g) = tabulate N N fun i j => g (A i j) := by
  simp [tabulate, List.map_map, Function.comp_def]

theorem matOf_tabulate (N : Nat) (A : Nat → Nat → K) : matOf N N (tabulate N N A) = Matrix.of fun i j : Fin N => A i j := by
  funext i j
  simp [matOf, tabulate, List.getD_eq_getElem?_getD]

/-- A matrix of the stations with an inverse: the client finds it. -/
theorem c118_inverse {N : Nat} {A : Nat → Nat → K} (h9 : ∀ i < N, ∀ j < N, A i j ≠ -999) (hd : (Matrix.of fun i j : Fin N => A i j).det ≠ 0) :
    ∃ B, InvertsTo krigInvert N A B := by
  obtain ⟨g, -⟩ := c158_inverse (N := N) (A := tabulate N N A) (rect_tabulate N N A) (by
    intro r hr hm
    simp only [tabulate, List.mem_map, List.mem_range] at hr
    obtain ⟨i, hi, rfl⟩ := hr
    simp only [List.mem_map, List.mem_range] at hm
    obtain ⟨j, hj, hm⟩ := hm
    exact h9 i hi j hj hm)
  rw [matOf_tabulate] at g
  obtain ⟨X, hX, h1, h2, -⟩ := g hd
  have hXe : X = tabulate N N fun i j => (X.getD i []).getD j 0 := by
    have := eq_tabulate hX (0 : K)
    rw [this]
    apply List.ext_getElem
    · simp [tabulate]
    · intro i hi hi'
      simp only [tabulate, List.length_map, List.length_range] at hi
      apply List.ext_getElem
      · simp [tabulate]
      · intro j hj hj'
        simp only [tabulate, List.getElem_map, List.length_map, List.length_range] at hj
        simp [tabulate, List.getD_eq_getElem?_getD, hi, hj]
  refine ⟨fun i j => (X.getD i []).getD j 0, ?_, fun i hi k hk => ?_⟩
  · unfold krigInvert
    rw [← tabulate_map N fin A, h1]
    simp only
    conv_lhs => rw [hXe]
    exact tabulate_map N fin _
  · have := congrFun (congrFun h2 ⟨i, hi⟩) ⟨k, hk⟩
    rw [Matrix.mul_apply, Matrix.one_apply] at this
    simp only [Matrix.of_apply, matOf, Fin.mk.injEq] at this
    rw [← this, Finset.sum_range]

/-- **C118** with the inverse of the client (value, not for division): if the matrix of the stations is regular, then the corrections are those
of weights that solve the kriging equations. -/
theorem c118_solved_partial [FloorRing K] [HasExp K] {o : KrigOptions K} {dist : Fl K → Fl K → Fl K → Fl K → Res (Fl K)} {op : KrigOp} {Y X E : Nat}
    {points : Nat → Nat → KPoint K} {locs : List (KPoint K)} {pars : Nat → Nat → List (Fl K)} {fields : List (FieldC K)} {A : Nat → Nat → K}
    {c : Nat → Nat → Nat → K} {b : Nat → Nat → K} (h : KrigInput o dist op Y X points locs pars fields.length A c b)
    (h9 : ∀ i < locs.length, ∀ j < locs.length, A i j ≠ -999) (hd : (Matrix.of fun i j : Fin locs.length => A i j).det ≠ 0) (hop : op ≠ .divide)
    (hf : Series Y X E fields) :
    ∃ out, kriging o dist krigInvert op false none Y X E points true locs pars fields = ok out ∧ Series Y X E out ∧
      out.length = fields.length ∧ ∀ y < Y, ∀ x < X, ∃ w, KrigSolves locs.length A (c y x) w ∧ ∀ t e u, e < E → At fields t y x e u →
        ∃ v, At out t y x e v ∧ ((∀ i < locs.length, c y x i ≤ 0) → v = u) ∧ ((∃ i < locs.length, 0 < c y x i) →
          ∑ i ∈ Finset.range locs.length, w i * b t i ≠ -999 →
            KrigCorrected op (∑ i ∈ Finset.range locs.length, w i * b t i) u v) := by
  obtain ⟨B, hB⟩ := c118_inverse h9 hd
  exact c118_value_partial h hB hop hf

/-- **C118** is false if the matrix of the stations is singular: then the missing value -999 is used as every element of the inverse, and the
correction is -999 times the sum of the covariances times the sum of the corrections of the stations. -/
theorem c118_singular_false {N : Nat} {A : Nat → Nat → K} (h9 : ∀ i < N, ∀ j < N, A i j ≠ -999) (hd : (Matrix.of fun i j : Fin N => A i j).det = 0)
    (b c : Nat → K) (hb : ∀ i < N, b i ≠ -999) {i : Nat} (hi : i < N) (hc : 0 < c i)
    (hT : -999 * (∑ j ∈ Finset.range N, max 0 (c j)) * (∑ i ∈ Finset.range N, b i) ≠ -999) :
    krigPoint .add false krigInvert (tabulate N N fun i j => fin (A i j)) ((List.range N).map fun i => fin (b i))
      (((List.range N).filter fun i => decide (0 < c i)).map fun i => (i, fin (c i))) =
      ok (some (fin (-999 * (∑ j ∈ Finset.range N, max 0 (c j)) * (∑ i ∈ Finset.range N, b i)))) := by
  obtain ⟨-, g⟩ := c158_inverse (N := N) (A := tabulate N N A) (rect_tabulate N N A) (by
    intro r hr hm
    simp only [tabulate, List.mem_map, List.mem_range] at hr
    obtain ⟨i, hi, rfl⟩ := hr
    simp only [List.mem_map, List.mem_range] at hm
    obtain ⟨j, hj, hm⟩ := hm
    exact h9 i hi j hj hm)
  rw [matOf_tabulate, tabulate_map] at g
  have hinv : krigInvert (tabulate N N fun i j => fin (A i j)) = tabulate N N fun _ _ => fin (-999 : K) := by
    unfold krigInvert
    rw [g hd]
    simp [tabulate, Client.MV, List.map_const']
  rw [krigPoint_eq .add krigInvert _ N (fun _ _ => -999) hinv b c hb _ rfl]
  have hsum : (∑ i ∈ Finset.range N, b i * ∑ j ∈ Finset.range N, -999 * max 0 (c j)) =
      -999 * (∑ j ∈ Finset.range N, max 0 (c j)) * (∑ i ∈ Finset.range N, b i) := by
    rw [← Finset.sum_mul, ← Finset.mul_sum]
    ring
  rw [hsum, if_neg]
  · rfl
  · rintro (h | h)
    · exact absurd (h i hi) (not_le.mpr hc)
    · exact hT h

/-- The two stations of `c118_two_stations` have a regular matrix. -/
example : (Matrix.of fun i j : Fin 2 => twoMatrix i j).det ≠ 0 := by
  rw [Matrix.det_fin_two]
  simp [twoMatrix]
  norm_num

/-- Three stations with a singular matrix; the corrections 1 of all of them become -5994. -/
example : krigPoint (K := ℚ) .add false krigInvert [[fin 1, fin (3 / 5), fin 0], [fin (3 / 5), fin 1, fin (4 / 5)], [fin 0, fin (4 / 5), fin 1]]
    [fin 1, fin 1, fin 1] [(0, fin 1), (1, fin 1)] = ok (some (fin (-5994))) := by decide +kernel

end Gridpp.Props
