import Verif.Props.EnsiKalman
import Verif.Props.EnsiCases
import Mathlib.Analysis.Matrix.Spectrum

/-! Property C76: the assumptions can be met. -/

set_option linter.unusedSectionVars false

namespace Gridpp.Props
open Fl Res Matrix

/-- Eigenvalues and orthonormal eigenvectors of a matrix, as lists. -/
def Eigen (rows : List (List (Fl ℝ))) (out : List (Fl ℝ) × List (List (Fl ℝ))) : Prop :=
  ∃ (n : Nat) (M : Matrix (Fin n) (Fin n) ℝ) (lam : Fin n → ℝ) (V : Matrix (Fin n) (Fin n) ℝ), rows = toRows M ∧
    out = (List.ofFn fun i => fin (lam i), toRows V) ∧ Vᵀ * V = 1 ∧ M = V * diagonal lam * Vᵀ

open Classical in
/-- Libraries that do what is required. -/
noncomputable def ArmaE.exact : ArmaE ℝ where
  toArma := Arma.exact
  rcond _ := fin 1
  eigSym rows := if h : ∃ out, Eigen rows out then some h.choose else none

theorem exists_eigen (n : Nat) (M : Matrix (Fin n) (Fin n) ℝ) (hM : Mᵀ = M) :
    ∃ (lam : Fin n → ℝ) (V : Matrix (Fin n) (Fin n) ℝ), Vᵀ * V = 1 ∧ M = V * diagonal lam * Vᵀ := by
  have hH : M.IsHermitian := by
    unfold Matrix.IsHermitian
    rw [conjTranspose_eq_transpose_of_trivial, hM]
  refine ⟨hH.eigenvalues, hH.eigenvectorUnitary, ?_, ?_⟩
  · have := Unitary.coe_star_mul_self hH.eigenvectorUnitary
    rwa [star_eq_conjTranspose, conjTranspose_eq_transpose_of_trivial] at this
  · have := hH.spectral_theorem
    rw [Unitary.conjStarAlgAut_apply, star_eq_conjTranspose, conjTranspose_eq_transpose_of_trivial] at this
    exact this

theorem ArmaE.exact_lawful : ArmaE.exact.Lawful := by
  refine ⟨Arma.exact_lawful, fun n M _ => ?_, fun n M hn hM => ?_⟩
  · simp [ArmaE.exact, zero_def]
  · obtain ⟨lam, V, h1, h2⟩ := exists_eigen n M hM
    have h : ∃ out, Eigen (toRows M) out := ⟨_, n, M, lam, V, rfl, rfl, h1, h2⟩
    obtain ⟨n', M', lam', V', e1, e2, e3, e4⟩ := h.choose_spec
    obtain ⟨rfl, rfl⟩ := toRows_inj e1
    refine ⟨lam', V', ?_, e3, e4⟩
    simp only [ArmaE.exact]
    rw [dif_pos h, e2]

/-- Two output points and two observations on a line, one of them missing, three members, one of which has a missing value:
the assumptions of `c76_ensi` are met. -/
example : ∃ (bp points : Points ℝ) (s : SF ℝ) (L : Nat → Fl ℝ) (G : Nat → Nat → ℝ) (S : Finset Nat) (b p : Nat → Nat → ℝ) (o sg : Nat → ℝ),
    ArmaE.exact.Lawful ∧ EnsPoints RTree.scan ArmaE.exact.toArma bp points s 5 L G ∧
    EnsData bp points [[fin 1, nan, fin 2], [fin 1, fin 2, fin 4]] [[fin 1, nan, fin 2], [fin 0, nan, fin 4]] [fin 5, nan] [fin 1, fin 2]
      3 S b p o sg ∧ 2 ≤ S.card ∧ bp.size = 2 ∧ points.size = 2 := by
  obtain ⟨bp, hbp⟩ : ∃ bp : Points ℝ, Points.new [fin 0, fin 0] [fin 0, fin 9] [] [] .cartesian = ok bp := by
    simp [Points.new, KDTree.new, List.range_succ, mapM_cons, convertCoordinates, isValidLat, isValidLon, vget]
  obtain ⟨points, hpoints⟩ : ∃ points : Points ℝ, Points.new [fin 0, fin 0] [fin 1, fin 2] [] [] .cartesian = ok points := by
    simp [Points.new, KDTree.new, List.range_succ, mapM_cons, convertCoordinates, isValidLat, isValidLon, vget]
  have w1 := BuiltPoints.pointsWF ⟨_, _, hbp⟩
  have w2 := BuiltPoints.pointsWF ⟨_, _, hpoints⟩
  obtain ⟨e1, -, -, -, -, -, e3, -⟩ := Points.new_ok hbp
  obtain ⟨f1, -, -, -, -, -, f3, -⟩ := Points.new_ok hpoints
  have n1 : bp.size = 2 := by unfold Points.size; rw [e1]; rfl
  have n2 : points.size = 2 := by unfold Points.size; rw [f1]; rfl
  obtain ⟨L, G, P, hc⟩ := c51_correlations RTree.scan (SF.cressman (fin 3) (fin 0) (fin 0)) bp points w1 w2 (fun _ _ _ => trivial) (fun _ _ _ => trivial)
  refine ⟨bp, points, _, L, G, {0, 2}, fun y e => if e = 0 then 1 else if y = 0 then 2 else 4, fun i e => if i = 0 then (if e = 0 then 1 else 2)
    else (if e = 0 then 0 else 4), fun _ => 5, fun i => if i = 0 then 1 else 2, ArmaE.exact_lawful,
    ⟨RTree.scan_lawful, Arma.exact_libraries, w1, w2, ?_, by omega, by omega, by norm_num, hc.toCell⟩,
    ⟨by rw [n1]; simp [Rect], by rw [n2]; simp [Rect], by rw [n2]; rfl, by rw [n2]; rfl, ?_, ?_, ?_, ?_, ?_, ?_⟩, by simp, n1, n2⟩
  · unfold Points.type; rw [e3, f3]
  · intro e
    rcases e with _ | _ | _ | e <;> simp [Complete]
  · rw [n1]
    intro y hy e he
    rcases y with _ | _ | y
    · simp at he; rcases he with rfl | rfl <;> simp [cell?]
    · simp at he; rcases he with rfl | rfl <;> simp [cell?]
    · omega
  · rw [n2]
    intro y hy e he
    rcases y with _ | _ | y
    · simp at he; rcases he with rfl | rfl <;> simp [cell?]
    · simp at he; rcases he with rfl | rfl <;> simp [cell?]
    · omega
  · rw [n2]
    intro y hy e he v
    rcases y with _ | _ | y
    · rcases e with _ | _ | _ | e <;> simp [cell?] at he ⊢
    · rcases e with _ | _ | _ | e <;> simp [cell?] at he ⊢
    · omega
  · rw [n2]
    intro i hi v hv
    rcases i with _ | _ | i
    · simp at hv; exact hv.symm
    · simp at hv
    · omega
  · rw [n2]
    intro i hi
    rcases i with _ | _ | i
    · simp
    · simp
    · omega

end Gridpp.Props
