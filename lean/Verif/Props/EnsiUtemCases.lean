import Verif.Props.EnsiUtem
import Verif.Props.EnsiKalmanCases
import Verif.Props.Structure

/-! Concrete data that meet the assumptions of property C81. -/

set_option linter.unusedSectionVars false

namespace Gridpp.Props
open Fl Res

/-- Two output points with an observation at each, three members, one of which is not complete. The second ensemble is constant at output
point 0 and varies at output point 1: the assumptions of `c81_utem_partial` are met, and those of `c81_collapse` at point 0, where the
first ensemble varies. -/
example : ∃ (bp : Points ℝ) (s : SF ℝ) (L : Nat → Fl ℝ) (G : Nat → Nat → ℝ) (S : Finset Nat) (b bc p pc : Nat → Nat → ℝ) (o ratio br : Nat → ℝ),
    ArmaE.exact.Lawful ∧ EnsPoints RTree.scan ArmaE.exact.toArma bp bp s 5 L G ∧
    UtemData bp bp [fin 1, fin 2] [[fin 1, nan, fin 3], [fin 1, fin 2, fin 4]] [[fin 5, fin 6, fin 5], [fin 1, fin 2, fin 3]] [fin 5, fin 7]
      [fin 1, fin 2] [[fin 1, fin 0, fin 2], [fin 0, nan, fin 4]] [[fin 1, fin 0, fin 2], [fin 0, nan, fin 4]] 3 S b bc p pc o ratio br ∧
    2 ≤ S.card ∧ bp.size = 2 ∧ Spec.ensSpread S (bc 0) ≤ 13 / 10000 ∧ 13 / 10000 < Spec.ensSpread S (bc 1) ∧ Spec.ensSpread S (b 0) ≠ 0 ∧
    UsableObs bp bp (fun i => ∃ v, [fin 5, fin 7][i]? = some (fin (v : ℝ))) (L 0) (G 0) 0 0 := by
  obtain ⟨bp, hbp⟩ : ∃ bp : Points ℝ, Points.new [fin 0, fin 0] [fin 0, fin 9] [] [] .cartesian = ok bp := by
    simp [Points.new, KDTree.new, List.range_succ, mapM_cons, convertCoordinates, isValidLat, isValidLon, vget]
  have w1 := BuiltPoints.pointsWF ⟨_, _, hbp⟩
  obtain ⟨e1, -, -, -, -, -, e3, -⟩ := Points.new_ok hbp
  have n1 : bp.size = 2 := by unfold Points.size; rw [e1]; rfl
  obtain ⟨L, G, P, hc⟩ := c51_correlations RTree.scan (SF.cressman (fin 3) (fin 0) (fin 0)) bp bp w1 w1 (fun _ _ _ => trivial) (fun _ _ _ => trivial)
  have hus : UsableObs bp bp (fun i => ∃ v, [fin 5, fin 7][i]? = some (fin (v : ℝ))) (L 0) (G 0) 0 0 := by
    obtain ⟨p, q, h1, -, -, -, -, -, -, h8, h9⟩ := w1.point (i := 0) (by omega)
    have hL := hc.radius 0 p h1
    have hG := hc.cell1 0 p h1 0 p h1
    have h55 := (c55_cressman_partial RTree.scan (fin 3) (fin 0) (fin 0) (SF.cressman (fin 3) (fin 0) (fin 0)) (by
      have : ¬ (3 : ℝ) < 0 := by norm_num
      simp [SF.newCressman, badScale, zero_def, lt_fin, this]) p p q q h9 h9 (fun e he => by
        rcases difference_self p.elev with h | h <;> rw [h] at he <;> simp at he; exact he.le) (fun e he => by
        rcases difference_self p.laf with h | h <;> rw [h] at he <;> simp at he; exact he.le)).2.2
    have hg1 : G 0 0 = 1 := by
      have : (SF.cressman (fin 3) (fin 0) (fin 0) : SF ℝ).corrBg RTree.scan p p = (SF.cressman (fin 3) (fin 0) (fin 0) : SF ℝ).corr RTree.scan p p := rfl
      rw [this, h55] at hG
      simpa using hG.symm
    have hl1 : L 0 = fin 3 := (Res.ok.inj hL).symm
    refine ⟨⟨q, q, h8, h8, ?_⟩, ⟨5, rfl⟩, by rw [hg1]; norm_num⟩
    rw [hl1]
    refine ⟨by rw [straightDistance_self']; norm_num, ?_⟩
    unfold OnAxis
    simp
  have sp : ∀ x y : ℝ, x < y → 13 / 10000 < (y - x) / 2 → ∀ f : Nat → ℝ, f 0 = x → f 2 = y → 13 / 10000 < Spec.ensSpread {0, 2} f := by
    intro x y hxy h f h0 h2
    have hm : Spec.ensMean {0, 2} f = (x + y) / 2 := by
      unfold Spec.ensMean
      simp [h0, h2]
    unfold Spec.ensSpread
    rw [hm, sqrt_unique (b := (y - x) / 2)]
    · exact h
    · simp [h0, h2]; nlinarith [mul_self_nonneg (x - (x + y) / 2), mul_self_nonneg (y - (x + y) / 2)]
    · linarith
    · simp [h0, h2]; ring
  refine ⟨bp, _, L, G, {0, 2}, fun y e => if e = 0 then 1 else if y = 0 then 3 else 4, fun y e => if y = 0 then 5 else if e = 0 then 1 else 3,
    fun i e => if i = 0 then (if e = 0 then 1 else 2) else (if e = 0 then 0 else 4),
    fun i e => if i = 0 then (if e = 0 then 1 else 2) else (if e = 0 then 0 else 4), fun i => if i = 0 then 5 else 7,
    fun i => if i = 0 then 1 else 2, fun i => if i = 0 then 1 else 2, ArmaE.exact_lawful,
    ⟨RTree.scan_lawful, Arma.exact_libraries, w1, w1, rfl, by omega, by omega, by norm_num, hc.toCell⟩,
    ⟨by rw [n1]; rfl, by rw [n1]; simp [Rect], by rw [n1]; simp [Rect], by rw [n1]; rfl, by rw [n1]; rfl, by rw [n1]; simp [Rect],
      by rw [n1]; simp [Rect], le_rfl, ?_, ?_, ?_, ?_, ?_, ?_, ?_, ?_⟩, by simp, n1, ?_, ?_, ?_, hus⟩
  · intro e
    rcases e with _ | _ | _ | e <;> simp [Complete]
  all_goals try rw [n1]
  · intro y hy e he
    rcases y with _ | _ | y
    · simp at he; rcases he with rfl | rfl <;> simp [cell?]
    · simp at he; rcases he with rfl | rfl <;> simp [cell?]
    · omega
  · intro y hy e he
    rcases y with _ | _ | y
    · simp at he; rcases he with rfl | rfl <;> simp [cell?]
    · simp at he; rcases he with rfl | rfl <;> simp [cell?]
    · omega
  · intro y hy e he
    rcases y with _ | _ | y
    · simp at he; rcases he with rfl | rfl <;> simp [cell?]
    · simp at he; rcases he with rfl | rfl <;> simp [cell?]
    · omega
  · intro y hy e he
    rcases y with _ | _ | y
    · simp at he; rcases he with rfl | rfl <;> simp [cell?]
    · simp at he; rcases he with rfl | rfl <;> simp [cell?]
    · omega
  · intro i hi v hv
    rcases i with _ | _ | i
    · simp at hv; simp [hv]
    · simp at hv; simp [hv]
    · omega
  · intro i hi
    rcases i with _ | _ | i
    · simp
    · simp
    · omega
  · intro i hi
    rcases i with _ | _ | i
    · simp
    · simp
    · omega
  · have hm : Spec.ensMean {0, 2} (fun _ : Nat => (5 : ℝ)) = 5 := by
      unfold Spec.ensMean
      norm_num
    have : Spec.ensSpread {0, 2} (fun _ : Nat => (5 : ℝ)) = 0 := by
      unfold Spec.ensSpread
      rw [hm]
      simp [sqrt_at_zero]
    simp only [if_true]
    rw [this]
    norm_num
  · exact sp 1 3 (by norm_num) (by norm_num) _ rfl rfl
  · exact (lt_trans (by norm_num) (sp 1 3 (by norm_num) (by norm_num) _ rfl rfl)).ne'

end Gridpp.Props
