import Verif.Props.EnsiGrid
import Verif.Lemmas.EnsiData

/-! Property C76: ensemble-based optimal interpolation is the Kalman update with the statistics of the ensemble. -/

set_option linter.unusedSectionVars false

namespace Gridpp.Props
open Fl Res Matrix

section
variable {K : Type} [Field K] [LinearOrder K] [IsStrictOrderedRing K] [HasGeo K] [LawfulSqrt K] [HasExp K]
variable {T : RTree K} {bp points : Points K} {s : SF K} {maxPoints : Int} {L : Nat → Fl K} {G : Nat → Nat → K}

/-- `optimal_interpolation_ensi` for points, with extrapolation: at each output point, the members without missing values
are the Kalman update of the background. The error variance of an observation is that given, divided by its correlation with
the output point. -/
theorem c76_ensi {A : ArmaE K} (hA : A.Lawful) (h : EnsPoints T A.toArma bp points s maxPoints L G) {E : Nat}
    {background pbg : List (List (Fl K))} {pobs psigmas : List (Fl K)} {S : Finset Nat} {b p : Nat → Nat → K} {o sg : Nat → K}
    (hd : EnsData bp points background pbg pobs psigmas E S b p o sg) (hc : 2 ≤ S.card) :
    ∃ out, ensiPoints T A bp background points pobs psigmas pbg s maxPoints true = ok out ∧ Rect bp.size E out ∧
      ∀ y < bp.size, ∃ (m : Nat) (sel : Fin m → Nat) (a : Nat → K),
        Spec.Selection (UsableObs bp points (fun i => ∃ v, pobs[i]? = some (fin v)) (L y) (G y) y) (G y) maxPoints.toNat sel ∧
        (m = 0 → out[y]? = background[y]?) ∧ (∀ e, e ∉ S → cell? out y e = cell? background y e) ∧ (∀ e ∈ S, cell? out y e = some (fin (a e))) ∧
        Spec.KalmanUpdate S (b y) (fun i => p (sel i)) (fun i => sg (sel i) ^ 2 / G y (sel i)) (fun i => o (sel i)) a := by
  obtain ⟨members, hsub, hSm, hn2, f, hrun, hcells⟩ := hd.cells hA h hc
  have hnd : members.Nodup := hsub.nodup List.nodup_range
  have hmS : ∀ e, e ∈ members ↔ e ∈ S := fun e => by rw [hSm, List.mem_toFinset]
  rw [hrun]
  have hcell : ∀ y < background.length, (∃ out, f true y = ok out ∧
      (out.length = E ∧ ∃ (m : Nat) (sel : Fin m → Nat) (a : Nat → K),
        Spec.Selection (UsableObs bp points (fun i => ∃ v, pobs[i]? = some (fin v)) (L y) (G y) y) (G y) maxPoints.toNat sel ∧
        (m = 0 → some out = background[y]?) ∧
        (∀ e, e ∉ S → out[e]? = cell? background y e) ∧ (∀ e ∈ S, out[e]? = some (fin (a e))) ∧
        Spec.KalmanUpdate S (b y) (fun i => p (sel i)) (fun i => sg (sel i) ^ 2 / G y (sel i)) (fun i => o (sel i)) a)) ∨
      ∃ e, f true y = .throw e ∧ False := by
    intro y hyb
    left
    have hy : y < bp.size := by rw [← hd.hb.1]; exact hyb
    obtain ⟨row, hrow⟩ := exists_getElem? hyb
    have hlen : row.length = E := hd.hb.2 row (List.mem_iff_getElem?.mpr ⟨y, hrow⟩)
    have hrc : ∀ e, cell? background y e = row[e]? := fun e => by simp [cell?, hrow]
    have hrv : ∀ e ∈ S, row[e]? = some (fin (b y e)) := fun e he => by rw [← hrc]; exact hd.hbv y hy e he
    obtain ⟨r, hr3, hr4, hr5, hr6⟩ := hcells y row hrow
    by_cases h0 : r = []
    · rw [hr5 h0]
      rw [h0] at hr3
      refine ⟨row, rfl, hlen, 0, _, b y, hr3, fun _ => hrow.symm, fun e _ => (hrc e).symm, hrv, fun i => i.elim0, fun k' => ?_, ?_, ?_, le_refl _⟩
      · exact ⟨fun _ => funext fun i => i.elim0, fun _ j => j.elim0⟩
      · simp
      · simp
    · obtain ⟨W, hW, hfy⟩ := hr6 h0
      rw [hfy]
      obtain ⟨out, ho1, ho2, ho3, ho4⟩ := ensiUpdate_gen row members hnd (by omega) (b y) (fun e he => hrv e ((hmS e).mp he))
        (ensObs members p (G y) o sg r) W _ _ (fun k => rfl) true
      refine ⟨out, ho1, by rw [ho2, hlen], r.length, r.get, fun e => match out[e]? with | some (fin v) => v | _ => 0, hr3,
        fun hm0 => absurd (List.length_eq_zero_iff.mp hm0) h0, fun e he => ?_, fun e he => ?_, ?_⟩
      · rw [hrc, ho3 e (fun c => he ((hmS e).mp c))]
      · obtain ⟨k, hk⟩ := List.get_of_mem ((hmS e).mpr he)
        have := ho4 k
        rw [hk, if_pos rfl, fin_add] at this
        simp only [this]
      · rw [hSm]
        refine ens_kalman members hnd hn2 (b y) p (G y) o sg r hr4 W hW _ fun k => ?_
        have := ho4 k
        rw [if_pos rfl, fin_add] at this
        simp only [this]
  rcases mapM_range_cases _ (fun _ => False) _ background.length hcell with ⟨out, h1, h2, h3⟩ | ⟨-, -, h⟩
  · refine ⟨out, h1, ⟨by rw [h2, hd.hb.1], fun r hr => ?_⟩, fun y hy => ?_⟩
    · obtain ⟨y, hy⟩ := List.mem_iff_getElem?.mp hr
      have hyb : y < background.length := by rw [← h2]; exact (List.getElem?_eq_some_iff.mp hy).1
      obtain ⟨r', hr', hl, -⟩ := h3 y hyb
      rw [hy] at hr'
      cases hr'
      exact hl
    · obtain ⟨r', hr', -, m, sel, a, c1, c2, c3, c4, c5⟩ := h3 y (by rw [hd.hb.1]; exact hy)
      refine ⟨m, sel, a, c1, fun hm => by rw [hr']; exact c2 hm, fun e he => ?_, fun e he => ?_, c5⟩
      · rw [← c3 e he]; simp [cell?, hr']
      · rw [← c4 e he]; simp [cell?, hr']
  · exact h.elim

variable {g : Grid K} {Y X : Nat} {lats lons : List (List (Fl K))} {type : CoordType}

/-- The same for a grid: the output points are the cells in row-major order. -/
theorem c76_ensi_grid {A : ArmaE K} (hA : A.Lawful) (hg : BuiltGrid g Y X lats lons type) (hbp : g.toPoints = ok bp)
    (h : EnsPoints T A.toArma bp points s maxPoints L G) {E : Nat} {background : List (List (List (Fl K)))} {pbg : List (List (Fl K))}
    {pobs psigmas : List (Fl K)} {S : Finset Nat} {b p : Nat → Nat → K} {o sg : Nat → K} (hb : Box Y X E background)
    (hd : EnsData bp points background.flatten pbg pobs psigmas E S b p o sg) (hc : 2 ≤ S.card) :
    ∃ out, ensiGrid T A g background points pobs psigmas pbg s maxPoints true = ok out ∧ Box Y X E out ∧
      ∀ y < Y, ∀ x < X, ∃ row brow, cell? out y x = some row ∧ cell? background y x = some brow ∧
        ∃ (m : Nat) (sel : Fin m → Nat) (a : Nat → K),
          Spec.Selection (UsableObs bp points (fun i => ∃ v, pobs[i]? = some (fin v)) (L (y * X + x)) (G (y * X + x)) (y * X + x))
            (G (y * X + x)) maxPoints.toNat sel ∧
          (m = 0 → row = brow) ∧ (∀ e, e ∉ S → row[e]? = brow[e]?) ∧ (∀ e ∈ S, row[e]? = some (fin (a e))) ∧
          Spec.KalmanUpdate S (b (y * X + x)) (fun i => p (sel i)) (fun i => sg (sel i) ^ 2 / G (y * X + x) (sel i)) (fun i => o (sel i)) a := by
  have s1 := (sizes_of_grid hg hbp h).1
  obtain ⟨o1, h1, h2, h3⟩ := c76_ensi hA h hd hc
  rw [s1] at h2
  obtain ⟨out, g1, g2, g3⟩ := unflatten3_eq h2
  refine ⟨out, by rw [ensiGrid_eq hg hbp h hb hd.hpobs hd.hsig hd.hpbg, h1, ok_bind, g1], g2, fun y hy x hx => ?_⟩
  obtain ⟨c, g4, g5⟩ := g3 y hy x hx
  obtain ⟨brow, hb1⟩ := hb.1.cell?_some hy hx
  have hb2 := flatten_getElem? (y := y) hb.1 hx
  rw [hb1] at hb2
  obtain ⟨m, sel, a, c1, c2, c3, c4, c5⟩ := h3 (y * X + x) (by rw [s1]; exact ((c15_bijection Y X).2 y hy x hx).1)
  unfold cell? at c3 c4
  rw [g5] at c2 c3 c4
  rw [hb2] at c2 c3
  exact ⟨c, brow, g4, hb1, m, sel, a, c1, fun hm => Option.some.inj (c2 hm), c3, c4, c5⟩

end
end Gridpp.Props
