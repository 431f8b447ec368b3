import Verif.Props.EnsiMulti
import Verif.Lemmas.EnsiLimit
import Mathlib.Data.List.Sort

/-! The variants `ebe` and `ebesc` of `optimal_interpolation_ensi_multi` on data that are
numbers. -/

set_option linter.unusedSectionVars false

namespace Gridpp.Props
open Fl Res Matrix

section
variable {K : Type} [Field K] [LinearOrder K] [IsStrictOrderedRing K] [HasGeo K] [LawfulSqrt K] [HasExp K]
variable {T : RTree K} {bp points : Points K} {s : SF K} {maxPoints : Int} {L : Nat → Fl K} {G P : Nat → Nat → K}

/-- The ensembles and observations, as numbers: the first `n` members have no missing values in the given ensembles (`all`)
and the others have some; an observation that is valid for member 0 is valid for all those members. -/
structure MultiData (bp points : Points K) (all background pbg pobs : List (List (Fl K))) (pratios bratios : List (Fl K)) (E n : Nat)
    (b p o : Nat → Nat → K) (ratio br : Nat → K) : Prop where
  hn : 0 < n
  hb : Rect bp.size E background
  hpbg : Rect points.size E pbg
  hpobs : Rect points.size E pobs
  hrat : pratios.length = points.size
  hbr : bratios.length = bp.size
  hall : ∀ e, e < n ↔ e < E ∧ Complete all e
  hbv : ∀ y < bp.size, ∀ e < n, cell? background y e = some (fin (b y e))
  hpv : ∀ i < points.size, ∀ e < n, cell? pbg i e = some (fin (p i e))
  hov : ∀ i < points.size, (∃ v, cell? pobs i 0 = some (fin v)) → ∀ e < n, cell? pobs i e = some (fin (o i e))
  hrv : ∀ i < points.size, (∃ v, cell? pobs i 0 = some (fin v)) → pratios[i]? = some (fin (ratio i))
  hbrv : ∀ y < bp.size, bratios[y]? = some (fin (br y))

theorem members_range {l : List Nat} {E n : Nat} (h : l.Sublist (List.range E)) (hm : ∀ e, e ∈ l ↔ e < n) : l = List.range n := by
  have hs : l.Pairwise (· < ·) := List.pairwise_lt_range.sublist h
  have hp : l.Perm (List.range n) := (List.perm_ext_iff_of_nodup (h.nodup List.nodup_range) List.nodup_range).mpr fun e => by
    rw [hm, List.mem_range]
  exact hp.eq_of_pairwise (fun a b _ _ h1 h2 => by omega) hs List.pairwise_lt_range

/-- The rows of the selected observations `r`, as numbers. -/
def multiRowsOf (n : Nat) (rho ratio : Nat → K) (P : Nat → Nat → K) (z : Nat → List (Fl K)) (d : Nat → Nat → K) (r : List Nat) :
    List (MultiObs K) :=
  r.map fun i => ⟨fin (rho i), fin (ratio i), z i, (List.range n).map fun e => fin (d i e), r.map fun j => fin (P i j)⟩

variable {all background pbg pobs : List (List (Fl K))} {pratios bratios : List (Fl K)} {E n : Nat} {b p o : Nat → Nat → K} {ratio br : Nat → K}

theorem MultiData.rows (hd : MultiData bp points all background pbg pobs pratios bratios E n b p o ratio br) (hw : points.WF)
    (hc : Correlations T s bp points L G P)
    {pts : List (Point K)} (hpts : mapM (fun i : Nat => points.getPoint (i : Int)) (List.range points.size) = ok pts)
    (zf : Nat → Res (List (Fl K))) (z : Nat → List (Fl K)) (hz : ∀ i < points.size, zf i = ok (z i))
    (r : List Nat) (hr : ∀ i ∈ r, i < points.size) (hv : ∀ i ∈ r, ∃ v, cell? pobs i 0 = some (fin v)) (rho : Nat → K) :
    mapM (multiRow T s pts (List.range n) pobs pratios pbg zf (rhoPairs rho r)) (rhoPairs rho r) =
      ok (multiRowsOf n rho ratio P z (fun i e => o i e - p i e) r) := by
  have hm2 : mapM (fun f : Fl K × Nat => vget pts (f.2 : Int)) (rhoPairs rho r) = mapM (fun j : Nat => points.getPoint (j : Int)) r := by
    unfold rhoPairs
    clear hv
    induction r with
    | nil => rfl
    | cons a t ih =>
      rw [List.map_cons, mapM_cons, mapM_cons, ih fun i hi => hr i (List.mem_cons_of_mem _ hi),
        Points.WF.mapM_point hpts (hr a (by simp))]
  obtain ⟨ps, hps⟩ : ∃ ps, mapM (fun j : Nat => points.getPoint (j : Int)) r = ok ps :=
    mapM_exists _ fun j hj => by
      obtain ⟨p, -, hp, -⟩ := hw.point (hr j hj)
      exact ⟨p, hp⟩
  have hone : ∀ i ∈ r, multiRow T s pts (List.range n) pobs pratios pbg zf (rhoPairs rho r) (fin (rho i), i) =
      ok ⟨fin (rho i), fin (ratio i), z i, (List.range n).map fun e => fin (o i e - p i e), r.map fun j => fin (P i j)⟩ := by
    intro i hir
    have hi := hr i hir
    obtain ⟨q, -, hq, -⟩ := hw.point hi
    have hrow : mapM (fun j : Nat => vget (r.map fun j => fin (P i j)) (j : Int)) (List.range (rhoPairs rho r).length) =
        ok (r.map fun j => fin (P i j)) := by
      have : (rhoPairs rho r).length = r.length := by simp
      rw [this]
      apply mapM_range_list r
      intro k hk
      exact vget_some (by simp [hk])
    obtain ⟨ob, hob⟩ := exists_getElem? (v := pobs) (n := i) (by rw [hd.hpobs.1]; exact hi)
    obtain ⟨pb, hpb⟩ := exists_getElem? (v := pbg) (n := i) (by rw [hd.hpbg.1]; exact hi)
    have hol : ob.length = E := hd.hpobs.2 ob (List.mem_iff_getElem?.mpr ⟨i, hob⟩)
    have hbl : pb.length = E := hd.hpbg.2 pb (List.mem_iff_getElem?.mpr ⟨i, hpb⟩)
    have hnE : ∀ e ∈ List.range n, e < E := fun e he => ((hd.hall e).mp (List.mem_range.mp he)).1
    obtain ⟨inn, hinn, hil, hie⟩ := (multiInnov_cases (List.range n) ob pb (fun e he => by rw [hol]; exact hnE e he)
      (fun e he => by rw [hbl]; exact hnE e he)).1 (by simp)
    have hinn2 : inn = (List.range n).map fun e => fin (o i e - p i e) := by
      apply List.ext_getElem?
      intro e
      by_cases he : e < n
      · have h1 : ob[e]? = some (fin (o i e)) := by
          have := hd.hov i hi (hv i hir) e he
          simpa [cell?, hob] using this
        have h2 : pb[e]? = some (fin (p i e)) := by
          have := hd.hpv i hi e he
          simpa [cell?, hpb] using this
        rw [hie e (List.mem_range.mpr he)]
        simp [List.getD, h1, h2, he]
      · rw [List.getElem?_eq_none (by rw [hil]; simpa using he), List.getElem?_eq_none (by simpa using he)]
    unfold multiRow
    simp only [vget_some (hd.hrv i hi (hv i hir)), hz i hi, vget_some hob, vget_some hpb, hinn, Points.WF.mapM_point hpts hi, hq, hm2, hps,
      hc.obs i q hq r ps hps, ok_bind, hrow, hinn2]
  unfold multiRowsOf
  rw [mapM_ok (g := fun f : Fl K × Nat => (⟨fin (rho f.2), fin (ratio f.2), z f.2, (List.range n).map fun e => fin (o f.2 e - p f.2 e),
    r.map fun j => fin (P f.2 j)⟩ : MultiObs K)) (fun f hf => by
      obtain ⟨i, hi, rfl⟩ := List.mem_map.mp hf
      exact hone i hi)]
  unfold rhoPairs
  rw [List.map_map]
  rfl

/-- From the rows to the analysis at one output point. -/
theorem MultiData.finish {A : Arma K} (hA : A.Lawful) (hd : MultiData bp points all background pbg pobs pratios bratios E n b p o ratio br)
    {y : Nat} (hy : y < bp.size) {row : List (Fl K)} (hrow : background[y]? = some row) (r : List Nat) (h0 : r ≠ []) (rho : Nat → K)
    (z : Nat → List (Fl K)) (g : Nat → K) (C : Nat → Nat → K) (lr : List (Fl K)) (R : List (List (Fl K))) (extrap : Bool)
    (hlr : ∀ i : Fin r.length, lr.getD i nan = fin (g (r.get i)))
    (hR : ∀ i j : Fin r.length, ent R i j = fin (C (r.get i) (r.get j))) :
    (∃ out, (do
        let dx ← multiIncrements A n (multiRowsOf n rho ratio P z (fun i e => o i e - p i e) r) lr R (fin (br y)) extrap
        multiWrite row (List.range n) dx) = ok out ∧ out.length = E ∧ ∃ inc : Nat → K,
      Spec.MemberwiseOI r.get g C ratio (fun i e => o i e - p i e) (br y) extrap n inc ∧
      (∀ e < n, out[e]? = some (fin (b y e + inc e))) ∧ ∀ e, n ≤ e → out[e]? = row[e]?) ∨
    ((do
        let dx ← multiIncrements A n (multiRowsOf n rho ratio P z (fun i e => o i e - p i e) r) lr R (fin (br y)) extrap
        multiWrite row (List.range n) dx) = .throw .runtimeError ∧ (Spec.system r.get C ratio).det = 0) := by
  have hlen : row.length = E := hd.hb.2 row (List.mem_iff_getElem?.mpr ⟨y, hrow⟩)
  have hnE : ∀ e < n, e < E := fun e he => ((hd.hall e).mp he).1
  have hm : 0 < r.length := List.length_pos_iff.mpr h0
  have hsys : Spec.system r.get C ratio = Matrix.of (fun i j => C (r.get i) (r.get j)) + diagonal fun i => ratio (r.get i) := by
    ext i j
    simp only [Spec.system, Matrix.of_apply, Matrix.add_apply, diagonal_apply]
  obtain ⟨h1, h2⟩ := multiIncrements_fin hA hm n (multiRowsOf n rho ratio P z (fun i e => o i e - p i e) r) lr R (fun i => g (r.get i))
    (fun i => ratio (r.get i)) (Matrix.of fun i j => C (r.get i) (r.get j)) (fun i e => o (r.get i) e - p (r.get i) e) (br y) extrap
    (by simp [multiRowsOf]) hlr hR (fun i => by simp [multiRowsOf, List.getD]) (fun e he => by
      unfold multiRowsOf
      rw [List.map_map]
      apply List.ext_getElem
      · simp
      · intro k h1 h2
        simp [List.getD, he])
  rw [← hsys] at h1 h2
  by_cases hdet : (Spec.system r.get C ratio).det = 0
  · right
    rw [h2 hdet]
    exact ⟨rfl, hdet⟩
  · left
    obtain ⟨w, hw, inc, hi1, hi2⟩ := h1 hdet
    rw [hi1, ok_bind]
    have hvals : mapM (fun ei : Nat => vget row (ei : Int)) (List.range n) = ok ((List.range n).map fun e => fin (b y e)) :=
      mapM_ok fun e he => by
        have := hd.hbv y hy e (List.mem_range.mp he)
        exact vget_some (by simpa [cell?, hrow] using this)
    obtain ⟨out, c1, c2, c3, c4⟩ := writeMembers_eq row (List.range n) (List.zipWith (· + ·) ((List.range n).map fun e => fin (b y e))
      ((List.range n).map fun e => fin (inc e))) (fun e he => by rw [hlen]; exact hnE e (List.mem_range.mp he))
    refine ⟨out, by unfold multiWrite; rw [hvals, ok_bind, c1], by rw [c2, hlen], inc, ⟨hdet, w, hw, hi2⟩, fun e he => ?_,
      fun e he => c3 e (by simpa using he)⟩
    exact c4 List.nodup_range e e _ (by simp [he]) (by simp [he])

/-- No observation selected: the weights and increments are empty. -/
theorem memberwise_nil (sel : Fin 0 → Nat) (g : Nat → K) (C : Nat → Nat → K) (ratio : Nat → K) (d : Nat → Nat → K) (br : K) (extrap : Bool)
    (n : Nat) : Spec.MemberwiseOI sel g C ratio d br extrap n fun _ => 0 := by
  refine ⟨by rw [Matrix.det_isEmpty]; exact one_ne_zero, fun i => i.elim0, funext fun i => i.elim0, fun e _ => ⟨fun _ => by simp, fun _ => ?_⟩⟩
  refine ⟨fun _ => by simp, fun _ => ⟨Or.inl le_rfl, Or.inl le_rfl⟩, fun _ v _ => ?_⟩
  simp

end
end Gridpp.Props
