import Verif.Lemmas.EnsiMember
import Verif.Lemmas.EnsiStandard

/-! Properties C78 and C79: the variants `ebesc` and `ebe` of `optimal_interpolation_ensi_multi` are optimal interpolation
member by member. -/

set_option linter.unusedSectionVars false

namespace Gridpp.Props
open Fl Res Matrix

section
variable {K : Type} [Field K] [LinearOrder K] [IsStrictOrderedRing K] [HasGeo K] [LawfulSqrt K] [HasExp K]
variable {T : RTree K} {bp points : Points K} {s : SF K} {maxPoints : Int} {L : Nat → Fl K} {G P : Nat → Nat → K}
variable {background pbg pobs : List (List (Fl K))} {pratios bratios : List (Fl K)} {E n : Nat} {b p o : Nat → Nat → K} {ratio br : Nat → K}

/-- Optimal interpolation member by member at all output points (`g y i` are the correlations used between output point `y` and
observation `i`, `C` those used between observations; `rho` the ones used for the selection), or, if some output point has a
singular matrix, `std::runtime_error`. Members from `n` on keep their background. -/
def Memberwise (res : Res (List (List (Fl K)))) (background : List (List (Fl K))) (Y E n : Nat) (b : Nat → Nat → K) (br : Nat → K)
    (usable : Nat → Nat → Prop) (rho : Nat → Nat → K) (max : Nat) (g C : Nat → Nat → K) (ratio : Nat → K) (d : Nat → Nat → K)
    (extrap : Bool) : Prop :=
  (∃ out, res = ok out ∧ Rect Y E out ∧ ∀ y < Y, ∃ (m : Nat) (sel : Fin m → Nat) (inc : Nat → K),
    Spec.Selection (usable y) (rho y) max sel ∧ Spec.MemberwiseOI sel (g y) C ratio d (br y) extrap n inc ∧
    (∀ e < n, cell? out y e = some (fin (b y e + inc e))) ∧ ∀ e, n ≤ e → cell? out y e = cell? background y e) ∨
  (res = .throw .runtimeError ∧ ∃ y < Y, ∃ (m : Nat) (sel : Fin m → Nat), Spec.Selection (usable y) (rho y) max sel ∧
    (Spec.system sel C ratio).det = 0)

/-- From the loop over the output points to the whole field. -/
theorem memberwise_of_cells {f : Nat → Res (List (Fl K))} {Y : Nat} (hb : Rect Y E background) {usable : Nat → Nat → Prop}
    {rho : Nat → Nat → K} {max : Nat} {g C : Nat → Nat → K} {d : Nat → Nat → K} {extrap : Bool}
    (h : ∀ y row, background[y]? = some row → ∃ (m : Nat) (sel : Fin m → Nat), Spec.Selection (usable y) (rho y) max sel ∧
      ((∃ out, f y = ok out ∧ out.length = E ∧ ∃ inc, Spec.MemberwiseOI sel (g y) C ratio d (br y) extrap n inc ∧
        (∀ e < n, out[e]? = some (fin (b y e + inc e))) ∧ ∀ e, n ≤ e → out[e]? = row[e]?) ∨
      (f y = .throw .runtimeError ∧ (Spec.system sel C ratio).det = 0))) :
    Memberwise (mapM f (List.range background.length)) background Y E n b br usable rho max g C ratio d extrap := by
  rcases mapM_range_cases f (fun e => e = .runtimeError ∧ ∃ y < Y, ∃ (m : Nat) (sel : Fin m → Nat),
      Spec.Selection (usable y) (rho y) max sel ∧ (Spec.system sel C ratio).det = 0)
      (fun y out => out.length = E ∧ ∃ (m : Nat) (sel : Fin m → Nat) (inc : Nat → K), Spec.Selection (usable y) (rho y) max sel ∧
        Spec.MemberwiseOI sel (g y) C ratio d (br y) extrap n inc ∧ (∀ e < n, out[e]? = some (fin (b y e + inc e))) ∧
        ∀ e, n ≤ e → out[e]? = cell? background y e) background.length (fun y hy => by
    obtain ⟨m, sel, h1, h2⟩ := h y _ (List.getElem?_eq_getElem hy)
    rcases h2 with ⟨out, c1, c2, inc, c3, c4, c5⟩ | ⟨c1, c2⟩
    · left
      refine ⟨out, c1, c2, m, sel, inc, h1, c3, c4, fun e he => ?_⟩
      rw [c5 e he]
      simp [cell?, hy]
    · right
      exact ⟨_, c1, rfl, y, by rw [← hb.1]; exact hy, m, sel, h1, c2⟩) with ⟨out, h1, h2, h3⟩ | ⟨e, h1, rfl, h2⟩
  · left
    refine ⟨out, h1, ⟨h2.trans hb.1, fun r hr => ?_⟩, fun y hy => ?_⟩
    · obtain ⟨y, hy⟩ := List.mem_iff_getElem?.mp hr
      obtain ⟨r', hr', hl, -⟩ := h3 y (by rw [← h2]; exact (List.getElem?_eq_some_iff.mp hy).1)
      rw [hy] at hr'
      cases hr'
      exact hl
    · obtain ⟨r, hr, -, m, sel, inc, c1, c2, c3, c4⟩ := h3 y (by rw [hb.1]; exact hy)
      refine ⟨m, sel, inc, c1, c2, fun e he => ?_, fun e he => ?_⟩
      · rw [← c3 e he]; simp [cell?, hr]
      · rw [← c4 e he]; simp [cell?, hr]
  · exact Or.inr ⟨h1, h2⟩

theorem selected_valid {y : Nat} {r : List Nat} (h : Spec.Selection (UsableObs bp points (fun i => ((cell? pobs i 0).getD nan).isValid = true)
      (L y) (G y) y) (G y) maxPoints.toNat r.get) :
    Spec.Selection (UsableObs bp points (fun i => ∃ v, cell? pobs i 0 = some (fin v)) (L y) (G y) y) (G y) maxPoints.toNat r.get ∧
      ∀ i ∈ r, ∃ v, cell? pobs i 0 = some (fin v) := by
  have hval : (fun i => ((cell? pobs i 0).getD nan).isValid = true) = fun i => ∃ v, cell? pobs i 0 = some (fin v) := by
    funext i
    apply propext
    cases cell? pobs i 0 with
    | none => simp
    | some v => simp [isValid_iff]
  rw [hval] at h
  refine ⟨h, fun i hi => ?_⟩
  obtain ⟨k, rfl⟩ := List.get_of_mem hi
  exact (h.mem k).2.1

/-- `optimal_interpolation_ensi_multi_ebesc`: the same weights for all members, those of optimal interpolation with the
correlations of the structure function, times the ratio given for the output point. -/
theorem c78_ebesc {A : Arma K} (hA : A.Lawful) (h : EnsPoints T A bp points s maxPoints L G) (hc : Correlations T s bp points L G P)
    (hd : MultiData bp points (background ++ pbg) background pbg pobs pratios bratios E n b p o ratio br) (extrap : Bool) :
    Memberwise (ebescPoints T A bp bratios background points pobs pratios pbg s maxPoints extrap) background bp.size E n b br
      (fun y => UsableObs bp points (fun i => ∃ v, cell? pobs i 0 = some (fin v)) (L y) (G y) y) G maxPoints.toNat G P ratio
      (fun i e => o i e - p i e) extrap := by
  obtain ⟨pts, members, hpts, hsub, hmi, hrun⟩ := ebesc_run h hd.hbr hd.hb hd.hpobs hd.hrat hd.hpbg extrap
  have hmem : members = List.range n := members_range hsub fun e => by rw [hmi, hd.hall]
  subst hmem
  have hE : 0 < E := ((hd.hall 0).mp hd.hn).1
  rw [hrun]
  unfold ebescLoop
  rw [if_neg (by simpa using hd.hn.ne')]
  refine memberwise_of_cells hd.hb fun y row hrow => ?_
  have hy : y < bp.size := by rw [← hd.hb.1]; exact (List.getElem?_eq_some_iff.mp hrow).1
  have hlen : row.length = E := hd.hb.2 row (List.mem_iff_getElem?.mpr ⟨y, hrow⟩)
  obtain ⟨r, hr1, hr2, hr3, -⟩ := ensiSelect_spec h.htree h.hlib.sort_perm h.hlib.sort_sorted h.hbp h.hpoints h.htype h.hcorr hpts h.hmax
    (obs := fun i => vget2 pobs (i : Int) 0) (o := fun i => (cell? pobs i 0).getD nan) (pobs0 hd.hpobs hE) hy
  obtain ⟨hr3, hr4⟩ := selected_valid hr3
  refine ⟨r.length, r.get, hr3, ?_⟩
  unfold ebescCell
  rw [vget_some hrow, ok_bind, vget_some (hd.hbrv y hy), ok_bind, hr1, ok_bind]
  by_cases h0 : r = []
  · subst h0
    left
    exact ⟨row, rfl, hlen, fun _ => 0, memberwise_nil _ _ _ _ _ _ _ _, fun e he => by
      rw [add_zero, ← hd.hbv y hy e he]; simp [cell?, hrow], fun _ _ => rfl⟩
  · rw [if_neg (by simpa [rhoPairs] using h0), hd.rows h.hpoints hc hpts (fun _ => ok []) (fun _ => []) (fun _ _ => rfl) r hr2 hr4 (G y), ok_bind,
      List.length_range]
    refine hd.finish hA hy hrow r h0 (G y) _ (G y) P _ _ extrap (fun i => ?_) (fun i j => ?_)
    · simp [multiRowsOf, List.getD]
    · simp [multiRowsOf, List.getD, ent]

variable {backgroundc pbgc : List (List (Fl K))} {bc pc : Nat → Nat → K}

/-- The rows of `gZ_R`, as numbers. -/
theorem ebeZ_fin (hn : 0 < n) {nY : Nat} (h : Rect points.size E pbgc) (hs : points.size ≤ nY)
    (hv : ∀ i < points.size, ∀ e < n, cell? pbgc i e = some (fin (pc i e))) :
    ebeZ nY (List.range n) pbgc =
      ok ((List.range points.size).map fun i => (List.range n).map fun e => fin (standardOf (Finset.range n) (pc i) e)) := by
  unfold ebeZ
  rw [h.1]
  refine mapM_ok fun i hi => ?_
  have hi := List.mem_range.mp hi
  obtain ⟨row, hrow⟩ := exists_getElem? (v := pbgc) (n := i) (by rw [h.1]; exact hi)
  have hvals : mapM (fun ei : Nat => vget row (ei : Int)) (List.range n) = ok ((List.range n).map fun e => fin (pc i e)) :=
    mapM_ok fun e he => by
      have := hv i hi e (List.mem_range.mp he)
      exact vget_some (by simpa [cell?, hrow] using this)
  rw [vget_some hrow, ok_bind, hvals, ok_bind]
  unfold obsRow
  rw [if_pos (by omega), standardize_map _ List.nodup_range (by simpa using hn.ne'), List.toFinset_range]

theorem sum_range_fin (n : Nat) (f : Nat → K) : ∑ k : Fin n, f k = ∑ e ∈ Finset.range n, f e := (Finset.sum_range f).symm

/-- `optimal_interpolation_ensi_multi_ebe`, if there are at least as many output points as observations: the same, but the
correlations are those of the structure function times those of the second ensemble (0 where its standard deviation is not above
0.0013) times n/(n - 1). The claim is that they are the correlations of the second ensemble: the factor n/(n - 1) is missing in it. -/
theorem c79_ebe_partial {A : Arma K} (hA : A.Lawful) (h : EnsPoints T A bp points s maxPoints L G) (hc : Correlations T s bp points L G P)
    (hd : MultiData bp points (background ++ backgroundc ++ pbg ++ pbgc) background pbg pobs pratios bratios E n b p o ratio br)
    (hbc : Rect bp.size E backgroundc) (hpbgc : Rect points.size E pbgc) (hsize : points.size ≤ bp.size)
    (hbcv : ∀ y < bp.size, ∀ e < n, cell? backgroundc y e = some (fin (bc y e)))
    (hpcv : ∀ i < points.size, ∀ e < n, cell? pbgc i e = some (fin (pc i e))) (extrap : Bool) :
    Memberwise (ebePoints T A bp bratios background backgroundc points pobs pratios pbg pbgc s maxPoints extrap) background bp.size E n b br
      (fun y => UsableObs bp points (fun i => ∃ v, cell? pobs i 0 = some (fin v)) (L y) (G y) y) G maxPoints.toNat
      (fun y i => G y i * ((n : K) / ((n : K) - 1) * Spec.ensCorrOr0 (Finset.range n) (bc y) (pc i)))
      (fun i j => P i j * ((n : K) / ((n : K) - 1) * Spec.ensCorrOr0 (Finset.range n) (pc i) (pc j))) ratio
      (fun i e => o i e - p i e) extrap := by
  obtain ⟨pts, members, hpts, hsub, hmi, hrun⟩ := ebe_run h hd.hbr hd.hb hbc hd.hpobs hd.hrat hd.hpbg hpbgc extrap
  have hmem : members = List.range n := members_range hsub fun e => by rw [hmi, hd.hall]
  subst hmem
  have hE : 0 < E := ((hd.hall 0).mp hd.hn).1
  have hprod : ∀ x z : Nat → K, ∑ k : Fin n, standardOf (Finset.range n) x k * standardOf (Finset.range n) z k =
      (n : K) / ((n : K) - 1) * Spec.ensCorrOr0 (Finset.range n) x z := fun x z => by
    rw [sum_range_fin n fun e => standardOf (Finset.range n) x e * standardOf (Finset.range n) z e, standard_mul, Finset.card_range]
  rw [hrun]
  unfold ebeLoop
  rw [if_neg (by simpa using hd.hn.ne'), ebeZ_fin hd.hn hpbgc (by rw [hd.hb.1]; exact hsize) hpcv, ok_bind]
  refine memberwise_of_cells hd.hb fun y row hrow => ?_
  have hy : y < bp.size := by rw [← hd.hb.1]; exact (List.getElem?_eq_some_iff.mp hrow).1
  have hlen : row.length = E := hd.hb.2 row (List.mem_iff_getElem?.mpr ⟨y, hrow⟩)
  obtain ⟨r, hr1, hr2, hr3, -⟩ := ensiSelect_spec h.htree h.hlib.sort_perm h.hlib.sort_sorted h.hbp h.hpoints h.htype h.hcorr hpts h.hmax
    (obs := fun i => vget2 pobs (i : Int) 0) (o := fun i => (cell? pobs i 0).getD nan) (pobs0 hd.hpobs hE) hy
  obtain ⟨hr3, hr4⟩ := selected_valid hr3
  refine ⟨r.length, r.get, hr3, ?_⟩
  obtain ⟨rowc, hrowc⟩ := exists_getElem? (v := backgroundc) (n := y) (by rw [hbc.1]; exact hy)
  have hvals : mapM (fun ei : Nat => vget rowc (ei : Int)) (List.range n) = ok ((List.range n).map fun e => fin (bc y e)) :=
    mapM_ok fun e he => by
      have := hbcv y hy e (List.mem_range.mp he)
      exact vget_some (by simpa [cell?, hrowc] using this)
  unfold ebeCell
  rw [vget_some hrow, ok_bind, vget_some (hd.hbrv y hy), ok_bind, hr1, ok_bind]
  by_cases h0 : r = []
  · subst h0
    left
    exact ⟨row, rfl, hlen, fun _ => 0, memberwise_nil _ _ _ _ _ _ _ _, fun e he => by
      rw [add_zero, ← hd.hbv y hy e he]; simp [cell?, hrow], fun _ _ => rfl⟩
  · rw [if_neg (by simpa [rhoPairs] using h0), vget_some hrowc, ok_bind, hvals, ok_bind]
    have hrows := hd.rows h.hpoints hc hpts (fun i => vget ((List.range points.size).map fun i => (List.range n).map fun e =>
      fin (standardOf (Finset.range n) (pc i) e)) (i : Int)) (fun i => (List.range n).map fun e => fin (standardOf (Finset.range n) (pc i) e))
      (fun i hi => vget_some (by simp [hi])) r hr2 hr4 (G y)
    simp only [hrows, ok_bind, List.length_range, standardize_map _ List.nodup_range (show List.range n ≠ [] by simpa using hd.hn.ne'),
      List.toFinset_range]
    have hrl : ∀ z d, (multiRowsOf n (G y) ratio P z d r).length = r.length := fun z d => by simp [multiRowsOf]
    have hent : ∀ (d : Nat → Nat → K) (i : Fin r.length) (k : Fin n), ent ((multiRowsOf n (G y) ratio P (fun i => (List.range n).map fun e =>
        fin (standardOf (Finset.range n) (pc i) e)) d r).map MultiObs.z) i k = fin (standardOf (Finset.range n) (pc (r.get i)) k) := fun d i k => by
      simp [multiRowsOf, ent, List.getD]
    refine hd.finish hA hy hrow r h0 (G y) _ _ _ _ _ extrap (fun i => ?_) (fun i j => ?_)
    · rw [hrl, ← hprod, ← fin_mul]
      have e1 : (sumTo n fun e => ((List.range n).map fun e => fin (standardOf (Finset.range n) (bc y) e)).getD e nan *
          ent ((multiRowsOf n (G y) ratio P (fun i => (List.range n).map fun e =>
            fin (standardOf (Finset.range n) (pc i) e)) (fun i e => o i e - p i e) r).map MultiObs.z) i e) =
          fin (∑ k : Fin n, standardOf (Finset.range n) (bc y) k * standardOf (Finset.range n) (pc (r.get i)) k) :=
        sumTo_fin fun k => by rw [hent, ← fin_mul]; simp [List.getD]
      rw [← e1]
      simp [multiRowsOf, List.getD]
    · rw [hrl, ← hprod, ← fin_mul]
      have e1 : (sumTo n fun e => ent ((multiRowsOf n (G y) ratio P (fun i => (List.range n).map fun e =>
            fin (standardOf (Finset.range n) (pc i) e)) (fun i e => o i e - p i e) r).map MultiObs.z) i e *
          ent ((multiRowsOf n (G y) ratio P (fun i => (List.range n).map fun e =>
            fin (standardOf (Finset.range n) (pc i) e)) (fun i e => o i e - p i e) r).map MultiObs.z) j e) =
          fin (∑ k : Fin n, standardOf (Finset.range n) (pc (r.get i)) k * standardOf (Finset.range n) (pc (r.get j)) k) :=
        sumTo_fin fun k => by rw [hent, hent, fin_mul]
      rw [← e1]
      simp [multiRowsOf, List.getD, ent, tab]

/-- The claim is false: what `ebe` uses as the correlation of an observation with itself is n/(n - 1), not 1. -/
theorem c79_not_correlation {S : Finset Nat} {x : Nat → K} (h : 13 / 10000 < Spec.ensSpread S x) :
    Spec.ensCorrOr0 S x x = 1 ∧ (S.card : K) / ((S.card : K) - 1) * Spec.ensCorrOr0 S x x ≠ 1 := by
  have hc : (2 : K) ≤ (S.card : K) := by exact_mod_cast card_of_spread (lt_trans (by norm_num) h)
  have hc1 : (S.card : K) - 1 ≠ 0 := by intro c; linarith
  rw [ensCorrOr0_self h, mul_one]
  refine ⟨rfl, fun c => ?_⟩
  rw [div_eq_one_iff_eq hc1] at c
  linarith

end
end Gridpp.Props
