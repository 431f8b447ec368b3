import Verif.Model.Gradient
import Verif.Props.BilinearGrid

/-! Lemmas for downscaling with gradients. -/

set_option linter.unusedSectionVars false

namespace Gridpp
open Fl Res Props

variable {K : Type} [Field K] [LinearOrder K] [IsStrictOrderedRing K] [HasGeo K]

/-- A parallel loop over the cells of a grid succeeds with `out` exactly if `out` has the values of all cells. -/
theorem field_ok_iff {og : Grid K} {oY oX : Nat} {olats olons : List (List (Fl K))} {otype : CoordType}
    (ho : BuiltGrid og oY oX olats olons otype) (F : Fl K → Fl K → Res (Fl K)) (out : List (List (Fl K))) :
    omp (grid2 oY oX fun i j => do
      let la ← vget2 og.lats i j
      let lo ← vget2 og.lons i j
      F la lo) = ok out ↔ FieldSat olats olons oY oX (fun la lo v => F la lo = ok v) out := by
  obtain ⟨how, rfl, rfl, -⟩ := ho.wf
  constructor
  · intro h
    obtain ⟨k1, k2⟩ := grid2_eq_ok (omp_eq_ok.mp h)
    refine ⟨k1, fun y hy x hx => ?_⟩
    obtain ⟨v, v1, v2⟩ := k2 y hy x hx
    obtain ⟨la, a1, a2⟩ := vget2_of_rect how.lats hy hx
    obtain ⟨lo, b1, b2⟩ := vget2_of_rect how.lons hy hx
    simp only [a2, b2, ok_bind] at v2
    exact ⟨la, lo, v, a1, b1, v1, v2⟩
  · rintro ⟨k1, k2⟩
    obtain ⟨out', e1, e2, e3⟩ := grid2_exists (Y := oY) (X := oX) (f := fun i j => do
      let la ← vget2 og.lats i j
      let lo ← vget2 og.lons i j
      F la lo) (P := fun y x v => cell? out y x = some v) (by
        intro y hy x hx
        obtain ⟨la, lo, v, a1, b1, v1, v2⟩ := k2 y hy x hx
        exact ⟨v, by simp only [vget2_of_cell? a1, vget2_of_cell? b1, ok_bind, v2], v1⟩)
    rw [e1]
    have : out' = out := Rect.ext e2 k1 (fun y hy x hx => by
      obtain ⟨v, v1, -, v2⟩ := e3 y hy x hx
      rw [v1, v2])
    rw [this]; rfl

/-- The same for points. -/
theorem vec_ok_iff {op : Points K} {olats olons : List (Fl K)} {otype : CoordType}
    (ho : BuiltPoints op olats olons otype) (F : Fl K → Fl K → Res (Fl K)) (out : List (Fl K)) :
    omp (mapM (fun i : Int => do
      let la ← vget op.lats i
      let lo ← vget op.lons i
      F la lo) (upto op.lats.length)) = ok out ↔ VecSat olats olons (fun la lo v => F la lo = ok v) out := by
  obtain ⟨rfl, rfl, -, -, -, -, hl⟩ := ho.wf
  constructor
  · intro h
    obtain ⟨k1, k2⟩ := mapM_upto_eq_ok (omp_eq_ok.mp h)
    refine ⟨k1, fun i hi => ?_⟩
    have a1 : op.lats[i]? = some op.lats[i] := List.getElem?_eq_getElem hi
    have b1 : op.lons[i]? = some (op.lons[i]'(by omega)) := List.getElem?_eq_getElem _
    have k := k2 i (by omega)
    simp only [vget_nat_eq_ok.mpr a1, vget_nat_eq_ok.mpr b1, ok_bind] at k
    exact ⟨_, _, _, a1, b1, List.getElem?_eq_getElem _, k⟩
  · rintro ⟨k1, k2⟩
    obtain ⟨out', e1, e2, e3⟩ := mapM_upto_exists (n := op.lats.length) (f := fun i : Int => do
      let la ← vget op.lats i
      let lo ← vget op.lons i
      F la lo) (P := fun i v => out[i]? = some v) (by
        intro i hi
        obtain ⟨la, lo, v, a1, b1, v1, v2⟩ := k2 i hi
        exact ⟨v, by simp only [vget_nat_eq_ok.mpr a1, vget_nat_eq_ok.mpr b1, ok_bind, v2], v1⟩)
    rw [e1]
    have : out' = out := by
      apply List.ext_getElem?
      intro i
      by_cases hi : i < op.lats.length
      · obtain ⟨v, v1, -, v2⟩ := e3 i hi
        rw [v1, v2]
      · rw [List.getElem?_eq_none (by omega), List.getElem?_eq_none (by omega)]
    rw [this]; rfl

theorem FieldSat.unique {oY oX : Nat} {olats olons : List (List (Fl K))} {F : Fl K → Fl K → Res (Fl K)} {a b : List (List (Fl K))}
    (ha : FieldSat olats olons oY oX (fun la lo v => F la lo = ok v) a)
    (hb : FieldSat olats olons oY oX (fun la lo v => F la lo = ok v) b) : a = b := by
  refine Rect.ext ha.1 hb.1 fun y hy x hx => ?_
  obtain ⟨la, lo, v, a1, a2, a3, a4⟩ := ha.2 y hy x hx
  obtain ⟨la', lo', w, b1, b2, b3, b4⟩ := hb.2 y hy x hx
  rw [a1] at b1
  rw [a2] at b2
  cases b1; cases b2
  rw [a4] at b4
  cases b4
  rw [a3, b3]

theorem VecSat.unique {olats olons : List (Fl K)} {F : Fl K → Fl K → Res (Fl K)} {a b : List (Fl K)}
    (ha : VecSat olats olons (fun la lo v => F la lo = ok v) a)
    (hb : VecSat olats olons (fun la lo v => F la lo = ok v) b) : a = b := by
  apply List.ext_getElem?
  intro i
  have hl := ha.1
  have hl' := hb.1
  by_cases hi : i < olats.length
  · obtain ⟨la, lo, v, a1, a2, a3, a4⟩ := ha.2 i hi
    obtain ⟨la', lo', w, b1, b2, b3, b4⟩ := hb.2 i hi
    rw [a1] at b1
    rw [a2] at b2
    cases b1; cases b2
    rw [a4] at b4
    cases b4
    rw [a3, b3]
  · rw [List.getElem?_eq_none (by omega), List.getElem?_eq_none (by omega)]

/-- The value of the downscaler at one location. -/
def downValue [HasSqrt K] (T : RTree K) (d : Downscaler) (ig : Grid K) (f : List (List (Fl K))) (la lo : Fl K) : Res (Fl K) :=
  match d with
  | .nearest => nearestValue T ig f la lo
  | .bilinear => bilinearAt T ig f la lo
  | .other => Res.throw .invalidArgument

section
variable {T : RTree K} [HasSqrt K]

theorem nearestChecked_iff {ig : Grid K} {la lo : Fl K} {c : Nat × Nat} : nearestCellChecked T ig la lo = ok c ↔ nearestCell T ig la lo = ok c := by
  unfold nearestCellChecked nearestCell
  cases ig.getNearestNeighbour T la lo true with
  | ok n => cases n <;> simp
  | throw e => simp
  | abort => simp
  | ub => simp

theorem downscalingGG2_ok_iff {d : Downscaler} {ig og : Grid K} {Y X oY oX : Nat} {lats lons olats olons : List (List (Fl K))} {type otype : CoordType}
    (hi : BuiltGrid ig Y X lats lons type) (ho : BuiltGrid og oY oX olats olons otype) {f : List (List (Fl K))} (hf : Rect Y X f)
    (out : List (List (Fl K))) :
    downscalingGG2 T d ig og f = ok out ↔ FieldSat olats olons oY oX (fun la lo v => downValue T d ig f la lo = ok v) out := by
  have hw := hi.wf.1
  have how := ho.wf.1
  obtain ⟨r, hr, hrl⟩ := first_row how.lats how.hY
  have := hw.hY
  have := hw.hX
  unfold downscalingGG2
  rw [compatibleSizeG2_rect hw hf, ok_bind]
  rw [if_neg (by simp)]
  cases d with
  | bilinear => exact bilinearGG2_ok_iff hi ho hf out
  | other =>
    constructor
    · intro h; cases h
    · rintro ⟨-, h⟩
      obtain ⟨_, _, _, -, -, -, h'⟩ := h 0 how.hY 0 how.hX
      cases h'
  | nearest =>
    have he : nearestGG2 T ig og f = omp (grid2 oY oX fun i j => do
        let la ← vget2 og.lats i j
        let lo ← vget2 og.lons i j
        do
          let c ← nearestCellChecked T ig la lo
          vget2 f c.1 c.2) := by
      unfold nearestGG2
      simp only [compatibleSizeG2_rect hw hf, hr, ok_bind, hw.size, how.lats.1, hrl, Bool.true_eq_false, if_false]
      rw [if_neg (by omega)]
    simp only [he]
    rw [field_ok_iff ho]
    have hx : ∀ la lo v, (do
          let c ← nearestCellChecked T ig la lo
          vget2 f c.1 c.2) = ok v ↔ downValue T .nearest ig f la lo = ok v := by
      intro la lo v
      unfold downValue nearestValue
      simp only [bind_eq_ok, nearestChecked_iff]
    simp only [hx]

theorem downscalingGP2_ok_iff {d : Downscaler} {ig : Grid K} {op : Points K} {Y X : Nat} {lats lons : List (List (Fl K))} {olats olons : List (Fl K)} {type otype : CoordType}
    (hi : BuiltGrid ig Y X lats lons type) (ho : BuiltPoints op olats olons otype) {f : List (List (Fl K))} (hf : Rect Y X f)
    (hd : d ≠ .other) (out : List (Fl K)) :
    downscalingGP2 T d ig op f = ok out ↔ VecSat olats olons (fun la lo v => downValue T d ig f la lo = ok v) out := by
  have hw := hi.wf.1
  have := hw.hY
  have := hw.hX
  unfold downscalingGP2
  rw [compatibleSizeG2_rect hw hf, ok_bind]
  rw [if_neg (by simp)]
  cases d with
  | bilinear => exact bilinearGP2_ok_iff hi ho hf out
  | other => exact absurd rfl hd
  | nearest =>
    have he : nearestGP2 T ig op f = omp (mapM (fun i : Int => do
        let la ← vget op.lats i
        let lo ← vget op.lons i
        nearestValue T ig f la lo) (upto op.lats.length)) := by
      unfold nearestGP2
      simp only [compatibleSizeG2_rect hw hf, ok_bind, hw.size, Bool.true_eq_false, if_false]
      rw [if_neg (by omega)]
      rfl
    simp only [he]
    exact vec_ok_iff ho _ out

end

section times
variable {T : RTree K} (hT : T.Lawful) [LawfulSqrt K]
include hT

/-- Nearest neighbours of all times at once. -/
theorem nearestGG3_cells {ig og : Grid K} {Y X oY oX : Nat} {lats lons olats olons : List (List (Fl K))} {type otype : CoordType}
    (hi : BuiltGrid ig Y X lats lons type) (ho : BuiltGrid og oY oX olats olons otype) (hv : GridValidIn type olats olons)
    (fs : List (List (List (Fl K)))) (hf : ∀ ft ∈ fs, Rect Y X ft) :
    ∃ out, nearestGG3 T ig og fs = ok out ∧ List.Forall₂ (fun f o => nearestGG2 T ig og f = ok o) fs out := by
  have hw := hi.wf.1
  have how := ho.wf.1
  obtain ⟨r, hr, hrl⟩ := first_row how.lats how.hY
  obtain ⟨IJ, h1, h2, h3⟩ := grid_loop ho (f := nearestCell T ig) (P := fun la lo c => c.1 < Y ∧ c.2 < X ∧ nearestCell T ig la lo = ok c) (by
    intro y x la lo a b
    obtain ⟨c, c1, c2, c3, c4⟩ := nearestCell_to hT hi (hv y x la lo a b)
    exact ⟨c, c1, c2, c3, c1⟩)
  obtain ⟨out, k1, k2, k3⟩ := time_loop hT (nT := fs.length) h2 (rd := fun t c => do
        let ft ← vget fs t
        vget2 ft c.1 c.2)
      (Q := fun t c v => ∃ ft, fs[t]? = some ft ∧ (c.1 < Y ∧ c.2 < X → cell? ft c.1 c.2 = some v)) (by
    intro t ht y x c hc
    obtain ⟨hy, hx⟩ := cell?_lt h2 hc
    have ft1 : fs[t]? = some fs[t] := List.getElem?_eq_getElem ht
    obtain ⟨la, lo, c', e1, e2, e3, e4, e5, e6⟩ := h3 y hy x hx
    rw [hc] at e3
    cases e3
    obtain ⟨v, v1, v2⟩ := vget2_of_rect (hf fs[t] (List.getElem_mem ht)) e4 e5
    exact ⟨v, by simp only [vget_nat_eq_ok.mpr ft1, ok_bind, v2], fs[t], ft1, fun _ => v1⟩)
  refine ⟨out, ?_, ?_⟩
  · unfold nearestGG3
    have := hw.hY
    have := hw.hX
    simp only [compatibleSizeG3_rect hw hf, hr, ok_bind, hw.size, how.lats.1, hrl, Bool.true_eq_false, if_false]
    rw [if_neg (by omega), h1]
    exact k1
  · rw [List.forall₂_iff_get]
    refine ⟨k2.symm, fun t ht1 ht2 => ?_⟩
    have hR := hf _ (List.getElem_mem ht1)
    obtain ⟨o, o1, o2⟩ := nearestGG2_cells hT hi ho hv _ hR
    have : out[t] = o := by
      refine FieldSat.unique (F := fun la lo => nearestValue T ig fs[t] la lo) ?_ o2
      obtain ⟨ft, g1, g2, g3⟩ := k3 t ht1
      rw [List.getElem?_eq_getElem ht2] at g1
      cases g1
      refine ⟨g2, fun y hy x hx => ?_⟩
      obtain ⟨c, v, c1, c2, ft', c3, c4⟩ := g3 y hy x hx
      rw [List.getElem?_eq_getElem ht1] at c3
      cases c3
      obtain ⟨la, lo, c', e1, e2, e3, e4, e5, e6⟩ := h3 y hy x hx
      rw [c1] at e3
      cases e3
      refine ⟨la, lo, v, e1, e2, c2, ?_⟩
      show nearestValue T ig fs[t] la lo = ok v
      unfold nearestValue
      rw [e6, ok_bind]
      exact vget2_of_cell? (c4 ⟨e4, e5⟩)
    simp only [List.get_eq_getElem]
    rw [this, o1]

theorem nearestGP3_cells {ig : Grid K} {op : Points K} {Y X : Nat} {lats lons : List (List (Fl K))} {olats olons : List (Fl K)} {type otype : CoordType}
    (hi : BuiltGrid ig Y X lats lons type) (ho : BuiltPoints op olats olons otype) (hv : PointsValidIn type olats olons)
    (fs : List (List (List (Fl K)))) (hf : ∀ ft ∈ fs, Rect Y X ft) :
    ∃ out, nearestGP3 T ig op fs = ok out ∧ List.Forall₂ (fun f o => nearestGP2 T ig op f = ok o) fs out := by
  have hw := hi.wf.1
  have hol : op.lats.length = olats.length := by rw [ho.wf.1]
  obtain ⟨IJ, h1, h2, h3⟩ := points_loop ho (f := nearestCell T ig) (P := fun la lo c => c.1 < Y ∧ c.2 < X ∧ nearestCell T ig la lo = ok c) (by
    intro i la lo a b
    obtain ⟨c, c1, c2, c3, c4⟩ := nearestCell_to hT hi (hv i la lo a b)
    exact ⟨c, c1, c2, c3, c1⟩)
  obtain ⟨out, k1, k2, k3⟩ := grid2_exists (Y := fs.length) (X := olats.length) (f := fun t i => do
        let c ← vget IJ i
        let ft ← vget fs t
        vget2 ft c.1 c.2)
      (P := fun t i v => ∃ ft la lo, fs[t]? = some ft ∧ olats[i]? = some la ∧ olons[i]? = some lo ∧ nearestValue T ig ft la lo = ok v) (by
    intro t ht i hi'
    have ft1 : fs[t]? = some fs[t] := List.getElem?_eq_getElem ht
    obtain ⟨la, lo, c, e1, e2, e3, e4, e5, e6⟩ := h3 i hi'
    obtain ⟨v, v1, v2⟩ := vget2_of_rect (hf fs[t] (List.getElem_mem ht)) e4 e5
    refine ⟨v, by simp only [vget_nat_eq_ok.mpr ft1, vget_nat_eq_ok.mpr e3, ok_bind, v2], fs[t], la, lo, ft1, e1, e2, ?_⟩
    unfold nearestValue
    rw [e6, ok_bind, v2])
  refine ⟨out, ?_, ?_⟩
  · unfold nearestGP3
    have := hw.hY
    have := hw.hX
    simp only [compatibleSizeG3_rect hw hf, ok_bind, hw.size, Bool.true_eq_false, if_false]
    rw [if_neg (by omega), h1, hol]
    exact k1
  · rw [List.forall₂_iff_get]
    refine ⟨k2.1.symm, fun t ht1 ht2 => ?_⟩
    have hR := hf _ (List.getElem_mem ht1)
    obtain ⟨o, o1, o2⟩ := nearestGP2_cells hT hi ho hv _ hR
    have : out[t] = o := by
      refine VecSat.unique (F := fun la lo => nearestValue T ig fs[t] la lo) ?_ o2
      refine ⟨k2.row_length ht2, fun i hi' => ?_⟩
      obtain ⟨v, g1, -, ft', la, lo, g2, g3, g4, g5⟩ := k3 t ht1 i hi'
      rw [List.getElem?_eq_getElem ht1] at g2
      cases g2
      refine ⟨la, lo, v, g3, g4, ?_, g5⟩
      simpa [cell?, List.getElem?_eq_getElem ht2] using g1
    simp only [List.get_eq_getElem]
    rw [this, o1]

/-- Downscaling all times at once is downscaling every time by itself. -/
theorem downscalingGG3_ok_iff {d : Downscaler} (hd : d ≠ .other) {ig og : Grid K} {Y X oY oX : Nat} {lats lons olats olons : List (List (Fl K))} {type otype : CoordType}
    (hi : BuiltGrid ig Y X lats lons type) (ho : BuiltGrid og oY oX olats olons otype) (hv : GridValidIn type olats olons)
    (hs : ∀ y x la, cell? olats y x = some la → BoxLat type lats la)
    {fs : List (List (List (Fl K)))} (hf : ∀ f ∈ fs, Rect Y X f) (out : List (List (List (Fl K)))) :
    downscalingGG3 T d ig og fs = ok out ↔ List.Forall₂ (fun f o => downscalingGG2 T d ig og f = ok o) fs out := by
  have hw := hi.wf.1
  have hcongr : ∀ (F : List (List (Fl K)) → Res (List (List (Fl K)))), (∀ f, Rect Y X f → downscalingGG2 T d ig og f = F f) →
      (List.Forall₂ (fun f o => downscalingGG2 T d ig og f = ok o) fs out ↔ List.Forall₂ (fun f o => F f = ok o) fs out) := by
    intro F hF
    simp only [List.forall₂_iff_get]
    refine and_congr_right fun _ => ?_
    refine forall_congr' fun t => forall_congr' fun h1 => forall_congr' fun h3 => ?_
    rw [hF _ (hf _ (List.get_mem ..))]
  unfold downscalingGG3
  rw [compatibleSizeG3_rect hw hf, ok_bind, if_neg (by simp)]
  cases d with
  | other => exact absurd rfl hd
  | bilinear =>
    rw [hcongr (bilinearGG2 T ig og) fun f hff => by unfold downscalingGG2; rw [compatibleSizeG2_rect hw hff, ok_bind, if_neg (by simp)]]
    exact (bilinearGG3_ok_iff hT hi ho hv hs hf out).trans ⟨mapM_eq_ok, mapM_of_forall₂⟩
  | nearest =>
    rw [hcongr (nearestGG2 T ig og) fun f hff => by unfold downscalingGG2; rw [compatibleSizeG2_rect hw hff, ok_bind, if_neg (by simp)]]
    obtain ⟨o, o1, o2⟩ := nearestGG3_cells hT hi ho hv fs hf
    simp only [o1]
    constructor
    · intro h; cases h; exact o2
    · intro h
      have e1 := mapM_of_forall₂ h
      rw [mapM_of_forall₂ o2] at e1
      exact e1

theorem downscalingGP3_ok_iff {d : Downscaler} (hd : d ≠ .other) {ig : Grid K} {op : Points K} {Y X : Nat} {lats lons : List (List (Fl K))} {olats olons : List (Fl K)} {type otype : CoordType}
    (hi : BuiltGrid ig Y X lats lons type) (ho : BuiltPoints op olats olons otype) (hv : PointsValidIn type olats olons)
    (hs : ∀ (i : Nat) la, olats[i]? = some la → BoxLat type lats la)
    {fs : List (List (List (Fl K)))} (hf : ∀ f ∈ fs, Rect Y X f) (out : List (List (Fl K))) :
    downscalingGP3 T d ig op fs = ok out ↔ List.Forall₂ (fun f o => downscalingGP2 T d ig op f = ok o) fs out := by
  have hw := hi.wf.1
  have hcongr : ∀ (F : List (List (Fl K)) → Res (List (Fl K))), (∀ f, Rect Y X f → downscalingGP2 T d ig op f = F f) →
      (List.Forall₂ (fun f o => downscalingGP2 T d ig op f = ok o) fs out ↔ List.Forall₂ (fun f o => F f = ok o) fs out) := by
    intro F hF
    simp only [List.forall₂_iff_get]
    refine and_congr_right fun _ => ?_
    refine forall_congr' fun t => forall_congr' fun h1 => forall_congr' fun h3 => ?_
    rw [hF _ (hf _ (List.get_mem ..))]
  unfold downscalingGP3
  rw [compatibleSizeG3_rect hw hf, ok_bind, if_neg (by simp)]
  cases d with
  | other => exact absurd rfl hd
  | bilinear =>
    rw [hcongr (bilinearGP2 T ig op) fun f hff => by unfold downscalingGP2; rw [compatibleSizeG2_rect hw hff, ok_bind, if_neg (by simp)]]
    exact (bilinearGP3_ok_iff hT hi ho hv hs hf out).trans ⟨mapM_eq_ok, mapM_of_forall₂⟩
  | nearest =>
    rw [hcongr (nearestGP2 T ig op) fun f hff => by unfold downscalingGP2; rw [compatibleSizeG2_rect hw hff, ok_bind, if_neg (by simp)]]
    obtain ⟨o, o1, o2⟩ := nearestGP3_cells hT hi ho hv fs hf
    simp only [o1]
    constructor
    · intro h; cases h; exact o2
    · intro h
      have e1 := mapM_of_forall₂ h
      rw [mapM_of_forall₂ o2] at e1
      exact e1

end times
end Gridpp
