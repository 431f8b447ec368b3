import Verif.Lemmas.Bilinear
import Verif.Lemmas.Square
import Verif.Props.Grid
import Verif.Props.Nearest

/-! `::calc` and the four overloads of `gridpp::bilinear` on constructed grids. -/

set_option linter.unusedSectionVars false

namespace Gridpp
open Fl Res Props

variable {K : Type} [Field K] [LinearOrder K] [IsStrictOrderedRing K] [HasGeo K]

/-- Latitudes within the range that `get_box` accepts; only a restriction for Cartesian coordinates (see C17). -/
def BoxLat (type : CoordType) (lats : List (List (Fl K))) (la : Fl K) : Prop :=
  type = .cartesian → (∀ y x v, cell? lats y x = some (fin v) → LatOk v) ∧ ∀ v, la = fin v → LatOk v

/-- Cell (y, x) of the input grid has the nearest grid point `c` as a corner. -/
def NearBox (Y X : Nat) (c : Nat × Nat) (y x : Nat) : Prop :=
  y + 1 < Y ∧ x + 1 < X ∧ (c.1 = y ∨ c.1 = y + 1) ∧ (c.2 = x ∨ c.2 = x + 1)

/-- The four corners of cell (y, x) are at A, B, C, D. -/
def CellCorners (lats lons : List (List (Fl K))) (y x : Nat) (A B C D : Pt K) : Prop :=
  CornerAt lats lons y x A ∧ CornerAt lats lons (y + 1) x B ∧ CornerAt lats lons (y + 1) (x + 1) C ∧
    CornerAt lats lons y (x + 1) D

/-- The values of `f` at the four corners of cell (y, x). -/
def CellValues (f : List (List (Fl K))) (y x : Nat) (vA vB vC vD : Fl K) : Prop :=
  cell? f y x = some vA ∧ cell? f (y + 1) x = some vB ∧ cell? f (y + 1) (x + 1) = some vC ∧ cell? f y (x + 1) = some vD

theorem omp_eq_ok {α : Type} {r : Res α} {a : α} : omp r = ok a ↔ r = ok a := by
  cases r <;> simp [omp]

theorem fin_of_convert {la lo : Fl K} {type : CoordType} {p : Pt3 K} (h : convertCoordinates la lo type = ok p) :
    ∃ a o, la = fin a ∧ lo = fin o := by
  have : la.isValid = true ∧ lo.isValid = true := by
    by_contra hc
    have : la.isValid = false ∨ lo.isValid = false := by
      rw [not_and_or] at hc
      rcases hc with h | h
      · left; simpa using h
      · right; simpa using h
    rw [(convert_spec la lo).2.2.2 type this] at h
    cases h
  obtain ⟨a, ha⟩ := exists_fin_of_valid this.1
  obtain ⟨o, ho⟩ := exists_fin_of_valid this.2
  exact ⟨a, o, ha, ho⟩

section at_
variable {T : RTree K} (hT : T.Lawful) [LawfulSqrt K]
include hT

/-- All cases of `::calc` at a valid location. -/
theorem bilinearAt_cases {ig : Grid K} {Y X : Nat} {lats lons : List (List (Fl K))} {type : CoordType}
    (hi : BuiltGrid ig Y X lats lons type) {la lo : Fl K} (hv : ∃ p, convertCoordinates la lo type = ok p)
    (hs : BoxLat type lats la) :
    ∃ (m : Pt K) (c : Nat × Nat), la = fin m.lat ∧ lo = fin m.lon ∧ NearestCellTo lats lons type la lo c ∧
      c.1 < Y ∧ c.2 < X ∧ nearestCell T ig la lo = ok c ∧
      ((∃ y x A B C D, NearBox Y X c y x ∧ CellCorners lats lons y x A B C D ∧ InsideQuad A B C D m ∧
          ig.getBox T la lo = ok (some ⟨y, x, y + 1, x + 1⟩) ∧ boxQuad ig.lats ig.lons ⟨y, x, y + 1, x + 1⟩ = ok (quadOf A B C D)) ∨
       ((∀ y x, NearBox Y X c y x → ¬ CellContains lats lons y x m) ∧ ig.getBox T la lo = ok none)) := by
  obtain ⟨p, hp⟩ := hv
  obtain ⟨a, o, rfl, rfl⟩ := fin_of_convert hp
  obtain ⟨c, n1, n2, n3, n4⟩ := grid_nearest_to hT hi ⟨p, hp⟩
  have hi' := hi
  obtain ⟨hw, e1, e2, e3⟩ := hi'.wf
  obtain ⟨hY, hX, h1, h2, elevs, lafs, h3, h4, hg⟩ := hi
  obtain ⟨b, c', k1, k2, k3, k4⟩ := c16_box hT Y X hY hX lats lons elevs lafs type ig h1 h2 h3 h4 hg ⟨a, o⟩ p hp
    (fun ht => ⟨(hs ht).1, (hs ht).2 a rfl⟩)
  simp only at k1 k2
  rw [n1] at k2
  cases k2
  refine ⟨⟨a, o⟩, c, rfl, rfl, n4, n2, n3, ?_, ?_⟩
  · unfold nearestCell; rw [n1]; rfl
  · cases b with
    | none =>
      right
      refine ⟨?_, k1⟩
      rcases k4.mp rfl with h | h | h
      · intro y x hn; have := hn.1; omega
      · intro y x hn; have := hn.2.1; omega
      · intro y x hn; exact h y x hn.1 hn.2.1 hn.2.2.1 hn.2.2.2
    | some box =>
      left
      obtain ⟨y, x, rfl, l1, l2, l3, l4, A, B, C, D, cA, cB, cC, cD, hin⟩ := k3 box rfl
      refine ⟨y, x, A, B, C, D, ⟨l1, l2, l3, l4⟩, ⟨cA, cB, cC, cD⟩, hin, k1, ?_⟩
      unfold boxQuad quadOf
      rw [e1, e2]
      have g : ∀ (f : List (List (Fl K))) (i j : Nat) v, cell? f i j = some v → ∀ i' j' : Int, i' = i → j' = j → vget2 f i' j' = ok v := by
        rintro f i j v h _ _ rfl rfl; exact vget2_of_cell? h
      simp only []
      rw [g _ _ _ _ cA.2 _ _ rfl rfl, g _ _ _ _ cB.2 _ _ (by push_cast; rfl) rfl, g _ _ _ _ cD.2 _ _ rfl (by push_cast; rfl),
        g _ _ _ _ cC.2 _ _ (by push_cast; rfl) (by push_cast; rfl), g _ _ _ _ cA.1 _ _ rfl rfl, g _ _ _ _ cB.1 _ _ (by push_cast; rfl) rfl,
        g _ _ _ _ cD.1 _ _ rfl (by push_cast; rfl), g _ _ _ _ cC.1 _ _ (by push_cast; rfl) (by push_cast; rfl)]
      rfl

theorem boxValue_eq {ig : Grid K} {Y X : Nat} {f : List (List (Fl K))} (hf : Rect Y X f) {c : Nat × Nat} {y x : Nat} (hn : NearBox Y X c y x)
    {la lo : Fl K} (hc : nearestCell T ig la lo = ok c) (hc1 : c.1 < Y) (hc2 : c.2 < X) (q : Quad K) :
    ∃ vA vB vC vD vc, CellValues f y x vA vB vC vD ∧ cell? f c.1 c.2 = some vc ∧
      boxValue T ig f la lo ⟨y, x, y + 1, x + 1⟩ q =
        if vA.isValid && vB.isValid && vD.isValid && vC.isValid then bilinear4 lo la q vA vB vD vC else ok vc := by
  obtain ⟨h1, h2, -, -⟩ := hn
  obtain ⟨vA, a1, a2⟩ := vget2_of_rect hf (y := y) (x := x) (by omega) (by omega)
  obtain ⟨vB, b1, b2⟩ := vget2_of_rect hf (y := y + 1) (x := x) (by omega) (by omega)
  obtain ⟨vC, c1, c2⟩ := vget2_of_rect hf (y := y + 1) (x := x + 1) (by omega) (by omega)
  obtain ⟨vD, d1, d2⟩ := vget2_of_rect hf (y := y) (x := x + 1) (by omega) (by omega)
  obtain ⟨vc, e1, e2⟩ := vget2_of_rect hf hc1 hc2
  push_cast at b2 c2 d2
  refine ⟨vA, vB, vC, vD, vc, ⟨a1, b1, c1, d1⟩, e1, ?_⟩
  unfold boxValue nearestValue
  simp only [a2, b2, c2, d2, ok_bind, hc, e2]

theorem nearestValue_eq {ig : Grid K} {Y X : Nat} {f : List (List (Fl K))} (hf : Rect Y X f) {c : Nat × Nat}
    {la lo : Fl K} (hc : nearestCell T ig la lo = ok c) (hc1 : c.1 < Y) (hc2 : c.2 < X) :
    ∃ vc, cell? f c.1 c.2 = some vc ∧ nearestValue T ig f la lo = ok vc := by
  obtain ⟨vc, e1, e2⟩ := vget2_of_rect hf hc1 hc2
  refine ⟨vc, e1, ?_⟩
  unfold nearestValue
  rw [hc, ok_bind]; exact e2

/-- All times at once is each time by itself. -/
theorem bilinearAt3_eq {ig : Grid K} {Y X : Nat} {lats lons : List (List (Fl K))} {type : CoordType}
    (hi : BuiltGrid ig Y X lats lons type) {la lo : Fl K} (hv : ∃ p, convertCoordinates la lo type = ok p)
    (hs : BoxLat type lats la) (fs : List (List (List (Fl K)))) :
    bilinearAt3 T ig fs la lo = mapM (fun f => bilinearAt T ig f la lo) fs := by
  obtain ⟨m, c, -, -, -, -, -, hc, h⟩ := bilinearAt_cases hT hi hv hs
  unfold bilinearAt3 bilinearAt
  rcases h with ⟨y, x, A, B, C, D, -, -, -, hb, hq⟩ | ⟨-, hb⟩
  · rw [hb]
    simp only [ok_bind, hq]
  · rw [hb]
    simp only [ok_bind, hc, nearestValue]

end at_

section loops
variable {T : RTree K} [HasSqrt K]

theorem bilinearGG2_ok_iff {ig og : Grid K} {Y X oY oX : Nat} {lats lons olats olons : List (List (Fl K))} {type otype : CoordType}
    (hi : BuiltGrid ig Y X lats lons type) (ho : BuiltGrid og oY oX olats olons otype) {f : List (List (Fl K))} (hf : Rect Y X f)
    (out : List (List (Fl K))) :
    bilinearGG2 T ig og f = ok out ↔ FieldSat olats olons oY oX (fun la lo v => bilinearAt T ig f la lo = ok v) out := by
  have hw := hi.wf.1
  obtain ⟨how, rfl, rfl, -⟩ := ho.wf
  obtain ⟨r, hr, hrl⟩ := first_row how.lats how.hY
  have := hw.hY
  have := hw.hX
  have he : bilinearGG2 T ig og f = omp (grid2 oY oX fun i j => do
      let la ← vget2 og.lats i j
      let lo ← vget2 og.lons i j
      bilinearAt T ig f la lo) := by
    unfold bilinearGG2
    simp only [compatibleSizeG2_rect hw hf, hr, ok_bind, hw.size, how.lats.1, hrl, Bool.true_eq_false, if_false]
    rw [if_neg (by omega)]
  rw [he]
  constructor
  · intro h
    have h' := omp_eq_ok.mp h
    obtain ⟨k1, k2⟩ := grid2_eq_ok h'
    refine ⟨k1, fun y hy x hx => ?_⟩
    obtain ⟨v, v1, v2⟩ := k2 y hy x hx
    obtain ⟨la, a1, a2⟩ := vget2_of_rect how.lats hy hx
    obtain ⟨lo, b1, b2⟩ := vget2_of_rect how.lons hy hx
    simp only [a2, b2, ok_bind] at v2
    exact ⟨la, lo, v, a1, b1, v1, v2⟩
  · rintro ⟨k1, k2⟩
    obtain ⟨out', e1, e2, e3⟩ := grid2_exists (Y := oY) (X := oX) (f := fun i j => do
      let la ← vget2 og.lats i j
      let lo ← vget2 og.lons i j
      bilinearAt T ig f la lo) (P := fun y x v => cell? out y x = some v) (by
        intro y hy x hx
        obtain ⟨la, lo, v, a1, b1, v1, v2⟩ := k2 y hy x hx
        exact ⟨v, by simp only [vget2_of_cell? a1, vget2_of_cell? b1, ok_bind, v2], v1⟩)
    rw [e1]
    have : out' = out := Rect.ext e2 k1 (fun y hy x hx => by
      obtain ⟨v, v1, -, v2⟩ := e3 y hy x hx
      rw [v1, v2])
    rw [this]; rfl

theorem bilinearGP2_ok_iff {ig : Grid K} {op : Points K} {Y X : Nat} {lats lons : List (List (Fl K))} {olats olons : List (Fl K)} {type otype : CoordType}
    (hi : BuiltGrid ig Y X lats lons type) (ho : BuiltPoints op olats olons otype) {f : List (List (Fl K))} (hf : Rect Y X f)
    (out : List (Fl K)) :
    bilinearGP2 T ig op f = ok out ↔ VecSat olats olons (fun la lo v => bilinearAt T ig f la lo = ok v) out := by
  have hw := hi.wf.1
  have how := ho.wf
  obtain ⟨rfl, rfl, -, -, -, -, hl⟩ := how
  have := hw.hY
  have := hw.hX
  have he : bilinearGP2 T ig op f = omp (mapM (fun i : Int => do
      let la ← vget op.lats i
      let lo ← vget op.lons i
      bilinearAt T ig f la lo) (upto op.lats.length)) := by
    unfold bilinearGP2
    simp only [compatibleSizeG2_rect hw hf, ok_bind, hw.size, Bool.true_eq_false, if_false]
    rw [if_neg (by omega)]
  rw [he]
  constructor
  · intro h
    have h' := omp_eq_ok.mp h
    obtain ⟨k1, k2⟩ := mapM_upto_eq_ok h'
    refine ⟨k1, fun i hi => ?_⟩
    have a1 : op.lats[i]? = some op.lats[i] := List.getElem?_eq_getElem hi
    have b1 : op.lons[i]? = some (op.lons[i]'(by omega)) := List.getElem?_eq_getElem _
    have k := k2 i (by omega)
    simp only [vget_nat_eq_ok.mpr a1, vget_nat_eq_ok.mpr b1, ok_bind] at k
    exact ⟨_, _, _, a1, b1, List.getElem?_eq_getElem _, k⟩
  · rintro ⟨k1, k2⟩
    obtain ⟨out', e1, e2, e3⟩ := mapM_upto_exists (n := op.lats.length) (f := fun i : Int => do
      let la ← vget op.lats i
      let lo ← vget op.lons i
      bilinearAt T ig f la lo) (P := fun i v => out[i]? = some v) (by
        intro i hi
        obtain ⟨la, lo, v, a1, b1, v1, v2⟩ := k2 i hi
        exact ⟨v, by simp only [vget_nat_eq_ok.mpr a1, vget_nat_eq_ok.mpr b1, ok_bind, v2], v1⟩)
    rw [e1]
    have : out' = out := by
      apply List.ext_getElem? 
      intro i
      by_cases hi : i < op.lats.length
      · obtain ⟨v, v1, -, v2⟩ := e3 i hi
        rw [v1, v2]
      · rw [List.getElem?_eq_none (by omega), List.getElem?_eq_none (by omega)]
    rw [this]; rfl

end loops

section times
variable {T : RTree K} (hT : T.Lawful) [LawfulSqrt K]
include hT

theorem mapM_getElem {α β : Type} {f : α → Res β} {l : List α} {bs : List β} (h : mapM f l = ok bs) {t : Nat} {a : α} (ha : l[t]? = some a) :
    ∃ b, bs[t]? = some b ∧ f a = ok b := by
  have hf := mapM_eq_ok h
  obtain ⟨h1, rfl⟩ := List.getElem?_eq_some_iff.mp ha
  have hl := hf.length_eq
  exact ⟨bs[t]'(by omega), List.getElem?_eq_getElem _, (List.forall₂_iff_get.mp hf).2 t h1 (by omega)⟩

theorem bilinearGG3_ok_iff {ig og : Grid K} {Y X oY oX : Nat} {lats lons olats olons : List (List (Fl K))} {type otype : CoordType}
    (hi : BuiltGrid ig Y X lats lons type) (ho : BuiltGrid og oY oX olats olons otype) (hv : GridValidIn type olats olons)
    (hs : ∀ y x la, cell? olats y x = some la → BoxLat type lats la)
    {fs : List (List (List (Fl K)))} (hf : ∀ f ∈ fs, Rect Y X f) (out : List (List (List (Fl K)))) :
    bilinearGG3 T ig og fs = ok out ↔ mapM (bilinearGG2 T ig og) fs = ok out := by
  have hw := hi.wf.1
  have ho' := ho
  obtain ⟨how, e1, e2, -⟩ := ho'.wf
  obtain ⟨r, hr, hrl⟩ := first_row how.lats how.hY
  have := hw.hY
  have := hw.hX
  have he : bilinearGG3 T ig og fs = (do
      let temp ← omp (grid2 oY oX fun i j => do
        let la ← vget2 og.lats i j
        let lo ← vget2 og.lons i j
        bilinearAt3 T ig fs la lo)
      mapM (fun t : Int => grid2 oY oX fun i j => do
        let c ← vget2 temp i j
        vget c t) (upto fs.length)) := by
    unfold bilinearGG3
    simp only [compatibleSizeG3_rect hw hf, hr, ok_bind, hw.size, how.lats.1, hrl, Bool.true_eq_false, if_false]
    rw [if_neg (by omega)]
  -- the result of every successful computation
  have key : ∀ o, bilinearGG3 T ig og fs = ok o → mapM (bilinearGG2 T ig og) fs = ok o := by
    intro o h
    rw [he] at h
    obtain ⟨temp, h1, h2⟩ := bind_eq_ok.mp h
    obtain ⟨k1, k2⟩ := grid2_eq_ok (omp_eq_ok.mp h1)
    obtain ⟨l1, l2⟩ := mapM_upto_eq_ok h2
    apply mapM_of_forall₂
    rw [List.forall₂_iff_get]
    refine ⟨l1.symm, fun t ht1 ht2 => ?_⟩
    rw [bilinearGG2_ok_iff hi ho (hf _ (List.get_mem ..))]
    obtain ⟨q1, q2⟩ := grid2_eq_ok (l2 t ht2)
    refine ⟨q1, fun y hy x hx => ?_⟩
    obtain ⟨l, c1, c2⟩ := k2 y hy x hx
    obtain ⟨la, a1, a2⟩ := vget2_of_rect how.lats hy hx
    obtain ⟨lo, b1, b2⟩ := vget2_of_rect how.lons hy hx
    rw [e1] at a1
    rw [e2] at b1
    simp only [a2, b2, ok_bind, bilinearAt3_eq hT hi (hv y x la lo a1 b1) (hs y x la a1)] at c2
    obtain ⟨v, v1, v2⟩ := mapM_getElem hT c2 (t := t) (List.getElem?_eq_getElem ht1)
    obtain ⟨w, w1, w2⟩ := q2 y hy x hx
    rw [vget2_of_cell? c1, ok_bind, vget_nat_eq_ok.mpr v1] at w2
    cases w2
    exact ⟨la, lo, v, a1, b1, w1, v2⟩
  refine ⟨key out, fun h => ?_⟩
  suffices hex : ∃ o, bilinearGG3 T ig og fs = ok o by
    obtain ⟨o, ho⟩ := hex
    have := key o ho
    rw [h] at this
    cases this
    exact ho
  rw [he]
  obtain ⟨temp, t1, t2, t3⟩ := grid2_exists (Y := oY) (X := oX) (f := fun i j => do
        let la ← vget2 og.lats i j
        let lo ← vget2 og.lons i j
        bilinearAt3 T ig fs la lo) (P := fun _ _ l => l.length = fs.length) (by
    intro y hy x hx
    obtain ⟨la, a1, a2⟩ := vget2_of_rect how.lats hy hx
    obtain ⟨lo, b1, b2⟩ := vget2_of_rect how.lons hy hx
    rw [e1] at a1
    rw [e2] at b1
    simp only [a2, b2, ok_bind, bilinearAt3_eq hT hi (hv y x la lo a1 b1) (hs y x la a1)]
    obtain ⟨l, hl⟩ := mapM_exists (f := fun f => bilinearAt T ig f la lo) fs (by
      intro f hff
      obtain ⟨t, ht, rfl⟩ := List.getElem_of_mem hff
      obtain ⟨o, o1, o2⟩ := mapM_getElem hT h (List.getElem?_eq_getElem ht)
      obtain ⟨la', lo', v, a1', b1', -, v2⟩ := ((bilinearGG2_ok_iff hi ho (hf _ hff) o).mp o2).2 y hy x hx
      rw [a1] at a1'
      rw [b1] at b1'
      cases a1'; cases b1'
      exact ⟨v, v2⟩)
    exact ⟨l, hl, mapM_length hl⟩)
  rw [t1, omp_ok, ok_bind]
  obtain ⟨o, o1, -⟩ := mapM_upto_exists (n := fs.length) (f := fun t : Int => grid2 oY oX fun i j => do
        let c ← vget2 temp i j
        vget c t) (P := fun _ _ => True) (by
    intro t ht
    obtain ⟨o, o1, -⟩ := grid2_exists (Y := oY) (X := oX) (f := fun i j => do
        let c ← vget2 temp i j
        vget c (t : Int)) (P := fun _ _ _ => True) (by
      intro y hy x hx
      obtain ⟨l, l1, -, l2⟩ := t3 y hy x hx
      exact ⟨l[t]'(by omega), by rw [vget2_of_cell? l1, ok_bind]; exact vget_nat_eq_ok.mpr (List.getElem?_eq_getElem _), trivial⟩)
    exact ⟨o, o1, trivial⟩)
  exact ⟨o, o1⟩

theorem bilinearGP3_ok_iff {ig : Grid K} {op : Points K} {Y X : Nat} {lats lons : List (List (Fl K))} {olats olons : List (Fl K)} {type otype : CoordType}
    (hi : BuiltGrid ig Y X lats lons type) (ho : BuiltPoints op olats olons otype) (hv : PointsValidIn type olats olons)
    (hs : ∀ (i : Nat) la, olats[i]? = some la → BoxLat type lats la)
    {fs : List (List (List (Fl K)))} (hf : ∀ f ∈ fs, Rect Y X f) (out : List (List (Fl K))) :
    bilinearGP3 T ig op fs = ok out ↔ mapM (bilinearGP2 T ig op) fs = ok out := by
  have hw := hi.wf.1
  have ho' := ho
  obtain ⟨e1, e2, -, -, -, -, hl⟩ := ho'.wf
  have := hw.hY
  have := hw.hX
  have he : bilinearGP3 T ig op fs = (do
      let temp ← omp (mapM (fun i : Int => do
        let la ← vget op.lats i
        let lo ← vget op.lons i
        bilinearAt3 T ig fs la lo) (upto op.lats.length))
      grid2 fs.length op.lats.length fun t i => do
        let c ← vget temp i
        vget c t) := by
    unfold bilinearGP3
    simp only [compatibleSizeG3_rect hw hf, ok_bind, hw.size, Bool.true_eq_false, if_false]
    rw [if_neg (by omega)]
  rw [e1, e2] at he
  have key : ∀ o, bilinearGP3 T ig op fs = ok o → mapM (bilinearGP2 T ig op) fs = ok o := by
    intro o h
    rw [he] at h
    obtain ⟨temp, h1, h2⟩ := bind_eq_ok.mp h
    obtain ⟨k1, k2⟩ := mapM_upto_eq_ok (omp_eq_ok.mp h1)
    obtain ⟨l1, l2⟩ := grid2_eq_ok h2
    apply mapM_of_forall₂
    rw [List.forall₂_iff_get]
    refine ⟨l1.1.symm, fun t ht1 ht2 => ?_⟩
    rw [bilinearGP2_ok_iff hi ho (hf _ (List.get_mem ..))]
    refine ⟨l1.row_length ht2, fun i hi' => ?_⟩
    have a1 : olats[i]? = some olats[i] := List.getElem?_eq_getElem hi'
    have b1 : olons[i]? = some (olons[i]'(by omega)) := List.getElem?_eq_getElem _
    have c2 := k2 i (by omega)
    simp only [vget_nat_eq_ok.mpr a1, vget_nat_eq_ok.mpr b1, ok_bind, bilinearAt3_eq hT hi (hv i _ _ a1 b1) (hs i _ a1)] at c2
    obtain ⟨v, v1, v2⟩ := mapM_getElem hT c2 (t := t) (List.getElem?_eq_getElem ht1)
    obtain ⟨w, w1, w2⟩ := l2 t ht1 i hi'
    rw [vget_nat_eq_ok.mpr (List.getElem?_eq_getElem (by omega)), ok_bind, vget_nat_eq_ok.mpr v1] at w2
    cases w2
    refine ⟨_, _, v, a1, b1, ?_, v2⟩
    simpa [cell?, List.getElem?_eq_getElem ht2] using w1
  refine ⟨key out, fun h => ?_⟩
  suffices hex : ∃ o, bilinearGP3 T ig op fs = ok o by
    obtain ⟨o, ho⟩ := hex
    have := key o ho
    rw [h] at this
    cases this
    exact ho
  rw [he]
  obtain ⟨temp, t1, t2, t3⟩ := mapM_upto_exists (n := olats.length) (f := fun i : Int => do
        let la ← vget olats i
        let lo ← vget olons i
        bilinearAt3 T ig fs la lo) (P := fun _ l => l.length = fs.length) (by
    intro i hi'
    have a1 : olats[i]? = some olats[i] := List.getElem?_eq_getElem hi'
    have b1 : olons[i]? = some (olons[i]'(by omega)) := List.getElem?_eq_getElem _
    simp only [vget_nat_eq_ok.mpr a1, vget_nat_eq_ok.mpr b1, ok_bind, bilinearAt3_eq hT hi (hv i _ _ a1 b1) (hs i _ a1)]
    obtain ⟨l, hl⟩ := mapM_exists (f := fun f => bilinearAt T ig f olats[i] (olons[i]'(by omega))) fs (by
      intro f hff
      obtain ⟨t, ht, rfl⟩ := List.getElem_of_mem hff
      obtain ⟨o, o1, o2⟩ := mapM_getElem hT h (List.getElem?_eq_getElem ht)
      obtain ⟨la', lo', v, a1', b1', -, v2⟩ := ((bilinearGP2_ok_iff hi ho (hf _ hff) o).mp o2).2 i hi'
      rw [a1] at a1'
      rw [b1] at b1'
      cases a1'; cases b1'
      exact ⟨v, v2⟩)
    exact ⟨l, hl, mapM_length hl⟩)
  rw [t1, omp_ok, ok_bind]
  obtain ⟨o, o1, -⟩ := grid2_exists (Y := fs.length) (X := olats.length) (f := fun t i => do
        let c ← vget temp i
        vget c t) (P := fun _ _ _ => True) (by
    intro t ht i hi'
    obtain ⟨l, l1, -, l2⟩ := t3 i hi'
    exact ⟨l[t]'(by omega), by rw [vget_nat_eq_ok.mpr l1, ok_bind]; exact vget_nat_eq_ok.mpr (List.getElem?_eq_getElem _), trivial⟩)
  exact ⟨o, o1⟩

end times
end Gridpp
