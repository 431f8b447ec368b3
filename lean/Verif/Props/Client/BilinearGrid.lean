import Verif.Lemmas.Client.BilinearGrid
import Verif.Props.Client.BilinearCell
import Verif.Base.Inst
import Mathlib.Data.Rat.Floor

/-! # C116: the bilinear downscaler of the client -/

set_option linter.unusedSectionVars false

namespace Gridpp.Props
open Fl hiding MV isValid
open Res Client

variable {K : Type} [Field K] [LinearOrder K] [IsStrictOrderedRing K]

theorem getInt_cast (f : FieldC K) (i j e : Nat) : f.getInt (i : Int) (j : Int) e = f.get i j e := by
  unfold FieldC.getInt
  rw [if_neg (by omega), Int.toNat_natCast, Int.toNat_natCast]

/-- The four values of a cell at (r, c): `A` at (r, c), `B` at (r + 1, c), `C` at (r + 1, c + 1), `D` at (r, c + 1). -/
def CellHas (f : FieldC K) (r c e : Nat) (vA vB vC vD : Fl K) : Prop :=
  f.get r c e = ok vA ∧ f.get (r + 1) c e = ok vB ∧ f.get (r + 1) (c + 1) e = ok vC ∧ f.get r (c + 1) e = ok vD

/-- The interpolation of one member in the cell at (r, c) with the coordinates α and β: the bilinear value, or missing if one of the four
values is. -/
def Interpolates (f : FieldC K) (r c e : Nat) (α β : K) (v : Res (Fl K)) : Prop :=
  ∃ vA vB vC vD, CellHas f r c e vA vB vC vD ∧
    (∀ a b c d : K, vA = fin a ∧ a ≠ -999 → vB = fin b ∧ b ≠ -999 → vC = fin c ∧ c ≠ -999 → vD = fin d ∧ d ≠ -999 →
      v = ok (fin (bilinearValue α β a b c d))) ∧
    (¬ (Present vA ∧ Present vB ∧ Present vC ∧ Present vD) → v = ok (fin (-999)))

theorem bilinearMember_some [HasSqrt K] {ifield : FieldC K} {I J : Int} {lat lon : Fl K} {r c : Nat} {q : Quad K} {α β : K}
    (hst : calcST lon lat q = ok (fin α, fin (1 - β))) (hr : -(20 / 100) ≤ α ∧ α ≤ 117 / 100 ∧ -(17 / 100) ≤ β ∧ β ≤ 120 / 100) {e : Nat}
    {vA vB vC vD : Fl K} (hv : CellHas ifield r c e vA vB vC vD) :
    Interpolates ifield r c e (toUnit α) (toUnit β)
      (bilinearMember ifield I J lat lon (some (⟨r, c, (r : Int) + 1, (c : Int) + 1⟩, q)) e) := by
  refine ⟨vA, vB, vC, vD, hv, ?_, ?_⟩
  all_goals
    unfold bilinearMember
    simp only
    rw [show (r : Int) + 1 = ((r + 1 : Nat) : Int) by push_cast; rfl, show (c : Int) + 1 = ((c + 1 : Nat) : Int) by push_cast; rfl,
      getInt_cast, getInt_cast, getInt_cast, getInt_cast, hv.1, ok_bind, hv.2.1, ok_bind, hv.2.2.2, ok_bind, hv.2.2.1, ok_bind]
  · rintro a b c d ⟨rfl, ha⟩ ⟨rfl, hb⟩ ⟨rfl, hc⟩ ⟨rfl, hd⟩
    have p : ∀ z : K, z ≠ -999 → Client.isValid (fin z) = true := fun z hz => isValid_iff_present.mpr ⟨z, rfl, hz⟩
    rw [p a ha, p b hb, p c hc, p d hd, if_pos (by simp)]
    exact bilinearC_of_st hst hr a b c d
  · intro hn
    rw [if_neg]
    · rfl
    · simp only [Bool.and_eq_true, isValid_iff_present]
      tauto

/-- **C116** (any grid, partial). If the downscaler comes to its end, every place has a neighbour in the grid. Either all its members are
those of the neighbour, or there are a cell with the neighbour as a corner and coordinates in the unit square, the same for all members,
with which the members are interpolated in this cell. If the place has coordinates in this cell and the cell is one that the methods are
made for, then those are used, moved into the unit square; and they are off by at most 0.05. What is missing: when the first case
occurs (for regular grids see `c116_regular_partial`), and that the program comes to its end. -/
theorem c116_value_partial [LawfulSqrt K] {Y X nY nX nE : Nat} {ilats ilons olats olons : List (List (Fl K))} (hlat : Rect Y X ilats)
    (hlon : Rect Y X ilons) (hoa : Rect nY nX olats) (hoo : Rect nY nX olons) {near : List (List (Int × Int))} (hn : Rect nY nX near)
    {ifield ofield out : FieldC K} (ho : Sized nY nX nE ofield) (fall : Res Unit)
    (h : bilinearField fall ilats ilons olats olons near ifield ofield = ok out) :
    Sized nY nX nE out ∧ ∀ y < nY, ∀ x < nX, ∃ i j : Nat, cell? near y x = some ((i : Int), (j : Int)) ∧ i < Y ∧ j < X ∧
      ((∀ e < nE, out.get y x e = ifield.get i j e) ∨
       ∃ r c : Nat, r + 1 < Y ∧ c + 1 < X ∧ (i = r ∨ i = r + 1) ∧ (j = c ∨ j = c + 1) ∧
        ∃ α β : K, 0 ≤ α ∧ α ≤ 1 ∧ 0 ≤ β ∧ β ≤ 1 ∧ (∀ e < nE, Interpolates ifield r c e α β (out.get y x e)) ∧
          ∀ (A B C D m : Pt K) (α' β' : K), cell? ilats r c = some (fin A.lat) → cell? ilons r c = some (fin A.lon) →
            cell? ilats (r + 1) c = some (fin B.lat) → cell? ilons (r + 1) c = some (fin B.lon) →
            cell? ilats (r + 1) (c + 1) = some (fin C.lat) → cell? ilons (r + 1) (c + 1) = some (fin C.lon) →
            cell? ilats r (c + 1) = some (fin D.lat) → cell? ilons r (c + 1) = some (fin D.lon) →
            cell? olats y x = some (fin m.lat) → cell? olons y x = some (fin m.lon) →
            AtCoords A B C D α' β' m → Supported A B C D α' β' →
            α = toUnit α' ∧ β = toUnit β' ∧ |α' - α| ≤ 1 / 20 ∧ |β' - β| ≤ 1 / 20) := by
  have hE : ofield.nE = nE := ho.nE
  unfold bilinearField at h
  rw [ho.nY, ho.nX, hE] at h
  refine forCells_partial _ (fun y x w => ∃ i j : Nat, cell? near y x = some ((i : Int), (j : Int)) ∧ i < Y ∧ j < X ∧
      ((∀ e < nE, w e = ifield.get i j e) ∨
       ∃ r c : Nat, r + 1 < Y ∧ c + 1 < X ∧ (i = r ∨ i = r + 1) ∧ (j = c ∨ j = c + 1) ∧
        ∃ α β : K, 0 ≤ α ∧ α ≤ 1 ∧ 0 ≤ β ∧ β ≤ 1 ∧ (∀ e < nE, Interpolates ifield r c e α β (w e)) ∧
          ∀ (A B C D m : Pt K) (α' β' : K), cell? ilats r c = some (fin A.lat) → cell? ilons r c = some (fin A.lon) →
            cell? ilats (r + 1) c = some (fin B.lat) → cell? ilons (r + 1) c = some (fin B.lon) →
            cell? ilats (r + 1) (c + 1) = some (fin C.lat) → cell? ilons (r + 1) (c + 1) = some (fin C.lon) →
            cell? ilats r (c + 1) = some (fin D.lat) → cell? ilons r (c + 1) = some (fin D.lon) →
            cell? olats y x = some (fin m.lat) → cell? olons y x = some (fin m.lon) →
            AtCoords A B C D α' β' m → Supported A B C D α' β' →
            α = toUnit α' ∧ β = toUnit β' ∧ |α' - α| ≤ 1 / 20 ∧ |β' - β| ≤ 1 / 20)) ?_ ofield out ho h
  clear h
  intro f f' hf y hy x hx hb
  obtain ⟨cc, hcc, hb⟩ := bind_eq_ok.mp hb
  obtain ⟨lat, hlatv, hb⟩ := bind_eq_ok.mp hb
  obtain ⟨lon, hlonv, hb⟩ := bind_eq_ok.mp hb
  obtain ⟨cell, hcell, hb⟩ := bind_eq_ok.mp hb
  obtain ⟨hs, hval, hframe⟩ := storeMembers_partial hy hx _ f f' hf hb
  refine ⟨hs, ?_, hframe⟩
  obtain ⟨near', hnear1, hnear2⟩ := vget2_of_rect hn hy hx
  rw [hnear2, Res.ok.injEq] at hcc
  subst hcc
  obtain ⟨lat', hla1, hla2⟩ := vget2_of_rect hoa hy hx
  rw [hla2, Res.ok.injEq] at hlatv
  subst hlatv
  obtain ⟨lon', hlo1, hlo2⟩ := vget2_of_rect hoo hy hx
  rw [hlo2, Res.ok.injEq] at hlonv
  subst hlonv
  unfold findQuad at hcell
  obtain ⟨r, hr, hcell⟩ := bind_eq_ok.mp hcell
  obtain ⟨⟨i, j, e1, e2, hiY, hjX⟩, hgood⟩ := findCoords_ok hlat hlon hr
  refine ⟨i, j, ?_, hiY, hjX, ?_⟩
  · rw [hnear1, ← e1, ← e2]
  cases r with
  | none =>
    simp only [Res.ok.injEq] at hcell
    subst hcell
    left
    intro e he
    obtain ⟨v, h1, h2⟩ := hval e he
    rw [h2, ← h1]
    unfold bilinearMember
    simp only
    rw [e1, e2, getInt_cast]
  | some b =>
    simp only at hcell
    obtain ⟨q, hq, hcell⟩ := bind_eq_ok.mp hcell
    rw [Res.ok.injEq] at hcell
    subst hcell
    obtain ⟨r, c, q', s, t, rfl, hr1, hc1, hir, hjc, hq', hst, s0, s1, t0, t1⟩ := hgood b rfl
    rw [hq, Res.ok.injEq] at hq'
    subst hq'
    right
    have hst' : calcST lon' lat' q = ok (fin s, fin (1 - (1 - t))) := by rw [hst]; congr 3; ring
    have htol : -(20 / 100) ≤ s ∧ s ≤ 117 / 100 ∧ -(17 / 100) ≤ 1 - t ∧ 1 - t ≤ 120 / 100 := by
      refine ⟨?_, ?_, ?_, ?_⟩ <;> linarith
    have hs' := toUnit_range s
    have ht' := toUnit_range (1 - t)
    have hoff : ∀ v : K, -(1 / 20) ≤ v → v ≤ 1 + 1 / 20 → |v - toUnit v| ≤ 1 / 20 := by
      intro v h1 h2
      unfold toUnit
      rcases le_total v 0 with h | h
      · rw [min_eq_right (by linarith), max_eq_left h, abs_le]; constructor <;> linarith
      · rcases le_total v 1 with h' | h'
        · rw [min_eq_right h', max_eq_right h, sub_self, abs_zero]; norm_num
        · rw [min_eq_left h', max_eq_right zero_le_one, abs_le]; constructor <;> linarith
    refine ⟨r, c, hr1, hc1, by omega, by omega, toUnit s, toUnit (1 - t), hs'.1, hs'.2, ht'.1, ht'.2, ?_, ?_⟩
    · intro e he
      obtain ⟨v, h1, h2⟩ := hval e he
      have hread : ∃ vA vB vC vD, CellHas ifield r c e vA vB vC vD := by
        unfold bilinearMember at h1
        simp only at h1
        rw [show (r : Int) + 1 = ((r + 1 : Nat) : Int) by push_cast; rfl, show (c : Int) + 1 = ((c + 1 : Nat) : Int) by push_cast; rfl,
          getInt_cast, getInt_cast, getInt_cast, getInt_cast] at h1
        obtain ⟨v0, g0, h1⟩ := bind_eq_ok.mp h1
        obtain ⟨v1, g1, h1⟩ := bind_eq_ok.mp h1
        obtain ⟨v2, g2, h1⟩ := bind_eq_ok.mp h1
        obtain ⟨v3, g3, h1⟩ := bind_eq_ok.mp h1
        exact ⟨v0, v1, v3, v2, g0, g1, g3, g2⟩
      obtain ⟨vA, vB, vC, vD, hc4⟩ := hread
      have := bilinearMember_some (I := near'.1) (J := near'.2) hst' htol hc4
      rw [h2, ← h1]
      exact this
    · intro A B C D m α' β' a1 a2 b1 b2 c1 c2 d1 d2 m1 m2 hm hsup
      have hqq : q = quadOf A B C D := by
        unfold cornersC at hq
        simp only at hq
        rw [show (r : Int) + 1 = ((r + 1 : Nat) : Int) by push_cast; rfl, show (c : Int) + 1 = ((c + 1 : Nat) : Int) by push_cast; rfl,
          vget2_of_cell? a2, vget2_of_cell? b2, vget2_of_cell? d2, vget2_of_cell? c2, vget2_of_cell? a1, vget2_of_cell? b1,
          vget2_of_cell? d1, vget2_of_cell? c1] at hq
        simp only [ok_bind, Res.ok.injEq] at hq
        exact hq.symm
      rw [hla1, Option.some.injEq] at m1
      rw [hlo1, Option.some.injEq] at m2
      have h1 := calcST_at hm hsup
      rw [hqq, m1, m2, h1, Res.ok.injEq, Prod.mk.injEq, Fl.fin.injEq, Fl.fin.injEq] at hst
      obtain ⟨rfl, hβ⟩ := hst
      have hβ' : β' = 1 - t := by linarith
      rw [hβ']
      exact ⟨rfl, rfl, hoff _ s0 s1, hoff _ (by linarith) (by linarith)⟩

/-- No row (column) is strictly between the coordinate `a` and that of row `i`. -/
def NoneBetween (N : Nat) (g : Nat → K) (i : Nat) (a : K) : Prop := ∀ k < N, ¬ (g i < g k ∧ g k < a) ∧ ¬ (a < g k ∧ g k < g i)

/-- **C116** (grids with rows of constant latitude towards north and columns of constant longitude towards east). Let the row and column of
each neighbour be next to the place. Places inside the grid get the bilinear interpolation in a cell that contains them; places outside,
and those on the southern and western edge whose neighbour is on it, get the value of the neighbour. Missing: that the end of a
`bool` function without return is harmless is assumed (`ok ()`), see `c116_no_return`; neighbours further away. -/
theorem c116_regular_partial [HasSqrt K] {Y X E nY nX nE : Nat} {la lo : Nat → K} {ilats ilons olats olons : List (List (Fl K))}
    (hg : RegularGrid Y X la lo ilats ilons) {near : List (List (Int × Int))} {ni nj : Nat → Nat → Nat} {a b : Nat → Nat → K}
    (hp : ∀ y < nY, ∀ x < nX, cell? olats y x = some (fin (a y x)) ∧ cell? olons y x = some (fin (b y x)) ∧
      cell? near y x = some ((ni y x : Int), (nj y x : Int)) ∧ ni y x < Y ∧ nj y x < X ∧ NoneBetween Y la (ni y x) (a y x) ∧
      NoneBetween X lo (nj y x) (b y x))
    (hedge : ∀ y < nY, ∀ x < nX, (a y x = la 0 → ni y x = 0) ∧ (b y x = lo 0 → nj y x = 0))
    {ifield ofield : FieldC K} (hi : Sized Y X E ifield) (ho : Sized nY nX nE ofield) (hE : nE ≤ E) :
    ∃ out, bilinearField (ok ()) ilats ilons olats olons near ifield ofield = ok out ∧ Sized nY nX nE out ∧
      ∀ y < nY, ∀ x < nX,
        (la 0 < a y x ∧ a y x ≤ la (Y - 1) ∧ lo 0 < b y x ∧ b y x ≤ lo (X - 1) →
          ∃ r c, r + 1 < Y ∧ c + 1 < X ∧ la r ≤ a y x ∧ a y x ≤ la (r + 1) ∧ lo c ≤ b y x ∧ b y x ≤ lo (c + 1) ∧
            ∀ e < nE, Interpolates ifield r c e ((b y x - lo c) / (lo (c + 1) - lo c)) ((a y x - la r) / (la (r + 1) - la r)) (out.get y x e)) ∧
        (¬ (la 0 < a y x ∧ a y x ≤ la (Y - 1) ∧ lo 0 < b y x ∧ b y x ≤ lo (X - 1)) →
          ∀ e < nE, out.get y x e = ifield.get (ni y x) (nj y x) e) := by
  have hY := hg.rows
  have hX := hg.columns
  unfold bilinearField
  rw [ho.nY, ho.nX, ho.nE]
  refine forCells_spec (E := nE) _ (fun y x _ w =>
        (la 0 < a y x ∧ a y x ≤ la (Y - 1) ∧ lo 0 < b y x ∧ b y x ≤ lo (X - 1) →
          ∃ r c, r + 1 < Y ∧ c + 1 < X ∧ la r ≤ a y x ∧ a y x ≤ la (r + 1) ∧ lo c ≤ b y x ∧ b y x ≤ lo (c + 1) ∧
            ∀ e < nE, Interpolates ifield r c e ((b y x - lo c) / (lo (c + 1) - lo c)) ((a y x - la r) / (la (r + 1) - la r)) (w e)) ∧
        (¬ (la 0 < a y x ∧ a y x ≤ la (Y - 1) ∧ lo 0 < b y x ∧ b y x ≤ lo (X - 1)) →
          ∀ e < nE, w e = ifield.get (ni y x) (nj y x) e)) ?_ ofield ho
  intro f hf y hy x hx
  obtain ⟨p1, p2, p3, p4, p5, p6, p7⟩ := hp y hy x hx
  rw [vget2_of_cell? p3, vget2_of_cell? p1, vget2_of_cell? p2]
  simp only [ok_bind]
  by_cases hin : la 0 < a y x ∧ a y x ≤ la (Y - 1) ∧ lo 0 < b y x ∧ b y x ≤ lo (X - 1)
  · obtain ⟨r, c, hf1, r1, c1, r2, r3, c2, c3, -, -, hq⟩ := findCoords_inside hg p4 p5 hin.1 hin.2.1 hin.2.2.1 hin.2.2.2 p6 p7
    have hquad : findQuad (ok ()) (fin (a y x)) (fin (b y x)) ilats ilons (ni y x) (nj y x) =
        ok (some (⟨r, c, (r : Int) + 1, (c : Int) + 1⟩, quadOf ⟨la r, lo c⟩ ⟨la (r + 1), lo c⟩ ⟨la (r + 1), lo (c + 1)⟩ ⟨la r, lo (c + 1)⟩)) := by
      unfold findQuad
      rw [hf1, ok_bind]
      simp only
      rw [hq, ok_bind]
    rw [hquad]
    simp only [ok_bind]
    have hla : la r < la (r + 1) := hg.latInc _ _ (by omega) r1
    have hlo : lo c < lo (c + 1) := hg.lonInc _ _ (by omega) c1
    have e1 : la (r + 1) - la r ≠ 0 := by linarith
    have e2 : lo (c + 1) - lo c ≠ 0 := by linarith
    have hst := calcParallelogramC_at (A := ⟨la r, lo c⟩) (B := ⟨la (r + 1), lo c⟩) (C := ⟨la (r + 1), lo (c + 1)⟩) (D := ⟨la r, lo (c + 1)⟩)
      (m := ⟨a y x, b y x⟩) (α := (b y x - lo c) / (lo (c + 1) - lo c)) (β := (a y x - la r) / (la (r + 1) - la r)) (by
        constructor
        · simp only; field_simp; ring
        · simp only; field_simp; ring) (by simp) (by simp) (by
        simp only [orient]
        intro hc
        apply mul_ne_zero e2 e1
        linear_combination hc)
    simp only at hst
    have hα0 : 0 ≤ (b y x - lo c) / (lo (c + 1) - lo c) := div_nonneg (by linarith) (by linarith)
    have hα1 : (b y x - lo c) / (lo (c + 1) - lo c) ≤ 1 := by rw [div_le_one (by linarith)]; linarith
    have hβ0 : 0 ≤ (a y x - la r) / (la (r + 1) - la r) := div_nonneg (by linarith) (by linarith)
    have hβ1 : (a y x - la r) / (la (r + 1) - la r) ≤ 1 := by rw [div_le_one (by linarith)]; linarith
    have hmem : ∀ e < nE, Interpolates ifield r c e ((b y x - lo c) / (lo (c + 1) - lo c)) ((a y x - la r) / (la (r + 1) - la r))
        (bilinearMember ifield (ni y x) (nj y x) (fin (a y x)) (fin (b y x)) (some (⟨r, c, (r : Int) + 1, (c : Int) + 1⟩,
          quadOf ⟨la r, lo c⟩ ⟨la (r + 1), lo c⟩ ⟨la (r + 1), lo (c + 1)⟩ ⟨la r, lo (c + 1)⟩)) e) := by
      intro e he
      obtain ⟨vA, hA⟩ := hi.exists_get (y := r) (x := c) (e := e) (by omega) (by omega) (by omega)
      obtain ⟨vB, hB⟩ := hi.exists_get (y := r + 1) (x := c) (e := e) (by omega) (by omega) (by omega)
      obtain ⟨vC, hC⟩ := hi.exists_get (y := r + 1) (x := c + 1) (e := e) (by omega) (by omega) (by omega)
      obtain ⟨vD, hD⟩ := hi.exists_get (y := r) (x := c + 1) (e := e) (by omega) (by omega) (by omega)
      have := bilinearMember_some (I := (ni y x : Int)) (J := (nj y x : Int)) hst ⟨by linarith, by linarith, by linarith, by linarith⟩
        (⟨hA, hB, hC, hD⟩ : CellHas ifield r c e vA vB vC vD)
      rw [toUnit_of hα0 hα1, toUnit_of hβ0 hβ1] at this
      exact this
    obtain ⟨f', g1, g2, g3, -, g5⟩ := forMembers_spec (E := nE) y x nE (fun f e => do
        let v ← bilinearMember ifield (ni y x) (nj y x) (fin (a y x)) (fin (b y x)) (some (⟨r, c, (r : Int) + 1, (c : Int) + 1⟩,
          quadOf ⟨la r, lo c⟩ ⟨la (r + 1), lo c⟩ ⟨la (r + 1), lo (c + 1)⟩ ⟨la r, lo (c + 1)⟩)) e
        f.set y x e v) (fun e _ w => Interpolates ifield r c e ((b y x - lo c) / (lo (c + 1) - lo c)) ((a y x - la r) / (la (r + 1) - la r)) w)
      (by
        intro s hs e he
        have hm := hmem e he
        have hok : ∃ v, bilinearMember ifield (ni y x) (nj y x) (fin (a y x)) (fin (b y x)) (some (⟨r, c, (r : Int) + 1, (c : Int) + 1⟩,
            quadOf ⟨la r, lo c⟩ ⟨la (r + 1), lo c⟩ ⟨la (r + 1), lo (c + 1)⟩ ⟨la r, lo (c + 1)⟩)) e = ok v := by
          obtain ⟨vA, vB, vC, vD, -, k1, k2⟩ := hm
          by_cases hpres : Present vA ∧ Present vB ∧ Present vC ∧ Present vD
          · obtain ⟨⟨a', ea⟩, ⟨b', eb⟩, ⟨c', ec⟩, ⟨d', ed⟩⟩ := hpres
            exact ⟨_, k1 a' b' c' d' ea eb ec ed⟩
          · exact ⟨_, k2 hpres⟩
        obtain ⟨v, hv⟩ := hok
        rw [hv] at hm ⊢
        simp only [ok_bind]
        obtain ⟨s2, q1, q2, q3, q4⟩ := hs.set hy hx he v
        refine ⟨s2, q1, q2, ?_, q4⟩
        rw [q3]; exact hm) f hf
    exact ⟨f', g1, g2, ⟨fun _ => ⟨r, c, r1, c1, r2, r3, c2, c3, g3⟩, fun hn => absurd hin hn⟩, g5⟩
  · have hout : (la (ni y x) < a y x ∧ ni y x = Y - 1) ∨ (a y x ≤ la (ni y x) ∧ ni y x = 0) ∨ (lo (nj y x) < b y x ∧ nj y x = X - 1) ∨
        (b y x ≤ lo (nj y x) ∧ nj y x = 0) := by
      have mono : ∀ {N : Nat} {g : Nat → K}, 2 ≤ N → (∀ i k, i < k → k < N → g i < g k) → ∀ {i : Nat}, i < N → ∀ {v : K}, NoneBetween N g i v →
          (v = g 0 → i = 0) → ¬ (g 0 < v ∧ v ≤ g (N - 1)) → (g i < v ∧ i = N - 1) ∨ (v ≤ g i ∧ i = 0) := by
        intro N g hN hinc i hi v hnb h0 hn
        by_cases hv : g 0 < v
        · have h1 : g (N - 1) < v := lt_of_not_ge fun hc => hn ⟨hv, hc⟩
          by_cases hl : i = N - 1
          · exact Or.inl ⟨by rw [hl]; exact h1, hl⟩
          · exact absurd ⟨hinc i (N - 1) (by omega) (by omega), h1⟩ (hnb (N - 1) (by omega)).1
        · have h1 : v ≤ g 0 := le_of_not_gt hv
          have hz : i = 0 := by
            rcases h1.lt_or_eq with h2 | h2
            · by_contra hz
              exact (hnb 0 (by omega)).2 ⟨h2, hinc 0 i (by omega) hi⟩
            · exact h0 h2
          exact Or.inr ⟨by rw [hz]; exact h1, hz⟩
      by_cases ha : la 0 < a y x ∧ a y x ≤ la (Y - 1)
      · have hb : ¬ (lo 0 < b y x ∧ b y x ≤ lo (X - 1)) := fun hc => hin ⟨ha.1, ha.2, hc.1, hc.2⟩
        rcases mono hX hg.lonInc p5 p7 (hedge y hy x hx).2 hb with h | h
        · exact Or.inr (Or.inr (Or.inl h))
        · exact Or.inr (Or.inr (Or.inr h))
      · rcases mono hY hg.latInc p4 p6 (hedge y hy x hx).1 ha with h | h
        · exact Or.inl h
        · exact Or.inr (Or.inl h)
    have hquad : findQuad (ok ()) (fin (a y x)) (fin (b y x)) ilats ilons (ni y x) (nj y x) = ok none := by
      unfold findQuad
      rw [findCoords_outside hg (ok ()) p4 p5 hout, ok_bind]
    rw [hquad]
    simp only [ok_bind]
    obtain ⟨f', g1, g2, g3, -, g5⟩ := forMembers_spec (E := nE) y x nE (fun f e => do
        let v ← bilinearMember ifield (ni y x) (nj y x) (fin (a y x)) (fin (b y x)) none e
        f.set y x e v) (fun e _ w => w = ifield.get (ni y x) (nj y x) e)
      (by
        intro s hs e he
        obtain ⟨v, hv⟩ := hi.exists_get (y := ni y x) (x := nj y x) (e := e) p4 p5 (by omega)
        have hm : bilinearMember ifield (ni y x) (nj y x) (fin (a y x)) (fin (b y x)) none e = ok v := by
          unfold bilinearMember
          simp only
          rw [getInt_cast, hv]
        rw [hm]
        simp only [ok_bind]
        obtain ⟨s2, q1, q2, q3, q4⟩ := hs.set hy hx he v
        exact ⟨s2, q1, q2, by rw [q3, hv], q4⟩) f hf
    exact ⟨f', g1, g2, ⟨fun hc => absurd hc hin, fun _ => g3⟩, g5⟩

/-- **C116** (no return). `getI` and `getJ` are `bool` functions that return nothing. By the standard a cell is never found: `findCoords`
returns false, ends the program or the behaviour is undefined. -/
theorem c116_no_return [HasSqrt K] (lat lon : Fl K) (lats lons : List (List (Fl K))) (I J : Int) (b : Box) :
    findCoords .ub lat lon lats lons I J ≠ ok (some b) := by
  intro h
  unfold findCoords at h
  obtain ⟨lon0, -, h⟩ := bind_eq_ok.mp h
  obtain ⟨lat0, -, h⟩ := bind_eq_ok.mp h
  obtain ⟨nJ, -, h⟩ := bind_eq_ok.mp h
  obtain ⟨-, -, h⟩ := bind_eq_ok.mp h
  obtain ⟨-, -, h⟩ := bind_eq_ok.mp h
  obtain ⟨out, -, h⟩ := bind_eq_ok.mp h
  cases out with
  | true => cases h
  | false =>
    simp only [Bool.false_eq_true, if_false] at h
    unfold findCell at h
    obtain ⟨iInc, -, h⟩ := bind_eq_ok.mp h
    obtain ⟨jInc, -, h⟩ := bind_eq_ok.mp h
    obtain ⟨i, hi, h⟩ := bind_eq_ok.mp h
    cases hi

/-- **C116** (places without coordinates). Their neighbour is -999, -999, and the latitudes are read there. -/
theorem c116_missing_place [HasSqrt K] (fall : Res Unit) (lat lon : Fl K) (lats lons : List (List (Fl K))) :
    findCoords fall lat lon lats lons (-999) (-999) = .ub := by
  unfold findCoords
  rw [show vget2 lons (-999) (-999) = .ub by unfold vget2; rw [vget_neg (by decide)]; rfl]
  rfl

/-- **C116** (one row). If the input has a single row, a vector is read outside its bounds for every place. -/
theorem c116_one_row [HasSqrt K] (fall : Res Unit) (lat lon : Fl K) {X : Nat} {lats lons : List (List (Fl K))} (hlat : Rect 1 X lats)
    (hlon : Rect 1 X lons) {j : Nat} (hj : j < X) : findCoords fall lat lon lats lons 0 j = .ub := by
  obtain ⟨u, -, hu⟩ := vget2_of_rect hlat (y := 0) (by omega) hj
  obtain ⟨v, -, hv⟩ := vget2_of_rect hlon (y := 0) (by omega) hj
  have hu' : vget2 lats 0 (j : Int) = ok u := hu
  have hv' : vget2 lons 0 (j : Int) = ok v := hv
  have hnum : numX lats = ok X := by
    unfold numX
    have h0 : 0 < lats.length := by rw [hlat.1]; omega
    rw [show (0 : Int) = ((0 : Nat) : Int) from rfl, vget_eq_ok_of_lt h0, ok_bind, hlat.2 _ (List.getElem_mem h0)]
  have hneg : vget2 lats (0 - 1) (j : Int) = .ub := by unfold vget2; rw [vget_neg (by decide)]; rfl
  have hone : vget2 lats 1 (j : Int) = .ub := by
    unfold vget2
    rw [show (1 : Int) = ((1 : Nat) : Int) from rfl, vget_ub_of_le (by rw [hlat.1])]; rfl
  unfold findCoords
  rw [hv', ok_bind, hu', ok_bind, hnum, ok_bind, hlat.1, assert_true' (by simp), ok_bind, assert_true' (by simpa using hj), ok_bind]
  have : outsideC lats lons ((1 : Nat) : Int) (X : Int) 0 (j : Int) (lat.gt u) (lon.gt v) = .ub := by
    unfold outsideC
    cases lat.gt u
    · simp only [Bool.false_and, Bool.not_false, Bool.true_and, decide_true]
      unfold anyTrue anyTrue
      simp only [andLess, Bool.false_eq_true, if_false, ok_bind, if_true, hu', hone]
      rfl
    · simp only [Bool.true_and, Nat.cast_one, sub_self, decide_true]
      unfold anyTrue
      simp only [andLess, if_true, hneg]
      rfl
  rw [this]
  rfl

/-- **C116** (rows from north to south). The test whether the latitudes grow with the row says yes for the first row. Every place whose
neighbour is in a first row north of the second one is therefore taken to be outside, on whichever side of the row it is. -/
theorem c116_north_south [HasSqrt K] {Y X : Nat} {lats lons : List (List (Fl K))} (hlat : Rect Y X lats) (hlon : Rect Y X lons) (hY : 2 ≤ Y)
    (hX : 2 ≤ X) {j : Nat} (hj : j < X) {u v : K} (h0 : cell? lats 0 j = some (fin u)) (h1 : cell? lats 1 j = some (fin v)) (huv : v < u)
    (lat lon : Fl K) : findCoords (ok ()) lat lon lats lons 0 j = ok none := by
  have g0 : vget2 lats 0 (j : Int) = ok (fin u) := vget2_of_cell? h0
  have g1 : vget2 lats 1 (j : Int) = ok (fin v) := vget2_of_cell? h1
  obtain ⟨w, -, hw⟩ := vget2_of_rect hlon (y := 0) (by omega) hj
  have hw' : vget2 lons 0 (j : Int) = ok w := hw
  obtain ⟨w0, -, hw0⟩ := vget2_of_rect hlon (y := 0) (x := 0) (by omega) (by omega)
  have hw0' : vget2 lons 0 0 = ok w0 := hw0
  obtain ⟨w1, -, hw1⟩ := vget2_of_rect hlon (y := 0) (x := 1) (by omega) (by omega)
  have hw1' : vget2 lons 0 1 = ok w1 := hw1
  obtain ⟨wp, -, hwp⟩ := vget2_of_rect hlon (y := 0) (x := j - 1) (by omega) (by omega)
  have hwp' : 0 < j → vget2 lons 0 ((j : Int) - 1) = ok wp := by
    intro hj0
    rw [show (j : Int) - 1 = ((j - 1 : Nat) : Int) by omega]
    exact hwp
  have hnum : numX lats = ok X := by
    unfold numX
    have h0 : 0 < lats.length := by rw [hlat.1]; omega
    rw [show (0 : Int) = ((0 : Nat) : Int) from rfl, vget_eq_ok_of_lt h0, ok_bind, hlat.2 _ (List.getElem_mem h0)]
  unfold findCoords
  rw [hw', ok_bind, g0, ok_bind, hnum, ok_bind, hlat.1, assert_true' (by simp; omega), ok_bind, assert_true' (by simpa using hj), ok_bind]
  have hany : ∀ l : List (Res Bool), (∀ r ∈ l, ∃ q, r = ok q) → ∃ q, anyTrue l = ok q := by
    intro l
    induction l with
    | nil => intro _; exact ⟨false, rfl⟩
    | cons r l ih =>
      intro h
      obtain ⟨q, hq⟩ := h r (by simp)
      unfold anyTrue
      rw [hq, ok_bind]
      cases q
      · exact ih (fun r hr => h r (by simp [hr]))
      · exact ⟨true, rfl⟩
  have hand : ∀ (c : Bool) (p q : Res (Fl K)), (c = true → (∃ z, p = ok z) ∧ ∃ z, q = ok z) → ∃ z, andLess c p q = ok z := by
    intro c p q h
    cases c
    · exact ⟨false, rfl⟩
    · obtain ⟨⟨z, rfl⟩, z', rfl⟩ := h rfl
      exact ⟨_, rfl⟩
  have hlast : ¬ ((0 : Int) = (Y : Int) - 1) := by omega
  have hlastX : ¬ ((0 : Int) = (X : Int) - 1) := by omega
  have hout : ∃ q, outsideC lats lons (Y : Int) (X : Int) 0 (j : Int) (lat.gt (fin u)) (lon.gt w) = ok q ∧ (lat.gt (fin u) = true → q = true) := by
    have h3 : andLess (lat.gt (fin u) && decide ((0 : Int) = 0)) (vget2 lats 1 (j : Int)) (vget2 lats 0 (j : Int)) = ok (lat.gt (fin u)) := by
      rw [decide_eq_true (rfl : (0 : Int) = 0), Bool.and_true]
      exact andLess_true fun _ => ⟨v, u, g1, g0, huv⟩
    have h2 : andLess (!lat.gt (fin u) && decide ((0 : Int) = 0)) (vget2 lats 0 (j : Int)) (vget2 lats 1 (j : Int)) = ok false :=
      andLess_fin fun _ => ⟨u, v, g0, g1, huv.not_gt⟩
    unfold outsideC
    rw [decide_eq_false hlast, Bool.and_false, Bool.and_false, h2, h3, decide_eq_false hlastX, Bool.and_false]
    have f1 : ∀ p q : Res (Fl K), andLess false p q = ok false := fun _ _ => rfl
    rw [f1, f1, f1]
    cases lat.gt (fin u) with
    | true => exact ⟨true, rfl, fun _ => rfl⟩
    | false =>
      obtain ⟨q, hq⟩ := hany [andLess (lon.gt w && decide ((j : Int) = (X : Int) - 1)) (vget2 lons 0 ((j : Int) - 1)) (vget2 lons 0 (j : Int)),
          andLess (!lon.gt w && decide ((j : Int) = 0)) (vget2 lons 0 0) (vget2 lons 0 1),
          andLess (lon.gt w && decide ((j : Int) = 0)) (vget2 lons 0 1) (vget2 lons 0 0), ok false] (by
        intro r hr
        simp only [List.mem_cons, List.not_mem_nil, or_false] at hr
        rcases hr with rfl | rfl | rfl | rfl
        · refine hand _ _ _ fun hc => ⟨⟨_, hwp' ?_⟩, _, hw'⟩
          simp only [Bool.and_eq_true, decide_eq_true_eq] at hc
          omega
        · exact hand _ _ _ fun _ => ⟨⟨_, hw0'⟩, _, hw1'⟩
        · exact hand _ _ _ fun _ => ⟨⟨_, hw1'⟩, _, hw0'⟩
        · exact ⟨_, rfl⟩)
      exact ⟨q, hq, fun hc => by cases hc⟩
  obtain ⟨q, hq, hq'⟩ := hout
  rw [hq, ok_bind]
  cases q with
  | true => rfl
  | false =>
    have hnot : lat.gt (fin u) = false := by
      cases hc : lat.gt (fin u)
      · rfl
      · exact absurd (hq' hc) (by decide)
    rw [hnot]
    simp only [Bool.false_eq_true, if_false]
    unfold findCell
    have hinc : increasing (decide ((0 : Int) = 0)) (vget2 lats 0 (j : Int)) (vget2 lats (0 - 1) (j : Int)) = ok true := rfl
    have hjinc : ∃ z, increasing (decide ((j : Int) = 0)) (vget2 lons 0 (j : Int)) (vget2 lons 0 ((j : Int) - 1)) = ok z := by
      unfold increasing
      by_cases hz : (j : Int) = 0
      · exact ⟨true, by rw [if_pos (by simpa using hz)]⟩
      · rw [if_neg (by simpa using hz), hw', hwp' (by omega)]
        exact ⟨_, rfl⟩
    obtain ⟨z, hz⟩ := hjinc
    rw [hinc, ok_bind, hz, ok_bind]
    rfl

/-- **C116** (columns from east to west). The last test has `I == nJ-1` where `J == nJ-1` is meant. If the neighbour is in the first column,
in the row with the number of the last column, and the place is west of it, a vector is read before its begin. -/
theorem c116_east_west [HasSqrt K] (fall : Res Unit) {Y X : Nat} {lats lons : List (List (Fl K))} (hlat : Rect Y X lats) (hlon : Rect Y X lons)
    (hX : 2 ≤ X) (hY : X < Y) {w0 w1 : K} (h0 : cell? lons (X - 1) 0 = some (fin w0)) (h1 : cell? lons (X - 1) 1 = some (fin w1)) (hw : w1 ≤ w0)
    (lat : Fl K) {b : K} (hb : b ≤ w0) : findCoords fall lat (fin b) lats lons ((X - 1 : Nat) : Int) 0 = .ub := by
  obtain ⟨u, -, hu⟩ := vget2_of_rect hlat (y := X - 1) (x := 0) (by omega) (by omega)
  have hu' : vget2 lats ((X - 1 : Nat) : Int) 0 = ok u := hu
  have g0 : vget2 lons ((X - 1 : Nat) : Int) 0 = ok (fin w0) := vget2_of_cell? h0
  have g1 : vget2 lons ((X - 1 : Nat) : Int) 1 = ok (fin w1) := vget2_of_cell? h1
  have hnum : numX lats = ok X := by
    unfold numX
    have h0 : 0 < lats.length := by rw [hlat.1]; omega
    rw [show (0 : Int) = ((0 : Nat) : Int) from rfl, vget_eq_ok_of_lt h0, ok_bind, hlat.2 _ (List.getElem_mem h0)]
  unfold findCoords
  rw [g0, ok_bind, hu', ok_bind, hnum, ok_bind, hlat.1, assert_true' (by simp; omega), ok_bind, assert_true' (by simp; omega), ok_bind]
  have hr : (fin b : Fl K).gt (fin w0) = false := by rw [gt_fin]; simpa using hb
  rw [hr]
  have e1 : ¬ (((X - 1 : Nat) : Int) = (Y : Int) - 1) := by omega
  have e2 : ¬ (((X - 1 : Nat) : Int) = 0) := by omega
  have e3 : ((X - 1 : Nat) : Int) = (X : Int) - 1 := by omega
  have : outsideC lats lons (Y : Int) (X : Int) ((X - 1 : Nat) : Int) 0 (lat.gt u) false = .ub := by
    unfold outsideC
    rw [decide_eq_false e1, decide_eq_false e2, decide_eq_true e3]
    simp only [Bool.and_false, Bool.false_and, Bool.not_false, Bool.true_and, decide_true]
    have f1 : ∀ p q : Res (Fl K), andLess false p q = ok false := fun _ _ => rfl
    have h6 : andLess true (vget2 lons ((X - 1 : Nat) : Int) 0) (vget2 lons ((X - 1 : Nat) : Int) 1) = ok false :=
      andLess_fin fun _ => ⟨w0, w1, g0, g1, not_lt.mpr hw⟩
    have h8 : andLess true (vget2 lons ((X - 1 : Nat) : Int) 0) (vget2 lons ((X - 1 : Nat) : Int) (0 - 1)) = .ub := by
      unfold andLess
      rw [if_pos rfl, g0, ok_bind]
      have : vget2 lons ((X - 1 : Nat) : Int) (0 - 1) = .ub := by
        unfold vget2
        rw [vget_eq_ok_of_lt (by rw [hlon.1]; omega), ok_bind, vget_neg (by decide)]
      rw [this]; rfl
    simp only [f1, h6, h8]
    rfl
  rw [this]
  rfl

/-! ### Examples, and where the claims are false -/

/-- A grid with two rows and three columns. -/
def smallLats : List (List (Fl K)) := [[fin 0, fin 0, fin 0], [fin 1, fin 1, fin 1]]

/-- The longitudes of this grid. -/
def smallLons : List (List (Fl K)) := [[fin 0, fin 1, fin 2], [fin 0, fin 1, fin 2]]

theorem smallGrid : RegularGrid (K := K) 2 3 (fun i => i) (fun j => j) smallLats smallLons where
  lat := ⟨rfl, by simp [smallLats]⟩
  lon := ⟨rfl, by simp [smallLons]⟩
  rows := le_refl _
  columns := by omega
  latAt := by
    intro i hi j hj
    obtain rfl | rfl : i = 0 ∨ i = 1 := by omega
    all_goals obtain rfl | rfl | rfl : j = 0 ∨ j = 1 ∨ j = 2 := by omega
    all_goals simp [cell?, smallLats]
  lonAt := by
    intro i hi j hj
    obtain rfl | rfl : i = 0 ∨ i = 1 := by omega
    all_goals obtain rfl | rfl | rfl : j = 0 ∨ j = 1 ∨ j = 2 := by omega
    all_goals simp [cell?, smallLons]
  latInc := by
    intro i k hik _
    exact_mod_cast hik
  lonInc := by
    intro i k hik _
    exact_mod_cast hik

/-- The hypotheses of `c116_regular_partial` hold for this grid and a place inside it and one south of it. -/
example [HasSqrt K] : ∃ out, bilinearField (K := K) (ok ()) smallLats smallLons [[fin (1 / 4), fin (-1)]] [[fin (3 / 2), fin (1 / 2)]]
    [[(0, 1), (0, 0)]] ⟨[fin 1, fin 2, fin 4, fin 5, fin 7, fin 0], 2, 3, 1⟩ ⟨[fin 0, fin 0], 1, 2, 1⟩ = ok out := by
  have hcol : ∀ k : Nat, k < 3 → k = 0 ∨ k = 1 ∨ k = 2 := by intro k hk; omega
  have hrow : ∀ k : Nat, k < 2 → k = 0 ∨ k = 1 := by intro k hk; omega
  obtain ⟨out, h, -⟩ := c116_regular_partial (K := K) (nY := 1) (nX := 2) (nE := 1) (E := 1) smallGrid
    (olats := [[fin (1 / 4), fin (-1)]]) (olons := [[fin (3 / 2), fin (1 / 2)]]) (near := [[(0, 1), (0, 0)]])
    (ni := fun _ _ => 0) (nj := fun _ x => 1 - x) (a := fun _ x => if x = 0 then 1 / 4 else -1)
    (b := fun _ x => if x = 0 then 3 / 2 else 1 / 2)
    (by
      intro y hy x hx
      obtain rfl : y = 0 := by omega
      obtain rfl | rfl := hrow x hx
      · refine ⟨by simp [cell?], by simp [cell?], by simp [cell?], by omega, by omega, ?_, ?_⟩
        · intro k hk
          obtain rfl | rfl := hrow k hk <;> norm_num
        · intro k hk
          obtain rfl | rfl | rfl := hcol k hk <;> norm_num
      · refine ⟨by simp [cell?], by simp [cell?], by simp [cell?], by omega, by omega, ?_, ?_⟩
        · intro k hk
          obtain rfl | rfl := hrow k hk <;> norm_num
        · intro k hk
          obtain rfl | rfl | rfl := hcol k hk <;> norm_num)
    (by
      intro y hy x hx
      obtain rfl | rfl := hrow x hx <;> norm_num)
    (ifield := ⟨[fin 1, fin 2, fin 4, fin 5, fin 7, fin 0], 2, 3, 1⟩) (ofield := ⟨[fin 0, fin 0], 1, 2, 1⟩)
    ⟨rfl, rfl, rfl, rfl⟩ ⟨rfl, rfl, rfl, rfl⟩ (le_refl _)
  exact ⟨out, h⟩

/-- The values of this example: 2, 4, 7 and 0 interpolated at (1/2, 1/4), and the value of the neighbour. -/
example : bilinearField (K := ℚ) (ok ()) smallLats smallLons [[fin (1 / 4), fin (-1)]] [[fin (3 / 2), fin (1 / 2)]]
    [[(0, 1), (0, 0)]] ⟨[fin 1, fin 2, fin 4, fin 5, fin 7, fin 0], 2, 3, 1⟩ ⟨[fin 0, fin 0], 1, 2, 1⟩ =
      ok ⟨[fin (25 / 8), fin 1], 1, 2, 1⟩ := by decide +kernel

/-- **C116** is false for rows from north to south: the place is in the middle between the values 1 and 5, and gets 1. With the rows in the
other order it gets 3. -/
theorem c116_north_south_false :
    bilinearField (K := ℚ) (ok ()) [[fin 1, fin 1], [fin 0, fin 0]] [[fin 0, fin 1], [fin 0, fin 1]] [[fin (1 / 2)]] [[fin (1 / 2)]]
      [[(0, 0)]] ⟨[fin 1, fin 1, fin 5, fin 5], 2, 2, 1⟩ ⟨[fin 0], 1, 1, 1⟩ = ok ⟨[fin 1], 1, 1, 1⟩ ∧
    bilinearField (K := ℚ) (ok ()) [[fin 0, fin 0], [fin 1, fin 1]] [[fin 0, fin 1], [fin 0, fin 1]] [[fin (1 / 2)]] [[fin (1 / 2)]]
      [[(1, 0)]] ⟨[fin 5, fin 5, fin 1, fin 1], 2, 2, 1⟩ ⟨[fin 0], 1, 1, 1⟩ = ok ⟨[fin 3], 1, 1, 1⟩ := by decide +kernel

/-- **C116** (two functions). `downscaleField` and `downscaleVec` differ if a corner is missing: the first writes a missing value, the second
that of the neighbour. -/
theorem c116_vector_false :
    bilinearField (K := ℚ) (ok ()) [[fin 0, fin 0], [fin 1, fin 1]] [[fin 0, fin 1], [fin 0, fin 1]] [[fin (1 / 4)]] [[fin (1 / 4)]]
      [[(0, 0)]] ⟨[fin 1, fin 2, fin 5, fin (-999)], 2, 2, 1⟩ ⟨[fin 0], 1, 1, 1⟩ = ok ⟨[fin (-999)], 1, 1, 1⟩ ∧
    bilinearVec (K := ℚ) (ok ()) [[fin 1, fin 2], [fin 5, fin (-999)]] [[fin 0, fin 0], [fin 1, fin 1]] [[fin 0, fin 1], [fin 0, fin 1]]
      [[fin (1 / 4)]] [[fin (1 / 4)]] [[(0, 0)]] = ok [[fin 1]] := by decide +kernel

/-- **C116** (second attempt). On a grid with slanting rows the place is north of its neighbour and yet in the cell south of it; on a grid with
slanting columns it is east of its neighbour and yet in the cell west of it. Both cells are found. -/
theorem c116_second_attempt :
    findCoords (K := ℚ) (ok ()) (fin (19 / 10)) (fin (14 / 10)) [[fin 0, fin (4 / 5), fin (8 / 5)], [fin 1, fin (9 / 5), fin (13 / 5)],
      [fin 2, fin (14 / 5), fin (18 / 5)]] [[fin 0, fin 1, fin 2], [fin 0, fin 1, fin 2], [fin 0, fin 1, fin 2]] 1 1 = ok (some ⟨0, 1, 1, 2⟩) ∧
    findCoords (K := ℚ) (ok ()) (fin (14 / 10)) (fin (19 / 10)) [[fin 0, fin 0, fin 0], [fin 1, fin 1, fin 1], [fin 2, fin 2, fin 2]]
      [[fin 0, fin 1, fin 2], [fin (4 / 5), fin (9 / 5), fin (14 / 5)], [fin (8 / 5), fin (13 / 5), fin (18 / 5)]] 1 1 =
      ok (some ⟨1, 0, 2, 1⟩) := by decide +kernel

/-- By the standard the behaviour is undefined for a place in the middle of a cell. -/
theorem c116_no_return_ub :
    bilinearField (K := ℚ) .ub smallLats smallLons [[fin (1 / 4)]] [[fin (3 / 2)]] [[(0, 1)]]
      ⟨[fin 1, fin 2, fin 4, fin 5, fin 7, fin 0], 2, 3, 1⟩ ⟨[fin 0], 1, 1, 1⟩ = .ub := by decide +kernel

/-- The hypotheses of `c116_one_row` hold. -/
example : findCoords (K := ℚ) (ok ()) (fin 2) (fin 1) [[fin 0, fin 0]] [[fin 0, fin 2]] 0 (1 : Nat) = .ub :=
  c116_one_row _ _ _ (X := 2) ⟨rfl, by simp⟩ ⟨rfl, by simp⟩ (by omega)

/-- The hypotheses of `c116_north_south` hold. -/
example : findCoords (K := ℚ) (ok ()) (fin (1 / 2)) (fin (1 / 2)) [[fin 1, fin 1], [fin 0, fin 0]] [[fin 0, fin 1], [fin 0, fin 1]] 0 (1 : Nat) =
    ok none :=
  c116_north_south (Y := 2) (X := 2) ⟨rfl, by simp⟩ ⟨rfl, by simp⟩ (le_refl _) (le_refl _) (by omega) (u := 1) (v := 0) (by simp [cell?])
    (by simp [cell?]) (by norm_num) _ _

/-- The hypotheses of `c116_east_west` hold: three rows, two columns, a place in the first column of the second row. -/
example : findCoords (K := ℚ) (ok ()) (fin (3 / 4)) (fin (1 / 2)) [[fin 0, fin 0], [fin 1, fin 1], [fin 2, fin 2]]
    [[fin 1, fin 0], [fin 1, fin 0], [fin 1, fin 0]] ((2 - 1 : Nat) : Int) 0 = .ub :=
  c116_east_west _ (Y := 3) (X := 2) ⟨rfl, by simp⟩ ⟨rfl, by simp⟩ (le_refl _) (by omega) (w0 := 1) (w1 := 0) (by simp [cell?])
    (by simp [cell?]) (by norm_num) _ (by norm_num)

/-- The hypotheses of `c116_value_partial` hold. -/
example : ∃ out, bilinearField (K := ℝ) (ok ()) smallLats smallLons [[fin (1 / 4)]] [[fin (3 / 2)]] [[(0, 1)]]
    ⟨[fin 1, fin 2, fin 4, fin 5, fin 7, fin 0], 2, 3, 1⟩ ⟨[fin 0], 1, 1, 1⟩ = ok out ∧ Sized 1 1 1 out := by
  have hcol : ∀ k : Nat, k < 3 → k = 0 ∨ k = 1 ∨ k = 2 := by intro k hk; omega
  have hrow : ∀ k : Nat, k < 2 → k = 0 ∨ k = 1 := by intro k hk; omega
  obtain ⟨out, h, -⟩ := c116_regular_partial (K := ℝ) (nY := 1) (nX := 1) (nE := 1) (E := 1) smallGrid
    (olats := [[fin (1 / 4)]]) (olons := [[fin (3 / 2)]]) (near := [[(0, 1)]])
    (ni := fun _ _ => 0) (nj := fun _ _ => 1) (a := fun _ _ => 1 / 4) (b := fun _ _ => 3 / 2)
    (by
      intro y hy x hx
      obtain rfl : y = 0 := by omega
      obtain rfl : x = 0 := by omega
      refine ⟨by simp [cell?], by simp [cell?], by simp [cell?], by omega, by omega, ?_, ?_⟩
      · intro k hk
        obtain rfl | rfl := hrow k hk <;> norm_num
      · intro k hk
        obtain rfl | rfl | rfl := hcol k hk <;> norm_num)
    (by intro y hy x hx; norm_num)
    (ifield := ⟨[fin 1, fin 2, fin 4, fin 5, fin 7, fin 0], 2, 3, 1⟩) (ofield := ⟨[fin 0], 1, 1, 1⟩)
    ⟨rfl, rfl, rfl, rfl⟩ ⟨rfl, rfl, rfl, rfl⟩ (le_refl _)
  exact ⟨out, h, (c116_value_partial (ilats := smallLats) (ilons := smallLons) (olats := [[fin (1 / 4)]]) (olons := [[fin (3 / 2)]])
    (near := [[(0, 1)]]) smallGrid.lat smallGrid.lon ⟨rfl, by simp⟩ ⟨rfl, by simp⟩ ⟨rfl, by simp⟩ ⟨rfl, rfl, rfl, rfl⟩ (ok ()) h).1⟩

end Gridpp.Props
