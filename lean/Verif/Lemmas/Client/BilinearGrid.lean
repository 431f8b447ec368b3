import Verif.Lemmas.Client.Bilinear
import Verif.Lemmas.Client.Coastal
import Verif.Lemmas.Grid

/-! # Lemmas about the search of the cell in the bilinear downscaler of the client -/

set_option linter.unusedSectionVars false

namespace Gridpp.Client
open Fl hiding MV isValid
open Res Props

variable {K : Type} [Field K] [LinearOrder K] [IsStrictOrderedRing K]

theorem vget2_index {α : Type} {Y X : Nat} {a : List (List α)} (h : Rect Y X a) {i j : Int} {v : α} (hv : vget2 a i j = ok v) :
    ∃ n m : Nat, i = n ∧ j = m ∧ n < Y ∧ m < X ∧ cell? a n m = some v := by
  unfold vget2 at hv
  obtain ⟨row, h1, h2⟩ := bind_eq_ok.mp hv
  obtain ⟨n, rfl, hn⟩ := vget_eq_ok.mp h1
  obtain ⟨m, rfl, hm⟩ := vget_eq_ok.mp h2
  have hc : cell? a n m = some v := by unfold cell?; rw [hn]; exact hm
  obtain ⟨h3, h4⟩ := cell?_lt h hc
  exact ⟨n, m, rfl, rfl, h3, h4, hc⟩

theorem getPair_ok {fall : Res Unit} {I : Int} {up inc : Bool} {p : Int × Int} (h : getPair fall I up inc = ok p) :
    p.2 = p.1 + 1 ∧ (I = p.1 ∨ I = p.1 + 1) := by
  unfold getPair at h
  obtain ⟨-, -, h⟩ := bind_eq_ok.mp h
  rw [Res.ok.injEq] at h
  subst h
  cases up <;> cases inc <;> simp

theorem acceptC_ok {b : Box} {st : Fl K × Fl K} {r : Option Box} (h : acceptC b st = ok r) :
    r = some b ∧ ∃ s t : K, st = (fin s, fin t) ∧ -(1 / 20) ≤ s ∧ s ≤ 1 + 1 / 20 ∧ -(1 / 20) ≤ t ∧ t ≤ 1 + 1 / 20 := by
  obtain ⟨s, t⟩ := st
  unfold acceptC at h
  simp only at h
  split_ifs at h with hb
  · cases h
  have hassert : ∀ (q : Bool) {β : Type} (k : Unit → Res β) (z : β), (Res.assert q >>= k) = ok z → q = true ∧ k () = ok z := by
    intro q β k z hz
    cases q
    · cases hz
    · exact ⟨rfl, hz⟩
  obtain ⟨h1, k1⟩ := hassert _ _ _ h
  obtain ⟨h2, k2⟩ := hassert _ _ _ k1
  obtain ⟨h3, k3⟩ := hassert _ _ _ k2
  obtain ⟨h4, k4⟩ := hassert _ _ _ k3
  rw [Res.ok.injEq] at k4
  have hfin : ∀ u : Fl K, u.le (fin (1 + 1 / 20)) = true → u.ge (fin (-(1 / 20))) = true →
      ∃ a : K, u = fin a ∧ -(1 / 20) ≤ a ∧ a ≤ 1 + 1 / 20 := by
    intro u g1 g2
    cases u with
    | fin a =>
      rw [le_fin, decide_eq_true_eq] at g1
      rw [ge_fin, decide_eq_true_eq] at g2
      exact ⟨a, rfl, g2, g1⟩
    | nan => simp at g1
    | pinf => simp [Fl.le, Fl.lt, Fl.feq] at g1
    | ninf => simp [Fl.ge, Fl.le, Fl.lt, Fl.feq] at g2
  obtain ⟨a, rfl, a1, a2⟩ := hfin s h1 h2
  obtain ⟨b', rfl, b1, b2⟩ := hfin t h3 h4
  exact ⟨k4.symm, a, b', rfl, a1, a2, b1, b2⟩

/-- The rows and columns of a cell whose corners could be read. -/
theorem cornersC_index {Y X : Nat} {lats lons : List (List (Fl K))} (hlat : Rect Y X lats) (hlon : Rect Y X lons) {b : Box} {q : Quad K}
    (h : cornersC lats lons b = ok q) : ∃ y1 y2 x1 x2 : Nat, b = ⟨y1, x1, y2, x2⟩ ∧ y1 < Y ∧ y2 < Y ∧ x1 < X ∧ x2 < X ∧
      cell? lons y1 x1 = some q.x0 ∧ cell? lons y2 x1 = some q.x1 ∧ cell? lons y1 x2 = some q.x2 ∧ cell? lons y2 x2 = some q.x3 ∧
      cell? lats y1 x1 = some q.y0 ∧ cell? lats y2 x1 = some q.y1 ∧ cell? lats y1 x2 = some q.y2 ∧ cell? lats y2 x2 = some q.y3 := by
  obtain ⟨b1, b2, b3, b4⟩ := b
  unfold cornersC at h
  simp only at h
  obtain ⟨x0, h0, h⟩ := bind_eq_ok.mp h
  obtain ⟨x1, h1, h⟩ := bind_eq_ok.mp h
  obtain ⟨x2, h2, h⟩ := bind_eq_ok.mp h
  obtain ⟨x3, h3, h⟩ := bind_eq_ok.mp h
  obtain ⟨y0, h4, h⟩ := bind_eq_ok.mp h
  obtain ⟨y1, h5, h⟩ := bind_eq_ok.mp h
  obtain ⟨y2, h6, h⟩ := bind_eq_ok.mp h
  obtain ⟨y3, h7, h⟩ := bind_eq_ok.mp h
  rw [Res.ok.injEq] at h
  subst h
  obtain ⟨n1, m1, rfl, rfl, p1, p2, c0⟩ := vget2_index hlon h0
  obtain ⟨n2, m2, rfl, rfl, p3, p4, c3⟩ := vget2_index hlon h3
  refine ⟨n1, n2, m1, m2, rfl, p1, p3, p2, p4, c0, ?_, ?_, c3, ?_, ?_, ?_, ?_⟩
  all_goals
    first
    | (obtain ⟨n, m, e1, e2, -, -, c⟩ := vget2_index hlon h1
       rw [Nat.cast_inj] at e1 e2; subst e1 e2; exact c)
    | (obtain ⟨n, m, e1, e2, -, -, c⟩ := vget2_index hlon h2
       rw [Nat.cast_inj] at e1 e2; subst e1 e2; exact c)
    | (obtain ⟨n, m, e1, e2, -, -, c⟩ := vget2_index hlat h4
       rw [Nat.cast_inj] at e1 e2; subst e1 e2; exact c)
    | (obtain ⟨n, m, e1, e2, -, -, c⟩ := vget2_index hlat h5
       rw [Nat.cast_inj] at e1 e2; subst e1 e2; exact c)
    | (obtain ⟨n, m, e1, e2, -, -, c⟩ := vget2_index hlat h6
       rw [Nat.cast_inj] at e1 e2; subst e1 e2; exact c)
    | (obtain ⟨n, m, e1, e2, -, -, c⟩ := vget2_index hlat h7
       rw [Nat.cast_inj] at e1 e2; subst e1 e2; exact c)

/-- A cell with the nearest neighbour as one of its corners, in which the place has coordinates up to the tolerance. -/
def GoodCell [HasSqrt K] (lat lon : Fl K) (lats lons : List (List (Fl K))) (Y X : Nat) (I J : Int) (b : Box) : Prop :=
  ∃ (y x : Nat) (q : Quad K) (s t : K), b = ⟨y, x, (y : Int) + 1, (x : Int) + 1⟩ ∧ y + 1 < Y ∧ x + 1 < X ∧ (I = y ∨ I = y + 1) ∧
    (J = x ∨ J = x + 1) ∧ cornersC lats lons b = ok q ∧ calcST lon lat q = ok (fin s, fin t) ∧
    -(1 / 20) ≤ s ∧ s ≤ 1 + 1 / 20 ∧ -(1 / 20) ≤ t ∧ t ≤ 1 + 1 / 20

theorem goodCell_of [HasSqrt K] {lat lon : Fl K} {lats lons : List (List (Fl K))} {Y X : Nat} (hlat : Rect Y X lats) (hlon : Rect Y X lons)
    {I J : Int} {i j : Int × Int} (hi : i.2 = i.1 + 1 ∧ (I = i.1 ∨ I = i.1 + 1)) (hj : j.2 = j.1 + 1 ∧ (J = j.1 ∨ J = j.1 + 1)) {q : Quad K}
    (hq : cornersC lats lons ⟨i.1, j.1, i.2, j.2⟩ = ok q) {st : Fl K × Fl K} (hst : calcST lon lat q = ok st) {r : Option Box}
    (h : acceptC ⟨i.1, j.1, i.2, j.2⟩ st = ok r) : ∃ b, r = some b ∧ GoodCell lat lon lats lons Y X I J b := by
  obtain ⟨h1, s, t, rfl, h2, h3, h4, h5⟩ := acceptC_ok h
  obtain ⟨y1, y2, x1, x2, e, p1, p2, p3, p4, -⟩ := cornersC_index hlat hlon hq
  simp only [Box.mk.injEq] at e
  obtain ⟨e1, e2, e3, e4⟩ := e
  refine ⟨_, h1, y1, x1, q, s, t, ?_, by omega, by omega, by omega, by omega, hq, hst, h2, h3, h4, h5⟩
  simp only [Box.mk.injEq]
  omega

theorem findCell_some [HasSqrt K] {fall : Res Unit} {lat lon : Fl K} {lats lons : List (List (Fl K))} {Y X : Nat} (hlat : Rect Y X lats)
    (hlon : Rect Y X lons) {nI nJ I J : Int} {above right : Bool} {b : Box}
    (h : findCell fall lat lon lats lons nI nJ I J above right = ok (some b)) : GoodCell lat lon lats lons Y X I J b := by
  unfold findCell at h
  obtain ⟨iInc, -, h⟩ := bind_eq_ok.mp h
  obtain ⟨jInc, -, h⟩ := bind_eq_ok.mp h
  obtain ⟨i, hi, h⟩ := bind_eq_ok.mp h
  obtain ⟨j, hj, h⟩ := bind_eq_ok.mp h
  have hi' := getPair_ok hi
  have hj' := getPair_ok hj
  split_ifs at h with hout
  · cases h
  obtain ⟨q, hq, h⟩ := bind_eq_ok.mp h
  obtain ⟨st, hst, h⟩ := bind_eq_ok.mp h
  split_ifs at h with hb
  · unfold retryC at h
    obtain ⟨i2, hi2, h⟩ := bind_eq_ok.mp h
    obtain ⟨j2, hj2, h⟩ := bind_eq_ok.mp h
    have hi3 : i2.2 = i2.1 + 1 ∧ (I = i2.1 ∨ I = i2.1 + 1) := by
      unfold repick at hi2
      split_ifs at hi2
      · exact getPair_ok hi2
      · rw [Res.ok.injEq] at hi2; subst hi2; exact hi'
    have hj3 : j2.2 = j2.1 + 1 ∧ (J = j2.1 ∨ J = j2.1 + 1) := by
      unfold repick at hj2
      split_ifs at hj2
      · exact getPair_ok hj2
      · rw [Res.ok.injEq] at hj2; subst hj2; exact hj'
    obtain ⟨out, -, h⟩ := bind_eq_ok.mp h
    cases out with
    | true => cases h
    | false =>
      simp only [Bool.false_eq_true, if_false] at h
      obtain ⟨q2, hq2, h⟩ := bind_eq_ok.mp h
      obtain ⟨st2, hst2, h⟩ := bind_eq_ok.mp h
      obtain ⟨b', e, hg⟩ := goodCell_of hlat hlon hi3 hj3 hq2 hst2 h
      rw [Option.some.injEq] at e
      rw [e]; exact hg
  · obtain ⟨b', e, hg⟩ := goodCell_of hlat hlon hi' hj' hq hst h
    rw [Option.some.injEq] at e
    rw [e]; exact hg

/-- Whenever `findCoords` returns, the nearest neighbour is in the grid, and if it returns true it gives a good cell. -/
theorem findCoords_ok [HasSqrt K] {fall : Res Unit} {lat lon : Fl K} {lats lons : List (List (Fl K))} {Y X : Nat} (hlat : Rect Y X lats)
    (hlon : Rect Y X lons) {I J : Int} {r : Option Box} (h : findCoords fall lat lon lats lons I J = ok r) :
    (∃ i j : Nat, I = i ∧ J = j ∧ i < Y ∧ j < X) ∧ ∀ b, r = some b → GoodCell lat lon lats lons Y X I J b := by
  unfold findCoords at h
  obtain ⟨lon0, h0, h⟩ := bind_eq_ok.mp h
  obtain ⟨lat0, -, h⟩ := bind_eq_ok.mp h
  obtain ⟨nJ, -, h⟩ := bind_eq_ok.mp h
  obtain ⟨-, -, h⟩ := bind_eq_ok.mp h
  obtain ⟨-, -, h⟩ := bind_eq_ok.mp h
  obtain ⟨out, -, h⟩ := bind_eq_ok.mp h
  obtain ⟨n, m, e1, e2, p1, p2, -⟩ := vget2_index hlon h0
  refine ⟨⟨n, m, e1, e2, p1, p2⟩, ?_⟩
  rintro b rfl
  cases out with
  | true => cases h
  | false =>
    simp only [Bool.false_eq_true, if_false] at h
    exact findCell_some hlat hlon h

/-- Partial correctness of the loops over grid points. -/
theorem forCells_partial {Y X E : Nat} (body : FieldC K → Nat → Nat → Res (FieldC K)) (P : Nat → Nat → (Nat → Res (Fl K)) → Prop)
    (hb : ∀ f f', Sized Y X E f → ∀ y < Y, ∀ x < X, body f y x = ok f' → Sized Y X E f' ∧ P y x (f'.get y x) ∧
      ∀ y' x', ¬ (y' = y ∧ x' = x) → f'.get y' x' = f.get y' x')
    (f out : FieldC K) (hf : Sized Y X E f) (h : FieldC.forCells Y X body f = ok out) :
    Sized Y X E out ∧ ∀ y < Y, ∀ x < X, P y x (out.get y x) := by
  let g : Nat → List (Nat × Nat) := fun y => (List.range X).map fun x => (y, x)
  have hmem : ∀ c, c ∈ (List.range Y).flatMap g ↔ c.1 < Y ∧ c.2 < X := by
    rintro ⟨y, x⟩
    simp only [List.mem_flatMap, g, List.mem_map, List.mem_range, Prod.mk.injEq]
    constructor
    · rintro ⟨y', h1, x', h2, rfl, rfl⟩; exact ⟨h1, h2⟩
    · rintro ⟨h1, h2⟩; exact ⟨y, h1, x, h2, rfl, rfl⟩
  have hnd : ((List.range Y).flatMap g).Nodup := by
    rw [List.nodup_flatMap]
    refine ⟨fun q _ => List.nodup_range.map (fun e e' h => by simpa using h), ?_⟩
    refine List.nodup_range.imp ?_
    intro q q' hne t h1 h2
    simp only [g, List.mem_map] at h1 h2
    obtain ⟨e, -, rfl⟩ := h1
    obtain ⟨e', -, h2⟩ := h2
    simp only [Prod.mk.injEq] at h2
    exact hne h2.1.symm
  have hfold : foldM (fun f (c : Nat × Nat) => body f c.1 c.2) f ((List.range Y).flatMap g) = ok out := by
    rw [← h, ← foldM_flatMap]
    unfold FieldC.forCells
    simp only [g, foldM_map']
  obtain ⟨k1, k2, -⟩ := foldM_sequential (Sized Y X E) (fun f (c : Nat × Nat) => f.get c.1 c.2) (fun f (c : Nat × Nat) => body f c.1 c.2)
    (fun c _ v => P c.1 c.2 v) _ hnd (by
      rintro s s' ⟨y, x⟩ hs hi hh
      obtain ⟨hy, hx⟩ := (hmem _).mp hi
      obtain ⟨m1, m2, m3⟩ := hb s s' hs y hy x hx hh
      refine ⟨m1, m2, ?_⟩
      rintro ⟨y', x'⟩ hne
      exact m3 y' x' (by rintro ⟨rfl, rfl⟩; exact hne rfl)) f out hf hfold
  refine ⟨k1, fun y hy x hx => ?_⟩
  obtain ⟨pre, post, hs⟩ := List.append_of_mem ((hmem (y, x)).mpr ⟨hy, hx⟩)
  exact k2 pre _ post hs

/-- Partial correctness of a loop that computes and stores the members of a grid point. -/
theorem storeMembers_partial {Y X E : Nat} {y x : Nat} (hy : y < Y) (hx : x < X) (value : Nat → Res (Fl K)) (f out : FieldC K)
    (hf : Sized Y X E f) (h : foldM (fun (f : FieldC K) e => do
      let v ← value e
      f.set y x e v) f (List.range E) = ok out) :
    Sized Y X E out ∧ (∀ e < E, ∃ v, value e = ok v ∧ out.get y x e = ok v) ∧
      ∀ y' x', ¬ (y' = y ∧ x' = x) → out.get y' x' = f.get y' x' := by
  obtain ⟨⟨k1, k3⟩, k2, -⟩ := foldM_sequential (fun s => Sized Y X E s ∧ ∀ y' x', ¬ (y' = y ∧ x' = x) → s.get y' x' = f.get y' x')
    (fun f (e : Nat) => f.get y x e) (fun (f : FieldC K) e => do
      let v ← value e
      f.set y x e v) (fun e _ u => ∃ v, value e = ok v ∧ u = ok v) _ List.nodup_range (by
      rintro s s' e ⟨hs, hs2⟩ he hh
      obtain ⟨v, h1, h2⟩ := bind_eq_ok.mp hh
      obtain ⟨s2, g1, g2, g3, g4⟩ := hs.set hy hx (List.mem_range.mp he) v
      rw [g1, Res.ok.injEq] at h2
      subst h2
      refine ⟨⟨g2, fun y' x' hne => ?_⟩, ⟨v, h1, g3⟩, fun j hj => g4 y x j (by simp [hj])⟩
      rw [← hs2 y' x' hne]
      funext e'
      exact g4 y' x' e' (fun hc => hne ⟨hc.1, hc.2.1⟩)) f out ⟨hf, fun _ _ _ => rfl⟩ h
  refine ⟨k1, fun e he => ?_, k3⟩
  obtain ⟨pre, post, hs⟩ := List.append_of_mem (List.mem_range.mpr he)
  exact k2 pre _ post hs

/-- Latitudes grow with the row and longitudes with the column. -/
structure RegularGrid (Y X : Nat) (la lo : Nat → K) (lats lons : List (List (Fl K))) : Prop where
  lat : Rect Y X lats
  lon : Rect Y X lons
  rows : 2 ≤ Y
  columns : 2 ≤ X
  latAt : ∀ i < Y, ∀ j < X, cell? lats i j = some (fin (la i))
  lonAt : ∀ i < Y, ∀ j < X, cell? lons i j = some (fin (lo j))
  latInc : ∀ i k, i < k → k < Y → la i < la k
  lonInc : ∀ j k, j < k → k < X → lo j < lo k

theorem RegularGrid.getLat {Y X : Nat} {la lo : Nat → K} {lats lons : List (List (Fl K))} (h : RegularGrid Y X la lo lats lons) {i j : Nat}
    (hi : i < Y) (hj : j < X) : vget2 lats (i : Int) (j : Int) = ok (fin (la i)) := vget2_of_cell? (h.latAt i hi j hj)

theorem RegularGrid.getLon {Y X : Nat} {la lo : Nat → K} {lats lons : List (List (Fl K))} (h : RegularGrid Y X la lo lats lons) {i j : Nat}
    (hi : i < Y) (hj : j < X) : vget2 lons (i : Int) (j : Int) = ok (fin (lo j)) := vget2_of_cell? (h.lonAt i hi j hj)

theorem andLess_fin {c : Bool} {a b : Res (Fl K)} (h : c = true → ∃ u v : K, a = ok (fin u) ∧ b = ok (fin v) ∧ ¬ u < v) :
    andLess c a b = ok false := by
  cases c with
  | false => rfl
  | true =>
    obtain ⟨u, v, rfl, rfl, hn⟩ := h rfl
    simp only [andLess, if_true, ok_bind, lt_fin, decide_eq_false hn]

theorem andLess_true {c : Bool} {a b : Res (Fl K)} (h : c = true → ∃ u v : K, a = ok (fin u) ∧ b = ok (fin v) ∧ u < v) :
    andLess c a b = ok c := by
  cases c with
  | false => rfl
  | true =>
    obtain ⟨u, v, rfl, rfl, hn⟩ := h rfl
    simp only [andLess, if_true, ok_bind, lt_fin, decide_eq_true hn]

theorem anyTrue_eight {p1 p2 p5 p6 : Bool} {r : Res Bool} (h : p1 = false → p2 = false → p5 = false → p6 = false → r = ok false) :
    anyTrue [ok p1, ok p2, ok false, ok false, ok p5, ok p6, ok false, r] = ok (p1 || p2 || p5 || p6) := by
  cases p1 with
  | true => rfl
  | false =>
    cases p2 with
    | true => rfl
    | false =>
      cases p5 with
      | true => rfl
      | false =>
        cases p6 with
        | true => rfl
        | false => rw [h rfl rfl rfl rfl]; rfl

theorem and_decide_last {b : Bool} {i Y : Nat} (hY : 2 ≤ Y) (hc : (b && decide ((i : Int) = (Y : Int) - 1)) = true) : 0 < i := by
  simp only [Bool.and_eq_true, decide_eq_true_eq] at hc
  omega

/-- The rows (columns) around a coordinate and the choice of `getI` (`getJ`). -/
theorem getPair_around {N : Nat} {g : Nat → K} (hinc : ∀ i k, i < k → k < N → g i < g k) {i : Nat} (hi : i < N) {a : K} (h0 : g 0 < a)
    (h1 : a ≤ g (N - 1)) (hadj : ∀ k < N, ¬ (g i < g k ∧ g k < a) ∧ ¬ (a < g k ∧ g k < g i)) :
    ∃ y, y + 1 < N ∧ g y ≤ a ∧ a ≤ g (y + 1) ∧ (i = y ∨ i = y + 1) ∧
      getPair (ok ()) (i : Int) (decide (g i < a)) true = ok ((y : Int), (y : Int) + 1) ∧
      (decide (g i < a) && decide (i = N - 1)) = false ∧ (!decide (g i < a) && decide (i = 0)) = false := by
  by_cases hab : g i < a
  · have hne : i ≠ N - 1 := by
      rintro rfl
      exact absurd hab (not_lt.mpr h1)
    have hi1 : i + 1 < N := by omega
    refine ⟨i, hi1, hab.le, ?_, Or.inl rfl, ?_, ?_, ?_⟩
    · by_contra hc
      exact (hadj (i + 1) hi1).1 ⟨hinc _ _ (by omega) hi1, lt_of_not_ge hc⟩
    · simp [getPair, hab, ok_bind]
    · simp [hne]
    · simp [hab]
  · have hle : a ≤ g i := le_of_not_gt hab
    have hne : i ≠ 0 := by
      rintro rfl
      exact hab h0
    obtain ⟨y, rfl⟩ := Nat.exists_eq_succ_of_ne_zero hne
    refine ⟨y, hi, ?_, hle, Or.inr rfl, ?_, ?_, ?_⟩
    · by_contra hc
      exact (hadj y (by omega)).2 ⟨lt_of_not_ge hc, hinc _ _ (by omega) hi⟩
    · simp [getPair, hab, ok_bind]
    · simp [hab]
    · simp

section
variable {Y X : Nat} {la lo : Nat → K} {lats lons : List (List (Fl K))} (h : RegularGrid Y X la lo lats lons)
include h

theorem RegularGrid.getLat_pred {i j : Nat} (h0 : 0 < i) (hi : i < Y) (hj : j < X) : vget2 lats ((i : Int) - 1) (j : Int) = ok (fin (la (i - 1))) := by
  rw [show (i : Int) - 1 = ((i - 1 : Nat) : Int) by omega]
  exact h.getLat (by omega) hj

theorem RegularGrid.getLon_pred {i j : Nat} (h0 : 0 < j) (hi : i < Y) (hj : j < X) : vget2 lons (i : Int) ((j : Int) - 1) = ok (fin (lo (j - 1))) := by
  rw [show (j : Int) - 1 = ((j - 1 : Nat) : Int) by omega]
  exact h.getLon hi (by omega)

theorem RegularGrid.lat01 {j : Nat} (hj : j < X) : vget2 lats 0 (j : Int) = ok (fin (la 0)) ∧ vget2 lats 1 (j : Int) = ok (fin (la 1)) ∧ la 0 < la 1 := by
  have hY := h.rows
  exact ⟨h.getLat (i := 0) (by omega) hj, h.getLat (i := 1) (by omega) hj, h.latInc 0 1 (by omega) (by omega)⟩

theorem RegularGrid.lon01 {i : Nat} (hi : i < Y) : vget2 lons (i : Int) 0 = ok (fin (lo 0)) ∧ vget2 lons (i : Int) 1 = ok (fin (lo 1)) ∧ lo 0 < lo 1 := by
  have hX := h.columns
  exact ⟨h.getLon (j := 0) hi (by omega), h.getLon (j := 1) hi (by omega), h.lonInc 0 1 (by omega) (by omega)⟩

/-- The tests on the latitudes. -/
theorem RegularGrid.latTests {i j : Nat} (hi : i < Y) (hj : j < X) (above : Bool) :
    andLess (above && decide ((i : Int) = (Y : Int) - 1)) (vget2 lats ((i : Int) - 1) j) (vget2 lats i j) =
      ok (above && decide ((i : Int) = (Y : Int) - 1)) ∧
    andLess (!above && decide ((i : Int) = 0)) (vget2 lats 0 j) (vget2 lats 1 j) = ok (!above && decide ((i : Int) = 0)) ∧
    andLess (above && decide ((i : Int) = 0)) (vget2 lats 1 j) (vget2 lats 0 j) = ok false ∧
    andLess (!above && decide ((i : Int) = (Y : Int) - 1)) (vget2 lats i j) (vget2 lats ((i : Int) - 1) j) = ok false := by
  obtain ⟨a0, a1, a2⟩ := h.lat01 hj
  refine ⟨andLess_true fun hc => ?_, andLess_true fun _ => ⟨_, _, a0, a1, a2⟩, andLess_fin fun _ => ⟨_, _, a1, a0, a2.not_gt⟩,
    andLess_fin fun hc => ?_⟩
  · have h0 := and_decide_last h.rows hc
    exact ⟨_, _, h.getLat_pred h0 hi hj, h.getLat hi hj, h.latInc _ _ (Nat.sub_lt h0 Nat.one_pos) hi⟩
  · have h0 := and_decide_last h.rows hc
    exact ⟨_, _, h.getLat hi hj, h.getLat_pred h0 hi hj, (h.latInc _ _ (Nat.sub_lt h0 Nat.one_pos) hi).not_gt⟩

/-- The tests on the longitudes. -/
theorem RegularGrid.lonTests {i j : Nat} (hi : i < Y) (hj : j < X) (right : Bool) :
    andLess (right && decide ((j : Int) = (X : Int) - 1)) (vget2 lons i ((j : Int) - 1)) (vget2 lons i j) =
      ok (right && decide ((j : Int) = (X : Int) - 1)) ∧
    andLess (!right && decide ((j : Int) = 0)) (vget2 lons i 0) (vget2 lons i 1) = ok (!right && decide ((j : Int) = 0)) ∧
    andLess (right && decide ((j : Int) = 0)) (vget2 lons i 1) (vget2 lons i 0) = ok false ∧
    ((!right && decide ((j : Int) = 0)) = false →
      andLess (!right && decide ((i : Int) = (X : Int) - 1)) (vget2 lons i j) (vget2 lons i ((j : Int) - 1)) = ok false) := by
  obtain ⟨a0, a1, a2⟩ := h.lon01 hi
  refine ⟨andLess_true fun hc => ?_, andLess_true fun _ => ⟨_, _, a0, a1, a2⟩, andLess_fin fun _ => ⟨_, _, a1, a0, a2.not_gt⟩,
    fun hz => andLess_fin fun hc => ?_⟩
  · have h0 := and_decide_last h.columns hc
    exact ⟨_, _, h.getLon_pred h0 hi hj, h.getLon hi hj, h.lonInc _ _ (Nat.sub_lt h0 Nat.one_pos) hj⟩
  · have h0 : 0 < j := by
      rcases Nat.eq_zero_or_pos j with rfl | h0
      · rw [Bool.and_eq_true] at hc
        rw [hc.1] at hz
        simp at hz
      · exact h0
    exact ⟨_, _, h.getLon hi hj, h.getLon_pred h0 hi hj, (h.lonInc _ _ (Nat.sub_lt h0 Nat.one_pos) hj).not_gt⟩

/-- The tests whether the place is outside. -/
theorem outsideC_regular {i j : Nat} (hi : i < Y) (hj : j < X) (above right : Bool) : outsideC lats lons Y X i j above right =
    ok ((above && decide (i = Y - 1)) || (!above && decide (i = 0)) || (right && decide (j = X - 1)) || (!right && decide (j = 0))) := by
  obtain ⟨t1, t2, t3, t4⟩ := h.latTests hi hj above
  obtain ⟨t5, t6, t7, t8⟩ := h.lonTests hi hj right
  unfold outsideC
  rw [t1, t2, t3, t4, t5, t6, t7, anyTrue_eight (fun _ _ _ hz => t8 hz)]
  have hY := h.rows
  have hX := h.columns
  have e1 : ((i : Int) = (Y : Int) - 1) = (i = Y - 1) := by apply propext; omega
  have e2 : ((i : Int) = 0) = (i = 0) := by apply propext; omega
  have e3 : ((j : Int) = (X : Int) - 1) = (j = X - 1) := by apply propext; omega
  have e4 : ((j : Int) = 0) = (j = 0) := by apply propext; omega
  simp only [e1, e2, e3, e4]

/-- On a regular grid a place inside is found in a cell at its nearest neighbour. -/
theorem findCoords_inside [HasSqrt K] {i j : Nat} (hi : i < Y) (hj : j < X) {a b : K} (ha0 : la 0 < a) (ha1 : a ≤ la (Y - 1)) (hb0 : lo 0 < b)
    (hb1 : b ≤ lo (X - 1)) (hadja : ∀ k < Y, ¬ (la i < la k ∧ la k < a) ∧ ¬ (a < la k ∧ la k < la i))
    (hadjb : ∀ k < X, ¬ (lo j < lo k ∧ lo k < b) ∧ ¬ (b < lo k ∧ lo k < lo j)) :
    ∃ y x : Nat, findCoords (ok ()) (fin a) (fin b) lats lons i j = ok (some ⟨y, x, (y : Int) + 1, (x : Int) + 1⟩) ∧ y + 1 < Y ∧ x + 1 < X ∧
      la y ≤ a ∧ a ≤ la (y + 1) ∧ lo x ≤ b ∧ b ≤ lo (x + 1) ∧ (i = y ∨ i = y + 1) ∧ (j = x ∨ j = x + 1) ∧
      cornersC lats lons ⟨y, x, (y : Int) + 1, (x : Int) + 1⟩ =
        ok (quadOf ⟨la y, lo x⟩ ⟨la (y + 1), lo x⟩ ⟨la (y + 1), lo (x + 1)⟩ ⟨la y, lo (x + 1)⟩) := by
  obtain ⟨y, y1, y2, y3, y4, y5, y6, y7⟩ := getPair_around h.latInc hi ha0 ha1 hadja
  obtain ⟨x, x1, x2, x3, x4, x5, x6, x7⟩ := getPair_around h.lonInc hj hb0 hb1 hadjb
  have hq : cornersC lats lons ⟨y, x, (y : Int) + 1, (x : Int) + 1⟩ =
      ok (quadOf ⟨la y, lo x⟩ ⟨la (y + 1), lo x⟩ ⟨la (y + 1), lo (x + 1)⟩ ⟨la y, lo (x + 1)⟩) := by
    unfold cornersC
    simp only
    rw [show (y : Int) + 1 = ((y + 1 : Nat) : Int) by push_cast; rfl, show (x : Int) + 1 = ((x + 1 : Nat) : Int) by push_cast; rfl,
      h.getLon (by omega) (by omega), h.getLon y1 (by omega), h.getLon (by omega) x1, h.getLon y1 x1,
      h.getLat (by omega) (by omega), h.getLat y1 (by omega), h.getLat (by omega) x1, h.getLat y1 x1]
    rfl
  refine ⟨y, x, ?_, y1, x1, y2, y3, x2, x3, y4, x4, hq⟩
  have hla : la y < la (y + 1) := h.latInc _ _ (by omega) y1
  have hlo : lo x < lo (x + 1) := h.lonInc _ _ (by omega) x1
  have e1 : la (y + 1) - la y ≠ 0 := by linarith
  have e2 : lo (x + 1) - lo x ≠ 0 := by linarith
  have hst := calcParallelogramC_at (A := ⟨la y, lo x⟩) (B := ⟨la (y + 1), lo x⟩) (C := ⟨la (y + 1), lo (x + 1)⟩) (D := ⟨la y, lo (x + 1)⟩)
    (m := ⟨a, b⟩) (α := (b - lo x) / (lo (x + 1) - lo x)) (β := (a - la y) / (la (y + 1) - la y)) (by
      constructor
      · simp only; field_simp; ring
      · simp only; field_simp; ring) (by simp) (by simp) (by
      simp only [orient]
      intro hc
      apply mul_ne_zero e2 e1
      linear_combination hc)
  simp only at hst
  have hα0 : 0 ≤ (b - lo x) / (lo (x + 1) - lo x) := div_nonneg (by linarith) (by linarith)
  have hα1 : (b - lo x) / (lo (x + 1) - lo x) ≤ 1 := by rw [div_le_one (by linarith)]; linarith
  have hβ0 : 0 ≤ (a - la y) / (la (y + 1) - la y) := div_nonneg (by linarith) (by linarith)
  have hβ1 : (a - la y) / (la (y + 1) - la y) ≤ 1 := by rw [div_le_one (by linarith)]; linarith
  generalize (b - lo x) / (lo (x + 1) - lo x) = α at hst hα0 hα1
  generalize (a - la y) / (la (y + 1) - la y) = β at hst hβ0 hβ1
  have hbeyond : ∀ v : K, 0 ≤ v → v ≤ 1 → beyond (fin v) = false := by
    intro v h1 h2
    unfold beyond
    have g1 : ¬ 1 + 1 / 20 < v := by
      intro hc
      have : (0 : K) < 1 / 20 := by norm_num
      linarith
    have g2 : ¬ v < -(1 / 20) := by
      intro hc
      have : (0 : K) < 1 / 20 := by norm_num
      linarith
    rw [gt_fin, lt_fin, decide_eq_false g1, decide_eq_false g2]; rfl
  have hacc : acceptC (K := K) ⟨y, x, (y : Int) + 1, (x : Int) + 1⟩ (fin α, fin (1 - β)) = ok (some ⟨y, x, (y : Int) + 1, (x : Int) + 1⟩) := by
    unfold acceptC
    simp only [hbeyond α hα0 hα1, hbeyond (1 - β) (by linarith) (by linarith), Bool.or_self, Bool.false_eq_true, if_false]
    have hp : (0 : K) < 1 / 20 := by norm_num
    have k1 : α ≤ 1 + 1 / 20 := by linarith
    have k2 : -(1 / 20) ≤ α := by linarith
    have k3 : 1 - β ≤ 1 + 1 / 20 := by linarith
    have k4 : -(1 / 20) ≤ 1 - β := by linarith
    simp only [le_fin, ge_fin, decide_eq_true k1, decide_eq_true k2, decide_eq_true k3, decide_eq_true k4]
    rfl
  have hiInc : increasing (decide ((i : Int) = 0)) (vget2 lats i j) (vget2 lats ((i : Int) - 1) j) = ok true := by
    unfold increasing
    rcases Nat.eq_zero_or_pos i with rfl | h0
    · rfl
    · rw [if_neg (by simp; omega), h.getLat hi hj, h.getLat_pred h0 hi hj, ok_bind, ok_bind, lt_fin,
        decide_eq_true (h.latInc _ _ (Nat.sub_lt h0 Nat.one_pos) hi)]
  have hjInc : increasing (decide ((j : Int) = 0)) (vget2 lons i j) (vget2 lons i ((j : Int) - 1)) = ok true := by
    unfold increasing
    rcases Nat.eq_zero_or_pos j with rfl | h0
    · rfl
    · rw [if_neg (by simp; omega), h.getLon hi hj, h.getLon_pred h0 hi hj, ok_bind, ok_bind, lt_fin,
        decide_eq_true (h.lonInc _ _ (Nat.sub_lt h0 Nat.one_pos) hj)]
  have hnum : numX lats = ok X := by
    unfold numX
    have h0 : 0 < lats.length := by rw [h.lat.1]; have := h.rows; omega
    rw [show (0 : Int) = ((0 : Nat) : Int) from rfl, vget_eq_ok_of_lt h0, ok_bind, h.lat.2 _ (List.getElem_mem h0)]
  unfold findCoords
  rw [h.getLon hi hj, ok_bind, h.getLat hi hj, ok_bind, hnum, ok_bind, h.lat.1,
    assert_true' (by simp; omega), ok_bind, assert_true' (by simp; omega), ok_bind, outsideC_regular h hi hj, ok_bind]
  simp only [gt_fin, y6, y7, x6, x7, Bool.or_self, Bool.false_eq_true, if_false]
  unfold findCell
  rw [hiInc, ok_bind, hjInc, ok_bind, y5, ok_bind, x5, ok_bind]
  simp only
  have hin : ((decide ((y : Int) < 0) || decide ((Y : Int) ≤ y)) || (decide ((y : Int) + 1 < 0) || decide ((Y : Int) ≤ (y : Int) + 1)) ||
      (decide ((x : Int) < 0) || decide ((X : Int) ≤ x)) || (decide ((x : Int) + 1 < 0) || decide ((X : Int) ≤ (x : Int) + 1))) = false := by
    simp only [Bool.or_eq_false_iff, decide_eq_false_iff_not]
    omega
  rw [hin, if_neg (by simp), hq, ok_bind, hst, ok_bind]
  simp only [hbeyond α hα0 hα1, hbeyond (1 - β) (by linarith) (by linarith), Bool.or_self, Bool.false_eq_true, if_false]
  exact hacc

/-- A place beyond the last row or column, or not beyond the first one, is outside. -/
theorem findCoords_outside [HasSqrt K] (fall : Res Unit) {i j : Nat} (hi : i < Y) (hj : j < X) {a b : K}
    (ho : (la i < a ∧ i = Y - 1) ∨ (a ≤ la i ∧ i = 0) ∨ (lo j < b ∧ j = X - 1) ∨ (b ≤ lo j ∧ j = 0)) :
    findCoords fall (fin a) (fin b) lats lons i j = ok none := by
  have hnum : numX lats = ok X := by
    unfold numX
    have h0 : 0 < lats.length := by rw [h.lat.1]; have := h.rows; omega
    rw [show (0 : Int) = ((0 : Nat) : Int) from rfl, vget_eq_ok_of_lt h0, ok_bind, h.lat.2 _ (List.getElem_mem h0)]
  unfold findCoords
  rw [h.getLon hi hj, ok_bind, h.getLat hi hj, ok_bind, hnum, ok_bind, h.lat.1,
    assert_true' (by simp; omega), ok_bind, assert_true' (by simp; omega), ok_bind, outsideC_regular h hi hj, ok_bind, if_pos]
  simp only [gt_fin, Bool.or_eq_true, Bool.and_eq_true, decide_eq_true_eq, Bool.not_eq_true', decide_eq_false_iff_not, not_lt]
  tauto

end

end Gridpp.Client
