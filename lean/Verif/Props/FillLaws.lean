import Verif.Props.Fill
import Verif.Props.NeighbourhoodLaws
import Verif.Base.Inst

/-! C178: laws of `fill_missing`. -/

set_option linter.unusedSectionVars false

namespace Gridpp.Props
open Fl Res Spec

section
variable {K : Type} [Field K] [LinearOrder K] [IsStrictOrderedRing K]

/-- The result `o` at a cell with value `c`, if `R` are the interpolations along the row and `C` those along the column. -/
structure FilledAs (R C : K → Prop) (c o : Fl K) : Prop where
  keep : c.isValid = true → o = c
  both : c.isValid = false → ∀ r s, R r → C s → o = fin ((r + s) / 2)
  row : c.isValid = false → ∀ r, R r → (∀ s, ¬ C s) → o = fin r
  column : c.isValid = false → ∀ s, C s → (∀ r, ¬ R r) → o = fin s
  neither : c.isValid = false → (∀ r, ¬ R r) → (∀ s, ¬ C s) → o = MV

theorem FilledAs.swap {R C : K → Prop} {c o : Fl K} (h : FilledAs R C c o) : FilledAs C R c o :=
  ⟨h.keep, fun hc r s hr hs => by rw [add_comm]; exact h.both hc s r hs hr, h.column, h.row, fun hc a b => h.neither hc b a⟩

theorem FilledAs.unique {R C : K → Prop} {c o o' : Fl K} (h : FilledAs R C c o) (h' : FilledAs R C c o') : o = o' := by
  cases hc : c.isValid with
  | true => rw [h.keep hc, h'.keep hc]
  | false =>
    by_cases hr : ∃ r, R r
    · obtain ⟨r, hr⟩ := hr
      by_cases hs : ∃ s, C s
      · obtain ⟨s, hs⟩ := hs
        rw [h.both hc r s hr hs, h'.both hc r s hr hs]
      · push Not at hs
        rw [h.row hc r hr hs, h'.row hc r hr hs]
    · push Not at hr
      by_cases hs : ∃ s, C s
      · obtain ⟨s, hs⟩ := hs
        rw [h.column hc s hs hr, h'.column hc s hs hr]
      · push Not at hs
        rw [h.neither hc hr hs, h'.neither hc hr hs]

/-- The interpolations at a position of a line. -/
def Across (line : Nat → Option (Fl K)) (x : Nat) (r : K) : Prop := ∃ p q, Gap line x p q r

theorem fillMissing_as {Y X : Nat} (hY : 0 < Y) (v : List (List (Fl K))) (h : Rect Y X v) :
    ∃ out, fillMissing v = ok out ∧ Rect Y X out ∧ ∀ y < Y, ∀ x < X, ∃ c o, cell? v y x = some c ∧ cell? out y x = some o ∧
      FilledAs (Across (rowOf v y) x) (Across (colOf v x) y) c o := by
  obtain ⟨out, h1, h2, h3⟩ := c36_fill_missing hY v h
  refine ⟨out, h1, h2, fun y hy x hx => ?_⟩
  obtain ⟨c, o, e1, e2, e3, e4⟩ := h3 y hy x hx
  refine ⟨c, o, e1, e2, e3, ?_, ?_, ?_, ?_⟩
  · rintro hc r s ⟨p, q, hr⟩ ⟨p', q', hs⟩
    exact (e4 hc).1 p q r p' q' s hr hs
  · rintro hc r ⟨p, q, hr⟩ hs
    exact (e4 hc).2.1 p q r hr fun p' q' s hg => hs s ⟨p', q', hg⟩
  · rintro hc s ⟨p, q, hs⟩ hr
    exact (e4 hc).2.2.1 p q s hs fun p' q' r hg => hr r ⟨p', q', hg⟩
  · intro hc hr hs
    exact (e4 hc).2.2.2 (fun p q r hg => hr r ⟨p, q, hg⟩) fun p q s hg => hs s ⟨p, q, hg⟩

/-! ### Mirror images -/

theorem across_mirror_mp {line line' : Nat → Option (Fl K)} {n : Nat} (hn : ∀ k, n ≤ k → line k = none) (h : ∀ k < n, line' (n - 1 - k) = line k) {x : Nat} {r : K}
    (hg : Across line x r) : Across line' (n - 1 - x) r := by
  obtain ⟨p, q, a, b, h1, h2, h3, h4, h5, rfl⟩ := hg
  have hb : b < n := by
    by_contra hb
    rw [hn b (by omega)] at h4
    cases h4
  refine ⟨q, p, n - 1 - b, n - 1 - a, by omega, by omega, by rw [h b hb, h4], by rw [h a (by omega), h3], fun k w k1 k2 hw => ?_, ?_⟩
  · have := h (n - 1 - k) (by omega)
    rw [show n - 1 - (n - 1 - k) = k by omega, hw] at this
    exact h5 (n - 1 - k) w (by omega) (by omega) this.symm
  · have ha' : (a : K) < x := by exact_mod_cast h1
    have hb' : (x : K) < b := by exact_mod_cast h2
    have c1 : ((n - 1 - x : Nat) : K) = (n : K) - 1 - x := by rw [Nat.cast_sub (by omega), Nat.cast_sub (by omega), Nat.cast_one]
    have c2 : ((n - 1 - a : Nat) : K) = (n : K) - 1 - a := by rw [Nat.cast_sub (by omega), Nat.cast_sub (by omega), Nat.cast_one]
    have c3 : ((n - 1 - b : Nat) : K) = (n : K) - 1 - b := by rw [Nat.cast_sub (by omega), Nat.cast_sub (by omega), Nat.cast_one]
    have d1 : (b : K) - a ≠ 0 := by
      have : (0 : K) < b - a := by linarith
      exact this.ne'
    have e : (n : K) - 1 - a - ((n : K) - 1 - b) = b - a := by ring
    rw [c1, c2, c3, e]
    field_simp
    ring

theorem across_mirror {line line' : Nat → Option (Fl K)} {n : Nat} (hn : ∀ k, n ≤ k → line k = none) (hn' : ∀ k, n ≤ k → line' k = none)
    (h : ∀ k < n, line' (n - 1 - k) = line k) {x : Nat} (hx : x < n) : Across line' (n - 1 - x) = Across line x := by
  funext r
  apply propext
  constructor
  · intro hg
    have := across_mirror_mp hn' (line' := line) (fun k hk => ?_) hg
    · rwa [show n - 1 - (n - 1 - x) = x by omega] at this
    · have := h (n - 1 - k) (by omega)
      rw [show n - 1 - (n - 1 - k) = k by omega] at this
      exact this.symm
  · exact across_mirror_mp hn h

theorem across_congr {line line' : Nat → Option (Fl K)} (h : ∀ k, line' k = line k) (x : Nat) : Across line' x = Across line x := by
  rw [show line' = line from funext h]

theorem rowOf_outside {Y X : Nat} {v : List (List (Fl K))} (h : Rect Y X v) (y k : Nat) (hk : X ≤ k) : rowOf v y k = none := by
  unfold rowOf cell?
  cases hr : v[y]? with
  | none => rfl
  | some r =>
    have := h.2 r (List.mem_of_getElem? hr)
    simp [this, hk]

theorem colOf_outside {Y X : Nat} {v : List (List (Fl K))} (h : Rect Y X v) (x k : Nat) (hk : Y ≤ k) : colOf v x k = none := by
  unfold colOf cell?
  rw [List.getElem?_eq_none (by rw [h.1]; exact hk)]
  rfl

/-- **C178**: filling a mirror image, or the field with rows and columns exchanged, gives the mirror image of the filled field. The function goes through rows and columns in
one direction only. -/
theorem c178_mirror {Y X Y' X' : Nat} {a b : List (List (Fl K))} {σ : Nat × Nat → Nat × Nat} (hm : Mirrored Y X a b Y' X' σ) (ha : Rect Y X a) (hb : Rect Y' X' b)
    (hY : 0 < Y) (hX : 0 < X) :
    ∃ out out', fillMissing a = ok out ∧ fillMissing b = ok out' ∧ Rect Y X out ∧ Rect Y' X' out' ∧ Mirrored Y X out out' Y' X' σ := by
  obtain ⟨out, h1, h2, h3⟩ := fillMissing_as hY a ha
  cases hm with
  | rows h =>
    obtain ⟨out', k1, k2, k3⟩ := fillMissing_as hY b hb
    refine ⟨out, out', h1, k1, h2, k2, .rows fun y hy x hx => ?_⟩
    obtain ⟨c, o, e1, e2, e3⟩ := h3 y hy x hx
    obtain ⟨c', o', f1, f2, f3⟩ := k3 (Y - 1 - y) (by omega) x hx
    rw [h y hy x hx, e1] at f1
    cases f1
    have er : Across (rowOf b (Y - 1 - y)) x = Across (rowOf a y) x := by
      refine across_congr (fun k => ?_) x
      by_cases hk : k < X
      · exact h y hy k hk
      · rw [rowOf_outside hb _ _ (by omega), rowOf_outside ha _ _ (by omega)]
    have ec : Across (colOf b x) (Y - 1 - y) = Across (colOf a x) y :=
      across_mirror (colOf_outside ha x) (colOf_outside hb x) (fun k hk => h k hk x hx) hy
    rw [er, ec] at f3
    rw [f2, e2, e3.unique f3]
  | columns h =>
    obtain ⟨out', k1, k2, k3⟩ := fillMissing_as hY b hb
    refine ⟨out, out', h1, k1, h2, k2, .columns fun y hy x hx => ?_⟩
    obtain ⟨c, o, e1, e2, e3⟩ := h3 y hy x hx
    obtain ⟨c', o', f1, f2, f3⟩ := k3 y hy (X - 1 - x) (by omega)
    rw [h y hy x hx, e1] at f1
    cases f1
    have er : Across (rowOf b y) (X - 1 - x) = Across (rowOf a y) x :=
      across_mirror (rowOf_outside ha y) (rowOf_outside hb y) (fun k hk => h y hy k hk) hx
    have ec : Across (colOf b (X - 1 - x)) y = Across (colOf a x) y := by
      refine across_congr (fun k => ?_) y
      by_cases hk : k < Y
      · exact h k hk x hx
      · rw [colOf_outside hb _ _ (by omega), colOf_outside ha _ _ (by omega)]
    rw [er, ec] at f3
    rw [f2, e2, e3.unique f3]
  | transposed h =>
    obtain ⟨out', k1, k2, k3⟩ := fillMissing_as hX b hb
    refine ⟨out, out', h1, k1, h2, k2, .transposed fun y hy x hx => ?_⟩
    obtain ⟨c, o, e1, e2, e3⟩ := h3 y hy x hx
    obtain ⟨c', o', f1, f2, f3⟩ := k3 x hx y hy
    rw [h y hy x hx, e1] at f1
    cases f1
    have er : Across (rowOf b x) y = Across (colOf a x) y := by
      refine across_congr (fun k => ?_) y
      by_cases hk : k < Y
      · exact h k hk x hx
      · rw [rowOf_outside hb _ _ (by omega), colOf_outside ha _ _ (by omega)]
    have ec : Across (colOf b y) x = Across (rowOf a y) x := by
      refine across_congr (fun k => ?_) x
      by_cases hk : k < X
      · exact h y hy k hk
      · rw [colOf_outside hb _ _ (by omega), rowOf_outside ha _ _ (by omega)]
    rw [er, ec] at f3
    rw [f2, e2, e3.unique f3.swap]

/-! ### Linear fields -/

/-- **C178**: holes in a field that is linear in row and column are filled with the values of the linear field. -/
theorem c178_linear {Y X : Nat} (hY : 0 < Y) (v : List (List (Fl K))) (h : Rect Y X v) (α β γ : K)
    (hl : ∀ y x q, cell? v y x = some (fin q) → q = α + β * y + γ * x) :
    ∃ out, fillMissing v = ok out ∧ Rect Y X out ∧ ∀ y x q, cell? out y x = some (fin q) → q = α + β * y + γ * x := by
  obtain ⟨out, h1, h2, h3⟩ := fillMissing_as hY v h
  have line : ∀ (l : Nat → Option (Fl K)) (s t : K), (∀ k q, l k = some (fin q) → q = s + t * k) → ∀ x r, Across l x r → r = s + t * x := by
    rintro l s t hl x r ⟨p, q, a, b, g1, g2, g3, g4, -, rfl⟩
    have ha' : (a : K) < x := by exact_mod_cast g1
    have hb' : (x : K) < b := by exact_mod_cast g2
    have d1 : (b : K) - a ≠ 0 := by
      have : (0 : K) < b - a := by linarith
      exact this.ne'
    rw [hl a p g3, hl b q g4]
    field_simp
    ring
  refine ⟨out, h1, h2, fun y x q hq => ?_⟩
  have hy : y < Y := by
    by_contra hy
    have := colOf_outside h2 x y (by omega)
    rw [colOf, hq] at this
    cases this
  have hx : x < X := by
    by_contra hx
    have := rowOf_outside h2 y x (by omega)
    rw [rowOf, hq] at this
    cases this
  obtain ⟨c, o, e1, e2, e3⟩ := h3 y hy x hx
  rw [hq] at e2
  cases e2
  have hr : ∀ r, Across (rowOf v y) x r → r = α + β * y + γ * x := line _ (α + β * y) γ (fun k p hp => hl y k p hp) x
  have hs : ∀ s, Across (colOf v x) y s → s = α + β * y + γ * x := by
    intro s hs
    rw [line _ (α + γ * x) β (fun k p hp => by rw [hl k x p hp]; ring) y s hs]
    ring
  cases hc : c.isValid with
  | true =>
    rw [← e3.keep hc] at e1
    exact hl y x q e1
  | false =>
    by_cases hr' : ∃ r, Across (rowOf v y) x r
    · obtain ⟨r, hr'⟩ := hr'
      by_cases hs' : ∃ s, Across (colOf v x) y s
      · obtain ⟨s, hs'⟩ := hs'
        have := e3.both hc r s hr' hs'
        injection this with this
        rw [this, hr r hr', hs s hs']
        ring
      · push Not at hs'
        have := e3.row hc r hr' hs'
        injection this with this
        rw [this, hr r hr']
    · push Not at hr'
      by_cases hs' : ∃ s, Across (colOf v x) y s
      · obtain ⟨s, hs'⟩ := hs'
        have := e3.column hc s hs' hr'
        injection this with this
        rw [this, hs s hs']
      · push Not at hs'
        have := e3.neither hc hr' hs'
        cases this

/-- **C178**: filling is monotone in the following sense: what is valid after one pass is unchanged by a second one. -/
theorem c178_second_pass {Y X : Nat} (hY : 0 < Y) (v : List (List (Fl K))) (h : Rect Y X v) :
    ∃ out out', fillMissing v = ok out ∧ fillMissing out = ok out' ∧ Rect Y X out' ∧ ∀ y x q, cell? out y x = some (fin q) → cell? out' y x = some (fin q) := by
  obtain ⟨out, h1, h2, -⟩ := fillMissing_as hY v h
  obtain ⟨out', k1, k2, k3⟩ := fillMissing_as hY out h2
  refine ⟨out, out', h1, k1, k2, fun y x q hq => ?_⟩
  have hy : y < Y := by
    by_contra hy
    have := colOf_outside h2 x y (by omega)
    rw [colOf, hq] at this
    cases this
  have hx : x < X := by
    by_contra hx
    have := rowOf_outside h2 y x (by omega)
    rw [rowOf, hq] at this
    cases this
  obtain ⟨c, o, e1, e2, e3⟩ := k3 y hy x hx
  rw [hq] at e1
  cases e1
  rw [e2, e3.keep rfl]

end

/-- **C178** (negation): a second pass may fill more. The middle of a field with values at the four corners is only filled by the second pass. -/
theorem c178_not_idempotent :
    fillMissing [[fin (0 : ℚ), nan, fin 4], [nan, nan, nan], [fin 8, nan, fin 12]] = ok [[fin 0, fin 2, fin 4], [fin 4, nan, fin 8], [fin 8, fin 10, fin 12]] ∧
    fillMissing [[fin (0 : ℚ), fin 2, fin 4], [fin 4, nan, fin 8], [fin 8, fin 10, fin 12]] = ok [[fin 0, fin 2, fin 4], [fin 4, fin 6, fin 8], [fin 8, fin 10, fin 12]] := by
  constructor <;> decide +kernel

/-- A field and its mirror image, and a linear field with holes. -/
example : Mirrored 1 3 [[fin (1 : ℚ), nan, fin 2]] [[fin 2, nan, fin 1]] 1 3 (fun p => (p.1, 3 - 1 - p.2)) := by
  refine .columns fun y hy x hx => ?_
  obtain rfl : y = 0 := by omega
  match x, hx with
  | 0, _ | 1, _ | 2, _ => rfl
example : Rect 1 3 [[fin (1 : ℚ), nan, fin 2]] ∧ fillMissing [[fin (1 : ℚ), nan, fin 2]] = ok [[fin 1, fin (3 / 2), fin 2]] := by
  constructor <;> decide +kernel

/-- The hypothesis of `c178_linear` for the field of `c178_not_idempotent`: 4 y + 2 x. -/
example : ∀ y x q, cell? [[fin (0 : ℚ), nan, fin 4], [nan, nan, nan], [fin 8, nan, fin 12]] y x = some (fin q) → q = 0 + 4 * y + 2 * x := by
  intro y x q h
  match y, x with
  | 0, 0 | 0, 1 | 0, 2 | 1, 0 | 1, 1 | 1, 2 | 2, 0 | 2, 1 | 2, 2 => simp [cell?] at h <;> (rw [← h]; norm_num)
  | 0, x + 3 | 1, x + 3 | 2, x + 3 => simp [cell?] at h
  | y + 3, x => simp [cell?] at h

end Gridpp.Props
