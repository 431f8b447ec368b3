import Verif.Lemmas.Fill
import Verif.Lemmas.Radius

/-! # C36–C39: fill_missing, fill and doping -/

set_option linter.unusedSectionVars false

namespace Gridpp.Props
open Fl Res

variable {K : Type} [Field K] [LinearOrder K] [IsStrictOrderedRing K]

/-- Position `x` of a line lies in a gap between the valid values `p` and `q`, closest on both sides, and `r` is their
linear interpolation at `x`. -/
def Gap (line : Nat → Option (Fl K)) (x : Nat) (p q r : K) : Prop :=
  ∃ a b : Nat, a < x ∧ x < b ∧ line a = some (fin p) ∧ line b = some (fin q) ∧
    (∀ k w, a < k → k < b → line k = some w → w.isValid = false) ∧ r = p + (q - p) * ((x : K) - a) / ((b : K) - a)

/-- Row `y` of a field. -/
def rowOf (v : List (List (Fl K))) (y : Nat) : Nat → Option (Fl K) := fun k => cell? v y k
/-- Column `x` of a field. -/
def colOf (v : List (List (Fl K))) (x : Nat) : Nat → Option (Fl K) := fun k => cell? v k x

theorem gap_bracket {line : Nat → Option (Fl K)} {f : Nat → Fl K} {n : Nat} (h1 : ∀ k < n, line k = some (f k)) (h2 : ∀ k, n ≤ k → line k = none)
    {x : Nat} {p q r : K} : Gap line x p q r ↔ ∃ a b, Bracket f n a x b ∧ f a = fin p ∧ f b = fin q ∧
      r = p + (q - p) * ((x : K) - a) / ((b : K) - a) := by
  have hlt : ∀ k v, line k = some v → k < n ∧ f k = v := by
    intro k v hk
    by_cases hkn : k < n
    · rw [h1 k hkn] at hk; cases hk; exact ⟨hkn, rfl⟩
    · rw [h2 k (by omega)] at hk; cases hk
  constructor
  · rintro ⟨a, b, g1, g2, g3, g4, g5, g6⟩
    obtain ⟨-, e3⟩ := hlt _ _ g3
    obtain ⟨hb, e4⟩ := hlt _ _ g4
    exact ⟨a, b, ⟨g1, g2, hb, by rw [e3]; rfl, by rw [e4]; rfl, fun k k1 k2 => g5 k _ k1 k2 (h1 k (by omega))⟩, e3, e4, g6⟩
  · rintro ⟨a, b, ⟨g1, g2, g3, g4, g5, g6⟩, e1, e2, e3⟩
    refine ⟨a, b, g1, g2, by rw [h1 a (by omega), e1], by rw [h1 b g3, e2], fun k w k1 k2 hk => ?_, e3⟩
    obtain ⟨-, rfl⟩ := hlt _ _ hk
    exact g6 k k1 k2

/-- The interpolated value lies between the two bracketing values. -/
theorem gap_between {line : Nat → Option (Fl K)} {x : Nat} {p q r : K} (h : Gap line x p q r) : min p q ≤ r ∧ r ≤ max p q := by
  obtain ⟨a, b, h1, h2, -, -, -, rfl⟩ := h
  have ha : (a : K) < x := by exact_mod_cast h1
  have hb : (x : K) < b := by exact_mod_cast h2
  have hd : (0 : K) < b - a := by linarith
  have ht0 : 0 ≤ ((x : K) - a) / (b - a) := div_nonneg (by linarith) hd.le
  have ht1 : ((x : K) - a) / (b - a) ≤ 1 := by rw [div_le_one hd]; linarith
  have he : p + (q - p) * ((x : K) - a) / ((b : K) - a) = (1 - ((x : K) - a) / (b - a)) * p + ((x : K) - a) / (b - a) * q := by
    ring
  rw [he]
  set t := ((x : K) - a) / (b - a)
  constructor
  · calc min p q = (1 - t) * min p q + t * min p q := by ring
      _ ≤ _ := add_le_add (mul_le_mul_of_nonneg_left (min_le_left _ _) (by linarith)) (mul_le_mul_of_nonneg_left (min_le_right _ _) ht0)
  · calc (1 - t) * p + t * q ≤ (1 - t) * max p q + t * max p q :=
          add_le_add (mul_le_mul_of_nonneg_left (le_max_left _ _) (by linarith)) (mul_le_mul_of_nonneg_left (le_max_right _ _) ht0)
      _ = max p q := by ring

theorem gap_unique {v : Nat → Option (Fl K)} {x : Nat} {p q r p' q' r' : K} (h : Gap v x p q r) (h' : Gap v x p' q' r') : r = r' := by
  obtain ⟨a, b, h1, h2, h3, h4, h5, rfl⟩ := h
  obtain ⟨a', b', k1, k2, k3, k4, k5, rfl⟩ := h'
  have ea : a = a' := by
    by_contra hne
    rcases Nat.lt_or_gt_of_ne hne with hl | hl
    · have := h5 a' _ hl (by omega) k3; cases this
    · have := k5 a _ hl (by omega) h3; cases this
  have eb : b = b' := by
    by_contra hne
    rcases Nat.lt_or_gt_of_ne hne with hl | hl
    · have := k5 b _ (by omega) hl h4; cases this
    · have := h5 b' _ (by omega) hl k4; cases this
  subst ea; subst eb
  rw [h3] at k3; rw [h4] at k4
  cases k3; cases k4; rfl

/-- **C36** (exact result). `fill_missing` keeps every valid value; a missing value in a gap of its row and/or column
becomes the linear interpolation along the row, along the column, or the mean of the two; otherwise it stays missing. -/
theorem c36_fill_missing {Y X : Nat} (hY : 0 < Y) (v : List (List (Fl K))) (h : Rect Y X v) :
    ∃ out, fillMissing v = ok out ∧ Rect Y X out ∧ ∀ y < Y, ∀ x < X, ∃ c o, cell? v y x = some c ∧ cell? out y x = some o ∧
      (c.isValid = true → o = c) ∧
      (c.isValid = false →
        (∀ p q r p' q' s, Gap (rowOf v y) x p q r → Gap (colOf v x) y p' q' s → o = fin ((r + s) / 2)) ∧
        (∀ p q r, Gap (rowOf v y) x p q r → (∀ p' q' s, ¬ Gap (colOf v x) y p' q' s) → o = fin r) ∧
        (∀ p q s, Gap (colOf v x) y p q s → (∀ p' q' r, ¬ Gap (rowOf v y) x p' q' r) → o = fin s) ∧
        ((∀ p q r, ¬ Gap (rowOf v y) x p q r) → (∀ p q s, ¬ Gap (colOf v x) y p q s) → o = MV)) := by
  obtain ⟨row0, hr0, hr0l⟩ := first_row h hY
  -- rows
  have hF : ∀ y < Y, ∀ x < X, cell? v y x = some ((cell? v y x).getD nan) := fun y hy x hx => by
    obtain ⟨c, hc⟩ := h.cell?_some hy hx; rw [hc]; rfl
  have hnone : ∀ y x, Y ≤ y ∨ X ≤ x → cell? v y x = none := fun y x hyx => by
    cases hc : cell? v y x with
    | none => rfl
    | some w => obtain ⟨h1, h2⟩ := cell?_lt h hc; omega
  obtain ⟨ry, a1, a2, a3⟩ := mapM_upto_exists (n := Y) (f := fun y => fillLine (fun x => vget2 v y x) X)
    (P := fun y out => out.length = X ∧ ∀ x < X, ∃ r, out[x]? = some r ∧ LineValue (fun k => (cell? v y k).getD nan) X x r) (fun y hy =>
      fillLine_ok (f := fun k => (cell? v y k).getD nan) fun k hk => vget2_of_cell? (hF y hy k hk))
  obtain ⟨rx, b1, b2, b3⟩ := mapM_upto_exists (n := X) (f := fun x => fillLine (fun y => vget2 v y x) Y)
    (P := fun x out => out.length = Y ∧ ∀ y < Y, ∃ r, out[y]? = some r ∧ LineValue (fun k => (cell? v k x).getD nan) Y y r) (fun x hx =>
      fillLine_ok (f := fun k => (cell? v k x).getD nan) fun k hk => vget2_of_cell? (hF k hk x hx))
  unfold fillMissing
  simp only [hr0, ok_bind, h.1, hr0l, a1, b1]
  obtain ⟨out, c1, c2, c3⟩ := grid2_exists (Y := Y) (X := X) (f := fun y x => do
      let a ← vget2 ry y x
      let b ← vget2 rx x y
      ok (fillCombine a b)) (P := fun y x o => ∃ c, cell? v y x = some c ∧
        (c.isValid = true → o = c) ∧
      (c.isValid = false →
        (∀ p q r p' q' s, Gap (rowOf v y) x p q r → Gap (colOf v x) y p' q' s → o = fin ((r + s) / 2)) ∧
        (∀ p q r, Gap (rowOf v y) x p q r → (∀ p' q' s, ¬ Gap (colOf v x) y p' q' s) → o = fin r) ∧
        (∀ p q s, Gap (colOf v x) y p q s → (∀ p' q' r, ¬ Gap (rowOf v y) x p' q' r) → o = fin s) ∧
        ((∀ p q r, ¬ Gap (rowOf v y) x p q r) → (∀ p q s, ¬ Gap (colOf v x) y p q s) → o = MV))) (by
    intro y hy x hx
    obtain ⟨ly, d1, -, -, d2⟩ := a3 y hy
    obtain ⟨a, d3, d4⟩ := d2 x hx
    obtain ⟨lx, e1, -, -, e2⟩ := b3 x hx
    obtain ⟨b, e3, e4⟩ := e2 y hy
    have hra : vget2 ry (y : Int) (x : Int) = ok a := vget2_of_cell? (by simp [cell?, d1, d3])
    have hrb : vget2 rx (x : Int) (y : Int) = ok b := vget2_of_cell? (by simp [cell?, e1, e3])
    simp only [hra, hrb, ok_bind]
    refine ⟨_, rfl, _, hF y hy x hx, ?_⟩
    have gr : ∀ p q r, Gap (rowOf v y) x p q r ↔ _ := fun p q r =>
      gap_bracket (line := rowOf v y) (f := fun k => (cell? v y k).getD nan) (n := X) (hF y hy) (fun k hk => hnone y k (Or.inr hk)) (x := x) (p := p) (q := q) (r := r)
    have gc : ∀ p q r, Gap (colOf v x) y p q r ↔ _ := fun p q r =>
      gap_bracket (line := colOf v x) (f := fun k => (cell? v k x).getD nan) (n := Y) (fun k hk => hF k hk x hx) (fun k hk => hnone k x (Or.inl hk)) (x := y) (p := p) (q := q) (r := r)
    have hb1 : ∀ p q r, Gap (rowOf v y) x p q r → a = fin r := fun p q r hg => by
      obtain ⟨i, j, g1, g2, g3, rfl⟩ := (gr p q r).mp hg
      exact d4.2.1 i j p q g1 g2 g3
    have hb2 : ∀ p q r, Gap (colOf v x) y p q r → b = fin r := fun p q r hg => by
      obtain ⟨i, j, g1, g2, g3, rfl⟩ := (gc p q r).mp hg
      exact e4.2.1 i j p q g1 g2 g3
    have hn1 : ((cell? v y x).getD nan).isValid = false → (∀ p q r, ¬ Gap (rowOf v y) x p q r) → a = nan := fun hi hn => by
      refine d4.2.2 hi fun i j hB => ?_
      obtain ⟨p, hp⟩ := exists_fin_of_valid hB.2.2.2.1
      obtain ⟨q, hq⟩ := exists_fin_of_valid hB.2.2.2.2.1
      exact hn p q _ ((gr p q _).mpr ⟨i, j, hB, hp, hq, rfl⟩)
    have hn2 : ((cell? v y x).getD nan).isValid = false → (∀ p q r, ¬ Gap (colOf v x) y p q r) → b = nan := fun hi hn => by
      refine e4.2.2 hi fun i j hB => ?_
      obtain ⟨p, hp⟩ := exists_fin_of_valid hB.2.2.2.1
      obtain ⟨q, hq⟩ := exists_fin_of_valid hB.2.2.2.2.1
      exact hn p q _ ((gc p q _).mpr ⟨i, j, hB, hp, hq, rfl⟩)
    refine ⟨fun hv => ?_, fun hv => ⟨?_, ?_, ?_, ?_⟩⟩
    · rw [d4.1 hv, e4.1 hv]
      obtain ⟨c, hc⟩ := exists_fin_of_valid hv
      simp only at hc ⊢
      rw [hc]
      simp [fillCombine]
    · intro p q r p' q' s h1 h2
      rw [hb1 _ _ _ h1, hb2 _ _ _ h2]
      simp [fillCombine]
    · intro p q r h1 h2
      rw [hb1 _ _ _ h1, hn2 hv h2]
      simp [fillCombine]
    · intro p q s h1 h2
      rw [hb2 _ _ _ h1, hn1 hv h2]
      simp [fillCombine]
    · intro h1 h2
      rw [hn1 hv h1, hn2 hv h2]
      simp [fillCombine])
  refine ⟨out, c1, c2, fun y hy x hx => ?_⟩
  obtain ⟨o, e1, -, c, e2, e3⟩ := c3 y hy x hx
  exact ⟨c, o, e2, e1, e3⟩

/-- **C36** (as stated). A missing cell between two valid cells in its row or column becomes valid, with a value between
the extremes of the bracketing values. -/
theorem c36_between {Y X : Nat} (hY : 0 < Y) (v : List (List (Fl K))) (h : Rect Y X v) :
    ∃ out, fillMissing v = ok out ∧ ∀ y < Y, ∀ x < X, ∀ c, cell? v y x = some c → c.isValid = false →
      (∃ p q r, Gap (rowOf v y) x p q r ∨ Gap (colOf v x) y p q r) →
      ∀ lo hi : K, (∀ p q r, Gap (rowOf v y) x p q r ∨ Gap (colOf v x) y p q r → lo ≤ min p q ∧ max p q ≤ hi) →
      ∃ o, cell? out y x = some (fin o) ∧ lo ≤ o ∧ o ≤ hi := by
  obtain ⟨out, h1, -, h3⟩ := c36_fill_missing hY v h
  refine ⟨out, h1, fun y hy x hx c hc hci hex lo hi hb => ?_⟩
  obtain ⟨c', o, e1, e2, -, e4⟩ := h3 y hy x hx
  rw [hc] at e1; cases e1
  obtain ⟨g1, g2, g3, -⟩ := e4 hci
  have bd : ∀ p q r, Gap (rowOf v y) x p q r ∨ Gap (colOf v x) y p q r → lo ≤ r ∧ r ≤ hi := by
    intro p q r hg
    obtain ⟨b1, b2⟩ := hb p q r hg
    have : min p q ≤ r ∧ r ≤ max p q := by rcases hg with hg | hg <;> exact gap_between hg
    exact ⟨b1.trans this.1, this.2.trans b2⟩
  by_cases hr : ∃ p q r, Gap (rowOf v y) x p q r
  · obtain ⟨p, q, r, hr⟩ := hr
    by_cases hs : ∃ p q s, Gap (colOf v x) y p q s
    · obtain ⟨p', q', s, hs⟩ := hs
      have b1 := bd _ _ _ (Or.inl hr)
      have b2 := bd _ _ _ (Or.inr hs)
      exact ⟨_, by rw [e2, g1 _ _ _ _ _ _ hr hs], by linarith, by linarith⟩
    · push Not at hs
      have b1 := bd _ _ _ (Or.inl hr)
      exact ⟨r, by rw [e2, g2 _ _ _ hr hs], b1⟩
  · push Not at hr
    obtain ⟨p, q, r, hg⟩ := hex
    rcases hg with hg | hg
    · exact absurd hg (hr p q r)
    · exact ⟨r, by rw [e2, g3 _ _ _ hg hr], bd _ _ _ (Or.inr hg)⟩

/-- C36: a field with a gap in a row and in a column; the corner values stay. -/
example : fillMissing ([[fin 0, nan, fin 4], [nan, nan, fin 1], [fin 2, fin 3, nan]] : List (List (Fl ℚ)))
    = ok [[fin 0, fin 2, fin 4], [fin 1, nan, fin 1], [fin 2, fin 3, nan]] := by decide +kernel
example : Gap (rowOf ([[fin 0, nan, fin 4]] : List (List (Fl ℚ))) 0) 1 0 4 2 :=
  ⟨0, 2, by decide, by decide, rfl, rfl, fun k w h1 h2 h3 => by
    obtain rfl : k = 1 := by omega
    cases h3; rfl, by norm_num⟩

/-- C36 remark: an empty field is read outside. -/
theorem c36_empty : fillMissing ([] : List (List (Fl K))) = ub := rfl

/-- **C37** is false: a missing value before the first valid value of its row (and alone in its column) is not filled. -/
theorem c37_counterexample : fillMissing ([[nan, fin 1, nan]] : List (List (Fl ℚ))) = ok [[nan, fin 1, nan]] := by decide +kernel

/-- **C37** (what does hold). Missing from C37: cells outside all gaps stay missing. Exactly the missing cells with no valid
value on both sides in the row and none on both sides in the column are still missing. -/
theorem c37_partial {Y X : Nat} (hY : 0 < Y) (v : List (List (Fl K))) (h : Rect Y X v) :
    ∃ out, fillMissing v = ok out ∧ Rect Y X out ∧ ∀ y < Y, ∀ x < X, ∃ c o, cell? v y x = some c ∧ cell? out y x = some o ∧
      (o.isValid = true ↔ c.isValid = true ∨
        (∃ a b p q, a < x ∧ x < b ∧ cell? v y a = some (fin p) ∧ cell? v y b = some (fin q)) ∨
        (∃ a b p q, a < y ∧ y < b ∧ cell? v a x = some (fin p) ∧ cell? v b x = some (fin q))) := by
  obtain ⟨out, h1, h2, h3⟩ := c36_fill_missing hY v h
  refine ⟨out, h1, h2, fun y hy x hx => ?_⟩
  obtain ⟨c, o, e1, e2, e3, e4⟩ := h3 y hy x hx
  refine ⟨c, o, e1, e2, ?_⟩
  -- two valid values on both sides give a gap around a missing position
  have mk : ∀ (line : Nat → Option (Fl K)) (z : Nat) (w : Fl K), line z = some w → w.isValid = false →
      (∀ k, (∃ v, line k = some v) → ∀ j, j < k → ∃ v, line j = some v) →
      (∃ a b p q, a < z ∧ z < b ∧ line a = some (fin p) ∧ line b = some (fin q)) → ∃ p q r, Gap line z p q r := by
    classical
    rintro line z w hz hw hdown ⟨a, b, p, q, ha, hb, hpa, hqb⟩
    -- the nearest valid position to the right
    have hex : ∃ b', z < b' ∧ ∃ q, line b' = some (fin q) := ⟨b, hb, q, hqb⟩
    obtain ⟨hb1, q', hb2⟩ := Nat.find_spec hex
    have hbmin : ∀ k, k < Nat.find hex → ¬ (z < k ∧ ∃ q, line k = some (fin q)) := fun k hk => Nat.find_min hex hk
    -- the nearest valid position to the left
    have hexa : ∃ d, d < z ∧ ∃ p, line (z - 1 - d) = some (fin p) :=
      ⟨z - 1 - a, by omega, p, by rw [show z - 1 - (z - 1 - a) = a by omega]; exact hpa⟩
    obtain ⟨ha1, p', ha2⟩ := Nat.find_spec hexa
    have hamin : ∀ k, k < Nat.find hexa → ¬ (k < z ∧ ∃ p, line (z - 1 - k) = some (fin p)) := fun k hk => Nat.find_min hexa hk
    refine ⟨p', q', _, z - 1 - Nat.find hexa, Nat.find hex, by omega, hb1, ha2, hb2, fun k u k1 k2 hk => ?_, rfl⟩
    cases u with
    | fin u =>
      exfalso
      rcases Nat.lt_trichotomy k z with hl | rfl | hl
      · exact hamin (z - 1 - k) (by omega) ⟨by omega, u, by rw [show z - 1 - (z - 1 - k) = k by omega]; exact hk⟩
      · rw [hz] at hk; cases hk; cases hw
      · exact hbmin k k2 ⟨hl, u, hk⟩
    | _ => rfl
  cases hv : c.isValid with
  | true => simp [e3 hv, hv]
  | false =>
    simp only [Bool.false_eq_true, false_or]
    obtain ⟨g1, g2, g3, g4⟩ := e4 hv
    have hrow : (∃ p q r, Gap (rowOf v y) x p q r) ↔ ∃ a b p q, a < x ∧ x < b ∧ cell? v y a = some (fin p) ∧ cell? v y b = some (fin q) := by
      constructor
      · rintro ⟨p, q, r, a, b, k1, k2, k3, k4, -⟩; exact ⟨a, b, p, q, k1, k2, k3, k4⟩
      · refine mk (rowOf v y) x c e1 hv fun k ⟨u, hu⟩ j hj => ?_
        obtain ⟨h1, h2⟩ := cell?_lt h hu
        exact h.cell?_some h1 (by omega)
    have hcol : (∃ p q r, Gap (colOf v x) y p q r) ↔ ∃ a b p q, a < y ∧ y < b ∧ cell? v a x = some (fin p) ∧ cell? v b x = some (fin q) := by
      constructor
      · rintro ⟨p, q, r, a, b, k1, k2, k3, k4, -⟩; exact ⟨a, b, p, q, k1, k2, k3, k4⟩
      · refine mk (colOf v x) y c e1 hv fun k ⟨u, hu⟩ j hj => ?_
        obtain ⟨h1, h2⟩ := cell?_lt h hu
        exact h.cell?_some (by omega) h2
    rw [← hrow, ← hcol]
    by_cases hr : ∃ p q r, Gap (rowOf v y) x p q r
    · refine iff_of_true ?_ (Or.inl hr)
      obtain ⟨p, q, r, hr⟩ := hr
      by_cases hs : ∃ p q s, Gap (colOf v x) y p q s
      · obtain ⟨p', q', s, hs⟩ := hs
        rw [g1 _ _ _ _ _ _ hr hs]; rfl
      · push Not at hs
        rw [g2 _ _ _ hr hs]; rfl
    · by_cases hs : ∃ p q s, Gap (colOf v x) y p q s
      · refine iff_of_true ?_ (Or.inr hs)
        obtain ⟨p', q', s, hs⟩ := hs
        push Not at hr
        rw [g3 _ _ _ hs hr]; rfl
      · refine iff_of_false ?_ (by rintro (h | h); exacts [hr h, hs h])
        push Not at hr hs
        rw [g4 hr hs]; simp

variable [HasGeo K]

/-- Cell `c` of the grid is found by a radius query around the location (la, lo) with the given radius. -/
def InCircle [HasSqrt K] (lats lons : List (List (Fl K))) (type : CoordType) (la lo radius : Fl K) (c : Nat × Nat) : Prop :=
  ∃ p q, convertCoordinates la lo type = ok p ∧ CellAt lats lons type c q ∧ Within p q radius

/-- Cell `(y, x)` is in the circle around one of the points. -/
def Covered [HasSqrt K] (lats lons : List (List (Fl K))) (type : CoordType) (plats plons radii : List (Fl K)) (y x : Nat) : Prop :=
  ∃ (i : Nat) (la lo r : Fl K), plats[i]? = some la ∧ plons[i]? = some lo ∧ radii[i]? = some r ∧ InCircle lats lons type la lo r (y, x)

theorem mem_circle {T : RTree K} (hT : T.Lawful) [LawfulSqrt K] {g : Grid K} {Y X : Nat} {lats lons : List (List (Fl K))} {type : CoordType}
    (hg : BuiltGrid g Y X lats lons type) {la lo : Fl K} (hv : ∃ p, convertCoordinates la lo type = ok p) (radius : Fl K) :
    ∃ l : List (Nat × Nat), g.getNeighbours T la lo radius true = ok l ∧ (∀ c ∈ l, c.1 < Y ∧ c.2 < X) ∧
      ∀ c, c ∈ l ↔ InCircle lats lons type la lo radius c := by
  obtain ⟨p, hp⟩ := hv
  obtain ⟨l, h1, -, -, h4⟩ := grid_within hT hg hp radius
  obtain ⟨hw, rfl, rfl, rfl⟩ := hg.wf
  refine ⟨l, h1, fun c hc => ?_, fun c => ?_⟩
  · obtain ⟨q, hq, -⟩ := (h4 c).mp hc
    exact hw.cellAt_lt hq
  · rw [h4]
    constructor
    · rintro ⟨q, a, b⟩; exact ⟨p, q, hp, a, b⟩
    · rintro ⟨p', q, a, b, c⟩; rw [hp] at a; cases a; exact ⟨q, b, c⟩

theorem getElem?_of_len {α : Type} {l : List α} {n i : Nat} (h : l.length = n) (hi : i < n) : ∃ a, l[i]? = some a := by
  subst h; exact ⟨l[i], List.getElem?_eq_getElem hi⟩

/-- **C38**. `fill` sets exactly the cells found by the radius queries to `value` and keeps the others; with
`outside = true` it keeps exactly those cells and sets the others. -/
theorem c38_fill {T : RTree K} (hT : T.Lawful) [LawfulSqrt K] {g : Grid K} {Y X : Nat} {lats lons : List (List (Fl K))} {type : CoordType}
    (hg : BuiltGrid g Y X lats lons type) {P : Points K} {plats plons : List (Fl K)} {ptype : CoordType}
    (hP : BuiltPoints P plats plons ptype) (hv : PointsValidIn type plats plons) (input : List (List (Fl K))) (hi : Rect Y X input)
    (radii : List (Fl K)) (hr : radii.length = plats.length) (hr0 : ∀ r ∈ radii, r.lt 0 = false) (value : Fl K) (outside : Bool) :
    ∃ out, fill T g input P radii value outside = ok out ∧ Rect Y X out ∧ ∀ y < Y, ∀ x < X,
      (Covered lats lons type plats plons radii y x → cell? out y x = if outside then cell? input y x else some value) ∧
      (¬ Covered lats lons type plats plons radii y x → cell? out y x = if outside then some value else cell? input y x) := by
  obtain ⟨e1, e2, -, -, -, -, e7⟩ := hP.wf
  have hinit : Rect Y X (if outside then input.map fun r => List.replicate r.length value else input) ∧
      ∀ y < Y, ∀ x < X, cell? (if outside then input.map fun r => List.replicate r.length value else input) y x =
        if outside then some value else cell? input y x := by
    cases outside with
    | false => exact ⟨hi, fun y _ x _ => rfl⟩
    | true =>
      simp only [if_true]
      refine ⟨⟨by simp [hi.1], ?_⟩, fun y hy x hx => ?_⟩
      · intro r hr'
        obtain ⟨r0, h1, rfl⟩ := List.mem_map.mp hr'
        simpa using hi.2 r0 h1
      · have hy' : y < input.length := by rw [hi.1]; exact hy
        have := hi.row_length hy'
        simp [cell?, hy', this, hx]
  obtain ⟨out, h1, h2, h3⟩ := foldPaint_ok (step := fillPoint T g input P radii value outside)
    (cov := fun i y x => ∃ la lo r, plats[i]? = some la ∧ plons[i]? = some lo ∧ radii[i]? = some r ∧ InCircle lats lons type la lo r (y, x))
    (val := fun _ y x => if outside then cell? input y x else some value) (Y := Y) (X := X) plats.length (by
      intro i hilt o ho
      obtain ⟨la, a1⟩ := getElem?_of_len rfl hilt
      obtain ⟨lo, a2⟩ := getElem?_of_len e7 hilt
      obtain ⟨r, a3⟩ := getElem?_of_len hr hilt
      obtain ⟨l, b1, b2, b3⟩ := mem_circle hT hg (hv i la lo a1 a2) r
      obtain ⟨o', c1, c2, c3⟩ := paint_ok (f := fillValue input value outside)
        (w := fun y x => if outside then cell? input y x else some value) (Y := Y) (X := X) l (fun c hc => by
          obtain ⟨h1, h2⟩ := b2 c hc
          refine ⟨h1, h2, ?_⟩
          unfold fillValue
          cases outside with
          | false => rfl
          | true =>
            obtain ⟨u, u1, u2⟩ := vget2_of_rect hi h1 h2
            simp [u1, u2]) ho
      refine ⟨o', ?_, c2, fun y hy x hx => ⟨fun hc => ?_, fun hc => ?_⟩⟩
      · unfold fillPoint
        rw [e1, e2, vget_nat_eq_ok.mpr a1, ok_bind, vget_nat_eq_ok.mpr a2, ok_bind, vget_nat_eq_ok.mpr a3, ok_bind, b1, ok_bind, c1]
      · obtain ⟨la', lo', r', k1, k2, k3, k4⟩ := hc
        rw [a1] at k1; rw [a2] at k2; rw [a3] at k3
        cases k1; cases k2; cases k3
        have hw : ∃ u, (if outside then cell? input y x else some value) = some u := by
          cases outside with
          | false => exact ⟨value, rfl⟩
          | true => exact hi.cell?_some hy hx
        obtain ⟨u, hu⟩ := hw
        rw [hu]
        exact (c3 y x).1 u ((b3 _).mpr k4) hu
      · refine (c3 y x).2 (Or.inl fun hm => hc ⟨la, lo, r, a1, a2, a3, (b3 _).mp hm⟩)) hinit.1
  refine ⟨out, ?_, h2, fun y hy x hx => ⟨fun hc => ?_, fun hc => ?_⟩⟩
  · unfold fill
    have hs : P.size = plats.length := by unfold Points.size; rw [e1]
    simp only [compatibleSizeG2_rect hg.wf.1 hi, ok_bind, Bool.true_eq_false, if_false, hs]
    rw [if_neg (by omega), if_neg (by simpa using hr0)]
    exact h1
  · -- the last covering point
    obtain ⟨i, la, lo, r, k1, k2, k3, k4⟩ := hc
    have hex : ∃ i, i < plats.length ∧ ∃ la lo r, plats[i]? = some la ∧ plons[i]? = some lo ∧ radii[i]? = some r ∧
        InCircle lats lons type la lo r (y, x) := ⟨i, (List.getElem?_eq_some_iff.mp k1).1, la, lo, r, k1, k2, k3, k4⟩
    obtain ⟨j, hj⟩ := exists_lastCover hex
    exact (h3 y hy x hx).1 j hj
  · rw [(h3 y hy x hx).2 (fun i hi ⟨la, lo, r, k⟩ => hc ⟨i, la, lo, r, k⟩)]
    exact hinit.2 y hy x hx

/-- **C38** (errors). A number of radii different from the number of points, a negative radius, or a field whose first row
or number of rows does not fit the grid is rejected. -/
theorem c38_throws (T : RTree K) [HasSqrt K] {g : Grid K} {Y X : Nat} {lats lons : List (List (Fl K))} {type : CoordType}
    (hg : BuiltGrid g Y X lats lons type) (P : Points K) (input : List (List (Fl K))) (radii : List (Fl K)) (value : Fl K) (outside : Bool)
    (h : P.size ≠ radii.length ∨ (∃ r ∈ radii, r.lt 0 = true) ∨
      (∃ r t, input = r :: t ∧ (input.length ≠ Y ∨ r.length ≠ X))) :
    fill T g input P radii value outside = .throw .invalidArgument := by
  have hc : compatibleSizeG2 g input = ok true ∨ compatibleSizeG2 g input = ok false := by
    cases input with
    | nil => exact Or.inl rfl
    | cons r t =>
      simp only [compatibleSizeG2, hg.wf.1.size, ok_bind]
      cases (decide (Y = (r :: t).length) && decide (X = r.length)) <;> simp
  unfold fill
  rcases hc with hc | hc <;> rw [hc]
  · simp only [ok_bind, Bool.true_eq_false, if_false]
    rcases h with h | ⟨r, h1, h2⟩ | ⟨r, t, rfl, h⟩
    · rw [if_pos h]
    · by_cases h' : P.size ≠ radii.length
      · rw [if_pos h']
      · rw [if_neg h', if_pos (List.any_eq_true.mpr ⟨r, h1, h2⟩)]
    · simp only [compatibleSizeG2, hg.wf.1.size, ok_bind] at hc
      injection hc with hc
      simp only [Bool.and_eq_true, decide_eq_true_eq] at hc
      omega
  · simp

/-- C38: a row of three cells, one circle around the middle one. -/
example : (do let g ← Grid.new [[fin (0 : ℚ), fin 0, fin 0]] [[fin 0, fin 10, fin 20]] [] [] .cartesian
              let p ← Points.new [fin 0] [fin 11] [] [] .cartesian
              let a ← fill RTree.scan g [[fin 1, fin 2, fin 3]] p [fin 5] (fin 9) false
              let b ← fill RTree.scan g [[fin 1, fin 2, fin 3]] p [fin 5] (fin 9) true
              ok (a, b)) = ok ([[fin 1, fin 9, fin 3]], [[fin 9, fin 2, fin 9]]) := by decide +kernel

/-- C38 remark: an empty field passes the size check of a non-empty grid and is then written outside. -/
theorem c38_empty_input_writes_outside :
    (do let g ← Grid.new [[fin (0 : ℚ), fin 0, fin 0]] [[fin 0, fin 10, fin 20]] [] [] .cartesian
        let p ← Points.new [fin 0] [fin 11] [] [] .cartesian
        fill RTree.scan g [] p [fin 5] (fin 9) false) = ub := by decide +kernel

/-- The elevation difference is at most `maxElevDiff`. No check if `maxElevDiff` is missing. -/
def ElevNear (maxElevDiff e ie : Fl K) : Prop := maxElevDiff.isValid = false ∨ (e - ie).abs.gt maxElevDiff = false

/-- Meaning of `ElevNear`; a missing elevation counts as near. -/
theorem elevNear_spec (m e ie : K) : (ElevNear (fin m) (fin e) (fin ie) ↔ |e - ie| ≤ m) ∧
    (∀ a : Fl K, ElevNear (fin m) nan a ∧ ElevNear (fin m) a nan ∧ ElevNear nan a a) := by
  constructor
  · simp [ElevNear, Fl.abs]
  · intro a
    simp [ElevNear, Fl.abs]

theorem dopeValue_ok {g : Grid K} {Y X : Nat} {lats lons : List (List (Fl K))} {type : CoordType} (hg : BuiltGrid g Y X lats lons type)
    {P : Points K} {plats plons : List (Fl K)} {ptype : CoordType} (hP : BuiltPoints P plats plons ptype) (maxElevDiff curr : Fl K)
    {i y x : Nat} (hi : i < plats.length) (hy : y < Y) (hx : x < X) :
    ∃ e ie w, P.elevs[i]? = some e ∧ cell? g.elevs y x = some ie ∧
      dopeValue g.elevs P.elevs maxElevDiff curr (i : Int) (y : Int) (x : Int) = ok w ∧
      (ElevNear maxElevDiff e ie → w = some curr) ∧ (¬ ElevNear maxElevDiff e ie → w = none) := by
  have hel : P.elevs.length = plats.length := by
    obtain ⟨e, l, hp⟩ := hP
    exact (Points.new_ok hp).2.2.1
  obtain ⟨e, he⟩ := getElem?_of_len hel hi
  obtain ⟨ie, hie, hie'⟩ := vget2_of_rect hg.wf.1.elevs hy hx
  unfold dopeValue ElevNear
  cases hm : maxElevDiff.isValid with
  | false => exact ⟨e, ie, _, he, hie, rfl, fun _ => rfl, fun h => absurd (Or.inl rfl) h⟩
  | true =>
    simp only [if_true, vget_nat_eq_ok.mpr he, hie', ok_bind]
    refine ⟨e, ie, _, he, hie, rfl, fun h => ?_, fun h => ?_⟩
    · rcases h with h | h
      · cases h
      · rw [if_neg (by rw [h]; simp)]
    · rw [if_pos (by by_contra hc; exact h (Or.inr (by simpa using hc)))]

/-- Observation `i` is close enough in elevation to cell `(y, x)`. -/
def ObsNear (g : Grid K) (P : Points K) (maxElevDiff : Fl K) (i y x : Nat) : Prop :=
  ∃ e ie, P.elevs[i]? = some e ∧ cell? g.elevs y x = some ie ∧ ElevNear maxElevDiff e ie

/-- One observation of a doping function. -/
theorem dope_point [HasSqrt K] {g : Grid K} {Y X : Nat} {lats lons : List (List (Fl K))} {type : CoordType} (hg : BuiltGrid g Y X lats lons type)
    {P : Points K} {plats plons : List (Fl K)} {ptype : CoordType} (hP : BuiltPoints P plats plons ptype) (maxElevDiff curr : Fl K)
    {i : Nat} (hi : i < plats.length) (l : List (Nat × Nat)) (hl : ∀ c ∈ l, c.1 < Y ∧ c.2 < X) {o : List (List (Fl K))} (ho : Rect Y X o) :
    ∃ o', paint (dopeValue g.elevs P.elevs maxElevDiff curr (i : Int)) o (intCells l) = ok o' ∧ Rect Y X o' ∧ ∀ y < Y, ∀ x < X,
      (((y, x) ∈ l ∧ ObsNear g P maxElevDiff i y x) → cell? o' y x = some curr) ∧
      (¬ ((y, x) ∈ l ∧ ObsNear g P maxElevDiff i y x) → cell? o' y x = cell? o y x) := by
  classical
  obtain ⟨o', c1, c2, c3⟩ := paint_ok (f := dopeValue g.elevs P.elevs maxElevDiff curr (i : Int))
    (w := fun y x => if ObsNear g P maxElevDiff i y x then some curr else none) (Y := Y) (X := X) l (fun c hc => by
      obtain ⟨h1, h2⟩ := hl c hc
      refine ⟨h1, h2, ?_⟩
      obtain ⟨e, ie, w, k1, k2, k3, k4, k5⟩ := dopeValue_ok hg hP maxElevDiff curr hi h1 h2
      rw [k3]
      congr 1
      by_cases hn : ElevNear maxElevDiff e ie
      · rw [if_pos ⟨e, ie, k1, k2, hn⟩]; exact k4 hn
      · rw [if_neg]
        · exact k5 hn
        · rintro ⟨e', ie', q1, q2, q3⟩
          rw [k1] at q1; rw [k2] at q2; cases q1; cases q2
          exact hn q3) ho
  refine ⟨o', c1, c2, fun y hy x hx => ⟨fun hc => ?_, fun hc => ?_⟩⟩
  · exact (c3 y x).1 curr hc.1 (by rw [if_pos hc.2])
  · refine (c3 y x).2 ?_
    by_cases hm : (y, x) ∈ l
    · exact Or.inr (if_neg fun hn => hc ⟨hm, hn⟩)
    · exact Or.inl hm

/-- **C39** (`doping_circle`). A cell keeps the background unless it lies in the circle of an observation that is close
enough in elevation; then it takes the value of the last such observation. -/
theorem c39_circle {T : RTree K} (hT : T.Lawful) [LawfulSqrt K] {g : Grid K} {Y X : Nat} {lats lons : List (List (Fl K))} {type : CoordType}
    (hg : BuiltGrid g Y X lats lons type) {P : Points K} {plats plons : List (Fl K)} {ptype : CoordType}
    (hP : BuiltPoints P plats plons ptype) (hv : PointsValidIn type plats plons) (bg : List (List (Fl K))) (hb : Rect Y X bg)
    (obs : List (Fl K)) (ho : obs.length = plats.length)
    (radii : List (Fl K)) (hr : radii.length = plats.length) (hr0 : ∀ r ∈ radii, r.lt 0 = false) (m : Fl K) (hm : m.lt 0 = false) :
    ∃ out, dopingCircle T g bg P obs radii m = ok out ∧ Rect Y X out ∧ ∀ y < Y, ∀ x < X,
      ∀ cov : Nat → Prop, (∀ i, cov i ↔ ∃ la lo r, plats[i]? = some la ∧ plons[i]? = some lo ∧ radii[i]? = some r ∧
        InCircle lats lons type la lo r (y, x) ∧ ObsNear g P m i y x) →
      (∀ i, cov i → (∀ j, i < j → ¬ cov j) → cell? out y x = obs[i]?) ∧
      ((∀ i, ¬ cov i) → cell? out y x = cell? bg y x) := by
  obtain ⟨e1, e2, -, -, -, -, e7⟩ := hP.wf
  obtain ⟨out, h1, h2, h3⟩ := foldPaint_ok (step := dopeCirclePoint T g P obs radii m)
    (cov := fun i y x => ∃ la lo r, plats[i]? = some la ∧ plons[i]? = some lo ∧ radii[i]? = some r ∧
        InCircle lats lons type la lo r (y, x) ∧ ObsNear g P m i y x)
    (val := fun i _ _ => obs[i]?) (Y := Y) (X := X) plats.length (by
      intro i hilt o hoR
      obtain ⟨la, a1⟩ := getElem?_of_len rfl hilt
      obtain ⟨lo, a2⟩ := getElem?_of_len e7 hilt
      obtain ⟨r, a3⟩ := getElem?_of_len hr hilt
      obtain ⟨u, a4⟩ := getElem?_of_len ho hilt
      obtain ⟨l, b1, b2, b3⟩ := mem_circle hT hg (hv i la lo a1 a2) r
      obtain ⟨o', c1, c2, c3⟩ := dope_point hg hP m u hilt l b2 hoR
      refine ⟨o', ?_, c2, fun y hy x hx => ⟨fun hc => ?_, fun hc => ?_⟩⟩
      · unfold dopeCirclePoint
        rw [e1, e2, vget_nat_eq_ok.mpr a1, ok_bind, vget_nat_eq_ok.mpr a2, ok_bind, vget_nat_eq_ok.mpr a3, ok_bind, b1, ok_bind,
          vget_nat_eq_ok.mpr a4, ok_bind, c1]
      · obtain ⟨la', lo', r', k1, k2, k3, k4, k5⟩ := hc
        rw [a1] at k1; rw [a2] at k2; rw [a3] at k3
        cases k1; cases k2; cases k3
        rw [a4]
        exact (c3 y hy x hx).1 ⟨(b3 _).mpr k4, k5⟩
      · exact (c3 y hy x hx).2 fun hcc => hc ⟨la, lo, r, a1, a2, a3, (b3 _).mp hcc.1, hcc.2⟩) hb
  refine ⟨out, ?_, h2, fun y hy x hx cov hcov => ⟨fun i hi hlast => ?_, fun hno => ?_⟩⟩
  · unfold dopingCircle
    have hs : P.size = plats.length := by unfold Points.size; rw [e1]
    simp only [compatibleSizeG2_rect hg.wf.1 hb, ok_bind, Bool.true_eq_false, if_false, hs]
    rw [if_neg (by omega), if_neg (by omega), if_neg (by rw [hm, Bool.and_false]; exact Bool.false_ne_true), if_neg (by simpa using hr0)]
    exact h1
  · have hi' := (hcov i).mp hi
    refine (h3 y hy x hx).1 i ⟨?_, hi', fun j h1 _ hj => hlast j h1 ((hcov j).mpr hj)⟩
    obtain ⟨la, lo, r, k1, -⟩ := hi'
    exact (List.getElem?_eq_some_iff.mp k1).1
  · exact (h3 y hy x hx).2 fun i _ hc => hno i ((hcov i).mpr hc)

/-- **C39** (`doping_square`). For some nearest cell of every observation: a cell keeps the background unless it lies in the
square around the nearest cell of an observation that is close enough in elevation; then it takes the value of the last such
observation. -/
theorem c39_square {T : RTree K} (hT : T.Lawful) [LawfulSqrt K] {g : Grid K} {Y X : Nat} {lats lons : List (List (Fl K))} {type : CoordType}
    (hg : BuiltGrid g Y X lats lons type) {P : Points K} {plats plons : List (Fl K)} {ptype : CoordType}
    (hP : BuiltPoints P plats plons ptype) (hv : PointsValidIn type plats plons) (bg : List (List (Fl K))) (hb : Rect Y X bg)
    (obs : List (Fl K)) (ho : obs.length = plats.length)
    (hws : List Int) (hr : hws.length = plats.length) (hr0 : ∀ h ∈ hws, 0 ≤ h) (m : Fl K) (hm : m.lt 0 = false) :
    ∃ (near : Nat → Nat × Nat) (out : List (List (Fl K))), dopingSquare T g bg P obs hws m = ok out ∧ Rect Y X out ∧
      (∀ i la lo, plats[i]? = some la → plons[i]? = some lo → NearestCellTo lats lons type la lo (near i)) ∧
      ∀ y < Y, ∀ x < X, ∀ cov : Nat → Prop, (∀ i, cov i ↔ ∃ h, hws[i]? = some h ∧
          |(y : Int) - (near i).1| ≤ h ∧ |(x : Int) - (near i).2| ≤ h ∧ ObsNear g P m i y x) →
        (∀ i, cov i → (∀ j, i < j → ¬ cov j) → cell? out y x = obs[i]?) ∧
        ((∀ i, ¬ cov i) → cell? out y x = cell? bg y x) := by
  obtain ⟨e1, e2, -, -, -, -, e7⟩ := hP.wf
  have hnear : ∀ i : Nat, ∃ c : Nat × Nat, ∀ la lo, plats[i]? = some la → plons[i]? = some lo →
      nearestCell T g la lo = ok c ∧ NearestCellTo lats lons type la lo c := by
    intro i
    by_cases hi : i < plats.length
    · obtain ⟨la, a1⟩ := getElem?_of_len rfl hi
      obtain ⟨lo, a2⟩ := getElem?_of_len e7 hi
      obtain ⟨c, c1, -, -, c2⟩ := nearestCell_to hT hg (hv i la lo a1 a2)
      refine ⟨c, fun la' lo' b1 b2 => ?_⟩
      rw [a1] at b1; rw [a2] at b2; cases b1; cases b2
      exact ⟨c1, c2⟩
    · exact ⟨(0, 0), fun la lo b1 _ => absurd (List.getElem?_eq_some_iff.mp b1).1 hi⟩
  choose near hnear using hnear
  obtain ⟨out, h1, h2, h3⟩ := foldPaint_ok (step := dopeSquarePoint T g (Y, X) P obs hws m)
    (cov := fun i y x => ∃ h, hws[i]? = some h ∧ |(y : Int) - (near i).1| ≤ h ∧ |(x : Int) - (near i).2| ≤ h ∧ ObsNear g P m i y x)
    (val := fun i _ _ => obs[i]?) (Y := Y) (X := X) plats.length (by
      intro i hilt o hoR
      obtain ⟨la, a1⟩ := getElem?_of_len rfl hilt
      obtain ⟨lo, a2⟩ := getElem?_of_len e7 hilt
      obtain ⟨h, a3⟩ := getElem?_of_len hr hilt
      obtain ⟨u, a4⟩ := getElem?_of_len ho hilt
      obtain ⟨l, b1, b3⟩ := squareCells_nat Y X (near i) h
      obtain ⟨o', c1, c2, c3⟩ := dope_point hg hP m u hilt l (fun c hc => ⟨((b3 c).mp hc).1, ((b3 c).mp hc).2.1⟩) hoR
      refine ⟨o', ?_, c2, fun y hy x hx => ⟨fun hc => ?_, fun hc => ?_⟩⟩
      · unfold dopeSquarePoint
        rw [e1, e2, vget_nat_eq_ok.mpr a1, ok_bind, vget_nat_eq_ok.mpr a2, ok_bind, (hnear i la lo a1 a2).1, ok_bind,
          vget_nat_eq_ok.mpr a4, ok_bind, vget_nat_eq_ok.mpr a3, ok_bind, b1, c1]
      · obtain ⟨h', k1, k2, k3, k4⟩ := hc
        rw [a3] at k1; cases k1
        rw [a4]
        exact (c3 y hy x hx).1 ⟨(b3 _).mpr ⟨hy, hx, k2, k3⟩, k4⟩
      · exact (c3 y hy x hx).2 fun hcc => hc ⟨h, a3, ((b3 _).mp hcc.1).2.2.1, ((b3 _).mp hcc.1).2.2.2, hcc.2⟩) hb
  refine ⟨near, out, ?_, h2, fun i la lo b1 b2 => (hnear i la lo b1 b2).2, fun y hy x hx cov hcov => ⟨fun i hi hlast => ?_, fun hno => ?_⟩⟩
  · unfold dopingSquare
    have hs : P.size = plats.length := by unfold Points.size; rw [e1]
    simp only [compatibleSizeG2_rect hg.wf.1 hb, hg.wf.1.size, ok_bind, Bool.true_eq_false, if_false, hs]
    rw [if_neg (by omega), if_neg (by omega), if_neg (by rw [hm, Bool.and_false]; exact Bool.false_ne_true), if_neg (by simpa using hr0)]
    exact h1
  · have hi' := (hcov i).mp hi
    refine (h3 y hy x hx).1 i ⟨?_, hi', fun j h1 _ hj => hlast j h1 ((hcov j).mpr hj)⟩
    obtain ⟨h, k1, -⟩ := hi'
    rw [← hr]
    exact (List.getElem?_eq_some_iff.mp k1).1
  · exact (h3 y hy x hx).2 fun i _ hc => hno i ((hcov i).mpr hc)

/-- **C39** (errors). -/
theorem c39_throws (T : RTree K) [HasSqrt K] {g : Grid K} {Y X : Nat} {lats lons : List (List (Fl K))} {type : CoordType}
    (hg : BuiltGrid g Y X lats lons type) (P : Points K) (bg : List (List (Fl K))) (hb : Rect Y X bg) (obs radii : List (Fl K)) (hws : List Int) (m : Fl K) :
    (P.size ≠ obs.length ∨ P.size ≠ radii.length ∨ m.lt 0 = true ∨ (∃ r ∈ radii, r.lt 0 = true) →
      (m.isValid = true ∨ m.lt 0 = false) → dopingCircle T g bg P obs radii m = .throw .invalidArgument) ∧
    (P.size ≠ obs.length ∨ P.size ≠ hws.length ∨ m.lt 0 = true ∨ (∃ h ∈ hws, h < 0) →
      (m.isValid = true ∨ m.lt 0 = false) → dopingSquare T g bg P obs hws m = .throw .invalidArgument) := by
  constructor
  · intro h hmv
    unfold dopingCircle
    simp only [compatibleSizeG2_rect hg.wf.1 hb, ok_bind, Bool.true_eq_false, if_false]
    split_ifs with h1 h2 h3 h4
    all_goals first | rfl | skip
    exfalso
    rcases h with h | h | h | h
    · exact h1 h
    · exact h2 h
    · rcases hmv with hv | hv
      · exact h3 (by rw [hv, h]; rfl)
      · rw [h] at hv; cases hv
    · exact h4 (List.any_eq_true.mpr h)
  · intro h hmv
    unfold dopingSquare
    simp only [compatibleSizeG2_rect hg.wf.1 hb, hg.wf.1.size, ok_bind, Bool.true_eq_false, if_false]
    split_ifs with h1 h2 h3 h4
    all_goals first | rfl | skip
    exfalso
    rcases h with h | h | h | ⟨a, h5, h6⟩
    · exact h1 h
    · exact h2 h
    · rcases hmv with hv | hv
      · exact h3 (by rw [hv, h]; rfl)
      · rw [h] at hv; cases hv
    · exact h4 (List.any_eq_true.mpr ⟨a, h5, by simpa using h6⟩)

/-- C39: the second observation wins where both apply; the last cell is too high. -/
example : (do let g ← Grid.new [[fin (0 : ℚ), fin 0, fin 0, fin 0]] [[fin 0, fin 10, fin 20, fin 30]] [[fin 0, fin 0, fin 0, fin 900]] [] .cartesian
              let p ← Points.new [fin 0, fin 0] [fin 1, fin 21] [fin 0, nan] [] .cartesian
              let a ← dopingSquare RTree.scan g [[fin 1, fin 2, fin 3, fin 4]] p [fin 50, fin 60] [1, 1] (fin 100)
              let b ← dopingCircle RTree.scan g [[fin 1, fin 2, fin 3, fin 4]] p [fin 50, fin 60] [fin 100, fin 5] (fin 100)
              ok (a, b)) = ok ([[fin 50, fin 60, fin 60, fin 60]], [[fin 50, fin 50, fin 60, fin 4]]) := by decide +kernel

end Gridpp.Props
