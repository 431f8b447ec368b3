import Verif.Model.Fill
import Verif.Lemmas.Nearest

/-! Lemmas for fill.cpp and doping.cpp. -/

set_option linter.unusedSectionVars false

namespace Gridpp
open Fl Res

theorem upto_succ_last (n : Nat) : upto (n + 1) = upto n ++ [(n : Int)] := by
  simp [upto, List.range_succ]

theorem vset_nat {α : Type} {v : List α} {i : Nat} (a : α) (h : i < v.length) : vset v (i : Int) a = ok (v.set i a) := by
  unfold vset
  rw [if_neg (by omega), Int.toNat_natCast, if_pos h]

theorem vset2_rect {α : Type} {Y X : Nat} {a : List (List α)} (h : Rect Y X a) {y x : Nat} (hy : y < Y) (hx : x < X) (v : α) :
    ∃ a', vset2 a (y : Int) (x : Int) v = ok a' ∧ Rect Y X a' ∧
      ∀ y' x', cell? a' y' x' = if y' = y ∧ x' = x then some v else cell? a y' x' := by
  have hy' : y < a.length := by rw [h.1]; exact hy
  have hr := h.row_length hy'
  refine ⟨a.set y (a[y].set x v), ?_, ⟨by simp [h.1], ?_⟩, ?_⟩
  · unfold vset2
    rw [vget_eq_ok_of_lt hy', ok_bind, vset_nat v (by rw [hr]; exact hx), ok_bind, vset_nat _ hy']
  · intro r hr'
    rcases List.mem_or_eq_of_mem_set hr' with h1 | h1
    · exact h.2 r h1
    · rw [h1, List.length_set, hr]
  · intro y' x'
    unfold cell?
    rw [List.getElem?_set]
    by_cases e : y = y'
    · subst e
      rw [if_pos rfl, if_pos hy', List.getElem?_eq_getElem hy']
      simp only [Option.bind_some]
      rw [List.getElem?_set]
      by_cases e2 : x = x'
      · subst e2
        rw [if_pos rfl, if_pos (by rw [hr]; exact hx)]; simp
      · rw [if_neg e2, if_neg (fun hc => e2 hc.2.symm)]
    · rw [if_neg e, if_neg (fun hc => e hc.1.symm)]

section line
variable {K : Type} [Field K] [LinearOrder K] [IsStrictOrderedRing K]

theorem fillNext_ok {get : Int → Res (Fl K)} {f : Nat → Fl K} {n : Nat} (hg : ∀ k < n, get (k : Int) = ok (f k)) :
    ∀ fuel x : Nat, x + fuel = n → ∃ m : Nat, fillNext get fuel (x : Int) = ok (m : Int) ∧ x ≤ m ∧ m ≤ n ∧
      (∀ k, x ≤ k → k < m → (f k).isValid = false) ∧ (m < n → (f m).isValid = true) := by
  intro fuel
  induction fuel with
  | zero => intro x hx; exact ⟨x, rfl, le_refl _, by omega, fun k h1 h2 => by omega, fun h => by omega⟩
  | succ fuel ih =>
    intro x hx
    unfold fillNext
    rw [hg x (by omega), ok_bind]
    by_cases hv : (f x).isValid = true
    · rw [if_pos hv]
      exact ⟨x, rfl, le_refl _, by omega, fun k h1 h2 => by omega, fun _ => hv⟩
    · rw [if_neg hv]
      obtain ⟨m, h1, h2, h3, h4, h5⟩ := ih (x + 1) (by omega)
      refine ⟨m, by rw [← h1]; push_cast; rfl, by omega, h3, fun k hk1 hk2 => ?_, h5⟩
      rcases Nat.eq_or_lt_of_le hk1 with rfl | hlt
      · simpa using hv
      · exact h4 k hlt hk2

/-- `a < x < b` are the closest positions with a valid value on both sides of `x`. -/
def Bracket (f : Nat → Fl K) (n a x b : Nat) : Prop :=
  a < x ∧ x < b ∧ b < n ∧ (f a).isValid = true ∧ (f b).isValid = true ∧ ∀ k, a < k → k < b → (f k).isValid = false

/-- What one line of `fill_missing` gives at position `x`. -/
def LineValue (f : Nat → Fl K) (n x : Nat) (r : Fl K) : Prop :=
  ((f x).isValid = true → r = f x) ∧
  (∀ a b p q, Bracket f n a x b → f a = fin p → f b = fin q → r = fin (p + (q - p) * ((x : K) - a) / ((b : K) - a))) ∧
  ((f x).isValid = false → (∀ a b, ¬ Bracket f n a x b) → r = nan)

theorem Bracket.unique {f : Nat → Fl K} {n a x b a' b' : Nat} (h : Bracket f n a x b) (h' : Bracket f n a' x b') : a = a' ∧ b = b' := by
  obtain ⟨h1, h2, h3, h4, h5, h6⟩ := h
  obtain ⟨k1, k2, k3, k4, k5, k6⟩ := h'
  constructor
  · by_contra hne
    rcases Nat.lt_or_gt_of_ne hne with hl | hl
    · have := h6 a' hl (by omega); rw [k4] at this; cases this
    · have := k6 a hl (by omega); rw [h4] at this; cases this
  · by_contra hne
    rcases Nat.lt_or_gt_of_ne hne with hl | hl
    · have := k6 b (by omega) hl; rw [h5] at this; cases this
    · have := h6 b' (by omega) hl; rw [k5] at this; cases this

theorem Bracket.invalid {f : Nat → Fl K} {n a x b : Nat} (h : Bracket f n a x b) : (f x).isValid = false := h.2.2.2.2.2 x h.1 h.2.1

/-- The loop invariant after the first `x` positions. -/
def FillInv (f : Nat → Fl K) (n x : Nat) (s : FillState K) : Prop :=
  s.out.length = x ∧ (∀ k < x, ∃ r, s.out[k]? = some r ∧ LineValue f n k r) ∧
  (∃ l : Nat, s.last = l ∧ (((f l).isValid = true ∧ l < x ∧ ∀ k, l < k → k < x → (f k).isValid = false) ∨
    (l = 0 ∧ ∀ k < x, (f k).isValid = false))) ∧
  (s.next < x ∨ ∃ m : Nat, s.next = m ∧ x ≤ m ∧ m ≤ n ∧ (∀ k, x ≤ k → k < m → (f k).isValid = false) ∧ (m < n → (f m).isValid = true))

theorem invalid_gap {v : Fl K} (hv : v.isValid = false) (q : K) {x m : K} (hx : 0 ≤ x) (hm : 0 < m) :
    v + (fin q - v) * fin x / fin m = nan := by
  have hm' : ¬ m < 0 := not_lt.mpr hm.le
  cases v with
  | nan => simp
  | fin a => cases hv
  | pinf =>
    show Fl.add pinf (Fl.div (Fl.mul (Fl.add (fin q) (Fl.neg pinf)) (fin x)) (fin m)) = nan
    simp only [Fl.neg, Fl.add, Fl.mul, infOfSign]
    rcases hx.lt_or_eq with h | h
    · rw [if_neg (by linarith), if_pos (by linarith)]; simp [Fl.div, hm']
    · rw [← h]; simp [Fl.div]
  | ninf =>
    show Fl.add ninf (Fl.div (Fl.mul (Fl.add (fin q) (Fl.neg ninf)) (fin x)) (fin m)) = nan
    simp only [Fl.neg, Fl.add, Fl.mul, infOfSign]
    rcases hx.lt_or_eq with h | h
    · rw [if_pos h]; simp [Fl.div, hm']
    · rw [← h]; simp [Fl.div]

theorem fillStep_inv {get : Int → Res (Fl K)} {f : Nat → Fl K} {n : Nat} (hg : ∀ k < n, get (k : Int) = ok (f k)) {x : Nat} (hx : x < n)
    {s : FillState K} (hs : FillInv f n x s) : ∃ s', fillStep get n s (x : Int) = ok s' ∧ FillInv f n (x + 1) s' := by
  obtain ⟨h1, h2, ⟨l, h3, h4⟩, h5⟩ := hs
  unfold fillStep
  rw [hg x hx, ok_bind]
  have hout : ∀ r, LineValue f n x r → (s.out ++ [r]).length = x + 1 ∧ ∀ k < x + 1, ∃ r', (s.out ++ [r])[k]? = some r' ∧ LineValue f n k r' := by
    intro r hr
    refine ⟨by simp [h1], fun k hk => ?_⟩
    rcases Nat.lt_succ_iff_lt_or_eq.mp hk with hlt | rfl
    · obtain ⟨r', e1, e2⟩ := h2 k hlt
      exact ⟨r', by rw [List.getElem?_append_left (by omega)]; exact e1, e2⟩
    · exact ⟨r, by rw [List.getElem?_append_right (by omega)]; simp [h1], hr⟩
  by_cases hv : (f x).isValid = true
  · rw [hv]
    simp only [Bool.not_true, Bool.false_eq_true, if_false]
    have hlv : LineValue f n x (f x) := ⟨fun _ => rfl, fun a b p q hb => absurd hb.invalid (by rw [hv]; simp),
      fun h => absurd h (by rw [hv]; simp)⟩
    refine ⟨_, rfl, (hout _ hlv).1, (hout _ hlv).2, ⟨x, rfl, Or.inl ⟨hv, by omega, fun k h1 h2 => by omega⟩⟩, ?_⟩
    simp only
    rcases h5 with h | ⟨m, e1, e2, e3, e4, e5⟩
    · left; push_cast; omega
    · rcases Nat.eq_or_lt_of_le e2 with rfl | hlt
      · left; rw [e1]; push_cast; omega
      · exact absurd hv (by rw [e4 x (le_refl _) hlt]; simp)
  · have hv' : (f x).isValid = false := by simpa using hv
    rw [hv']
    simp only [Bool.not_false, if_true]
    have hnext : ∃ m : Nat, fillFind get n s.next (x : Int) = ok (m : Int) ∧
        x ≤ m ∧ m ≤ n ∧ (∀ k, x ≤ k → k < m → (f k).isValid = false) ∧ (m < n → (f m).isValid = true) := by
      unfold fillFind
      by_cases hc : s.next < (x : Int)
      · rw [if_pos hc, Int.toNat_natCast]
        exact fillNext_ok hg _ _ (by omega)
      · rw [if_neg hc]
        rcases h5 with h | ⟨m, e1, e2⟩
        · exact absurd h hc
        · exact ⟨m, by rw [e1], e2⟩
    obtain ⟨m, m1, m2, m3, m4, m5⟩ := hnext
    rw [m1, ok_bind, h3]
    have hgap : ∃ r, fillGap get n (l : Int) (m : Int) (x : Int) = ok r ∧ LineValue f n x r := by
      unfold fillGap
      by_cases hmn : n ≤ m
      · rw [if_pos (by omega)]
        refine ⟨_, rfl, fun h => absurd h hv, fun a b p q hb => ?_, fun _ _ => rfl⟩
        have := m4 b hb.2.1.le (by have := hb.2.2.1; omega)
        rw [hb.2.2.2.2.1] at this; cases this
      · have hmlt : m < n := by omega
        have hxm : x < m := by
          rcases Nat.eq_or_lt_of_le m2 with rfl | h
          · exact absurd (m5 hmlt) hv
          · exact h
        have hln : l < n := by rcases h4 with ⟨-, h, -⟩ | ⟨rfl, -⟩ <;> omega
        rw [if_neg (by omega), hg l hln, ok_bind, hg m hmlt, ok_bind]
        refine ⟨_, rfl, fun h => absurd h hv, ?_, ?_⟩
        · intro a b p q hb hp hq
          rcases h4 with ⟨k1, k2, k3⟩ | ⟨rfl, k2⟩
          · have hB : Bracket f n l x m := ⟨k2, hxm, hmlt, k1, m5 hmlt, fun k a b => by
              by_cases hkx : k < x
              · exact k3 k a hkx
              · exact m4 k (by omega) b⟩
            obtain ⟨rfl, rfl⟩ := hb.unique hB
            have hne : ((b : K) - a) ≠ 0 := by
              have : (a : K) < b := by exact_mod_cast (show a < b by have := hb.1; omega)
              exact sub_ne_zero.mpr this.ne'
            rw [hp, hq]
            simp only [ofInt_def, fin_sub, fin_mul]
            push_cast
            rw [fin_div_of_ne _ hne, fin_add]
          · have := k2 a hb.1
            rw [hb.2.2.2.1] at this; cases this
        · intro _ hno
          rcases h4 with ⟨k1, k2, k3⟩ | ⟨rfl, k2⟩
          · refine absurd ⟨k2, hxm, hmlt, k1, m5 hmlt, fun k a b => ?_⟩ (hno l m)
            by_cases hkx : k < x
            · exact k3 k a hkx
            · exact m4 k (by omega) b
          · obtain ⟨q, hq⟩ := exists_fin_of_valid (m5 hmlt)
            rw [hq]
            simp only [ofInt_def]
            push_cast
            have h0 : (f 0).isValid = false := by
              by_cases hx0 : x = 0
              · rw [← hx0]; exact hv'
              · exact k2 0 (by omega)
            refine invalid_gap h0 q ?_ ?_
            · simp
            · simp; omega
    obtain ⟨r, r1, r2⟩ := hgap
    rw [r1, ok_bind]
    refine ⟨_, rfl, (hout _ r2).1, (hout _ r2).2, ⟨l, rfl, ?_⟩, ?_⟩
    · rcases h4 with ⟨k1, k2, k3⟩ | ⟨rfl, k2⟩
      · refine Or.inl ⟨k1, by omega, fun k a b => ?_⟩
        rcases Nat.lt_succ_iff_lt_or_eq.mp b with h | rfl
        · exact k3 k a h
        · exact hv'
      · refine Or.inr ⟨rfl, fun k hk => ?_⟩
        rcases Nat.lt_succ_iff_lt_or_eq.mp hk with h | rfl
        · exact k2 k h
        · exact hv'
    · simp only
      rcases Nat.eq_or_lt_of_le m2 with rfl | h
      · left; push_cast; omega
      · exact Or.inr ⟨m, rfl, h, m3, fun k a b => m4 k (by omega) b, m5⟩

theorem fillLine_ok {get : Int → Res (Fl K)} {f : Nat → Fl K} {n : Nat} (hg : ∀ k < n, get (k : Int) = ok (f k)) :
    ∃ out, fillLine get n = ok out ∧ out.length = n ∧ ∀ k < n, ∃ r, out[k]? = some r ∧ LineValue f n k r := by
  have key : ∀ x ≤ n, ∃ s, foldM (fillStep get n) ⟨0, -1, []⟩ (upto x) = ok s ∧ FillInv f n x s := by
    intro x
    induction x with
    | zero =>
      intro _
      exact ⟨_, rfl, rfl, fun k hk => by omega, ⟨0, rfl, Or.inr ⟨rfl, fun k hk => by omega⟩⟩, Or.inl (by simp)⟩
    | succ x ih =>
      intro hx
      obtain ⟨s, h1, h2⟩ := ih (by omega)
      obtain ⟨s', h3, h4⟩ := fillStep_inv hg (by omega) h2
      exact ⟨s', by rw [upto_succ_last, foldM_append, h1, ok_bind, foldM_cons, h3]; rfl, h4⟩
  obtain ⟨s, h1, h2⟩ := key n (le_refl n)
  exact ⟨s.out, by unfold fillLine; rw [h1]; rfl, h2.1, h2.2.1⟩

theorem lineValue_dichotomy (f : Nat → Fl K) (n x : Nat) {r : Fl K} (h : LineValue f n x r) :
    ((f x).isValid = true ∧ r = f x) ∨
    (∃ a b p q, Bracket f n a x b ∧ f a = fin p ∧ f b = fin q ∧ r = fin (p + (q - p) * ((x : K) - a) / ((b : K) - a))) ∨
    ((f x).isValid = false ∧ (∀ a b, ¬ Bracket f n a x b) ∧ r = nan) := by
  by_cases hv : (f x).isValid = true
  · exact Or.inl ⟨hv, h.1 hv⟩
  · by_cases hb : ∃ a b, Bracket f n a x b
    · obtain ⟨a, b, hb⟩ := hb
      obtain ⟨p, hp⟩ := exists_fin_of_valid hb.2.2.2.1
      obtain ⟨q, hq⟩ := exists_fin_of_valid hb.2.2.2.2.1
      exact Or.inr (Or.inl ⟨a, b, p, q, hb, hp, hq, h.2.1 a b p q hb hp hq⟩)
    · push Not at hb
      exact Or.inr (Or.inr ⟨by simpa using hv, hb, h.2.2 (by simpa using hv) hb⟩)

end line

section paint
variable {K : Type} [Field K] [LinearOrder K] [IsStrictOrderedRing K] [HasGeo K] [HasSqrt K]

theorem paint_ok {f : Int → Int → Res (Option (Fl K))} {w : Nat → Nat → Option (Fl K)} {Y X : Nat} (cells : List (Nat × Nat))
    (hc : ∀ c ∈ cells, c.1 < Y ∧ c.2 < X ∧ f (c.1 : Int) (c.2 : Int) = ok (w c.1 c.2)) :
    ∀ {out : List (List (Fl K))}, Rect Y X out → ∃ out', paint f out (intCells cells) = ok out' ∧ Rect Y X out' ∧
      ∀ y x, (∀ v, (y, x) ∈ cells → w y x = some v → cell? out' y x = some v) ∧
        (((y, x) ∉ cells ∨ w y x = none) → cell? out' y x = cell? out y x) := by
  induction cells with
  | nil => intro out h; exact ⟨out, rfl, h, fun y x => ⟨fun v hm => absurd hm (by simp), fun _ => rfl⟩⟩
  | cons c t ih =>
    intro out h
    obtain ⟨h1, h2, h3⟩ := hc c (by simp)
    have ih' := @ih fun c' hc' => hc c' (by simp [hc'])
    unfold paint intCells at *
    rw [List.map_cons, foldM_cons]
    simp only [h3, ok_bind]
    cases hw : w c.1 c.2 with
    | none =>
      simp only [ok_bind]
      obtain ⟨out', e1, e2, e3⟩ := ih' h
      refine ⟨out', e1, e2, fun y x => ⟨fun v hm hv => ?_, fun hm => ?_⟩⟩
      · rcases List.mem_cons.mp hm with rfl | hm
        · simp only at hw; rw [hw] at hv; cases hv
        · exact (e3 y x).1 v hm hv
      · refine (e3 y x).2 ?_
        rcases hm with hm | hm
        · exact Or.inl fun hc => hm (by simp [hc])
        · exact Or.inr hm
    | some u =>
      obtain ⟨o1, f1, f2, f3⟩ := vset2_rect h h1 h2 u
      simp only [f1, ok_bind]
      obtain ⟨out', e1, e2, e3⟩ := ih' f2
      refine ⟨out', e1, e2, fun y x => ⟨fun v hm hv => ?_, fun hm => ?_⟩⟩
      · by_cases hmt : (y, x) ∈ t
        · exact (e3 y x).1 v hmt hv
        · rcases List.mem_cons.mp hm with rfl | hm
          · rw [(e3 y x).2 (Or.inl hmt), f3, if_pos ⟨rfl, rfl⟩]
            simp only at hw; rw [hw] at hv; exact hv
          · exact absurd hm hmt
      · have hne : ¬ (y = c.1 ∧ x = c.2) := by
          rintro ⟨rfl, rfl⟩
          rcases hm with hm | hm
          · exact hm (by simp)
          · rw [hw] at hm; cases hm
        rw [(e3 y x).2 (by
          rcases hm with hm | hm
          · exact Or.inl fun hc => hm (by simp [hc])
          · exact Or.inr hm), f3, if_neg hne]

theorem squareCells_nat (Y X : Nat) (index : Nat × Nat) (hw : Int) :
    ∃ l : List (Nat × Nat), squareCells Y X index hw = intCells l ∧
      ∀ c, c ∈ l ↔ c.1 < Y ∧ c.2 < X ∧ |(c.1 : Int) - index.1| ≤ hw ∧ |(c.2 : Int) - index.2| ≤ hw := by
  have hmem : ∀ c, c ∈ squareCells Y X index hw ↔ (max 0 ((index.1 : Int) - hw) ≤ c.1 ∧ c.1 ≤ min ((Y : Int) - 1) (index.1 + hw)) ∧
      (max 0 ((index.2 : Int) - hw) ≤ c.2 ∧ c.2 ≤ min ((X : Int) - 1) (index.2 + hw)) := by
    intro c
    unfold squareCells
    simp only [List.mem_flatMap, List.mem_map, mem_irange]
    constructor
    · rintro ⟨a, h1, b, h2, rfl⟩; exact ⟨h1, h2⟩
    · rintro ⟨h1, h2⟩; exact ⟨c.1, h1, c.2, h2, rfl⟩
  refine ⟨(squareCells Y X index hw).map fun c => (c.1.toNat, c.2.toNat), ?_, fun c => ?_⟩
  · unfold intCells
    rw [List.map_map]
    conv_lhs => rw [← List.map_id (squareCells Y X index hw)]
    refine List.map_congr_left fun c hc => ?_
    have := (hmem c).mp hc
    simp only [id, Function.comp]
    rw [Int.toNat_of_nonneg (by omega), Int.toNat_of_nonneg (by omega)]
  · rw [List.mem_map]
    constructor
    · rintro ⟨d, hd, rfl⟩
      have := (hmem d).mp hd
      simp only [abs_le]
      omega
    · intro h
      simp only [abs_le] at h
      exact ⟨((c.1 : Int), (c.2 : Int)), (hmem _).mpr (by simp only; omega), by simp⟩

/-- `i` is the last of the first `n` items with property `cov`. -/
def LastCover (n : Nat) (cov : Nat → Prop) (i : Nat) : Prop := i < n ∧ cov i ∧ ∀ j, i < j → j < n → ¬ cov j

theorem exists_lastCover {n : Nat} {cov : Nat → Prop} (h : ∃ i, i < n ∧ cov i) : ∃ i, LastCover n cov i := by
  induction n with
  | zero => obtain ⟨i, hi, -⟩ := h; omega
  | succ n ih =>
    by_cases hn : cov n
    · exact ⟨n, by omega, hn, fun j h1 h2 => by omega⟩
    · obtain ⟨i, hi, hc⟩ := h
      have : i < n := by
        rcases Nat.lt_succ_iff_lt_or_eq.mp hi with h | rfl
        · exact h
        · exact absurd hc hn
      obtain ⟨j, j1, j2, j3⟩ := ih ⟨i, this, hc⟩
      refine ⟨j, by omega, j2, fun k h1 h2 => ?_⟩
      rcases Nat.lt_succ_iff_lt_or_eq.mp h2 with h | rfl
      · exact j3 k h1 h
      · exact hn

theorem foldPaint_ok {step : List (List (Fl K)) → Int → Res (List (List (Fl K)))} {cov : Nat → Nat → Nat → Prop}
    {val : Nat → Nat → Nat → Option (Fl K)} {Y X : Nat} (n : Nat)
    (h : ∀ i < n, ∀ out, Rect Y X out → ∃ out', step out (i : Int) = ok out' ∧ Rect Y X out' ∧
      ∀ y < Y, ∀ x < X, (cov i y x → cell? out' y x = val i y x) ∧ (¬ cov i y x → cell? out' y x = cell? out y x)) :
    ∀ {out : List (List (Fl K))}, Rect Y X out → ∃ out', foldM step out (upto n) = ok out' ∧ Rect Y X out' ∧
      ∀ y < Y, ∀ x < X, (∀ i, LastCover n (fun i => cov i y x) i → cell? out' y x = val i y x) ∧
        ((∀ i < n, ¬ cov i y x) → cell? out' y x = cell? out y x) := by
  intro out hout
  induction n with
  | zero => exact ⟨out, rfl, hout, fun y _ x _ => ⟨fun i hi => absurd hi.1 (by omega), fun _ => rfl⟩⟩
  | succ n ih =>
    obtain ⟨o1, e1, e2, e3⟩ := ih fun i hi => h i (by omega)
    obtain ⟨o2, f1, f2, f3⟩ := h n (by omega) o1 e2
    refine ⟨o2, by rw [upto_succ_last, foldM_append, e1, ok_bind, foldM_cons, f1]; rfl, f2, fun y hy x hx => ⟨fun i hi => ?_, fun hno => ?_⟩⟩
    · obtain ⟨i1, i2, i3⟩ := hi
      rcases Nat.lt_succ_iff_lt_or_eq.mp i1 with hlt | rfl
      · rw [(f3 y hy x hx).2 (i3 n hlt (by omega))]
        exact (e3 y hy x hx).1 i ⟨hlt, i2, fun j h1 h2 => i3 j h1 (by omega)⟩
      · exact (f3 y hy x hx).1 i2
    · rw [(f3 y hy x hx).2 (hno n (by omega))]
      exact (e3 y hy x hx).2 fun i hi => hno i (by omega)

end paint
end Gridpp
