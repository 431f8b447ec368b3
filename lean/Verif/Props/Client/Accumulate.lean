import Verif.Lemmas.Client.Series
import Mathlib.Algebra.Order.Ring.Rat
import Mathlib.Algebra.Field.Rat
import Mathlib.Data.Rat.Floor
import Mathlib.Algebra.BigOperators.Fin

/-! # C85: accumulate and deaccumulate -/

set_option linter.unusedSectionVars false

namespace Gridpp.Props
open Fl hiding MV isValid
open Res Client

variable {K : Type} [Field K] [LinearOrder K] [IsStrictOrderedRing K]

/-- What `accumulate` gives for one series `a`, time by time. -/
def accSeries (a : Nat → Fl K) : Nat → Fl K
  | 0 => fin 0
  | t + 1 => if Client.isValid (a (t + 1)) && Client.isValid (accSeries a t) then a (t + 1) + accSeries a t else MV

theorem accumulateAt_ok (Y X E : Nat) (fields accs : List (FieldC K)) (t : Nat) (ht : t < fields.length) (hf : Series Y X E fields)
    (hacc : ∀ y < Y, ∀ x < X, ∀ e < E, ∀ a : Nat → Fl K,
      (∀ i < fields.length, At fields i y x e (a i)) → ∀ i < t, At accs i y x e (accSeries a i)) :
    ∃ f, accumulateAt Y X E fields accs t = ok f ∧ Sized Y X E f ∧ ∀ y < Y, ∀ x < X, ∀ e < E, ∀ a : Nat → Fl K,
      (∀ i < fields.length, At fields i y x e (a i)) → f.get y x e = ok (accSeries a t) := by
  classical
  have hser : ∀ y x e, ∃ a : Nat → Fl K, y < Y → x < X → e < E → ∀ i < fields.length, At fields i y x e (a i) := by
    intro y x e
    by_cases h : y < Y ∧ x < X ∧ e < E
    · have : ∀ i : Nat, ∃ v, i < fields.length → At fields i y x e v := by
        intro i
        by_cases hi : i < fields.length
        · obtain ⟨v, hv⟩ := hf.exists_at hi h.1 h.2.1 h.2.2
          exact ⟨v, fun _ => hv⟩
        · exact ⟨nan, fun h => absurd h hi⟩
      choose a ha using this
      exact ⟨a, fun _ _ _ => ha⟩
    · exact ⟨fun _ => nan, fun h1 h2 h3 => absurd ⟨h1, h2, h3⟩ h⟩
  choose s hs using hser
  obtain ⟨f0, e1, e2, -⟩ := FieldC.new_sized Y X E (MV : Fl K)
  unfold accumulateAt
  rw [e1, ok_bind]
  obtain ⟨out, g1, g2, g3⟩ := forAll_write (Y := Y) (X := X) (E := E) (val := fun y x e => accSeries (s y x e) t)
    (body := fun f y x e =>
      if t = 0 then f.set y x e (fin 0)
      else do
        let pf ← vget accs ((t : Int) - 1)
        let previous ← pf.get y x e
        let cf ← vget fields t
        let current ← cf.get y x e
        if Client.isValid current && Client.isValid previous then f.set y x e (current + previous)
        else f.set y x e MV) (by
      intro f hf' y hy x hx e he
      cases t with
      | zero => simp [accSeries]
      | succ t =>
        rw [if_neg (by omega)]
        obtain ⟨pf, p1, p2⟩ := hacc y hy x hx e he (s y x e) (hs y x e hy hx he) t (by omega)
        obtain ⟨cf, c1, c2⟩ := hs y x e hy hx he (t + 1) ht
        have hv1 : vget accs (((t + 1 : Nat) : Int) - 1) = ok pf := by
          rw [show (((t + 1 : Nat) : Int) - 1) = (t : Int) by push_cast; ring]
          have := List.getElem?_eq_some_iff.mp p1
          obtain ⟨h, rfl⟩ := this
          exact vget_eq_ok_of_lt h
        have hv2 : vget fields ((t + 1 : Nat) : Int) = ok cf := by
          obtain ⟨h, rfl⟩ := List.getElem?_eq_some_iff.mp c1
          exact vget_eq_ok_of_lt h
        rw [hv1, ok_bind, p2, ok_bind, hv2, ok_bind, c2, ok_bind]
        simp only [accSeries]
        split_ifs <;> rfl) f0 e2
  refine ⟨out, g1, g2, fun y hy x hx e he a ha' => ?_⟩
  rw [g3 y hy x hx e he]
  congr 1
  have heq : ∀ i < fields.length, s y x e i = a i := fun i hi => (hs y x e hy hx he i hi).unique (ha' i hi)
  have : ∀ i < fields.length, accSeries (s y x e) i = accSeries a i := by
    intro i
    induction i with
    | zero => intro _; rfl
    | succ i ih => intro hi; simp only [accSeries, heq (i + 1) hi, ih (by omega)]
  exact this t ht

theorem accumulate_ok (Y X E : Nat) (fields : List (FieldC K)) (hf : Series Y X E fields) :
    ∃ out, accumulate Y X E fields = ok out ∧ out.length = fields.length ∧ Series Y X E out ∧
      ∀ y < Y, ∀ x < X, ∀ e < E, ∀ a : Nat → Fl K, (∀ i < fields.length, At fields i y x e (a i)) →
        ∀ t < fields.length, At out t y x e (accSeries a t) := by
  obtain ⟨out, h1, h2, h3, h4⟩ := buildM_exists (n := fields.length) (f := accumulateAt Y X E fields)
    (Q := fun accs => Series Y X E accs ∧ ∀ y < Y, ∀ x < X, ∀ e < E, ∀ a : Nat → Fl K,
      (∀ i < fields.length, At fields i y x e (a i)) → ∀ i < accs.length, At accs i y x e (accSeries a i))
    ⟨by simp [Series], by simp⟩ (by
      intro accs hl ⟨hs, hq⟩
      obtain ⟨f, g1, g2, g3⟩ := accumulateAt_ok Y X E fields accs accs.length hl hf hq
      refine ⟨f, g1, ?_, ?_⟩
      · intro g hg
        rcases List.mem_append.mp hg with hg | hg
        · exact hs g hg
        · rw [List.mem_singleton.mp hg]; exact g2
      · intro y hy x hx e he a ha i hi
        by_cases hi' : i < accs.length
        · obtain ⟨g, p1, p2⟩ := hq y hy x hx e he a ha i hi'
          exact ⟨g, by rw [List.getElem?_append_left hi']; exact p1, p2⟩
        · obtain rfl : i = accs.length := by simp at hi; omega
          exact ⟨f, by simp, g3 y hy x hx e he a ha⟩)
  rw [h2] at h4
  exact ⟨out, h1, h2, h3, h4⟩

theorem accSeries_sum (a : Nat → Fl K) (q : Nat → K) (t : Nat) (ha : ∀ i, 1 ≤ i → i ≤ t → a i = fin (q i) ∧ q i ≠ -999)
    (hs : ∀ j < t, ∑ i ∈ Finset.range j, q (i + 1) ≠ -999) : accSeries a t = fin (∑ i ∈ Finset.range t, q (i + 1)) := by
  induction t with
  | zero => rfl
  | succ t ih =>
    have h1 := ih (fun i h1 h2 => ha i h1 (by omega)) (fun j hj => hs j (by omega))
    obtain ⟨h2, h3⟩ := ha (t + 1) (by omega) le_rfl
    simp only [accSeries, h1, h2, isValid_iff_present.mpr ⟨_, rfl, h3⟩, isValid_iff_present.mpr ⟨_, rfl, hs t (by omega)⟩, Bool.and_self,
      if_true, fin_add, Finset.sum_range_succ]
    rw [add_comm]

theorem accSeries_stays (a : Nat → Fl K) (s t : Nat) (h : ¬ Present (accSeries a s)) (hst : s < t) : accSeries a t = MV := by
  induction t with
  | zero => omega
  | succ t ih =>
    have : ¬ Present (accSeries a t) := by
      by_cases hs : s = t
      · exact hs ▸ h
      · rw [ih (by omega)]; exact not_present_MV
    simp [accSeries, isValid_false_iff.mpr this]

theorem accSeries_missing (a : Nat → Fl K) (i t : Nat) (h1 : 1 ≤ i) (h2 : i ≤ t) (h : ¬ Present (a i)) : accSeries a t = MV := by
  obtain ⟨j, rfl⟩ : ∃ j, i = j + 1 := ⟨i - 1, by omega⟩
  have h3 : accSeries a (j + 1) = MV := by simp [accSeries, isValid_false_iff.mpr h]
  by_cases hs : j + 1 = t
  · rw [← hs, h3]
  · exact accSeries_stays a (j + 1) t (by rw [h3]; exact not_present_MV) (by omega)

/-- **C85** (accumulate, partial). `accumulate` gives at time `t` the sum of the values of the times 1 to `t` (so 0 at the
first time, whose value does not count), missing if one of these is missing. Missing: sums that reach the number that
stands for a missing value on the way, after which everything is missing (last part; `c85_collision`). -/
theorem c85_accumulate_partial (Y X E : Nat) (fields : List (FieldC K)) (hf : Series Y X E fields) :
    ∃ out, accumulate Y X E fields = ok out ∧ out.length = fields.length ∧ Series Y X E out ∧
      ∀ t < fields.length, ∀ y < Y, ∀ x < X, ∀ e < E, ∃ v, At out t y x e v ∧
        (t = 0 → v = fin 0) ∧
        (∀ q : Nat → K, (∀ i, 1 ≤ i → i ≤ t → At fields i y x e (fin (q i)) ∧ q i ≠ -999) →
          (∀ j < t, ∑ i ∈ Finset.range j, q (i + 1) ≠ -999) → v = fin (∑ i ∈ Finset.range t, q (i + 1))) ∧
        (∀ i w, 1 ≤ i → i ≤ t → At fields i y x e w → ¬ Present w → v = MV) ∧
        (∀ q : Nat → K, ∀ s < t, (∀ i, 1 ≤ i → i ≤ s → At fields i y x e (fin (q i)) ∧ q i ≠ -999) →
          (∀ j < s, ∑ i ∈ Finset.range j, q (i + 1) ≠ -999) → ∑ i ∈ Finset.range s, q (i + 1) = -999 → v = MV) := by
  classical
  obtain ⟨out, h1, h2, h3, h4⟩ := accumulate_ok Y X E fields hf
  refine ⟨out, h1, h2, h3, fun t ht y hy x hx e he => ?_⟩
  have : ∀ i : Nat, ∃ v, i < fields.length → At fields i y x e v := by
    intro i
    by_cases hi : i < fields.length
    · obtain ⟨v, hv⟩ := hf.exists_at hi hy hx he
      exact ⟨v, fun _ => hv⟩
    · exact ⟨nan, fun h => absurd h hi⟩
  choose a ha using this
  refine ⟨accSeries a t, h4 y hy x hx e he a ha t ht, ?_, ?_, ?_, ?_⟩
  · rintro rfl; rfl
  · intro q hq hs
    exact accSeries_sum a q t (fun i g1 g2 => ⟨(ha i (by omega)).unique (hq i g1 g2).1, (hq i g1 g2).2⟩) hs
  · intro i w g1 g2 hw hn
    exact accSeries_missing a i t g1 g2 (by rw [(ha i (by omega)).unique hw]; exact hn)
  · intro q s hst hq hs hsum
    refine accSeries_stays a s t ?_ hst
    rw [accSeries_sum a q s (fun i g1 g2 => ⟨(ha i (by omega)).unique (hq i g1 g2).1, (hq i g1 g2).2⟩) hs, hsum]
    exact not_present_MV

/-- **C85** (accumulate, values that are not negative). The whole claim: sum or missing. -/
theorem c85_accumulate_nonneg (Y X E : Nat) (fields : List (FieldC K)) (hf : Series Y X E fields)
    (hpos : ∀ t y x e q, At fields t y x e (fin q) → 0 ≤ q ∨ q = -999) :
    ∃ out, accumulate Y X E fields = ok out ∧ out.length = fields.length ∧ Series Y X E out ∧
      ∀ t < fields.length, ∀ y < Y, ∀ x < X, ∀ e < E, ∃ v, At out t y x e v ∧
        (∀ q : Nat → K, (∀ i, 1 ≤ i → i ≤ t → At fields i y x e (fin (q i)) ∧ q i ≠ -999) → v = fin (∑ i ∈ Finset.range t, q (i + 1))) ∧
        ((∃ i w, 1 ≤ i ∧ i ≤ t ∧ At fields i y x e w ∧ ¬ Present w) → v = MV) := by
  obtain ⟨out, h1, h2, h3, h4⟩ := c85_accumulate_partial Y X E fields hf
  refine ⟨out, h1, h2, h3, fun t ht y hy x hx e he => ?_⟩
  obtain ⟨v, g1, -, g3, g4, -⟩ := h4 t ht y hy x hx e he
  refine ⟨v, g1, fun q hq => g3 q hq ?_, fun ⟨i, w, p1, p2, p3, p4⟩ => g4 i w p1 p2 p3 p4⟩
  intro j hj
  have : 0 ≤ ∑ i ∈ Finset.range j, q (i + 1) := by
    apply Finset.sum_nonneg
    intro i hi
    have hi := Finset.mem_range.mp hi
    obtain ⟨p1, p2⟩ := hq (i + 1) (by omega) (by omega)
    rcases hpos _ _ _ _ _ p1 with h | h
    · exact h
    · exact absurd h p2
  intro hc
  rw [hc] at this
  linarith

/-- With -500, -499 and 5 after the first time the accumulated values are 0, -500, -999 and then missing instead of -994. -/
theorem c85_collision : accumulate 1 1 1 [⟨[(fin 1 : Fl ℚ)], 1, 1, 1⟩, ⟨[fin (-500)], 1, 1, 1⟩, ⟨[fin (-499)], 1, 1, 1⟩, ⟨[fin 5], 1, 1, 1⟩] =
    ok [⟨[fin 0], 1, 1, 1⟩, ⟨[fin (-500)], 1, 1, 1⟩, ⟨[(MV : Fl ℚ)], 1, 1, 1⟩, ⟨[MV], 1, 1, 1⟩] := by decide +kernel

/-- **C85** (deaccumulate). With a window of `w` time steps: missing at the first `w` times, from then on the value minus
the value `w` time steps before, missing if one of these is missing. -/
theorem c85_deaccumulate (Y X E w : Nat) (fields : List (FieldC K)) (hf : Series Y X E fields) :
    ∃ out, deaccumulate Y X E w fields = ok out ∧ out.length = fields.length ∧ Series Y X E out ∧
      ∀ t < fields.length, ∀ y < Y, ∀ x < X, ∀ e < E, ∃ v, At out t y x e v ∧
        (t < w → v = MV) ∧
        (w ≤ t → ∀ p c, At fields (t - w) y x e p → At fields t y x e c →
          (Present p → Present c → v = c - p) ∧ (¬ Present p ∨ ¬ Present c → v = MV)) := by
  obtain ⟨out, h1, h2, h3⟩ := mapM_range_exists (n := fields.length) (f := deaccumulateAt Y X E (w : Int) fields)
    (P := fun t f => Sized Y X E f ∧ ∀ y < Y, ∀ x < X, ∀ e < E, ∃ v, f.get y x e = ok v ∧ (t < w → v = MV) ∧
        (w ≤ t → ∀ p c, At fields (t - w) y x e p → At fields t y x e c →
          (Present p → Present c → v = c - p) ∧ (¬ Present p ∨ ¬ Present c → v = MV))) (by
      intro t ht
      obtain ⟨f0, e1, e2, -⟩ := FieldC.new_sized Y X E (MV : Fl K)
      unfold deaccumulateAt
      rw [e1, ok_bind]
      obtain ⟨g, g1, g2, g3⟩ := forAll_spec (Y := Y) (X := X) (E := E) (body := fun f y x e =>
        if (t : Int) < (w : Int) then f.set y x e MV
        else do
          let pf ← vget fields ((t : Int) - w)
          let previous ← pf.get y x e
          let cf ← vget fields t
          let current ← cf.get y x e
          if Client.isValid current && Client.isValid previous then f.set y x e (current - previous)
          else f.set y x e MV) (P := fun y x e _ u => ∃ v, u = ok v ∧ (t < w → v = MV) ∧
        (w ≤ t → ∀ p c, At fields (t - w) y x e p → At fields t y x e c →
          (Present p → Present c → v = c - p) ∧ (¬ Present p ∨ ¬ Present c → v = MV))) (by
          intro f hf' y hy x hx e he
          by_cases hw : t < w
          · rw [if_pos (by exact_mod_cast hw)]
            obtain ⟨f', p1, p2, p3, p4⟩ := hf'.set hy hx he (MV : Fl K)
            exact ⟨f', p1, p2, ⟨MV, p3, fun _ => rfl, fun h => absurd hw (by omega)⟩, p4⟩
          · rw [if_neg (by exact_mod_cast hw)]
            obtain ⟨pf, a1, a2, a3⟩ := hf.get? (show t - w < fields.length by omega)
            obtain ⟨cf, b1, b2, b3⟩ := hf.get? ht
            obtain ⟨p, hp⟩ := a3.exists_get hy hx he
            obtain ⟨c, hc⟩ := b3.exists_get hy hx he
            rw [show (t : Int) - (w : Int) = ((t - w : Nat) : Int) by omega, a2, ok_bind, hp, ok_bind, b2, ok_bind, hc, ok_bind]
            have hat1 : At fields (t - w) y x e p := ⟨pf, a1, hp⟩
            have hat2 : At fields t y x e c := ⟨cf, b1, hc⟩
            by_cases hv : Present p ∧ Present c
            · rw [isValid_iff_present.mpr hv.1, isValid_iff_present.mpr hv.2]
              obtain ⟨f', p1, p2, p3, p4⟩ := hf'.set hy hx he (c - p)
              refine ⟨f', p1, p2, ⟨_, p3, fun h => absurd h hw, fun _ p' c' h1 h2 => ?_⟩, p4⟩
              rw [← hat1.unique h1, ← hat2.unique h2]
              exact ⟨fun _ _ => rfl, fun h => absurd hv (by tauto)⟩
            · have : (Client.isValid c && Client.isValid p) = false := by
                rw [Bool.and_eq_false_iff, isValid_false_iff, isValid_false_iff]
                tauto
              rw [this]
              obtain ⟨f', p1, p2, p3, p4⟩ := hf'.set hy hx he (MV : Fl K)
              refine ⟨f', p1, p2, ⟨_, p3, fun h => absurd h hw, fun _ p' c' h1 h2 => ?_⟩, p4⟩
              rw [← hat1.unique h1, ← hat2.unique h2]
              exact ⟨fun h1 h2 => absurd ⟨h1, h2⟩ hv, fun _ => rfl⟩) f0 e2
      exact ⟨g, g1, g2, g3⟩)
  refine ⟨out, h1, h2, series_iff.mpr fun t ht => ?_, fun t ht y hy x hx e he => ?_⟩
  · obtain ⟨f, g1, g2, -⟩ := h3 t (by omega)
    exact ⟨f, g1, g2⟩
  · obtain ⟨f, g1, -, g2⟩ := h3 t ht
    obtain ⟨v, g3, g4⟩ := g2 y hy x hx e he
    exact ⟨v, ⟨f, g1, g3⟩, g4⟩

/-- **C85** (negative window). The option is not checked: a negative window reads fields after the last one. -/
theorem c85_negative_window (Y X E : Nat) (w : Int) (fields : List (FieldC K)) (hf : Series Y X E fields) (hT : fields ≠ [])
    (hY : 0 < Y) (hX : 0 < X) (hE : 0 < E) (hw : w < 0) : deaccumulate Y X E w fields = .ub := by
  have hT : 0 < fields.length := List.length_pos_iff.mpr hT
  have hbad : ∀ t : Nat, (fields.length : Int) ≤ t - w → deaccumulateAt Y X E w fields t = .ub := by
    intro t h
    obtain ⟨f0, e1, e2, -⟩ := FieldC.new_sized Y X E (MV : Fl K)
    unfold deaccumulateAt
    rw [e1, ok_bind]
    apply forAll_ub hY hX hE
    obtain ⟨k, hk⟩ : ∃ k : Nat, (t : Int) - w = k := ⟨((t : Int) - w).toNat, by omega⟩
    rw [if_neg (by omega), hk, vget_ub_of_le (by omega)]
    rfl
  have hgood : ∀ t : Nat, t < fields.length → (t : Int) - w < fields.length → ∃ f, deaccumulateAt Y X E w fields t = ok f := by
    intro t ht h
    obtain ⟨f0, e1, e2, -⟩ := FieldC.new_sized Y X E (MV : Fl K)
    unfold deaccumulateAt
    rw [e1, ok_bind]
    obtain ⟨g, g1, -, -⟩ := forAll_spec (Y := Y) (X := X) (E := E) (body := fun f y x e =>
        if (t : Int) < w then f.set y x e MV
        else do
          let pf ← vget fields ((t : Int) - w)
          let previous ← pf.get y x e
          let cf ← vget fields t
          let current ← cf.get y x e
          if Client.isValid current && Client.isValid previous then f.set y x e (current - previous)
          else f.set y x e MV) (P := fun _ _ _ _ _ => True) (by
        intro f hf' y hy x hx e he
        rw [if_neg (by omega)]
        obtain ⟨k, hk⟩ : ∃ k : Nat, (t : Int) - w = k := ⟨((t : Int) - w).toNat, by omega⟩
        obtain ⟨pf, a1, a2, a3⟩ := hf.get? (show k < fields.length by omega)
        obtain ⟨cf, b1, b2, b3⟩ := hf.get? ht
        obtain ⟨p, hp⟩ := a3.exists_get hy hx he
        obtain ⟨c, hc⟩ := b3.exists_get hy hx he
        rw [hk, a2, ok_bind, hp, ok_bind, b2, ok_bind, hc, ok_bind]
        split_ifs
        · obtain ⟨f', p1, p2, p3, p4⟩ := hf'.set hy hx he (c - p)
          exact ⟨f', p1, p2, trivial, p4⟩
        · obtain ⟨f', p1, p2, p3, p4⟩ := hf'.set hy hx he (MV : Fl K)
          exact ⟨f', p1, p2, trivial, p4⟩) f0 e2
    exact ⟨g, g1⟩
  have key : ∀ l : List Nat, (∀ t ∈ l, t < fields.length) → (∃ t ∈ l, (fields.length : Int) ≤ t - w) →
      mapM (deaccumulateAt Y X E w fields) l = .ub := by
    intro l
    induction l with
    | nil => simp
    | cons a l ih =>
      intro hl hex
      rw [mapM_cons]
      by_cases ha : (fields.length : Int) ≤ a - w
      · rw [hbad a ha]; rfl
      · obtain ⟨f, hfa⟩ := hgood a (hl a (by simp)) (by omega)
        obtain ⟨t, ht, ht'⟩ := hex
        rw [hfa, ok_bind, ih (fun t ht => hl t (by simp [ht])) ⟨t, by
          rcases List.mem_cons.mp ht with rfl | h
          · exact absurd ht' ha
          · exact h, ht'⟩]
        rfl
  exact key _ (fun t ht => List.mem_range.mp ht) ⟨fields.length - 1, List.mem_range.mpr (by omega), by omega⟩

/-- **C85** (inverse). For values that are not negative, deaccumulating by one step what `accumulate` gives returns the
values from the second time on, up to the first missing one. -/
theorem c85_inverse (Y X E : Nat) (fields : List (FieldC K)) (hf : Series Y X E fields)
    (hpos : ∀ t y x e q, At fields t y x e (fin q) → 0 ≤ q ∨ q = -999) :
    ∃ acc out, accumulate Y X E fields = ok acc ∧ deaccumulate Y X E 1 acc = ok out ∧ out.length = fields.length ∧
      ∀ t < fields.length, 1 ≤ t → ∀ y < Y, ∀ x < X, ∀ e < E, (∀ i w, 1 ≤ i → i ≤ t → At fields i y x e w → Present w) →
        ∃ v, At fields t y x e v ∧ At out t y x e v := by
  classical
  obtain ⟨acc, h1, h2, h3, h4⟩ := c85_accumulate_nonneg Y X E fields hf hpos
  obtain ⟨out, g1, g2, -, g3⟩ := c85_deaccumulate Y X E 1 acc h3
  refine ⟨acc, out, h1, g1, by omega, fun t ht ht1 y hy x hx e he hall => ?_⟩
  have : ∀ i : Nat, ∃ q : K, 1 ≤ i → i ≤ t → At fields i y x e (fin q) ∧ q ≠ -999 := by
    intro i
    by_cases hi : 1 ≤ i ∧ i ≤ t
    · obtain ⟨v, hv⟩ := hf.exists_at (show i < fields.length by omega) hy hx he
      obtain ⟨q, rfl, hq⟩ := hall i v hi.1 hi.2 hv
      exact ⟨q, fun _ _ => ⟨hv, hq⟩⟩
    · exact ⟨0, fun h1 h2 => absurd ⟨h1, h2⟩ hi⟩
  choose q hq using this
  have hsum : ∀ s ≤ t, 0 ≤ ∑ i ∈ Finset.range s, q (i + 1) := by
    intro s hs
    apply Finset.sum_nonneg
    intro i hi
    have hi := Finset.mem_range.mp hi
    obtain ⟨p1, p2⟩ := hq (i + 1) (by omega) (by omega)
    rcases hpos _ _ _ _ _ p1 with h | h
    · exact h
    · exact absurd h p2
  obtain ⟨v1, a1, a2, -⟩ := h4 (t - 1) (by omega) y hy x hx e he
  obtain ⟨v2, b1, b2, -⟩ := h4 t ht y hy x hx e he
  have e1 := a2 q fun i p1 p2 => hq i p1 (by omega)
  have e2 := b2 q fun i p1 p2 => hq i p1 p2
  obtain ⟨v, c1, -, c3⟩ := g3 t (by omega) y hy x hx e he
  have c4 := (c3 ht1 v1 v2 a1 b1).1 ⟨_, e1, fun h => by have := hsum (t - 1) (by omega); rw [h] at this; linarith⟩
    ⟨_, e2, fun h => by have := hsum t le_rfl; rw [h] at this; linarith⟩
  refine ⟨fin (q t), (hq t ht1 le_rfl).1, ?_⟩
  rw [show fin (q t) = v from ?_]
  · exact c1
  · rw [c4, e1, e2, fin_sub]
    obtain ⟨s, rfl⟩ : ∃ s, t = s + 1 := ⟨t - 1, by omega⟩
    rw [Finset.sum_range_succ]
    simp

example : ∃ fields : List (FieldC ℚ), Series 1 2 1 fields ∧ 2 ≤ fields.length ∧
    ∀ t y x e q, At fields t y x e (fin q) → 0 ≤ q ∨ q = -999 := by
  refine ⟨[⟨[fin 3, nan], 1, 2, 1⟩, ⟨[fin 4, MV], 1, 2, 1⟩], ?_, by simp, ?_⟩
  · intro f hf
    simp only [List.mem_cons, List.not_mem_nil, or_false] at hf
    rcases hf with rfl | rfl <;> exact ⟨rfl, rfl, rfl, rfl⟩
  · rintro t y x e q ⟨f, h1, h2⟩
    have hv : (fin q : Fl ℚ) ∈ f.values := by
      unfold FieldC.get at h2
      obtain ⟨i, -, hi⟩ := bind_eq_ok.mp h2
      unfold vget at hi
      split at hi
      · exact absurd hi (by simp)
      · split at hi
        · rename_i hx
          cases hi
          exact List.mem_of_getElem? hx
        · exact absurd hi (by simp)
    have hf := List.mem_of_getElem? h1
    simp only [List.mem_cons, List.not_mem_nil, or_false] at hf
    rcases hf with rfl | rfl
    · simp at hv
      left; rw [hv]; norm_num
    · simp [MV] at hv
      rcases hv with h | h
      · left; rw [h]; norm_num
      · right; rw [h]

end Gridpp.Props
