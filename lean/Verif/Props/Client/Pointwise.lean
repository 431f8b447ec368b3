import Verif.Lemmas.Client.Series
import Mathlib.Algebra.Order.Ring.Rat
import Mathlib.Algebra.Field.Rat
import Mathlib.Data.Rat.Floor

/-! # C88: qc, cloud, phase and threshold treat each value by itself -/

set_option linter.unusedSectionVars false

namespace Gridpp.Props
open Fl hiding MV isValid
open Res Client

variable {K : Type} [Field K] [LinearOrder K] [IsStrictOrderedRing K]

/-- A bound that may be absent. -/
def bound : Option K → Fl K
  | none => MV
  | some q => fin q

/-! ### qc -/

theorem qc_ok (Y X E : Nat) (min max : Fl K) (fields : List (FieldC K)) (hf : Series Y X E fields) :
    ∃ out, qc Y X E min max fields = ok out ∧ out.length = fields.length ∧ Series Y X E out ∧
      ∀ t < fields.length, ∀ y < Y, ∀ x < X, ∀ e < E, ∃ v w, At fields t y x e v ∧ At out t y x e w ∧
        ((Present v ∧ w = qcValue min max v) ∨ (¬ Present v ∧ w = v)) := by
  unfold qc
  refine eachTime_forAll (body := fun _ f y x e => do
    let value ← f.get y x e
    if Client.isValid value then f.set y x e (qcValue min max value) else ok f) hf
    (P := fun _ _ _ _ v w => (Present v ∧ w = qcValue min max v) ∨ (¬ Present v ∧ w = v)) ?_
  intro t ht f hf y hy x hx e he v hv
  simp only [hv, ok_bind]
  by_cases hp : Present v
  · rw [isValid_iff_present.mpr hp]
    obtain ⟨f', h1, h2, h3, h4⟩ := hf.set hy hx he (qcValue min max v)
    exact ⟨f', _, h1, h2, h3, .inl ⟨hp, rfl⟩, h4⟩
  · rw [isValid_false_iff.mpr hp]
    exact ⟨f, v, rfl, hf, hv, .inr ⟨hp, rfl⟩, fun _ _ _ _ => rfl⟩

/-- **C88** (qc, partial). With bounds `lo ≤ hi` (either may be absent) `qc` moves every value that is not missing to the
nearest value within the bounds, and leaves missing values as they are. Missing: bounds in the wrong order, which are
accepted and leave values outside both (`c88_qc_order`). -/
theorem c88_qc_partial (Y X E : Nat) (lo hi : Option K) (hlo : ∀ a ∈ lo, a ≠ -999) (hhi : ∀ b ∈ hi, b ≠ -999)
    (hlh : ∀ a ∈ lo, ∀ b ∈ hi, a ≤ b) (fields : List (FieldC K)) (hf : Series Y X E fields) :
    ∃ out, qc Y X E (bound lo) (bound hi) fields = ok out ∧ out.length = fields.length ∧ Series Y X E out ∧
      ∀ t < fields.length, ∀ y < Y, ∀ x < X, ∀ e < E, ∃ v w, At fields t y x e v ∧ At out t y x e w ∧
        (¬ Present v → w = v) ∧
        (∀ q, v = fin q → q ≠ -999 → ∃ r, w = fin r ∧ (∀ a ∈ lo, a ≤ r) ∧ (∀ b ∈ hi, r ≤ b) ∧
          ∀ r', (∀ a ∈ lo, a ≤ r') → (∀ b ∈ hi, r' ≤ b) → |r - q| ≤ |r' - q|) := by
  obtain ⟨out, h1, h2, h3, h4⟩ := qc_ok Y X E (bound lo) (bound hi) fields hf
  refine ⟨out, h1, h2, h3, fun t ht y hy x hx e he => ?_⟩
  obtain ⟨v, w, g1, g2, g3⟩ := h4 t ht y hy x hx e he
  refine ⟨v, w, g1, g2, ?_, ?_⟩
  · intro hn
    rcases g3 with ⟨hp, -⟩ | ⟨-, h⟩
    · exact absurd hp hn
    · exact h
  · rintro q rfl hq
    rcases g3 with ⟨-, rfl⟩ | ⟨hp, -⟩
    swap
    · exact absurd ⟨q, rfl, hq⟩ hp
    have hvl : ∀ a ∈ lo, Client.isValid (fin a : Fl K) = true := fun a ha => isValid_iff_present.mpr ⟨a, rfl, hlo a ha⟩
    have hvh : ∀ b ∈ hi, Client.isValid (fin b : Fl K) = true := fun b hb => isValid_iff_present.mpr ⟨b, rfl, hhi b hb⟩
    have hmv : Client.isValid (MV : Fl K) = false := isValid_false_iff.mpr not_present_MV
    unfold qcValue
    by_cases c1 : ∃ a ∈ lo, q < a
    · obtain ⟨a, ha, hqa⟩ := c1
      have ha' : lo = some a := ha
      rw [ha', if_pos (by simp [bound, hvl a ha, hqa])]
      refine ⟨a, rfl, by simp, hlh a ha, fun r' h1 _ => ?_⟩
      have := h1 a (by simp)
      rw [abs_of_pos (by linarith), abs_of_pos (by linarith)]
      linarith
    · rw [if_neg (by
        cases lo with
        | none => simp [bound, hmv]
        | some a =>
          have : ¬ q < a := fun h => c1 ⟨a, rfl, h⟩
          simpa [bound, hvl a rfl] using this)]
      by_cases c2 : ∃ b ∈ hi, b < q
      · obtain ⟨b, hb, hqb⟩ := c2
        have hb' : hi = some b := hb
        rw [hb', if_pos (by simp [bound, hvh b hb, hqb])]
        refine ⟨b, rfl, fun a ha => hlh a ha b hb, by simp, fun r' _ h2 => ?_⟩
        have := h2 b (by simp)
        rw [abs_of_neg (by linarith), abs_of_neg (by linarith)]
        linarith
      · rw [if_neg (by
          cases hi with
          | none => simp [bound, hmv]
          | some b =>
            have : ¬ b < q := fun h => c2 ⟨b, rfl, h⟩
            simpa [bound, hvh b rfl] using this)]
        refine ⟨q, rfl, fun a ha => not_lt.mp fun h => c1 ⟨a, ha, h⟩, fun b hb => not_lt.mp fun h => c2 ⟨b, hb, h⟩, fun r' _ _ => ?_⟩
        simp

/-- Bounds 5 and 1: the value 0 becomes 5, which is above the upper bound. -/
theorem c88_qc_order : qc 1 1 1 (fin 5) (fin 1) [⟨[(fin 0 : Fl ℚ)], 1, 1, 1⟩] = ok [⟨[fin 5], 1, 1, 1⟩] := by decide +kernel

/-! ### cloud -/

/-- **C88** (cloud). Where precipitation and cloud cover are present, precipitation above 0 raises a cloud cover below `c` to
`c`; everything else stays. -/
theorem c88_cloud (Y X E : Nat) (c : K) (precips fields : List (FieldC K)) (hp : Series Y X E precips) (hf : Series Y X E fields)
    (hl : precips.length = fields.length) :
    ∃ out, cloud Y X E (fin c) precips fields = ok out ∧ out.length = fields.length ∧ Series Y X E out ∧
      ∀ t < fields.length, ∀ y < Y, ∀ x < X, ∀ e < E, ∃ p v w, At precips t y x e p ∧ At fields t y x e v ∧ At out t y x e w ∧
        (∀ a b, p = fin a → v = fin b → a ≠ -999 → b ≠ -999 → 0 < a → w = fin (max b c)) ∧
        ((¬ Present p ∨ ¬ Present v ∨ ∀ a, p = fin a → a ≤ 0) → w = v) := by
  classical
  unfold cloud
  obtain ⟨out, h1, h2, h3⟩ := eachTime_spec (fields := fields) (body := fun t cloud => do
    let precip ← vget precips t
    FieldC.forAll Y X E (fun f y x e => do
      let currPrecip ← precip.get y x e
      let currCloud ← f.get y x e
      if Client.isValid currPrecip && Client.isValid currCloud then do
        let f' ← f.set y x e currCloud
        if currPrecip.gt (fin 0) && currCloud.lt (fin c) then f'.set y x e (fin c) else ok f'
      else ok f) cloud)
    (P := fun t f g => Sized Y X E g ∧ ∀ y < Y, ∀ x < X, ∀ e < E, ∃ p v w, At precips t y x e p ∧ f.get y x e = ok v ∧ g.get y x e = ok w ∧
        (∀ a b, p = fin a → v = fin b → a ≠ -999 → b ≠ -999 → 0 < a → w = fin (max b c)) ∧
        ((¬ Present p ∨ ¬ Present v ∨ ∀ a, p = fin a → a ≤ 0) → w = v)) (by
      intro t f ht
      have htl := (List.getElem?_eq_some_iff.mp ht).1
      have hsz := hf f (List.mem_of_getElem? ht)
      obtain ⟨pf, q1, q2, q3⟩ := hp.get? (show t < precips.length by omega)
      simp only [q2, ok_bind]
      obtain ⟨g, g1, g2, g3⟩ := forAll_spec (Y := Y) (X := X) (E := E) (fun f y x e => do
          let currPrecip ← pf.get y x e
          let currCloud ← f.get y x e
          if Client.isValid currPrecip && Client.isValid currCloud then do
            let f' ← f.set y x e currCloud
            if currPrecip.gt (fin 0) && currCloud.lt (fin c) then f'.set y x e (fin c) else ok f'
          else ok f)
        (fun y x e u u' => ∃ p v w, At precips t y x e p ∧ u = ok v ∧ u' = ok w ∧
          (∀ a b, p = fin a → v = fin b → a ≠ -999 → b ≠ -999 → 0 < a → w = fin (max b c)) ∧
          ((¬ Present p ∨ ¬ Present v ∨ ∀ a, p = fin a → a ≤ 0) → w = v)) (by
          intro f hf y hy x hx e he
          obtain ⟨p, hpv⟩ := q3.exists_get hy hx he
          obtain ⟨v, hv⟩ := hf.exists_get hy hx he
          simp only [hpv, hv, ok_bind]
          have hat : At precips t y x e p := ⟨pf, q1, hpv⟩
          by_cases hb : Present p ∧ Present v
          · obtain ⟨⟨a, rfl, ha⟩, ⟨b, rfl, hb⟩⟩ := hb
            rw [isValid_iff_present.mpr ⟨a, rfl, ha⟩, isValid_iff_present.mpr ⟨b, rfl, hb⟩]
            obtain ⟨f1, s1, s2, s3, s4⟩ := hf.set hy hx he (fin b)
            simp only [Bool.and_self, if_true, s1, ok_bind]
            by_cases hab : 0 < a ∧ b < c
            · obtain ⟨f2, r1, r2, r3, r4⟩ := s2.set hy hx he (fin c)
              refine ⟨f2, by rw [gt_fin, lt_fin, decide_eq_true hab.1, decide_eq_true hab.2]; exact r1, r2, ⟨fin a, fin b, fin c, hat, rfl, r3, ?_, ?_⟩, fun y' x' e' h => by rw [r4 y' x' e' h, s4 y' x' e' h]⟩
              · rintro a' b' ⟨rfl⟩ ⟨rfl⟩ _ _ _
                rw [max_eq_right hab.2.le]
              · rintro (h | h | h)
                · exact absurd ⟨a, rfl, ha⟩ h
                · exact absurd ⟨b, rfl, hb⟩ h
                · exact absurd (h a rfl) (not_le.mpr hab.1)
            · refine ⟨f1, ?_, s2, ⟨fin a, fin b, fin b, hat, rfl, s3, ?_, fun _ => rfl⟩, s4⟩
              · have hc : ((fin a : Fl K).gt (fin 0) && (fin b : Fl K).lt (fin c)) = false := by
                  rw [gt_fin, lt_fin]
                  simpa [not_and_or] using hab
                rw [hc]
                rfl
              · rintro a' b' ⟨rfl⟩ ⟨rfl⟩ _ _ h0
                rw [max_eq_left]
                exact not_lt.mp fun h => hab ⟨h0, h⟩
          · have : (Client.isValid p && Client.isValid v) = false := by
              rw [Bool.and_eq_false_iff, isValid_false_iff, isValid_false_iff]
              tauto
            rw [this]
            refine ⟨f, rfl, hf, ⟨p, v, v, hat, rfl, hv, ?_, fun _ => rfl⟩, fun _ _ _ _ => rfl⟩
            rintro a b rfl rfl ha hb' _
            exact absurd ⟨⟨a, rfl, ha⟩, ⟨b, rfl, hb'⟩⟩ hb) f hsz
      refine ⟨g, g1, g2, fun y hy x hx e he => ?_⟩
      obtain ⟨p, v, w, r1, r2, r3, r4⟩ := g3 y hy x hx e he
      exact ⟨p, v, w, r1, r2, r3, r4⟩)
  refine ⟨out, h1, h2, series_iff.mpr fun t ht => ?_, fun t ht y hy x hx e he => ?_⟩
  · obtain ⟨g, g1, g2, -⟩ := h3 t fields[t] (List.getElem?_eq_getElem (by omega))
    exact ⟨g, g1, g2⟩
  · obtain ⟨g, g1, -, g2⟩ := h3 t fields[t] (List.getElem?_eq_getElem ht)
    obtain ⟨p, v, w, r1, r2, r3, r4⟩ := g2 y hy x hx e he
    exact ⟨p, v, w, r1, ⟨_, List.getElem?_eq_getElem ht, r2⟩, ⟨g, g1, r3⟩, r4⟩

/-! ### phase -/

/-- **C88** (phase). With snow threshold `a` and rain threshold `b`, at every time, grid point and member: missing if
temperature or precipitation is missing, 0 if precipitation is at most 0.2, otherwise 3 up to `a`, 2 above `a` up to `b`, 1
above both. -/
theorem c88_phase (Y X E : Nat) (a b : K) (temps precips fields : List (FieldC K)) (hT : Series Y X E temps) (hP : Series Y X E precips)
    (hf : Series Y X E fields) (hlT : temps.length = fields.length) (hlP : precips.length = fields.length) :
    ∃ out, phase Y X E (fin a) (fin b) temps precips fields = ok out ∧ out.length = fields.length ∧ Series Y X E out ∧
      ∀ t < fields.length, ∀ y < Y, ∀ x < X, ∀ e < E, ∃ T p w, At temps t y x e T ∧ At precips t y x e p ∧ At out t y x e w ∧
        (¬ Present T ∨ ¬ Present p → w = MV) ∧
        ∀ T' p', T = fin T' → p = fin p' → T' ≠ -999 → p' ≠ -999 →
          (p' ≤ 2 / 10 → w = fin 0) ∧ (2 / 10 < p' → (T' ≤ a → w = fin 3) ∧ (a < T' → T' ≤ b → w = fin 2) ∧ (a < T' → b < T' → w = fin 1)) := by
  unfold phase
  obtain ⟨out, h1, h2, h3⟩ := eachTime_spec (fields := fields) (body := fun t phase => do
      let temp ← vget temps t
      let precip ← vget precips t
      FieldC.forAll Y X E (fun f y x e => do
        let currTemp ← temp.get y x e
        let currPrecip ← precip.get y x e
        f.set y x e (phaseOf (fin a) (fin b) currTemp currPrecip)) phase)
    (P := fun t _ g => Sized Y X E g ∧ ∀ y < Y, ∀ x < X, ∀ e < E, ∃ T p, At temps t y x e T ∧ At precips t y x e p ∧
      g.get y x e = ok (phaseOf (fin a) (fin b) T p)) (by
      intro t f ht
      have htl := (List.getElem?_eq_some_iff.mp ht).1
      have hsz := hf f (List.mem_of_getElem? ht)
      obtain ⟨tf, t1, t2, t3⟩ := hT.get? (show t < temps.length by omega)
      obtain ⟨pf, q1, q2, q3⟩ := hP.get? (show t < precips.length by omega)
      simp only [q2, t2, ok_bind]
      obtain ⟨g, g1, g2, g3⟩ := forAll_spec (Y := Y) (X := X) (E := E) (fun f y x e => do
          let currTemp ← tf.get y x e
          let currPrecip ← pf.get y x e
          f.set y x e (phaseOf (fin a) (fin b) currTemp currPrecip))
        (fun y x e _ u => ∃ T p, At temps t y x e T ∧ At precips t y x e p ∧ u = ok (phaseOf (fin a) (fin b) T p)) (by
          intro f hf y hy x hx e he
          obtain ⟨T, hTv⟩ := t3.exists_get hy hx he
          obtain ⟨p, hpv⟩ := q3.exists_get hy hx he
          simp only [hTv, hpv, ok_bind]
          obtain ⟨f', r1, r2, r3, r4⟩ := hf.set hy hx he (phaseOf (fin a) (fin b) T p)
          exact ⟨f', r1, r2, ⟨T, p, ⟨tf, t1, hTv⟩, ⟨pf, q1, hpv⟩, r3⟩, r4⟩) f hsz
      exact ⟨g, g1, g2, g3⟩)
  refine ⟨out, h1, h2, series_iff.mpr fun t ht => ?_, fun t ht y hy x hx e he => ?_⟩
  · obtain ⟨g, g1, g2, -⟩ := h3 t fields[t] (List.getElem?_eq_getElem (by omega))
    exact ⟨g, g1, g2⟩
  · obtain ⟨g, g1, -, g2⟩ := h3 t fields[t] (List.getElem?_eq_getElem ht)
    obtain ⟨T, p, r1, r2, r3⟩ := g2 y hy x hx e he
    refine ⟨T, p, _, r1, r2, ⟨g, g1, r3⟩, ?_, ?_⟩
    · intro h
      have : (Client.isValid T && Client.isValid p) = false := by
        rw [Bool.and_eq_false_iff, isValid_false_iff, isValid_false_iff]
        exact h
      simp [phaseOf, this]
    · rintro T' p' rfl rfl hT' hp'
      have : (Client.isValid (fin T' : Fl K) && Client.isValid (fin p' : Fl K)) = true := by
        rw [isValid_iff_present.mpr ⟨T', rfl, hT'⟩, isValid_iff_present.mpr ⟨p', rfl, hp'⟩]; rfl
      have hc : (2 / 10 : K) = 1 / 5 := by norm_num
      rw [hc]
      refine ⟨fun h => ?_, fun h => ⟨fun h' => ?_, fun h' h'' => ?_, fun h' h'' => ?_⟩⟩
      · simp only [phaseOf, this, if_true, le_fin, h, decide_true]
      · simp only [phaseOf, this, if_true, le_fin, not_le.mpr h, h', decide_true, decide_false, Bool.false_eq_true, if_false]
      · simp only [phaseOf, this, if_true, le_fin, not_le.mpr h, not_le.mpr h', h'', decide_true, decide_false, Bool.false_eq_true, if_false]
      · simp only [phaseOf, this, if_true, le_fin, not_le.mpr h, not_le.mpr h', not_le.mpr h'', decide_false, Bool.false_eq_true, if_false]

/-! ### threshold -/

/-- The position of `q` among thresholds: `p` is the first threshold that `q` is below, or equal to where that counts. -/
def FirstBelow (ths : List K) (eqs : List Int) (q : K) (p : Nat) : Prop :=
  (∀ i < p, ∃ th, ths[i]? = some th ∧ th ≤ q ∧ (q = th → eqs[i]? ≠ some 1)) ∧
  (p = ths.length ∨ ∃ th, ths[p]? = some th ∧ (q < th ∨ (q = th ∧ eqs[p]? = some 1)))

theorem thresholdValue_ok (values : List (Fl K)) (q : K) (ths : List K) (eqs : List Int) (p : Nat) (hl : eqs.length = ths.length)
    (hv : values.length = p + ths.length + 1) :
    ∃ k v, FirstBelow ths eqs q k ∧ values[p + k]? = some v ∧ thresholdValue values (fin q) (ths.map fin) eqs p = ok v := by
  induction ths generalizing eqs p with
  | nil =>
    have hlt : p < values.length := by omega
    exact ⟨0, values[p], ⟨by simp, .inl rfl⟩, List.getElem?_eq_getElem hlt, vget_eq_ok_of_lt hlt⟩
  | cons th ths ih =>
    cases eqs with
    | nil => simp at hl
    | cons eq eqs =>
      have hlt : p < values.length := by omega
      simp only [List.map_cons, thresholdValue]
      by_cases h1 : q < th
      · refine ⟨0, values[p], ⟨by simp, .inr ⟨th, rfl, .inl h1⟩⟩, List.getElem?_eq_getElem hlt, ?_⟩
        simp [h1, vget_eq_ok_of_lt hlt]
      · by_cases h2 : q = th ∧ eq = 1
        · refine ⟨0, values[p], ⟨by simp, .inr ⟨th, rfl, .inr ⟨h2.1, by simp [h2.2]⟩⟩⟩, List.getElem?_eq_getElem hlt, ?_⟩
          simp [h2.1, h2.2, vget_eq_ok_of_lt hlt]
        · obtain ⟨k, v, g1, g2, g3⟩ := ih eqs (p + 1) (by simpa using hl) (by simp only [List.length_cons] at hv; omega)
          refine ⟨k + 1, v, ⟨?_, ?_⟩, by rw [show p + (k + 1) = p + 1 + k by omega]; exact g2, ?_⟩
          · intro i hi
            cases i with
            | zero => exact ⟨th, rfl, not_lt.mp h1, fun h hc => h2 ⟨h, by simpa using hc⟩⟩
            | succ i => simpa using g1.1 i (by omega)
          · rcases g1.2 with h | h
            · left; simp [h]
            · right; simpa using h
          · rw [if_neg (by simpa using h1), if_neg (by simpa using h2), g3]

/-- **C88** (threshold). The sizes of `values` and `equals` are checked; with right sizes every value that is not missing
becomes the entry of `values` at the position of the first threshold it is below (or equal to, where `equals` is 1), the
last entry if there is none; missing values stay. -/
theorem c88_threshold (Y X E : Nat) (ths : List K) (values : List (Fl K)) (equals : Option (List Int)) (fields : List (FieldC K))
    (hf : Series Y X E fields) :
    ((values.length ≠ ths.length + 1 ∨ ∃ l ∈ equals, l.length ≠ ths.length) →
      threshold Y X E (ths.map fin) values equals fields = .abort) ∧
    (values.length = ths.length + 1 → (∀ l ∈ equals, l.length = ths.length) →
      ∃ out, threshold Y X E (ths.map fin) values equals fields = ok out ∧ out.length = fields.length ∧ Series Y X E out ∧
        ∀ t < fields.length, ∀ y < Y, ∀ x < X, ∀ e < E, ∃ v w, At fields t y x e v ∧ At out t y x e w ∧
          (¬ Present v → w = v) ∧
          (∀ q, v = fin q → q ≠ -999 → ∃ k, FirstBelow ths (equals.getD []) q k ∧ values[k]? = some w)) := by
  constructor
  · intro h
    have : thresholdOptions (ths.map fin) values equals = .abort := by
      unfold thresholdOptions
      rcases h with h | ⟨l, rfl, h⟩
      · simp [h, Client.error]
      · by_cases h' : values.length = ths.length + 1
        · simp [h', h, Client.error]
        · simp [h', Client.error]
    simp only [threshold, this]
    rfl
  · intro hv heq
    obtain ⟨eqs, e1, e2, e3⟩ : ∃ eqs : List Int, thresholdOptions (ths.map fin) values equals = ok eqs ∧ eqs.length = ths.length ∧
        ∀ q k, FirstBelow ths eqs q k → FirstBelow ths (equals.getD []) q k := by
      cases equals with
      | some l =>
        have := heq l rfl
        exact ⟨l, by simp [thresholdOptions, hv, this], this, fun q k h => h⟩
      | none =>
        refine ⟨List.replicate ths.length 0, by simp [thresholdOptions, hv], by simp, fun q k h => ⟨fun i hi => ?_, ?_⟩⟩
        · obtain ⟨th, h1, h2, -⟩ := h.1 i hi
          exact ⟨th, h1, h2, by simp⟩
        · rcases h.2 with h | ⟨th, h1, h2 | ⟨-, h3⟩⟩
          · exact .inl h
          · exact .inr ⟨th, h1, .inl h2⟩
          · rw [List.getElem?_replicate] at h3
            split_ifs at h3
            simp at h3
    simp only [threshold, e1, ok_bind]
    obtain ⟨out, h1, h2, h3, h4⟩ := eachTime_forAll (body := fun _ f y x e => do
      let value ← f.get y x e
      if Client.isValid value then do
        let v ← thresholdValue values value (ths.map fin) eqs 0
        f.set y x e v
      else ok f) hf (P := fun _ _ _ _ v w => (¬ Present v → w = v) ∧
          (∀ q, v = fin q → q ≠ -999 → ∃ k, FirstBelow ths (equals.getD []) q k ∧ values[k]? = some w)) (by
      intro t ht f hf y hy x hx e he v hgv
      simp only [hgv, ok_bind]
      by_cases hp : Present v
      · obtain ⟨q, rfl, hq⟩ := hp
        rw [isValid_iff_present.mpr ⟨q, rfl, hq⟩]
        obtain ⟨k, w, g1, g2, g3⟩ := thresholdValue_ok values q ths eqs 0 e2 (by omega)
        rw [Nat.zero_add] at g2
        simp only [if_true, g3, ok_bind]
        obtain ⟨f', r1, r2, r3, r4⟩ := hf.set hy hx he w
        refine ⟨f', w, r1, r2, r3, ⟨fun h => absurd ⟨q, rfl, hq⟩ h, ?_⟩, r4⟩
        rintro q' ⟨rfl⟩ _
        exact ⟨k, e3 _ _ g1, g2⟩
      · rw [isValid_false_iff.mpr hp]
        exact ⟨f, v, rfl, hf, hgv, ⟨fun _ => rfl, fun q h1 h2 => absurd ⟨q, h1, h2⟩ hp⟩, fun _ _ _ _ => rfl⟩)
    exact ⟨out, h1, h2, h3, h4⟩

/-- The position is unique. -/
theorem firstBelow_unique (ths : List K) (eqs : List Int) (q : K) (p p' : Nat) (h : FirstBelow ths eqs q p) (h' : FirstBelow ths eqs q p') :
    p = p' := by
  have key : ∀ p p', FirstBelow ths eqs q p → FirstBelow ths eqs q p' → ¬ p < p' := by
    intro p p' h h' hlt
    obtain ⟨th, h1, h2, h3⟩ := h'.1 p hlt
    rcases h.2 with h4 | ⟨th', h4, h5⟩
    · have := (List.getElem?_eq_some_iff.mp h1).1
      omega
    · rw [h1, Option.some.injEq] at h4
      subst h4
      rcases h5 with h5 | ⟨h5, h6⟩
      · exact absurd h5 (not_lt.mpr h2)
      · exact h3 h5 h6
  have := key p p' h h'
  have := key p' p h' h
  omega

example : threshold 1 3 1 [fin 1, fin 2] [fin 10, fin 20, fin 30] (some [1, 0]) [⟨[(fin 1 : Fl ℚ), fin 2, MV], 1, 3, 1⟩] =
    ok [⟨[fin 10, fin 30, MV], 1, 3, 1⟩] := by decide +kernel

example : phase 1 2 1 (fin 273) (fin 274) [⟨[(fin 273 : Fl ℚ), fin 300], 1, 2, 1⟩] [⟨[fin 1, fin (1 / 5)], 1, 2, 1⟩] [⟨[MV, MV], 1, 2, 1⟩] =
    ok [⟨[fin 3, fin 0], 1, 2, 1⟩] := by decide +kernel

example : cloud 1 2 1 (fin 1) [⟨[(fin 3 : Fl ℚ), fin 0], 1, 2, 1⟩] [⟨[fin (1 / 2), fin (1 / 2)], 1, 2, 1⟩] =
    ok [⟨[fin 1, fin (1 / 2)], 1, 2, 1⟩] := by decide +kernel

end Gridpp.Props
