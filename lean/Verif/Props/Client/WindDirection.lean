import Verif.Lemmas.Client.Series
import Verif.Spec.ClientWind
import Verif.Model.Physics
import Mathlib.Analysis.SpecialFunctions.Trigonometric.Basic
import Mathlib.Data.Rat.Floor
import Mathlib.Algebra.Order.Ring.Rat
import Mathlib.Algebra.Field.Rat

/-! # C109: the correction by wind direction and the QNH of the client -/

set_option linter.unusedSectionVars false

namespace Gridpp.Props
open Fl hiding MV isValid
open Res Client Spec

variable {K : Type} [Field K] [LinearOrder K] [IsStrictOrderedRing K]

section wind
variable [HasTrigC K]

theorem parAt_ok {p : List (Fl K)} {i : Nat} (h : i < p.length) : parAt p i = ok p[i] := by
  unfold parAt
  rw [if_neg (by omega), vget_eq_ok_of_lt h]

theorem parAt_map {c : List K} {i : Nat} (h : i < c.length) : parAt (c.map fin) i = ok (fin (c.getD i 0)) := by
  rw [parAt_ok (by simpa using h)]
  simp [h]

/-- The factor for a direction and nine parameters that are present. -/
theorem windFactor_eq {d : K} (hd : d ≠ -999) {c : List K} (hlen : c.length = 9) (hne : ∀ a ∈ c, a ≠ -999) :
    windFactor (fin d) (c.map fin) = ok (fin (max 0 (windSeries (fun i => c.getD i 0) (angleOf d)))) := by
  have h1 : Client.isValid (fin d) = true := isValid_iff_present.mpr ⟨d, rfl, hd⟩
  have h2 : (c.map fin).all Client.isValid = true := by
    rw [List.all_eq_true]
    intro a ha
    obtain ⟨q, hq, rfl⟩ := List.mem_map.mp ha
    exact isValid_iff_present.mpr ⟨q, rfl, hne q hq⟩
  have h3 : deg2radC (fin d) = fin (angleOf d) := by
    unfold deg2radC angleOf
    rw [fin_mul, fin_div_of_ne _ (by norm_num)]
  unfold windFactor
  rw [h1, h2]
  simp only [Bool.not_true, Bool.or_self, Bool.false_eq_true, if_false, h3]
  rw [parAt_map (by omega), parAt_map (by omega), parAt_map (by omega), parAt_map (by omega), parAt_map (by omega), parAt_map (by omega),
    parAt_map (by omega), parAt_map (by omega), parAt_map (by omega)]
  simp only [ok_bind, fin_mul, sinC, cosC, fin_add, zero_def, lt_fin, decide_eq_true_eq]
  have h4 : windSeries (fun i => c.getD i 0) (angleOf d) = c.getD 0 0 + c.getD 1 0 * HasTrigC.sin (angleOf d) + c.getD 2 0 * HasTrigC.cos (angleOf d) +
      c.getD 3 0 * HasTrigC.sin (2 * angleOf d) + c.getD 4 0 * HasTrigC.cos (2 * angleOf d) + c.getD 5 0 * HasTrigC.sin (3 * angleOf d) +
      c.getD 6 0 * HasTrigC.cos (3 * angleOf d) + c.getD 7 0 * HasTrigC.sin (4 * angleOf d) + c.getD 8 0 * HasTrigC.cos (4 * angleOf d) := by
    unfold windSeries
    simp only [Finset.sum_range_succ, Finset.sum_range_zero]
    push_cast
    rw [one_mul]
    ring
  rw [← h4]
  split_ifs with h
  · rw [max_eq_left h.le]
  · rw [max_eq_right (not_lt.mp h)]

/-- **C109**, wind direction, as far as it holds: where the direction and the nine parameters are present, the value is multiplied by the
series of the direction, 0 where that is negative; where the direction is missing, the value stays. Missing: where a parameter is
missing, the value is multiplied by -999 (`c109_missing_parameter_false`), and a missing value is multiplied like a number
(`c109_missing_value_false`). -/
theorem c109_wind_partial {Y X E : Nat} (directions : Nat → FieldC K) (params : Nat → Nat → Nat → List (Fl K)) {fields : List (FieldC K)}
    (hs : Series Y X E fields) (hdir : ∀ t < fields.length, Sized Y X E (directions t))
    (hpar : ∀ t < fields.length, ∀ y < Y, ∀ x < X, (params t y x).length = 9) :
    ∃ out, windDirectionC Y X E 9 directions params fields = ok out ∧ out.length = fields.length ∧ Series Y X E out ∧
      ∀ t < fields.length, ∀ y < Y, ∀ x < X, ∀ e < E, ∃ v w, At fields t y x e v ∧ At out t y x e w ∧
        ∀ d, (directions t).get y x e = ok d → (¬ Present d → w = v) ∧
          ∀ (q g : K) (c : List K), v = fin q → d = fin g → g ≠ -999 → params t y x = c.map fin → (∀ a ∈ c, a ≠ -999) →
            w = fin (max 0 (windSeries (fun i => c.getD i 0) (angleOf g)) * q) := by
  unfold windDirectionC
  rw [if_neg (by simp)]
  refine eachTime_forAll hs ?_
  intro t ht f hf y hy x hx e he v hv
  obtain ⟨d, hd⟩ := (hdir t ht).exists_get hy hx he
  by_cases hp : Present d
  · have hfac : ∃ u, windFactor d (params t y x) = ok u := by
      unfold windFactor
      split_ifs
      · exact ⟨_, rfl⟩
      · have := hpar t ht y hy x hx
        rw [parAt_ok (by omega), parAt_ok (by omega), parAt_ok (by omega), parAt_ok (by omega), parAt_ok (by omega), parAt_ok (by omega),
          parAt_ok (by omega), parAt_ok (by omega), parAt_ok (by omega)]
        exact ⟨_, rfl⟩
    obtain ⟨u, hu⟩ := hfac
    obtain ⟨f', h1, h2, h3, h4⟩ := hf.set hy hx he (u * v)
    refine ⟨f', _, ?_, h2, h3, ?_, h4⟩
    · unfold windMember
      rw [hd]
      simp only [ok_bind, isValid_iff_present.mpr hp, if_true, hu, hv]
      exact h1
    · intro d' hd'
      rw [hd, Res.ok.injEq] at hd'
      subst hd'
      refine ⟨fun h => absurd hp h, ?_⟩
      rintro q g c rfl rfl hg hc hne
      have hlen : c.length = 9 := by rw [← hpar t ht y hy x hx, hc]; simp
      rw [hc, windFactor_eq hg hlen hne, Res.ok.injEq] at hu
      rw [← hu, fin_mul]
  · refine ⟨f, v, ?_, hf, hv, ?_, fun _ _ _ _ => rfl⟩
    · unfold windMember
      rw [hd]
      simp only [ok_bind, isValid_false_iff.mpr hp, Bool.false_eq_true, if_false]
    · intro d' hd'
      rw [hd, Res.ok.injEq] at hd'
      subst hd'
      exact ⟨fun _ => rfl, fun q g c _ hg hg' => absurd ⟨g, hg, hg'⟩ hp⟩

/-- **C109**: values that are not negative stay so. -/
theorem c109_wind_sign (c : Nat → K) {g q : K} (hq : 0 ≤ q) : 0 ≤ max 0 (windSeries c (angleOf g)) * q :=
  mul_nonneg (le_max_left _ _) hq

/-- **C109**: a parameter file without nine parameters is refused. -/
theorem c109_wind_errors (Y X E : Nat) {n : Int} (hn : n ≠ 9) (directions : Nat → FieldC K) (params : Nat → Nat → Nat → List (Fl K))
    (fields : List (FieldC K)) : windDirectionC Y X E n directions params fields = .abort := by
  unfold windDirectionC
  rw [if_pos hn]
  rfl

end wind

/-! ### QNH -/

section pressure
variable [FloorRing K] [LawfulExp K]

theorem calcQnh_eq_library {a p : K} (ha : a ≠ -999) (hp : p ≠ -999) : calcQnh (fin a) (fin p) = Gridpp.qnh (fin p) (fin a) := by
  unfold calcQnh Gridpp.qnh
  rw [isValid_iff_present.mpr ⟨a, rfl, ha⟩, isValid_iff_present.mpr ⟨p, rfl, hp⟩]
  simp only [Fl.isValid_fin, Bool.and_self, if_true]

/-- The QNH of a positive pressure: the only pressure at sea level of a standard atmosphere with that pressure at the given height. -/
theorem calcQnh_standard {a p : K} (ha : a ≠ -999) (hp : 0 < p)
    (habove : 0 < realPow (p / 101325) (287053 / 1000 * (65 / 10000) / (980665 / 100000)) + 65 / 10000 * a / (28815 / 100)) :
    ∃ q, calcQnh (fin a) (fin p) = fin q ∧ StandardAtmosphere q p a := by
  have hc : (287053 / 1000 * (65 / 10000) : K) ≠ 0 := by norm_num
  have hg : (980665 / 100000 : K) ≠ 0 := by norm_num
  have hp' : p ≠ -999 := by intro h; rw [h] at hp; norm_num at hp
  have hk : (980665 / 100000 : K) / (287053 / 1000 * (65 / 10000)) = 1 / (287053 / 1000 * (65 / 10000) / (980665 / 100000)) := by norm_num
  refine ⟨101325 * realPow (realPow (p / 101325) (287053 / 1000 * (65 / 10000) / (980665 / 100000)) + 65 / 10000 * a / (28815 / 100))
    ((980665 / 100000 : K) / (287053 / 1000 * (65 / 10000))), ?_, mul_pos (by norm_num) (realPow_pos _ _), ?_⟩
  · unfold calcQnh
    rw [isValid_iff_present.mpr ⟨a, rfl, ha⟩, isValid_iff_present.mpr ⟨p, rfl, hp'⟩]
    simp only [feq_fin, decide_eq_true_eq, if_neg hp.ne', Bool.and_self, if_true, fin_mul]
    rw [fin_div_of_ne p (by norm_num), fin_div_of_ne (287053 / 1000 * (65 / 10000)) hg, fin_div_of_ne _ (by norm_num), fin_div_of_ne _ hc,
      pow_pos_base (div_pos hp (by norm_num)), fin_add, mul_comm a (65 / 10000 : K), pow_pos_base habove, fin_mul]
  · rw [mul_div_cancel_left₀ _ (by norm_num : (101325 : K) ≠ 0)]
    generalize hb : realPow (p / 101325) (287053 / 1000 * (65 / 10000) / (980665 / 100000)) + 65 / 10000 * a / (28815 / 100) = b at *
    have h2 : realPow (realPow b ((980665 / 100000 : K) / (287053 / 1000 * (65 / 10000)))) (287053 / 1000 * (65 / 10000) / (980665 / 100000)) = b := by
      have := realPow_inv (y := (980665 / 100000 : K) / (287053 / 1000 * (65 / 10000))) habove (by norm_num)
      rwa [show 1 / ((980665 / 100000 : K) / (287053 / 1000 * (65 / 10000))) = 287053 / 1000 * (65 / 10000) / (980665 / 100000) by norm_num] at this
    rw [h2, ← hb]
    ring

/-- **C109**, QNH: where pressure and elevation are present, the result is that of the library, and for positive pressures (up to heights
below zero at which the standard atmosphere gives no sea level pressure) it is the sea level pressure of the standard atmosphere that has
the given pressure at the given elevation; where one of them is missing, the value that was there stays. -/
theorem c109_qnh {Y X E : Nat} {elevs : List (List (Fl K))} (hel : Rect Y X elevs) (inputs : Nat → FieldC K) {fields : List (FieldC K)}
    (hs : Series Y X E fields) (hin : ∀ t < fields.length, Sized Y X E (inputs t)) :
    ∃ out, qnhC Y X E elevs inputs fields = ok out ∧ out.length = fields.length ∧ Series Y X E out ∧
      ∀ t < fields.length, ∀ y < Y, ∀ x < X, ∀ e < E, ∃ v w, At fields t y x e v ∧ At out t y x e w ∧
        ∀ p a, (inputs t).get y x e = ok p → cell? elevs y x = some a →
          ((¬ Present p ∨ ¬ Present a) → w = v) ∧ (Present p → Present a → w = Gridpp.qnh p a) ∧
          ∀ p' a', p = fin p' → a = fin a' → a' ≠ -999 → 0 < p' →
            0 < realPow (p' / 101325) (287053 / 1000 * (65 / 10000) / (980665 / 100000)) + 65 / 10000 * a' / (28815 / 100) →
            ∃ q, w = fin q ∧ StandardAtmosphere q p' a' := by
  unfold qnhC
  refine eachTime_forAll hs ?_
  intro t ht f hf y hy x hx e he v hv
  obtain ⟨p, hp⟩ := (hin t ht).exists_get hy hx he
  obtain ⟨a, ha2, ha1⟩ := vget2_of_rect hel hy hx
  by_cases hpres : Present p ∧ Present a
  · obtain ⟨f', h1, h2, h3, h4⟩ := hf.set hy hx he (calcQnh a p)
    refine ⟨f', _, ?_, h2, h3, ?_, h4⟩
    · unfold qnhMember
      rw [ha1, ok_bind, hp, ok_bind, isValid_iff_present.mpr hpres.1, isValid_iff_present.mpr hpres.2]
      exact h1
    · intro p' a' hp' ha'
      rw [hp, Res.ok.injEq] at hp'
      rw [ha2, Option.some.injEq] at ha'
      subst hp' ha'
      obtain ⟨⟨p', rfl, hp'⟩, ⟨a', rfl, ha'⟩⟩ := hpres
      refine ⟨fun h => ?_, fun _ _ => calcQnh_eq_library ha' hp', ?_⟩
      · rcases h with h | h
        · exact absurd ⟨p', rfl, hp'⟩ h
        · exact absurd ⟨a', rfl, ha'⟩ h
      · intro p'' a'' e1 e2 hne hpos habove
        cases e1
        cases e2
        exact calcQnh_standard hne hpos habove
  · refine ⟨f, v, ?_, hf, hv, ?_, fun _ _ _ _ => rfl⟩
    · unfold qnhMember
      have : (Client.isValid p && Client.isValid a) = false := by
        rw [← Bool.not_eq_true, Bool.and_eq_true, isValid_iff_present, isValid_iff_present]
        exact hpres
      rw [ha1, ok_bind, hp, ok_bind, this]
      rfl
    · intro p' a' hp' ha'
      rw [hp, Res.ok.injEq] at hp'
      rw [ha2, Option.some.injEq] at ha'
      subst hp' ha'
      refine ⟨fun _ => rfl, fun h1 h2 => absurd ⟨h1, h2⟩ hpres, ?_⟩
      intro p'' a'' e1 e2 hne hpos _
      refine absurd ⟨⟨p'', e1, ?_⟩, ⟨a'', e2, hne⟩⟩ hpres
      intro h
      rw [h] at hpos
      norm_num at hpos

/-- **C109**: the sea level pressure of the standard atmosphere is the pressure itself at height 0, and grows with the pressure and with the
height. There is only one. -/
theorem c109_standard {q q' p p' a a' : K} (hp : 0 < p) (hp' : 0 < p') (h : StandardAtmosphere q p a) (h' : StandardAtmosphere q' p' a') :
    (a = 0 → q = p) ∧ (p ≤ p' → a ≤ a' → q ≤ q') ∧ (p < p' → a ≤ a' → q < q') ∧ (p ≤ p' → a < a' → q < q') := by
  have hk : (0 : K) < 287053 / 1000 * (65 / 10000) / (980665 / 100000) := by norm_num
  have hmono : ∀ {x z : K}, 0 < x → 0 < z → (realPow (x / 101325) (287053 / 1000 * (65 / 10000) / (980665 / 100000)) <
      realPow (z / 101325) (287053 / 1000 * (65 / 10000) / (980665 / 100000)) ↔ x < z) := by
    intro x z hx hz
    constructor
    · intro hlt
      by_contra hge
      rcases eq_or_lt_of_le (not_lt.mp hge) with h | h
      · rw [h] at hlt
        exact lt_irrefl _ hlt
      · exact absurd hlt (not_lt.mpr (realPow_lt (div_pos hz (by norm_num)) (div_lt_div_of_pos_right h (by norm_num)) hk).le)
    · intro hlt
      exact realPow_lt (div_pos hx (by norm_num)) (div_lt_div_of_pos_right hlt (by norm_num)) hk
  have hmono' : ∀ {x z : K}, 0 < x → 0 < z → (realPow (x / 101325) (287053 / 1000 * (65 / 10000) / (980665 / 100000)) ≤
      realPow (z / 101325) (287053 / 1000 * (65 / 10000) / (980665 / 100000)) ↔ x ≤ z) := by
    intro x z hx hz
    rw [← not_lt, ← not_lt, hmono hz hx]
  have ha : ∀ {u w : K}, u ≤ w → 65 / 10000 * u / (28815 / 100) ≤ 65 / 10000 * w / (28815 / 100) := fun h =>
    div_le_div_of_nonneg_right (mul_le_mul_of_nonneg_left h (by norm_num)) (by norm_num)
  have ha' : ∀ {u w : K}, u < w → 65 / 10000 * u / (28815 / 100) < 65 / 10000 * w / (28815 / 100) := fun h =>
    div_lt_div_of_pos_right (mul_lt_mul_of_pos_left h (by norm_num)) (by norm_num)
  refine ⟨fun h0 => ?_, fun h1 h2 => ?_, fun h1 h2 => ?_, fun h1 h2 => ?_⟩
  · have := h.2
    rw [h0, mul_zero, zero_div, sub_zero] at this
    exact le_antisymm ((hmono' h.1 hp).mp this.ge) ((hmono' hp h.1).mp this.le)
  · rw [← hmono' h.1 h'.1]
    have := (hmono' hp hp').mpr h1
    have e1 := h.2
    have e2 := h'.2
    have := ha h2
    linarith
  · rw [← hmono h.1 h'.1]
    have := (hmono hp hp').mpr h1
    have e1 := h.2
    have e2 := h'.2
    have := ha h2
    linarith
  · rw [← hmono h.1 h'.1]
    have := (hmono' hp hp').mpr h1
    have e1 := h.2
    have e2 := h'.2
    have := ha' h2
    linarith

end pressure

/-! ### Witnesses -/

/-- The functions meant. -/
noncomputable instance realTrig : HasTrigC ℝ := ⟨Real.sin, Real.cos⟩

/-- Stand-ins for examples that do not depend on them. -/
instance flatTrig : HasTrigC ℚ := ⟨fun _ => 0, fun _ => 1⟩

/-- The hypotheses of `c109_wind_partial` hold: a direction that is missing and one that is not. -/
example : Series 1 2 1 [(⟨[fin 3, fin 4], 1, 2, 1⟩ : FieldC ℚ)] ∧ Sized 1 2 1 (⟨[fin 90, fin (-999)], 1, 2, 1⟩ : FieldC ℚ) ∧
    (windDirectionC 1 2 1 9 (fun _ => ⟨[fin 90, fin (-999)], 1, 2, 1⟩) (fun _ _ _ => [fin 1, fin 7, fin 2, fin 0, fin 0, fin 0, fin 0, fin 0, fin (-1)])
      [⟨[fin 3, fin 4], 1, 2, 1⟩] : Res (List (FieldC ℚ))) = ok [⟨[fin 6, fin 4], 1, 2, 1⟩] := by
  refine ⟨?_, ⟨rfl, rfl, rfl, rfl⟩, by decide +kernel⟩
  intro f hf
  rw [List.mem_singleton.mp hf]
  exact ⟨rfl, rfl, rfl, rfl⟩

/-- The series over the reals, for the direction 0. -/
example : windSeries (fun i => ([1, 5, 2, 5, 3, 5, 4, 5, 6] : List ℝ).getD i 0) (angleOf 0) = 16 := by
  simp [windSeries, angleOf, Finset.sum_range_succ, HasTrigC.sin, HasTrigC.cos]
  norm_num

/-- **C109**: where a parameter is missing, the value is multiplied by -999. -/
theorem c109_missing_parameter_false : (windDirectionC 1 1 1 9 (fun _ => ⟨[fin 90], 1, 1, 1⟩)
    (fun _ _ _ => [fin (-999), fin 0, fin 0, fin 0, fin 0, fin 0, fin 0, fin 0, fin 0]) [⟨[fin 3], 1, 1, 1⟩] : Res (List (FieldC ℚ))) =
      ok [⟨[fin (-2997)], 1, 1, 1⟩] := by decide +kernel

/-- **C109**: a missing value is multiplied like a number and is no longer missing. -/
theorem c109_missing_value_false : (windDirectionC 1 1 1 9 (fun _ => ⟨[fin 90], 1, 1, 1⟩)
    (fun _ _ _ => [fin 2, fin 0, fin 0, fin 0, fin 0, fin 0, fin 0, fin 0, fin 0]) [⟨[fin (-999)], 1, 1, 1⟩] : Res (List (FieldC ℚ))) =
      ok [⟨[fin (-1998)], 1, 1, 1⟩] := by decide +kernel

/-- The hypotheses of `c109_qnh` hold over the reals: the pressure 1013.25 hPa at sea level, and a missing elevation. -/
example : Rect 1 2 [[fin 0, (Client.MV : Fl ℝ)]] ∧ Present (fin (101325 : ℝ)) ∧ Present (fin (0 : ℝ)) ∧ ¬ Present (Client.MV : Fl ℝ) ∧
    (0 : ℝ) < realPow (101325 / 101325) (287053 / 1000 * (65 / 10000) / (980665 / 100000)) + 65 / 10000 * 0 / (28815 / 100) := by
  refine ⟨⟨rfl, by simp⟩, ⟨_, rfl, by norm_num⟩, ⟨_, rfl, by norm_num⟩, not_present_MV, ?_⟩
  have := realPow_pos (101325 / 101325 : ℝ) (287053 / 1000 * (65 / 10000) / (980665 / 100000))
  linarith

/-- The hypotheses of `c109_standard` hold over the reals. -/
example (p : ℝ) (hp : 0 < p) : StandardAtmosphere p p 0 := ⟨hp, by ring⟩

end Gridpp.Props
