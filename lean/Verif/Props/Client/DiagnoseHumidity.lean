import Verif.Lemmas.Client.Diagnose
import Verif.Props.Humidity
import Mathlib.Data.Rat.Floor
import Mathlib.Algebra.Order.Ring.Rat
import Mathlib.Algebra.Field.Rat

/-! # C112: humidity diagnosed by the client -/

set_option linter.unusedSectionVars false

namespace Gridpp.Props
open Fl hiding MV isValid
open Res Client

variable {K : Type} [Field K] [LinearOrder K] [IsStrictOrderedRing K] [FloorRing K] [LawfulExp K]

/-- **C112** (dew point). Where the temperature and the humidity are present, the result is the dew point of the library, which is not above
the temperature; elsewhere the value stays. -/
theorem c112_dewpoint {Y X E : Nat} (h : HumidityFile K) (hT : h.hasTemperature = true) (hR : h.hasRh = true) {fields : List (FieldC K)}
    (hs : Series Y X E fields) (ht : ∀ t < fields.length, Sized Y X E (h.temperature t) ∧ Sized Y X E (h.rh t)) :
    ∃ out, diagnoseHumidity Y X E .dewpoint h fields = ok out ∧ out.length = fields.length ∧ Series Y X E out ∧
      ∀ t < fields.length, ∀ y < Y, ∀ x < X, ∀ e < E, ∃ v w a b, At fields t y x e v ∧ At out t y x e w ∧
        (h.temperature t).get y x e = ok a ∧ (h.rh t).get y x e = ok b ∧ (¬ (Present a ∧ Present b) → w = v) ∧
        ∀ T R : K, a = fin T → b = fin R → T ≠ -999 → R ≠ -999 → ∃ D, w = fin D ∧ Gridpp.dewpoint (fin T) (fin R) = fin D ∧ D ≤ T := by
  unfold diagnoseHumidity
  simp only [hT, hR, Bool.and_self]
  obtain ⟨out, h1, h2, h3, h4⟩ := diagnose_spec hs h.temperature h.rh (fun _ _ _ _ a b => ok (computeDewpoint a b)) ht
    (fun _ _ _ _ _ _ _ _ _ _ _ _ => ⟨_, rfl⟩)
  refine ⟨out, h1, h2, h3, fun t ht y hy x hx e he => ?_⟩
  obtain ⟨v, w, a, b, g1, g2, g3, g4, g5, g6⟩ := h4 t ht y hy x hx e he
  refine ⟨v, w, a, b, g1, g2, g3, g4, g5, ?_⟩
  rintro T R rfl rfl hT9 hR9
  have hw := g6 ⟨T, rfl, hT9⟩ ⟨R, rfl, hR9⟩
  rw [Res.ok.injEq, computeDewpoint_eq hT9 hR9] at hw
  obtain ⟨D, h5, h6⟩ := c59_dewpoint T R
  exact ⟨D, by rw [← hw, h5], h5, h6⟩

/-- **C112** (relative humidity). Where the temperature and the dew point are present, the result is the relative humidity of the library,
which is above 0 and at most 1, and 1 if the dew point is not below the temperature; elsewhere the value stays. -/
theorem c112_rh {Y X E : Nat} (h : HumidityFile K) (hT : h.hasTemperature = true) (hD : h.hasDewpoint = true) {fields : List (FieldC K)}
    (hs : Series Y X E fields) (ht : ∀ t < fields.length, Sized Y X E (h.temperature t) ∧ Sized Y X E (h.dewpoint t)) :
    ∃ out, diagnoseHumidity Y X E .rh h fields = ok out ∧ out.length = fields.length ∧ Series Y X E out ∧
      ∀ t < fields.length, ∀ y < Y, ∀ x < X, ∀ e < E, ∃ v w a b, At fields t y x e v ∧ At out t y x e w ∧
        (h.temperature t).get y x e = ok a ∧ (h.dewpoint t).get y x e = ok b ∧ (¬ (Present a ∧ Present b) → w = v) ∧
        ∀ T D : K, a = fin T → b = fin D → T ≠ -999 → D ≠ -999 →
          ∃ r, w = fin r ∧ Gridpp.relativeHumidity (fin T) (fin D) = ok (fin r) ∧ 0 < r ∧ r ≤ 1 ∧ (T ≤ D → r = 1) := by
  unfold diagnoseHumidity
  simp only [hT, hD, Bool.and_self]
  obtain ⟨out, h1, h2, h3, h4⟩ := diagnose_spec hs h.temperature h.dewpoint (fun _ _ _ _ a b => computeRh a b) ht (by
    rintro t ht y hy x hx e he a b ⟨T, rfl, hT9⟩ ⟨D, rfl, hD9⟩
    obtain ⟨r, h5, -⟩ := c59_relative_humidity T D
    exact ⟨fin r, by rw [computeRh_eq hT9 hD9, h5]⟩)
  refine ⟨out, h1, h2, h3, fun t ht y hy x hx e he => ?_⟩
  obtain ⟨v, w, a, b, g1, g2, g3, g4, g5, g6⟩ := h4 t ht y hy x hx e he
  refine ⟨v, w, a, b, g1, g2, g3, g4, g5, ?_⟩
  rintro T D rfl rfl hT9 hD9
  have hw := g6 ⟨T, rfl, hT9⟩ ⟨D, rfl, hD9⟩
  obtain ⟨r, h5, h6⟩ := c59_relative_humidity T D
  rw [computeRh_eq hT9 hD9, h5, Res.ok.injEq] at hw
  exact ⟨r, hw.symm, h5, h6⟩

/-- The pressure used for the wet-bulb temperature: that of the field, or the one of a fixed atmosphere at the elevation. -/
def PressureUsed (h : HumidityFile K) (t y x e : Nat) (p : Fl K) : Prop :=
  (∃ b f, h.pressure = some (b, f) ∧ (f t).get y x e = ok p) ∨
  (h.pressure = none ∧ ∃ z, cell? h.elevs y x = some z ∧
    ((¬ Present z ∧ p = fin (-999)) ∨ ∃ q, z = fin q ∧ q ≠ -999 ∧ p = fin (101325 * HasExp.exp (-(121 / 1000000) * q))))

/-- **C112** (wet-bulb temperature). Where the temperature and the humidity are present: missing if the pressure is missing, the air is dry,
or the temperature is at most 30.11 K; otherwise, with a positive pressure, that of the library, which is between the dew point and the
temperature. Elsewhere the value stays. -/
theorem c112_wetbulb {Y X E : Nat} (h : HumidityFile K) (hT : h.hasTemperature = true) (hR : h.hasRh = true)
    (hP : ∀ b f, h.pressure = some (b, f) → b = true) (hE : h.pressure = none → h.hasElevs = true) (hel : Rect Y X h.elevs)
    {fields : List (FieldC K)} (hs : Series Y X E fields)
    (hp : ∀ b f, h.pressure = some (b, f) → ∀ t < fields.length, Sized Y X E (f t))
    (ht : ∀ t < fields.length, Sized Y X E (h.temperature t) ∧ Sized Y X E (h.rh t)) :
    ∃ out, diagnoseHumidity Y X E .wetbulb h fields = ok out ∧ out.length = fields.length ∧ Series Y X E out ∧
      ∀ t < fields.length, ∀ y < Y, ∀ x < X, ∀ e < E, ∃ v w a b p, At fields t y x e v ∧ At out t y x e w ∧
        (h.temperature t).get y x e = ok a ∧ (h.rh t).get y x e = ok b ∧ PressureUsed h t y x e p ∧ (¬ (Present a ∧ Present b) → w = v) ∧
        ∀ T R : K, a = fin T → b = fin R → T ≠ -999 → R ≠ -999 →
          (¬ Present p ∨ R ≤ 0 ∨ T ≤ 3011 / 100 → w = fin (-999)) ∧
          ∀ P : K, p = fin P → P ≠ -999 → (∀ u, Gridpp.wetbulb (fin T) (fin P) (fin R) = fin u → w = fin u) ∧
            ∀ D, 3011 / 100 < T → 0 < P → 0 < R → Gridpp.dewpoint (fin T) (fin R) = fin D → D < T → ∃ u, w = fin u ∧ D < u ∧ u < T := by
  have hpu : ∀ t < fields.length, ∀ y < Y, ∀ x < X, ∀ e < E, ∃ p,
      wetbulbPressure (h.pressure.map fun p => p.2 t) h.elevs y x e = ok p ∧ PressureUsed h t y x e p := by
    intro t ht y hy x hx e he
    obtain ⟨z, hz, hz'⟩ := vget2_of_rect hel hy hx
    unfold wetbulbPressure
    rw [hz', ok_bind]
    cases hpr : h.pressure with
    | none =>
      refine ⟨_, rfl, Or.inr ⟨hpr, z, hz, ?_⟩⟩
      unfold calcPressure
      have h0 : Client.isValid (fin 0 : Fl K) = true := isValid_iff_present.mpr ⟨0, rfl, by norm_num⟩
      have h1 : Client.isValid (fin 101325 : Fl K) = true := isValid_iff_present.mpr ⟨101325, rfl, by norm_num⟩
      by_cases hpz : Present z
      · obtain ⟨q, rfl, hq⟩ := hpz
        refine Or.inr ⟨q, rfl, hq, ?_⟩
        rw [h0, h1, isValid_iff_present.mpr ⟨q, rfl, hq⟩]
        simp only [Bool.and_self, if_true, fin_sub, fin_mul, Fl.exp, sub_zero]
      · refine Or.inl ⟨hpz, ?_⟩
        rw [h0, h1, isValid_false_iff.mpr hpz]
        rfl
    | some bf =>
      obtain ⟨b, f⟩ := bf
      obtain ⟨p, hp'⟩ := (hp b f hpr t ht).exists_get hy hx he
      exact ⟨p, hp', Or.inl ⟨b, f, hpr, hp'⟩⟩
  have hhas : (h.pressure.map (·.1)).getD h.hasElevs = true := by
    cases hpr : h.pressure with
    | none => simpa using hE hpr
    | some bf => simpa using hP bf.1 bf.2 hpr
  unfold diagnoseHumidity
  simp only [hT, hR, hhas, Bool.and_self]
  obtain ⟨out, h1, h2, h3, h4⟩ := diagnose_spec hs h.temperature h.rh (fun t y x e a b => do
      let p ← wetbulbPressure (h.pressure.map fun p => p.2 t) h.elevs y x e
      ok (computeWetbulb a p b)) ht (by
    intro t ht y hy x hx e he a b _ _
    obtain ⟨p, h5, -⟩ := hpu t ht y hy x hx e he
    exact ⟨_, by rw [h5, ok_bind]⟩)
  refine ⟨out, h1, h2, h3, fun t ht y hy x hx e he => ?_⟩
  obtain ⟨v, w, a, b, g1, g2, g3, g4, g5, g6⟩ := h4 t ht y hy x hx e he
  obtain ⟨p, h5, h6⟩ := hpu t ht y hy x hx e he
  refine ⟨v, w, a, b, p, g1, g2, g3, g4, h6, g5, ?_⟩
  rintro T R rfl rfl hT9 hR9
  have hw := g6 ⟨T, rfl, hT9⟩ ⟨R, rfl, hR9⟩
  rw [h5, ok_bind, Res.ok.injEq] at hw
  rw [← hw]
  refine ⟨computeWetbulb_missing, ?_⟩
  rintro P rfl hP9
  refine ⟨fun u hu => computeWetbulb_eq hP9 hR9 hu, fun D k1 k2 k3 k4 k5 => ?_⟩
  obtain ⟨u, k6, k7, k8⟩ := c59_wetbulb_between k1 k2 k3 k4 k5
  exact ⟨u, computeWetbulb_eq hP9 hR9 k6, k7, k8⟩

/-- **C112** (variables that are not in the file) end the program, as soon as there is a time. -/
theorem c112_errors (Y X E : Nat) (kind : HumidityKind) (h : HumidityFile K) {fields : List (FieldC K)} (hf : fields ≠ [])
    (hmiss : (kind ≠ .other ∧ h.hasTemperature = false) ∨ (kind = .dewpoint ∧ h.hasRh = false) ∨ (kind = .rh ∧ h.hasDewpoint = false) ∨
      (kind = .wetbulb ∧ (h.hasRh = false ∨ (∃ f, h.pressure = some (false, f)) ∨ (h.pressure = none ∧ h.hasElevs = false)))) :
    diagnoseHumidity Y X E kind h fields = .abort := by
  obtain ⟨f, l, rfl⟩ := List.exists_cons_of_ne_nil hf
  have h0 : vget (f :: l) ((0 : Nat) : Int) = ok f := rfl
  simp only [diagnoseHumidity, eachTime, List.length_cons, List.range_succ_eq_map, mapM_cons, h0, ok_bind]
  rcases hmiss with ⟨h1, h2⟩ | ⟨rfl, h2⟩ | ⟨rfl, h2⟩ | ⟨rfl, h2⟩
  · cases kind with
    | other => exact absurd rfl h1
    | _ => simp only [h2, Bool.false_and, diagnoseField]; rfl
  · simp only [h2, Bool.and_false, diagnoseField]; rfl
  · simp only [h2, Bool.and_false, diagnoseField]; rfl
  · rcases h2 with h2 | ⟨g, h2⟩ | ⟨h2, h3⟩
    · simp only [h2, Bool.and_false, Bool.false_and, diagnoseField]; rfl
    · simp only [h2, Option.map_some, Option.getD_some, Bool.and_false, diagnoseField]; rfl
    · simp only [h2, h3, Option.map_none, Option.getD_none, Bool.and_false, diagnoseField]; rfl

/-- **C112**: any other word after `compute` is accepted, and nothing is changed. -/
theorem c112_other (Y X E : Nat) (h : HumidityFile K) (fields : List (FieldC K)) : diagnoseHumidity Y X E .other h fields = ok fields :=
  eachTime_id fields

/-- The hypotheses of the theorems hold, and the value where an input is missing is the old one. -/
example : ∃ h : HumidityFile ℝ, h.hasTemperature = true ∧ h.hasRh = true ∧ h.hasDewpoint = true ∧ h.hasElevs = true ∧ h.pressure = none ∧
    Rect 1 2 h.elevs ∧ ∀ t, Sized 1 2 1 (h.temperature t) ∧ Sized 1 2 1 (h.rh t) ∧ Sized 1 2 1 (h.dewpoint t) :=
  ⟨⟨true, true, true, true, [[fin 0, fin (-999)]], fun _ => ⟨[fin 280, fin 270], 1, 2, 1⟩, fun _ => ⟨[fin (1 / 2), nan], 1, 2, 1⟩,
    fun _ => ⟨[fin 275, fin (-999)], 1, 2, 1⟩, none⟩, rfl, rfl, rfl, rfl, rfl, ⟨rfl, by simp⟩, fun _ => ⟨⟨rfl, rfl, rfl, rfl⟩, ⟨rfl, rfl, rfl, rfl⟩,
    ⟨rfl, rfl, rfl, rfl⟩⟩⟩

end Gridpp.Props
