import Verif.Lemmas.Client.Diagnose
import Verif.Props.Wind
import Verif.Props.Client.WindDirection

/-! # C113: wind diagnosed by the client -/

set_option linter.unusedSectionVars false

namespace Gridpp.Props
open Fl hiding MV isValid
open Res Client

/-- The angle in radians that the code takes for a direction in degrees; 3.14159265 stands for the number pi. -/
noncomputable def radiansUsed (d : ℝ) : ℝ := d / 180 * (314159265 / 100000000)

theorem windX_fin (s d : ℝ) : windX (fin s) (fin d) = fin (-s * Real.sin (radiansUsed d)) := by
  unfold windX
  rw [fin_div_of_ne d (by norm_num : (180 : ℝ) ≠ 0), fin_mul]
  rfl

theorem windY_fin (s d : ℝ) : windY (fin s) (fin d) = fin (-s * Real.cos (radiansUsed d)) := by
  unfold windY
  rw [fin_div_of_ne d (by norm_num : (180 : ℝ) ≠ 0), fin_mul]
  rfl

/-- What the value at a place is, as a number of the two inputs. -/
def WindValue (kind : WindKind) (p q w : ℝ) : Prop :=
  match kind with
  | .x => w = -p * Real.sin (radiansUsed q)
  | .y => w = -p * Real.cos (radiansUsed q)
  | .speed => 0 ≤ w ∧ w * w = p * p + q * q
  | .direction => Gridpp.windDirection (fin p) (fin q) = fin w ∧ 0 ≤ w ∧ w < 360
  | .other => True

/-- **C113**. Where both inputs are present, the components are those of the speed and the direction the wind comes from, the speed is the
length of the vector, and the direction is that of the library, in [0, 360). Elsewhere the value stays. -/
theorem c113_value {Y X E : Nat} (kind : WindKind) (hk : kind ≠ .other) (a b : Nat → FieldC ℝ) {fields : List (FieldC ℝ)}
    (hs : Series Y X E fields) (ht : ∀ t < fields.length, Sized Y X E (a t) ∧ Sized Y X E (b t)) :
    ∃ out, diagnoseWind Y X E kind true true a b fields = ok out ∧ out.length = fields.length ∧ Series Y X E out ∧
      ∀ t < fields.length, ∀ y < Y, ∀ x < X, ∀ e < E, ∃ v w va vb, At fields t y x e v ∧ At out t y x e w ∧
        (a t).get y x e = ok va ∧ (b t).get y x e = ok vb ∧ (¬ (Present va ∧ Present vb) → w = v) ∧
        ∀ p q : ℝ, va = fin p → vb = fin q → p ≠ -999 → q ≠ -999 → ∃ u, w = fin u ∧ WindValue kind p q u := by
  have key : ∀ fn : Fl ℝ → Fl ℝ → Fl ℝ, (∀ p q, ∃ u, fn (fin p) (fin q) = fin u ∧ WindValue kind p q u) →
      ∃ out, eachTime (fun t f => diagnoseField Y X E true (a t) (b t) (fun _ _ _ p q => ok (fn p q)) f) fields = ok out ∧
        out.length = fields.length ∧ Series Y X E out ∧
        ∀ t < fields.length, ∀ y < Y, ∀ x < X, ∀ e < E, ∃ v w va vb, At fields t y x e v ∧ At out t y x e w ∧
          (a t).get y x e = ok va ∧ (b t).get y x e = ok vb ∧ (¬ (Present va ∧ Present vb) → w = v) ∧
          ∀ p q : ℝ, va = fin p → vb = fin q → p ≠ -999 → q ≠ -999 → ∃ u, w = fin u ∧ WindValue kind p q u := by
    intro fn hfn
    obtain ⟨out, h1, h2, h3, h4⟩ := diagnose_spec hs a b (fun _ _ _ _ p q => ok (fn p q)) ht (fun _ _ _ _ _ _ _ _ _ _ _ _ => ⟨_, rfl⟩)
    refine ⟨out, h1, h2, h3, fun t ht y hy x hx e he => ?_⟩
    obtain ⟨v, w, va, vb, g1, g2, g3, g4, g5, g6⟩ := h4 t ht y hy x hx e he
    refine ⟨v, w, va, vb, g1, g2, g3, g4, g5, ?_⟩
    rintro p q rfl rfl hp hq
    have hw := g6 ⟨p, rfl, hp⟩ ⟨q, rfl, hq⟩
    rw [Res.ok.injEq] at hw
    obtain ⟨u, k1, k2⟩ := hfn p q
    exact ⟨u, by rw [← hw, k1], k2⟩
  unfold diagnoseWind
  cases kind with
  | x => exact key windX fun p q => ⟨_, windX_fin p q, rfl⟩
  | y => exact key windY fun p q => ⟨_, windY_fin p q, rfl⟩
  | speed => exact key speedOf fun p q => c61_speed p q
  | direction =>
    refine key directionOf fun p q => ?_
    obtain ⟨d, h1, h2⟩ := c61_range p q
    exact ⟨d, h1, h1, h2⟩
  | other => exact absurd rfl hk

/-- **C113** (there and back). From a speed and a direction to the components and back, the speed is the same; so is the direction up to 180
degrees, and above it is too small by a constant below a millionth of a degree. -/
theorem c113_inverse {s d : ℝ} (hs : 0 < s) (h0 : 0 ≤ d) (h1 : d < 360) :
    speedOf (windX (fin s) (fin d)) (windY (fin s) (fin d)) = fin s ∧
    ∃ d', directionOf (windX (fin s) (fin d)) (windY (fin s) (fin d)) = fin d' ∧ (d ≤ 180 → d' = d) ∧ d' ≤ d ∧ d - d' < 1 / 1000000 := by
  obtain ⟨hc3, hcpi⟩ := piConst_bounds
  have hpi2 := Real.pi_lt_d20
  have hc : (0 : ℝ) < piConst := by linarith
  have hθ : radiansUsed d = d * piConst / 180 := by unfold radiansUsed piConst; ring
  set θ := radiansUsed d with hdef
  have hθ0 : 0 ≤ θ := by rw [hθ]; positivity
  have hθ2 : θ < 2 * piConst := by
    rw [hθ, div_lt_iff₀ (by norm_num)]
    nlinarith
  have hback : θ * 180 / piConst = d := by rw [hθ]; field_simp
  rw [windX_fin, windY_fin, ← hdef]
  constructor
  · obtain ⟨r, e1, e2, e3⟩ := c61_speed (-s * Real.sin θ) (-s * Real.cos θ)
    have hr : r = s := by
      have h5 : r * r = s * s := by
        rw [e3]
        have := Real.sin_sq_add_cos_sq θ
        calc _ = s * s * (Real.sin θ ^ 2 + Real.cos θ ^ 2) := by ring
          _ = s * s := by rw [this, mul_one]
      nlinarith
    rw [← hr]
    exact hr ▸ e1
  · have hdir : directionOf (fin (-s * Real.sin θ)) (fin (-s * Real.cos θ)) = windDirectionWith piConst (fin (-s * Real.sin θ)) (fin (-s * Real.cos θ)) := rfl
    rw [hdir, windDirection_fin hc]
    have harg : ∀ φ : ℝ, Real.sin φ = Real.sin θ → Real.cos φ = Real.cos θ → -Real.pi < φ → φ ≤ Real.pi →
        Complex.arg ⟨-(-s * Real.cos θ), -(-s * Real.sin θ)⟩ = φ := by
      intro φ e1 e2 e3 e4
      rw [← Complex.arg_mul_cos_add_sin_mul_I hs ⟨e3, e4⟩]
      congr 1
      apply Complex.ext
      · simp [← Complex.ofReal_cos, ← Complex.ofReal_sin, e2]
      · simp [← Complex.ofReal_cos, ← Complex.ofReal_sin, e1]
    by_cases hle : θ ≤ Real.pi
    · rw [harg θ rfl rfl (by linarith [Real.pi_pos]) hle, if_neg (not_lt.mpr hθ0), hback]
      exact ⟨d, rfl, fun _ => rfl, le_refl _, by norm_num⟩
    · push Not at hle
      rw [harg (θ - 2 * Real.pi) (Real.sin_sub_two_pi θ) (Real.cos_sub_two_pi θ) (by linarith) (by linarith), if_pos (by linarith)]
      have hval : (θ - 2 * Real.pi) * 180 / piConst + 360 = d - 360 * (Real.pi - piConst) / piConst := by
        rw [← hback]
        field_simp
        ring
      rw [hval]
      refine ⟨_, rfl, fun hd => ?_, ?_, ?_⟩
      · exfalso
        have : θ ≤ piConst := by
          rw [hθ, div_le_iff₀ (by norm_num)]
          nlinarith
        linarith
      · have : 0 ≤ 360 * (Real.pi - piConst) / piConst := by
          apply div_nonneg _ hc.le
          linarith
        linarith
      · rw [sub_sub_cancel, div_lt_iff₀ hc]
        have : (piConst : ℝ) = 314159265 / 100000000 := rfl
        rw [this]
        linarith

/-- **C113** (an input that is not in the file) ends the program, as soon as there is a time; any other word after `compute` is accepted and
nothing is changed. -/
theorem c113_errors (Y X E : Nat) (kind : WindKind) (hasA hasB : Bool) (a b : Nat → FieldC ℝ) (fields : List (FieldC ℝ)) :
    (kind = .other → diagnoseWind Y X E kind hasA hasB a b fields = ok fields) ∧
    (kind ≠ .other → fields ≠ [] → (hasA && hasB) = false → diagnoseWind Y X E kind hasA hasB a b fields = .abort) := by
  constructor
  · rintro rfl
    exact eachTime_id fields
  · intro hk hf hh
    obtain ⟨f, l, rfl⟩ := List.exists_cons_of_ne_nil hf
    have h0 : vget (f :: l) ((0 : Nat) : Int) = ok f := rfl
    simp only [diagnoseWind, eachTime, List.length_cons, List.range_succ_eq_map, mapM_cons, h0, ok_bind, hh]
    cases kind with
    | other => exact absurd rfl hk
    | _ => rfl

/-- The hypotheses hold: a speed of 5 from the south-west, and a place where the direction is missing. -/
example : Series 1 2 1 [(⟨[fin 0, fin 7], 1, 2, 1⟩ : FieldC ℝ)] ∧ Sized 1 2 1 (⟨[fin 5, fin 5], 1, 2, 1⟩ : FieldC ℝ) ∧
    Sized 1 2 1 (⟨[fin 225, fin (-999)], 1, 2, 1⟩ : FieldC ℝ) ∧ (0 : ℝ) < 5 ∧ (0 : ℝ) ≤ 225 ∧ (225 : ℝ) < 360 := by
  refine ⟨?_, ⟨rfl, rfl, rfl, rfl⟩, ⟨rfl, rfl, rfl, rfl⟩, by norm_num, by norm_num, by norm_num⟩
  intro f hf
  rw [List.mem_singleton] at hf
  subst hf
  exact ⟨rfl, rfl, rfl, rfl⟩

end Gridpp.Props
