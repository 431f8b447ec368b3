import Verif.Model.Physics
import Verif.Model.Curve
import Verif.Spec.Elementwise
import Verif.Lemmas.Elementwise
import Verif.Lemmas.Grid
import Verif.Base.Loops
import Verif.Props.Humidity

/-! # C68: element-wise vector overloads -/

set_option linter.unusedSectionVars false

namespace Gridpp.Props
open Fl Res Spec

theorem omp_ok_iff {α : Type} {x : Res α} {a : α} : Res.omp x = ok a ↔ x = ok a := by
  cases x <;> simp [Res.omp]

theorem vget_of_some {α : Type} {l : List α} {i : Nat} {x : α} (h : l[i]? = some x) : vget l (i : Int) = ok x := by
  rw [vget_nat, h]

theorem getElem?_of_lt {α : Type} (l : List α) {i : Nat} (h : i < l.length) : ∃ x, l[i]? = some x := ⟨_, List.getElem?_eq_getElem h⟩

theorem lt_of_some {α : Type} {l : List α} {i : Nat} {x : α} (h : l[i]? = some x) : i < l.length := (List.getElem?_eq_some_iff.mp h).1

section
variable {α β δ ε ζ γ : Type}

theorem loop2 (f : α → β → Res γ) {a : List α} {b : List β} (h : a.length = b.length) (out : List γ) :
    Res.omp (mapM (fun i => do let x ← vget a i; let y ← vget b i; f x y) (upto a.length)) = ok out ↔ Elementwise2 f a b out := by
  rw [omp_ok_iff, mapM_upto_ok_iff]
  refine and_congr_right fun _ => ⟨fun H i x y hx hy => ?_, fun H i hi => ?_⟩
  · obtain ⟨v, hv, e⟩ := H i (lt_of_some hx)
    rw [vget_of_some hx, ok_bind, vget_of_some hy, ok_bind] at e
    exact ⟨v, hv, e⟩
  · obtain ⟨x, hx⟩ := getElem?_of_lt a hi
    obtain ⟨y, hy⟩ := getElem?_of_lt b (h ▸ hi)
    obtain ⟨v, hv, e⟩ := H i x y hx hy
    exact ⟨v, hv, by rw [vget_of_some hx, ok_bind, vget_of_some hy, ok_bind, e]⟩

theorem loop3 (f : α → β → δ → Res γ) {a : List α} {b : List β} {c : List δ} (h : a.length = b.length) (h2 : a.length = c.length) (out : List γ) :
    Res.omp (mapM (fun i => do let x ← vget a i; let y ← vget b i; let z ← vget c i; f x y z) (upto a.length)) = ok out ↔ Elementwise3 f a b c out := by
  rw [omp_ok_iff, mapM_upto_ok_iff]
  refine and_congr_right fun _ => ⟨fun H i x y z hx hy hz => ?_, fun H i hi => ?_⟩
  · obtain ⟨v, hv, e⟩ := H i (lt_of_some hx)
    rw [vget_of_some hx, ok_bind, vget_of_some hy, ok_bind, vget_of_some hz, ok_bind] at e
    exact ⟨v, hv, e⟩
  · obtain ⟨x, hx⟩ := getElem?_of_lt a hi
    obtain ⟨y, hy⟩ := getElem?_of_lt b (h ▸ hi)
    obtain ⟨z, hz⟩ := getElem?_of_lt c (h2 ▸ hi)
    obtain ⟨v, hv, e⟩ := H i x y z hx hy hz
    exact ⟨v, hv, by rw [vget_of_some hx, ok_bind, vget_of_some hy, ok_bind, vget_of_some hz, ok_bind, e]⟩

theorem loop4 (f : α → β → δ → ε → Res γ) {a : List α} {b : List β} {c : List δ} {d : List ε} (h : b.length = a.length) (h2 : c.length = a.length)
    (h3 : d.length = a.length) (out : List γ) :
    Res.omp (mapM (fun i => do let x ← vget a i; let y ← vget b i; let z ← vget c i; let w ← vget d i; f x y z w) (upto a.length)) = ok out ↔
      Elementwise4 f a b c d out := by
  rw [omp_ok_iff, mapM_upto_ok_iff]
  refine and_congr_right fun _ => ⟨fun H i x y z w hx hy hz hw => ?_, fun H i hi => ?_⟩
  · obtain ⟨v, hv, e⟩ := H i (lt_of_some hx)
    rw [vget_of_some hx, ok_bind, vget_of_some hy, ok_bind, vget_of_some hz, ok_bind, vget_of_some hw, ok_bind] at e
    exact ⟨v, hv, e⟩
  · obtain ⟨x, hx⟩ := getElem?_of_lt a hi
    obtain ⟨y, hy⟩ := getElem?_of_lt b (h ▸ hi)
    obtain ⟨z, hz⟩ := getElem?_of_lt c (h2 ▸ hi)
    obtain ⟨w, hw⟩ := getElem?_of_lt d (h3 ▸ hi)
    obtain ⟨v, hv, e⟩ := H i x y z w hx hy hz hw
    exact ⟨v, hv, by rw [vget_of_some hx, ok_bind, vget_of_some hy, ok_bind, vget_of_some hz, ok_bind, vget_of_some hw, ok_bind, e]⟩

theorem loop5 (f : α → β → δ → ε → ζ → Res γ) {a : List α} {b : List β} {c : List δ} {d : List ε} {e' : List ζ} (h : b.length = a.length)
    (h2 : c.length = a.length) (h3 : d.length = a.length) (h4 : e'.length = a.length) (out : List γ) :
    Res.omp (mapM (fun i => do let x ← vget a i; let y ← vget b i; let z ← vget c i; let w ← vget d i; let u ← vget e' i; f x y z w u)
      (upto a.length)) = ok out ↔ Elementwise5 f a b c d e' out := by
  rw [omp_ok_iff, mapM_upto_ok_iff]
  refine and_congr_right fun _ => ⟨fun H i x y z w u hx hy hz hw hu => ?_, fun H i hi => ?_⟩
  · obtain ⟨v, hv, e⟩ := H i (lt_of_some hx)
    rw [vget_of_some hx, ok_bind, vget_of_some hy, ok_bind, vget_of_some hz, ok_bind, vget_of_some hw, ok_bind, vget_of_some hu, ok_bind] at e
    exact ⟨v, hv, e⟩
  · obtain ⟨x, hx⟩ := getElem?_of_lt a hi
    obtain ⟨y, hy⟩ := getElem?_of_lt b (h ▸ hi)
    obtain ⟨z, hz⟩ := getElem?_of_lt c (h2 ▸ hi)
    obtain ⟨w, hw⟩ := getElem?_of_lt d (h3 ▸ hi)
    obtain ⟨u, hu⟩ := getElem?_of_lt e' (h4 ▸ hi)
    obtain ⟨v, hv, e⟩ := H i x y z w u hx hy hz hw hu
    exact ⟨v, hv, by rw [vget_of_some hx, ok_bind, vget_of_some hy, ok_bind, vget_of_some hz, ok_bind, vget_of_some hw, ok_bind, vget_of_some hu,
      ok_bind, e]⟩

/-- If the scalar function is defined on all elements, there is an output. -/
theorem elementwise2_exists (f : α → β → Res γ) (a : List α) (b : List β) (h : a.length = b.length)
    (hf : ∀ (i : Nat) x y, a[i]? = some x → b[i]? = some y → ∃ v, f x y = ok v) : ∃ out, Elementwise2 f a b out := by
  obtain ⟨out, -, ho, H⟩ := mapM_upto_exists (f := fun i : Int => do let x ← vget a i; let y ← vget b i; f x y) (n := a.length) (P := fun _ _ => True)
    (fun k hk => by
      obtain ⟨x, hx⟩ := getElem?_of_lt a hk
      obtain ⟨y, hy⟩ := getElem?_of_lt b (h ▸ hk)
      obtain ⟨v, hv⟩ := hf k x y hx hy
      refine ⟨v, ?_, trivial⟩
      rw [vget_of_some hx, ok_bind, vget_of_some hy, ok_bind, hv])
  refine ⟨out, ho, fun i x y hx hy => ?_⟩
  obtain ⟨v, hv, e, -⟩ := H i (lt_of_some hx)
  rw [vget_of_some hx, ok_bind, vget_of_some hy, ok_bind] at e
  exact ⟨v, hv, e⟩

end

variable {K : Type} [Field K] [LinearOrder K] [IsStrictOrderedRing K] [FloorRing K]

/-- **C68**: `dewpoint`. -/
theorem c68_dewpoint [HasExp K] (a b out : List (Fl K)) :
    (a.length ≠ b.length → dewpointVec a b = .throw .invalidArgument) ∧
    (a.length = b.length → (dewpointVec a b = ok out ↔ Elementwise2 (fun x y => ok (dewpoint x y)) a b out)) := by
  unfold dewpointVec
  exact ⟨fun h => if_pos h, fun h => by rw [if_neg (not_not.mpr h)]; exact loop2 _ h out⟩

/-- **C68**: `relative_humidity`. -/
theorem c68_relative_humidity (a b out : List (Fl K)) :
    (a.length ≠ b.length → relativeHumidityVec a b = .throw .invalidArgument) ∧
    (a.length = b.length → (relativeHumidityVec a b = ok out ↔ Elementwise2 relativeHumidity a b out)) := by
  unfold relativeHumidityVec
  exact ⟨fun h => if_pos h, fun h => by rw [if_neg (not_not.mpr h)]; exact loop2 _ h out⟩

/-- **C68**: `wetbulb`. -/
theorem c68_wetbulb [HasExp K] (a b c out : List (Fl K)) :
    (a.length ≠ b.length ∨ a.length ≠ c.length → wetbulbVec a b c = .throw .invalidArgument) ∧
    (a.length = b.length → a.length = c.length →
      (wetbulbVec a b c = ok out ↔ Elementwise3 (fun x y z => ok (wetbulb x y z)) a b c out)) := by
  unfold wetbulbVec
  refine ⟨fun h => ?_, fun h h2 => by rw [if_neg (not_not.mpr h), if_neg (not_not.mpr h2)]; exact loop3 _ h h2 out⟩
  by_cases h1 : a.length ≠ b.length
  · exact if_pos h1
  · rw [if_neg h1, if_pos (h.resolve_left h1)]

/-- **C68**: `pressure`. -/
theorem c68_pressure [HasExp K] (a b c d out : List (Fl K)) :
    (b.length ≠ a.length ∨ c.length ≠ a.length ∨ d.length ≠ a.length → pressureVec a b c d = .throw .invalidArgument) ∧
    (b.length = a.length → c.length = a.length → d.length = a.length →
      (pressureVec a b c d = ok out ↔ Elementwise4 (fun x y z w => ok (pressure x y z w)) a b c d out)) := by
  unfold pressureVec
  refine ⟨fun h => if_pos h, fun h h2 h3 => ?_⟩
  rw [if_neg (by simp [h, h2, h3])]
  exact loop4 _ h h2 h3 out

/-- **C68**: `sea_level_pressure`. -/
theorem c68_sea_level_pressure [HasExp K] (a b c d e out : List (Fl K)) :
    (b.length ≠ a.length ∨ c.length ≠ a.length ∨ d.length ≠ a.length ∨ e.length ≠ a.length →
      seaLevelPressureVec a b c d e = .throw .invalidArgument) ∧
    (b.length = a.length → c.length = a.length → d.length = a.length → e.length = a.length →
      (seaLevelPressureVec a b c d e = ok out ↔ Elementwise5 seaLevelPressure a b c d e out)) := by
  unfold seaLevelPressureVec
  refine ⟨fun h => if_pos h, fun h h2 h3 h4 => ?_⟩
  rw [if_neg (by simp [h, h2, h3, h4])]
  exact loop5 _ h h2 h3 h4 out

/-- **C68**: `qnh`. -/
theorem c68_qnh [HasExp K] (a b out : List (Fl K)) :
    (a.length ≠ b.length → qnhVec a b = .throw .invalidArgument) ∧
    (a.length = b.length → (qnhVec a b = ok out ↔ Elementwise2 (fun x y => ok (qnh x y)) a b out)) := by
  unfold qnhVec
  exact ⟨fun h => if_pos h, fun h => by rw [if_neg (not_not.mpr h)]; exact loop2 _ h out⟩

/-- **C68**: `wind_speed`. -/
theorem c68_wind_speed [HasSqrt K] (a b out : List (Fl K)) :
    (a.length ≠ b.length → windSpeedVec a b = .throw .invalidArgument) ∧
    (a.length = b.length → (windSpeedVec a b = ok out ↔ Elementwise2 (fun x y => ok (windSpeed x y)) a b out)) := by
  unfold windSpeedVec
  exact ⟨fun h => if_pos h, fun h => by rw [if_neg (not_not.mpr h)]; exact loop2 _ h out⟩

/-- **C68**: `wind_direction`. -/
theorem c68_wind_direction [HasAtan2 K] (a b out : List (Fl K)) :
    (a.length ≠ b.length → windDirectionVec a b = .throw .invalidArgument) ∧
    (a.length = b.length → (windDirectionVec a b = ok out ↔ Elementwise2 (fun x y => ok (windDirection x y)) a b out)) := by
  unfold windDirectionVec
  exact ⟨fun h => if_pos h, fun h => by rw [if_neg (not_not.mpr h)]; exact loop2 _ h out⟩

/-- **C68**: the functions of two vectors that have no failing elements always return for equal sizes. -/
theorem c68_total [HasExp K] [HasSqrt K] [HasAtan2 K] (a b : List (Fl K)) (h : a.length = b.length) :
    (∃ out, dewpointVec a b = ok out) ∧ (∃ out, relativeHumidityVec a b = ok out) ∧ (∃ out, qnhVec a b = ok out) ∧
    (∃ out, windSpeedVec a b = ok out) ∧ (∃ out, windDirectionVec a b = ok out) := by
  refine ⟨?_, ?_, ?_, ?_, ?_⟩
  · exact (elementwise2_exists _ a b h fun _ x y _ _ => ⟨_, rfl⟩).imp fun out ho => ((c68_dewpoint a b out).2 h).mpr ho
  · refine (elementwise2_exists _ a b h fun _ x y _ _ => ?_).imp fun out ho => ((c68_relative_humidity a b out).2 h).mpr ho
    by_cases hx : isValid x = true ∧ isValid y = true
    · obtain ⟨p, rfl⟩ := exists_fin_of_valid hx.1
      obtain ⟨q, rfl⟩ := exists_fin_of_valid hx.2
      obtain ⟨v, hv, -⟩ := c59_relative_humidity p q
      exact ⟨_, hv⟩
    · refine ⟨_, c59_humidity_missing ?_⟩
      rw [not_and_or] at hx
      simpa using hx
  · exact (elementwise2_exists _ a b h fun _ x y _ _ => ⟨_, rfl⟩).imp fun out ho => ((c68_qnh a b out).2 h).mpr ho
  · exact (elementwise2_exists _ a b h fun _ x y _ _ => ⟨_, rfl⟩).imp fun out ho => ((c68_wind_speed a b out).2 h).mpr ho
  · exact (elementwise2_exists _ a b h fun _ x y _ _ => ⟨_, rfl⟩).imp fun out ho => ((c68_wind_direction a b out).2 h).mpr ho

/-- **C68**: `interpolate`. -/
theorem c68_interpolate (x iX iY out : List (Fl K)) :
    (iX.length ≠ iY.length → interpolateVec x iX iY = .throw .invalidArgument) ∧
    (iX.length = iY.length → (interpolateVec x iX iY = ok out ↔ List.Forall₂ (fun v w => interpolate v iX iY = ok w) x out)) := by
  unfold interpolateVec
  exact ⟨fun h => if_pos h, fun h => by rw [if_neg (not_not.mpr h), omp_ok_iff, mapM_ok_iff]⟩

/-- **C68**: `apply_curve` on a vector. -/
theorem c68_apply_curve (f ref curve out : List (Fl K)) (below above : Extrapolation) :
    (ref.length ≠ curve.length ∨ ref = [] → applyCurveVec f ref curve below above = .throw .invalidArgument) ∧
    (ref.length = curve.length → ref ≠ [] →
      (applyCurveVec f ref curve below above = ok out ↔ List.Forall₂ (fun v w => applyCurve v ref curve below above = ok w) f out)) := by
  unfold applyCurveVec
  constructor
  · intro h
    by_cases hl : ref.length ≠ curve.length
    · rw [if_pos hl]
    · rw [if_neg hl, if_pos (by rw [h.resolve_left hl]; rfl)]
  · intro h h2
    rw [if_neg (not_not.mpr h), if_neg (by simpa using h2), omp_ok_iff, mapM_ok_iff]

/-- **C68**: `apply_curve` on a field. -/
theorem c68_apply_curve_field (f out : List (List (Fl K))) (ref curve : List (Fl K)) (below above : Extrapolation) :
    (ref.length ≠ curve.length ∨ ref = [] → applyCurveVec2 f ref curve below above = .throw .invalidArgument) ∧
    (ref.length = curve.length → ref ≠ [] →
      (applyCurveVec2 f ref curve below above = ok out ↔
        List.Forall₂ (List.Forall₂ fun v w => applyCurve v ref curve below above = ok w) f out)) := by
  unfold applyCurveVec2
  constructor
  · intro h
    by_cases hl : ref.length ≠ curve.length
    · rw [if_pos hl]
    · rw [if_neg hl, if_pos (by rw [h.resolve_left hl]; rfl)]
  · intro h h2
    rw [if_neg (not_not.mpr h), if_neg (by simpa using h2), mapM_ok_iff]
    have : (fun (a b : List (Fl K)) => applyCurveVec a ref curve below above = ok b) =
        List.Forall₂ fun v w => applyCurve v ref curve below above = ok w := by
      funext a b
      exact propext ((c68_apply_curve a ref curve b below above).2 h h2)
    rw [this]

/-- Two arrays of curves with curves of equal lengths in every cell. -/
def SameCurves (Y X : Nat) (ref curve : List (List (List (Fl K)))) : Prop :=
  Rect Y X ref ∧ Rect Y X curve ∧ ∀ y x r c, cell? ref y x = some r → cell? curve y x = some c → r.length = c.length

theorem compatible33_of {Y X : Nat} {ref curve : List (List (List (Fl K)))} (h : SameCurves Y X ref curve) : compatibleSize33 ref curve = true := by
  obtain ⟨h1, h2, h3⟩ := h
  unfold compatibleSize33
  rw [decide_eq_true_eq]
  refine List.ext_getElem (by simp [h1.1, h2.1]) fun y hy hy' => ?_
  simp only [List.length_map] at hy hy'
  rw [List.getElem_map, List.getElem_map]
  have r1 := h1.2 _ (List.getElem_mem hy)
  have r2 := h2.2 _ (List.getElem_mem hy')
  refine List.ext_getElem (by simp [r1, r2]) fun x hx hx' => ?_
  simp only [List.length_map] at hx hx'
  rw [List.getElem_map, List.getElem_map]
  exact h3 y x _ _ (by simp [cell?, hy, hx]) (by simp [cell?, hy', hx'])

theorem compatible23_of {α β : Type} {Y X : Nat} (hY : 0 < Y) {a : List (List α)} {b : List (List (List β))} (ha : Rect Y X a) (hb : Rect Y X b) :
    compatibleSize23 a b = true := by
  cases a with
  | nil => have := ha.1; simp at this; omega
  | cons r rs =>
    cases b with
    | nil => have := hb.1; simp at this; omega
    | cons s ss =>
      have h1 := ha.1; have h2 := hb.1
      have h3 := ha.2 r (by simp); have h4 := hb.2 s (by simp)
      simp only [List.length_cons] at h1 h2
      simp only [compatibleSize23, Bool.and_eq_true, decide_eq_true_eq]
      omega

/-- **C68**: `apply_curve` with a curve for each cell, for non-empty rectangular fields. -/
theorem c68_apply_curve_spatial_partial {Y X : Nat} (hY : 0 < Y) {f : List (List (Fl K))} {ref curve : List (List (List (Fl K)))} (hf : Rect Y X f)
    (hc : SameCurves Y X ref curve) (out : List (List (Fl K))) (below above : Extrapolation) :
    applyCurveSpatial f ref curve below above = ok out ↔ Rect Y X out ∧ ∀ y x v r c, cell? f y x = some v → cell? ref y x = some r →
      cell? curve y x = some c → ∃ w, cell? out y x = some w ∧ applyCurve v r c below above = ok w := by
  have hc1 := hc.1
  have hc2 := hc.2.1
  obtain ⟨r0, hr0, hr0X⟩ : ∃ r0, vget f 0 = ok r0 ∧ r0.length = X := by
    cases f with
    | nil => have := hf.1; simp at this; omega
    | cons r rs => exact ⟨r, vget_zero_cons r rs, hf.2 r (by simp)⟩
  unfold applyCurveSpatial
  rw [compatible33_of hc, compatible23_of hY hf hc1, compatible23_of hY hf hc2, if_neg (by simp), if_neg (by simp), if_neg (by simp), hr0, ok_bind,
    hr0X, hf.1, omp_ok_iff]
  constructor
  · intro h
    obtain ⟨hR, H⟩ := grid2_eq_ok h
    refine ⟨hR, fun y x v r c hv hr hcc => ?_⟩
    obtain ⟨hy, hx⟩ := cell?_lt hf hv
    obtain ⟨w, hw, e⟩ := H y hy x hx
    rw [vget2_of_cell? hv, ok_bind, vget2_of_cell? hr, ok_bind, vget2_of_cell? hcc, ok_bind] at e
    exact ⟨w, hw, e⟩
  · rintro ⟨hR, H⟩
    have key : ∀ y < Y, ∀ x < X, ∃ w, cell? out y x = some w ∧ (do
        let input ← vget2 f (y : Int) (x : Int)
        let r ← vget2 ref (y : Int) (x : Int)
        let c ← vget2 curve (y : Int) (x : Int)
        applyCurve input r c below above) = ok w := by
      intro y hy x hx
      obtain ⟨v, hv⟩ := hf.cell?_some hy hx
      obtain ⟨r, hr⟩ := hc1.cell?_some hy hx
      obtain ⟨c, hcc⟩ := hc2.cell?_some hy hx
      obtain ⟨w, hw, e⟩ := H y x v r c hv hr hcc
      exact ⟨w, hw, by rw [vget2_of_cell? hv, ok_bind, vget2_of_cell? hr, ok_bind, vget2_of_cell? hcc, ok_bind, e]⟩
    obtain ⟨out', ho', hR', H'⟩ := grid2_exists (f := fun y x => do
        let input ← vget2 f y x
        let r ← vget2 ref y x
        let c ← vget2 curve y x
        applyCurve input r c below above) (P := fun y x w => cell? out y x = some w) (fun y hy x hx => by
      obtain ⟨w, hw, e⟩ := key y hy x hx
      exact ⟨w, e, hw⟩)
    rw [ho']
    congr 1
    refine Rect.ext hR' hR fun y hy x hx => ?_
    obtain ⟨w, hw, -, hw'⟩ := H' y hy x hx
    rw [hw, hw']

/-- Sizes that do not match in the number of rows, of columns of the first row, or of points of a curve, are reported. -/
theorem c68_apply_curve_spatial_throws (f : List (List (Fl K))) (ref curve : List (List (List (Fl K)))) (below above : Extrapolation)
    (h : ref.map (List.map List.length) ≠ curve.map (List.map List.length) ∨ f.length ≠ ref.length ∨
      (f.head?.map List.length ≠ ref.head?.map List.length)) :
    applyCurveSpatial f ref curve below above = .throw .invalidArgument := by
  unfold applyCurveSpatial
  by_cases h1 : compatibleSize33 ref curve = false
  · rw [if_pos h1]
  · rw [if_neg h1, if_pos]
    rcases h with h | h | h
    · exact absurd (decide_eq_false h) h1
    · match f, ref with
      | [], [] => simp at h
      | [], _ :: _ => rfl
      | _ :: _, [] => rfl
      | a :: as, b :: bs =>
        simp only [List.length_cons, ne_eq, Nat.add_right_cancel_iff] at h
        simp [compatibleSize23, h]
    · match f, ref with
      | [], [] => simp at h
      | [], _ :: _ => rfl
      | _ :: _, [] => rfl
      | a :: as, b :: bs =>
        have h' : a.length ≠ b.length := by simpa using h
        simp [compatibleSize23, h']

/-- **C68** is false of the overload with a curve for each cell: the empty field passes the checks and its first row is read,
and a field whose second row is too short passes the checks and is read outside its bounds. -/
theorem c68_apply_curve_spatial_unchecked :
    applyCurveSpatial ([] : List (List (Fl ℚ))) [] [] .zero .zero = ub ∧
    applyCurveSpatial [[fin (0 : ℚ), fin 1], [fin 0]] [[[fin 0], [fin 0]], [[fin 0], [fin 0]]] [[[fin 0], [fin 0]], [[fin 0], [fin 0]]] .zero .zero = ub := by
  decide +kernel

/-- Concrete cases. -/
example : windSpeedVec [fin (3 : ℚ), fin 0] [fin 4, fin 2] = ok [fin 5, fin 2] ∧ windSpeedVec [fin (3 : ℚ), fin 0] [fin 4] = .throw .invalidArgument ∧
    applyCurveSpatial [[fin (1 : ℚ), fin 3]] [[[fin 0, fin 4], [fin 1, fin 2]]] [[[fin 0, fin 2], [fin 2, fin 4]]] .zero .zero =
      ok [[fin 2, fin (3 / 2)]] := by decide +kernel

end Gridpp.Props
