import Verif.Model.Curve
import Verif.Lemmas.Elementwise
import Verif.Lemmas.Units
import Verif.Props.OIUnits
import Verif.Base.Inst
import Verif.Spec.Units

/-! C176: calibration curves in other units. -/

set_option linter.unusedSectionVars false

namespace Gridpp.Props
open Fl Res Spec

section
variable {K : Type} [Field K] [LinearOrder K] [IsStrictOrderedRing K]

/-! ### The order in other units -/

theorem inUnits_pinf {c : K} (hc : 0 < c) (d : K) : inUnits c d pinf = (pinf : Fl K) := by
  unfold inUnits
  rw [fin_mul_pinf, infOfSign_pos hc]
  rfl

theorem inUnits_ninf {c : K} (hc : 0 < c) (d : K) : inUnits c d ninf = (ninf : Fl K) := by
  unfold inUnits
  rw [fin_mul_ninf, infOfSign_neg (neg_lt_zero.mpr hc)]
  rfl

theorem inUnits_fin (c d q : K) : inUnits c d (fin q) = fin (c * q + d) := rfl

theorem inUnits_missing (c d : K) : inUnits c d nan = (nan : Fl K) := rfl

theorem inUnits_lt {c : K} (hc : 0 < c) (d : K) (x y : Fl K) : (inUnits c d x).lt (inUnits c d y) = x.lt y := by
  cases x <;> cases y <;> simp only [inUnits_missing, inUnits_pinf hc, inUnits_ninf hc, inUnits_fin] <;>
    first | rfl | simp [Fl.lt, hc]

theorem inUnits_feq {c : K} (hc : 0 < c) (d : K) (x y : Fl K) : (inUnits c d x).feq (inUnits c d y) = x.feq y := by
  cases x <;> cases y <;> simp only [inUnits_missing, inUnits_pinf hc, inUnits_ninf hc, inUnits_fin] <;>
    first | rfl | simp [Fl.feq, hc.ne']

theorem inUnits_le {c : K} (hc : 0 < c) (d : K) (x y : Fl K) : (inUnits c d x).le (inUnits c d y) = x.le y := by
  unfold Fl.le
  rw [inUnits_lt hc, inUnits_feq hc]

theorem inUnits_ge {c : K} (hc : 0 < c) (d : K) (x y : Fl K) : (inUnits c d x).ge (inUnits c d y) = x.ge y := inUnits_le hc d y x

theorem inUnits_gt {c : K} (hc : 0 < c) (d : K) (x y : Fl K) : (inUnits c d x).gt (inUnits c d y) = x.gt y := inUnits_lt hc d y x

/-! ### Quotients -/

theorem scale_div_num {k : K} (hk : k ≠ 0) (x y : Fl K) : (fin k * x) / y = fin k * (x / y) := by
  rcases scale_cases hk with ⟨h, e1, e2⟩ | ⟨h, e1, e2⟩
  all_goals
    cases x with
    | nan => rfl
    | pinf =>
      cases y with
      | fin b =>
        rw [e1]
        show (if b < 0 then _ else _) = fin k * (if b < 0 then _ else _)
        split <;> simp only [e1, e2]
      | _ => simp only [e1] <;> rfl
    | ninf =>
      cases y with
      | fin b =>
        rw [e2]
        show (if b < 0 then _ else _) = fin k * (if b < 0 then _ else _)
        split <;> simp only [e1, e2]
      | _ => simp only [e2] <;> rfl
    | fin a =>
      cases y with
      | fin b =>
        show (if b = 0 then infOfSign (k * a) else fin (k * a / b)) = fin k * (if b = 0 then infOfSign a else fin (a / b))
        split
        · rw [scale_infOfSign hk]
        · rw [mul_div_assoc]
          rfl
      | nan => rfl
      | _ =>
        show fin 0 = fin (k * 0)
        rw [mul_zero]

theorem scale_scale_eq (a b : K) (ha : a ≠ 0) (x : Fl K) : fin a * (fin b * x) = fin (a * b) * x := by
  rw [scale_mul ha]
  rfl

theorem scale_one (x : Fl K) : fin (1 : K) * x = x := by
  cases x with
  | fin q => show fin (1 * q) = _; rw [one_mul]
  | nan => rfl
  | pinf => exact infOfSign_pos one_pos
  | ninf => exact infOfSign_neg (by simp)

theorem scale_div_den {k : K} (hk : 0 < k) (x y : Fl K) : x / (fin k * y) = fin k⁻¹ * (x / y) := by
  have hi : k⁻¹ ≠ 0 := inv_ne_zero hk.ne'
  rw [← scale_div_num hi, ← scale_div hk (fin k⁻¹ * x) y, scale_scale_eq _ _ hk.ne', mul_inv_cancel₀ hk.ne', scale_one]

/-- A slope in other units. -/
theorem slope_units {c c' : K} (hc : 0 < c) (hc' : c' ≠ 0) (d d' : K) (r1 r0 f1 f0 : Fl K) :
    (inUnits c' d' r1 - inUnits c' d' r0) / (inUnits c d f1 - inUnits c d f0) = fin (c' / c) * ((r1 - r0) / (f1 - f0)) := by
  rw [inUnits_sub hc', inUnits_sub hc.ne', scale_div_num hc', scale_div_den hc, scale_scale_eq _ _ hc', div_eq_mul_inv]

/-- A point on a line in other units. -/
theorem line_units {c c' : K} (hc : 0 < c) (hc' : c' ≠ 0) (d d' : K) (o s x f : Fl K) :
    inUnits c' d' o + fin (c' / c) * s * (inUnits c d x - inUnits c d f) = inUnits c' d' (o + s * (x - f)) := by
  have hq : c' / c ≠ 0 := div_ne_zero hc' hc.ne'
  rw [inUnits_add hc', inUnits_sub hc.ne', ← scale_mul hq, scale_mul_right hc.ne', scale_scale_eq _ _ hq, div_mul_cancel₀ _ hc.ne']

theorem half_units {c : K} (hc : c ≠ 0) (d : K) (x y : Fl K) : (inUnits c d x + inUnits c d y) / fin 2 = inUnits c d ((x + y) / fin 2) := by
  have h2 : (2 : K) ≠ 0 := two_ne_zero
  have h2' : ¬ (2 : K) < 0 := not_lt.mpr zero_le_two
  have e : ∀ z : Fl K, z / fin 2 = fin 2⁻¹ * z := by
    intro z
    have := scale_div_den (two_pos (α := K)) z (fin 1)
    rw [fin_mul, mul_one] at this
    rw [this]
    congr 1
    cases z with
    | fin q => show (if (1 : K) = 0 then _ else fin (q / 1)) = _; rw [if_neg one_ne_zero, div_one]
    | nan => rfl
    | pinf => exact if_neg (not_lt.mpr zero_le_one)
    | ninf => exact if_neg (not_lt.mpr zero_le_one)
  have hi : (2 : K)⁻¹ ≠ 0 := inv_ne_zero h2
  rw [e, e]
  unfold inUnits
  rw [scale_scale_eq _ _ hc, mul_comm c, ← scale_scale_eq _ _ hi, scale_add hc]
  generalize fin c * x = u
  generalize fin c * y = v
  rw [scale_add hi, scale_add hi, scale_add hi, scale_add hi]
  have hd : ∀ a b : Fl K, (a + fin 2⁻¹ * fin d) + (b + fin 2⁻¹ * fin d) = a + b + fin d := by
    intro a b
    cases a <;> cases b <;> first | rfl | skip
    show fin _ = fin _
    congr 1
    field_simp
    ring
  exact hd _ _

/-! ### `interpolate` and `apply_curve` -/

theorem lowerScan_units {c : K} (hc : 0 < c) (d : K) (x : Fl K) (l : List (Fl K)) (i : Nat) (o : Option Nat) :
    lowerScan (inUnits c d x) (l.map (inUnits c d)) i o = lowerScan x l i o := by
  induction l generalizing i o with
  | nil => rfl
  | cons v t ih => simp only [List.map_cons, lowerScan, inUnits_isValid hc.ne', inUnits_lt hc, inUnits_feq hc, inUnits_gt hc, ih]

theorem upperScan_units {c : K} (hc : 0 < c) (d : K) (x : Fl K) (l : List (Fl K)) (o : Option Nat) :
    upperScan (inUnits c d x) (l.map (inUnits c d)) o = upperScan x l o := by
  induction l generalizing o with
  | nil => rfl
  | cons v t ih => simp only [List.map_cons, upperScan, inUnits_isValid hc.ne', inUnits_lt hc, inUnits_feq hc, inUnits_gt hc, ih, List.length_map]

theorem vgetOpt_map {α β : Type} (f : α → β) (l : List α) (i : Option Nat) : vgetOpt (l.map f) i = f <$> vgetOpt l i := by
  cases i with
  | none => rfl
  | some i => exact vget_map f l i

/-- **C176**: linear interpolation, with abscissas and ordinates in units of their own. -/
theorem c176_interpolate (c d c' d' : K) (hc : 0 < c) (hc' : c' ≠ 0) (x : Fl K) (X Y : List (Fl K)) :
    interpolate (inUnits c d x) (X.map (inUnits c d)) (Y.map (inUnits c' d')) = inUnits c' d' <$> interpolate x X Y := by
  unfold interpolate
  simp only [inUnits_isValid hc.ne', List.length_map, vget_map, map_bind_eq, getLowerIndex, getUpperIndex, lowerScan_units hc, ← List.map_reverse, upperScan_units hc,
    vgetOpt_map, inUnits_lt hc, inUnits_gt hc, inUnits_feq hc, inUnits_ge hc, half_units hc']
  split
  · rfl
  split
  · rfl
  split
  · rfl
  simp only [bind_map_eq]
  congr 1; funext last
  split
  · rfl
  simp only [bind_map_eq]
  congr 1; funext first
  split
  · rfl
  simp only [bind_map_eq]
  congr 1; funext x0
  congr 1; funext x1
  congr 1; funext y0
  congr 1; funext y1
  split
  · by_cases e0 : lowerScan x X 0 none = some 0 <;> by_cases e1 : upperScan x X.reverse none = some (X.length - 1) <;>
      simp only [e0, e1, and_self, and_true, and_false, if_true, if_false, map_ok]
  · simp only [bind_map_eq]
    congr 1; funext u
    rw [map_ok, inUnits_sub hc', inUnits_sub hc.ne', inUnits_sub hc.ne', scale_mul_right hc.ne', scale_div hc, ← scale_mul hc', scale_div_num hc', inUnits_add hc']

/-- The policies that give the same in all units: the slopes of the curve (if it has at least two points) and no slope always, one to one if the units of forecast and
reference differ by an offset only, unchanged if they are the same. -/
def PolicyUnits (c d c' d' : K) (n : Nat) : Extrapolation → Prop
  | .unchanged => c' = c ∧ d' = d
  | .oneToOne => c' = c
  | .meanSlope | .nearestSlope | .other => c' = c ∨ 2 ≤ n
  | .zero => True

/-- The slope used outside the curve. -/
def slopeBeyond (isBelow : Bool) (policy : Extrapolation) (ref fcst : List (Fl K)) (so sf lo lf : Fl K) : Res (Fl K) :=
  if policy = .zero then ok 0
  else if policy = .oneToOne ∨ (fcst.length : Int) ≤ 1 then ok 1
  else if policy = .meanSlope then ok ((lo - so) / (lf - sf))
  else if policy = .nearestSlope then
    if isBelow then do
      let r1 ← vget ref 1
      let r0 ← vget ref 0
      let f1 ← vget fcst 1
      let f0 ← vget fcst 0
      ok ((r1 - r0) / (f1 - f0))
    else do
      let r1 ← vget ref ((fcst.length : Int) - 1)
      let r0 ← vget ref ((fcst.length : Int) - 2)
      let f1 ← vget fcst ((fcst.length : Int) - 1)
      let f0 ← vget fcst ((fcst.length : Int) - 2)
      ok ((r1 - r0) / (f1 - f0))
  else throw .invalidArgument

/-- The value outside the curve. -/
def beyond (x : Fl K) (isBelow : Bool) (policy : Extrapolation) (ref fcst : List (Fl K)) (so sf lo lf o f : Fl K) : Res (Fl K) :=
  if policy = .unchanged then ok x
  else do
    let slope ← slopeBeyond isBelow policy ref fcst so sf lo lf
    ok (o + slope * (x - f))

theorem applyCurve_eq (x : Fl K) (ref fcst : List (Fl K)) (below above : Extrapolation) :
    applyCurve x ref fcst below above =
      (if ref.length ≠ fcst.length then throw .invalidArgument
      else if ref.length = 0 then throw .invalidArgument
      else do
        let so ← vget ref 0
        let sf ← vget fcst 0
        let lo ← vget ref ((fcst.length : Int) - 1)
        let lf ← vget fcst ((fcst.length : Int) - 1)
        if x.ge sf && x.le lf then interpolate x fcst ref
        else beyond x (x.le sf) (if x.le sf then below else above) ref fcst so sf lo lf (if x.le sf then so else lo) (if x.le sf then sf else lf) : Res (Fl K)) := rfl

theorem slopeBeyond_units {c d c' d' : K} (hc : 0 < c) (hc' : c' ≠ 0) (isBelow : Bool) (policy : Extrapolation) (ref fcst : List (Fl K)) (so sf lo lf : Fl K)
    (hp : policy = .zero ∨ (policy ≠ .oneToOne ∧ 2 ≤ fcst.length)) :
    slopeBeyond isBelow policy (ref.map (inUnits c' d')) (fcst.map (inUnits c d)) (inUnits c' d' so) (inUnits c d sf) (inUnits c' d' lo) (inUnits c d lf) =
      (fun s => fin (c' / c) * s) <$> slopeBeyond isBelow policy ref fcst so sf lo lf := by
  unfold slopeBeyond
  rcases hp with rfl | ⟨h1, h2⟩
  · rw [if_pos rfl, if_pos rfl, map_ok, scale_zero]
  · rw [List.length_map]
    have h3 : ¬ (policy = .oneToOne ∨ (fcst.length : Int) ≤ 1) := by
      rintro (h | h)
      · exact h1 h
      · omega
    rw [if_neg h3, if_neg h3]
    simp only [vget_map, map_bind_eq, slope_units hc hc']
    cases policy <;> cases isBelow <;> simp only [reduceCtorEq, if_true, if_false, Bool.false_eq_true, map_ok, scale_zero, bind_map_eq] <;> rfl

theorem beyond_units {c d c' d' : K} (hc : 0 < c) (hc' : c' ≠ 0) (x : Fl K) (isBelow : Bool) (policy : Extrapolation) (ref fcst : List (Fl K)) (so sf lo lf o f : Fl K)
    (hp : PolicyUnits c d c' d' fcst.length policy) :
    beyond (inUnits c d x) isBelow policy (ref.map (inUnits c' d')) (fcst.map (inUnits c d)) (inUnits c' d' so) (inUnits c d sf) (inUnits c' d' lo) (inUnits c d lf)
        (inUnits c' d' o) (inUnits c d f) =
      inUnits c' d' <$> beyond x isBelow policy ref fcst so sf lo lf o f := by
  unfold beyond
  by_cases hu : policy = .unchanged
  · rw [hu] at hp
    rw [if_pos hu, if_pos hu, hp.1, hp.2, map_ok]
  rw [if_neg hu, if_neg hu]
  by_cases hs : policy = .zero ∨ (policy ≠ .oneToOne ∧ 2 ≤ fcst.length)
  · simp only [slopeBeyond_units hc hc' isBelow policy ref fcst so sf lo lf hs, map_bind_eq, bind_map_eq, map_ok, line_units hc hc']
  · have hz : policy ≠ .zero := fun h => hs (.inl h)
    have h1 : policy = .oneToOne ∨ (fcst.length : Int) ≤ 1 := by
      by_contra h
      exact hs (.inr ⟨fun e => h (.inl e), by omega⟩)
    have he : c' = c := by
      cases policy with
      | unchanged => exact absurd rfl hu
      | zero => exact absurd rfl hz
      | oneToOne => exact hp
      | _ =>
        rcases h1 with h1 | h1
        · cases h1
        · exact hp.resolve_right (by omega)
    have := line_units hc hc' d d' o 1 x f
    rw [he, div_self hc.ne', scale_one] at this
    unfold slopeBeyond
    rw [List.length_map, if_neg hz, if_neg hz, if_pos h1, if_pos h1, ok_bind, ok_bind, map_ok, he, this]

/-- **C176**: `apply_curve`, with forecasts and references in units of their own. -/
theorem c176_apply_curve (c d c' d' : K) (hc : 0 < c) (hc' : c' ≠ 0) (x : Fl K) (ref fcst : List (Fl K)) (below above : Extrapolation)
    (hb : PolicyUnits c d c' d' fcst.length below) (ha : PolicyUnits c d c' d' fcst.length above) :
    applyCurve (inUnits c d x) (ref.map (inUnits c' d')) (fcst.map (inUnits c d)) below above = inUnits c' d' <$> applyCurve x ref fcst below above := by
  rw [applyCurve_eq, applyCurve_eq]
  simp only [List.length_map, vget_map, map_bind_eq, inUnits_le hc, inUnits_ge hc, c176_interpolate c d c' d' hc hc']
  split
  · rfl
  split
  · rfl
  simp only [bind_map_eq]
  congr 1; funext so
  congr 1; funext sf
  congr 1; funext lo
  congr 1; funext lf
  split
  · rfl
  by_cases hx : x.le sf = true
  · simp only [hx, if_true]
    exact beyond_units hc hc' x _ _ ref fcst so sf lo lf so sf hb
  · simp only [hx, if_false, Bool.false_eq_true]
    exact beyond_units hc hc' x _ _ ref fcst so sf lo lf lo lf ha

/-- **C176**: `apply_curve` for lists, fields and fields with a curve for each cell. -/
theorem c176_apply_curve_fields (c d c' d' : K) (hc : 0 < c) (hc' : c' ≠ 0) (v : List (Fl K)) (f : List (List (Fl K))) (ref fcst : List (Fl K)) (below above : Extrapolation)
    (hb : PolicyUnits c d c' d' fcst.length below) (ha : PolicyUnits c d c' d' fcst.length above) :
    applyCurveVec (v.map (inUnits c d)) (ref.map (inUnits c' d')) (fcst.map (inUnits c d)) below above = List.map (inUnits c' d') <$> applyCurveVec v ref fcst below above ∧
    applyCurveVec2 (f.map (List.map (inUnits c d))) (ref.map (inUnits c' d')) (fcst.map (inUnits c d)) below above =
      List.map (List.map (inUnits c' d')) <$> applyCurveVec2 f ref fcst below above := by
  have h1 : ∀ v : List (Fl K), applyCurveVec (v.map (inUnits c d)) (ref.map (inUnits c' d')) (fcst.map (inUnits c d)) below above =
      List.map (inUnits c' d') <$> applyCurveVec v ref fcst below above := by
    intro v
    unfold applyCurveVec
    simp only [List.length_map, mapM_map, c176_apply_curve c d c' d' hc hc' _ ref fcst below above hb ha, mapM_map_eq, omp_map]
    split_ifs <;> rfl
  refine ⟨h1 v, ?_⟩
  unfold applyCurveVec2
  simp only [List.length_map, mapM_map, h1, mapM_map_eq]
  split_ifs <;> rfl

theorem curve_mem_of_vget2 {α : Type} {l : List (List α)} {i j : Int} {a : α} (h : vget2 l i j = ok a) : ∃ r ∈ l, a ∈ r := by
  obtain ⟨r, hr, h⟩ := bind_eq_ok.mp h
  have mem : ∀ {β : Type} {l : List β} {i : Int} {a : β}, vget l i = ok a → a ∈ l := by
    intro β l i a h
    obtain ⟨k, -, hk⟩ := vget_eq_ok.mp h
    exact List.mem_of_getElem? hk
  exact ⟨r, mem hr, mem h⟩

/-- **C176**: `apply_curve` with a curve for each cell. -/
theorem c176_apply_curve_spatial (c d c' d' : K) (hc : 0 < c) (hc' : c' ≠ 0) (f : List (List (Fl K))) (ref fcst : List (List (List (Fl K)))) (below above : Extrapolation)
    (hb : ∀ row ∈ fcst, ∀ curve ∈ row, PolicyUnits c d c' d' curve.length below) (ha : ∀ row ∈ fcst, ∀ curve ∈ row, PolicyUnits c d c' d' curve.length above) :
    applyCurveSpatial (f.map (List.map (inUnits c d))) (ref.map (List.map (List.map (inUnits c' d')))) (fcst.map (List.map (List.map (inUnits c d)))) below above =
      List.map (List.map (inUnits c' d')) <$> applyCurveSpatial f ref fcst below above := by
  have e33 : ∀ (p q : Fl K → Fl K) (a b : List (List (List (Fl K)))),
      compatibleSize33 (a.map (List.map (List.map p))) (b.map (List.map (List.map q))) = compatibleSize33 a b := by
    intro p q a b
    unfold compatibleSize33
    simp [Function.comp_def]
  have e23 : ∀ (p q : Fl K → Fl K) (a : List (List (Fl K))) (b : List (List (List (Fl K)))),
      compatibleSize23 (a.map (List.map p)) (b.map (List.map (List.map q))) = compatibleSize23 a b := by
    intro p q a b
    cases a <;> cases b <;> simp [compatibleSize23]
  unfold applyCurveSpatial
  simp only [e33, e23, vget_map, vget2_map, map_bind_eq, List.length_map]
  split
  · rfl
  split
  · rfl
  split
  · rfl
  simp only [bind_map_eq]
  congr 1; funext row0
  rw [← omp_map, ← grid2_map_eq]
  congr 2
  funext y x
  simp only [bind_map_eq]
  congr 1; funext v
  congr 1; funext r
  cases hq : vget2 fcst y x with
  | ok q =>
    obtain ⟨row, h1, h2⟩ := curve_mem_of_vget2 hq
    exact c176_apply_curve c d c' d' hc hc' v r q below above (hb row h1 q h2) (ha row h1 q h2)
  | _ => rfl

/-! ### `monotonize_curve` -/

/-- A forecast moved by an offset. -/
theorem shift_lt_sub (d t : K) (x y : Fl K) : (inUnits 1 d x).lt (inUnits 1 d y - fin t) = x.lt (y - fin t) := by
  have : inUnits 1 d y - fin t = inUnits 1 d (y - fin t) := by
    unfold inUnits
    rw [scale_one, scale_one]
    cases y <;> first | rfl | skip
    show fin _ = fin _
    congr 1
    ring
  rw [this, inUnits_lt one_pos]

theorem shift_add (d t : K) (y : Fl K) : inUnits 1 d y + fin t = inUnits 1 d (y + fin t) := by
  unfold inUnits
  rw [scale_one, scale_one]
  cases y <;> first | rfl | skip
  show fin _ = fin _
  congr 1
  ring

/-- The state of the loop with moved forecasts. -/
def shiftState (d : K) (s : MonoState K) : MonoState K := { s with xmin := inUnits 1 d s.xmin, xmax := inUnits 1 d s.xmax, prev := inUnits 1 d s.prev }

theorem monoPop_shift (d : K) (fcst : List (Fl K)) (xmin : Fl K) (idx : List Nat) :
    monoPop (fcst.map (inUnits 1 d)) (inUnits 1 d xmin) idx = monoPop fcst xmin idx := by
  induction idx with
  | nil => rfl
  | cons i t ih =>
    unfold monoPop
    simp only [vget_map, map_bind_eq, monoTol, shift_lt_sub, ih]
    rfl

theorem monoFinish_shift (d : K) (fcst : List (Fl K)) (xmin : Fl K) (n : Nat) (stack : List Nat) :
    monoFinish (fcst.map (inUnits 1 d)) (inUnits 1 d xmin) n stack = monoFinish fcst xmin n stack := by
  induction n generalizing stack with
  | zero => rfl
  | succ n ih =>
    unfold monoFinish
    simp only [vget_map, map_bind_eq, inUnits_ge one_pos, ih]

theorem monoStep_shift {c' : K} (hc' : c' ≠ 0) (d d' : K) (ref fcst : List (Fl K)) (s : MonoState K) (i : Nat) :
    monoStep (ref.map (inUnits c' d')) (fcst.map (inUnits 1 d)) (shiftState d s) i = shiftState d <$> monoStep ref fcst s i := by
  unfold monoStep
  simp only [vget_map, map_bind_eq, inUnits_isValid hc', inUnits_isValid (one_ne_zero (α := K)), bind_map_eq]
  congr 1; funext x
  congr 1; funext y
  congr 1; funext u
  congr 1; funext u'
  have ht : ∀ z : Fl K, inUnits 1 d z + monoTol = inUnits 1 d (z + monoTol) := fun z => shift_add d _ z
  have hm : (if (inUnits 1 d x).lt (shiftState d s).xmin then inUnits 1 d x else (shiftState d s).xmin) = inUnits 1 d (if x.lt s.xmin then x else s.xmin) := by
    show (if (inUnits 1 d x).lt (inUnits 1 d s.xmin) then _ else inUnits 1 d s.xmin) = _
    rw [inUnits_lt one_pos]
    split <;> rfl
  simp only [hm]
  show (if s.dev then (if (inUnits 1 d x).gt (inUnits 1 d s.xmax + monoTol) then _ else _) else
    if (inUnits 1 d x).le (inUnits 1 d s.prev + monoTol) then _ else _) = _
  rw [ht, ht, inUnits_gt one_pos, inUnits_le one_pos, monoPop_shift]
  by_cases h1 : s.dev = true
  · rw [if_pos h1, if_pos h1]
    by_cases h2 : x.gt (s.xmax + monoTol) = true
    · rw [if_pos h2, if_pos h2]
      simp only [bind_map_eq]
      rfl
    · rw [if_neg h2, if_neg h2]
      rfl
  · rw [if_neg h1, if_neg h1]
    by_cases h2 : x.le (s.prev + monoTol) = true
    · rw [if_pos h2, if_pos h2]
      rfl
    · rw [if_neg h2, if_neg h2]
      rfl

theorem foldM_sim {α β : Type} {f f' : β → α → Res β} (g : β → β) (h : ∀ b a, f' (g b) a = g <$> f b a) (b : β) (l : List α) :
    foldM f' (g b) l = g <$> foldM f b l := by
  induction l generalizing b with
  | nil => rfl
  | cons a t ih =>
    simp only [foldM_cons, h, map_bind_eq, bind_map_eq, ih]

/-- **C176** (`monotonize_curve`): references in any units, forecasts moved by any offset. What is missing of the full claim: other factors for the forecasts, for which it is
false (`c176_monotonize_tolerance`). -/
theorem c176_monotonize_partial (d c' d' : K) (hc' : c' ≠ 0) (ref fcst : List (Fl K)) :
    monotonizeCurve (ref.map (inUnits c' d')) (fcst.map (inUnits 1 d)) =
      (fun p => (p.1.map (inUnits c' d'), p.2.map (inUnits 1 d))) <$> monotonizeCurve ref fcst := by
  have hk : ((ref.map (inUnits c' d')).zip (fcst.map (inUnits 1 d))).filter (fun p => p.2.isValid && p.1.isValid) =
      ((ref.zip fcst).filter fun p => p.2.isValid && p.1.isValid).map (fun p => (inUnits c' d' p.1, inUnits 1 d p.2)) := by
    rw [List.zip_map, List.filter_map]
    show List.map _ _ = List.map (Prod.map (inUnits c' d') (inUnits 1 d)) _
    congr 1
    apply List.filter_congr
    intro p _
    simp [inUnits_isValid hc', inUnits_isValid (one_ne_zero (α := K))]
  unfold monotonizeCurve
  simp only [hk, List.length_map, List.map_map, Function.comp_def]
  split
  · rfl
  split
  · rfl
  generalize (ref.zip fcst).filter (fun p => p.2.isValid && p.1.isValid) = kept
  have er : kept.map (fun p => inUnits c' d' p.1) = (kept.map Prod.fst).map (inUnits c' d') := by simp
  have ef : kept.map (fun p => inUnits 1 d p.2) = (kept.map Prod.snd).map (inUnits 1 d) := by simp
  rw [er, ef]
  simp only [vget_map (inUnits 1 d), vget_map (inUnits c' d'), map_bind_eq, bind_map_eq]
  congr 1; funext x0
  have := foldM_sim (f := monoStep (kept.map Prod.fst) (kept.map Prod.snd)) (shiftState d) (monoStep_shift hc' d d' _ _)
    { dev := false, xmin := x0, xmax := x0, prev := x0, idx := [0] } ((List.range kept.length).drop 1)
  rw [show ({ dev := false, xmin := inUnits 1 d x0, xmax := inUnits 1 d x0, prev := inUnits 1 d x0, idx := [0] } : MonoState K) =
    shiftState d { dev := false, xmin := x0, xmax := x0, prev := x0, idx := [0] } from rfl, this, map_bind_eq]
  congr 1; funext s
  show (if s.dev then monoFinish _ (inUnits 1 d s.xmin) s.idx.length s.idx else ok s.idx) >>= _ = _
  rw [monoFinish_shift]
  congr 1; funext idx
  simp only [mapM_map_eq, map_bind_eq]
  rfl

/-! ### `quantile_mapping_curve` -/

theorem inUnits_isNan {c : K} (hc : 0 < c) (d : K) (x : Fl K) : (inUnits c d x).isNan = x.isNan := by
  cases x <;> simp only [inUnits_missing, inUnits_pinf hc, inUnits_ninf hc, inUnits_fin] <;> rfl

theorem stdSort_units {c : K} (hc : 0 < c) (d : K) (l : List (Fl K)) : stdSort (l.map (inUnits c d)) = List.map (inUnits c d) <$> stdSort l := by
  unfold stdSort
  have : (l.map (inUnits c d)).any Fl.isNan = l.any Fl.isNan := by
    rw [List.any_map]
    congr 1
    funext x
    exact inUnits_isNan hc d x
  rw [this]
  split
  · rfl
  · rw [map_ok, List.map_insertionSort (r := fun a b => Fl.le a b = true) (s := fun a b => Fl.le a b = true)]
    intro a _ b _
    rw [inUnits_le hc]

/-- **C176**: `quantile_mapping_curve`, with forecasts and references in units of their own (both increasing). -/
theorem c176_quantile_mapping [FloorRing K] (c d c' d' : K) (hc : 0 < c) (hc' : 0 < c') (ref fcst quantiles : List (Fl K)) :
    quantileMappingCurve (ref.map (inUnits c' d')) (fcst.map (inUnits c d)) quantiles =
      (fun p => (p.1.map (inUnits c' d'), p.2.map (inUnits c d))) <$> quantileMappingCurve ref fcst quantiles := by
  unfold quantileMappingCurve
  simp only [List.length_map, stdSort_units hc, stdSort_units hc', map_bind_eq, vget_map]
  split
  · rfl
  split
  · rfl
  split
  · rfl
  split
  · rfl
  simp only [bind_map_eq]
  congr 1; funext rs
  congr 1; funext fs
  split
  · rfl
  have e : ∀ q : Fl K, (do
      let index ← Fl.truncInt (q * Fl.ofInt ((fs.length : Int) - 1))
      let f ← vget fcst index
      let r ← vget ref index
      ok (inUnits c' d' r, inUnits c d f) : Res (Fl K × Fl K)) = (fun p => (inUnits c' d' p.1, inUnits c d p.2)) <$> (do
      let index ← Fl.truncInt (q * Fl.ofInt ((fs.length : Int) - 1))
      let f ← vget fcst index
      let r ← vget ref index
      ok (r, f) : Res (Fl K × Fl K)) := by
    intro q
    simp only [bind_map_eq, map_ok]
  simp only [e]
  rw [mapM_map_eq, map_bind_eq, bind_map_eq]
  congr 1; funext out
  simp [map_ok, Function.comp_def]

end

/-! ### Concrete cases -/

/-- **C176** (negation for `monotonize_curve`): the tolerance is 0.1 whatever the unit of the forecasts. In metres the curve is returned as it is; in kilometres its second point
is dropped. -/
theorem c176_monotonize_tolerance : monotonizeCurve [fin (0 : ℚ), fin 1] [fin 0, fin 50] = ok ([fin 0, fin 1], [fin 0, fin 50]) ∧
    monotonizeCurve ([fin (0 : ℚ), fin 1]) ([fin 0, fin 50].map (inUnits (1 / 1000) 0)) = ok ([fin 0], [fin 0]) := by
  constructor <;> decide +kernel

/-- **C176** (negation for one to one and unchanged): with references in a unit that differs from the unit of the forecasts by a factor the continuation is another one. -/
theorem c176_one_to_one_units :
    applyCurve (fin (3 : ℚ)) [fin 0, fin 10] [fin 0, fin 1] .oneToOne .oneToOne = ok (fin 12) ∧
    applyCurve (fin (3 : ℚ)) ([fin 0, fin 10].map (inUnits 2 0)) [fin 0, fin 1] .oneToOne .oneToOne = ok (fin 22) ∧
    applyCurve (fin (3 : ℚ)) ([fin 0, fin 10].map (inUnits 2 0)) [fin 0, fin 1] .unchanged .unchanged = ok (fin 3) := by
  refine ⟨?_, ?_, ?_⟩ <;> decide +kernel

/-- A curve for temperatures with forecasts in °F and references in K: inside, below (mean slope) and above (no slope). -/
example : applyCurveVec ([fin (5 : ℚ), fin (-5), fin 30].map (inUnits (9 / 5) 32)) ([fin 1, fin 9, fin 21].map (inUnits 1 273)) ([fin 0, fin 10, fin 20].map (inUnits (9 / 5) 32))
      .meanSlope .zero = ok ([fin 5, fin (-4), fin 21].map (inUnits 1 273)) ∧
    PolicyUnits (9 / 5 : ℚ) 32 1 273 3 .meanSlope ∧ PolicyUnits (9 / 5 : ℚ) 32 1 273 3 .zero := by
  refine ⟨by decide +kernel, .inr (by norm_num), trivial⟩

/-- A curve that is not increasing, moved by an offset. -/
example : monotonizeCurve ([fin (0 : ℚ), fin 1, fin 2, fin 3].map (inUnits 2 1)) ([fin 0, fin 2, fin 1, fin 3].map (inUnits 1 273)) =
    ok ([fin 1, fin 7], [fin 273, fin 276]) := by decide +kernel

example : quantileMappingCurve ([fin (3 : ℚ), fin 1].map (inUnits 2 1)) ([fin 0, fin 2].map (inUnits 1 273)) [] = ok ([fin 3, fin 7], [fin 273, fin 275]) := by decide +kernel

end Gridpp.Props
