import Verif.Model.Client.Oi
import Verif.Spec.ClientOi
import Verif.Lemmas.Structure
import Verif.Lemmas.Client.Series
import Mathlib.Data.Rat.Floor

/-! # C131: the correlations of the calibrator `oi` -/

set_option linter.unusedSectionVars false

namespace Gridpp.Props
open Fl hiding MV isValid
open Res Client

variable {K : Type} [Field K] [LinearOrder K] [IsStrictOrderedRing K]

/-- The correlation as a function of distance divided by scale. -/
def oiFunction [HasExp K] (soar : Bool) (u : K) : K := if soar then Spec.soar u else Spec.barnes u

/-- The options that belong to the correlation; an option that is not used has the value -999. -/
structure OiScales (o : OiOptions K) (H : K) (V M W : Option K) : Prop where
  hLength : o.hLength = fin H
  vLength : o.vLength = fin (V.getD (-999))
  wMin : o.wMin = fin (M.getD (-999))
  wLength : o.wLength = fin (W.getD (-999))
  H_pos : 0 < H
  V_pos : ∀ a ∈ V, 0 < a
  M_range : ∀ m ∈ M, 0 ≤ m ∧ m ≤ 1
  W_pos : ∀ a ∈ W, 0 < a

theorem valid_getD (a : Option K) (h : ∀ x ∈ a, 0 ≤ x) : Client.isValid (fin (a.getD (-999))) = a.isSome := by
  cases a with
  | none => simp [Client.isValid]
  | some x =>
    have := h x rfl
    have h9 : x ≠ -999 := by rintro rfl; norm_num at this
    simp [Client.isValid, h9]

section
variable [HasExp K]

/-- `calcRho` is the correlation of the specification. -/
theorem calcRho_eq {o : OiOptions K} {H : K} {V M W : Option K} (h : OiScales o H V M W) (d : K) (v : Option K) (hv : ∀ x ∈ v, x ≠ -999)
    (l : K) : calcRho o (fin d) (fin (v.getD (-999))) (fin l) = fin (Spec.oiCorrelation (oiFunction o.soar) H V M W d v l) := by
  have hH := h.H_pos.ne'
  unfold calcRho oiVertical
  rw [h.hLength, h.vLength, h.wMin, h.wLength, valid_getD V (fun a ha => (h.V_pos a ha).le), valid_getD M (fun a ha => (h.M_range a ha).1),
    valid_getD W (fun a ha => (h.W_pos a ha).le)]
  have hvv : Client.isValid (fin (v.getD (-999))) = v.isSome := by
    cases v with
    | none => simp [Client.isValid]
    | some x => simp [Client.isValid, hv x rfl]
  rw [hvv, fin_div_of_ne _ hH]
  have e1 : (if o.soar = true then (1 + fin (d / H)) * Fl.exp (-fin (d / H)) else Fl.exp (fin (-1 / 2) * fin (d / H) * fin (d / H))) =
      fin (oiFunction o.soar (d / H)) := by
    unfold oiFunction
    cases o.soar
    · simp only [Bool.false_eq_true, if_false, fin_mul, Fl.exp, Spec.barnes]
      congr 2; ring
    · simp only [if_true, one_def, fin_add, fin_neg, Fl.exp, fin_mul, Spec.soar]
  dsimp only
  rw [e1]
  have e2 : (if V.isSome = true then if (!v.isSome) = true then (0 : Fl K) else
        fin (oiFunction o.soar (d / H)) * Fl.exp (fin (-1 / 2) * (fin (v.getD (-999)) / fin (V.getD (-999))) * (fin (v.getD (-999)) / fin (V.getD (-999))))
      else fin (oiFunction o.soar (d / H))) = fin (oiFunction o.soar (d / H) * Spec.elevFactor V v) := by
    cases V with
    | none => simp [Spec.elevFactor]
    | some a =>
      cases v with
      | none => simp [Spec.elevFactor]
      | some x =>
        have ha := (h.V_pos a rfl).ne'
        simp only [Option.isSome_some, if_true, Bool.not_true, Bool.false_eq_true, if_false, Option.getD_some, fin_div_of_ne _ ha, fin_mul, Fl.exp, Spec.elevFactor, Spec.barnes]
        congr 3; ring
  rw [e2]
  have e3 : (if M.isSome = true then fin (oiFunction o.soar (d / H) * Spec.elevFactor V v) * (1 - (1 - fin (M.getD (-999))) * (fin l : Fl K).abs)
      else fin (oiFunction o.soar (d / H) * Spec.elevFactor V v)) = fin (oiFunction o.soar (d / H) * Spec.elevFactor V v * Spec.landFactor M l) := by
    cases M with
    | none => simp [Spec.landFactor]
    | some m => simp [Spec.landFactor, Fl.abs]
  rw [e3]
  unfold Spec.oiCorrelation
  cases W with
  | none => simp [Spec.factor]
  | some w =>
    have hw := (h.W_pos w rfl).ne'
    simp only [Option.isSome_some, if_true, Option.getD_some, fin_mul, fin_div_of_ne _ (mul_ne_zero hw hw), Fl.exp, Spec.factor, Spec.barnes]
    congr 3
    field_simp

end

variable [LawfulExp K]

theorem oiFunction_zero (soar : Bool) : oiFunction soar (0 : K) = 1 := by
  cases soar
  · exact barnes_zero
  · exact soar_zero

theorem oiFunction_nonneg (soar : Bool) {u : K} (h : 0 ≤ u) : 0 ≤ oiFunction soar u := by
  cases soar
  · exact (barnes_pos u).le
  · exact soar_nonneg h

theorem oiFunction_anti (soar : Bool) {u v : K} (h : 0 ≤ u) (huv : u ≤ v) : oiFunction soar v ≤ oiFunction soar u := by
  cases soar
  · exact barnes_anti h huv
  · exact soar_anti h huv

theorem barnes_abs (u : K) : Spec.barnes |u| = Spec.barnes u := by
  rcases abs_choice u with h | h <;> rw [h]
  exact barnes_even u

theorem factor_range (W : Option K) (l : K) : 0 ≤ Spec.factor Spec.barnes W l ∧ Spec.factor Spec.barnes W l ≤ 1 := by
  cases W with
  | none => exact ⟨zero_le_one, le_rfl⟩
  | some w =>
    refine ⟨(barnes_pos _).le, ?_⟩
    show Spec.barnes (l / w) ≤ 1
    rw [← barnes_abs, ← barnes_zero]
    exact barnes_anti le_rfl (abs_nonneg _)

theorem barnes_div_anti {a : K} (ha : 0 < a) {l l' : K} (h : |l| ≤ |l'|) : Spec.barnes (l' / a) ≤ Spec.barnes (l / a) := by
  rw [← barnes_abs (l / a), ← barnes_abs (l' / a), abs_div, abs_div, abs_of_pos ha]
  exact barnes_anti (div_nonneg (abs_nonneg _) ha.le) (div_le_div_of_nonneg_right h ha.le)

theorem factor_anti (W : Option K) (hW : ∀ a ∈ W, 0 < a) {l l' : K} (h : |l| ≤ |l'|) :
    Spec.factor Spec.barnes W l' ≤ Spec.factor Spec.barnes W l := by
  cases W with
  | none => exact le_rfl
  | some w => exact barnes_div_anti (hW w rfl) h

omit [LawfulExp K] in
theorem landFactor_range (M : Option K) (hM : ∀ m ∈ M, 0 ≤ m ∧ m ≤ 1) {l : K} (hl : |l| ≤ 1) :
    0 ≤ Spec.landFactor M l ∧ Spec.landFactor M l ≤ 1 := by
  cases M with
  | none => exact ⟨zero_le_one, le_rfl⟩
  | some m =>
    obtain ⟨h0, h1⟩ := hM m rfl
    have := abs_nonneg l
    constructor
    · show 0 ≤ 1 - (1 - m) * |l|
      nlinarith
    · show 1 - (1 - m) * |l| ≤ 1
      nlinarith

omit [LawfulExp K] in
theorem landFactor_anti (M : Option K) (hM : ∀ m ∈ M, 0 ≤ m ∧ m ≤ 1) {l l' : K} (h : |l| ≤ |l'|) :
    Spec.landFactor M l' ≤ Spec.landFactor M l := by
  cases M with
  | none => exact le_rfl
  | some m =>
    obtain ⟨h0, h1⟩ := hM m rfl
    show 1 - (1 - m) * |l'| ≤ 1 - (1 - m) * |l|
    nlinarith

/-- The factor of a known difference in elevation. -/
theorem oiCorrelation_some (f : K → K) (H : K) (V M W : Option K) (d v l : K) :
    Spec.oiCorrelation f H V M W d (some v) l = f (d / H) * Spec.factor Spec.barnes V v * Spec.landFactor M l * Spec.factor Spec.barnes W l := by
  cases V <;> rfl

/-- C131: the correlation is between 0 and 1, it is 1 at the same place, the sign of differences does not matter, it falls with distance
and with differences in elevation and land fraction. -/
theorem c131_law {o : OiOptions K} {H : K} {V M W : Option K} (h : OiScales o H V M W) : ∃ rho : K → K → K → K,
    (∀ d v l, v ≠ -999 → calcRho o (fin d) (fin v) (fin l) = fin (rho d v l)) ∧
    (∀ d v l, 0 ≤ d → |l| ≤ 1 → 0 ≤ rho d v l ∧ rho d v l ≤ 1) ∧
    rho 0 0 0 = 1 ∧
    (∀ d v l, rho d |v| |l| = rho d v l) ∧
    (∀ d v l d' v' l', 0 ≤ d → d ≤ d' → |v| ≤ |v'| → |l| ≤ |l'| → |l'| ≤ 1 → rho d' v' l' ≤ rho d v l) := by
  refine ⟨fun d v l => Spec.oiCorrelation (oiFunction o.soar) H V M W d (some v) l, fun d v l hv => ?_, ?_, ?_, ?_, ?_⟩
  · exact calcRho_eq h d (some v) (fun x hx => by cases hx; exact hv) l
  · intro d v l hd hl
    simp only [oiCorrelation_some]
    have hu : 0 ≤ d / H := div_nonneg hd h.H_pos.le
    have h1 := oiFunction_nonneg o.soar hu
    have h2 : oiFunction o.soar (d / H) ≤ 1 := by rw [← oiFunction_zero o.soar]; exact oiFunction_anti _ le_rfl hu
    obtain ⟨h3, h4⟩ := factor_range V v
    obtain ⟨h5, h6⟩ := landFactor_range M h.M_range hl
    obtain ⟨h7, h8⟩ := factor_range W l
    exact ⟨by positivity, mul_le_one₀ (mul_le_one₀ (mul_le_one₀ h2 h3 h4) h5 h6) h7 h8⟩
  · simp only [oiCorrelation_some, zero_div, oiFunction_zero, one_mul]
    have hf : ∀ a : Option K, Spec.factor Spec.barnes a (0 : K) = 1 := fun a => by
      cases a with
      | none => rfl
      | some a => show Spec.barnes (0 / a) = 1; rw [zero_div, barnes_zero]
    have hl : Spec.landFactor M (0 : K) = 1 := by cases M <;> simp [Spec.landFactor]
    rw [hf, hf, hl]; norm_num
  · intro d v l
    simp only [oiCorrelation_some]
    have hf : ∀ (a : Option K) (x : K), (∀ b ∈ a, 0 < b) → Spec.factor Spec.barnes a |x| = Spec.factor Spec.barnes a x := fun a x ha => by
      cases a with
      | none => rfl
      | some a =>
        show Spec.barnes (|x| / a) = Spec.barnes (x / a)
        rw [← barnes_abs (x / a), abs_div, abs_of_pos (ha a rfl)]
    have hl : Spec.landFactor M |l| = Spec.landFactor M l := by cases M <;> simp [Spec.landFactor]
    rw [hf V v h.V_pos, hf W l h.W_pos, hl]
  · intro d v l d' v' l' hd hdd hv hl hl'
    simp only [oiCorrelation_some]
    have hu : 0 ≤ d / H := div_nonneg hd h.H_pos.le
    have hu' : 0 ≤ d' / H := div_nonneg (hd.trans hdd) h.H_pos.le
    have h1 := oiFunction_anti o.soar hu (div_le_div_of_nonneg_right hdd h.H_pos.le)
    have h2 := factor_anti V h.V_pos hv
    have h3 := landFactor_anti M h.M_range hl
    have h4 := factor_anti W h.W_pos hl
    have n1 := oiFunction_nonneg o.soar hu
    have n2 := (factor_range V v).1
    have n2' := (factor_range V v').1
    have n3 := (landFactor_range M h.M_range (hl.trans hl')).1
    have n3' := (landFactor_range M h.M_range hl').1
    have n4' := (factor_range W l').1
    exact mul_le_mul (mul_le_mul (mul_le_mul h1 h2 n2' n1) h3 n3' (by positivity)) h4 n4' (by positivity)

omit [LawfulExp K] in
/-- C131: if there is a vertical scale, there is no correlation if the difference in elevation is not known. -/
theorem c131_missing [HasExp K] {o : OiOptions K} {H a : K} {M W : Option K} (h : OiScales o H (some a) M W) (d l : K) :
    calcRho o (fin d) Client.MV (fin l) = fin 0 := by
  have := calcRho_eq h d none (fun _ hx => by cases hx) l
  rw [show (Client.MV : Fl K) = fin ((none : Option K).getD (-999)) from rfl, this]
  simp [Spec.oiCorrelation, Spec.elevFactor]

/-- The difference of two land fractions, 0 if one is missing. -/
def landDifference (a b : Option K) : K := match a, b with
  | some a, some b => a - b
  | _, _ => 0

omit [LawfulExp K] in
/-- C131: the correlation used for a station and a grid point whose elevations are known, at the distance `d`, is that of the
specification. What is missing: without elevations the claim is false (`c131_elevation_false`), and without coordinates
(`c131_coordinate_false`). -/
theorem c131_grid_partial [HasExp K] {o : OiOptions K} {H : K} {V M W : Option K} (h : OiScales o H V M W)
    (dist : Fl K → Fl K → Fl K → Fl K → Res (Fl K)) (g : OiPlace K) (s : OiStation K) {d a b : K} {p q : Option K}
    (hd : dist s.lat s.lon g.lat g.lon = ok (fin d)) (ha : s.elev = fin a) (hb : g.elev = fin b) (hab : a - b ≠ -999)
    (hs : s.laf = fin (p.getD (-999))) (hg : g.laf = fin (q.getD (-999))) (hp : ∀ x ∈ p, 0 ≤ x) (hq : ∀ x ∈ q, 0 ≤ x) :
    oiRhoGrid o dist g s =
      ok (fin (Spec.oiCorrelation (oiFunction o.soar) H V M W d (some (a - b)) (landDifference p q))) := by
  unfold oiRhoGrid oiVdist
  rw [hd, ok_bind, ha, hb, hs, hg, valid_getD p hp, valid_getD q hq]
  have e1 : Client.isValid (if (fin a : Fl K).fne 0 && Client.isValid (fin b) then (1 : Fl K) else 0) = true := by
    split_ifs
    · simp [Client.isValid]; norm_num
    · simp [Client.isValid]
  have e2 : (if (p.isSome && q.isSome) = true then (fin (p.getD (-999)) - fin (q.getD (-999)) : Fl K) else 0) = fin (landDifference p q) := by
    cases p <;> cases q <;> simp [landDifference]
  rw [if_pos e1, e2, fin_sub]
  exact congrArg ok (calcRho_eq h d (some (a - b)) (fun x hx => by cases hx; exact hab) _)

omit [LawfulExp K] in
/-- C131: the correlation used for two stations, in the same way. The land fractions of the stations must be known, or that of the grid
point missing (otherwise see `c131_symmetry_false`). -/
theorem c131_stations_partial [HasExp K] {o : OiOptions K} {H : K} {V M W : Option K} (h : OiScales o H V M W)
    (dist : Fl K → Fl K → Fl K → Fl K → Res (Fl K)) (s s' : OiStation K) {d a b p q : K} {g : Option K}
    (hd : dist s.lat s.lon s'.lat s'.lon = ok (fin d)) (ha : s.elev = fin a) (hb : s'.elev = fin b) (hab : a - b ≠ -999)
    (hs : s.laf = fin p) (hs' : s'.laf = fin q) (hp : 0 ≤ p) (hg : ∀ x ∈ g, 0 ≤ x) :
    oiRhoStations o dist (fin (g.getD (-999))) s s' =
      ok (fin (Spec.oiCorrelation (oiFunction o.soar) H V M W d (some (a - b)) (if g.isSome then p - q else 0))) := by
  unfold oiRhoStations oiVdist
  rw [hd, ok_bind, ha, hb, hs, hs', valid_getD g hg]
  have e0 : Client.isValid (fin p) = true := valid_getD (some p) (fun x hx => by cases hx; exact hp)
  have e1 : Client.isValid (if (fin a : Fl K).fne 0 && Client.isValid (fin b) then (1 : Fl K) else 0) = true := by
    split_ifs
    · simp [Client.isValid]; norm_num
    · simp [Client.isValid]
  have e2 : (if (Client.isValid (fin p) && g.isSome) = true then (fin p - fin q : Fl K) else 0) = fin (if g.isSome then p - q else 0) := by
    cases g <;> simp [e0]
  rw [if_pos e1, e2, fin_sub]
  exact congrArg ok (calcRho_eq h d (some (a - b)) (fun x hx => by cases hx; exact hab) _)

/-- C131: it is false that a station is not correlated with a grid point if the elevations are missing although there is a vertical
scale: at the same place the correlation is 1. -/
theorem c131_elevation_false {o : OiOptions K} {H a : K} {M W : Option K} (h : OiScales o H (some a) M W)
    (dist : Fl K → Fl K → Fl K → Fl K → Res (Fl K)) (lat lon obs ci radar : Fl K) (y x : Nat) (hd : dist lat lon lat lon = ok (fin 0)) :
    oiRhoGrid o dist ⟨lat, lon, Client.MV, Client.MV⟩ ⟨lat, lon, Client.MV, obs, ci, radar, y, x, Client.MV⟩ = ok (fin 1) := by
  rw [c131_grid_partial (p := none) (q := none) h dist _ _ hd rfl rfl (by norm_num) rfl rfl (fun _ hx => by cases hx) (fun _ hx => by cases hx)]
  obtain ⟨rho, h1, -, h3, -⟩ := c131_law h
  have e := calcRho_eq h 0 (some 0) (fun x hx => by cases hx; norm_num) 0
  rw [Option.getD_some, h1 0 0 0 (by norm_num), h3] at e
  simp only [sub_self, landDifference]
  exact congrArg ok e.symm

omit [LawfulExp K] in
/-- C131: it is false that a place without coordinates is not correlated with others: the distance -999 is used as a distance, and the
correlation is that of places at a distance of 999 m. -/
theorem c131_coordinate_false [HasExp K] {o : OiOptions K} {H : K} {V M W : Option K} (h : OiScales o H V M W) (hg : o.soar = false) (v l : K)
    (hv : v ≠ -999) : calcRho o Client.MV (fin v) (fin l) = calcRho o (fin 999) (fin v) (fin l) := by
  have hh : ∀ x ∈ some v, x ≠ -999 := fun x hx => by cases hx; exact hv
  have e1 := calcRho_eq h (-999) (some v) hh l
  have e2 := calcRho_eq h 999 (some v) hh l
  rw [Option.getD_some] at e1 e2
  rw [show (Client.MV : Fl K) = fin (-999) from rfl, e1, e2]
  have : oiFunction o.soar (-999 / H) = oiFunction o.soar (999 / H) := by
    rw [hg]
    show Spec.barnes _ = Spec.barnes _
    unfold Spec.barnes
    congr 2; ring
  unfold Spec.oiCorrelation
  rw [this]

/-- C131: it is false that the correlation of two stations does not depend on their order: if one has a land fraction and the other does
not, 1000 is used as the difference in one of the two directions. -/
theorem c131_symmetry_false {o : OiOptions K} {H w : K} {V : Option K} (h : OiScales o H V none (some w))
    (dist : Fl K → Fl K → Fl K → Fl K → Res (Fl K)) (lat lon elev obs ci radar : Fl K) (y x y' x' : Nat) (he : elev = fin 0)
    (hd : dist lat lon lat lon = ok (fin 0)) :
    ∃ r, r < 1 ∧ oiRhoStations o dist (fin 1) ⟨lat, lon, elev, obs, ci, radar, y, x, fin 1⟩ ⟨lat, lon, elev, obs, ci, radar, y', x', Client.MV⟩ = ok (fin r) ∧
      oiRhoStations o dist (fin 1) ⟨lat, lon, elev, obs, ci, radar, y', x', Client.MV⟩ ⟨lat, lon, elev, obs, ci, radar, y, x, fin 1⟩ = ok (fin 1) := by
  refine ⟨Spec.barnes (1000 / w), ?_, ?_, ?_⟩
  · have hw := h.W_pos w rfl
    unfold Spec.barnes
    rw [← LawfulExp.exp_zero (K := K)]
    apply exp_strictMono
    have : 0 < 1000 / w := by positivity
    have := mul_pos this this
    linarith
  · have e := c131_stations_partial (p := 1) (q := -999) (g := some 1) h dist ⟨lat, lon, elev, obs, ci, radar, y, x, fin 1⟩
      ⟨lat, lon, elev, obs, ci, radar, y', x', Client.MV⟩ hd he he (by norm_num) rfl rfl zero_le_one (fun x hx => by cases hx; exact zero_le_one)
    rw [Option.getD_some] at e
    rw [e, oiCorrelation_some]
    have hf : Spec.factor Spec.barnes V ((0 : K) - 0) = 1 := by
      cases V with
      | none => rfl
      | some a => show Spec.barnes ((0 - 0) / a) = 1; rw [sub_zero, zero_div, barnes_zero]
    rw [hf, zero_div, oiFunction_zero]
    simp only [Spec.landFactor, Spec.factor, one_mul, mul_one, Option.isSome_some, if_true]
    norm_num
  · unfold oiRhoStations
    simp only [hd, ok_bind, he]
    have e0 : Client.isValid (Client.MV : Fl K) = false := by simp [Client.isValid, Client.MV]
    have e1 : oiVdist (fin 0 : Fl K) (fin 0) = fin 0 := by
      unfold oiVdist
      have : Client.isValid (if (fin (0 : K)).fne 0 && Client.isValid (fin (0 : K)) then (1 : Fl K) else 0) = true := by
        split_ifs
        · simp [Client.isValid]; norm_num
        · simp [Client.isValid]
      rw [if_pos this, fin_sub, sub_zero]
    obtain ⟨rho, h1, -, h3, -⟩ := c131_law h
    rw [e1, e0]
    simp only [Bool.false_and, Bool.false_eq_true, if_false, zero_def]
    rw [h1 0 0 0 (by norm_num), h3]

/-- The default options, with `wmin` not set. -/
def oiDefault : OiOptions ℚ :=
  { hLength := fin 30000, vLength := fin 100, wLength := fin (1 / 5), wMin := fin (-999), minRho := fin (13 / 10000), soar := false, boxcox := false,
    lambda := fin (1 / 2), boxCoxThreshold := fin (-999), maxLocations := 20, maxElevDiff := fin 200, landOnly := false, crossValidate := false,
    maxBytes := fin 6442450944, elevGradient := fin (-999), useEns := true, minEns := 5, epsilon := fin (1 / 2), sigma := fin 1, sigmaC := fin 1,
    hLengthC := fin 10000, gamma := fin (1 / 4), mu := fin (9 / 10), delta := fin 1, c := fin (103 / 100), newDeltaVar := fin 1, diagnose := false,
    saveDiff := false, extrapolate := false }

/-- The default options are of the form assumed. -/
example : OiScales oiDefault 30000 (some 100) none (some (1 / 5)) :=
  ⟨rfl, rfl, rfl, rfl, by norm_num, fun a h => by cases h; norm_num, fun m h => (by cases h), fun a h => by cases h; norm_num⟩

end Gridpp.Props
