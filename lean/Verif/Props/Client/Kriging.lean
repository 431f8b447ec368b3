import Verif.Props.Client.KrigingCovar
import Verif.Lemmas.Client.Kriging
import Mathlib.Data.Rat.Floor
import Verif.Base.Inst

/-! # C118: kriging of the corrections of the stations -/

set_option linter.unusedSectionVars false

namespace Gridpp.Props
open Fl hiding MV isValid
open Res Client

variable {K : Type} [Field K] [LinearOrder K] [IsStrictOrderedRing K] [FloorRing K] [HasExp K]

/-- `B` is what the function returns for the matrix `A`, and it is a right inverse. -/
def InvertsTo (invert : List (List (Fl K)) → List (List (Fl K))) (N : Nat) (A B : Nat → Nat → K) : Prop :=
  invert (tabulate N N fun i j => fin (A i j)) = (tabulate N N fun i j => fin (B i j)) ∧
  ∀ i < N, ∀ k < N, ∑ j ∈ Finset.range N, A i j * B j k = if i = k then 1 else 0

/-- The weights `w` solve the kriging equations: the covariances `c` (those that are positive) are reproduced. -/
def KrigSolves (N : Nat) (A : Nat → Nat → K) (c w : Nat → K) : Prop := ∀ i < N, ∑ j ∈ Finset.range N, A i j * w j = max 0 (c i)

/-- The correction of a station, relative to no correction: 0 without parameters, otherwise the first one, minus 1 for factors. -/
def StationBias (op : KrigOp) (pars : List (Fl K)) (b : K) : Prop :=
  b ≠ -999 ∧ ((pars = [] ∧ b = 0) ∨
    ∃ r rest, pars = fin r :: rest ∧ r ≠ -999 ∧ b = if op = .multiply ∨ op = .divide then r - 1 else r)

/-- The value `u` corrected by `T`, which is relative to no correction. -/
def KrigCorrected (op : KrigOp) (T : K) (u v : Fl K) : Prop :=
  match op with
  | .add => v = u + fin T
  | .subtract => v = u - fin T
  | .multiply => v = u * fin (1 + T)
  | .divide => v = u / fin (1 + T)

/-- What is known of the stations, the grid points and the parameters of the times. -/
structure KrigInput (o : KrigOptions K) (dist : Fl K → Fl K → Fl K → Fl K → Res (Fl K)) (op : KrigOp) (Y X : Nat)
    (points : Nat → Nat → KPoint K) (locs : List (KPoint K)) (pars : Nat → Nat → List (Fl K)) (times : Nat) (A : Nat → Nat → K)
    (c : Nat → Nat → Nat → K) (b : Nat → Nat → K) : Prop where
  place : ∃ y < Y, ∃ x < X, Placed (points y x)
  matrix : krigMatrix o dist locs = ok (tabulate locs.length locs.length fun i j => fin (A i j))
  covar : ∀ y < Y, ∀ x < X, ∀ i p, locs[i]? = some p → calcCovar o dist p (points y x) = ok (fin (c y x i))
  bias : ∀ t < times, ∀ k < locs.length, StationBias op (pars t k) (b t k)

theorem krigStation_eq {op : KrigOp} {pars : List (Fl K)} {b : K} (h : StationBias op pars b) : krigStation op pars = fin b := by
  obtain ⟨-, ⟨rfl, rfl⟩ | ⟨r, rest, rfl, hr, rfl⟩⟩ := h
  · rfl
  · have : Client.isValid (fin r) = true := by simp [Client.isValid, hr]
    unfold krigStation
    simp only [this, Bool.true_and]
    cases op <;> simp [one_def]

/-- The weights from the inverse. -/
theorem krig_solves {invert : List (List (Fl K)) → List (List (Fl K))} {N : Nat} {A B : Nat → Nat → K} (h : InvertsTo invert N A B)
    (c : Nat → K) : KrigSolves N A c fun i => ∑ j ∈ Finset.range N, B i j * max 0 (c j) := by
  intro i hi
  have h1 : ∀ j ∈ Finset.range N, A i j * ∑ k ∈ Finset.range N, B j k * max 0 (c k) =
      ∑ k ∈ Finset.range N, A i j * B j k * max 0 (c k) := by
    intro j _
    rw [Finset.mul_sum]
    exact Finset.sum_congr rfl fun k _ => by ring
  rw [Finset.sum_congr rfl h1, Finset.sum_comm]
  have h2 : ∀ k ∈ Finset.range N, ∑ j ∈ Finset.range N, A i j * B j k * max 0 (c k) = if i = k then max 0 (c k) else 0 := by
    intro k hk
    rw [← Finset.sum_mul, h.2 i hi k (Finset.mem_range.mp hk)]
    split_ifs <;> simp
  rw [Finset.sum_congr rfl h2, Finset.sum_ite_eq, if_pos (Finset.mem_range.mpr hi)]

/-- The loops over the grid, for any rule of the final bias. -/
theorem krigField_eq {op : KrigOp} {cv : Bool} {invert : List (List (Fl K)) → List (List (Fl K))} {matrix : List (List (Fl K))}
    {Y X E : Nat} {bias : List (Fl K)} {near : Nat → Nat → List (Nat × Fl K)} {r : Nat → Nat → Option (Fl K)}
    (h : ∀ y < Y, ∀ x < X, krigPoint op cv invert matrix bias (near y x) = ok (r y x)) (f : FieldC K) (hf : Sized Y X E f) :
    ∃ out, krigField op cv invert matrix none Y X E bias near f = ok out ∧ Sized Y X E out ∧ ∀ y < Y, ∀ x < X, ∀ e < E, ∃ u,
      f.get y x e = ok u ∧ out.get y x e = ok ((r y x).elim u fun b => krigApply op u b) := by
  unfold krigField
  refine forCells_spec _ (fun y x g g' => ∀ e < E, ∃ u, g e = ok u ∧ g' e = ok ((r y x).elim u fun b => krigApply op u b)) ?_ f hf
  intro f hf y hy x hx
  rw [h y hy x hx]
  cases hr : r y x with
  | none =>
    refine ⟨f, rfl, hf, fun e he => ?_, fun _ _ _ => rfl⟩
    obtain ⟨v, hv⟩ := hf.exists_get hy hx he
    exact ⟨v, hv, hv⟩
  | some b => exact krigMembers_eq op hy hx b f hf

/-- The whole calibrator, for any rule of the final bias. -/
theorem kriging_eq {o : KrigOptions K} {dist : Fl K → Fl K → Fl K → Fl K → Res (Fl K)} {invert : List (List (Fl K)) → List (List (Fl K))}
    {op : KrigOp} {cv : Bool} {Y X E : Nat} {points : Nat → Nat → KPoint K} {locs : List (KPoint K)} {pars : Nat → Nat → List (Fl K)}
    {fields : List (FieldC K)} {matrix : List (List (Fl K))} {c : Nat → Nat → Nat → K} {r : Nat → Nat → Nat → Option (Fl K)}
    (hplace : ∃ y < Y, ∃ x < X, Placed (points y x)) (hm : krigMatrix o dist locs = ok matrix)
    (hc : ∀ y < Y, ∀ x < X, ∀ i p, locs[i]? = some p → calcCovar o dist p (points y x) = ok (fin (c y x i)))
    (hr : ∀ t < fields.length, ∀ y < Y, ∀ x < X,
      krigPoint op cv invert matrix ((List.range locs.length).map fun k => krigStation op (pars t k))
        (((List.range locs.length).filter fun i => decide (0 < c y x i)).map fun i => (i, fin (c y x i))) = ok (r t y x))
    (hf : Series Y X E fields) :
    ∃ out, kriging o dist invert op cv none Y X E points true locs pars fields = ok out ∧ Series Y X E out ∧
      out.length = fields.length ∧ ∀ t y x e u, y < Y → x < X → e < E → At fields t y x e u →
        At out t y x e ((r t y x).elim u fun b => krigApply op u b) := by
  unfold kriging
  have h1 : ((List.range Y).any fun y => (List.range X).any fun x => (points y x).valid) = true := by
    obtain ⟨y, hy, x, hx, hv⟩ := hplace
    rw [List.any_eq_true]
    refine ⟨y, List.mem_range.mpr hy, ?_⟩
    rw [List.any_eq_true]
    exact ⟨x, List.mem_range.mpr hx, (kpoint_valid_iff _).mpr hv⟩
  rw [h1, hm]
  simp only [Bool.not_true, Bool.false_eq_true, if_false, ok_bind]
  let nr : Nat → Nat → List (Nat × Fl K) := fun y x =>
    ((List.range locs.length).filter fun i => decide (0 < c y x i)).map fun i => (i, fin (c y x i))
  have h2 : mapM (fun y => mapM (fun x => krigNear o dist locs (points y x)) (List.range X)) (List.range Y) =
      ok ((List.range Y).map fun y => (List.range X).map fun x => nr y x) := by
    apply mapM_ok
    intro y hy
    apply mapM_ok
    intro x hx
    exact krigNear_eq o dist locs _ _ (hc y (List.mem_range.mp hy) x (List.mem_range.mp hx))
  rw [h2, ok_bind]
  have hn : ∀ y < Y, ∀ x < X, (((((List.range Y).map fun y => (List.range X).map fun x => nr y x)[y]?).getD [])[x]?.getD []) = nr y x := by
    intro y hy x hx
    simp [hy, hx]
  obtain ⟨out, g1, g2, g3⟩ := eachTime_spec (fields := fields)
    (body := fun t f => krigField op cv invert matrix ((none : Option (Nat → Nat → Nat → Nat → Fl K)).map fun w => w t) Y X E
      ((List.range locs.length).map fun k => krigStation op (pars t k))
      (fun y x => (((((List.range Y).map fun y => (List.range X).map fun x => nr y x)[y]?).getD [])[x]?.getD [])) f)
    (P := fun t f g => Sized Y X E g ∧ ∀ y < Y, ∀ x < X, ∀ e < E, ∃ u,
      f.get y x e = ok u ∧ g.get y x e = ok ((r t y x).elim u fun b => krigApply op u b)) (by
      intro t f ht
      have hlt := (List.getElem?_eq_some_iff.mp ht).1
      exact krigField_eq (fun y hy x hx => by rw [hn y hy x hx]; exact hr t hlt y hy x hx) f (hf f (List.mem_of_getElem? ht)))
  refine ⟨out, g1, ?_, g2, ?_⟩
  · rw [series_iff]
    intro t ht
    rw [g2] at ht
    obtain ⟨g, h3, h4, -⟩ := g3 t _ (List.getElem?_eq_getElem ht)
    exact ⟨g, h3, h4⟩
  · rintro t y x e u hy hx he ⟨f, h3, h4⟩
    obtain ⟨g, h5, -, h6⟩ := g3 t f h3
    obtain ⟨u', h7, h8⟩ := h6 y hy x hx e he
    rw [h4, Res.ok.injEq] at h7
    subst h7
    exact ⟨g, h5, h8⟩

/-- **C118** (value, not for division). With an inverse of the matrix of the stations there are weights that solve the kriging
equations for each grid point, and each value there is corrected by the sum of the corrections of the stations with these weights.
Without a station with positive covariance, or if the sum happens to be -999, it is unchanged. -/
theorem c118_value_partial {o : KrigOptions K} {dist : Fl K → Fl K → Fl K → Fl K → Res (Fl K)}
    {invert : List (List (Fl K)) → List (List (Fl K))} {op : KrigOp} {Y X E : Nat} {points : Nat → Nat → KPoint K}
    {locs : List (KPoint K)} {pars : Nat → Nat → List (Fl K)} {fields : List (FieldC K)} {A B : Nat → Nat → K}
    {c : Nat → Nat → Nat → K} {b : Nat → Nat → K} (h : KrigInput o dist op Y X points locs pars fields.length A c b)
    (hi : InvertsTo invert locs.length A B) (hop : op ≠ .divide) (hf : Series Y X E fields) :
    ∃ out, kriging o dist invert op false none Y X E points true locs pars fields = ok out ∧ Series Y X E out ∧
      out.length = fields.length ∧ ∀ y < Y, ∀ x < X, ∃ w, KrigSolves locs.length A (c y x) w ∧ ∀ t e u, e < E → At fields t y x e u →
        ∃ v, At out t y x e v ∧ ((∀ i < locs.length, c y x i ≤ 0) → v = u) ∧ ((∃ i < locs.length, 0 < c y x i) →
          ∑ i ∈ Finset.range locs.length, w i * b t i ≠ -999 →
            KrigCorrected op (∑ i ∈ Finset.range locs.length, w i * b t i) u v) := by
  let N := locs.length
  let w : Nat → Nat → Nat → K := fun y x i => ∑ j ∈ Finset.range N, B i j * max 0 (c y x j)
  let T : Nat → Nat → Nat → K := fun t y x => ∑ i ∈ Finset.range N, b t i * w y x i
  have hT : ∀ t y x, T t y x = ∑ i ∈ Finset.range N, w y x i * b t i := fun t y x => Finset.sum_congr rfl fun i _ => mul_comm _ _
  obtain ⟨out, h1, h2, h3, h4⟩ := kriging_eq (E := E) (fields := fields) (invert := invert) (cv := false) (op := op) (pars := pars)
    (r := fun t y x => if (∀ i < N, c y x i ≤ 0) ∨ T t y x = -999 then none else some (krigRestore op (fin (T t y x)))) h.place h.matrix
    h.covar (by
      intro t ht y hy x hx
      have hb : ((List.range N).map fun k => krigStation op (pars t k)) = (List.range N).map fun k => fin (b t k) :=
        List.map_congr_left fun k hk => krigStation_eq (h.bias t ht k (List.mem_range.mp hk))
      rw [hb]
      exact krigPoint_eq op invert _ N B hi.1 (b t) (c y x) (fun k hk => (h.bias t ht k hk).1) (T t y x) rfl) hf
  refine ⟨out, h1, h2, h3, fun y hy x hx => ⟨w y x, krig_solves hi (c y x), fun t e u he hu => ⟨_, h4 t y x e u hy hx he hu, ?_, ?_⟩⟩⟩
  · intro hn
    rw [if_pos (Or.inl hn)]
    rfl
  · intro hp h9
    rw [← hT] at h9 ⊢
    have hn : ¬ ((∀ i < N, c y x i ≤ 0) ∨ T t y x = -999) := by
      rintro (hn | hn)
      · obtain ⟨i, hi1, hi2⟩ := hp
        exact absurd (hn i hi1) (not_le.mpr hi2)
      · exact h9 hn
    rw [if_neg hn]
    cases op with
    | divide => exact absurd rfl hop
    | multiply =>
      simp only [Option.elim, KrigCorrected, krigApply, krigRestore, one_def, fin_add]
      rw [add_comm]
    | add => rfl
    | subtract => rfl

/-- **C118** is false for division: 1 is subtracted instead of added. If all parameters are 1 (no correction) the sign of the values at
all grid points with near stations is changed. -/
theorem c118_divide_false {o : KrigOptions K} {dist : Fl K → Fl K → Fl K → Fl K → Res (Fl K)}
    {invert : List (List (Fl K)) → List (List (Fl K))} {Y X E : Nat} {points : Nat → Nat → KPoint K}
    {locs : List (KPoint K)} {pars : Nat → Nat → List (Fl K)} {fields : List (FieldC K)} {A B : Nat → Nat → K}
    {c : Nat → Nat → Nat → K} (h : KrigInput o dist .divide Y X points locs pars fields.length A c fun _ _ => 0)
    (hi : InvertsTo invert locs.length A B) (hf : Series Y X E fields) :
    ∃ out, kriging o dist invert .divide false none Y X E points true locs pars fields = ok out ∧ ∀ t y x e q, y < Y → x < X → e < E →
      (∃ i < locs.length, 0 < c y x i) → At fields t y x e (fin q) → At out t y x e (fin (-q)) := by
  obtain ⟨out, h1, h2, h3, h4⟩ := kriging_eq (E := E) (fields := fields) (invert := invert) (cv := false) (op := .divide) (pars := pars)
    (r := fun t y x => if (∀ i < locs.length, c y x i ≤ 0) ∨ (0 : K) = -999 then none else some (krigRestore .divide (fin 0))) h.place h.matrix
    h.covar (by
      intro t ht y hy x hx
      have hb : ((List.range locs.length).map fun k => krigStation .divide (pars t k)) =
          (List.range locs.length).map fun _ => (fin 0 : Fl K) :=
        List.map_congr_left fun k hk => krigStation_eq (h.bias t ht k (List.mem_range.mp hk))
      rw [hb]
      exact krigPoint_eq .divide invert _ _ B hi.1 (fun _ => 0) (c y x) (fun k hk => (h.bias t ht k hk).1) 0 (by simp)) hf
  refine ⟨out, h1, fun t y x e q hy hx he hp hq => ?_⟩
  have := h4 t y x e _ hy hx he hq
  rw [if_neg (by
    rintro (hn | hn)
    · obtain ⟨i, hi1, hi2⟩ := hp
      exact absurd (hn i hi1) (not_le.mpr hi2)
    · norm_num at hn)] at this
  have he : krigApply .divide (fin q) (krigRestore .divide (fin 0)) = fin (-q) := by
    simp only [krigApply, krigRestore, one_def, fin_sub]
    rw [fin_div_of_ne q (by norm_num), zero_sub, div_neg, div_one]
  rw [Option.elim, he] at this
  exact this

/-- **C118** (missing parameter). If the parameter of one station is missing at a time, nothing is corrected at this time at any grid
point, also far from this station. -/
theorem c118_missing_parameter {o : KrigOptions K} {dist : Fl K → Fl K → Fl K → Fl K → Res (Fl K)}
    {invert : List (List (Fl K)) → List (List (Fl K))} {op : KrigOp} {Y X E : Nat} {points : Nat → Nat → KPoint K}
    {locs : List (KPoint K)} {pars : Nat → Nat → List (Fl K)} {f : FieldC K} {A B : Nat → Nat → K} {c : Nat → Nat → Nat → K}
    (hplace : ∃ y < Y, ∃ x < X, Placed (points y x))
    (hm : krigMatrix o dist locs = ok (tabulate locs.length locs.length fun i j => fin (A i j)))
    (hc : ∀ y < Y, ∀ x < X, ∀ i p, locs[i]? = some p → calcCovar o dist p (points y x) = ok (fin (c y x i)))
    (hi : InvertsTo invert locs.length A B) (k : Nat) (hk : k < locs.length) (rest : List (Fl K)) (hp : pars 0 k = fin (-999) :: rest)
    (hf : Sized Y X E f) :
    ∃ g, kriging o dist invert op false none Y X E points true locs pars [f] = ok [g] ∧ ∀ y < Y, ∀ x < X, ∀ e < E,
      g.get y x e = f.get y x e := by
  have hs : Series Y X E [f] := by intro g hg; rw [List.mem_singleton] at hg; rwa [hg]
  obtain ⟨out, h1, h2, h3, h4⟩ := kriging_eq (E := E) (fields := [f]) (invert := invert) (cv := false) (op := op) (pars := pars)
    (r := fun _ _ _ => none) hplace hm hc (by
      intro t ht y hy x hx
      obtain rfl : t = 0 := by simpa using ht
      refine krigPoint_missing op invert _ _ B hi.1 (c y x) _ (by simp) ⟨fin (-999), ?_, by simp [Client.isValid]⟩
      rw [List.mem_map]
      refine ⟨k, List.mem_range.mpr hk, ?_⟩
      rw [hp]
      simp [krigStation, Client.isValid]) hs
  obtain ⟨g, rfl⟩ : ∃ g, out = [g] := List.length_eq_one_iff.mp (by simpa using h3)
  refine ⟨g, h1, fun y hy x hx e he => ?_⟩
  obtain ⟨v, hv⟩ := hf.exists_get hy hx he
  obtain ⟨g', h5, h6⟩ := h4 0 y x e v hy hx he ⟨f, rfl, hv⟩
  simp only [List.getElem?_cons_zero, Option.some.injEq] at h5
  subst h5
  rw [h6, hv]
  rfl

/-- **C118** (refused). Without a grid point with coordinates and elevation nothing is done; otherwise a parameter file without locations
is refused. -/
theorem c118_refused (o : KrigOptions K) (dist : Fl K → Fl K → Fl K → Fl K → Res (Fl K)) (invert : List (List (Fl K)) → List (List (Fl K)))
    (op : KrigOp) (cv : Bool) (aux : Option (Nat → Nat → Nat → Nat → Fl K)) (Y X E : Nat) (points : Nat → Nat → KPoint K)
    (locs : List (KPoint K)) (pars : Nat → Nat → List (Fl K)) (fields : List (FieldC K)) :
    ((∀ y < Y, ∀ x < X, ¬ Placed (points y x)) → ∀ d, kriging o dist invert op cv aux Y X E points d locs pars fields = ok fields) ∧
    ((∃ y < Y, ∃ x < X, Placed (points y x)) → kriging o dist invert op cv aux Y X E points false locs pars fields = .abort) := by
  constructor
  · intro h d
    unfold kriging
    have : ((List.range Y).any fun y => (List.range X).any fun x => (points y x).valid) = false := by
      rw [List.any_eq_false]
      intro y hy
      rw [Bool.not_eq_true, List.any_eq_false]
      intro x hx
      rw [kpoint_valid_iff]
      exact h y (List.mem_range.mp hy) x (List.mem_range.mp hx)
    rw [this]
    rfl
  · rintro ⟨y, hy, x, hx, hv⟩
    unfold kriging
    have : ((List.range Y).any fun y => (List.range X).any fun x => (points y x).valid) = true := by
      rw [List.any_eq_true]
      refine ⟨y, List.mem_range.mpr hy, ?_⟩
      rw [List.any_eq_true]
      exact ⟨x, List.mem_range.mpr hx, (kpoint_valid_iff _).mpr hv⟩
    rw [this]
    rfl

/-- The inverse of the matrix of two stations. -/
def invertTwo (m : List (List (Fl ℚ))) : List (List (Fl ℚ)) :=
  match m with
  | [[a, b], [c, d]] => [[d / (a * d - b * c), -b / (a * d - b * c)], [-c / (a * d - b * c), a / (a * d - b * c)]]
  | m => m

/-- Distances on a line, for the examples. -/
def lineDist (a _b c _d : Fl ℚ) : Res (Fl ℚ) := ok (a - c).abs

/-- Two stations at 0 and 1, a grid point at 0, the scale 2: the matrix, the covariances and the corrections 5 and 10. -/
def twoStations : List (KPoint ℚ) := [⟨fin 0, fin 0, fin 0⟩, ⟨fin 1, fin 0, fin 0⟩]

def twoOptions : KrigOptions ℚ := ⟨fin 2, fin 5, fin (-999), false⟩

def twoMatrix (i j : Nat) : ℚ := if i = j then 1 else 3 / 5 * (414 / 500)

def twoInverse (i j : Nat) : ℚ := (if i = j then 1 else -(3 / 5 * (414 / 500))) / (1 - 3 / 5 * (414 / 500) * (3 / 5 * (414 / 500)))

def twoCovar (_ _ i : Nat) : ℚ := if i = 0 then 1 else 3 / 5

/-- The hypotheses of `c118_value_partial` hold for them. -/
theorem c118_two_stations : KrigInput twoOptions lineDist .add 1 1 (fun _ _ => ⟨fin 0, fin 0, fin 0⟩) twoStations
      (fun _ k => if k = 0 then [fin 5] else [fin 10]) 1 twoMatrix twoCovar (fun _ k => if k = 0 then 5 else 10) ∧
    InvertsTo invertTwo 2 twoMatrix twoInverse := by
  refine ⟨⟨⟨0, by omega, 0, by omega, (kpoint_valid_iff _).mp (by decide +kernel)⟩, by decide +kernel, ?_, ?_⟩, by decide +kernel, by decide +kernel⟩
  · intro y _ x _ i p hp
    rcases i with _ | _ | i
    · simp only [twoStations, List.getElem?_cons_zero, Option.some.injEq] at hp
      subst hp; show _ = ok (fin _); unfold twoCovar; decide +kernel
    · simp only [twoStations, List.getElem?_cons_succ, List.getElem?_cons_zero, Option.some.injEq] at hp
      subst hp; show _ = ok (fin _); unfold twoCovar; decide +kernel
    · simp [twoStations] at hp
  · intro t _ k hk
    have hk : k < 2 := hk
    rcases k with _ | _ | k
    · exact ⟨by norm_num, Or.inr ⟨5, [], rfl, by norm_num, by decide⟩⟩
    · exact ⟨by norm_num, Or.inr ⟨10, [], rfl, by norm_num, by decide⟩⟩
    · omega

/-- **C118** (at the station). The covariances of different stations are multiplied by 414/500 in the matrix, but not those with grid points:
the correction at the place of a station is not its own (5), if there is another one near (it is about 6.03). -/
theorem c118_at_station_false : krigPoint (K := ℚ) .add false invertTwo (tabulate 2 2 fun i j => fin (twoMatrix i j)) [fin 5, fin 10]
    [(0, fin 1), (1, fin (3 / 5))] = ok (some (fin (7096250 / 1176859))) := by decide +kernel

/-- **C118** (missing forecast). A missing forecast is corrected like a number and is no longer missing (one station; its matrix is its own
inverse). -/
theorem c118_missing_forecast_false :
    kriging twoOptions lineDist (fun m => m) .add false none 1 1 1 (fun _ _ => ⟨fin 0, fin 0, fin 0⟩) true (twoStations.take 1)
      (fun _ _ => [fin 5]) [⟨[fin (-999)], 1, 1, 1⟩] = ok [⟨[fin (-994)], 1, 1, 1⟩] := by
  decide +kernel

end Gridpp.Props
