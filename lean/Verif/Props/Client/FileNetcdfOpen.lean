import Verif.Spec.NetcdfOpen
import Verif.Props.Client.FileNetcdfGrid
import Verif.Props.Client.Grid

/-! # C152: opening a NetCDF file with forecasts -/

set_option linter.unusedSectionVars false

namespace Gridpp.Props
open Fl hiding MV isValid
open Res Client Spec

variable {K : Type} [Field K] [LinearOrder K] [IsStrictOrderedRing K]

theorem tabulate_congr {α : Type} {Y X : Nat} {a b : Nat → Nat → α} (h : ∀ i < Y, ∀ j < X, a i j = b i j) : tabulate Y X a = tabulate Y X b := by
  unfold tabulate
  refine List.map_congr_left fun i hi => List.map_congr_left fun j hj => h i (List.mem_range.mp hi) j (List.mem_range.mp hj)

theorem tabulate_mem {α : Type} {Y X : Nat} {a : Nat → Nat → α} {r : List α} (hr : r ∈ tabulate Y X a) {x : α} (hx : x ∈ r) : ∃ i < Y, ∃ j < X, a i j = x := by
  unfold tabulate at hr
  obtain ⟨i, hi, rfl⟩ := List.mem_map.mp hr
  obtain ⟨j, hj, rfl⟩ := List.mem_map.mp hx
  exact ⟨i, List.mem_range.mp hi, j, List.mem_range.mp hj, rfl⟩

theorem tabulate_rect {α : Type} (Y X : Nat) (a : Nat → Nat → α) : Rect Y X (tabulate Y X a) := by
  constructor
  · simp [tabulate]
  · intro r hr
    unfold tabulate at hr
    obtain ⟨i, -, rfl⟩ := List.mem_map.mp hr
    simp

/-- Both dimensions exist in the file. -/
theorem gridSize_count {f : NcFile K} {p : Option Nat} (h : ∀ d, p = some d → d < f.dims.length) : gridSize f p = ok (dimCount f p) := by
  cases p with
  | none => rfl
  | some d => exact dimSize_ok (h d rfl)

theorem latLonGrid_ok {f : NcFile K} {L : NcLayout} {v : NcVar K} {value : Nat → Nat → Fl K} (h : GridValues f L v value)
    (hy : ∀ d, L.y = some d → d < f.dims.length) (hx : ∀ d, L.x = some d → d < f.dims.length) :
    latLonGrid f L v = ok (tabulate (dimCount f L.y) (dimCount f L.x) value) := by
  obtain ⟨hf, ⟨dY, dX, h1, h2, h3, h4, h5, h6, h7, h8⟩ | ⟨d, h1, h2, h3, h4⟩⟩ := h
  · have hr : ∀ i j, ∃ raw, i < dimLength f dY → j < dimLength f dX → ValueAt f v (gridPos dY dX i j) raw ∧ value i j = meaning v.fill raw := by
      intro i j
      by_cases hi : i < dimLength f dY
      · by_cases hj : j < dimLength f dX
        · obtain ⟨raw, h⟩ := h8 i hi j hj
          exact ⟨raw, fun _ _ => h⟩
        · exact ⟨.nan, fun _ h => absurd h hj⟩
      · exact ⟨.nan, fun h => absurd h hi⟩
    choose raw hraw using hr
    rw [c151_both hf h4 h1 h2 h3 h5 h6 h7 (x := raw) fun i hi j hj => (hraw i j hi hj).1, h1, h2]
    exact congrArg ok (tabulate_congr fun i hi j hj => ((hraw i j hi hj).2).symm)
  · obtain ⟨x, e1, e2⟩ := c151_one_partial hf h1 h2 (gridSize_count hy) (gridSize_count hx) h3
    rw [e1]
    refine congrArg ok (tabulate_congr fun i hi j hj => ?_)
    obtain ⟨raw, r1, r2⟩ := e2 i hi j hj
    have h5 := h4 i hi j hj
    have h6 : raw = value i j := by
      unfold ValueAt at r1 h5
      rw [r1] at h5
      exact Option.some.inj h5
    rw [r2, ← h6]
    exact h3 _ (List.mem_of_getElem? r1)

theorem firstDim_lt {f : NcFile K} {names : List Str} {d : Nat} (h : FirstDim f names d) : d < f.dims.length := by
  obtain ⟨_, _, _, _, -, -, h⟩ := h
  exact (List.getElem?_eq_some_iff.mp h).1

theorem dimChoice_lt {f : NcFile K} {given : Option Str} {usual : List Str} {p : Option Nat} (h : DimChoice f given usual p) : ∀ d, p = some d → d < f.dims.length := by
  rintro d rfl
  exact firstDim_lt h

theorem firstDim_one {f : NcFile K} (hn : FineNames f) {n : Str} {d : Nat} (h : FirstDim f [n] d) : f.dimId n = some d := by
  have := findSome_dimId hn.1 h
  rw [List.findSome?_singleton] at this
  exact this

theorem chooseDim_ok {f : NcFile K} (hn : FineNames f) {given : Option Str} {usual : List Str} {p : Option Nat} (h : DimChoice f given usual p) :
    chooseDim f given usual = ok p := by
  unfold chooseDim
  cases p with
  | some d =>
    cases given with
    | none =>
      simp only
      exact congrArg ok (findSome_dimId hn.1 h)
    | some n =>
      simp only
      rw [firstDim_one hn h]
      rfl
  | none =>
    obtain ⟨rfl, h⟩ := h
    simp only
    refine congrArg ok (List.findSome?_eq_none_iff.mpr fun m hm => ?_)
    exact dimId_none (h m hm)

theorem openLayout_ok {f : NcFile K} (hn : FineNames f) {o : NcFileOptions} {L : NcLayout} (h : LayoutOf f o L) : openLayout f o = ok L := by
  have he : f.dimId (o.ensDim.getD "ensemble_member".toList) = L.ens := by
    rcases h.ens with ⟨d, h1, h2⟩ | ⟨h1, h2⟩
    · rw [h1]
      apply firstDim_one hn
      cases ho : o.ensDim with
      | none => rw [ho] at h2; exact h2
      | some n => rw [ho] at h2; exact h2
    · rw [h1, dimId_none h2]
  unfold openLayout
  simp only
  rw [he, chooseDim_ok hn h.y, ok_bind, chooseDim_ok hn h.x, ok_bind, chooseDim_ok hn h.time, ok_bind]

theorem ens_lt {f : NcFile K} {o : NcFileOptions} {L : NcLayout} (h : LayoutOf f o L) : ∀ d, L.ens = some d → d < f.dims.length := by
  intro d hd
  rcases h.ens with ⟨d', h1, h2⟩ | ⟨h1, h2⟩
  · rw [h1, Option.some.injEq] at hd
    exact hd ▸ firstDim_lt h2
  · rw [h1] at hd
    cases hd

theorem findSome_var {f : NcFile K} (hn : FineNames f) {names : List Str} {v : NcVar K} (h : FirstVar f names v) : names.findSome? f.var = some v := by
  obtain ⟨before, n, after, rfl, h1, h2, rfl⟩ := h
  have h3 : before.findSome? f.var = none := by
    rw [List.findSome?_eq_none_iff]
    intro m hm
    exact var_none (h1 m hm)
  rw [List.findSome?_append, h3, List.findSome?_cons, var_some hn.2 h2]
  rfl

theorem chooseVar_ok {f : NcFile K} (hn : FineNames f) {given : Option Str} {usual : List Str} {v : NcVar K} (h : FirstVar f (namesOr given usual) v) :
    chooseVar f given usual = ok v := by
  unfold chooseVar
  have h1 := findSome_var hn h
  cases given with
  | none =>
    simp only
    change usual.findSome? f.var = some v at h1
    rw [h1]
    rfl
  | some n =>
    simp only
    change [n].findSome? f.var = some v at h1
    rw [List.findSome?_singleton] at h1
    rw [h1]
    rfl

theorem chooseTimeVar_ok {f : NcFile K} (hn : FineNames f) {o : NcFileOptions} {v : Option (NcVar K)} (h : TimeVarOf f o v) : chooseTimeVar f o.timeVar = ok v := by
  unfold chooseTimeVar
  cases v with
  | some v =>
    obtain ⟨h1, h2⟩ := h
    have h3 := var_some hn.2 h1
    rw [h2] at h3
    cases ho : o.timeVar with
    | none => rw [ho] at h3; simp only; rw [show f.var "time".toList = some v from h3]
    | some n => rw [ho] at h3; simp only; rw [show f.var n = some v from h3]; rfl
  | none =>
    obtain ⟨h1, h2⟩ := h
    rw [h1]
    simp only
    rw [var_none h2]

theorem fileReferenceTime_ok {f : NcFile K} (hn : FineNames f) {ref : Fl K} (h : ReferenceOf f ref) : fileReferenceTime f = ok ref := by
  unfold fileReferenceTime
  rcases h with ⟨v, h1, h2, h3, h4⟩ | ⟨h1, h2⟩
  · have h5 := var_some hn.2 h1
    rw [h2] at h5
    rw [h5]
    simp only
    rw [if_neg (by rw [h3]; simp), h4]
    rfl
  · rw [var_none h1, h2]
    rfl

/-- The elevations that are kept. -/
def keptElevs (f : NcFile K) (L : NcLayout) (elev : Option (Nat → Nat → Fl K)) : List (List (Fl K)) :=
  elev.elim [] fun e => tabulate (dimCount f L.y) (dimCount f L.x) e

theorem openElevs_some {f : NcFile K} {L : NcLayout} {v : NcVar K} {e : Nat → Nat → Fl K} {lats : List (List (Fl K))} {c : K} (h : GridValues f L v e)
    (hy : ∀ d, L.y = some d → d < f.dims.length) (hx : ∀ d, L.x = some d → d < f.dims.length) (hr : Rect (dimCount f L.y) (dimCount f L.x) lats)
    (h0 : 0 < dimCount f L.y) :
    openElevs f L lats (some (v, c)) = ok (tabulate (dimCount f L.y) (dimCount f L.x) fun i j => if Client.isValid (e i j) then e i j * fin c else e i j) := by
  unfold openElevs
  simp only
  rw [latLonGrid_ok h hy hx, ok_bind, numX_rect hr h0, ok_bind, hr.1]
  rw [gridOf_ok (x := fun i j => if Client.isValid (e i j) then e i j * fin c else e i j)]
  · rw [ok_bind]
    have hr' := tabulate_rect (dimCount f L.y) (dimCount f L.x) fun i j => if Client.isValid (e i j) then e i j * fin c else e i j
    unfold setElevs
    rw [if_neg (by rw [hr'.1, hr.1]; simp)]
    have hl : 0 < (tabulate (dimCount f L.y) (dimCount f L.x) fun i j => if Client.isValid (e i j) then e i j * fin c else e i j).length := by rw [hr'.1]; exact h0
    have hv := vget_eq_ok_of_lt (n := 0) hl
    rw [show ((0 : Nat) : Int) = 0 from rfl] at hv
    rw [hv, ok_bind, numX_rect hr h0, ok_bind, ok_bind, if_neg (by rw [hr'.2 _ (List.getElem_mem hl)]; simp)]
    rfl
  · intro i hi j hj
    have := cell?_tabulate e hi hj
    rw [vget2_of_cell? this, ok_bind]

theorem openElevs_ok {f : NcFile K} (hn : FineNames f) {o : NcFileOptions} {L : NcLayout} {elev : Option (Nat → Nat → Fl K)} {lats : List (List (Fl K))}
    (h : ElevationsOf f o L elev) (hy : ∀ d, L.y = some d → d < f.dims.length) (hx : ∀ d, L.x = some d → d < f.dims.length)
    (hr : Rect (dimCount f L.y) (dimCount f L.x) lats) (h0 : 0 < dimCount f L.y) :
    openElevs f L lats (chooseElev f o.elevVar) = ok (keptElevs f L elev) := by
  have hone : ∀ x : Fl K, (if Client.isValid x then x * fin 1 else x) = x := by
    intro x
    cases x <;> simp [Client.isValid]
  rcases h with ⟨v, e, h1, h2, h3, rfl⟩ | ⟨h1, ⟨h2, v, e, h3, h4, h5, rfl⟩ | ⟨h2, rfl⟩⟩
  · have h5 := var_some hn.2 h1
    have hc : chooseElev f o.elevVar = some (v, 1) := by
      unfold chooseElev
      cases ho : o.elevVar with
      | none => rw [h2, ho] at h5; simp only; rw [show f.var "altitude".toList = some v from h5]
      | some n => rw [h2, ho] at h5; simp only; rw [show f.var n = some v from h5]; rfl
    rw [hc, openElevs_some h3 hy hx hr h0]
    exact congrArg ok (tabulate_congr fun i _ j _ => hone _)
  · have h6 := var_some hn.2 h3
    rw [h2] at h1
    have hc : chooseElev f o.elevVar = some (v, 1 / (981 / 100)) := by
      unfold chooseElev
      rw [h2]
      simp only
      rw [show f.var "altitude".toList = none from var_none h1, ← h4, h6]
      rfl
    rw [hc, openElevs_some h5 hy hx hr h0]
    refine congrArg ok (tabulate_congr fun i _ j _ => ?_)
    cases he : e i j with
    | fin q =>
      simp only [fromGeopotential]
      by_cases hq : q = -999
      · simp [hq, Client.isValid]
      · simp [hq, Client.isValid, div_eq_mul_inv]
    | _ => simp [fromGeopotential, Client.isValid]
  · have hc : chooseElev f o.elevVar = none := by
      unfold chooseElev
      cases ho : o.elevVar with
      | none =>
        rw [ho] at h1
        simp only
        rw [show f.var "altitude".toList = none from var_none h1, var_none (h2 ho)]
        rfl
      | some n =>
        rw [ho] at h1
        simp only
        rw [show f.var n = none from var_none h1]
        rfl
    rw [hc]
    rfl

theorem openFractions_ok {f : NcFile K} (hn : FineNames f) {o : NcFileOptions} {L : NcLayout} {part : Nat → Nat → Fl K} {lats : List (List (Fl K))}
    (h : FractionsOf f o L part) (hy : ∀ d, L.y = some d → d < f.dims.length) (hx : ∀ d, L.x = some d → d < f.dims.length)
    (hr : Rect (dimCount f L.y) (dimCount f L.x) lats) (h0 : 0 < dimCount f L.y) :
    openFractions f L lats o.lafVar = ok (tabulate (dimCount f L.y) (dimCount f L.x) part) := by
  unfold openFractions
  rcases h with ⟨v, h1, h2, h3⟩ | ⟨h1, h2⟩
  · have h4 := var_some hn.2 h1
    rw [← h2, h4]
    exact latLonGrid_ok h3 hy hx
  · rw [var_none h1]
    simp only
    rw [numX_rect hr h0, ok_bind, hr.1]
    refine congrArg ok ?_
    unfold tabulate
    simp only [h2]
    rw [List.map_const', List.map_const', List.length_range, List.length_range]
    rfl

/-- What comes before the times. -/
theorem open_stage [FloorRing K] {g : ForecastGrid K} {f : NcFile K} {o : NcFileOptions} (h : g.Of f o)
    (h0 : ∀ i < dimCount f g.layout.y, ∀ j < dimCount f g.layout.x, g.lon i j ≠ 0) {timeVar : Option (NcVar K)} (ht : TimeVarOf f o timeVar) (tag next : Nat) :
    ∃ grid : GridFile K, grid.lats = tabulate (dimCount f g.layout.y) (dimCount f g.layout.x) (fun i j => .fin (g.lat i j)) ∧
      Rect (dimCount f g.layout.y) (dimCount f g.layout.x) grid.lons ∧
      (∀ i < dimCount f g.layout.y, ∀ j < dimCount f g.layout.x, ∃ (r : K) (k : Int), cell? grid.lons i j = some (.fin r) ∧ -180 ≤ r ∧ r ≤ 180 ∧
        r = g.lon i j + 360 * k) ∧
      openNetcdf tag next o f = (do
        let ref ← fileReferenceTime f
        let times ← fileTimes f timeVar g.layout.time ref
        ok ⟨g.layout, dimCount f g.layout.ens, grid, keptElevs f g.layout g.elev, tabulate (dimCount f g.layout.y) (dimCount f g.layout.x) g.part,
          times.1, times.2⟩) := by
  have hy := dimChoice_lt h.dims.y
  have hx := dimChoice_lt h.dims.x
  obtain ⟨vlat, a1, a2⟩ := h.lats
  obtain ⟨vlon, b1, b2⟩ := h.lons
  have hra := tabulate_rect (dimCount f g.layout.y) (dimCount f g.layout.x) fun i j => Fl.fin (g.lat i j)
  have hro := tabulate_rect (dimCount f g.layout.y) (dimCount f g.layout.x) fun i j => Fl.fin (g.lon i j)
  obtain ⟨g1, n1, c1, c2, c3⟩ := c94_lats (f := (⟨[], [], tag⟩ : GridFile K)) next (.inl rfl) hra (by
    intro r hr v hv
    obtain ⟨i, hi, j, hj, rfl⟩ := tabulate_mem hr hv
    exact ⟨_, rfl, h.latRange i hi j hj⟩)
  obtain ⟨g2, n2, d1, d2, d3, d4⟩ := c94_lons_partial (f := g1) n1 (.inl c3) hro (by
    intro r hr v hv
    obtain ⟨i, hi, j, hj, rfl⟩ := tabulate_mem hr hv
    exact ⟨_, rfl, (h.lonRange i hi j hj).1, (h.lonRange i hi j hj).2, h0 i hi j hj⟩)
  have hlats : g2.lats = tabulate (dimCount f g.layout.y) (dimCount f g.layout.x) fun i j => Fl.fin (g.lat i j) := by rw [d2, c2]
  refine ⟨g2, hlats, d3, fun i hi j hj => d4 i j _ (cell?_tabulate _ hi hj), ?_⟩
  unfold openNetcdf
  rw [chooseVar_ok h.names a1, ok_bind, chooseVar_ok h.names b1, ok_bind, chooseTimeVar_ok h.names ht, ok_bind, openLayout_ok h.names h.dims, ok_bind,
    gridSize_count (ens_lt h.dims), ok_bind, latLonGrid_ok a2 hy hx, ok_bind, c1, ok_bind]
  simp only
  rw [latLonGrid_ok b2 hy hx, ok_bind, d1, ok_bind]
  simp only
  rw [openElevs_ok h.names h.elevs hy hx (by rw [hlats]; exact hra) h.rows, ok_bind,
    openFractions_ok h.names h.fractions hy hx (by rw [hlats]; exact hra) h.rows, ok_bind]

/-- What is known of the file after it has been opened. -/
def HasGrid (F : NcForecast K) (g : ForecastGrid K) (f : NcFile K) : Prop :=
  F.layout = g.layout ∧ F.nEns = dimCount f g.layout.ens ∧
  F.grid.lats = tabulate (dimCount f g.layout.y) (dimCount f g.layout.x) (fun i j => .fin (g.lat i j)) ∧
  Rect (dimCount f g.layout.y) (dimCount f g.layout.x) F.grid.lons ∧
  (∀ i < dimCount f g.layout.y, ∀ j < dimCount f g.layout.x, ∃ (r : K) (k : Int), cell? F.grid.lons i j = some (.fin r) ∧ -180 ≤ r ∧ r ≤ 180 ∧
    r = g.lon i j + 360 * k) ∧
  F.elevs = g.elev.elim [] (fun e => tabulate (dimCount f g.layout.y) (dimCount f g.layout.x) e) ∧
  F.fractions = tabulate (dimCount f g.layout.y) (dimCount f g.layout.x) g.part

/-- C152, a file with a variable for the times: its values are the times, and the reference time is that of the file, or the first time. -/
theorem c152_times_partial [FloorRing K] {g : ForecastGrid K} {f : NcFile K} {o : NcFileOptions} (h : g.Of f o)
    (h0 : ∀ i < dimCount f g.layout.y, ∀ j < dimCount f g.layout.x, g.lon i j ≠ 0) {v : NcVar K} (ht : TimeVarOf f o (some v)) {d : Nat}
    (hd : g.layout.time = some d) (hv : FineVar f v) (hvd : v.dims = [d]) {ref : Fl K} (hr : ReferenceOf f ref) (tag next : Nat) :
    ∃ F, openNetcdf tag next o f = ok F ∧ HasGrid F g f ∧ F.times = v.values ∧ (KnownTime ref → F.reference = ref) ∧
      (¬ KnownTime ref → ∀ t, v.values.head? = some t → F.reference = t) := by
  obtain ⟨grid, e1, e2, e3, e4⟩ := open_stage h h0 ht tag next
  have hs : f.dimSize d = ok (dimLength f d) := dimSize_ok (hv.1 d (by rw [hvd]; simp))
  have hl : v.values.length = dimLength f d := by rw [hv.2, hvd]; simp
  have hk : Client.isValid ref = true ↔ KnownTime ref := by
    unfold KnownTime
    cases ref <;> simp [Client.isValid]
  rw [e4, fileReferenceTime_ok h.names hr, ok_bind]
  unfold fileTimes
  rw [hd]
  simp only
  rw [hs, ok_bind]
  by_cases hz : dimLength f d = 0
  · rw [if_pos hz, ok_bind]
    have hnil : v.values = [] := by rw [← List.length_eq_zero_iff, hl, hz]
    exact ⟨_, rfl, ⟨rfl, rfl, e1, e2, e3, rfl, rfl⟩, hnil.symm, fun _ => rfl, fun _ t ht => by rw [hnil] at ht; cases ht⟩
  · have hpos : 0 < v.values.length := by omega
    have hv0 := vget_eq_ok_of_lt (n := 0) hpos
    rw [show ((0 : Nat) : Int) = 0 from rfl] at hv0
    rw [if_neg hz, if_pos hl, hv0, ok_bind, ok_bind]
    refine ⟨_, rfl, ⟨rfl, rfl, e1, e2, e3, rfl, rfl⟩, rfl, fun hk' => ?_, fun hk' t ht => ?_⟩
    · simp only
      rw [if_pos (hk.mpr hk')]
    · simp only
      rw [if_neg (fun hc => hk' (hk.mp hc))]
      rw [List.head?_eq_getElem?, List.getElem?_eq_getElem hpos] at ht
      exact Option.some.inj ht

/-- C152, a file without a variable for the times: the reference time is the only time. -/
theorem c152_reference_partial [FloorRing K] {g : ForecastGrid K} {f : NcFile K} {o : NcFileOptions} (h : g.Of f o)
    (h0 : ∀ i < dimCount f g.layout.y, ∀ j < dimCount f g.layout.x, g.lon i j ≠ 0) (ht : TimeVarOf f o none) {ref : Fl K} (hr : ReferenceOf f ref) (tag next : Nat) :
    (KnownTime ref → ∃ F, openNetcdf tag next o f = ok F ∧ HasGrid F g f ∧ F.times = [ref] ∧ F.reference = ref) ∧
    (¬ KnownTime ref → openNetcdf tag next o f = .abort) := by
  obtain ⟨grid, e1, e2, e3, e4⟩ := open_stage h h0 ht tag next
  have hk : Client.isValid ref = true ↔ KnownTime ref := by
    unfold KnownTime
    cases ref <;> simp [Client.isValid]
  rw [e4, fileReferenceTime_ok h.names hr, ok_bind]
  unfold fileTimes
  constructor
  · intro hk'
    simp only
    rw [if_pos (hk.mpr hk'), ok_bind]
    exact ⟨_, rfl, ⟨rfl, rfl, e1, e2, e3, rfl, rfl⟩, rfl, rfl⟩
  · intro hk'
    simp only
    rw [if_neg (fun hc => hk' (hk.mp hc))]
    rfl

/-- C152: a reference time with dimensions ends the program. -/
theorem c152_reference_dims [FloorRing K] {g : ForecastGrid K} {f : NcFile K} {o : NcFileOptions} (h : g.Of f o)
    (h0 : ∀ i < dimCount f g.layout.y, ∀ j < dimCount f g.layout.x, g.lon i j ≠ 0) {tv : Option (NcVar K)} (ht : TimeVarOf f o tv) {v : NcVar K} (hv : v ∈ f.vars)
    (hn : v.name = "forecast_reference_time".toList) (hd : v.dims ≠ []) (tag next : Nat) : openNetcdf tag next o f = .abort := by
  obtain ⟨grid, -, -, -, e4⟩ := open_stage h h0 ht tag next
  have h5 := var_some h.names.2 hv
  rw [hn] at h5
  rw [e4]
  unfold fileReferenceTime
  rw [h5]
  simp only
  rw [if_pos (by rw [ne_eq, List.length_eq_zero_iff]; exact hd)]
  rfl

/-- C152 is false of the code for a time without a dimension: it is the only time, but the reference time stays missing. -/
theorem c152_scalar_false [FloorRing K] {g : ForecastGrid K} {f : NcFile K} {o : NcFileOptions} (h : g.Of f o)
    (h0 : ∀ i < dimCount f g.layout.y, ∀ j < dimCount f g.layout.x, g.lon i j ≠ 0) {v : NcVar K} (ht : TimeVarOf f o (some v))
    (hd : g.layout.time = none) {t : Fl K} (hv : v.values = [t]) {ref : Fl K} (hr : ReferenceOf f ref) (tag next : Nat) :
    ∃ F, openNetcdf tag next o f = ok F ∧ HasGrid F g f ∧ F.times = [t] ∧ F.reference = ref := by
  obtain ⟨grid, e1, e2, e3, e4⟩ := open_stage h h0 ht tag next
  rw [e4, fileReferenceTime_ok h.names hr, ok_bind]
  unfold fileTimes
  rw [hd]
  simp only
  rw [hv, if_neg (by simp), ok_bind]
  exact ⟨_, rfl, ⟨rfl, rfl, e1, e2, e3, rfl, rfl⟩, rfl, rfl⟩

/-- C152 is false of the code for a variable with more values than there are times: memory that is not there is written. -/
theorem c152_many_false [FloorRing K] {g : ForecastGrid K} {f : NcFile K} {o : NcFileOptions} (h : g.Of f o)
    (h0 : ∀ i < dimCount f g.layout.y, ∀ j < dimCount f g.layout.x, g.lon i j ≠ 0) {v : NcVar K} (ht : TimeVarOf f o (some v))
    (hp : dimCount f g.layout.time ≠ 0) (hd : dimCount f g.layout.time < v.values.length) {ref : Fl K} (hr : ReferenceOf f ref) (tag next : Nat) :
    openNetcdf tag next o f = .ub := by
  obtain ⟨grid, -, -, -, e4⟩ := open_stage h h0 ht tag next
  rw [e4, fileReferenceTime_ok h.names hr, ok_bind]
  unfold fileTimes
  cases hl : g.layout.time with
  | none =>
    rw [hl] at hd
    change 1 < _ at hd
    simp only
    rw [if_pos hd]
    rfl
  | some d =>
    have hlt := dimChoice_lt h.dims.time d hl
    rw [hl] at hd hp
    change dimLength f d ≠ 0 at hp
    change dimLength f d < _ at hd
    simp only
    rw [dimSize_ok hlt, ok_bind, if_neg hp, if_neg (by omega)]
    rfl

/-- C152 is false of the code for a longitude that is zero: it is divided by itself and the result converted to an integer. -/
theorem c152_zero_false [FloorRing K] {g : ForecastGrid K} {f : NcFile K} {o : NcFileOptions} (h : g.Of f o) {tv : Option (NcVar K)} (ht : TimeVarOf f o tv)
    (h0 : ∃ i < dimCount f g.layout.y, ∃ j < dimCount f g.layout.x, g.lon i j = 0) (tag next : Nat) : openNetcdf tag next o f = .ub := by
  have hy := dimChoice_lt h.dims.y
  have hx := dimChoice_lt h.dims.x
  obtain ⟨vlat, a1, a2⟩ := h.lats
  obtain ⟨vlon, b1, b2⟩ := h.lons
  have hra := tabulate_rect (dimCount f g.layout.y) (dimCount f g.layout.x) fun i j => Fl.fin (g.lat i j)
  have hro := tabulate_rect (dimCount f g.layout.y) (dimCount f g.layout.x) fun i j => Fl.fin (g.lon i j)
  obtain ⟨g1, n1, c1, c2, c3⟩ := c94_lats (f := (⟨[], [], tag⟩ : GridFile K)) next (.inl rfl) hra (by
    intro r hr v hv
    obtain ⟨i, hi, j, hj, rfl⟩ := tabulate_mem hr hv
    exact ⟨_, rfl, h.latRange i hi j hj⟩)
  have hub := c94_zero_false (f := g1) n1 (.inl c3) hro (by
    intro r hr v hv
    obtain ⟨i, hi, j, hj, rfl⟩ := tabulate_mem hr hv
    exact ⟨_, rfl, h.lonRange i hi j hj⟩) (by
    obtain ⟨i, hi, j, hj, he⟩ := h0
    refine ⟨(List.range (dimCount f g.layout.x)).map fun j => Fl.fin (g.lon i j), List.mem_map.mpr ⟨i, List.mem_range.mpr hi, rfl⟩,
      List.mem_map.mpr ⟨j, List.mem_range.mpr hj, by rw [he]⟩⟩)
  unfold openNetcdf
  rw [chooseVar_ok h.names a1, ok_bind, chooseVar_ok h.names b1, ok_bind, chooseTimeVar_ok h.names ht, ok_bind, openLayout_ok h.names h.dims, ok_bind,
    gridSize_count (ens_lt h.dims), ok_bind, latLonGrid_ok a2 hy hx, ok_bind, c1, ok_bind]
  simp only
  rw [latLonGrid_ok b2 hy hx, ok_bind, hub]
  rfl

/-- A file with a grid of two rows and one column, two times and no reference time; the elevations are from a geopotential. -/
def sampleForecastFile : NcFile ℚ :=
  ⟨[("time".toList, 2), ("lat".toList, 2), ("lon".toList, 1)],
   [⟨"lat".toList, [1], [.fin 60, .fin 61], none⟩, ⟨"lon".toList, [2], [.fin 190], none⟩, ⟨"time".toList, [0], [.fin 3600, .fin 7200], none⟩,
    ⟨"surface_geopotential".toList, [2, 1], [.fin 981, .fin 5], some (.fin 5)⟩]⟩

def sampleForecastGrid : ForecastGrid ℚ :=
  ⟨⟨some 0, none, some 1, some 2⟩, fun i _ => if i = 0 then 60 else 61, fun _ _ => 190,
    some fun i j => fromGeopotential ((fun i _ => if i = 0 then .fin 981 else .fin (-999) : Nat → Nat → Fl ℚ) i j), fun _ _ => .fin (-999)⟩

def noOptions : NcFileOptions := ⟨none, none, none, none, none, none, none, none, none⟩

theorem sampleForecast_of : sampleForecastGrid.Of sampleForecastFile noOptions := by
  refine ⟨⟨by decide, by decide⟩, ⟨⟨[], _, [], 2, rfl, by simp, rfl⟩, .inr ⟨rfl, by decide⟩, ⟨["y".toList, "latitude".toList], _, [], 2, rfl, by decide, rfl⟩,
    ⟨["x".toList, "longitude".toList], _, [], 1, rfl, by decide, rfl⟩⟩, by decide, ?_, ?_, ?_, ?_, ?_, ?_⟩
  · refine ⟨⟨"lat".toList, [1], [.fin 60, .fin 61], none⟩, ⟨["latitude".toList], _, [], rfl, by decide, by decide +kernel, rfl⟩, ⟨by decide, by decide⟩,
      .inr ⟨1, rfl, .inr rfl, by decide +kernel, ?_⟩⟩
    show ∀ i < 2, ∀ j < 1, _ = _
    decide +kernel
  · refine ⟨⟨"lon".toList, [2], [.fin 190], none⟩, ⟨["longitude".toList], _, [], rfl, by decide, by decide +kernel, rfl⟩, ⟨by decide, by decide⟩,
      .inr ⟨2, rfl, .inl rfl, by decide +kernel, ?_⟩⟩
    show ∀ i < 2, ∀ j < 1, _ = _
    decide +kernel
  · show ∀ i < 2, ∀ j < 1, _ ≤ _ ∧ _ ≤ _
    decide +kernel
  · show ∀ i < 2, ∀ j < 1, _ ≤ _ ∧ _ ≤ _
    decide +kernel
  · refine .inr ⟨by decide, .inl ⟨rfl, ⟨"surface_geopotential".toList, [2, 1], [.fin 981, .fin 5], some (.fin 5)⟩, _, by decide +kernel, rfl, ⟨⟨by decide, by decide⟩,
      .inl ⟨1, 2, rfl, rfl, by decide, by decide, by decide, by decide, by decide, ?_⟩⟩, rfl⟩⟩
    show ∀ i < 2, ∀ j < 1, _
    intro i hi j hj
    match i, j, hi, hj with
    | 0, 0, _, _ => exact ⟨.fin 981, by unfold ValueAt; decide +kernel, by decide +kernel⟩
    | 1, 0, _, _ => exact ⟨.fin 5, by unfold ValueAt; decide +kernel, by decide +kernel⟩
  · exact .inr ⟨by decide, fun _ _ => rfl⟩

/-- The longitude 190 is kept as -170, the missing elevation is recognised, and the first time is the reference time. -/
example : openNetcdf 0 1 noOptions sampleForecastFile = ok ⟨⟨some 0, none, some 1, some 2⟩, 1, ⟨[[.fin 60], [.fin 61]], [[.fin (-170)], [.fin (-170)]], 2⟩,
    [[.fin 100], [.fin (-999)]], [[.fin (-999)], [.fin (-999)]], [.fin 3600, .fin 7200], .fin 3600⟩ := by decide +kernel

/-- The same with one time that has no dimension: the reference time is missing. -/
example : openNetcdf 0 1 noOptions (⟨[("lat".toList, 1), ("lon".toList, 1)],
    [⟨"lat".toList, [0], [.fin 60], none⟩, ⟨"lon".toList, [1], [.fin 10], none⟩, ⟨"time".toList, [], [.fin 3600], none⟩]⟩ : NcFile ℚ) =
    ok ⟨⟨none, none, some 0, some 1⟩, 1, ⟨[[.fin 60]], [[.fin 10]], 2⟩, [], [[.fin (-999)]], [.fin 3600], .fin (-999)⟩ := by decide +kernel

end Gridpp.Props
