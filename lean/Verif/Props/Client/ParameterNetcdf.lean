import Verif.Props.Client.NetcdfGrid
import Verif.Props.Client.ParameterFile

/-! # C147: reading parameters from NetCDF files -/

set_option linter.unusedSectionVars false

namespace Gridpp.Props
open Fl hiding MV isValid
open Res Client Spec

variable {K : Type} [Field K] [LinearOrder K] [IsStrictOrderedRing K]

theorem meaning_eq (v : NcVar K) (x : Fl K) : (if x.feq v.missing then Client.MV else x) = meaning v.fill x := by
  unfold meaning NcVar.missing ncFillFloat
  cases x with
  | nan => simp [Fl.feq]
  | pinf => cases h : v.fill.getD (fin (15 * 2 ^ 119)) <;> simp [Fl.feq, Client.MV]
  | ninf => cases h : v.fill.getD (fin (15 * 2 ^ 119)) <;> simp [Fl.feq, Client.MV]
  | fin q => cases h : v.fill.getD (fin (15 * 2 ^ 119)) <;> simp [Fl.feq, Client.MV]

theorem mem_gridCells {nLat nLon i j : Nat} : (i, j) ∈ gridCells nLat nLon ↔ i < nLat ∧ j < nLon := by
  simp [gridCells]

/-- The place of a cell. -/
def gridLoc (g : ParGrid K) (p : Nat × Nat) : Loc K := ⟨g.lat p.1 p.2, g.lon p.1 p.2, g.elev p.1 p.2⟩

theorem settings_eq (g : ParGrid K) :
    g.settings = cellSettings g.nTime ((gridCells g.nLat g.nLon).map fun p => (gridLoc g p, fun t => g.pars p.1 p.2 t)) := by
  unfold ParGrid.settings cellSettings gridCells
  rw [List.flatMap_map, List.flatMap_assoc]
  congr 1
  funext i
  rw [List.flatMap_map]
  rfl

theorem recomputeTree_eq {sort : Bool → List (Site K) → List (Site K)} {f : ParFile K} (hm : ∀ e ∈ f.pars, OnGlobe e.1.lat e.1.lon) (hne : f.pars ≠ []) :
    recomputeTreeAlways sort f = f.recomputeTree sort := by
  have hval : ∀ e ∈ f.pars, e.1.lat ≠ -999 ∧ e.1.lon ≠ -999 := by
    intro e he
    obtain ⟨h1, h2⟩ := hm e he
    constructor
    · intro h
      rw [h] at h1
      norm_num at h1
    · intro h
      rw [h] at h2
      norm_num at h2
  have hdep : f.isLocationDependent = ok true := by
    unfold ParFile.isLocationDependent
    cases hp : f.pars with
    | nil => exact absurd hp hne
    | cons e m =>
      cases m with
      | nil =>
        have := hval e (by rw [hp]; simp)
        have v1 : Client.isValid (fin e.1.lat : Fl K) = true := isValid_iff_present.mpr ⟨_, rfl, this.1⟩
        have v2 : Client.isValid (fin e.1.lon : Fl K) = true := isValid_iff_present.mpr ⟨_, rfl, this.2⟩
        simp only [v1, v2, Bool.and_self]
      | cons => rfl
  unfold recomputeTreeAlways ParFile.recomputeTree
  rw [hdep, ok_bind, if_pos rfl]

theorem timeDim_ok {g : ParGrid K} {f : NcFile K} {a b c d : Str} (h : g.Of f a b c d) : timeDim f = ok (g.dTime, g.nTime) := by
  unfold timeDim
  rcases h.time with ⟨h1, h2, h3⟩ | ⟨d, v, h1, h2, h3, h4, h5⟩
  · rw [h1, h2]
    rcases h3 with h3 | h3
    · rw [dimId_none h3]
      cases f.var "time".toList <;> rfl
    · rw [var_none h3]
  · have hv := var_some h.names.2 h3
    rw [h4] at hv
    have hlt : d < f.dims.length := (List.getElem?_eq_some_iff.mp h2).1
    have hlen : dimLength f d = g.nTime := by
      unfold dimLength
      rw [h2]
      rfl
    rw [hv, dimId_some h.names.1 h2]
    simp only
    rw [dimSize_ok hlt, ok_bind, hlen, if_neg (by omega), h1]

/-- The file before the tree is built. -/
theorem readNetcdf_filled {g : ParGrid K} {f : NcFile K} {o : NcOptions} (h : g.Of f o.dimName o.varName o.xDim o.yDim)
    (sort : Bool → List (Site K) → List (Site K)) :
    ∃ F : ParFile K, F.Holds o.cycling g.settings ∧ F.locations = [] ∧ F.pars ≠ [] ∧ readNetcdf sort o f = recomputeTreeAlways sort F := by
  obtain ⟨d1, d2, d3, d4, d5, d6⟩ := h.different
  obtain ⟨p1, p2, p3, p4⟩ := h.positive
  obtain ⟨vLat, a1, a2, a3⟩ := h.lats
  obtain ⟨vLon, b1, b2, b3⟩ := h.lons
  obtain ⟨v, c1, c2, c3, c4, c5, c6, c7, c8, c9, c10⟩ := h.values
  have hlats : gridValues f o vLat = ok (tabulate g.nLat g.nLon fun i j => fin (g.lat i j)) := by
    have := gridValues_ok h.names h.dimLat h.dimLon d1 a2.fine a2.nodup a2.others a2.has (x := fun i j => fin (g.lat i j)) (by rw [h.nLat, h.nLon]; exact a3)
    rw [h.nLat, h.nLon] at this
    exact this
  have hlons : gridValues f o vLon = ok (tabulate g.nLat g.nLon fun i j => fin (g.lon i j)) := by
    have := gridValues_ok h.names h.dimLat h.dimLon d1 b2.fine b2.nodup b2.others b2.has (x := fun i j => fin (g.lon i j)) (by rw [h.nLat, h.nLon]; exact b3)
    rw [h.nLat, h.nLon] at this
    exact this
  have helevs : altitudes f o g.nLat g.nLon = ok (tabulate g.nLat g.nLon g.elev) := by
    unfold altitudes
    rcases h.elevs with ⟨w, w1, w2, w3, w4⟩ | ⟨w1, w2⟩
    · have hw := var_some h.names.2 w1
      rw [w2] at hw
      rw [hw]
      have := gridValues_ok h.names h.dimLat h.dimLon d1 w3.fine w3.nodup w3.others w3.has (x := g.elev) (by rw [h.nLat, h.nLon]; exact w4)
      rw [h.nLat, h.nLon] at this
      exact this
    · rw [var_none w1]
      simp only
      congr 1
      unfold tabulate
      have : ∀ i, (List.range g.nLon).map (g.elev i) = List.replicate g.nLon (Client.MV : Fl K) := by
        intro i
        rw [List.eq_replicate_iff]
        refine ⟨by simp, fun x hx => ?_⟩
        obtain ⟨j, -, rfl⟩ := List.mem_map.mp hx
        exact w2 i j
      simp only [this]
      rw [List.map_const', List.length_range]
  have hv : f.var o.varName = some v := by
    have := var_some h.names.2 c1
    rw [c2] at this
    exact this
  have hcoeff : dimLength f g.dCoeff = g.nCoeff := by
    unfold dimLength
    rw [h.dimCoeff]
    rfl
  have hcoefflt : g.dCoeff < f.dims.length := (List.getElem?_eq_some_iff.mp h.dimCoeff).1
  have hsizes : mapM f.dimSize v.dims = ok (v.dims.map (dimLength f)) := mapM_ok fun d hd => dimSize_ok (c4.1 d hd)
  have hfloats : ncFloats f v = ok (v.values.map (meaning g.fill)) := by
    unfold ncFloats
    rw [totalSize_ok c4.1, ok_bind, ← c4.2]
    have hpos : v.values.length ≠ 0 := by
      have := c10 0 p1 0 p2 0 p4 0 p3
      unfold ValueAt at this
      have := (List.getElem?_eq_some_iff.mp this).1
      omega
    rw [if_neg hpos]
    congr 1
    apply List.map_congr_left
    intro x _
    rw [meaning_eq, c3]
  have hloc : ∀ p ∈ gridCells g.nLat g.nLon, cellLoc (tabulate g.nLat g.nLon fun i j => fin (g.lat i j)) (tabulate g.nLat g.nLon fun i j => fin (g.lon i j))
      (tabulate g.nLat g.nLon g.elev) p.1 p.2 = ok (gridLoc g p) := by
    rintro ⟨i, j⟩ hp
    obtain ⟨hi, hj⟩ := mem_gridCells.mp hp
    unfold cellLoc
    rw [vget2_of_cell? (cell?_tabulate _ hi hj), ok_bind, vget2_of_cell? (cell?_tabulate _ hi hj), ok_bind, vget2_of_cell? (cell?_tabulate _ hi hj), ok_bind]
    rfl
  have hdims := coeffDims_spec d1 d2 d3 d4 d5 d6 0 v.dims c5 ⟨none, none, none, none⟩
  rw [if_pos c7, if_pos c8, if_pos c9, Option.or_none] at hdims
  simp only [Nat.zero_add] at hdims
  have hpars : ∀ i < g.nLat, ∀ j < g.nLon, ∀ t < g.nTime,
      cellPars (v.values.map (meaning g.fill)) (v.dims.map (dimLength f)) (v.dims.idxOf g.dLat) (v.dims.idxOf g.dLon)
        (g.dTime.bind fun d => if d ∈ v.dims then some (v.dims.idxOf d) else none) (v.dims.idxOf g.dCoeff) g.nCoeff i j t = ok (g.pars i j t) := by
    intro i hi j hj t ht
    unfold cellPars ParGrid.pars
    refine mapM_ok fun k hk => ?_
    have hk := List.mem_range.mp hk
    obtain ⟨w, w1, w2, w3⟩ := coeffIndices_spec d1 d2 d3 d4 d5 d6 c5 c6 c7 c8 c9 i j t k
    rw [w1, ok_bind, ncIndex_eq _ _ (by simp [w2, c6]), ok_bind]
    have hzip : (v.dims.map (dimLength f)).zip w = v.dims.map fun d => (dimLength f d, coeffPos g.dLat g.dLon g.dTime g.dCoeff i j t k d) := by
      apply List.ext_getElem
      · rw [List.length_zip, List.length_map, List.length_map]
        omega
      · intro n h1 h2
        have hn : n < v.dims.length := by simpa using h2
        have hw := w3 n hn
        have hwn : n < w.length := by omega
        rw [List.getElem?_eq_getElem hwn] at hw
        rw [List.getElem_zip, List.getElem_map, List.getElem_map]
        rw [Option.some.inj hw]
    rw [hzip]
    have hval := c10 i hi j hj t ht k hk
    unfold ValueAt at hval
    rw [vget_nat, List.getElem?_map, hval]
    rfl
  let cells := (gridCells g.nLat g.nLon).map fun p => (gridLoc g p, fun t => g.pars p.1 p.2 t)
  have hcells : cells ≠ [] := by
    have : (0, 0) ∈ gridCells g.nLat g.nLon := mem_gridCells.mpr ⟨p1, p2⟩
    exact List.ne_nil_of_mem (List.mem_map.mpr ⟨(0, 0), this, rfl⟩)
  let blank : List (Pars K) := List.replicate g.nTime (List.replicate g.nCoeff Client.MV)
  let F : ParFile K := { ParFile.empty o.cycling with
    pars := ParMap.assigned [] ((cells.map fun c => (c.1, blank)) ++ cells.map (cellArray g.nTime)), timeDependent := decide (1 < g.nTime), maxTime := g.nTime - 1 }
  obtain ⟨hH, hne, hmem⟩ := holds_cells (f := F) p4 hcells blank rfl rfl rfl
  refine ⟨F, ?_, rfl, hne, ?_⟩
  · rw [settings_eq]
    exact hH
  · have hnum : F.getNumParameters = g.nCoeff := by
      rw [c107_number F g.nCoeff (by omega)]
      constructor
      · obtain ⟨e, he⟩ := List.exists_mem_of_ne_nil _ hne
        refine ⟨e, he, ?_⟩
        obtain ⟨c, -, d, -, rfl⟩ := hmem e he
        apply List.ne_nil_of_length_pos
        simpa using p4
      · intro e he p hp
        obtain ⟨c, -, d, hd, rfl⟩ := hmem e he
        obtain ⟨t, -, rfl⟩ := List.mem_map.mp hp
        obtain ⟨q, -, rfl⟩ := List.mem_map.mp hd
        simp [ParGrid.pars]
    have hloop := cells_loop (gridCells g.nLat g.nLon) (gridLoc g) (fun p t => g.pars p.1 p.2 t) g.nTime blank (by simp [blank])
      (step := fun m (p : Nat × Nat) => do
        let l ← cellLoc (tabulate g.nLat g.nLon fun i j => fin (g.lat i j)) (tabulate g.nLat g.nLon fun i j => fin (g.lon i j))
          (tabulate g.nLat g.nLon g.elev) p.1 p.2
        foldM (fun m t => do
          let par ← cellPars (v.values.map (meaning g.fill)) (v.dims.map (dimLength f)) (v.dims.idxOf g.dLat) (v.dims.idxOf g.dLon)
            (g.dTime.bind fun d => if d ∈ v.dims then some (v.dims.idxOf d) else none) (v.dims.idxOf g.dCoeff) g.nCoeff p.1 p.2 t
          setAt m l t par) m (List.range g.nTime)) (by
        rintro ⟨i, j⟩ hp m e hs hf hn
        obtain ⟨hi, hj⟩ := mem_gridCells.mp hp
        rw [hloc _ hp, ok_bind]
        refine setAt_loop hs hf hn fun m t ht => ?_
        simp only
        rw [hpars i hi j hj t ht, ok_bind])
    have hFp : ParMap.assigned [] (((gridCells g.nLat g.nLon).map fun c => (gridLoc g c, blank)) ++
        (gridCells g.nLat g.nLon).map fun c => (gridLoc g c, (List.range g.nTime).map fun t => g.pars c.1 c.2 t)) = F.pars := by
      show _ = ParMap.assigned [] ((cells.map fun c => (c.1, blank)) ++ cells.map (cellArray g.nTime))
      simp only [cells, List.map_map]
      rfl
    rw [hFp] at hloop
    unfold readNetcdf lonDim latDim coeffDim
    rw [findDim_ok h.names.1 h.dimLon, ok_bind, findDim_ok h.names.1 h.dimLat, ok_bind, dimId_some h.names.1 h.dimCoeff]
    simp only [Option.elim_some, ok_bind]
    rw [dimSize_ok (firstDim_lt h.dimLat), ok_bind, dimSize_ok (firstDim_lt h.dimLon), ok_bind, dimSize_ok hcoefflt, ok_bind,
      placeVar_ok h.names.2 a1, ok_bind, hlats, ok_bind, placeVar_ok h.names.2 b1, ok_bind, hlons, ok_bind, h.nLat, h.nLon, helevs, ok_bind,
      timeDim_ok h, ok_bind, hv]
    simp only [Option.elim_some, ok_bind, hcoeff]
    rw [if_neg (by positivity), hfloats, ok_bind, mapM_ok (g := gridLoc g) hloc, ok_bind, hsizes, ok_bind, hdims]
    simp only
    rw [initializeEmpty_eq, List.map_map]
    have hini : ((fun l : Loc K => (l, List.replicate g.nTime (List.replicate g.nCoeff (Client.MV : Fl K)))) ∘ gridLoc g) = fun c => (gridLoc g c, blank) := rfl
    rw [hini, hloop, ok_bind]
    have hF : ({ ParFile.empty o.cycling with pars := F.pars, timeDependent := decide (1 < g.nTime), maxTime := g.nTime - 1 } : ParFile K) = F := rfl
    simp only [hF]
    rw [if_pos (by rw [hnum]; omega)]

theorem settings_mem {g : ParGrid K} {w : Setting K} (hw : w ∈ g.settings) :
    ∃ i < g.nLat, ∃ j < g.nLon, ∃ t < g.nTime, w = ⟨g.lat i j, g.lon i j, g.elev i j, t, g.pars i j t⟩ := by
  unfold ParGrid.settings at hw
  obtain ⟨i, hi, hw⟩ := List.mem_flatMap.mp hw
  obtain ⟨j, hj, hw⟩ := List.mem_flatMap.mp hw
  obtain ⟨t, ht, rfl⟩ := List.mem_map.mp hw
  exact ⟨i, List.mem_range.mp hi, j, List.mem_range.mp hj, t, List.mem_range.mp ht, rfl⟩

theorem settings_ne_nil {g : ParGrid K} (h : 0 < g.nLat ∧ 0 < g.nLon ∧ 0 < g.nCoeff ∧ 0 < g.nTime) : g.settings ≠ [] := by
  apply List.ne_nil_of_mem (a := ⟨g.lat 0 0, g.lon 0 0, g.elev 0 0, 0, g.pars 0 0 0⟩)
  unfold ParGrid.settings
  exact List.mem_flatMap.mpr ⟨0, List.mem_range.mpr h.1, List.mem_flatMap.mpr ⟨0, List.mem_range.mpr h.2.1, List.mem_map.mpr ⟨0, List.mem_range.mpr h.2.2.2, rfl⟩⟩⟩

/-- What is set for a cell is what is found there, if no other cell is at the same place. -/
theorem lastSetting_cell {g : ParGrid K} {i j t : Nat} (hi : i < g.nLat) (hj : j < g.nLon) (ht : t < g.nTime)
    (hu : ∀ i' < g.nLat, ∀ j' < g.nLon, g.lat i' j' = g.lat i j → g.lon i' j' = g.lon i j → i' = i ∧ j' = j) :
    lastSetting g.settings (g.lat i j) (g.lon i j) t = g.pars i j t := by
  unfold lastSetting
  have hall : ∀ w ∈ settingsFor g.settings (g.lat i j) (g.lon i j) t, w = ⟨g.lat i j, g.lon i j, g.elev i j, t, g.pars i j t⟩ := by
    intro w hw
    obtain ⟨h1, h2⟩ := List.mem_filter.mp hw
    obtain ⟨i', hi', j', hj', t', ht', rfl⟩ := settings_mem h1
    obtain ⟨h3, h4, h5⟩ := of_decide_eq_true h2
    simp only at h3 h4 h5
    obtain ⟨rfl, rfl⟩ := hu i' hi' j' hj' h3 h4
    rw [h5]
  have hmem : (⟨g.lat i j, g.lon i j, g.elev i j, t, g.pars i j t⟩ : Setting K) ∈ settingsFor g.settings (g.lat i j) (g.lon i j) t := by
    refine List.mem_filter.mpr ⟨?_, by simp⟩
    exact List.mem_flatMap.mpr ⟨i, List.mem_range.mpr hi, List.mem_flatMap.mpr ⟨j, List.mem_range.mpr hj, List.mem_map.mpr ⟨t, List.mem_range.mpr ht, rfl⟩⟩⟩
  cases hl : (settingsFor g.settings (g.lat i j) (g.lon i j) t).getLast? with
  | none =>
    rw [List.getLast?_eq_none_iff] at hl
    rw [hl] at hmem
    simp at hmem
  | some w => rw [hall w (List.mem_of_getLast? hl)]

theorem latest_settings {g : ParGrid K} (h : 0 < g.nLat ∧ 0 < g.nLon ∧ 0 < g.nCoeff ∧ 0 < g.nTime) : latest g.settings + 1 = g.nTime := by
  rw [settings_eq]
  refine latest_cells h.2.2.2 ?_
  exact List.ne_nil_of_mem (List.mem_map.mpr ⟨(0, 0), mem_gridCells.mpr ⟨h.1, h.2.1⟩, rfl⟩)

/-- The tree of a file whose places are on the globe. -/
theorem recomputeTreeAlways_ok {sort : Bool → List (Site K) → List (Site K)} (hsort : KD.Sorts sort) {f : ParFile K}
    (hm : ∀ e ∈ f.pars, OnGlobe e.1.lat e.1.lon) (hne : f.pars ≠ []) :
    ∃ tree, recomputeTreeAlways sort f = ok { f with locations := f.locations ++ f.pars.map Prod.fst, tree := tree } := by
  have hval : ∀ e ∈ f.pars, e.1.lat ≠ -999 ∧ e.1.lon ≠ -999 := by
    intro e he
    obtain ⟨h1, h2⟩ := hm e he
    constructor
    · intro h
      rw [h] at h1
      norm_num at h1
    · intro h
      rw [h] at h2
      norm_num at h2
  have hplace : ∀ i j c d, PlaceAt (f.pars.map fun e => [(fin e.1.lat : Fl K)]) (f.pars.map fun e => [fin e.1.lon]) i j c d ↔
      j = 0 ∧ ∃ e, f.pars[i]? = some e ∧ c = e.1.lat ∧ d = e.1.lon := by
    intro i j c d
    unfold PlaceAt
    rw [ParFile.cell?_column, ParFile.cell?_column]
    constructor
    · rintro ⟨⟨h1, e, he, h2⟩, ⟨-, e', he', h3⟩, -, -⟩
      rw [he] at he'
      cases he'
      exact ⟨h1, e, he, by simpa using h2, by simpa using h3⟩
    · rintro ⟨rfl, e, he, rfl, rfl⟩
      have := hval e (List.mem_of_getElem? he)
      exact ⟨⟨rfl, e, he, rfl⟩, ⟨rfl, e, he, rfl⟩, this.1, this.2⟩
  have hr1 : Rect f.pars.length 1 (f.pars.map fun e => [(fin e.1.lat : Fl K)]) := ⟨by simp, fun r hr => by obtain ⟨e, -, rfl⟩ := List.mem_map.mp hr; rfl⟩
  have hr2 : Rect f.pars.length 1 (f.pars.map fun e => [(fin e.1.lon : Fl K)]) := ⟨by simp, fun r hr => by obtain ⟨e, -, rfl⟩ := List.mem_map.mp hr; rfl⟩
  obtain ⟨root, hb1, -⟩ := build_ok hsort hr1 hr2 (by
      intro i j c d h
      obtain ⟨-, e, he, rfl, rfl⟩ := (hplace i j c d).mp h
      exact hm e (List.mem_of_getElem? he)) (by
      obtain ⟨e, he⟩ := List.exists_mem_of_ne_nil _ hne
      obtain ⟨i, hi⟩ := List.mem_iff_getElem?.mp he
      exact ⟨i, 0, _, _, (hplace i 0 _ _).mpr ⟨rfl, e, hi, rfl, rfl⟩⟩)
  refine ⟨root, ?_⟩
  unfold recomputeTreeAlways
  rw [hb1]
  rfl

/-- The time index that is meant by time `n`, of `nTime` times: one time is for all, and with cycling the times repeat. -/
def timeUsed (nTime : Nat) (cycling : Bool) (n : Nat) : Nat := if nTime = 1 then 0 else if cycling then n % nTime else n

theorem usedTime_settings {g : ParGrid K} (h : 0 < g.nLat ∧ 0 < g.nLon ∧ 0 < g.nCoeff ∧ 0 < g.nTime) (c : Bool) (n : Nat) :
    usedTime g.settings c n = timeUsed g.nTime c n := by
  have := latest_settings h
  unfold usedTime timeUsed
  rw [this]
  have e : latest g.settings = 0 ↔ g.nTime = 1 := by omega
  simp only [e]

/-- **C147**, exact places, as far as it holds: after reading, with any order of the dimensions of the variable and with or without times, the parameters
got for the place of a cell are those of the file at the indices of the cell and of the time, fill values being missing values; of cells at the same place
the last counts. Elsewhere there are none, and later times are refused. Missing: at most four dimensions (`c147_five_dims_false`), places on
the globe (`c147_missing_place_false`); the values of the times are not used (`c147_times_false`). -/
theorem c147_read_partial [HasArcC K] {g : ParGrid K} {f : NcFile K} {o : NcOptions} (h : g.Of f o.dimName o.varName o.xDim o.yDim)
    {sort : Bool → List (Site K) → List (Site K)} (hsort : KD.Sorts sort) (hglobe : ∀ i < g.nLat, ∀ j < g.nLon, OnGlobe (g.lat i j) (g.lon i j)) :
    ∃ F, readNetcdf sort o f = ok F ∧ F.getTimes = List.range g.nTime ∧
      (∀ l : Loc K, ∀ t : Int, t < 0 → F.getParameters t l false = .abort) ∧
      ∀ (l : Loc K) (n : Nat), (g.nTime ≤ timeUsed g.nTime o.cycling n → F.getParameters n l false = .abort) ∧
        (timeUsed g.nTime o.cycling n < g.nTime → F.getParameters n l false = ok (lastSetting g.settings l.lat l.lon (timeUsed g.nTime o.cycling n)) ∧
          ((∀ i < g.nLat, ∀ j < g.nLon, ¬ (g.lat i j = l.lat ∧ g.lon i j = l.lon)) → F.getParameters n l false = ok []) ∧
          ∀ i < g.nLat, ∀ j < g.nLon, g.lat i j = l.lat → g.lon i j = l.lon →
            (∀ i' < g.nLat, ∀ j' < g.nLon, g.lat i' j' = g.lat i j → g.lon i' j' = g.lon i j → i' = i ∧ j' = j) →
            F.getParameters n l false = ok (g.pars i j (timeUsed g.nTime o.cycling n))) := by
  obtain ⟨F, h1, h2, h3, h4⟩ := readNetcdf_filled h sort
  have hm : ∀ e ∈ F.pars, OnGlobe e.1.lat e.1.lon := by
    intro e he
    obtain ⟨w, hw, h5, h6⟩ := (h1.keys _ _).mp ⟨e, he, rfl, rfl⟩
    obtain ⟨i, hi, j, hj, t, ht, rfl⟩ := settings_mem hw
    rw [← h5, ← h6]
    exact hglobe i hi j hj
  obtain ⟨tree, h5⟩ := recomputeTreeAlways_ok hsort hm h3
  have hh : ParFile.Holds { F with locations := F.locations ++ F.pars.map Prod.fst, tree := tree } o.cycling g.settings :=
    ⟨h1.sorted, h1.keys, h1.short, h1.long, h1.value, h1.elev, h1.maxTime, h1.timeDependent, h1.cycling⟩
  have hlat := latest_settings h.positive
  obtain ⟨s1, s2⟩ := store_of_holds hh
  refine ⟨_, h4.trans h5, ?_, s1, fun l n => ?_⟩
  · rw [times_of_holds hh, if_neg (settings_ne_nil h.positive), hlat]
  · obtain ⟨s3, s4⟩ := s2 l n
    rw [usedTime_settings h.positive] at s3 s4
    refine ⟨fun hn => s3 (by omega), fun hn => ⟨s4 (by omega), fun hno => ?_, fun i hi j hj e1 e2 hu => ?_⟩⟩
    · rw [s4 (by omega), lastSetting_eq_nil]
      intro w hw hc
      obtain ⟨i, hi, j, hj, t, ht, rfl⟩ := settings_mem hw
      exact hno i hi j hj hc
    · rw [s4 (by omega), ← e1, ← e2, lastSetting_cell hi hj hn hu]

/-- **C147**, nearest neighbours, as far as it holds: the parameters got for any place on the globe are those of the nearest cell. Missing: as in
`c147_read_partial`, and distances on the sphere do not meet the condition (see C91). -/
theorem c147_nearest_partial [HasArcC K] (hsep : KD.Separates K) (hpos : ∀ a b c d : K, 0 ≤ HasArcC.arc a b c d) {g : ParGrid K} {f : NcFile K}
    {o : NcOptions} (h : g.Of f o.dimName o.varName o.xDim o.yDim) {sort : Bool → List (Site K) → List (Site K)} (hsort : KD.Sorts sort)
    (hglobe : ∀ i < g.nLat, ∀ j < g.nLon, OnGlobe (g.lat i j) (g.lon i j))
    (hu : ∀ i < g.nLat, ∀ j < g.nLon, ∀ i' < g.nLat, ∀ j' < g.nLon, g.lat i' j' = g.lat i j → g.lon i' j' = g.lon i j → i' = i ∧ j' = j) :
    ∃ F, readNetcdf sort o f = ok F ∧ ∀ (l : Loc K) (n : Nat), OnGlobe l.lat l.lon → timeUsed g.nTime o.cycling n < g.nTime →
      ∃ i < g.nLat, ∃ j < g.nLon, F.getParameters n l true = ok (g.pars i j (timeUsed g.nTime o.cycling n)) ∧
        ∀ i' < g.nLat, ∀ j' < g.nLon, gap l.lat l.lon (g.lat i j) (g.lon i j) ≤ gap l.lat l.lon (g.lat i' j') (g.lon i' j') := by
  obtain ⟨F, h1, h2, h3, h4⟩ := readNetcdf_filled h sort
  have hws : ∀ w ∈ g.settings, OnGlobe w.lat w.lon := by
    intro w hw
    obtain ⟨i, hi, j, hj, t, ht, rfl⟩ := settings_mem hw
    exact hglobe i hi j hj
  have hm : ∀ e ∈ F.pars, OnGlobe e.1.lat e.1.lon := by
    intro e he
    obtain ⟨w, hw, h5, h6⟩ := (h1.keys _ _).mp ⟨e, he, rfl, rfl⟩
    rw [← h5, ← h6]
    exact hws w hw
  obtain ⟨F', g1, -, -, -, g2⟩ := nearest_of_holds hsep hpos hsort (settings_ne_nil h.positive) hws h1 h2
  refine ⟨F', by rw [h4, recomputeTree_eq hm h3]; exact g1, fun l n hl hn => ?_⟩
  have hlat := latest_settings h.positive
  obtain ⟨p, q1, -, q2⟩ := (g2 l n).2 hl (by rw [usedTime_settings h.positive]; omega)
  rw [usedTime_settings h.positive] at q2
  have hlast : ∀ i < g.nLat, ∀ j < g.nLon, lastSetting g.settings (g.lat i j) (g.lon i j) (timeUsed g.nTime o.cycling n) =
      g.pars i j (timeUsed g.nTime o.cycling n) := fun i hi j hj => lastSetting_cell hi hj hn (hu i hi j hj)
  have hne : ∀ i j t, g.pars i j t ≠ [] := by
    intro i j t
    apply List.ne_nil_of_length_pos
    simpa [ParGrid.pars] using h.positive.2.2.1
  have hmem : ∀ i < g.nLat, ∀ j < g.nLon, (⟨g.lat i j, g.lon i j, g.elev i j, 0, g.pars i j 0⟩ : Setting K) ∈ g.settings := by
    intro i hi j hj
    exact List.mem_flatMap.mpr ⟨i, List.mem_range.mpr hi, List.mem_flatMap.mpr ⟨j, List.mem_range.mpr hj, List.mem_map.mpr ⟨0,
      List.mem_range.mpr h.positive.2.2.2, rfl⟩⟩⟩
  obtain ⟨w, hw, e1, -, e3⟩ := q2 ⟨_, hmem 0 h.positive.1 0 h.positive.2.1, by
    rw [hlast 0 h.positive.1 0 h.positive.2.1]
    exact hne _ _ _⟩
  obtain ⟨i, hi, j, hj, t, ht, rfl⟩ := settings_mem hw
  refine ⟨i, hi, j, hj, by rw [q1, e1, hlast i hi j hj], fun i' hi' j' hj' => ?_⟩
  exact e3 _ (hmem i' hi' j' hj') (by rw [hlast i' hi' j' hj']; exact hne _ _ _)

/-! ### An example and counterexamples -/

/-- Two rows and one column, two times and two parameters; the dimensions of the variable are the parameters, the columns, the times and the rows. -/
def sampleNc (times : List (Fl ℚ)) : NcFile ℚ :=
  ⟨[("lat".toList, 2), ("lon".toList, 1), ("time".toList, 2), ("coeff".toList, 2)],
    [⟨"lat".toList, [0], [fin 10, fin 20], none⟩, ⟨"lon".toList, [1], [fin 30], none⟩, ⟨"time".toList, [2], times, none⟩,
      ⟨"coefficient".toList, [3, 1, 2, 0], [fin 1, fin 2, fin 3, fin 4, fin 5, fin 6, fin 7, fin (-1)], some (fin (-1))⟩]⟩

def sampleGrid : ParGrid ℚ :=
  ⟨0, 1, 3, some 2, 2, 1, 2, 2, fun i _ => if i = 0 then 10 else 20, fun _ _ => 30, fun _ _ => fin (-999), some (fin (-1)),
    fun i _ t k => if 4 * k + 2 * t + i = 7 then fin (-1) else fin (4 * k + 2 * t + i + 1 : Nat)⟩

theorem lt_two {n : Nat} (h : n < 2) : n = 0 ∨ n = 1 := by omega

/-- The hypotheses of `c147_read_partial` and `c147_nearest_partial` hold. -/
theorem sample_of : sampleGrid.Of (sampleNc [fin 0, fin 6]) gridOptions.dimName gridOptions.varName gridOptions.xDim gridOptions.yDim where
  names := by unfold FineNames sampleNc; decide
  dimLat := ⟨[], "lat".toList, ["latitude".toList, "y".toList], 2, rfl, by simp, rfl⟩
  dimLon := ⟨[], "lon".toList, ["longitude".toList, "x".toList], 1, rfl, by simp, rfl⟩
  dimCoeff := rfl
  nLat := rfl
  nLon := rfl
  different := by decide
  positive := by decide
  time := .inr ⟨2, _, rfl, rfl, List.mem_cons_of_mem _ (List.mem_cons_of_mem _ List.mem_cons_self), rfl, by decide⟩
  lats := ⟨⟨"lat".toList, [0], [fin 10, fin 20], none⟩, ⟨[], "lat".toList, ["latitude".toList], rfl, by simp, List.mem_cons_self, rfl⟩,
    ⟨⟨by decide, by decide⟩, by decide, by decide, .inl rfl⟩, by
      intro i hi j hj
      rcases lt_two hi with rfl | rfl <;> (have hj : j < 1 := hj; obtain rfl : j = 0 := (by omega); unfold ValueAt; decide +kernel)⟩
  lons := ⟨⟨"lon".toList, [1], [fin 30], none⟩, ⟨[], "lon".toList, ["longitude".toList], rfl, by simp, List.mem_cons_of_mem _ List.mem_cons_self, rfl⟩,
    ⟨⟨by decide, by decide⟩, by decide, by decide, .inr (.inl rfl)⟩, by
      intro i hi j hj
      rcases lt_two hi with rfl | rfl <;> (have hj : j < 1 := hj; obtain rfl : j = 0 := (by omega); unfold ValueAt; decide +kernel)⟩
  elevs := .inr ⟨by decide, fun _ _ => rfl⟩
  values := ⟨⟨"coefficient".toList, [3, 1, 2, 0], [fin 1, fin 2, fin 3, fin 4, fin 5, fin 6, fin 7, fin (-1)], some (fin (-1))⟩,
    List.mem_cons_of_mem _ (List.mem_cons_of_mem _ (List.mem_cons_of_mem _ List.mem_cons_self)), rfl, rfl, ⟨by decide, by decide⟩, by decide, by decide,
    by decide, by decide, by decide, by
      intro i hi j hj t ht k hk
      have hj : j < 1 := hj
      obtain rfl : j = 0 := by omega
      rcases lt_two hi with rfl | rfl <;> rcases lt_two ht with rfl | rfl <;> rcases lt_two hk with rfl | rfl <;> (unfold ValueAt; decide +kernel)⟩

section
local instance flatNetcdf : HasArcC ℚ := ⟨fun a b c d => |a - c| + |b - d|⟩

/-- The parameters of three places and times. -/
def readThree (f : NcFile ℚ) : Res (Pars ℚ × Pars ℚ × Pars ℚ) := do
  let F ← readNetcdf insertSort gridOptions f
  let a ← F.getParameters 0 ⟨20, 30, fin 0⟩ false
  let b ← F.getParameters 1 ⟨20, 30, fin 0⟩ false
  let c ← F.getParameters 0 ⟨11, 31, fin 0⟩ true
  ok (a, b, c)

example : readThree (sampleNc [fin 0, fin 6]) = ok ([fin 2, fin 6], [fin 4, fin (-999)], [fin 1, fin 5]) ∧
    (∀ i < sampleGrid.nLat, ∀ j < sampleGrid.nLon, OnGlobe (sampleGrid.lat i j) (sampleGrid.lon i j)) ∧ KD.Sorts (insertSort (K := ℚ)) ∧ KD.Separates ℚ := by
  refine ⟨by decide +kernel, ?_, insertSort_sorts, flat_separates⟩
  intro i hi j hj
  have hi : i < 2 := hi
  rcases lt_two hi with rfl | rfl <;> (constructor <;> norm_num [sampleGrid])

/-- **C147**: the values of the times are not used: parameters for hours 6 and 12 are found at the times 0 and 1. -/
theorem c147_times_false : readThree (sampleNc [fin 6, fin 12]) = readThree (sampleNc [fin 0, fin 6]) ∧
    readThree (sampleNc [fin 6, fin 12]) = ok ([fin 2, fin 6], [fin 4, fin (-999)], [fin 1, fin 5]) := by decide +kernel

/-- **C147**: a variable with a fifth dimension, even one of size 1, is read with an index beyond the end of an array. -/
theorem c147_five_dims_false : readThree ⟨[("lat".toList, 1), ("lon".toList, 1), ("time".toList, 1), ("coeff".toList, 1), ("level".toList, 1)],
    [⟨"lat".toList, [0], [fin 10], none⟩, ⟨"lon".toList, [1], [fin 30], none⟩, ⟨"time".toList, [2], [fin 0], none⟩,
      ⟨"coefficient".toList, [0, 1, 2, 3, 4], [fin 1], none⟩]⟩ = .ub := by decide +kernel

/-- Two rows, of which the second has the latitude `x`; the fill value of the latitudes is 1000. -/
def placeNc (x : ℚ) : NcFile ℚ := ⟨[("lat".toList, 2), ("lon".toList, 1), ("coeff".toList, 1)],
  [⟨"lat".toList, [0], [fin 10, fin x], some (fin 1000)⟩, ⟨"lon".toList, [1], [fin 30], none⟩, ⟨"coefficient".toList, [0, 1, 2], [fin 1, fin 2], none⟩]⟩

/-- The latitudes of the places, and the parameters of the place nearest to 11, 31. -/
def readOne (f : NcFile ℚ) : Res (List ℚ × Res (Pars ℚ)) := do
  let F ← readNetcdf insertSort gridOptions f
  ok (F.locations.map Loc.lat, F.getParameters 0 ⟨11, 31, fin 0⟩ true)

/-- **C147**: a missing latitude, which has the fill value, is not taken for a missing value but for a place, to which no distance can be computed. -/
theorem c147_missing_place_false : readOne (placeNc 1000) = ok ([10, 1000], .abort) := by decide +kernel

end

end Gridpp.Props
