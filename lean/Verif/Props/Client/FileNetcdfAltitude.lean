import Verif.Model.Client.FileNetcdfAltitude
import Verif.Props.Client.FileNetcdfOpen

/-! # C153: the variable altitude is defined and written -/

set_option linter.unusedSectionVars false

namespace Gridpp.Props
open Fl hiding MV isValid
open Res Client Spec

variable {K : Type} [Field K] [LinearOrder K] [IsStrictOrderedRing K]

theorem gridCells_nodup (nY nX : Nat) : ((List.range nY).flatMap fun i => (List.range nX).map fun j => (i, j)).Nodup := by
  rw [List.nodup_flatMap]
  refine ⟨fun i _ => List.nodup_range.map fun a b h => by simpa using h, List.nodup_range.imp fun {a b} hab => ?_⟩
  intro p h1 h2
  obtain ⟨j, -, rfl⟩ := List.mem_map.mp h1
  obtain ⟨j', -, h⟩ := List.mem_map.mp h2
  exact hab (Prod.ext_iff.mp h).1.symm

theorem mem_altCells {nY nX : Nat} {p : Nat × Nat} : p ∈ ((List.range nY).flatMap fun i => (List.range nX).map fun j => (i, j)) ↔ p.1 < nY ∧ p.2 < nX := by
  simp only [List.mem_flatMap, List.mem_range, List.mem_map]
  constructor
  · rintro ⟨i, hi, j, hj, rfl⟩
    exact ⟨hi, hj⟩
  · rintro ⟨hi, hj⟩
    exact ⟨p.1, hi, p.2, hj, rfl⟩

/-- An array that is filled cell by cell. -/
theorem fillData {nY nX n : Nat} {idx : Nat → Nat → Nat} {val : Nat → Nat → Fl K} {body : List (Option (Fl K)) → Nat × Nat → Res (List (Option (Fl K)))}
    (hlt : ∀ i < nY, ∀ j < nX, idx i j < n) (hinj : ∀ i < nY, ∀ j < nX, ∀ i' < nY, ∀ j' < nX, idx i j = idx i' j' → i = i' ∧ j = j')
    (hb : ∀ s : List (Option (Fl K)), ∀ i < nY, ∀ j < nX, body s (i, j) = vset s (idx i j : Nat) (some (val i j))) :
    ∃ data, foldM body (List.replicate n none) ((List.range nY).flatMap fun i => (List.range nX).map fun j => (i, j)) = ok data ∧
      ∀ i < nY, ∀ j < nX, data[idx i j]? = some (some (val i j)) := by
  obtain ⟨data, g1, g2, g3, g4⟩ := foldM_cells (fun s : List (Option (Fl K)) => s.length = n)
    (fun s (p : Nat × Nat) => if p.1 < nY ∧ p.2 < nX then s[idx p.1 p.2]? else none) body (fun p _ w => w = some (some (val p.1 p.2)))
    ((List.range nY).flatMap fun i => (List.range nX).map fun j => (i, j)) (gridCells_nodup nY nX) (by
      intro s hlen p hp
      obtain ⟨hi, hj⟩ := mem_altCells.mp hp
      have hl : idx p.1 p.2 < s.length := by rw [hlen]; exact hlt _ hi _ hj
      refine ⟨s.set (idx p.1 p.2) (some (val p.1 p.2)), by rw [hb s _ hi _ hj, vset_nat _ hl], by simp [hlen], ?_, ?_⟩
      · rw [if_pos ⟨hi, hj⟩, List.getElem?_set_self hl]
      · intro q hq
        split_ifs with hin
        · rw [List.getElem?_set_ne]
          intro hc
          have := hinj _ hi _ hj _ hin.1 _ hin.2 hc
          exact hq (Prod.ext this.1.symm this.2.symm)
        · rfl) _ List.length_replicate
  refine ⟨data, g1, fun i hi j hj => ?_⟩
  have := g3 (i, j) (mem_altCells.mpr ⟨hi, hj⟩)
  simp only [hi, hj, and_self, if_true] at this
  exact this

theorem grid_different {L : NcLayout} (h : ∀ d, L.y = some d → L.x ≠ some d) : DifferentDims L.grid := by
  unfold DifferentDims NcLayout.grid
  cases hy : L.y with
  | none => cases hx : L.x <;> simp [List.reduceOption]
  | some a =>
    cases hx : L.x with
    | none => simp [List.reduceOption]
    | some b =>
      have : a ≠ b := fun hc => h a hy (by rw [hx, hc])
      simp [List.reduceOption, this]

theorem grid_fieldPos (L : NcLayout) (other : Nat → Nat) (ho : ∀ d, other d = 0) (i j d : Nat) : fieldPos L.grid other 0 i j 0 d = cellPos L i j d := by
  unfold fieldPos cellPos NcLayout.grid
  simp [ho]

theorem grid_count {f : NcFile K} {L : NcLayout} {v : NcVar K} (h : ∀ d, L.y = some d → L.x ≠ some d) (hd : ∀ d ∈ v.dims, some d = L.y ∨ some d = L.x) :
    v.dims.map (altitudeCount L (dimCount f L.y) (dimCount f L.x)) = v.dims.map (countOf f L.grid) := by
  apply List.map_congr_left
  intro d hdd
  have hne := h d
  unfold altitudeCount countOf
  have hr : L.grid.role d = if some d = L.y then .y else if some d = L.x then .x else .other := by
    unfold NcLayout.role NcLayout.grid
    simp
  rw [hr]
  rcases hd d hdd with h1 | h1
  · rw [if_pos h1, ← h1]
    rfl
  · have h2 : some d ≠ L.y := fun hc => hne hc.symm h1.symm
    rw [if_neg h2, if_pos h1, ← h1]
    rfl

theorem horizontal_facts {L : NcLayout} {v : NcVar K} (h : HorizontalVar L v) : (∀ d, L.y = some d → L.x ≠ some d) ∧ v.dims.Nodup ∧
    (∀ d ∈ v.dims, some d = L.y ∨ some d = L.x) ∧ v.dims.length = [L.y, L.x].reduceOption.length := by
  rcases h with ⟨dY, dX, h1, h2, h3, h4 | h4⟩ | ⟨d, h1, ⟨h2, h3⟩ | ⟨h2, h3⟩⟩
  · rw [h1, h2, h4]
    refine ⟨fun d hd hd' => h3 ?_, by simp [h3], by simp, by simp [List.reduceOption]⟩
    rw [Option.some.inj hd, Option.some.inj hd']
  · rw [h1, h2, h4]
    refine ⟨fun d hd hd' => h3 ?_, by simp [Ne.symm h3], by simp, by simp [List.reduceOption]⟩
    rw [Option.some.inj hd, Option.some.inj hd']
  · rw [h1, h2, h3]
    exact ⟨by simp, by simp, by simp, by simp [List.reduceOption]⟩
  · rw [h1, h2, h3]
    exact ⟨by simp, by simp, by simp, by simp [List.reduceOption]⟩

theorem horizontal_extent {f : NcFile K} {L : NcLayout} {v : NcVar K} (h : HorizontalVar L v) :
    extent f v L.grid.y = dimCount f L.y ∧ extent f v L.grid.x = dimCount f L.x := by
  unfold NcLayout.grid
  rcases h with ⟨dY, dX, h1, h2, h3, h4 | h4⟩ | ⟨d, h1, ⟨h2, h3⟩ | ⟨h2, h3⟩⟩
  · simp [h1, h2, h4, extent, dimCount]
  · simp [h1, h2, h4, extent, dimCount]
  · simp [h1, h2, h3, extent, dimCount]
  · simp [h1, h2, h3, extent, dimCount]

/-- The number of the element that the code uses. -/
theorem horizontal_index {f : NcFile K} {L : NcLayout} {v : NcVar K} (h : HorizontalVar L v) {i j : Nat} (hi : i < dimCount f L.y) (hj : j < dimCount f L.x) :
    (if decide (posInt (rolePos L.grid .y 0 v.dims none) < posInt (rolePos L.grid .x 0 v.dims none)) then i * dimCount f L.x + j
      else j * dimCount f L.y + i) = rowMajor (v.dims.map fun d => (countOf f L.grid d, fieldPos L.grid (fun _ => 0) 0 i j 0 d)) := by
  have hr : ∀ d, L.grid.role d = if some d = L.y then .y else if some d = L.x then .x else .other := by
    intro d
    unfold NcLayout.role NcLayout.grid
    simp
  have hc : ∀ d, countOf f L.grid d = if some d = L.y then dimLength f d else if some d = L.x then dimLength f d else 1 := by
    intro d
    unfold countOf
    rw [hr]
    split_ifs <;> rfl
  simp only [hc, grid_fieldPos L (fun _ => 0) (fun _ => rfl), cellPos]
  rcases h with ⟨dY, dX, h1, h2, h3, h4 | h4⟩ | ⟨d, h1, ⟨h2, h3⟩ | ⟨h2, h3⟩⟩
  · rw [h4, h1, h2]
    simp [rolePos, hr, h1, h2, Ne.symm h3, posInt, rowMajor, dimCount]
  · rw [h4, h1, h2]
    simp [rolePos, hr, h1, h2, Ne.symm h3, posInt, rowMajor, dimCount]
  · rw [h3] at hj
    have : j = 0 := by simpa [dimCount] using hj
    rw [h1, h2, h3]
    simp [rolePos, hr, h2, posInt, rowMajor, this]
  · rw [h2] at hi
    have : i = 0 := by simpa [dimCount] using hi
    rw [h1, h2, h3]
    simp [rolePos, hr, h2, h3, posInt, rowMajor, this]

/-- C153, writing: the variable has for every cell the elevation, or the value for missing. -/
theorem c153_write_partial {f : NcFile K} {L : NcLayout} {v : NcVar K} (hf : FineVar f v) (hv : HorizontalVar L v) {elevs : List (List (Fl K))}
    (he : Rect (dimCount f L.y) (dimCount f L.x) elevs)
    (hm : ∃ q, v.fill.getD (.fin (15 * 2 ^ 119)) = .fin q ∧ (q ≠ -999 ∨ ∀ r ∈ elevs, ∀ e ∈ r, ∃ s, e = .fin s)) :
    ∃ v', writeAltitude f L (dimCount f L.y) (dimCount f L.x) elevs v = ok v' ∧ v'.name = v.name ∧ v'.dims = v.dims ∧ v'.fill = v.fill ∧ FineVar f v' ∧
      ∀ i < dimCount f L.y, ∀ j < dimCount f L.x, ∃ e, cell? elevs i j = some e ∧
        ValueAt f v' (cellPos L i j) (elevationForm (v.fill.getD (.fin (15 * 2 ^ 119))) e) := by
  obtain ⟨hne, hn, hd, hlen⟩ := horizontal_facts hv
  obtain ⟨eY, eX⟩ := horizontal_extent (f := f) hv
  have hL := grid_different hne
  obtain ⟨q, hq, hq'⟩ := hm
  have hcell : ∀ i < dimCount f L.y, ∀ j < dimCount f L.x, ∃ e, cell? elevs i j = some e := by
    intro i hi j hj
    exact Rect.cell?_some he hi hj
  have hc : ∀ i j, ∃ e, i < dimCount f L.y → j < dimCount f L.x → cell? elevs i j = some e := by
    intro i j
    by_cases hi : i < dimCount f L.y
    · by_cases hj : j < dimCount f L.x
      · obtain ⟨e, h⟩ := hcell i hi j hj
        exact ⟨e, fun _ _ => h⟩
      · exact ⟨.nan, fun _ h => absurd h hj⟩
    · exact ⟨.nan, fun h => absurd h hi⟩
  choose e hce using hc
  have hform : ∀ i < dimCount f L.y, ∀ j < dimCount f L.x,
      (if Client.isValid v.missing && !Client.isValid (e i j) then v.missing else e i j) = elevationForm (v.fill.getD (.fin (15 * 2 ^ 119))) (e i j) := by
    intro i hi j hj
    have hmiss : v.missing = .fin q := hq
    rw [hmiss, hq]
    by_cases h1 : q = -999
    · obtain ⟨s, hs⟩ : ∃ s, e i j = .fin s := by
        have h5 := hce i j hi hj
        unfold cell? at h5
        obtain ⟨row, h2, h3⟩ := Option.bind_eq_some_iff.mp h5
        exact hq'.resolve_left (fun h => h h1) row (List.mem_of_getElem? h2) _ (List.mem_of_getElem? h3)
      rw [hs]
      by_cases h4 : s = -999 <;> simp [elevationForm, Client.isValid, h1, h4]
    · cases e i j with
      | fin s => by_cases h4 : s = -999 <;> simp [elevationForm, Client.isValid, h1, h4]
      | _ => simp [elevationForm, Client.isValid, h1]
  have hpr : (v.dims.map (countOf f L.grid)).prod = extent f v L.grid.ens * extent f v L.grid.y * extent f v L.grid.x := count_prod hL hn
  have h0 : ∀ i j, i < dimCount f L.y → j < dimCount f L.x → i < extent f v L.grid.y ∧ j < extent f v L.grid.x ∧ 0 < extent f v L.grid.ens := by
    intro i j hi hj
    rw [eY, eX]
    exact ⟨hi, hj, by simp [NcLayout.grid, extent]⟩
  unfold writeAltitude
  rw [if_neg (by rw [hlen]; simp), grid_count hne hd]
  simp only
  obtain ⟨data, g1, g2⟩ := fillData (nY := dimCount f L.y) (nX := dimCount f L.x) (n := (v.dims.map (countOf f L.grid)).prod)
    (idx := fun i j => rowMajor (v.dims.map fun d => (countOf f L.grid d, fieldPos L.grid (fun _ => 0) 0 i j 0 d)))
    (val := fun i j => elevationForm (v.fill.getD (.fin (15 * 2 ^ 119))) (e i j))
    (body := fun (data : List (Option (Fl K))) (p : Nat × Nat) => do
        let e ← vget2 elevs p.1 p.2
        vset data (if decide (posInt (rolePos L.grid .y 0 v.dims none) < posInt (rolePos L.grid .x 0 v.dims none)) then p.1 * dimCount f L.x + p.2
          else p.2 * dimCount f L.y + p.1 : Nat) (some (if Client.isValid v.missing && !Client.isValid e then v.missing else e))) (by
      intro i hi j hj
      rw [hpr]
      obtain ⟨a, b, c⟩ := h0 i j hi hj
      exact slabIndex_lt hL hn a b c) (by
      intro i hi j hj i' hi' j' hj' heq
      obtain ⟨a, b, c⟩ := h0 i j hi hj
      obtain ⟨a', b', c'⟩ := h0 i' j' hi' hj'
      have := slabIndex_inj hL a b c a' b' c' heq
      exact ⟨this.1, this.2.1⟩) (by
      intro s i hi j hj
      simp only
      rw [vget2_of_cell? (hce i j hi hj), ok_bind, horizontal_index hv hi hj, hform i hi j hj])
  rw [g1, ok_bind, sizes_ok hf, ok_bind]
  have hz : (v.dims.map fun _ => 0) = v.dims.map (fieldPos L.grid (fun _ => 0) 0 0 0 0) := by
    apply List.map_congr_left
    intro d _
    rw [grid_fieldPos L _ (fun _ => rfl)]
    simp [cellPos]
  rw [hz]
  have hens : extent f v L.grid.ens = 1 := rfl
  obtain ⟨values, k1, k2, k3, -⟩ := ncPutVara_ok hL hf hn (t := 0) (data := data)
    (value := fun i j _ => elevationForm (v.fill.getD (.fin (15 * 2 ^ 119))) (e i j)) (by
      intro d hdd ho
      exfalso
      rcases hd d hdd with h | h <;> exact ho (by simp [NcLayout.grid, h])) (fun d _ h => by simp [NcLayout.grid] at h) (by
      intro i hi j hj k hk
      rw [eY] at hi
      rw [eX] at hj
      rw [hens] at hk
      have : k = 0 := by omega
      rw [this]
      exact g2 i hi j hj)
  rw [k1, ok_bind]
  refine ⟨_, rfl, rfl, rfl, rfl, ⟨hf.1, by rw [k2]; exact hf.2⟩, fun i hi j hj => ⟨e i j, hce i j hi hj, ?_⟩⟩
  have := k3 i (by rw [eY]; exact hi) j (by rw [eX]; exact hj) 0 (by rw [hens]; omega)
  unfold ValueAt
  simp only [grid_fieldPos L (fun _ => 0) (fun _ => rfl)] at this
  exact this

/-- C153: what is written is read again, unless it is the value for missing. -/
theorem c153_round_partial {f : NcFile K} {L : NcLayout} {v : NcVar K} (hf : FineVar f v) {dY dX : Nat} (hy : L.y = some dY) (hx : L.x = some dX) (hne : dY ≠ dX)
    (hv : v.dims = [dY, dX] ∨ v.dims = [dX, dY]) {elevs : List (List (Fl K))} (he : Rect (dimLength f dY) (dimLength f dX) elevs) {q : K}
    (hm : v.fill.getD (.fin (15 * 2 ^ 119)) = .fin q) (hq : q ≠ -999) (hnot : ∀ r ∈ elevs, .fin q ∉ r) :
    ∃ v', writeAltitude f L (dimLength f dY) (dimLength f dX) elevs v = ok v' ∧
      ∃ g, latLonGrid f L v' = ok g ∧ Rect (dimLength f dY) (dimLength f dX) g ∧
        ∀ i < dimLength f dY, ∀ j < dimLength f dX, ∃ e, cell? elevs i j = some e ∧ cell? g i j = some (numberOrMissing e) := by
  have hY : dimCount f L.y = dimLength f dY := by rw [hy]; rfl
  have hX : dimCount f L.x = dimLength f dX := by rw [hx]; rfl
  obtain ⟨v', h1, -, h3, h4, h5, h6⟩ := c153_write_partial (elevs := elevs) hf (.inl ⟨dY, dX, hy, hx, hne, hv⟩) (by rw [hY, hX]; exact he) ⟨q, hm, .inl hq⟩
  rw [hY, hX] at h1 h6
  refine ⟨v', h1, ?_⟩
  have hmem : dY ∈ v'.dims ∧ dX ∈ v'.dims ∧ v'.dims.Nodup ∧ ∀ d ∈ v'.dims, d = dY ∨ d = dX := by
    rw [h3]
    rcases hv with hv | hv <;> rw [hv] <;> simp [hne, Ne.symm hne]
  have hpos : ∀ i j, cellPos L i j = gridPos dY dX i j := by
    intro i j
    funext d
    unfold cellPos gridPos
    rw [hy, hx]
    simp
  have hr : ∀ i j, ∃ raw, i < dimLength f dY → j < dimLength f dX → ValueAt f v' (gridPos dY dX i j) raw ∧
      ∃ e, cell? elevs i j = some e ∧ raw = elevationForm (.fin q) e := by
    intro i j
    by_cases hi : i < dimLength f dY
    · by_cases hj : j < dimLength f dX
      · obtain ⟨e, e1, e2⟩ := h6 i hi j hj
        rw [hm, hpos] at e2
        exact ⟨_, fun _ _ => ⟨e2, e, e1, rfl⟩⟩
      · exact ⟨.nan, fun _ h => absurd h hj⟩
    · exact ⟨.nan, fun h => absurd h hi⟩
  choose raw hraw using hr
  refine ⟨_, c151_both h5 hmem.2.2.1 hy hx hne hmem.1 hmem.2.1 (fun d hd => .inr (hmem.2.2.2 d hd)) (x := raw) fun i hi j hj => (hraw i j hi hj).1,
    tabulate_rect _ _ _, fun i hi j hj => ?_⟩
  obtain ⟨-, e, e1, e2⟩ := hraw i j hi hj
  refine ⟨e, e1, ?_⟩
  rw [cell?_tabulate _ hi hj, e2, h4]
  have hne' : e ≠ .fin q := by
    rintro rfl
    unfold cell? at e1
    obtain ⟨row, k1, k2⟩ := Option.bind_eq_some_iff.mp e1
    exact hnot row (List.mem_of_getElem? k1) (List.mem_of_getElem? k2)
  unfold meaning
  rw [hm]
  cases e with
  | fin s =>
    have hs : s ≠ q := fun h => hne' (by rw [h])
    by_cases h4 : s = -999 <;> simp [elevationForm, numberOrMissing, h4, hs]
  | _ => simp [elevationForm, numberOrMissing]

/-- C153: an altitude with another number of dimensions than the grid ends the program. -/
theorem c153_dims {f : NcFile K} {L : NcLayout} {v : NcVar K} (h : v.dims.length ≠ [L.y, L.x].reduceOption.length) (nY nX : Nat) (elevs : List (List (Fl K))) :
    writeAltitude f L nY nX elevs v = .abort := by
  unfold writeAltitude
  rw [if_pos h]
  rfl

theorem rowsFirst_eq {L : NcLayout} {dY dX : Nat} (hy : L.y = some dY) (hx : L.x = some dX) {A B C : List Nat} (hA : dY ∉ A ∧ dX ∉ A) (hB : dY ∉ B ∧ dX ∉ B)
    (hC : dY ∉ C ∧ dX ∉ C) (hne : dY ≠ dX) :
    rowsFirst L (A ++ dY :: (B ++ dX :: C)) = true ∧ rowsFirst L (A ++ dX :: (B ++ dY :: C)) = false := by
  have rY : ∀ d, (⟨none, none, L.y, none⟩ : NcLayout).role d = .y ↔ d = dY := by
    intro d
    unfold NcLayout.role
    rw [hy]
    simp
  have rX : ∀ d, (⟨none, none, none, L.x⟩ : NcLayout).role d = .x ↔ d = dX := by
    intro d
    unfold NcLayout.role
    rw [hx]
    simp
  unfold rowsFirst
  constructor
  · rw [rolePos_some A ((rY dY).mpr rfl) (by
      intro d hd hc
      rw [rY] at hc
      subst hc
      rcases List.mem_append.mp hd with h | h
      · exact hB.1 h
      · rcases List.mem_cons.mp h with h | h
        · exact hne h
        · exact hC.1 h), show A ++ dY :: (B ++ dX :: C) = (A ++ dY :: B) ++ dX :: C by simp, rolePos_some _ ((rX dX).mpr rfl) (by
      intro d hd hc
      rw [rX] at hc
      subst hc
      exact hC.2 hd)]
    simp [posInt]
  · rw [rolePos_some (r := .x) A ((rX dX).mpr rfl) (by
      intro d hd hc
      rw [rX] at hc
      subst hc
      rcases List.mem_append.mp hd with h | h
      · exact hB.2 h
      · rcases List.mem_cons.mp h with h | h
        · exact hne h.symm
        · exact hC.2 h), show A ++ dX :: (B ++ dY :: C) = (A ++ dX :: B) ++ dY :: C by simp, rolePos_some _ ((rY dY).mpr rfl) (by
      intro d hd hc
      rw [rY] at hc
      subst hc
      exact hC.1 hd)]
    simp [posInt]
    omega

/-- C153, a new variable for a file with both dimensions: they are in the order of the latitudes. -/
theorem c153_define {f : NcFile K} {L : NcLayout} {lat : NcVar K} {dY dX : Nat} (hy : L.y = some dY) (hx : L.x = some dX) (hne : dY ≠ dX)
    (hn : lat.dims.Nodup) (hdY : dY ∈ lat.dims) (hdX : dX ∈ lat.dims) (h1 : dY < f.dims.length) (h2 : dX < f.dims.length) :
    ∃ v, defineAltitude f L lat = ok v ∧ v.name = "altitude".toList ∧ FineVar f v ∧ v.fill = none ∧
      v.dims = if lat.dims.idxOf dY < lat.dims.idxOf dX then [dY, dX] else [dX, dY] := by
  obtain ⟨A, B, C, hsplit, a1, a2, a3, b1, b2, b3⟩ := two_split hn hdY hdX hne
  have hlen : 2 ≤ lat.dims.length := by rcases hsplit with h | h <;> rw [h] <;> simp <;> omega
  have hfine : ∀ dims, dims = [dY, dX] ∨ dims = [dX, dY] →
      FineVar f (⟨"altitude".toList, dims, List.replicate (dimLength f dY * dimLength f dX) ncFillFloat, none⟩ : NcVar K) := by
    rintro dims (rfl | rfl)
    · exact ⟨by simp [h1, h2], by simp⟩
    · exact ⟨by simp [h1, h2], by simp [Nat.mul_comm]⟩
  obtain ⟨r1, r2⟩ := rowsFirst_eq (A := A) (B := B) (C := C) hy hx ⟨a1, b1⟩ ⟨a2, b2⟩ ⟨a3, b3⟩ hne
  have hfirst : altitudeRowsFirst f L lat = rowsFirst L lat.dims := by
    unfold altitudeRowsFirst
    rw [if_pos hlen]
  unfold defineAltitude
  rw [hfirst, hy, hx]
  simp only
  rw [dimSize_ok h1, ok_bind, dimSize_ok h2, ok_bind]
  rcases hsplit with hs | hs
  · rw [hs, r1, if_pos rfl]
    refine ⟨_, rfl, rfl, hfine _ (.inl rfl), rfl, ?_⟩
    rw [List.idxOf_append_of_notMem a1, List.idxOf_append_of_notMem b1, List.idxOf_cons_self, List.idxOf_cons_ne _ hne, if_pos (by omega)]
  · rw [hs, r2, if_neg (by simp)]
    refine ⟨_, rfl, rfl, hfine _ (.inr rfl), rfl, ?_⟩
    rw [List.idxOf_append_of_notMem a1, List.idxOf_append_of_notMem b1, List.idxOf_cons_self, List.idxOf_cons_ne _ (Ne.symm hne), if_neg (by omega)]

/-- C153, a new variable if the latitudes have one dimension and there is no geopotential: rows first. -/
theorem c153_define_rows {f : NcFile K} {L : NcLayout} {lat : NcVar K} {dY dX : Nat} (hy : L.y = some dY) (hx : L.x = some dX) (hd : lat.dims.length ≤ 1)
    (hg : "surface_geopotential".toList ∉ f.vars.map NcVar.name) (h1 : dY < f.dims.length) (h2 : dX < f.dims.length) :
    ∃ v, defineAltitude f L lat = ok v ∧ v.name = "altitude".toList ∧ v.dims = [dY, dX] ∧ v.fill = none ∧ FineVar f v := by
  have hfirst : altitudeRowsFirst f L lat = true := by
    unfold altitudeRowsFirst
    rw [if_neg (by omega), var_none hg]
  unfold defineAltitude
  rw [hfirst, hy, hx]
  simp only
  rw [dimSize_ok h1, ok_bind, dimSize_ok h2, ok_bind]
  exact ⟨_, rfl, rfl, rfl, rfl, ⟨by simp [h1, h2], by simp⟩⟩

/-- C153 is false of the code for a file with one dimension for the points: no altitude can be defined, and the program ends. -/
theorem c153_single_false {f : NcFile K} {L : NcLayout} (h : L.y = none ∨ L.x = none) (lat : NcVar K) : defineAltitude f L lat = .abort := by
  unfold defineAltitude
  rcases h with h | h
  · rw [h]
    rfl
  · rw [h]
    cases L.y <;> rfl

/-- C153 is false of the code for an altitude with another dimension in place of one of the grid: memory that is not there is written. -/
theorem c153_other_false : ∃ (f : NcFile ℚ) (v : NcVar ℚ), f.dims = [("time".toList, 1), ("y".toList, 2), ("x".toList, 1)] ∧ v.dims = [0, 2] ∧
    writeAltitude f ⟨some 0, none, some 1, some 2⟩ 2 1 [[.fin 5], [.fin 6]] v = .ub :=
  ⟨⟨[("time".toList, 1), ("y".toList, 2), ("x".toList, 1)], []⟩, ⟨"altitude".toList, [0, 2], [.fin 0], none⟩, rfl, rfl, by decide +kernel⟩

/-- Columns first, with a missing elevation. -/
example : ∃ v', writeAltitude (⟨[("y".toList, 2), ("x".toList, 2)], []⟩ : NcFile ℚ) ⟨none, none, some 0, some 1⟩ 2 2 [[.fin 1, .fin 2], [.fin (-999), .fin 4]]
    ⟨"altitude".toList, [1, 0], [.fin 0, .fin 0, .fin 0, .fin 0], some (.fin 7)⟩ = ok v' ∧ v'.values = [.fin 1, .fin 7, .fin 2, .fin 4] :=
  ⟨⟨"altitude".toList, [1, 0], [.fin 1, .fin 7, .fin 2, .fin 4], some (.fin 7)⟩, by decide +kernel, rfl⟩

end Gridpp.Props
