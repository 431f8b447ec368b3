import Verif.Lemmas.Client.ParameterNetcdf

/-! # C146: positions and grids in NetCDF files -/

set_option linter.unusedSectionVars false

namespace Gridpp.Props
open Fl hiding MV isValid
open Res Client Spec

variable {K : Type} [Field K] [LinearOrder K] [IsStrictOrderedRing K]

/-- **C146**: `getIndex` gives the number of an element, the last index changing fastest; more indices than sizes do not matter. For indices in range
the number is within the array, and `getIndices` gives the indices back; every number within the array is that of some indices. -/
theorem c146_index (ps : List (Nat × Nat)) (more : List Nat) :
    ncIndex (ps.map Prod.snd ++ more) (ps.map Prod.fst) = ok (rowMajor ps) ∧
    ((∀ p ∈ ps, p.2 < p.1) → rowMajor ps < (ps.map Prod.fst).prod ∧ ncIndices (rowMajor ps) (ps.map Prod.fst) = ok (ps.map Prod.snd)) ∧
    ∀ n < (ps.map Prod.fst).prod, ∃ qs : List (Nat × Nat), qs.map Prod.fst = ps.map Prod.fst ∧ (∀ p ∈ qs, p.2 < p.1) ∧
      ncIndices n (ps.map Prod.fst) = ok (qs.map Prod.snd) ∧ ncIndex (qs.map Prod.snd) (ps.map Prod.fst) = ok n := by
  have hz : ∀ (ps : List (Nat × Nat)) (more : List Nat), (ps.map Prod.fst).zip (ps.map Prod.snd ++ more) = ps := by
    intro ps
    induction ps with
    | nil => intro more; simp
    | cons p ps ih => intro more; simp [ih]
  have hi : ∀ (ps : List (Nat × Nat)) (more : List Nat), ncIndex (ps.map Prod.snd ++ more) (ps.map Prod.fst) = ok (rowMajor ps) := by
    intro ps more
    rw [ncIndex_eq _ _ (by simp), hz]
  refine ⟨hi ps more, fun h => ⟨rowMajor_lt h, ncIndices_eq h⟩, fun n hn => ?_⟩
  obtain ⟨qs, h1, h2, h3⟩ := rowMajor_surj _ n hn
  refine ⟨qs, h1, h2, ?_, ?_⟩
  · rw [← h1, ← h3]
    exact ncIndices_eq h2
  · have := hi qs []
    rw [List.append_nil, h1, h3] at this
    exact this

theorem gridOf_ok {nLat nLon : Nat} {g : Nat → Nat → Res (Fl K)} {x : Nat → Nat → Fl K} (h : ∀ i < nLat, ∀ j < nLon, g i j = ok (x i j)) :
    gridOf nLat nLon g = ok (tabulate nLat nLon x) := by
  unfold gridOf
  rw [mapM_ok (g := fun i => (List.range nLon).map (x i))]
  · rfl
  · intro i hi
    exact mapM_ok fun j hj => h i (List.mem_range.mp hi) j (List.mem_range.mp hj)

theorem gridOf_ub {nLat nLon : Nat} {g : Nat → Nat → Res (Fl K)} (h1 : 0 < nLat) (h2 : 0 < nLon) (h : g 0 0 = .ub) : gridOf nLat nLon g = .ub := by
  obtain ⟨a, rfl⟩ : ∃ k, nLat = k + 1 := ⟨nLat - 1, by omega⟩
  obtain ⟨b, rfl⟩ : ∃ k, nLon = k + 1 := ⟨nLon - 1, by omega⟩
  unfold gridOf
  rw [List.range_succ_eq_map, List.range_succ_eq_map, mapM_cons, mapM_cons, h]
  rfl

theorem valueAt_vget {f : NcFile K} {v : NcVar K} {pos : Nat → Nat} {x : Fl K} (h : ValueAt f v pos x) {n : Nat}
    (hn : rowMajor (v.dims.map fun d => (dimLength f d, pos d)) = n) : vget v.values (n : Int) = ok x := by
  unfold ValueAt at h
  rw [hn] at h
  rw [vget_nat, h]

theorem valueAt_exists {f : NcFile K} {v : NcVar K} (hv : FineVar f v) {pos : Nat → Nat} (h : ∀ d ∈ v.dims, pos d < dimLength f d) :
    ∃ x, ValueAt f v pos x := by
  have : rowMajor (v.dims.map fun d => (dimLength f d, pos d)) < v.values.length := by
    rw [hv.2]
    have := rowMajor_lt (l := v.dims.map fun d => (dimLength f d, pos d)) (by
      intro p hp
      obtain ⟨d, hd, rfl⟩ := List.mem_map.mp hp
      exact h d hd)
    rw [List.map_map] at this
    exact this
  exact ⟨_, List.getElem?_eq_getElem this⟩

/-- The number of the value in the grid. -/
theorem rowMajor_grid {f : NcFile K} {a b x y : Nat} {A B C : List Nat} {pos : Nat → Nat} (hx : pos a = x) (hy : pos b = y)
    (ho : ∀ d, d ∈ A ∨ d ∈ B ∨ d ∈ C → dimLength f d = 1 ∧ pos d = 0) :
    rowMajor ((A ++ a :: (B ++ b :: C)).map fun d => (dimLength f d, pos d)) = x * dimLength f b + y := by
  have h1 : ∀ L : List Nat, (∀ d ∈ L, dimLength f d = 1 ∧ pos d = 0) → ∀ c : Nat,
      (L.map fun d => (dimLength f d, pos d)).foldl (fun n p => n * p.1 + p.2) c = c := by
    intro L hL c
    apply rowMajor_ones
    intro p hp
    obtain ⟨d, hd, rfl⟩ := List.mem_map.mp hp
    rw [(hL d hd).1, (hL d hd).2]
  unfold rowMajor
  rw [List.map_append, List.map_cons, List.map_append, List.map_cons, List.foldl_append, List.foldl_cons, List.foldl_append, List.foldl_cons,
    h1 A (fun d hd => ho d (.inl hd)), h1 B (fun d hd => ho d (.inr (.inl hd))), h1 C (fun d hd => ho d (.inr (.inr hd))), hx, hy]
  simp

theorem prod_ones {f : NcFile K} {L : List Nat} (h : ∀ d ∈ L, dimLength f d = 1) : (L.map (dimLength f)).prod = 1 := by
  apply List.prod_eq_one
  intro x hx
  obtain ⟨d, hd, rfl⟩ := List.mem_map.mp hx
  exact h d hd

/-- The latitudes, longitudes and altitudes of the cells: a variable with one or both of the two dimensions, in either order, and with any other
dimensions of size 1, gives the value at latitude `i` and longitude `j` for cell `i`, `j`. -/
theorem gridValues_ok {f : NcFile K} {o : NcOptions} {v : NcVar K} {dLat dLon : Nat} (hn : FineNames f) (hLat : FirstDim f (latNames o.yDim) dLat)
    (hLon : FirstDim f (lonNames o.xDim) dLon) (hne : dLat ≠ dLon) (hv : FineVar f v) (hd : v.dims.Nodup)
    (hother : ∀ d ∈ v.dims, d ≠ dLat → d ≠ dLon → dimLength f d = 1)
    (hcase : v.dims = [dLat] ∨ v.dims = [dLon] ∨ dLat ∈ v.dims ∧ dLon ∈ v.dims)
    {x : Nat → Nat → Fl K} (hx : ∀ i < dimLength f dLat, ∀ j < dimLength f dLon, ValueAt f v (gridPos dLat dLon i j) (x i j)) :
    gridValues f o v = ok (tabulate (dimLength f dLat) (dimLength f dLon) x) := by
  have pLat : ∀ i j, gridPos dLat dLon i j dLat = i := fun i j => if_pos rfl
  have pLon : ∀ i j, gridPos dLat dLon i j dLon = j := fun i j => by
    unfold gridPos
    rw [if_neg hne.symm, if_pos rfl]
  unfold gridValues latDim lonDim
  rw [findDim_ok hn.1 hLat, ok_bind, findDim_ok hn.1 hLon, ok_bind, dimSize_ok (firstDim_lt hLat), ok_bind, dimSize_ok (firstDim_lt hLon), ok_bind]
  rcases hcase with h | h | ⟨h1, h2⟩
  · rw [h]
    simp only [if_true]
    refine gridOf_ok fun i hi j hj => valueAt_vget (hx i hi j hj) ?_
    rw [h]
    simp [rowMajor, pLat]
  · rw [h]
    simp only [if_neg hne.symm, if_true]
    refine gridOf_ok fun i hi j hj => valueAt_vget (hx i hi j hj) ?_
    rw [h]
    simp [rowMajor, pLon]
  · obtain ⟨A, B, C, hl, a1, a2, a3, b1, b2, b3⟩ := two_split hd h1 h2 hne
    have hlen : ∀ d, v.dims ≠ [d] := by
      intro d hc
      rw [hc, List.mem_singleton] at h1 h2
      exact hne (h1.trans h2.symm)
    split
    · rename_i d' hd'
      exact absurd hd' (hlen d')
    have ho : ∀ d, d ∈ A ∨ d ∈ B ∨ d ∈ C → dimLength f d = 1 ∧ ∀ i j, gridPos dLat dLon i j d = 0 := by
      intro d h
      have e1 : d ≠ dLat := by rintro rfl; rcases h with h | h | h <;> contradiction
      have e2 : d ≠ dLon := by rintro rfl; rcases h with h | h | h <;> contradiction
      refine ⟨hother d ?_ e1 e2, fun i j => ?_⟩
      · rcases hl with hl | hl <;> rw [hl] <;> simp <;> tauto
      · unfold gridPos
        rw [if_neg e1, if_neg e2]
    have pA := prod_ones (f := f) (L := A) fun d hd => (ho d (.inl hd)).1
    have pB := prod_ones (f := f) (L := B) fun d hd => (ho d (.inr (.inl hd))).1
    have pC := prod_ones (f := f) (L := C) fun d hd => (ho d (.inr (.inr hd))).1
    rcases hl with hl | hl
    · have hg : gridDims dLat dLon (dimLength f dLat) (dimLength f dLon) 0 v.dims (none, none, 1) =
          (some A.length, some (A.length + 1 + B.length), dimLength f dLat * dimLength f dLon) := by
        rw [hl, gridDims_append, gridDims_other _ _ _ _ _ A _ a1 b1, gridDims, if_pos rfl, gridDims_append, gridDims_other _ _ _ _ _ B _ a2 b2, gridDims,
          if_neg hne.symm, if_pos rfl, gridDims_other _ _ _ _ _ C _ a3 b3]
        simp
      rw [hg]
      have hsz : v.values.length = dimLength f dLat * dimLength f dLon := by
        rw [hv.2, hl]
        simp [pA, pB, pC]
      simp only
      rw [if_neg (by rw [hsz]; exact lt_irrefl _)]
      refine gridOf_ok fun i hi j hj => ?_
      rw [if_pos (by omega)]
      refine valueAt_vget (hx i hi j hj) ?_
      rw [hl]
      exact rowMajor_grid (pLat i j) (pLon i j) fun d hd => ⟨(ho d hd).1, (ho d hd).2 i j⟩
    · have hg : gridDims dLat dLon (dimLength f dLat) (dimLength f dLon) 0 v.dims (none, none, 1) =
          (some (A.length + 1 + B.length), some A.length, dimLength f dLon * dimLength f dLat) := by
        rw [hl, gridDims_append, gridDims_other _ _ _ _ _ A _ a1 b1, gridDims, if_neg hne.symm, if_pos rfl, gridDims_append,
          gridDims_other _ _ _ _ _ B _ a2 b2, gridDims, if_pos rfl, gridDims_other _ _ _ _ _ C _ a3 b3]
        simp
      rw [hg]
      have hsz : v.values.length = dimLength f dLon * dimLength f dLat := by
        rw [hv.2, hl]
        simp [pA, pB, pC]
      simp only
      rw [if_neg (by rw [hsz]; exact lt_irrefl _)]
      refine gridOf_ok fun i hi j hj => ?_
      rw [if_neg (by omega)]
      refine valueAt_vget (hx i hi j hj) ?_
      rw [hl]
      exact rowMajor_grid (pLon i j) (pLat i j) fun d hd => ⟨(ho d hd).1, (ho d hd).2 i j⟩

/-- **C146**, grids, as far as it holds: `getGridValues` gives for cell `i`, `j` the value at latitude index `i` and longitude index `j`, for a variable
with one or both of the two dimensions, in either order, and any other dimensions of size 1. Missing: an array that is too small is written beyond its
end if another dimension is larger (`c146_overflow_false`). -/
theorem c146_grid_partial {f : NcFile K} {o : NcOptions} {v : NcVar K} {dLat dLon : Nat} (hn : FineNames f) (hLat : FirstDim f (latNames o.yDim) dLat)
    (hLon : FirstDim f (lonNames o.xDim) dLon) (hne : dLat ≠ dLon) (hv : FineVar f v) (hd : v.dims.Nodup)
    (hother : ∀ d ∈ v.dims, d ≠ dLat → d ≠ dLon → dimLength f d = 1)
    (hcase : v.dims = [dLat] ∨ v.dims = [dLon] ∨ dLat ∈ v.dims ∧ dLon ∈ v.dims) :
    ∃ g, gridValues f o v = ok g ∧ Rect (dimLength f dLat) (dimLength f dLon) g ∧ ∀ i < dimLength f dLat, ∀ j < dimLength f dLon,
      ∃ x, cell? g i j = some x ∧ ValueAt f v (gridPos dLat dLon i j) x := by
  have hex : ∀ i j : Nat, ∃ x : Fl K, i < dimLength f dLat → j < dimLength f dLon → ValueAt f v (gridPos dLat dLon i j) x := by
    intro i j
    by_cases h : i < dimLength f dLat ∧ j < dimLength f dLon
    · obtain ⟨x, hx⟩ := valueAt_exists hv (pos := gridPos dLat dLon i j) (by
        intro d hd'
        unfold gridPos
        split_ifs with h1 h2
        · rw [h1]; exact h.1
        · rw [h2]; exact h.2
        · rw [hother d hd' h1 h2]; omega)
      exact ⟨x, fun _ _ => hx⟩
    · exact ⟨.nan, fun h1 h2 => absurd ⟨h1, h2⟩ h⟩
  choose x hx using hex
  refine ⟨_, gridValues_ok hn hLat hLon hne hv hd hother hcase (fun i hi j hj => hx i j hi hj), ?_, fun i hi j hj => ⟨x i j, cell?_tabulate x hi hj, hx i j hi hj⟩⟩
  simp [Rect, tabulate]

/-- **C146**: without a dimension for the latitudes or the longitudes, for a variable with one dimension that is neither of the two, and for one with
several dimensions of which one of the two is none, the program stops. -/
theorem c146_refused {f : NcFile K} {o : NcOptions} (v : NcVar K) (hn : FineNames f) :
    ((∀ n ∈ latNames o.yDim, n ∉ f.dims.map Prod.fst) → gridValues f o v = .abort) ∧
    ∀ dLat, FirstDim f (latNames o.yDim) dLat →
      ((∀ n ∈ lonNames o.xDim, n ∉ f.dims.map Prod.fst) → gridValues f o v = .abort) ∧
      ∀ dLon, FirstDim f (lonNames o.xDim) dLon → v.dims ≠ [dLat] → v.dims ≠ [dLon] → (dLat ∉ v.dims ∨ dLon ∉ v.dims) → gridValues f o v = .abort := by
  refine ⟨fun h => ?_, fun dLat hLat => ⟨fun h => ?_, fun dLon hLon h1 h2 h3 => ?_⟩⟩
  · unfold gridValues latDim
    rw [findDim_abort h]
    rfl
  · unfold gridValues latDim lonDim
    rw [findDim_ok hn.1 hLat, ok_bind, findDim_abort h]
    rfl
  · unfold gridValues latDim lonDim
    rw [findDim_ok hn.1 hLat, ok_bind, findDim_ok hn.1 hLon, ok_bind, dimSize_ok (firstDim_lt hLat), ok_bind, dimSize_ok (firstDim_lt hLon), ok_bind]
    split
    · rename_i d hd
      rw [hd] at h1 h2
      rw [if_neg (fun h => h1 (by rw [h])), if_neg (fun h => h2 (by rw [h]))]
      rfl
    · obtain ⟨g1, g2⟩ := gridDims_none dLat dLon (dimLength f dLat) (dimLength f dLon) 0 v.dims (none, none, 1)
      split
      · rename_i a b size hg
        rw [hg] at g1 g2
        rcases h3 with h3 | h3
        · exact absurd (g1 h3) (by simp)
        · exact absurd (g2 (.inl h3)) (by simp)
      · rfl

/-- **C146**: if the variable has, besides the two, a dimension of size 2 or more, the values are written beyond the end of the array. -/
theorem c146_overflow_false {f : NcFile K} {o : NcOptions} {v : NcVar K} {dLat dLon : Nat} (hn : FineNames f) (hLat : FirstDim f (latNames o.yDim) dLat)
    (hLon : FirstDim f (lonNames o.xDim) dLon) (hne : dLat ≠ dLon) (hv : FineVar f v) (hd : v.dims.Nodup) (h1 : dLat ∈ v.dims) (h2 : dLon ∈ v.dims)
    (hpos : ∀ d ∈ v.dims, 0 < dimLength f d) {d : Nat} (hdv : d ∈ v.dims) (hdn : d ≠ dLat ∧ d ≠ dLon) (hbig : 2 ≤ dimLength f d) :
    gridValues f o v = .ub := by
  obtain ⟨A, B, C, hl, a1, a2, a3, b1, b2, b3⟩ := two_split hd h1 h2 hne
  have hlen : ∀ d, v.dims ≠ [d] := by
    intro d hc
    rw [hc, List.mem_singleton] at h1 h2
    exact hne (h1.trans h2.symm)
  unfold gridValues latDim lonDim
  rw [findDim_ok hn.1 hLat, ok_bind, findDim_ok hn.1 hLon, ok_bind, dimSize_ok (firstDim_lt hLat), ok_bind, dimSize_ok (firstDim_lt hLon), ok_bind]
  split
  · rename_i d' hd'
    exact absurd hd' (hlen d')
  have hsub : ∀ d, d ∈ A ++ (B ++ C) → d ∈ v.dims := by
    intro d hd
    rcases hl with hl | hl <;> rw [hl] <;> simp at hd ⊢ <;> tauto
  have hmem : d ∈ A ++ (B ++ C) := by
    rcases hl with hl | hl <;> rw [hl] at hdv <;> simp at hdv ⊢ <;> tauto
  have hprod : 2 ≤ ((A ++ (B ++ C)).map (dimLength f)).prod := by
    have hdvd : dimLength f d ∣ ((A ++ (B ++ C)).map (dimLength f)).prod := List.dvd_prod (List.mem_map.mpr ⟨d, hmem, rfl⟩)
    have hp : 0 < ((A ++ (B ++ C)).map (dimLength f)).prod := by
      apply List.prod_pos
      intro x hx
      obtain ⟨e, he, rfl⟩ := List.mem_map.mp hx
      exact hpos e (hsub e he)
    exact hbig.trans (Nat.le_of_dvd hp hdvd)
  have hA := hpos dLat h1
  have hB := hpos dLon h2
  have hbigger : ∀ m n p : Nat, 0 < m → 0 < n → 2 ≤ p → m * n < m * n * p := by
    intro m n p hm hn hp
    have : 0 < m * n := Nat.mul_pos hm hn
    calc m * n < m * n * 2 := by omega
      _ ≤ m * n * p := Nat.mul_le_mul_left _ hp
  rcases hl with hl | hl
  · have hg : gridDims dLat dLon (dimLength f dLat) (dimLength f dLon) 0 v.dims (none, none, 1) =
        (some A.length, some (A.length + 1 + B.length), dimLength f dLat * dimLength f dLon) := by
      rw [hl, gridDims_append, gridDims_other _ _ _ _ _ A _ a1 b1, gridDims, if_pos rfl, gridDims_append, gridDims_other _ _ _ _ _ B _ a2 b2, gridDims,
        if_neg hne.symm, if_pos rfl, gridDims_other _ _ _ _ _ C _ a3 b3]
      simp
    rw [hg]
    simp only
    refine if_pos ?_
    have := hbigger _ _ _ hA hB hprod
    rw [hv.2, hl]
    simp only [List.map_append, List.map_cons, List.prod_append, List.prod_cons] at this ⊢
    convert this using 1
    ring
  · have hg : gridDims dLat dLon (dimLength f dLat) (dimLength f dLon) 0 v.dims (none, none, 1) =
        (some (A.length + 1 + B.length), some A.length, dimLength f dLon * dimLength f dLat) := by
      rw [hl, gridDims_append, gridDims_other _ _ _ _ _ A _ a1 b1, gridDims, if_neg hne.symm, if_pos rfl, gridDims_append,
        gridDims_other _ _ _ _ _ B _ a2 b2, gridDims, if_pos rfl, gridDims_other _ _ _ _ _ C _ a3 b3]
      simp
    rw [hg]
    simp only
    refine if_pos ?_
    have := hbigger _ _ _ hB hA hprod
    rw [hv.2, hl]
    simp only [List.map_append, List.map_cons, List.prod_append, List.prod_cons] at this ⊢
    convert this using 1
    ring

/-! ### Examples -/

/-- A file with three longitudes, two latitudes and a dimension of size 1; the variable has the longitudes first. -/
def gridFile : NcFile ℚ :=
  ⟨[("lon".toList, 3), ("one".toList, 1), ("y".toList, 2), ("two".toList, 2)],
    [⟨"lat".toList, [0, 1, 2], [fin 1, fin 2, fin 3, fin 4, fin 5, fin 6], none⟩]⟩

def gridOptions : NcOptions := ⟨"coeff".toList, "coefficient".toList, [], [], false⟩

/-- The hypotheses of `c146_grid_partial` hold. -/
example : FineNames gridFile ∧ FirstDim gridFile (latNames gridOptions.yDim) 2 ∧ FirstDim gridFile (lonNames gridOptions.xDim) 0 ∧
    (∀ v ∈ gridFile.vars, FineVar gridFile v ∧ v.dims.Nodup ∧ (∀ d ∈ v.dims, d ≠ 2 → d ≠ 0 → dimLength gridFile d = 1) ∧ 2 ∈ v.dims ∧ 0 ∈ v.dims ∧
      gridValues gridFile gridOptions v = ok [[fin 1, fin 3, fin 5], [fin 2, fin 4, fin 6]]) := by
  refine ⟨by unfold FineNames gridFile; decide, ⟨["lat".toList, "latitude".toList], "y".toList, [], 2, rfl, by decide, rfl⟩,
    ⟨[], "lon".toList, ["longitude".toList, "x".toList], 3, rfl, by decide, rfl⟩, ?_⟩
  unfold FineVar
  decide +kernel

/-- The hypotheses of `c146_overflow_false` hold. -/
example : FineVar gridFile ⟨"lat".toList, [0, 2, 3], List.replicate 12 (fin 0), none⟩ ∧
    gridValues gridFile gridOptions ⟨"lat".toList, [0, 2, 3], List.replicate 12 (fin 0), none⟩ = .ub := by
  unfold FineVar
  decide +kernel

example : ncIndex [1, 0, 2] [2, 3, 4] = ok 14 ∧ ncIndices 14 [2, 3, 4] = ok [1, 0, 2] := by decide

end Gridpp.Props
