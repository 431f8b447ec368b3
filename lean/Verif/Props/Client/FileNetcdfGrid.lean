import Verif.Model.Client.FileNetcdfOpen
import Verif.Props.Client.FileNetcdf
import Verif.Props.Client.NetcdfGrid

/-! # C151: latitudes, longitudes and elevations of a NetCDF file -/

set_option linter.unusedSectionVars false

namespace Gridpp.Props
open Fl hiding MV isValid
open Res Client Spec

variable {K : Type} [Field K] [LinearOrder K] [IsStrictOrderedRing K]

theorem gridSize_ok {f : NcFile K} {v : NcVar K} (hf : FineVar f v) {d : Nat} (hd : d ∈ v.dims) : gridSize f (some d) = ok (dimLength f d) :=
  dimSize_ok (hf.1 d hd)

/-- The number of a value in a part with two long dimensions. -/
theorem rowMajor_two {s p : Nat → Nat} {a b : Nat} {A B C : List Nat} (ho : ∀ d, d ∈ A ∨ d ∈ B ∨ d ∈ C → s d = 1 ∧ p d = 0) :
    rowMajor ((A ++ a :: (B ++ b :: C)).map fun d => (s d, p d)) = p a * s b + p b := by
  have h1 : ∀ L : List Nat, (∀ d ∈ L, s d = 1 ∧ p d = 0) → ∀ c : Nat, (L.map fun d => (s d, p d)).foldl (fun n p => n * p.1 + p.2) c = c := by
    intro L hL c
    apply rowMajor_ones
    intro q hq
    obtain ⟨d, hd, rfl⟩ := List.mem_map.mp hq
    rw [(hL d hd).1, (hL d hd).2]
  unfold rowMajor
  rw [List.map_append, List.map_cons, List.map_append, List.map_cons, List.foldl_append, List.foldl_cons, List.foldl_append, List.foldl_cons,
    h1 A (fun d hd => ho d (.inl hd)), h1 B (fun d hd => ho d (.inr (.inl hd))), h1 C (fun d hd => ho d (.inr (.inr hd)))]
  simp

/-- C151, two dimensions: a variable with both dimensions of the grid, in either order and among any others, gives for cell `i`, `j` the value at these
indices, and at the first index of the other dimensions; the value for missing is recognised. -/
theorem c151_both {f : NcFile K} {L : NcLayout} {v : NcVar K} {dY dX : Nat} (hf : FineVar f v) (hn : v.dims.Nodup) (hy : L.y = some dY) (hx : L.x = some dX)
    (hne : dY ≠ dX) (hdY : dY ∈ v.dims) (hdX : dX ∈ v.dims) (ho : ∀ d ∈ v.dims, 0 < dimLength f d ∨ d = dY ∨ d = dX)
    {x : Nat → Nat → Fl K} (hv : ∀ i < dimLength f dY, ∀ j < dimLength f dX, ValueAt f v (gridPos dY dX i j) (x i j)) :
    latLonGrid f L v = ok (tabulate (dimLength f dY) (dimLength f dX) fun i j => meaning v.fill (x i j)) := by
  have hL : DifferentDims L.grid := by
    unfold DifferentDims NcLayout.grid
    rw [hx, hy]
    simp [List.reduceOption, hne]
  have hrole : ∀ d, L.grid.role d = if d = dY then .y else if d = dX then .x else .other := by
    intro d
    unfold NcLayout.role NcLayout.grid
    simp [hx, hy]
  have hl : LevelFits f L.grid v (-999) := by
    intro d hd hod
    refine ⟨?_, .inl rfl⟩
    rcases ho d hd with h | rfl | rfl
    · exact h
    · exact absurd (by simp [NcLayout.grid, hy]) hod
    · exact absurd (by simp [NcLayout.grid, hx]) hod
  have ht : TimeFits f L.grid v 0 := fun d _ h => by simp [NcLayout.grid] at h
  obtain ⟨l, l1, l2⟩ := ncGetVara_ok hL hl ht
  have hzero : (v.dims.map fun d => ((fieldPos L.grid (levelIndex f (-999)) 0 0 0 0 d : Nat) : Int)) = v.dims.map fun _ => (0 : Int) := by
    apply List.map_congr_left
    intro d _
    rw [fieldPos_role]
    cases L.grid.role d <;> simp [levelIndex]
  rw [hzero] at l1
  have hexY : extent f v L.grid.y = dimLength f dY := by simp [NcLayout.grid, hy, extent, hdY]
  have hexX : extent f v L.grid.x = dimLength f dX := by simp [NcLayout.grid, hx, extent, hdX]
  have hexE : extent f v L.grid.ens = 1 := rfl
  have hlen : l.length = dimLength f dX * dimLength f dY := by
    unfold ncGetVara at l1
    split_ifs at l1
    rw [← Option.some.inj l1, List.length_map, ncTuples_length, count_prod hL hn, hexE, hexY, hexX]
    ring
  have hcount : ∀ d, countOf f L.grid d = if d = dY ∨ d = dX then dimLength f d else 1 := by
    intro d
    unfold countOf
    rw [hrole]
    split_ifs <;> simp_all
  have hpos : ∀ i j, fieldPos L.grid (fun _ => 0) 0 i j 0 = gridPos dY dX i j := by
    intro i j
    funext d
    rw [fieldPos_role, hrole]
    unfold gridPos
    split_ifs <;> rfl
  have hpos' : ∀ i j, fieldPos L.grid (levelIndex f (-999)) 0 i j 0 = gridPos dY dX i j := by
    intro i j
    rw [← hpos]
    funext d
    rw [fieldPos_role, fieldPos_role]
    cases L.grid.role d <;> simp [levelIndex]
  have hlast : ∀ i < dimLength f dY, ∀ j < dimLength f dX, vget l (rowMajor (v.dims.map fun d => (countOf f L.grid d, gridPos dY dX i j d)) : Nat) = ok (x i j) := by
    intro i hi j hj
    have := l2 i (by rw [hexY]; exact hi) j (by rw [hexX]; exact hj) 0 (by rw [hexE]; omega) (x i j) (by rw [hpos']; exact hv i hi j hj)
    rw [hpos] at this
    exact this
  have hnd1 : ∀ d, v.dims ≠ [d] := by
    intro d hc
    rw [hc, List.mem_singleton] at hdY hdX
    exact hne (hdY.trans hdX.symm)
  unfold latLonGrid
  rw [hy, hx, gridSize_ok hf hdY, ok_bind, gridSize_ok hf hdX, ok_bind]
  split
  · rename_i d' hd'
    exact absurd hd' (hnd1 d')
  obtain ⟨A, B, C, hsplit, a1, a2, a3, b1, b2, b3⟩ := two_split hn hdY hdX hne
  have hother : ∀ d, d ∈ A ∨ d ∈ B ∨ d ∈ C → d ≠ dY ∧ d ≠ dX := by
    intro d h
    constructor <;> rintro rfl <;> rcases h with h | h | h <;> contradiction
  have hcp : ∀ i j d, d ∈ A ∨ d ∈ B ∨ d ∈ C → countOf f L.grid d = 1 ∧ gridPos dY dX i j d = 0 := by
    intro i j d h
    obtain ⟨h1, h2⟩ := hother d h
    rw [hcount]
    unfold gridPos
    simp [h1, h2]
  have pY : ∀ i j, gridPos dY dX i j dY = i := fun i j => if_pos rfl
  have pX : ∀ i j, gridPos dY dX i j dX = j := fun i j => by
    unfold gridPos
    rw [if_neg hne.symm, if_pos rfl]
  have cY : countOf f L.grid dY = dimLength f dY := by rw [hcount]; simp
  have cX : countOf f L.grid dX = dimLength f dX := by rw [hcount]; simp
  have rY : L.grid.role dY = .y := by rw [hrole, if_pos rfl]
  have rX : L.grid.role dX = .x := by rw [hrole, if_neg hne.symm, if_pos rfl]
  have rO : ∀ d, d ∈ A ∨ d ∈ B ∨ d ∈ C → L.grid.role d = .other := by
    intro d h
    obtain ⟨h1, h2⟩ := hother d h
    rw [hrole, if_neg h1, if_neg h2]
  have hmean : ∀ w : Fl K, (if w.feq v.missing then (MV : Fl K) else w) = meaning v.fill w := by
    intro w
    unfold meaning NcVar.missing ncFillFloat MV
    cases w <;> cases v.fill.getD (.fin (15 * 2 ^ 119)) <;> simp [feq]
  rcases hsplit with hsplit | hsplit
  · have hxp : rolePos L.grid .x 0 v.dims none = some (A.length + 1 + B.length) := by
      rw [hsplit, show A ++ dY :: (B ++ dX :: C) = (A ++ dY :: B) ++ dX :: C by simp, rolePos_some _ rX (fun d hd => by rw [rO d (.inr (.inr hd))]; decide)]
      simp; omega
    have hyp : rolePos L.grid .y 0 v.dims none = some A.length := by
      rw [hsplit, rolePos_some _ rY]
      · simp
      · intro d hd
        rcases List.mem_append.mp hd with h | h
        · rw [rO d (.inr (.inl h))]; decide
        · rcases List.mem_cons.mp h with rfl | h
          · rw [rX]; decide
          · rw [rO d (.inr (.inr h))]; decide
    rw [hxp, hyp]
    simp only
    rw [slabCount_ok hf, ok_bind, sizes_ok hf, ok_bind, l1]
    simp only
    rw [if_neg (by rw [hlen]; omega)]
    refine gridOf_ok fun i hi j hj => ?_
    have hlt : A.length < A.length + 1 + B.length := by omega
    have := hlast i hi j hj
    rw [hsplit, rowMajor_two (hcp i j), pY, pX, cX] at this
    have hidx : i * dimLength f dX + j < dimLength f dX * dimLength f dY := by
      calc i * dimLength f dX + j < i * dimLength f dX + dimLength f dX := by omega
        _ = dimLength f dX * (i + 1) := by ring
        _ ≤ dimLength f dX * dimLength f dY := Nat.mul_le_mul_left _ hi
    rw [if_pos hlt, this, ok_bind, decide_eq_true hidx, hmean]
    rfl
  · have hyp : rolePos L.grid .y 0 v.dims none = some (A.length + 1 + B.length) := by
      rw [hsplit, show A ++ dX :: (B ++ dY :: C) = (A ++ dX :: B) ++ dY :: C by simp, rolePos_some _ rY (fun d hd => by rw [rO d (.inr (.inr hd))]; decide)]
      simp; omega
    have hxp : rolePos L.grid .x 0 v.dims none = some A.length := by
      rw [hsplit, rolePos_some _ rX]
      · simp
      · intro d hd
        rcases List.mem_append.mp hd with h | h
        · rw [rO d (.inr (.inl h))]; decide
        · rcases List.mem_cons.mp h with rfl | h
          · rw [rY]; decide
          · rw [rO d (.inr (.inr h))]; decide
    rw [hxp, hyp]
    simp only
    rw [slabCount_ok hf, ok_bind, sizes_ok hf, ok_bind, l1]
    simp only
    rw [if_neg (by rw [hlen]; omega)]
    refine gridOf_ok fun i hi j hj => ?_
    have hlt : ¬ (A.length + 1 + B.length < A.length) := by omega
    have := hlast i hi j hj
    rw [hsplit, rowMajor_two (hcp i j), pY, pX, cY] at this
    have hidx : j * dimLength f dY + i < dimLength f dX * dimLength f dY := by
      calc j * dimLength f dY + i < j * dimLength f dY + dimLength f dY := by omega
        _ = (j + 1) * dimLength f dY := by ring
        _ ≤ dimLength f dX * dimLength f dY := Nat.mul_le_mul_right _ hj
    rw [if_neg hlt, this, ok_bind, decide_eq_true hidx, hmean]
    rfl

/-- C151, one dimension: the values are repeated along the other one. The value for missing is not recognised, so there must be none. -/
theorem c151_one_partial {f : NcFile K} {L : NcLayout} {v : NcVar K} {d nY nX : Nat} (hf : FineVar f v) (hv : v.dims = [d])
    (hd : some d = L.x ∨ some d = L.y) (hY : gridSize f L.y = ok nY) (hX : gridSize f L.x = ok nX)
    (hm : ∀ w ∈ v.values, meaning v.fill w = w) :
    ∃ x, latLonGrid f L v = ok (tabulate nY nX x) ∧
      ∀ i < nY, ∀ j < nX, ∃ raw, ValueAt f v (fun _ => if some d = L.x then j else i) raw ∧ x i j = meaning v.fill raw := by
  have hlt : d < f.dims.length := hf.1 d (by rw [hv]; simp)
  have hlen : v.values.length = dimLength f d := by rw [hf.2, hv]; simp
  have hraw : ∀ n : Nat, (h : n < v.values.length) → ValueAt f v (fun _ => n) v.values[n] := by
    intro n h
    unfold ValueAt
    rw [hv]
    simp [rowMajor, h]
  unfold latLonGrid
  rw [hY, ok_bind, hX, ok_bind, hv]
  simp only
  by_cases hdx : some d = L.x
  · rw [if_pos hdx]
    have hnX : nX = dimLength f d := by
      rw [← hdx] at hX
      have := dimSize_ok hlt
      change f.dimSize d = ok nX at hX
      rw [this] at hX
      exact (Res.ok.inj hX).symm
    refine ⟨fun _ j => v.values.getD j .nan, gridOf_ok fun i hi j hj => ?_, fun i hi j hj => ?_⟩
    · rw [vget_eq_ok_of_lt (by omega)]
      simp [show j < v.values.length by omega]
    · have hj' : j < v.values.length := by omega
      refine ⟨v.values[j], by simpa [hdx] using hraw j hj', ?_⟩
      rw [hm _ (List.getElem_mem hj')]
      simp [hj']
  · have hdy : some d = L.y := by
      rcases hd with h | h
      · exact absurd h hdx
      · exact h
    rw [if_neg hdx, if_pos hdy]
    have hnY : nY = dimLength f d := by
      rw [← hdy] at hY
      have := dimSize_ok hlt
      change f.dimSize d = ok nY at hY
      rw [this] at hY
      exact (Res.ok.inj hY).symm
    refine ⟨fun i _ => v.values.getD i .nan, gridOf_ok fun i hi j hj => ?_, fun i hi j hj => ?_⟩
    · rw [vget_eq_ok_of_lt (by omega)]
      simp [show i < v.values.length by omega]
    · have hi' : i < v.values.length := by omega
      refine ⟨v.values[i], by simpa [hdx] using hraw i hi', ?_⟩
      rw [hm _ (List.getElem_mem hi')]
      simp [hi']

/-- C151, errors: with one dimension that is not of the grid, or with none or several that do not include both of the grid, the program stops. -/
theorem c151_error {f : NcFile K} {L : NcLayout} {v : NcVar K} {nY nX : Nat} (hY : gridSize f L.y = ok nY) (hX : gridSize f L.x = ok nX)
    (h : (∃ d, v.dims = [d] ∧ some d ≠ L.x ∧ some d ≠ L.y) ∨ v.dims.length ≠ 1 ∧ ((∀ d ∈ v.dims, some d ≠ L.x) ∨ ∀ d ∈ v.dims, some d ≠ L.y)) :
    latLonGrid f L v = .abort := by
  unfold latLonGrid
  rw [hY, ok_bind, hX, ok_bind]
  rcases h with ⟨d, h1, h2, h3⟩ | ⟨h1, h2⟩
  · rw [h1]
    simp only
    rw [if_neg h2, if_neg h3]
    rfl
  · split
    · rename_i d' hd'
      rw [hd'] at h1
      exact absurd rfl h1
    · rcases h2 with h2 | h2
      · rw [rolePos_none (r := .x)]
        · rfl
        · intro d hd
          unfold NcLayout.role NcLayout.grid
          have := h2 d hd
          simp only [reduceCtorEq, if_false]
          split_ifs <;> simp_all
      · rw [rolePos_none (r := .y)]
        · cases rolePos L.grid .x 0 v.dims none <;> rfl
        · intro d hd
          unfold NcLayout.role NcLayout.grid
          have := h2 d hd
          simp only [reduceCtorEq, if_false]
          split_ifs <;> simp_all

/-- A variable with the dimensions x, time and y: the grid has two rows and one column; the value for missing is 7. -/
example : latLonGrid (⟨[("time".toList, 3), ("y".toList, 2), ("x".toList, 1)], []⟩ : NcFile ℚ) ⟨some 0, none, some 1, some 2⟩
    ⟨"latitude".toList, [2, 0, 1], [.fin 50, .fin 7, .fin 1, .fin 2, .fin 3, .fin 4], some (.fin 7)⟩ = ok [[.fin 50], [.fin (-999)]] := by decide +kernel

/-- C151 is false of the code for a variable with one dimension that has missing values: they are taken for numbers. -/
theorem c151_fill_false : ∃ (f : NcFile ℚ) (v : NcVar ℚ), v.fill = some (.fin 7) ∧ v.values = [.fin 7, .fin 50] ∧
    latLonGrid f ⟨none, none, some 0, none⟩ v = ok [[.fin 7], [.fin 50]] :=
  ⟨⟨[("y".toList, 2)], []⟩, ⟨"altitude".toList, [0], [.fin 7, .fin 50], some (.fin 7)⟩, rfl, rfl, by decide +kernel⟩

end Gridpp.Props
