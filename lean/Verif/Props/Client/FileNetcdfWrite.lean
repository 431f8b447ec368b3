import Verif.Props.Client.FileNetcdf

/-! # C150: fields are written to the right place of a NetCDF variable, and are the same when they are read again -/

set_option linter.unusedSectionVars false

namespace Gridpp.Props
open Fl hiding MV isValid
open Res Client Spec

variable {K : Type} [Field K] [LinearOrder K] [IsStrictOrderedRing K]

theorem packed_eq {fill : Fl K} (h : isValid fill = true) (scale offset x : Fl K) : packed fill scale offset x = packedForm fill scale offset x := by
  unfold packed packedForm
  rw [h]
  cases x with
  | fin q => by_cases hq : q = -999 <;> simp [isValid, hq]
  | _ => simp [isValid]

/-- One time, whatever the value for missing. -/
theorem ncWriteTime_ok {f : NcFile K} {L : NcLayout} {v : NcVar K} (hf : FineVar f v) (hn : v.dims.Nodup) (hL : DifferentDims L)
    (hl : ∀ d ∈ v.dims, OtherDim L d → 0 < dimLength f d) {t : Nat} (ht : TimeFits f L v t) {nY nX nE : Nat} (hY : extent f v L.y ≤ nY)
    (hX : extent f v L.x ≤ nX) (hE : extent f v L.ens ≤ nE) {field : FieldC K} (hs : Sized nY nX nE field) (scale offset : Fl K) :
    ∃ values, ncWriteTime f L nY nX nE scale offset field v t = ok { v with values := values } ∧ FineVar f { v with values := values } ∧
      (∀ y < extent f v L.y, ∀ x < extent f v L.x, ∀ e < extent f v L.ens, ∃ value, field.get y x e = ok value ∧
        ValueAt f { v with values := values } (fieldPos L (fun _ => 0) t y x e) (packed v.missing scale offset value)) ∧
      ∀ pos, IndexInRange f v pos → (∃ d ∈ v.dims, some d = L.time ∧ pos d ≠ t ∨ OtherDim L d ∧ pos d ≠ 0) →
        ∀ raw, ValueAt f { v with values := values } pos raw ↔ ValueAt f v pos raw := by
  obtain ⟨data, h1, h2⟩ := slabData_ok hL hn hY hX hE hs (packed v.missing scale offset)
  have h3 : ∀ y < extent f v L.y, ∀ x < extent f v L.x, ∀ e < extent f v L.ens,
      data[rowMajor (v.dims.map fun d => (countOf f L d, fieldPos L (fun _ => 0) 0 y x e d))]? =
        some (some (packed v.missing scale offset (match field.get y x e with | .ok value => value | _ => .nan))) := by
    intro y hy x hx e he
    obtain ⟨value, g1, g2⟩ := h2 y hy x hx e he
    rw [g2, g1]
  obtain ⟨values, p1, p2, p3, p4⟩ := ncPutVara_ok hL hf hn hl ht
    (value := fun y x e => packed v.missing scale offset (match field.get y x e with | .ok value => value | _ => .nan)) h3
  have hstart : setPos (List.replicate v.dims.length 0) (rolePos L .time 0 v.dims none) t = v.dims.map (fieldPos L (fun _ => 0) t 0 0 0) := by
    rw [show List.replicate v.dims.length 0 = v.dims.map fun _ => 0 by simp, setPos_map hL (by decide) hn]
    apply List.map_congr_left
    intro d _
    rw [fieldPos_role]
    cases L.role d <;> simp
  refine ⟨values, ?_, ⟨hf.1, by simp only; rw [p2, hf.2]⟩, fun y hy x hx e he => ?_, fun pos hp hb raw => ?_⟩
  · unfold ncWriteTime
    rw [slabCount_ok hf, ok_bind, sizes_ok hf, ok_bind]
    rw [posCount_eq hL hn (by decide) (by decide), posCount_eq hL hn (by decide) (by decide), posCount_eq hL hn (by decide) (by decide)]
    simp only [roleDim]
    rw [h1, ok_bind, hstart, p1, ok_bind]
  · obtain ⟨value, g1, _⟩ := h2 y hy x hx e he
    refine ⟨value, g1, ?_⟩
    have := p3 y hy x hx e he
    rw [g1] at this
    exact this
  · unfold ValueAt
    simp only
    rw [p4 pos hp hb]

theorem writePos_inRange {f : NcFile K} {L : NcLayout} (hL : DifferentDims L) {v : NcVar K} (hl : ∀ d ∈ v.dims, OtherDim L d → 0 < dimLength f d) {t : Nat}
    (ht : TimeFits f L v t) {y x e : Nat} (hy : y < extent f v L.y) (hx : x < extent f v L.x) (he : e < extent f v L.ens) :
    IndexInRange f v (fieldPos L (fun _ => 0) t y x e) := by
  have hl' : LevelFits f L v (-999) := fun d hdd ho => ⟨hl d hdd ho, .inl rfl⟩
  have := fieldPos_inRange hL hl' ht hy hx he
  have hfun : levelIndex f (-999) = fun _ => 0 := by
    funext d
    simp [levelIndex]
  rwa [hfun] at this

/-- All times, whatever the value for missing. -/
theorem ncWriteVar_ok {f : NcFile K} {L : NcLayout} {v : NcVar K} (hf : FineVar f v) (hn : v.dims.Nodup) (hL : DifferentDims L)
    (hl : ∀ d ∈ v.dims, OtherDim L d → 0 < dimLength f d) {nY nX nE : Nat} (hY : extent f v L.y ≤ nY)
    (hX : extent f v L.x ≤ nX) (hE : extent f v L.ens ≤ nE) (scale offset : Fl K) (fields : Nat → FieldC K) (nT : Nat)
    (ht : ∀ t < nT, TimeFits f L v t) (hs : ∀ t < nT, Sized nY nX nE (fields t)) :
    ∃ values, ncWriteVar f L nY nX nE nT scale offset fields v = ok { v with values := values } ∧ FineVar f { v with values := values } ∧
      (∀ t < nT, (∃ d ∈ v.dims, some d = L.time) ∨ t + 1 = nT →
        ∀ y < extent f v L.y, ∀ x < extent f v L.x, ∀ e < extent f v L.ens, ∃ value, (fields t).get y x e = ok value ∧
          ValueAt f { v with values := values } (fieldPos L (fun _ => 0) t y x e) (packed v.missing scale offset value)) ∧
      ∀ pos, IndexInRange f v pos → (∃ d ∈ v.dims, some d = L.time ∧ nT ≤ pos d ∨ OtherDim L d ∧ pos d ≠ 0) →
        ∀ raw, ValueAt f { v with values := values } pos raw ↔ ValueAt f v pos raw := by
  unfold ncWriteVar
  induction nT with
  | zero => exact ⟨v.values, rfl, hf, fun t ht' => by omega, fun _ _ _ _ => Iff.rfl⟩
  | succ n ih =>
    obtain ⟨values, h1, h2, h3, h4⟩ := ih (fun t h => ht t (by omega)) (fun t h => hs t (by omega))
    obtain ⟨values', g1, g2, g3, g4⟩ := ncWriteTime_ok (v := { v with values := values }) h2 hn hL hl (ht n (by omega)) hY hX hE (hs n (by omega)) scale offset
    refine ⟨values', ?_, g2, fun t ht' hor y hy x hx e he => ?_, fun pos hp hb raw => ?_⟩
    · rw [List.range_succ, foldM_append, h1, ok_bind, foldM_cons, g1]
      rfl
    · rcases Nat.lt_succ_iff_lt_or_eq.mp ht' with hlt | rfl
      · have hd : ∃ d ∈ v.dims, some d = L.time := by
          rcases hor with h | h
          · exact h
          · omega
        obtain ⟨value, k1, k2⟩ := h3 t hlt (.inl hd) y hy x hx e he
        refine ⟨value, k1, (g4 _ (writePos_inRange hL hl (ht t (by omega)) hy hx he) ?_ _).mpr k2⟩
        obtain ⟨d, hd1, hd2⟩ := hd
        refine ⟨d, hd1, .inl ⟨hd2, ?_⟩⟩
        unfold fieldPos
        rw [if_pos hd2]
        omega
      · exact g3 y hy x hx e he
    · obtain ⟨d, hd1, hd2⟩ := hb
      rw [g4 pos hp ⟨d, hd1, ?_⟩ raw, h4 pos hp ⟨d, hd1, ?_⟩ raw]
      · rcases hd2 with ⟨a, b⟩ | h
        · exact .inl ⟨a, by omega⟩
        · exact .inr h
      · rcases hd2 with ⟨a, b⟩ | h
        · exact .inl ⟨a, by omega⟩
        · exact .inr h

/-- C150, places: the value of every time, point and member that the variable has room for is packed and put where the dimensions of the variable say, in
whatever order they are, and nothing else of the variable is changed. -/
theorem c150_write_partial {f : NcFile K} {L : NcLayout} {v : NcVar K} (hf : FineVar f v) (hn : v.dims.Nodup) (hL : DifferentDims L)
    (hl : ∀ d ∈ v.dims, OtherDim L d → 0 < dimLength f d) {nY nX nE : Nat} (hY : extent f v L.y ≤ nY)
    (hX : extent f v L.x ≤ nX) (hE : extent f v L.ens ≤ nE) (scale offset : Fl K) (fields : Nat → FieldC K) (nT : Nat)
    (ht : ∀ t < nT, TimeFits f L v t) (hs : ∀ t < nT, Sized nY nX nE (fields t)) (hd : (∃ d ∈ v.dims, some d = L.time) ∨ nT = 1)
    (hfill : isValid (v.fill.getD (.fin (15 * 2 ^ 119))) = true) :
    ∃ values, ncWriteVar f L nY nX nE nT scale offset fields v = ok { v with values := values } ∧ FineVar f { v with values := values } ∧
      (∀ t < nT, ∀ y < extent f v L.y, ∀ x < extent f v L.x, ∀ e < extent f v L.ens, ∃ value, (fields t).get y x e = ok value ∧
        ValueAt f { v with values := values } (fieldPos L (fun _ => 0) t y x e) (packedForm (v.fill.getD (.fin (15 * 2 ^ 119))) scale offset value)) ∧
      ∀ pos, IndexInRange f v pos → (∃ d ∈ v.dims, some d = L.time ∧ nT ≤ pos d ∨ OtherDim L d ∧ pos d ≠ 0) →
        ∀ raw, ValueAt f { v with values := values } pos raw ↔ ValueAt f v pos raw := by
  obtain ⟨values, h1, h2, h3, h4⟩ := ncWriteVar_ok hf hn hL hl hY hX hE scale offset fields nT ht hs
  refine ⟨values, h1, h2, fun t ht' y hy x hx e he => ?_, h4⟩
  obtain ⟨value, g1, g2⟩ := h3 t ht' (hd.imp_right fun h => by omega) y hy x hx e he
  refine ⟨value, g1, ?_⟩
  rw [← packed_eq hfill]
  exact g2

/-- C150 is false of the code for a variable without the dimension of the times: of several times only the last one is kept. -/
theorem c150_no_time {f : NcFile K} {L : NcLayout} {v : NcVar K} (hf : FineVar f v) (hn : v.dims.Nodup) (hL : DifferentDims L)
    (hl : ∀ d ∈ v.dims, OtherDim L d → 0 < dimLength f d) {nY nX nE : Nat} (hY : extent f v L.y ≤ nY)
    (hX : extent f v L.x ≤ nX) (hE : extent f v L.ens ≤ nE) (scale offset : Fl K) (fields : Nat → FieldC K) (nT : Nat)
    (hs : ∀ t ≤ nT, Sized nY nX nE (fields t)) (hd : ∀ d ∈ v.dims, some d ≠ L.time)
    (hfill : isValid (v.fill.getD (.fin (15 * 2 ^ 119))) = true) :
    ∃ values, ncWriteVar f L nY nX nE (nT + 1) scale offset fields v = ok { v with values := values } ∧
      ∀ t y x e, y < extent f v L.y → x < extent f v L.x → e < extent f v L.ens → ∃ value, (fields nT).get y x e = ok value ∧
        ValueAt f { v with values := values } (fieldPos L (fun _ => 0) t y x e) (packedForm (v.fill.getD (.fin (15 * 2 ^ 119))) scale offset value) := by
  obtain ⟨values, h1, _, h3, _⟩ := ncWriteVar_ok hf hn hL hl hY hX hE scale offset fields (nT + 1) (fun t _ d h1 h2 => absurd h2 (hd d h1))
    (fun t h => hs t (by omega))
  refine ⟨values, h1, fun t y x e hy hx he => ?_⟩
  obtain ⟨value, g1, g2⟩ := h3 nT (by omega) (.inr rfl) y hy x hx e he
  refine ⟨value, g1, ?_⟩
  rw [← packed_eq hfill]
  unfold ValueAt at g2 ⊢
  rw [← List.map_congr_left (g := fun d => (dimLength f d, fieldPos L (fun _ => 0) t y x e d)) (l := v.dims)
    (f := fun d => (dimLength f d, fieldPos L (fun _ => 0) nT y x e d))]
  · exact g2
  · intro d hdd
    unfold fieldPos
    rw [if_neg (hd d hdd), if_neg (hd d hdd)]

/-- C150, a time beyond those of the variable: the program stops. -/
theorem c150_late {f : NcFile K} {L : NcLayout} {v : NcVar K} (hf : FineVar f v) (hn : v.dims.Nodup) (hL : DifferentDims L) {d t : Nat} (hd : d ∈ v.dims)
    (ho : some d = L.time) (ht : dimLength f d ≤ t) {nY nX nE : Nat} (hY : extent f v L.y ≤ nY)
    (hX : extent f v L.x ≤ nX) (hE : extent f v L.ens ≤ nE) {field : FieldC K} (hs : Sized nY nX nE field) (scale offset : Fl K) :
    ncWriteTime f L nY nX nE scale offset field v t = .abort := by
  obtain ⟨data, h1, h2⟩ := slabData_ok hL hn hY hX hE hs (packed v.missing scale offset)
  unfold ncWriteTime
  rw [slabCount_ok hf, ok_bind, sizes_ok hf, ok_bind]
  rw [posCount_eq hL hn (by decide) (by decide), posCount_eq hL hn (by decide) (by decide), posCount_eq hL hn (by decide) (by decide)]
  simp only [roleDim]
  rw [h1, ok_bind, show List.replicate v.dims.length 0 = v.dims.map fun _ => 0 by simp, setPos_map hL (by decide) hn]
  have hno : ncFits (v.dims.map (dimLength f)) ((v.dims.map fun d => if L.role d = .time then t else 0).map fun n : Nat => (n : Int))
      (v.dims.map (countOf f L)) ≠ true := by
    rw [List.map_map]
    intro hc
    have := ((ncFits_iff _ _ _ _).mp hc d hd).2
    simp only [Function.comp_apply, countOf, (role_time_iff L d).mpr ho, if_true] at this
    omega
  unfold ncPutVara
  rw [if_neg hno]
  rfl

/-- A packed number is the same when it is unpacked, unless it happens to be the value for missing. -/
theorem unpacked_packed {fill : Fl K} (hfill : isValid fill = true) {s o : K} (hs : s ≠ 0) {x : Fl K}
    (hx : ∀ q, x = .fin q → q ≠ -999 → fill ≠ .fin ((q - o) / s)) :
    packedMeaning fill (.fin s) (.fin o) (packedForm fill (.fin s) (.fin o) x) = numberOrMissing x := by
  have hf : fill ≠ .nan := by rintro rfl; simp [isValid] at hfill
  cases x with
  | fin q =>
    by_cases hq : q = -999
    · simp [packedForm, packedMeaning, numberOrMissing, hq, hf]
    · have h1 := hx q rfl hq
      have h2 : (Fl.fin q - Fl.fin o) / Fl.fin s = Fl.fin ((q - o) / s) := by
        simp [hs]
      simp only [packedForm, packedMeaning, numberOrMissing, if_neg hq, h2]
      rw [if_neg (fun h => h1 h.2.symm)]
      have h3 : Fl.fin s * Fl.fin ((q - o) / s) + Fl.fin o = Fl.fin (s * ((q - o) / s) + o) := rfl
      rw [h3, mul_div_cancel₀ _ hs, sub_add_cancel]
  | _ => simp [packedForm, packedMeaning, numberOrMissing, hf]

/-- C150, round trip: fields that fill the variable are the same when they are read again, without a level. -/
theorem c150_round_partial {f : NcFile K} {L : NcLayout} {v : NcVar K} (hf : FineVar f v) (hn : v.dims.Nodup) (hL : DifferentDims L)
    (hl : ∀ d ∈ v.dims, OtherDim L d → 0 < dimLength f d) {nY nX nE : Nat} (hY : extent f v L.y = nY) (hX : extent f v L.x = nX) (hE : extent f v L.ens = nE)
    {s o : K} (hs0 : s ≠ 0) (fields : Nat → FieldC K) (nT : Nat) (ht : ∀ t < nT, TimeFits f L v t) (hs : ∀ t < nT, Sized nY nX nE (fields t))
    (hd : (∃ d ∈ v.dims, some d = L.time) ∨ nT = 1) (hfill : isValid (v.fill.getD (.fin (15 * 2 ^ 119))) = true)
    (hfree : ∀ t < nT, ∀ y x e q, (fields t).get y x e = ok (.fin q) → q ≠ -999 → v.fill.getD (.fin (15 * 2 ^ 119)) ≠ .fin ((q - o) / s)) :
    ∃ v', ncWriteVar f L nY nX nE nT (.fin s) (.fin o) fields v = ok v' ∧ ∀ t < nT, ∃ field,
      ncField f L nY nX nE v' (.fin s) (.fin o) (-999) t = ok field ∧ Sized nY nX nE field ∧
      ∀ y < nY, ∀ x < nX, ∀ e < nE, ∃ value, (fields t).get y x e = ok value ∧ field.get y x e = ok (numberOrMissing value) := by
  obtain ⟨values, h1, h2, h3, -⟩ := c150_write_partial hf hn hL hl hY.le hX.le hE.le (.fin s) (.fin o) fields nT ht hs hd hfill
  refine ⟨_, h1, fun t ht' => ?_⟩
  have hl' : LevelFits f L { v with values := values } (-999) := fun d hdd ho => ⟨hl d hdd ho, .inl rfl⟩
  obtain ⟨field, g1, g2, g3, -⟩ := c149_read_partial (v := { v with values := values }) h2 hn hL hl' (ht t ht') hY.le hX.le hE.le
    (scale := .fin s) (offset := .fin o) (.inl hfill)
  refine ⟨field, g1, g2, fun y hy x hx e he => ?_⟩
  obtain ⟨raw, k1, k2⟩ := g3 y (hY ▸ hy) x (hX ▸ hx) e (hE ▸ he)
  obtain ⟨value, m1, m2⟩ := h3 t ht' y (hY ▸ hy) x (hX ▸ hx) e (hE ▸ he)
  refine ⟨value, m1, ?_⟩
  have hfun : levelIndex f (-999) = fun _ => 0 := by
    funext d
    simp [levelIndex]
  rw [hfun] at k1
  have : raw = packedForm (v.fill.getD (.fin (15 * 2 ^ 119))) (.fin s) (.fin o) value := by
    unfold ValueAt at k1 m2
    rw [k1] at m2
    exact Option.some.inj m2
  rw [k2, this, unpacked_packed hfill hs0]
  intro q hq hne
  exact hfree t ht' y x e q (hq ▸ m1) hne

/-- Two times of a variable with the dimensions x, time, y are written and read again; the value for missing is 7. -/
example : ∃ v', ncWriteVar (⟨[("time".toList, 2), ("y".toList, 1), ("x".toList, 2)], []⟩ : NcFile ℚ) ⟨some 0, none, some 1, some 2⟩ 1 2 1 2 (.fin 2) (.fin 100)
      (fun t : Nat => ⟨[.fin (10 * (t : ℚ)), .fin (-999)], 1, 2, 1⟩) ⟨"t".toList, [2, 0, 1], [.fin 0, .fin 0, .fin 0, .fin 0], some (.fin 7)⟩ = ok v' ∧
    v'.values = [.fin (-50), .fin (-45), .fin 7, .fin 7] ∧
    ncField (⟨[("time".toList, 2), ("y".toList, 1), ("x".toList, 2)], []⟩ : NcFile ℚ) ⟨some 0, none, some 1, some 2⟩ 1 2 1 v' (.fin 2) (.fin 100) (-999) 1 =
      ok ⟨[.fin 10, .fin (-999)], 1, 2, 1⟩ :=
  ⟨⟨"t".toList, [2, 0, 1], [.fin (-50), .fin (-45), .fin 7, .fin 7], some (.fin 7)⟩, by decide +kernel, by decide +kernel, by decide +kernel⟩

/-- C150 is false of the code for a variable with levels: a field is always written to the first one, though it is read from its own. -/
theorem c150_level_false : ∃ (f : NcFile ℚ) (v v' : NcVar ℚ), f.dims = [("level".toList, 2)] ∧ v.dims = [0] ∧ v.values = [.fin 1, .fin 2] ∧
    ncField f ⟨none, none, none, none⟩ 1 1 1 v (.fin 1) (.fin 0) 1 0 = ok ⟨[.fin 2], 1, 1, 1⟩ ∧
    ncWriteVar f ⟨none, none, none, none⟩ 1 1 1 1 (.fin 1) (.fin 0) (fun _ => ⟨[.fin 5], 1, 1, 1⟩) v = ok v' ∧
    ncField f ⟨none, none, none, none⟩ 1 1 1 v' (.fin 1) (.fin 0) 1 0 = ok ⟨[.fin 2], 1, 1, 1⟩ :=
  ⟨⟨[("level".toList, 2)], []⟩, ⟨"t".toList, [0], [.fin 1, .fin 2], none⟩, ⟨"t".toList, [0], [.fin 5, .fin 2], none⟩, rfl, rfl, rfl,
    by decide +kernel, by decide +kernel, by decide +kernel⟩

/-- C150 is false of the code for a number that is packed into the value for missing: it is missing afterwards. -/
theorem c150_fill_false : ∃ (f : NcFile ℚ) (v v' : NcVar ℚ), v.fill = some (.fin 7) ∧
    ncWriteVar f ⟨none, none, none, none⟩ 1 1 1 1 (.fin 2) (.fin 0) (fun _ => ⟨[.fin 14], 1, 1, 1⟩) v = ok v' ∧
    ncField f ⟨none, none, none, none⟩ 1 1 1 v' (.fin 2) (.fin 0) (-999) 0 = ok ⟨[.fin (-999)], 1, 1, 1⟩ :=
  ⟨⟨[], []⟩, ⟨"t".toList, [], [.fin 1], some (.fin 7)⟩, ⟨"t".toList, [], [.fin 7], some (.fin 7)⟩, rfl, by decide +kernel, by decide +kernel⟩

/-- C150 is false of the code for missing values if the value for missing is -999: they are scaled, and numbers afterwards. -/
theorem c150_missing_false : ∃ (f : NcFile ℚ) (v v' : NcVar ℚ), v.fill = some (.fin (-999)) ∧
    ncWriteVar f ⟨none, none, none, none⟩ 1 1 1 1 (.fin 2) (.fin 1) (fun _ => ⟨[MV], 1, 1, 1⟩) v = ok v' ∧ v'.values = [.fin (-500)] :=
  ⟨⟨[], []⟩, ⟨"t".toList, [], [.fin 1], some (.fin (-999))⟩, ⟨"t".toList, [], [.fin (-500)], some (.fin (-999))⟩, rfl, by decide +kernel, rfl⟩

end Gridpp.Props
