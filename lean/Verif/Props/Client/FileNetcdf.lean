import Verif.Lemmas.Client.FileNetcdf

/-! # C149: a field of a NetCDF file is read from the right place of the variable, whatever the order of its dimensions -/

set_option linter.unusedSectionVars false

namespace Gridpp.Props
open Fl hiding MV isValid
open Res Client Spec

variable {K : Type} [Field K] [LinearOrder K] [IsStrictOrderedRing K]

theorem unpacked_eq {fill scale offset : Fl K}
    (h : isValid fill = true ∨ fill = .nan ∨ fill = MV ∧ scale = .fin 1 ∧ offset = .fin 0) (x : Fl K) :
    unpacked fill scale offset x = packedMeaning fill scale offset x := by
  unfold unpacked packedMeaning
  rcases h with h | rfl | ⟨rfl, rfl, rfl⟩
  · cases fill <;> cases x <;> simp_all [isValid, feq, MV]
  · simp [isValid]
  · have h0 : (isValid (MV : Fl K)) = false := by simp [isValid, MV]
    rw [h0, Bool.false_and, if_neg (by decide)]
    by_cases h : x ≠ .nan ∧ x = (MV : Fl K)
    · rw [if_pos h, h.2]
      simp [MV]
    · rw [if_neg h]

/-- The loops over a part of a variable that could be read. -/
theorem ncField_steps {f : NcFile K} {L : NcLayout} {v : NcVar K} (hf : FineVar f v) (hn : v.dims.Nodup) (hL : DifferentDims L) {level : Int}
    (hl : LevelFits f L v level) {t : Nat} (ht : TimeFits f L v t) (nY nX nE : Nat) (scale offset : Fl K) :
    ∃ field0, Sized nY nX nE field0 ∧ (∀ y < nY, ∀ x < nX, ∀ e < nE, field0.get y x e = ok MV) ∧
      ∃ body : FieldC K → Nat × Nat × Nat → Res (FieldC K),
        ncField f L nY nX nE v scale offset level t = foldM body field0 (slabCells (extent f v L.ens) (extent f v L.y) (extent f v L.x)) ∧
        ∀ field, ∀ p ∈ slabCells (extent f v L.ens) (extent f v L.y) (extent f v L.x), ∀ raw,
          ValueAt f v (fieldPos L (levelIndex f level) t p.1 p.2.1 p.2.2) raw →
            body field p = field.set p.1 p.2.1 p.2.2 (unpacked v.missing scale offset raw) := by
  obtain ⟨field0, h1, h2, h3⟩ := FieldC.new_sized (K := K) nY nX nE MV
  obtain ⟨l, l1, l2⟩ := ncGetVara_ok hL hl ht
  refine ⟨field0, h2, h3, fun field p => do
    let i ← ncIndex (slabIndices L v.dims p.1 p.2.1 p.2.2) (v.dims.map (countOf f L))
    let value ← vget l i
    field.set p.1 p.2.1 p.2.2 (unpacked v.missing scale offset value), ?_, ?_⟩
  · unfold ncField
    rw [slabStart_ok hf hl, ok_bind, slabCount_ok hf, ok_bind, sizes_ok hf, ok_bind]
    simp only [l1, h1, ok_bind, Option.elim_some]
    rw [posCount_eq hL hn (by decide) (by decide), posCount_eq hL hn (by decide) (by decide), posCount_eq hL hn (by decide) (by decide)]
    rfl
  · intro field p hp raw hraw
    obtain ⟨hy, hx, he⟩ := mem_slabCells.mp hp
    simp only
    rw [slabIndex_ok hL hn, ok_bind, l2 _ hy _ hx _ he _ hraw, ok_bind]

/-- C149, values: where the variable has a value for the point and the member, it is that of the time and the level, at the place that the dimensions of the
variable say, in whatever order they are; everywhere else the field is missing. -/
theorem c149_read_partial {f : NcFile K} {L : NcLayout} {v : NcVar K} (hf : FineVar f v) (hn : v.dims.Nodup) (hL : DifferentDims L) {level : Int}
    (hl : LevelFits f L v level) {t : Nat} (ht : TimeFits f L v t) {nY nX nE : Nat} (hY : extent f v L.y ≤ nY) (hX : extent f v L.x ≤ nX)
    (hE : extent f v L.ens ≤ nE) {scale offset : Fl K}
    (hfill : isValid (v.fill.getD (.fin (15 * 2 ^ 119))) = true ∨ v.fill = some .nan ∨ v.fill = some (.fin (-999)) ∧ scale = .fin 1 ∧ offset = .fin 0) :
    ∃ field, ncField f L nY nX nE v scale offset level t = ok field ∧ Sized nY nX nE field ∧
      (∀ y < extent f v L.y, ∀ x < extent f v L.x, ∀ e < extent f v L.ens, ∃ raw, ValueAt f v (fieldPos L (levelIndex f level) t y x e) raw ∧
        field.get y x e = ok (packedMeaning (v.fill.getD (.fin (15 * 2 ^ 119))) scale offset raw)) ∧
      ∀ y < nY, ∀ x < nX, ∀ e < nE, ¬ (y < extent f v L.y ∧ x < extent f v L.x ∧ e < extent f v L.ens) → field.get y x e = ok (.fin (-999)) := by
  obtain ⟨field0, h2, h3, body, h4, h5⟩ := ncField_steps hf hn hL hl ht nY nX nE scale offset
  have hu : ∀ raw, unpacked v.missing scale offset raw = packedMeaning (v.fill.getD (.fin (15 * 2 ^ 119))) scale offset raw := by
    intro raw
    refine unpacked_eq ?_ raw
    rcases hfill with h | h | h
    · exact .inl h
    · exact .inr (.inl (by rw [NcVar.missing, h]; rfl))
    · exact .inr (.inr ⟨by rw [NcVar.missing, h.1]; rfl, h.2⟩)
  obtain ⟨field, g1, g2, g3, g4⟩ := foldM_cells (Sized nY nX nE) (fun s p => s.get p.1 p.2.1 p.2.2) body
    (fun p _ w => ∃ raw, ValueAt f v (fieldPos L (levelIndex f level) t p.1 p.2.1 p.2.2) raw ∧
      w = ok (packedMeaning (v.fill.getD (.fin (15 * 2 ^ 119))) scale offset raw))
    (slabCells (extent f v L.ens) (extent f v L.y) (extent f v L.x)) (slabCells_nodup _ _ _) (by
      intro s hs p hp
      obtain ⟨hy, hx, he⟩ := mem_slabCells.mp hp
      obtain ⟨raw, hraw⟩ := inRange_value hf (fieldPos_inRange hL hl ht hy hx he)
      obtain ⟨s', s1, s2, s3, s4⟩ := hs.set (lt_of_lt_of_le hy hY) (lt_of_lt_of_le hx hX) (lt_of_lt_of_le he hE) (unpacked v.missing scale offset raw)
      refine ⟨s', by rw [h5 s p hp raw hraw, s1], s2, ⟨raw, hraw, by rw [s3, hu]⟩, fun q hq => s4 _ _ _ fun hc => hq ?_⟩
      exact Prod.ext hc.1 (Prod.ext hc.2.1 hc.2.2)) field0 h2
  refine ⟨field, by rw [h4, g1], g2, fun y hy x hx e he => ?_, fun y hy x hx e he hne => ?_⟩
  · exact g3 (y, x, e) (mem_slabCells.mpr ⟨hy, hx, he⟩)
  · have := g4 (y, x, e) (fun hc => hne (mem_slabCells.mp hc))
    simp only at this
    rw [this, h3 y hy x hx e he]
    rfl

/-- C149, a level that a dimension does not have: the program stops. -/
theorem c149_level {f : NcFile K} {L : NcLayout} {v : NcVar K} (hf : FineVar f v) {level : Int} (hv : level ≠ -999) {d : Nat} (hd : d ∈ v.dims)
    (ho : OtherDim L d) (h1 : 1 < dimLength f d) (h2 : dimLength f d ≤ level) (nY nX nE : Nat) (scale offset : Fl K) (t : Nat) :
    ncField f L nY nX nE v scale offset level t = .abort := by
  have hs : ∀ d ∈ v.dims, (∃ b, slabStart f L t level d = ok b) ∨ slabStart f L t level d = .abort := by
    intro d hd
    unfold slabStart
    cases L.role d with
    | other =>
      simp only [dimSize_ok (hf.1 d hd), ok_bind, levelStart]
      split_ifs
      · exact .inr rfl
      all_goals exact .inl ⟨_, rfl⟩
    | _ => exact .inl ⟨_, rfl⟩
  unfold ncField
  rw [mapM_abort hs hd]
  · rfl
  · unfold slabStart
    rw [(role_other_iff L d).mpr ho]
    simp only [dimSize_ok (hf.1 d hd), ok_bind, levelStart]
    rw [if_pos hv, if_pos h1, if_pos h2]
    rfl

/-- C149, a variable with more points or members than the file is taken to have: the program stops. -/
theorem c149_too_large {f : NcFile K} {L : NcLayout} {v : NcVar K} (hf : FineVar f v) (hn : v.dims.Nodup) (hL : DifferentDims L) {level : Int}
    (hl : LevelFits f L v level) {t : Nat} (ht : TimeFits f L v t) {nY nX nE : Nat} (hY : 0 < extent f v L.y) (hX : 0 < extent f v L.x)
    (hE : 0 < extent f v L.ens) (hne : ¬ (extent f v L.y ≤ nY ∧ extent f v L.x ≤ nX ∧ extent f v L.ens ≤ nE)) (scale offset : Fl K) :
    ncField f L nY nX nE v scale offset level t = .abort := by
  obtain ⟨field0, h2, h3, body, h4, h5⟩ := ncField_steps hf hn hL hl ht nY nX nE scale offset
  have habort : ∀ s, Sized nY nX nE s → ∀ y x e : Nat, ¬ (y < nY ∧ x < nX ∧ e < nE) → ∀ w : Fl K, s.set y x e w = .abort := by
    intro s hs y x e hno w
    have : (decide (y < s.nY) && decide (x < s.nX) && decide (e < s.nE)) = false := by
      rw [hs.nY, hs.nX, hs.nE]
      simpa only [Bool.and_eq_false_iff, decide_eq_false_iff_not, not_and_or, or_assoc] using hno
    simp [FieldC.set, FieldC.getIndex, this]
  rw [h4]
  refine foldM_abort (WF := Sized nY nX nE) (i0 := (extent f v L.y - 1, extent f v L.x - 1, extent f v L.ens - 1)) ?_ ?_ ?_ h2
  · intro s hs p hp
    obtain ⟨hy, hx, he⟩ := mem_slabCells.mp hp
    obtain ⟨raw, hraw⟩ := inRange_value hf (fieldPos_inRange hL hl ht hy hx he)
    rw [h5 s p hp raw hraw]
    by_cases hin : p.1 < nY ∧ p.2.1 < nX ∧ p.2.2 < nE
    · obtain ⟨s', s1, s2, _⟩ := hs.set hin.1 hin.2.1 hin.2.2 (unpacked v.missing scale offset raw)
      exact .inl ⟨s', s1, s2⟩
    · exact .inr (habort s hs _ _ _ hin _)
  · exact mem_slabCells.mpr ⟨by simp only; omega, by simp only; omega, by simp only; omega⟩
  · intro s hs
    have hp : (extent f v L.y - 1, extent f v L.x - 1, extent f v L.ens - 1) ∈ slabCells (extent f v L.ens) (extent f v L.y) (extent f v L.x) :=
      mem_slabCells.mpr ⟨by simp only; omega, by simp only; omega, by simp only; omega⟩
    obtain ⟨hy, hx, he⟩ := mem_slabCells.mp hp
    obtain ⟨raw, hraw⟩ := inRange_value hf (fieldPos_inRange hL hl ht hy hx he)
    rw [h5 s _ hp raw hraw]
    exact habort s hs _ _ _ (by simp only; omega) _

/-- C149, a time beyond those of the variable: that the library fails is not noticed, and memory that has not been written is used. -/
theorem c149_time {f : NcFile K} {L : NcLayout} {v : NcVar K} (hf : FineVar f v) (hn : v.dims.Nodup) (hL : DifferentDims L) {level : Int}
    (hl : LevelFits f L v level) {d t : Nat} (hd : d ∈ v.dims) (ho : some d = L.time) (ht : dimLength f d ≤ t) (nY nX nE : Nat)
    (hY : 0 < extent f v L.y) (hX : 0 < extent f v L.x) (hE : 0 < extent f v L.ens) (scale offset : Fl K) :
    ncField f L nY nX nE v scale offset level t = .ub := by
  have hno : ncGetVara (v.dims.map (dimLength f)) (v.dims.map fun d => ((fieldPos L (levelIndex f level) t 0 0 0 d : Nat) : Int)) (v.dims.map (countOf f L))
      v.values = none := by
    unfold ncGetVara
    rw [if_neg]
    rw [ncFits_iff]
    intro h
    have := (h d hd).2
    rw [fieldPos_role] at this
    unfold countOf at this
    rw [(role_time_iff L d).mpr ho] at this
    simp only at this
    omega
  obtain ⟨field0, h1, h2, h3⟩ := FieldC.new_sized (K := K) nY nX nE MV
  unfold ncField
  rw [slabStart_ok hf hl, ok_bind, slabCount_ok hf, ok_bind, sizes_ok hf, ok_bind]
  simp only [hno, h1, ok_bind, Option.elim_none]
  rw [posCount_eq hL hn (by decide) (by decide), posCount_eq hL hn (by decide) (by decide), posCount_eq hL hn (by decide) (by decide)]
  simp only [roleDim]
  cases hc : slabCells (extent f v L.ens) (extent f v L.y) (extent f v L.x) with
  | nil =>
    have : ((0, 0, 0) : Nat × Nat × Nat) ∈ slabCells (extent f v L.ens) (extent f v L.y) (extent f v L.x) := mem_slabCells.mpr ⟨hY, hX, hE⟩
    rw [hc] at this
    simp at this
  | cons p ps =>
    rw [foldM_cons, slabIndex_ok hL hn]
    rfl

/-- A file with dimensions time, x, level, y and ens, and a variable that has them in this order. -/
def exampleNc : NcFile ℚ :=
  ⟨[("time".toList, 2), ("x".toList, 2), ("level".toList, 2), ("y".toList, 1), ("ens".toList, 1)],
    [⟨"t".toList, [0, 1, 2, 3, 4], [.fin 1, .fin 2, .fin 3, .fin 4, .fin 5, .fin 6, .fin 7, .fin 8], some (.fin 7)⟩]⟩

/-- A variable meets the hypotheses. -/
example : ∀ v ∈ exampleNc.vars, FineVar exampleNc v ∧ v.dims.Nodup ∧ LevelFits exampleNc ⟨some 0, some 4, some 3, some 1⟩ v 1 ∧
    TimeFits exampleNc ⟨some 0, some 4, some 3, some 1⟩ v 1 ∧
    extent exampleNc v (some 3) = 1 ∧ extent exampleNc v (some 1) = 2 ∧ isValid (v.fill.getD (.fin (15 * 2 ^ 119))) = true ∧
    ncField exampleNc ⟨some 0, some 4, some 3, some 1⟩ 1 2 1 v (.fin 2) (.fin 100) 1 1 = ok ⟨[.fin 112, .fin 116], 1, 2, 1⟩ ∧
    ncField exampleNc ⟨some 0, some 4, some 3, some 1⟩ 1 2 1 v (.fin 2) (.fin 100) 0 1 = ok ⟨[.fin 110, .fin (-999)], 1, 2, 1⟩ := by
  unfold FineVar LevelFits TimeFits OtherDim
  decide +kernel

example : DifferentDims ⟨some 0, some 4, some 3, some 1⟩ := by
  unfold DifferentDims
  decide

/-- C149 is false of the code for variables whose value for missing is -999 itself, if they are packed: it is taken for a number. -/
theorem c149_fill_false : ∃ (f : NcFile ℚ) (v : NcVar ℚ), v.fill = some (.fin (-999)) ∧ v.values = [.fin (-999)] ∧
    ncField f ⟨none, none, none, none⟩ 1 1 1 v (.fin 2) (.fin 0) (-999) 0 = ok ⟨[.fin (-1998)], 1, 1, 1⟩ :=
  ⟨⟨[], [⟨"t".toList, [], [.fin (-999)], some (.fin (-999))⟩]⟩, ⟨"t".toList, [], [.fin (-999)], some (.fin (-999))⟩, rfl, rfl, by decide +kernel⟩

/-- C149 is false of the code for a variable without the dimension of the ensemble: only the first member has its values. -/
theorem c149_member_false : ∃ (f : NcFile ℚ) (v : NcVar ℚ), f.dims = [("ens".toList, 2)] ∧ v.dims = [] ∧ v.values = [.fin 5] ∧
    ncField f ⟨none, some 0, none, none⟩ 1 1 2 v (.fin 1) (.fin 0) (-999) 0 = ok ⟨[.fin 5, .fin (-999)], 1, 1, 2⟩ :=
  ⟨⟨[("ens".toList, 2)], [⟨"t".toList, [], [.fin 5], none⟩]⟩, ⟨"t".toList, [], [.fin 5], none⟩, rfl, rfl, rfl, by decide +kernel⟩

end Gridpp.Props
