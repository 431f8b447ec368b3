import Verif.Model.Client.FileNetcdf
import Verif.Spec.NetcdfField
import Verif.Lemmas.Client.ParameterNetcdf
import Verif.Lemmas.Client.Downscaler
import Verif.Lemmas.Grid

/-! # Lemmas for C149 and C150: parts of a NetCDF variable -/

set_option linter.unusedSectionVars false

namespace Gridpp.Client
open Fl hiding MV isValid
open Res Spec

variable {K : Type} [Field K] [LinearOrder K] [IsStrictOrderedRing K]

/-! ### All indices of a variable -/

theorem rowMajor_cons (p : Nat × Nat) (l : List (Nat × Nat)) : rowMajor (p :: l) = p.2 * (l.map Prod.fst).prod + rowMajor l := by
  induction l using List.reverseRecOn with
  | nil => simp [rowMajor]
  | append_singleton l q ih =>
    rw [← List.cons_append, rowMajor_append, rowMajor_append, ih, List.map_append, List.prod_append]
    simp only [List.map_cons, List.map_nil, List.prod_singleton]
    ring

theorem ncTuples_length (sizes : List Nat) : (ncTuples sizes).length = sizes.prod := by
  induction sizes with
  | nil => rfl
  | cons n ns ih =>
    simp only [ncTuples, List.length_flatMap, List.length_map, ih, List.map_const', List.length_range, List.sum_replicate, List.prod_cons, smul_eq_mul]

theorem ncTuples_get {l : List (Nat × Nat)} (h : ∀ p ∈ l, p.2 < p.1) : (ncTuples (l.map Prod.fst))[rowMajor l]? = some (l.map Prod.snd) := by
  induction l with
  | nil => rfl
  | cons p l ih =>
    have hl : ∀ q ∈ l, q.2 < q.1 := fun q hq => h q (by simp [hq])
    have hp := h p (by simp)
    have hlt := rowMajor_lt hl
    rw [rowMajor_cons, List.map_cons, List.map_cons]
    simp only [ncTuples, List.flatMap]
    have hr : Rect p.1 (l.map Prod.fst).prod ((List.range p.1).map fun i => (ncTuples (l.map Prod.fst)).map (i :: ·)) := by
      refine ⟨by simp, fun r hr => ?_⟩
      obtain ⟨i, _, rfl⟩ := List.mem_map.mp hr
      rw [List.length_map, ncTuples_length]
    rw [flatten_getElem? hr hlt]
    unfold cell?
    simp [List.getElem?_range hp, ih hl]

theorem ncTuples_mem {sizes c : List Nat} (h : c ∈ ncTuples sizes) : ∃ l : List (Nat × Nat), l.map Prod.fst = sizes ∧ l.map Prod.snd = c ∧ ∀ p ∈ l, p.2 < p.1 := by
  induction sizes generalizing c with
  | nil =>
    simp only [ncTuples, List.mem_singleton] at h
    exact ⟨[], rfl, h.symm, by simp⟩
  | cons n ns ih =>
    simp only [ncTuples, List.mem_flatMap, List.mem_range, List.mem_map] at h
    obtain ⟨i, hi, c', hc', rfl⟩ := h
    obtain ⟨l, rfl, rfl, h3⟩ := ih hc'
    refine ⟨(n, i) :: l, rfl, rfl, fun p hp => ?_⟩
    rcases List.mem_cons.mp hp with rfl | hp
    · exact hi
    · exact h3 p hp

theorem rowMajor_inj {l l' : List (Nat × Nat)} (hs : l.map Prod.fst = l'.map Prod.fst) (h : ∀ p ∈ l, p.2 < p.1) (h' : ∀ p ∈ l', p.2 < p.1)
    (he : rowMajor l = rowMajor l') : l.map Prod.snd = l'.map Prod.snd := by
  have h1 := ncTuples_get h
  have h2 := ncTuples_get h'
  rw [he, hs, h2] at h1
  exact (Option.some.inj h1).symm

/-- `ncNumber` for sizes and indices that belong to dimensions. -/
theorem ncNumber_map (dims : List Nat) (s i : Nat → Nat) : ncNumber (dims.map s) (dims.map i) = rowMajor (dims.map fun d => (s d, i d)) := by
  unfold ncNumber rowMajor
  rw [List.zip_map']

/-! ### Meaning of dimensions -/

/-- The dimension with the meaning. -/
def roleDim (L : NcLayout) : NcRole → Option Nat
  | .time => L.time
  | .ens => L.ens
  | .y => L.y
  | .x => L.x
  | .other => none

theorem role_eq_iff {L : NcLayout} (hL : DifferentDims L) {r : NcRole} (hr : r ≠ .other) (d : Nat) : L.role d = r ↔ some d = roleDim L r := by
  obtain ⟨a, b, c, e⟩ := L
  unfold DifferentDims at hL
  unfold NcLayout.role roleDim
  cases r
  · by_cases h : some d = a <;> simp [h]
    split_ifs <;> simp
  · by_cases h1 : some d = a
    · subst h1
      have : b ≠ some d := by
        rintro rfl
        simp at hL
      simp [Ne.symm this]
    · rw [if_neg h1]
      split_ifs <;> simp_all
  · by_cases h1 : some d = a
    · subst h1
      have : c ≠ some d := by
        rintro rfl
        cases b <;> simp at hL
      simp [Ne.symm this]
    · by_cases h2 : some d = b
      · subst h2
        have : c ≠ some d := by
          rintro rfl
          cases a <;> simp at hL
        simp [Ne.symm this, h1]
      · rw [if_neg h1, if_neg h2]
        split_ifs <;> simp_all
  · by_cases h1 : some d = a
    · subst h1
      have : e ≠ some d := by
        rintro rfl
        cases b <;> cases c <;> simp at hL
      simp [Ne.symm this]
    · by_cases h2 : some d = b
      · subst h2
        have : e ≠ some d := by
          rintro rfl
          cases a <;> cases c <;> simp at hL
        simp [Ne.symm this, h1]
      · by_cases h3 : some d = c
        · subst h3
          have : e ≠ some d := by
            rintro rfl
            cases a <;> cases b <;> simp at hL
          simp [Ne.symm this, h1, h2]
        · rw [if_neg h1, if_neg h2, if_neg h3]
          split_ifs <;> simp_all
  · exact absurd rfl hr

theorem role_other_iff (L : NcLayout) (d : Nat) : L.role d = .other ↔ OtherDim L d := by
  unfold NcLayout.role OtherDim
  split_ifs with h1 h2 h3 h4 <;> simp_all

theorem rolePos_none {L : NcLayout} {r : NcRole} {dims : List Nat} (h : ∀ d ∈ dims, L.role d ≠ r) (k : Nat) (s : Option Nat) :
    rolePos L r k dims s = s := by
  induction dims generalizing k with
  | nil => rfl
  | cons d ds ih => rw [rolePos, if_neg (h d (by simp)), ih fun d hd => h d (by simp [hd])]

theorem rolePos_some {L : NcLayout} {r : NcRole} (A : List Nat) {d : Nat} {B : List Nat} (hd : L.role d = r) (h : ∀ d ∈ B, L.role d ≠ r) (k : Nat)
    (s : Option Nat) : rolePos L r k (A ++ d :: B) s = some (k + A.length) := by
  induction A generalizing k s with
  | nil => rw [List.nil_append, rolePos, if_pos hd, rolePos_none h]; simp
  | cons a A ih =>
    rw [List.cons_append, rolePos, ih]
    simp; omega

/-- Either no dimension has the meaning, or one has. -/
theorem role_split {L : NcLayout} (hL : DifferentDims L) {r : NcRole} (hr : r ≠ .other) {dims : List Nat} (hn : dims.Nodup) :
    (∀ d ∈ dims, L.role d ≠ r) ∨ ∃ A d B, dims = A ++ d :: B ∧ L.role d = r ∧ (∀ d ∈ A, L.role d ≠ r) ∧ ∀ d ∈ B, L.role d ≠ r := by
  by_cases h : ∀ d ∈ dims, L.role d ≠ r
  · exact .inl h
  · push Not at h
    obtain ⟨d, hd, hr'⟩ := h
    obtain ⟨A, B, rfl⟩ := List.append_of_mem hd
    have hu : ∀ d', L.role d' = r → d' = d := fun d' h' => by
      have h1 := (role_eq_iff hL hr d').mp h'
      have h2 := (role_eq_iff hL hr d).mp hr'
      rw [← h2] at h1
      exact Option.some.inj h1
    rw [List.nodup_append] at hn
    refine .inr ⟨A, d, B, rfl, hr', fun d' h' he => ?_, fun d' h' he => ?_⟩
    · rw [hu d' he] at h'
      exact hn.2.2 d h' d (by simp) rfl
    · rw [hu d' he] at h'
      exact (List.nodup_cons.mp hn.2.1).1 h'

theorem setPos_map {L : NcLayout} (hL : DifferentDims L) {r : NcRole} (hr : r ≠ .other) {dims : List Nat} (hn : dims.Nodup) (g : Nat → Nat) (i : Nat) :
    setPos (dims.map g) (rolePos L r 0 dims none) i = dims.map fun d => if L.role d = r then i else g d := by
  rcases role_split hL hr hn with h | ⟨A, d, B, rfl, h1, h2, h3⟩
  · rw [rolePos_none h]
    exact List.map_congr_left fun d hd => by rw [if_neg (h d hd)]
  · rw [rolePos_some A h1 h3]
    simp only [setPos, Option.elim_some, Nat.zero_add, List.map_append, List.map_cons]
    rw [List.set_append_right _ _ (by simp), List.length_map, Nat.sub_self, List.set_cons_zero, if_pos h1]
    congr 1
    · exact List.map_congr_left fun d hd => by rw [if_neg (h2 d hd)]
    · congr 1
      exact List.map_congr_left fun d hd => by rw [if_neg (h3 d hd)]

/-- `count`, as a function of the dimension. -/
def countOf (f : NcFile K) (L : NcLayout) (d : Nat) : Nat :=
  match L.role d with
  | .time => 1
  | .other => 1
  | _ => dimLength f d

omit [LinearOrder K] [IsStrictOrderedRing K] [Field K] in
theorem extent_role {f : NcFile K} {L : NcLayout} (hL : DifferentDims L) {v : NcVar K} (hn : v.dims.Nodup) {r : NcRole} (hr : r ≠ .other) :
    (∀ d ∈ v.dims, L.role d ≠ r) ∧ extent f v (roleDim L r) = 1 ∨
      ∃ A d B, v.dims = A ++ d :: B ∧ L.role d = r ∧ (∀ d ∈ A, L.role d ≠ r) ∧ (∀ d ∈ B, L.role d ≠ r) ∧ extent f v (roleDim L r) = dimLength f d := by
  rcases role_split hL hr hn with h | ⟨A, d, B, h0, h1, h2, h3⟩
  · refine .inl ⟨h, ?_⟩
    cases ho : roleDim L r with
    | none => rfl
    | some d =>
      have : d ∉ v.dims := fun hd => h d hd ((role_eq_iff hL hr d).mpr ho.symm)
      simp [extent, this]
  · refine .inr ⟨A, d, B, h0, h1, h2, h3, ?_⟩
    rw [← (role_eq_iff hL hr d).mp h1]
    simp [extent, h0]

theorem posCount_eq {f : NcFile K} {L : NcLayout} (hL : DifferentDims L) {v : NcVar K} (hn : v.dims.Nodup) {r : NcRole} (hr : r ≠ .other) (hr' : r ≠ .time) :
    posCount (v.dims.map (countOf f L)) (rolePos L r 0 v.dims none) = extent f v (roleDim L r) := by
  rcases extent_role (f := f) hL hn hr with ⟨h, he⟩ | ⟨A, d, B, h0, h1, h2, h3, he⟩
  · rw [rolePos_none h, he]; rfl
  · rw [he, h0, rolePos_some A h1 h3]
    have hc : countOf f L d = dimLength f d := by
      unfold countOf
      rw [h1]
      cases r <;> simp_all
    simp [posCount, hc]

/-- The number of values in a part. -/
theorem count_prod {f : NcFile K} {L : NcLayout} (hL : DifferentDims L) {v : NcVar K} (hn : v.dims.Nodup) :
    (v.dims.map (countOf f L)).prod = extent f v L.ens * extent f v L.y * extent f v L.x := by
  have key : ∀ dims : List Nat, (dims.map (countOf f L)).prod = ((dims.filter fun d => L.role d = .ens).map (dimLength f)).prod *
      ((dims.filter fun d => L.role d = .y).map (dimLength f)).prod * ((dims.filter fun d => L.role d = .x).map (dimLength f)).prod := by
    intro dims
    induction dims with
    | nil => rfl
    | cons d ds ih =>
      rw [List.map_cons, List.prod_cons, ih]
      unfold countOf
      simp only [List.filter_cons]
      cases h : L.role d <;> simp <;> ring
  have one : ∀ r : NcRole, r ≠ .other → ((v.dims.filter fun d => L.role d = r).map (dimLength f)).prod = extent f v (roleDim L r) := by
    intro r hr
    rcases extent_role (f := f) hL hn hr with ⟨h, he⟩ | ⟨A, d, B, h0, h1, h2, h3, he⟩
    · rw [he, List.filter_eq_nil_iff.mpr (by simpa using h)]; rfl
    · rw [he, h0, List.filter_append, List.filter_cons, List.filter_eq_nil_iff.mpr (by simpa using h2), List.filter_eq_nil_iff.mpr (by simpa using h3)]
      simp [h1]
  rw [key, one _ (by decide), one _ (by decide), one _ (by decide)]
  rfl

theorem slabCount_ok {f : NcFile K} {L : NcLayout} {v : NcVar K} (hf : FineVar f v) : mapM (slabCount f L) v.dims = ok (v.dims.map (countOf f L)) := by
  apply mapM_ok
  intro d hd
  unfold slabCount countOf
  cases L.role d <;> simp [dimSize_ok (hf.1 d hd)]

theorem sizes_ok {f : NcFile K} {v : NcVar K} (hf : FineVar f v) : mapM f.dimSize v.dims = ok (v.dims.map (dimLength f)) :=
  mapM_ok fun d hd => dimSize_ok (hf.1 d hd)

/-- `indices`, as a function of the dimension. -/
theorem slabIndices_eq {L : NcLayout} (hL : DifferentDims L) {dims : List Nat} (hn : dims.Nodup) (y x e : Nat) :
    slabIndices L dims y x e = dims.map (fieldPos L (fun _ => 0) 0 y x e) := by
  unfold slabIndices
  rw [show List.replicate dims.length 0 = dims.map fun _ => 0 by simp, setPos_map hL (by decide) hn, setPos_map hL (by decide) hn,
    setPos_map hL (by decide) hn]
  apply List.map_congr_left
  intro d _
  unfold NcLayout.role fieldPos
  split_ifs <;> simp_all

/-- The indices are within the part. -/
theorem fieldPos_lt {f : NcFile K} {L : NcLayout} (hL : DifferentDims L) {v : NcVar K} {y x e : Nat} (hy : y < extent f v L.y)
    (hx : x < extent f v L.x) (he : e < extent f v L.ens) {d : Nat} (hd : d ∈ v.dims) : fieldPos L (fun _ => 0) 0 y x e d < countOf f L d := by
  have key : ∀ r : NcRole, r ≠ .other → L.role d = r → extent f v (roleDim L r) = dimLength f d := by
    intro r hr h
    rw [← (role_eq_iff hL hr d).mp h]
    simp [extent, hd]
  have k1 := key .ens (by decide)
  have k2 := key .y (by decide)
  have k3 := key .x (by decide)
  simp only [roleDim] at k1 k2 k3
  have hp : fieldPos L (fun _ => 0) 0 y x e d = match L.role d with
    | .time => 0
    | .ens => e
    | .y => y
    | .x => x
    | .other => 0 := by
    unfold fieldPos NcLayout.role
    split_ifs <;> rfl
  unfold countOf
  rw [hp]
  cases h : L.role d with
  | time => simp
  | other => simp
  | ens => simp only; rw [← k1 h]; exact he
  | y => simp only; rw [← k2 h]; exact hy
  | x => simp only; rw [← k3 h]; exact hx

theorem mem_slabCells {nE nY nX : Nat} {p : Nat × Nat × Nat} : p ∈ slabCells nE nY nX ↔ p.1 < nY ∧ p.2.1 < nX ∧ p.2.2 < nE := by
  unfold slabCells
  simp only [List.mem_flatMap, List.mem_range, List.mem_map]
  constructor
  · rintro ⟨e, he, y, hy, x, hx, rfl⟩
    exact ⟨hy, hx, he⟩
  · rintro ⟨hy, hx, he⟩
    exact ⟨p.2.2, he, p.1, hy, p.2.1, hx, rfl⟩

theorem slabCells_nodup (nE nY nX : Nat) : (slabCells nE nY nX).Nodup := by
  unfold slabCells
  rw [List.nodup_flatMap]
  refine ⟨fun e _ => ?_, ?_⟩
  · rw [List.nodup_flatMap]
    refine ⟨fun y _ => ?_, ?_⟩
    · exact List.nodup_range.map fun a b h => by simpa using h
    · refine List.nodup_range.imp fun {a b} hab => ?_
      intro p h1 h2
      simp only [List.mem_map] at h1 h2
      obtain ⟨_, _, rfl⟩ := h1
      obtain ⟨_, _, h⟩ := h2
      simp at h
      exact hab h.1.symm
  · refine List.nodup_range.imp fun {a b} hab => ?_
    intro p h1 h2
    simp only [List.mem_map, List.mem_flatMap] at h1 h2
    obtain ⟨_, _, _, _, rfl⟩ := h1
    obtain ⟨_, _, _, _, h⟩ := h2
    simp at h
    exact hab h.2.2.symm

/-! ### Reading a part -/

theorem slabStart_ok {f : NcFile K} {L : NcLayout} {v : NcVar K} (hf : FineVar f v) {level : Int} (hl : LevelFits f L v level) (t : Nat) :
    mapM (slabStart f L t level) v.dims = ok (v.dims.map fun d => ((fieldPos L (levelIndex f level) t 0 0 0 d : Nat) : Int)) := by
  apply mapM_ok
  intro d hd
  unfold slabStart
  cases h : L.role d with
  | other =>
    have ho := (role_other_iff L d).mp h
    obtain ⟨h0, h1⟩ := hl d hd ho
    have hp : fieldPos L (levelIndex f level) t 0 0 0 d = levelIndex f level d := by
      unfold OtherDim at ho
      simp only [List.mem_cons, List.not_mem_nil, or_false, not_or] at ho
      unfold fieldPos
      rw [if_neg ho.1, if_neg ho.2.1, if_neg ho.2.2.1, if_neg ho.2.2.2]
    simp only [dimSize_ok (hf.1 d hd), ok_bind, levelStart, levelIndex, hp]
    rcases h1 with rfl | h1 | ⟨h1, h2⟩
    · rfl
    · rw [h1]
      simp
    · rw [if_neg (not_le.mpr h2)]
      split_ifs <;> first | rfl | omega | (congr 1; omega)
  | time =>
    unfold fieldPos
    rw [if_pos (by unfold NcLayout.role at h; split_ifs at h with h1; exact h1)]
  | ens =>
    unfold NcLayout.role at h
    unfold fieldPos
    split_ifs at h ⊢
    rfl
  | y =>
    unfold NcLayout.role at h
    unfold fieldPos
    split_ifs at h ⊢
    rfl
  | x =>
    unfold NcLayout.role at h
    unfold fieldPos
    split_ifs at h ⊢
    rfl

theorem levelIndex_lt {f : NcFile K} {L : NcLayout} {v : NcVar K} {level : Int} (hl : LevelFits f L v level) {d : Nat} (hd : d ∈ v.dims) (ho : OtherDim L d) :
    levelIndex f level d < dimLength f d := by
  obtain ⟨h0, h1⟩ := hl d hd ho
  unfold levelIndex
  rcases h1 with rfl | h1 | ⟨h1, h2⟩
  · simpa using h0
  · rw [h1]; simp
  · split_ifs
    · exact h0
    · exact h0
    · omega

theorem fieldPos_role (L : NcLayout) (other : Nat → Nat) (t y x e d : Nat) : fieldPos L other t y x e d = match L.role d with
    | .time => t
    | .ens => e
    | .y => y
    | .x => x
    | .other => other d := by
  unfold fieldPos NcLayout.role
  split_ifs <;> rfl

theorem role_time_iff (L : NcLayout) (d : Nat) : L.role d = .time ↔ some d = L.time := by
  unfold NcLayout.role
  split_ifs with h1 h2 h3 h4 <;> simp_all

/-- The position of the value in the whole variable. -/
theorem fieldPos_inRange {f : NcFile K} {L : NcLayout} (hL : DifferentDims L) {v : NcVar K} {level : Int} (hl : LevelFits f L v level) {t : Nat}
    (ht : TimeFits f L v t) {y x e : Nat} (hy : y < extent f v L.y) (hx : x < extent f v L.x) (he : e < extent f v L.ens) :
    IndexInRange f v (fieldPos L (levelIndex f level) t y x e) := by
  intro d hd
  have h := fieldPos_lt hL hy hx he hd
  rw [fieldPos_role] at h ⊢
  unfold countOf at h
  cases hr : L.role d with
  | time => exact ht d hd ((role_time_iff L d).mp hr)
  | other => exact levelIndex_lt hl hd ((role_other_iff L d).mp hr)
  | ens => rw [hr] at h; exact h
  | y => rw [hr] at h; exact h
  | x => rw [hr] at h; exact h

theorem inRange_value {f : NcFile K} {v : NcVar K} (hf : FineVar f v) {pos : Nat → Nat} (h : IndexInRange f v pos) : ∃ x, ValueAt f v pos x := by
  have h1 := rowMajor_lt (l := v.dims.map fun d => (dimLength f d, pos d)) (by
    intro p hp
    obtain ⟨d, hd, rfl⟩ := List.mem_map.mp hp
    exact h d hd)
  rw [List.map_map] at h1
  have h2 : rowMajor (v.dims.map fun d => (dimLength f d, pos d)) < v.values.length := by
    rw [hf.2]
    exact h1
  exact ⟨v.values[rowMajor (v.dims.map fun d => (dimLength f d, pos d))], List.getElem?_eq_getElem h2⟩

theorem ncFits_iff (dims : List Nat) (size : Nat → Nat) (start : Nat → Int) (count : Nat → Nat) :
    ncFits (dims.map size) (dims.map start) (dims.map count) = true ↔ ∀ d ∈ dims, 0 ≤ start d ∧ start d + count d ≤ size d := by
  unfold ncFits
  rw [decide_eq_true_iff, List.zip_map', List.zip_map']
  constructor
  · intro h d hd
    exact h (size d, start d, count d) (List.mem_map.mpr ⟨d, hd, rfl⟩)
  · intro h p hp
    obtain ⟨d, hd, rfl⟩ := List.mem_map.mp hp
    exact h d hd

theorem zipWith_maps {α β γ : Type} (g : α → β → γ) (a : Nat → α) (b : Nat → β) (dims : List Nat) :
    List.zipWith g (dims.map a) (dims.map b) = dims.map fun d => g (a d) (b d) := by
  rw [List.zipWith_map, List.zipWith_self]

/-- What the library gives. -/
theorem ncGetVara_ok {f : NcFile K} {L : NcLayout} (hL : DifferentDims L) {v : NcVar K} {level : Int} (hl : LevelFits f L v level)
    {t : Nat} (ht : TimeFits f L v t) :
    ∃ l, ncGetVara (v.dims.map (dimLength f)) (v.dims.map fun d => ((fieldPos L (levelIndex f level) t 0 0 0 d : Nat) : Int)) (v.dims.map (countOf f L))
        v.values = some l ∧
      ∀ y < extent f v L.y, ∀ x < extent f v L.x, ∀ e < extent f v L.ens, ∀ raw, ValueAt f v (fieldPos L (levelIndex f level) t y x e) raw →
        vget l (rowMajor (v.dims.map fun d => (countOf f L d, fieldPos L (fun _ => 0) 0 y x e d)) : Nat) = ok raw := by
  unfold ncGetVara
  rw [if_pos]
  · refine ⟨_, rfl, fun y hy x hx e he raw hraw => ?_⟩
    have h1 := ncTuples_get (l := v.dims.map fun d => (countOf f L d, fieldPos L (fun _ => 0) 0 y x e d)) (by
      intro p hp
      obtain ⟨d, hd, rfl⟩ := List.mem_map.mp hp
      exact fieldPos_lt hL hy hx he hd)
    rw [List.map_map, List.map_map] at h1
    rw [vget_nat, List.getElem?_map]
    have h2 : (ncTuples (v.dims.map (countOf f L)))[rowMajor (v.dims.map fun d => (countOf f L d, fieldPos L (fun _ => 0) 0 y x e d))]? =
      some (v.dims.map (fieldPos L (fun _ => 0) 0 y x e)) := h1
    rw [h2]
    simp only [Option.map_some]
    rw [zipWith_maps, ncNumber_map]
    have h3 : (v.dims.map fun d => (dimLength f d, ((fieldPos L (levelIndex f level) t 0 0 0 d : Nat) : Int).toNat + fieldPos L (fun _ => 0) 0 y x e d)) =
        v.dims.map fun d => (dimLength f d, fieldPos L (levelIndex f level) t y x e d) := by
      apply List.map_congr_left
      intro d _
      rw [Int.toNat_natCast]
      simp only [fieldPos_role]
      cases L.role d <;> simp
    rw [h3, List.getD_eq_getElem?_getD]
    unfold ValueAt at hraw
    rw [hraw]
    rfl
  · rw [ncFits_iff]
    intro d hd
    refine ⟨by omega, ?_⟩
    rw [fieldPos_role]
    unfold countOf
    cases hr : L.role d with
    | time =>
      have := ht d hd ((role_time_iff L d).mp hr)
      simp only
      omega
    | other =>
      have := levelIndex_lt hl hd ((role_other_iff L d).mp hr)
      simp only
      omega
    | ens => simp
    | y => simp
    | x => simp

theorem slabIndex_ok {f : NcFile K} {L : NcLayout} (hL : DifferentDims L) {v : NcVar K} (hn : v.dims.Nodup) (y x e : Nat) :
    ncIndex (slabIndices L v.dims y x e) (v.dims.map (countOf f L)) =
      ok (rowMajor (v.dims.map fun d => (countOf f L d, fieldPos L (fun _ => 0) 0 y x e d))) := by
  rw [slabIndices_eq hL hn, ncIndex_eq _ _ (by simp), List.zip_map']

/-! ### Writing a part -/

theorem slabIndex_lt {f : NcFile K} {L : NcLayout} (hL : DifferentDims L) {v : NcVar K} (hn : v.dims.Nodup) {y x e : Nat} (hy : y < extent f v L.y)
    (hx : x < extent f v L.x) (he : e < extent f v L.ens) :
    rowMajor (v.dims.map fun d => (countOf f L d, fieldPos L (fun _ => 0) 0 y x e d)) < extent f v L.ens * extent f v L.y * extent f v L.x := by
  have h1 := rowMajor_lt (l := v.dims.map fun d => (countOf f L d, fieldPos L (fun _ => 0) 0 y x e d)) (by
    intro p hp
    obtain ⟨d, hd, rfl⟩ := List.mem_map.mp hp
    exact fieldPos_lt hL hy hx he hd)
  rw [List.map_map] at h1
  rw [← count_prod (f := f) hL hn]
  exact h1

theorem extent_zero {f : NcFile K} {v : NcVar K} {o : Option Nat} {i : Nat} (hi : i < extent f v o) (h : ∀ d ∈ v.dims, some d ≠ o) : i = 0 := by
  cases o with
  | none => simp [extent] at hi; exact hi
  | some d =>
    have : d ∉ v.dims := fun hd => h d hd rfl
    simp [extent, this] at hi
    exact hi

theorem slabIndex_inj {f : NcFile K} {L : NcLayout} (hL : DifferentDims L) {v : NcVar K} {y x e y' x' e' : Nat}
    (hy : y < extent f v L.y) (hx : x < extent f v L.x) (he : e < extent f v L.ens) (hy' : y' < extent f v L.y) (hx' : x' < extent f v L.x)
    (he' : e' < extent f v L.ens)
    (h : rowMajor (v.dims.map fun d => (countOf f L d, fieldPos L (fun _ => 0) 0 y x e d)) =
      rowMajor (v.dims.map fun d => (countOf f L d, fieldPos L (fun _ => 0) 0 y' x' e' d))) : y = y' ∧ x = x' ∧ e = e' := by
  have h1 := rowMajor_inj (by simp [List.map_map, Function.comp_def]) (by
    intro p hp
    obtain ⟨d, hd, rfl⟩ := List.mem_map.mp hp
    exact fieldPos_lt hL hy hx he hd) (by
    intro p hp
    obtain ⟨d, hd, rfl⟩ := List.mem_map.mp hp
    exact fieldPos_lt hL hy' hx' he' hd) h
  simp only [List.map_map, List.map_inj_left, Function.comp_apply] at h1
  have key : ∀ r : NcRole, r ≠ .other → ∀ i i' : Nat, i < extent f v (roleDim L r) → i' < extent f v (roleDim L r) → (∀ d ∈ v.dims, L.role d = r → i = i') → i = i' := by
    intro r hr i i' hi hi' hd
    by_cases hm : ∃ d ∈ v.dims, some d = roleDim L r
    · obtain ⟨d, h2, h3⟩ := hm
      exact hd d h2 ((role_eq_iff hL hr d).mpr h3)
    · push Not at hm
      rw [extent_zero hi hm, extent_zero hi' hm]
  refine ⟨key .y (by decide) _ _ hy hy' ?_, key .x (by decide) _ _ hx hx' ?_, key .ens (by decide) _ _ he he' ?_⟩ <;>
  · intro d hd hr
    have := h1 d hd
    rw [fieldPos_role, fieldPos_role, hr] at this
    exact this

/-- The array that is given to the library. -/
theorem slabData_ok {f : NcFile K} {L : NcLayout} (hL : DifferentDims L) {v : NcVar K} (hn : v.dims.Nodup) {nY nX nE : Nat} (hY : extent f v L.y ≤ nY)
    (hX : extent f v L.x ≤ nX) (hE : extent f v L.ens ≤ nE) {field : FieldC K} (hs : Sized nY nX nE field) (pack : Fl K → Fl K) :
    ∃ data, foldM (fun (data : List (Option (Fl K))) (p : Nat × Nat × Nat) => do
        let i ← ncIndex (slabIndices L v.dims p.1 p.2.1 p.2.2) (v.dims.map (countOf f L))
        let value ← field.get p.1 p.2.1 p.2.2
        vset data i (some (pack value))) (List.replicate (nE * nY * nX) none) (slabCells (extent f v L.ens) (extent f v L.y) (extent f v L.x)) = ok data ∧
      ∀ y < extent f v L.y, ∀ x < extent f v L.x, ∀ e < extent f v L.ens, ∃ value, field.get y x e = ok value ∧
        data[rowMajor (v.dims.map fun d => (countOf f L d, fieldPos L (fun _ => 0) 0 y x e d))]? = some (some (pack value)) := by
  have hle : extent f v L.ens * extent f v L.y * extent f v L.x ≤ nE * nY * nX := Nat.mul_le_mul (Nat.mul_le_mul hE hY) hX
  obtain ⟨data, g1, g2, g3, g4⟩ := foldM_cells (fun s : List (Option (Fl K)) => s.length = nE * nY * nX)
    (fun s (p : Nat × Nat × Nat) => if p.1 < extent f v L.y ∧ p.2.1 < extent f v L.x ∧ p.2.2 < extent f v L.ens then
      s[rowMajor (v.dims.map fun d => (countOf f L d, fieldPos L (fun _ => 0) 0 p.1 p.2.1 p.2.2 d))]? else none)
    (fun (data : List (Option (Fl K))) (p : Nat × Nat × Nat) => do
        let i ← ncIndex (slabIndices L v.dims p.1 p.2.1 p.2.2) (v.dims.map (countOf f L))
        let value ← field.get p.1 p.2.1 p.2.2
        vset data i (some (pack value)))
    (fun p _ w => ∃ value, field.get p.1 p.2.1 p.2.2 = ok value ∧ w = some (some (pack value)))
    (slabCells (extent f v L.ens) (extent f v L.y) (extent f v L.x)) (slabCells_nodup _ _ _) (by
      intro s hlen p hp
      obtain ⟨hy, hx, he⟩ := mem_slabCells.mp hp
      have hlt : rowMajor (v.dims.map fun d => (countOf f L d, fieldPos L (fun _ => 0) 0 p.1 p.2.1 p.2.2 d)) < s.length := by
        rw [hlen]
        exact lt_of_lt_of_le (slabIndex_lt hL hn hy hx he) hle
      obtain ⟨value, hv⟩ := hs.exists_get (lt_of_lt_of_le hy hY) (lt_of_lt_of_le hx hX) (lt_of_lt_of_le he hE)
      refine ⟨s.set _ (some (pack value)), by rw [slabIndex_ok hL hn, ok_bind, hv, ok_bind, vset_nat _ hlt], by simp [hlen], ⟨value, hv, ?_⟩, ?_⟩
      · rw [if_pos ⟨hy, hx, he⟩, List.getElem?_set_self hlt]
      · intro q hq
        split_ifs with hin
        · rw [List.getElem?_set_ne]
          intro hc
          have := slabIndex_inj hL hy hx he hin.1 hin.2.1 hin.2.2 hc
          exact hq (Prod.ext this.1.symm (Prod.ext this.2.1.symm this.2.2.symm))
        · rfl) _ List.length_replicate
  refine ⟨data, g1, fun y hy x hx e he => ?_⟩
  have := g3 (y, x, e) (mem_slabCells.mpr ⟨hy, hx, he⟩)
  simp only [hy, hx, he, and_self, if_true] at this
  exact this

theorem tuple_pos {f : NcFile K} {v : NcVar K} (hn : v.dims.Nodup) {c : List Nat} (h : c ∈ ncTuples (v.dims.map (dimLength f))) :
    ∃ pos : Nat → Nat, c = v.dims.map pos ∧ IndexInRange f v pos := by
  obtain ⟨l, h1, rfl, h3⟩ := ncTuples_mem h
  have hlen : l.length = v.dims.length := by
    have := congrArg List.length h1
    simpa using this
  refine ⟨fun d => (l.map Prod.snd).getD (v.dims.idxOf d) 0, ?_, fun d hd => ?_⟩
  · apply List.ext_getElem (by simp [hlen])
    intro i h4 h5
    have hi : i < v.dims.length := by simpa using h5
    simp only [List.getElem_map]
    rw [hn.idxOf_getElem i hi, List.getD_eq_getElem?_getD, List.getElem?_eq_getElem h4]
    simp
  · have hi : v.dims.idxOf d < v.dims.length := List.idxOf_lt_length_iff.mpr hd
    have hil : v.dims.idxOf d < l.length := by omega
    have h4 := h3 _ (List.getElem_mem hil)
    have h5 : l[v.dims.idxOf d].1 = dimLength f d := by
      have : (l.map Prod.fst)[v.dims.idxOf d]? = (v.dims.map (dimLength f))[v.dims.idxOf d]? := by rw [h1]
      rw [List.getElem?_map, List.getElem?_map, List.getElem?_eq_getElem hil, List.getElem?_eq_getElem hi] at this
      simpa using this
    simp only [List.getD_eq_getElem?_getD, List.getElem?_map, List.getElem?_eq_getElem hil, Option.map_some, Option.getD_some]
    rw [← h5]
    exact h4

/-- Indices are either outside of the part, or those of a point and a member. -/
theorem pos_cases {f : NcFile K} {L : NcLayout} (hL : DifferentDims L) {v : NcVar K} {pos : Nat → Nat} (h : IndexInRange f v pos) (t : Nat) :
    (∃ d ∈ v.dims, some d = L.time ∧ pos d ≠ t ∨ OtherDim L d ∧ pos d ≠ 0) ∨
      ∃ y < extent f v L.y, ∃ x < extent f v L.x, ∃ e < extent f v L.ens, ∀ d ∈ v.dims, pos d = fieldPos L (fun _ => 0) t y x e d := by
  by_cases hb : ∃ d ∈ v.dims, some d = L.time ∧ pos d ≠ t ∨ OtherDim L d ∧ pos d ≠ 0
  · exact .inl hb
  · push Not at hb
    right
    have key : ∀ r : NcRole, r ≠ .other → ∃ i < extent f v (roleDim L r), ∀ d ∈ v.dims, L.role d = r → pos d = i := by
      intro r hr
      by_cases hm : ∃ d ∈ v.dims, some d = roleDim L r
      · obtain ⟨d, h2, h3⟩ := hm
        refine ⟨pos d, by rw [← h3]; simp only [extent, h2, if_true]; exact h d h2, fun d' h4 h5 => ?_⟩
        have := (role_eq_iff hL hr d').mp h5
        rw [← h3] at this
        rw [Option.some.inj this]
      · push Not at hm
        refine ⟨0, ?_, fun d h2 h3 => absurd ((role_eq_iff hL hr d).mp h3) (hm d h2)⟩
        cases ho : roleDim L r with
        | none => simp [extent]
        | some d =>
          have : d ∉ v.dims := fun hd => hm d hd ho.symm
          simp [extent, this]
    obtain ⟨y, hy, hy'⟩ := key .y (by decide)
    obtain ⟨x, hx, hx'⟩ := key .x (by decide)
    obtain ⟨e, he, he'⟩ := key .ens (by decide)
    refine ⟨y, hy, x, hx, e, he, fun d hd => ?_⟩
    rw [fieldPos_role]
    cases hr : L.role d with
    | time => exact (hb d hd).1 ((role_time_iff L d).mp hr)
    | other => exact (hb d hd).2 ((role_other_iff L d).mp hr)
    | ens => exact he' d hd hr
    | y => exact hy' d hd hr
    | x => exact hx' d hd hr

theorem mapM_get {α β : Type} [Nonempty β] {g : α → Res β} {l : List α} (h : ∀ a ∈ l, ∃ b, g a = ok b) :
    ∃ bs, mapM g l = ok bs ∧ bs.length = l.length ∧ ∀ (i : Nat) a b, l[i]? = some a → g a = ok b → bs[i]? = some b := by
  choose! g' hg using h
  refine ⟨_, mapM_ok hg, by simp, fun i a b ha hb => ?_⟩
  have hm := List.mem_of_getElem? ha
  rw [hg a hm] at hb
  rw [List.getElem?_map, ha, Option.map_some, Res.ok.inj hb]

theorem putEntry_in {f : NcFile K} {L : NcLayout} (hL : DifferentDims L) {v : NcVar K} {t : Nat} {data : List (Option (Fl K))} {value : Nat → Nat → Nat → Fl K}
    (hd : ∀ y < extent f v L.y, ∀ x < extent f v L.x, ∀ e < extent f v L.ens,
      data[rowMajor (v.dims.map fun d => (countOf f L d, fieldPos L (fun _ => 0) 0 y x e d))]? = some (some (value y x e)))
    {y x e : Nat} (hy : y < extent f v L.y) (hx : x < extent f v L.x) (he : e < extent f v L.ens) :
    ncPutEntry (v.dims.map (dimLength f)) (v.dims.map (fieldPos L (fun _ => 0) t 0 0 0)) (v.dims.map (countOf f L)) data v.values
      (v.dims.map (fieldPos L (fun _ => 0) t y x e)) = ok (value y x e) := by
  unfold ncPutEntry
  rw [if_pos]
  · have h1 : (List.zipWith (fun i s : Nat => i - s) (v.dims.map (fieldPos L (fun _ => 0) t y x e)) (v.dims.map (fieldPos L (fun _ => 0) t 0 0 0))) =
        v.dims.map (fieldPos L (fun _ => 0) 0 y x e) := by
      rw [zipWith_maps]
      apply List.map_congr_left
      intro d _
      simp only [fieldPos_role]
      cases L.role d <;> simp
    rw [h1, ncNumber_map, hd y hy x hx e he]
  · rw [List.zip_map', List.zip_map']
    intro p hp
    obtain ⟨d, hdd, rfl⟩ := List.mem_map.mp hp
    have := fieldPos_lt hL hy hx he hdd
    simp only [fieldPos_role, countOf] at this ⊢
    cases hr : L.role d <;> rw [hr] at this <;> simp only at this ⊢ <;> omega

theorem putEntry_out {f : NcFile K} {L : NcLayout} {v : NcVar K} (hf : FineVar f v) {t : Nat} (data : List (Option (Fl K))) {pos : Nat → Nat}
    (h : IndexInRange f v pos) (hb : ∃ d ∈ v.dims, some d = L.time ∧ pos d ≠ t ∨ OtherDim L d ∧ pos d ≠ 0) :
    ∃ raw, ncPutEntry (v.dims.map (dimLength f)) (v.dims.map (fieldPos L (fun _ => 0) t 0 0 0)) (v.dims.map (countOf f L)) data v.values
      (v.dims.map pos) = ok raw ∧ v.values[rowMajor (v.dims.map fun d => (dimLength f d, pos d))]? = some raw := by
  obtain ⟨raw, hraw⟩ := inRange_value hf h
  refine ⟨raw, ?_, hraw⟩
  unfold ncPutEntry
  rw [if_neg]
  · rw [ncNumber_map, vget_nat]
    unfold ValueAt at hraw
    rw [hraw]
  · intro hc
    rw [List.zip_map', List.zip_map'] at hc
    obtain ⟨d, hdd, hne⟩ := hb
    have := hc _ (List.mem_map.mpr ⟨d, hdd, rfl⟩)
    simp only [fieldPos_role, countOf] at this
    rcases hne with ⟨h1, h2⟩ | ⟨h1, h2⟩
    · rw [(role_time_iff L d).mpr h1] at this
      simp only at this
      omega
    · rw [(role_other_iff L d).mpr h1] at this
      simp only at this
      omega

/-- What the library makes of it. -/
theorem ncPutVara_ok {f : NcFile K} {L : NcLayout} (hL : DifferentDims L) {v : NcVar K} (hf : FineVar f v) (hn : v.dims.Nodup)
    (hl : ∀ d ∈ v.dims, OtherDim L d → 0 < dimLength f d) {t : Nat} (ht : TimeFits f L v t) {data : List (Option (Fl K))} {value : Nat → Nat → Nat → Fl K}
    (hd : ∀ y < extent f v L.y, ∀ x < extent f v L.x, ∀ e < extent f v L.ens,
      data[rowMajor (v.dims.map fun d => (countOf f L d, fieldPos L (fun _ => 0) 0 y x e d))]? = some (some (value y x e))) :
    ∃ values, ncPutVara (v.dims.map (dimLength f)) (v.dims.map (fieldPos L (fun _ => 0) t 0 0 0)) (v.dims.map (countOf f L)) data v.values = ok values ∧
      values.length = v.values.length ∧
      (∀ y < extent f v L.y, ∀ x < extent f v L.x, ∀ e < extent f v L.ens,
        values[rowMajor (v.dims.map fun d => (dimLength f d, fieldPos L (fun _ => 0) t y x e d))]? = some (value y x e)) ∧
      ∀ pos, IndexInRange f v pos → (∃ d ∈ v.dims, some d = L.time ∧ pos d ≠ t ∨ OtherDim L d ∧ pos d ≠ 0) →
        values[rowMajor (v.dims.map fun d => (dimLength f d, pos d))]? = v.values[rowMajor (v.dims.map fun d => (dimLength f d, pos d))]? := by
  have hfits : ncFits (v.dims.map (dimLength f)) ((v.dims.map (fieldPos L (fun _ => 0) t 0 0 0)).map fun n : Nat => (n : Int)) (v.dims.map (countOf f L)) = true := by
    rw [List.map_map, ncFits_iff]
    intro d hdd
    refine ⟨by simp, ?_⟩
    simp only [Function.comp_apply]
    rw [fieldPos_role]
    unfold countOf
    cases hr : L.role d with
    | time =>
      have := ht d hdd ((role_time_iff L d).mp hr)
      simp only
      omega
    | other =>
      have := hl d hdd ((role_other_iff L d).mp hr)
      simp only
      omega
    | ens => simp
    | y => simp
    | x => simp
  have hok : ∀ c ∈ ncTuples (v.dims.map (dimLength f)), ∃ b, ncPutEntry (v.dims.map (dimLength f)) (v.dims.map (fieldPos L (fun _ => 0) t 0 0 0))
      (v.dims.map (countOf f L)) data v.values c = ok b := by
    intro c hc
    obtain ⟨pos, rfl, hp⟩ := tuple_pos hn hc
    rcases pos_cases hL hp t with hb | ⟨y, hy, x, hx, e, he, heq⟩
    · obtain ⟨raw, h1, _⟩ := putEntry_out hf data hp hb
      exact ⟨raw, h1⟩
    · rw [List.map_congr_left heq]
      exact ⟨_, putEntry_in hL hd hy hx he⟩
  have hget : ∀ pos, IndexInRange f v pos →
      (ncTuples (v.dims.map (dimLength f)))[rowMajor (v.dims.map fun d => (dimLength f d, pos d))]? = some (v.dims.map pos) := by
    intro pos hp
    have := ncTuples_get (l := v.dims.map fun d => (dimLength f d, pos d)) (by
      intro p hpp
      obtain ⟨d, hdd, rfl⟩ := List.mem_map.mp hpp
      exact hp d hdd)
    rw [List.map_map, List.map_map] at this
    exact this
  have : Nonempty (Fl K) := ⟨.nan⟩
  obtain ⟨values, h1, h2, h3⟩ := mapM_get hok
  refine ⟨values, by unfold ncPutVara; rw [if_pos hfits, h1], by rw [h2, ncTuples_length, hf.2], fun y hy x hx e he => ?_, fun pos hp hb => ?_⟩
  · refine h3 _ _ _ (hget _ ?_) (putEntry_in hL hd hy hx he)
    have hl' : LevelFits f L v (-999) := fun d hdd ho => ⟨hl d hdd ho, .inl rfl⟩
    have := fieldPos_inRange hL hl' ht hy hx he
    intro d hdd
    have := this d hdd
    rw [fieldPos_role] at this ⊢
    cases hr : L.role d <;> rw [hr] at this <;> simp only [levelIndex, if_true] at this ⊢ <;> exact this
  · obtain ⟨raw, g1, g2⟩ := putEntry_out hf data hp hb
    rw [h3 _ _ _ (hget pos hp) g1, g2]

end Gridpp.Client
