import Verif.Lemmas.Client.FieldStore
import Mathlib.Data.Rat.Floor
import Verif.Base.Inst

/-! # C120: the fields of a file behave like an array -/

set_option linter.unusedSectionVars false

namespace Gridpp.Props
open Fl hiding MV isValid
open Res Client

variable {K : Type} [Field K] [LinearOrder K] [IsStrictOrderedRing K]

/-- The specification: the contents of a file are an array of fields; reading does not change it, `init` neither, and `clear` brings back
what is on disk. -/
def arrayStep (initial : String → Nat → FieldC K) (a : String → Nat → FieldC K) : FileOp K → (String → Nat → FieldC K) × Option (FieldC K)
  | .read v t => (a, some (a v t))
  | .modify v t g => (fun w u => if w = v ∧ u = t then g else a w u, none)
  | .replace v t g => (fun w u => if w = v ∧ u = t then g else a w u, none)
  | .init _ => (a, none)
  | .clear => (initial, none)

/-- The fields that are read in a sequence of operations. -/
def arrayReads (initial : String → Nat → FieldC K) (a : String → Nat → FieldC K) : List (FileOp K) → List (FieldC K)
  | [] => []
  | op :: ops => (arrayStep initial a op).2.toList ++ arrayReads initial (arrayStep initial a op).1 ops

/-- What a file has to begin with: the fields on disk, for other variables a field of missing values. -/
def OnDisk (d : FileData K) (initial : String → Nat → FieldC K) : Prop :=
  ∀ v t, match d.core v with
    | some disk => initial v t = disk t
    | none => FieldC.new d.nY d.nX d.nE (fin (-999)) = ok (initial v t)

/-- The times are in the file. -/
def TimesIn (d : FileData K) : FileOp K → Prop
  | .read _ t | .modify _ t _ | .replace _ t _ => t < d.nT
  | _ => True

/-- The operation does not replace a field of a variable that is not in the file and has not been used before (`used`). -/
def WholeOp (d : FileData K) (used : List String) : FileOp K → Prop
  | .replace v _ _ => (d.core v).isSome = true ∨ v ∈ used
  | _ => True

/-- The variables that have been used since the last `clear`. -/
def usedAfter (used : List String) : FileOp K → List String
  | .read v _ | .modify v _ _ | .replace v _ _ | .init v => v :: used
  | .clear => []

/-- No operation replaces a field of a variable that is not in the file and has not been used before. -/
def NoPartial (d : FileData K) : List String → List (FileOp K) → Prop
  | _, [] => True
  | used, op :: ops => WholeOp d used op ∧ NoPartial d (usedAfter used op) ops

theorem onDisk_initial {d : FileData K} {initial : String → Nat → FieldC K} (h : OnDisk d initial) : initial = d.initial := by
  funext v t
  have := h v t
  unfold FileData.initial
  cases hc : d.core v with
  | some disk => rw [hc] at this; exact this
  | none =>
    rw [hc] at this
    have h2 := d.missing_eq
    have h3 : FieldC.new d.nY d.nX d.nE (fin (-999)) = ok (initial v t) := this
    rw [show (Client.MV : Fl K) = fin (-999) from rfl, h3, Res.ok.injEq] at h2
    exact h2

theorem storeStart_inv (d : FileData K) (vars : List String) : StoreInv d (FileState.start vars) := by
  have hp : ∀ w u, (FileState.start vars : FileState K).ptr w u = none := fun _ _ => rfl
  refine ⟨?_, ?_, ?_, ?_⟩
  · intro w l hw; cases hw
  · intro w u q hq; rw [hp] at hq; cases hq
  · intro w u w' u' q hq; rw [hp] at hq; cases hq
  · intro w _ hs; cases hs

theorem find_of_ptr {s : FileState K} {v : String} {t p : Nat} (h : s.ptr v t = some p) : (s.find v).isSome = true := by
  unfold FileState.ptr at h
  cases hs : s.find v with
  | none => rw [hs] at h; simp at h
  | some l => rfl

/-- What one operation does. -/
theorem fileStep_spec {d : FileData K} {s : FileState K} (hT : 0 < d.nT) (h : StoreInv d s) (op : FileOp K) (ht : TimesIn d op)
    (used : List String) (hu : ∀ v ∈ used, (d.core v).isSome = true ∨ (s.find v).isSome = true)
    (hn : WholeOp d used op) :
    ∃ s' out, fileStep d s op = ok (s', out) ∧ StoreInv d s' ∧ out = (arrayStep d.initial (s.view d) op).2 ∧
      (∀ w u, u < d.nT → s'.view d w u = (arrayStep d.initial (s.view d) op).1 w u) ∧
      ∀ v ∈ usedAfter used op, (d.core v).isSome = true ∨ (s'.find v).isSome = true := by
  have hkeep : ∀ {s' : FileState K} {v : String} {t p : Nat}, s'.ptr v t = some p →
      (∀ w u q, s.ptr w u = some q → s'.ptr w u = some q) → ∀ w ∈ v :: used, (d.core w).isSome = true ∨ (s'.find w).isSome = true := by
    intro s' v t p hp hk w hw
    rcases List.mem_cons.mp hw with rfl | hw
    · exact Or.inr (find_of_ptr hp)
    · rcases hu w hw with h1 | h1
      · exact Or.inl h1
      · by_cases hc : (d.core w).isSome = true
        · exact Or.inl hc
        · obtain ⟨q, hq⟩ := h.full w (by simpa using hc) h1 0 hT
          exact Or.inr (find_of_ptr (hk w 0 q hq))
  cases op with
  | read v t =>
    obtain ⟨s', p, g1, g2, g3, g4, g5, g6⟩ := getField_spec h v ht
    refine ⟨s', some (s.view d v t), ?_, g2, rfl, g5, hkeep g3 g6⟩
    simp only [fileStep]
    rw [g1, ok_bind]
    simp only
    obtain ⟨hlt, he⟩ := List.getElem?_eq_some_iff.mp g4
    rw [vget_eq_ok_of_lt hlt, ok_bind, he]
  | modify v t g =>
    obtain ⟨s', p, g1, g2, g3, g4, g5, g6⟩ := getField_spec h v ht
    have hlt := (List.getElem?_eq_some_iff.mp g4).1
    refine ⟨{ s' with heap := s'.heap.set p g }, none, ?_, ⟨g2.len, ?_, g2.inj, g2.full⟩, rfl, ?_, hkeep g3 g6⟩
    · simp only [fileStep]
      rw [g1, ok_bind]
      simp only
      rw [vset_nat _ hlt, ok_bind]
    · intro w u q hq
      rw [List.length_set]
      exact g2.bound w u q hq
    · intro w u hu'
      show FileState.view d _ w u = if w = v ∧ u = t then g else s.view d w u
      by_cases e : w = v ∧ u = t
      · obtain ⟨rfl, rfl⟩ := e
        rw [if_pos ⟨rfl, rfl⟩]
        exact view_ptr g3 (by simp [hlt])
      · rw [if_neg e, ← g5 w u hu']
        refine view_congr rfl fun q hq => ?_
        have : p ≠ q := by
          rintro rfl
          exact e (g2.inj w u v t p hq g3)
        simp [this]
  | replace v t g =>
    obtain ⟨s', g1, g2, g3, g4, g5⟩ := addNew_spec h.weak g v ht
    have hfull : ∀ w, d.core w = none → (s.find w).isSome = true ∨ w = v → (s.find w).isSome = true := by
      intro w hw hs
      rcases hs with hs | rfl
      · exact hs
      · rcases hn with h1 | h1
        · rw [hw] at h1; cases h1
        · rcases hu w h1 with h2 | h2
          · rw [hw] at h2; cases h2
          · exact h2
    refine ⟨s', none, ?_, ⟨g2.len, g2.bound, g2.inj, fun w hw hs u hu' => ?_⟩, rfl, ?_, ?_⟩
    · simp only [fileStep]
      rw [g1, ok_bind]
    · rw [g5] at hs
      have hs' : (s.find w).isSome = true := by
        apply hfull w hw
        simp only [Bool.or_eq_true, decide_eq_true_eq] at hs
        exact hs.symm
      obtain ⟨q, hq⟩ := h.full w hw hs' u hu'
      rw [g4]
      by_cases e : w = v ∧ u = t
      · rw [if_pos e]; exact ⟨_, rfl⟩
      · rw [if_neg e]; exact ⟨q, hq⟩
    · intro w u hu'
      show FileState.view d s' w u = if w = v ∧ u = t then g else s.view d w u
      by_cases e : w = v ∧ u = t
      · rw [if_pos e]
        exact view_ptr (p := s.heap.length) (by rw [g4, if_pos e]) (by rw [g3, List.getElem?_concat_length])
      · rw [if_neg e]
        refine view_congr (by rw [g4, if_neg e]) fun q hq => ?_
        rw [g3, List.getElem?_append_left (h.bound w u q hq)]
    · intro w hw
      rw [g5]
      rcases List.mem_cons.mp hw with rfl | hw
      · simp
      · rcases hu w hw with h1 | h1
        · exact Or.inl h1
        · right; simp [h1]
  | init v =>
    simp only [fileStep]
    unfold initNewVariable
    by_cases hh : hasVariable d s v = true
    · rw [if_pos hh]
      refine ⟨s, none, rfl, h, rfl, fun _ _ _ => rfl, fun w hw => ?_⟩
      rcases List.mem_cons.mp hw with rfl | hw
      · unfold hasVariable at hh
        simpa [Bool.or_eq_true] using hh
      · exact hu w hw
    · rw [if_neg hh]
      unfold hasVariable at hh
      simp only [Bool.or_eq_true, not_or, Bool.not_eq_true, Option.isSome_eq_false_iff, Option.isNone_iff_eq_none] at hh
      obtain ⟨s', miss, b0, b1, b2, b3, b4, b5, b6⟩ := addMissing_spec h.weak v
      have hmiss : miss = d.missing := by
        have := d.missing_eq
        rw [b0, Res.ok.injEq] at this
        exact this
      refine ⟨s', none, by rw [b1, ok_bind], ⟨b2.len, b2.bound, b2.inj, fun w hw hs u hu' => ?_⟩, rfl, fun w u hu' => ?_, fun w hw => ?_⟩
      · by_cases e : w = v
        · subst e
          obtain ⟨q, hq, -⟩ := b5 u hu'
          exact ⟨q, hq⟩
        · rw [b6 w e] at hs
          obtain ⟨q, hq⟩ := h.full w hw hs u hu'
          exact ⟨q, by rw [b3 w u e, hq]⟩
      · show FileState.view d s' w u = s.view d w u
        by_cases e : w = v
        · subst e
          obtain ⟨q, q1, q2⟩ := b5 u hu'
          rw [view_ptr q1 q2, view_none (by unfold FileState.ptr; rw [hh.2]; rfl)]
          unfold FileData.initial
          rw [hh.1, hmiss]; rfl
        · refine view_congr (b3 w u e) fun q hq => b4 q (h.bound w u q hq)
      · rcases List.mem_cons.mp hw with rfl | hw
        · obtain ⟨q, hq, -⟩ := b5 0 hT
          exact Or.inr (find_of_ptr hq)
        · by_cases e : w = v
          · subst e
            obtain ⟨q, hq, -⟩ := b5 0 hT
            exact Or.inr (find_of_ptr hq)
          · rw [b6 w e]
            exact hu w hw
  | clear =>
    have hnone : ∀ w u, (clearFields s).ptr w u = none := fun w u => rfl
    refine ⟨clearFields s, none, rfl, ⟨?_, ?_, ?_, ?_⟩, rfl, fun w u _ => view_none (hnone w u), fun v hv => by cases hv⟩
    · intro w l hw; cases hw
    · intro w u q hq; rw [hnone] at hq; cases hq
    · intro w u w' u' q hq; rw [hnone] at hq; cases hq
    · intro w _ hs; cases hs

theorem reads_congr (d : FileData K) (ops : List (FileOp K)) (ht : ∀ op ∈ ops, TimesIn d op) (a b : String → Nat → FieldC K)
    (h : ∀ w u, u < d.nT → a w u = b w u) : arrayReads d.initial a ops = arrayReads d.initial b ops := by
  induction ops generalizing a b with
  | nil => rfl
  | cons op ops ih =>
    have hop := ht op (by simp)
    have hrest := fun o ho => ht o (List.mem_cons_of_mem _ ho)
    unfold arrayReads
    cases op with
    | read v t =>
      simp only [arrayStep]
      rw [ih hrest a b h, h v t hop]
    | modify v t g =>
      simp only [arrayStep]
      rw [ih hrest _ _ fun w u hu => by rw [h w u hu]]
    | replace v t g =>
      simp only [arrayStep]
      rw [ih hrest _ _ fun w u hu => by rw [h w u hu]]
    | init v => simp only [arrayStep]; rw [ih hrest a b h]
    | clear => rfl

theorem fileRun_spec {d : FileData K} (hT : 0 < d.nT) (ops : List (FileOp K)) (s : FileState K) (h : StoreInv d s)
    (ht : ∀ op ∈ ops, TimesIn d op) (used : List String) (hu : ∀ v ∈ used, (d.core v).isSome = true ∨ (s.find v).isSome = true)
    (hn : NoPartial d used ops) : ∃ s', fileRun d s ops = ok (s', arrayReads d.initial (s.view d) ops) ∧ StoreInv d s' := by
  induction ops generalizing s used with
  | nil => exact ⟨s, rfl, h⟩
  | cons op ops ih =>
    obtain ⟨s', out, h1, h2, h3, h4, h5⟩ := fileStep_spec hT h op (ht op (by simp)) used hu hn.1
    obtain ⟨s'', g1, g2⟩ := ih s' h2 (fun o ho => ht o (List.mem_cons_of_mem _ ho)) _ h5 hn.2
    refine ⟨s'', ?_, g2⟩
    unfold fileRun arrayReads
    rw [h1, ok_bind]
    simp only
    rw [g1, ok_bind, h3, reads_congr d ops (fun o ho => ht o (List.mem_cons_of_mem _ ho)) _ _ h4]

/-- **C120** (array). Whatever is done with the fields of a file, in any order, each read gives the last field stored for this variable and
time since the last `clear`, otherwise what is on disk, and missing values if it is not there. Condition: a field is only replaced of a
variable that is in the file or has been read, created or changed before. -/
theorem c120_array_partial {d : FileData K} {initial : String → Nat → FieldC K} (hd : OnDisk d initial) (hT : 0 < d.nT) (vars : List String)
    (ops : List (FileOp K)) (ht : ∀ op ∈ ops, TimesIn d op) (hn : NoPartial d [] ops) :
    ∃ s, fileRun d (FileState.start vars) ops = ok (s, arrayReads initial initial ops) := by
  rw [onDisk_initial hd]
  have hp : ∀ w u, (FileState.start vars : FileState K).ptr w u = none := fun _ _ => rfl
  obtain ⟨s, h, -⟩ := fileRun_spec hT ops (FileState.start vars) (storeStart_inv d vars) ht [] (by simp) hn
  refine ⟨s, ?_⟩
  rw [h]
  have : (FileState.start vars : FileState K).view d = d.initial := by
    funext w u
    exact view_none (hp w u)
  rw [this]

/-- **C120** (pointers). In all states that can be reached, a pointer that has been handed out for a variable and a time is handed out again,
and no other variable or time shares it. -/
theorem c120_pointer_partial {d : FileData K} (hT : 0 < d.nT) (vars : List String)
    (ops : List (FileOp K)) (ht : ∀ op ∈ ops, TimesIn d op) (hn : NoPartial d [] ops) {s : FileState K} {reads : List (FieldC K)}
    (h : fileRun d (FileState.start vars) ops = ok (s, reads)) (v w : String) {t u : Nat} (htv : t < d.nT) (hu : u < d.nT) :
    ∃ s1 s2 s3 p q, getField d s v (t : Int) false = ok (s1, some p) ∧ getField d s1 w (u : Int) false = ok (s2, some q) ∧
      getField d s2 v (t : Int) false = ok (s3, some p) ∧ (p = q → v = w ∧ t = u) := by
  have hp : ∀ w u, (FileState.start vars : FileState K).ptr w u = none := fun _ _ => rfl
  obtain ⟨s', h', hinv⟩ := fileRun_spec hT ops (FileState.start vars) (storeStart_inv d vars) ht [] (by simp) hn
  rw [h, Res.ok.injEq, Prod.mk.injEq] at h'
  rw [← h'.1] at hinv
  obtain ⟨s1, p, a1, a2, a3, -, -, -⟩ := getField_spec hinv v htv
  obtain ⟨s2, q, b1, b2, b3, -, -, b6⟩ := getField_spec a2 w hu
  obtain ⟨s3, r, c1, c2, c3, -, -, c6⟩ := getField_spec b2 v htv
  have h2 := b6 v t p a3
  have h3 := c6 v t p h2
  rw [c3, Option.some.injEq] at h3
  subst h3
  refine ⟨s1, s2, s3, _, q, a1, b1, c1, ?_⟩
  rintro rfl
  exact b2.inj _ _ _ _ _ h2 b3

/-- A file with two times, one value, and the variable "t" with the values 1 and 2. -/
def tinyFile : FileData ℚ := ⟨2, 1, 1, 1, fun v => if v = "t" then some fun t => ⟨[fin (t + 1)], 1, 1, 1⟩ else none⟩

/-- Sequences for which the hypotheses of `c120_array_partial` hold. -/
example : NoPartial tinyFile [] [.read "q" 0, .replace "q" 1 ⟨[fin 7], 1, 1, 1⟩, .read "q" 1, .clear, .replace "t" 0 ⟨[fin 7], 1, 1, 1⟩] := by
  simp [NoPartial, WholeOp, usedAfter, tinyFile]

example : (fileRun tinyFile (FileState.start ["t"]) [.read "t" 0, .modify "t" 1 ⟨[fin 7], 1, 1, 1⟩, .read "q" 1, .read "t" 1, .clear,
    .read "t" 1] |> fun r => match r with | ok x => some x.2 | _ => none) =
    some [⟨[fin 1], 1, 1, 1⟩, ⟨[fin (-999)], 1, 1, 1⟩, ⟨[fin 7], 1, 1, 1⟩, ⟨[fin 2], 1, 1, 1⟩] := by decide +kernel

/-- **C120** is false without the condition: a field added at time 0 for a new variable is lost (missing values are read) once the field of
the variable at time 1 is asked for. -/
theorem c120_lost_false :
    (fileRun tinyFile (FileState.start ["t"]) [.replace "q" 0 ⟨[fin 7], 1, 1, 1⟩, .read "q" 0, .read "q" 1, .read "q" 0] |>
      fun r => match r with | ok x => some x.2 | _ => none) =
    some [⟨[fin 7], 1, 1, 1⟩, ⟨[fin (-999)], 1, 1, 1⟩, ⟨[fin (-999)], 1, 1, 1⟩] := by decide +kernel

/-- **C120** (times). A time after the last one is refused, for any variable and in any state with the right sizes; before the first one
too, if the variable has been used, but reading it from the file is undefined. -/
theorem c120_times {d : FileData K} {s : FileState K} (hs : ∀ v l, s.find v = some l → l.length = d.nT) (v : String) (t : Int) (skip : Bool) :
    ((d.nT : Int) ≤ t → getField d s v t skip = .abort) ∧
    (t < 0 → (s.find v).isSome = true → getField d s v t skip = .abort) ∧
    (t < 0 → s.find v = none → (d.core v).isSome = true → getField d s v t false = .ub) := by
  refine ⟨fun h => ?_, fun h hf => ?_, fun h hf hc => ?_⟩
  · unfold getField allocate
    cases hl : s.find v with
    | none => simp only; rw [if_pos h]; rfl
    | some l => simp only; rw [if_pos (Or.inr (by rw [hs v l hl]; exact h))]; rfl
  · unfold getField allocate
    cases hl : s.find v with
    | none => rw [hl] at hf; cases hf
    | some l => simp only; rw [if_pos (Or.inl h)]; rfl
  · obtain ⟨disk, hd⟩ := Option.isSome_iff_exists.mp hc
    unfold getField allocate
    rw [hf]
    simp only
    rw [if_neg (by omega), ok_bind]
    simp only [if_true]
    unfold fillField addNew addField
    rw [hd]
    simp only [Bool.false_eq_true, if_false]
    have : ∀ (l : List (Option Nat)) a, vset l t a = .ub := by
      intro l a; unfold vset; rw [if_pos h]
    rw [this]
    rfl

/-- **C120** (times, not in the file). A time before the first one is also refused for a variable that has not been used and is not in the
file. -/
theorem c120_times_missing {d : FileData K} {s : FileState K} (h : StoreInv d s) {v : String} {t : Int} (ht : t < 0) (hs : s.find v = none)
    (hc : d.core v = none) (skip : Bool) : getField d s v t skip = .abort := by
  have hw : StoreWeak d (s.store v (List.replicate d.nT none)) := by
    refine ⟨?_, ?_, ?_⟩
    · intro w l hl
      rw [find_store] at hl
      split_ifs at hl
      · rw [Option.some.injEq] at hl; rw [← hl, List.length_replicate]
      · exact h.len w l hl
    · intro w u p hp
      rw [ptr_store_empty hs] at hp
      exact h.bound w u p hp
    · intro w u w' u' p hp hp'
      rw [ptr_store_empty hs] at hp hp'
      exact h.inj _ _ _ _ _ hp hp'
  obtain ⟨s', miss, -, b1, -⟩ := addMissing_spec hw v
  unfold getField allocate
  rw [hs]
  simp only
  rw [if_neg (by omega), ok_bind]
  simp only [if_true]
  unfold fillField
  rw [hc]
  simp only
  rw [b1, ok_bind]
  rw [if_pos (Or.inl ht)]
  rfl

/-- **C120** (skipping). Asked not to read, the file hands out the field there is; if there is none, all times of the variable become missing.
Other variables keep their fields. -/
theorem c120_skip {d : FileData K} {s : FileState K} (h : StoreInv d s) (v : String) {t : Nat} (ht : t < d.nT) :
    ∃ s' p miss, getField d s v (t : Int) true = ok (s', some p) ∧ s'.ptr v t = some p ∧
      FieldC.new d.nY d.nX d.nE (fin (-999)) = ok miss ∧
      (s.ptr v t = some p ∨ s.ptr v t = none) ∧
      (s.ptr v t = some p → ∀ w u, s'.ptr w u = s.ptr w u ∧ s'.view d w u = s.view d w u) ∧
      (s.ptr v t = none → ∀ u, u < d.nT → s'.view d v u = miss) ∧
      ∀ w u, w ≠ v → s'.ptr w u = s.ptr w u ∧ s'.view d w u = s.view d w u := by
  obtain ⟨s1, a1, a2, a3, a4, a5, l, a6⟩ := allocate_spec h v ht
  obtain ⟨s2, miss, b0, b1, b2, b3, b4, b5, b6⟩ := addMissing_spec a2 v
  by_cases hp : s.ptr v t = none
  · rw [decide_eq_true hp] at a1
    obtain ⟨p, p1, p2⟩ := b5 t ht
    have hfin : getField d s v (t : Int) true = ok (s2.define v, some p) := by
      refine getField_finish ht a1 ?_ b2 p1
      rw [if_pos rfl]
      unfold fillField
      cases d.core v <;> exact b1
    refine ⟨_, p, miss, hfin, by rw [ptr_define, p1], b0, Or.inr hp, fun he => (by rw [hp] at he; cases he), fun _ u hu => ?_, fun w u hw => ⟨?_, ?_⟩⟩
    · obtain ⟨q, q1, q2⟩ := b5 u hu
      rw [view_define, view_ptr q1 q2]
    · rw [ptr_define, b3 w u hw, a4]
    · rw [view_define]
      refine view_congr (by rw [b3 w u hw, a4]) fun q hq => ?_
      rw [b4 q (by rw [a3]; exact h.bound w u q hq), a3]
  · rw [decide_eq_false hp] at a1
    obtain ⟨p, hp'⟩ := Option.ne_none_iff_exists'.mp hp
    have hv : ∀ w u, s1.view d w u = s.view d w u := fun w u => view_congr (a4 w u) fun q _ => by rw [a3]
    refine ⟨_, p, miss, getField_finish ht a1 (by rw [if_neg (by decide)]) a2 (by rw [a4, hp']), by rw [ptr_define, a4, hp'], b0, Or.inl hp',
      fun _ w u => ⟨by rw [ptr_define, a4], by rw [view_define, hv]⟩, fun he => absurd he hp, fun w u _ => ⟨by rw [ptr_define, a4], by rw [view_define, hv]⟩⟩

/-- Skipping the read of time 1 throws away a change made at time 0. -/
theorem c120_skip_false :
    (do let a ← fileStep tinyFile (FileState.start ["t"]) (.modify "t" 0 ⟨[fin 7], 1, 1, 1⟩)
        let b ← getField tinyFile a.1 "t" 1 true
        let c ← fileStep tinyFile b.1 (.read "t" 0)
        ok c.2) = ok (some ⟨[fin (-999)], 1, 1, 1⟩) := by decide +kernel

/-- **C120** (variables). Asking for a field makes the file have the variable, whether it is there or not. -/
theorem c120_has {d : FileData K} {s : FileState K} (h : StoreInv d s) (v : String) {t : Nat} (ht : t < d.nT) :
    ∃ s' p, getField d s v (t : Int) false = ok (s', p) ∧ hasVariable d s' v = true ∧ v ∈ s'.vars := by
  obtain ⟨s', p, h1, -, h3, -, -, -⟩ := getField_spec h v ht
  refine ⟨s', _, h1, ?_, ?_⟩
  · unfold hasVariable
    rw [find_of_ptr h3, Bool.or_true]
  · unfold getField at h1
    obtain ⟨a, -, h5⟩ := bind_eq_ok.mp h1
    obtain ⟨b, -, h6⟩ := bind_eq_ok.mp h5
    simp only at h6
    split_ifs at h6
    · cases h6
    · obtain ⟨c, -, h7⟩ := bind_eq_ok.mp h6
      simp only [Res.ok.injEq, Prod.mk.injEq] at h7
      rw [← h7.1]
      unfold FileState.define
      split_ifs with hm
      · exact hm
      · simp

/-- **C120** (names). A name means the variable of the file with this name, otherwise what it is an alias of, otherwise a new variable. -/
theorem c120_names (aliases : List (String × String)) (s : FileState K) (n w : String) :
    (n ∈ s.vars → resolveName aliases s n = n) ∧
    (n ∉ s.vars → (∀ w', (n, w') ∉ aliases) → resolveName aliases s n = n) ∧
    (n ∉ s.vars → (n, w) ∈ aliases → (∀ w', (n, w') ∈ aliases → w' = w) → resolveName aliases s n = w) := by
  unfold resolveName
  refine ⟨fun h => if_pos h, fun h ha => ?_, fun h ha hu => ?_⟩
  · rw [if_neg h, List.find?_eq_none.mpr]
    · rfl
    · intro p hp
      simp only [decide_eq_true_eq]
      rintro rfl
      exact ha p.2 hp
  · rw [if_neg h]
    cases hf : aliases.find? fun p => decide (p.1 = n) with
    | none => exact absurd (List.find?_eq_none.mp hf (n, w) ha) (by simp)
    | some p =>
      have h1 := List.find?_some hf
      have h2 := List.mem_of_find?_eq_some hf
      simp only [decide_eq_true_eq] at h1
      obtain ⟨a, b⟩ := p
      simp only at h1
      subst h1
      simpa using hu b h2

end Gridpp.Props
