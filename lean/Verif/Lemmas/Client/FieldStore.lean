import Verif.Model.Client.FieldStore
import Verif.Lemmas.Client.Field
import Verif.Lemmas.Fill

/-! # The fields of a file: invariant -/

set_option linter.unusedSectionVars false

namespace Gridpp.Client
open Fl Res

variable {K : Type} [Field K] [LinearOrder K] [IsStrictOrderedRing K]

/-- The pointer kept for a variable and a time. -/
def FileState.ptr (s : FileState K) (v : String) (t : Nat) : Option Nat := ((s.find v).bind fun l => l[t]?).join

theorem find_store (s : FileState K) (v w : String) (l : List (Option Nat)) :
    (s.store v l).find w = if w = v then some l else s.find w := by
  unfold FileState.find FileState.store
  by_cases h : w = v
  · rw [if_pos h, h]; simp
  · rw [if_neg h]
    have hv : (decide (v = w)) = false := decide_eq_false fun e => h e.symm
    simp only [List.find?_cons, hv]
    congr 1
    induction s.fields with
    | nil => rfl
    | cons p t ih =>
      rw [List.filter_cons]
      by_cases hp : p.1 = v
      · have : decide (p.1 = w) = false := decide_eq_false fun e => h (e.symm.trans hp)
        simp only [hp, ne_eq, not_true, decide_false, Bool.false_eq_true, if_false, List.find?_cons]
        rw [ih]
        have hvw : decide (v = w) = false := hv
        simp only [hvw]
      · simp only [hp, ne_eq, not_false_eq_true, decide_true, if_true, List.find?_cons, ih]

theorem find_define (s : FileState K) (v w : String) : (s.define v).find w = s.find w := by
  unfold FileState.define; split_ifs <;> rfl

theorem heap_define (s : FileState K) (v : String) : (s.define v).heap = s.heap := by
  unfold FileState.define; split_ifs <;> rfl

/-- What always holds of the fields of a file. -/
structure StoreInv (d : FileData K) (s : FileState K) : Prop where
  len : ∀ v l, s.find v = some l → l.length = d.nT
  bound : ∀ v t p, s.ptr v t = some p → p < s.heap.length
  inj : ∀ v t w u p, s.ptr v t = some p → s.ptr w u = some p → v = w ∧ t = u
  full : ∀ v, d.core v = none → (s.find v).isSome = true → ∀ t < d.nT, ∃ p, s.ptr v t = some p

/-- The invariant without the last part, which does not hold while missing fields are added. -/
structure StoreWeak (d : FileData K) (s : FileState K) : Prop where
  len : ∀ v l, s.find v = some l → l.length = d.nT
  bound : ∀ v t p, s.ptr v t = some p → p < s.heap.length
  inj : ∀ v t w u p, s.ptr v t = some p → s.ptr w u = some p → v = w ∧ t = u

theorem StoreInv.weak {d : FileData K} {s : FileState K} (h : StoreInv d s) : StoreWeak d s := ⟨h.len, h.bound, h.inj⟩

/-- Adding a new field. -/
theorem addNew_spec {d : FileData K} {s : FileState K} (h : StoreWeak d s) (f : FieldC K) (v : String) {t : Nat} (ht : t < d.nT) :
    ∃ s', addNew d s f v (t : Int) = ok s' ∧ StoreWeak d s' ∧ s'.heap = s.heap ++ [f] ∧
      (∀ w u, s'.ptr w u = if w = v ∧ u = t then some s.heap.length else s.ptr w u) ∧
      ∀ w, (s'.find w).isSome = (decide (w = v) || (s.find w).isSome) := by
  have hfa : (s.alloc f).find v = s.find v := rfl
  let l := (s.find v).getD (List.replicate d.nT none)
  have hl : l.length = d.nT := by
    show ((s.find v).getD _).length = _
    cases hs : s.find v with
    | none => simp
    | some l => simpa using h.len v l hs
  have hlv : ∀ u, (l[u]?).join = s.ptr v u := by
    intro u
    show (((s.find v).getD _)[u]?).join = ((s.find v).bind fun l => l[u]?).join
    cases hs : s.find v with
    | none => simp only [Option.getD_none, List.getElem?_replicate, Option.bind_none]; split_ifs <;> rfl
    | some l => rfl
  let s' : FileState K := ((s.alloc f).define v).store v (l.set t (some s.heap.length))
  have hfind : ∀ w, s'.find w = if w = v then some (l.set t (some s.heap.length)) else s.find w := by
    intro w
    show (((s.alloc f).define v).store v _).find w = _
    rw [find_store, find_define]; rfl
  have hptr : ∀ w u, s'.ptr w u = if w = v ∧ u = t then some s.heap.length else s.ptr w u := by
    intro w u
    unfold FileState.ptr
    rw [hfind]
    by_cases hw : w = v
    · subst hw
      rw [if_pos rfl]
      simp only [Option.bind_some, true_and, List.getElem?_set, hl, ht, if_true]
      by_cases hu : t = u
      · rw [if_pos hu, if_pos hu.symm]; rfl
      · rw [if_neg hu, if_neg fun e => hu e.symm]
        exact hlv u
    · rw [if_neg hw, if_neg fun e => hw e.1]
  have hheap : s'.heap = s.heap ++ [f] := by
    show ((s.alloc f).define v).heap = _
    rw [heap_define]; rfl
  refine ⟨s', ?_, ⟨?_, ?_, ?_⟩, hheap, hptr, ?_⟩
  · show addField d (s.alloc f) s.heap.length v t = _
    unfold addField
    rw [hfa, vset_nat _ (show t < l.length by omega), ok_bind]
  · intro w l' hw
    rw [hfind] at hw
    by_cases e : w = v
    · rw [if_pos e, Option.some.injEq] at hw
      rw [← hw, List.length_set, hl]
    · rw [if_neg e] at hw; exact h.len w l' hw
  · intro w u p hp
    rw [hptr] at hp
    rw [hheap, List.length_append, List.length_singleton]
    by_cases e : w = v ∧ u = t
    · rw [if_pos e, Option.some.injEq] at hp; omega
    · rw [if_neg e] at hp
      have := h.bound w u p hp; omega
  · intro w u w' u' p hp hp'
    rw [hptr] at hp hp'
    by_cases e : w = v ∧ u = t <;> by_cases e' : w' = v ∧ u' = t
    · exact ⟨e.1.trans e'.1.symm, e.2.trans e'.2.symm⟩
    · rw [if_pos e, Option.some.injEq] at hp
      rw [if_neg e'] at hp'
      have := h.bound _ _ _ hp'; omega
    · rw [if_neg e] at hp
      rw [if_pos e', Option.some.injEq] at hp'
      have := h.bound _ _ _ hp; omega
    · rw [if_neg e] at hp
      rw [if_neg e'] at hp'
      exact h.inj _ _ _ _ _ hp hp'
  · intro w
    rw [hfind]
    by_cases e : w = v <;> simp [e]

/-- Adding missing fields at all times. -/
theorem addMissing_spec {d : FileData K} {s : FileState K} (h : StoreWeak d s) (v : String) :
    ∃ s' miss, FieldC.new d.nY d.nX d.nE MV = ok miss ∧ addMissing d s v = ok s' ∧ StoreWeak d s' ∧
      (∀ w u, w ≠ v → s'.ptr w u = s.ptr w u) ∧ (∀ p < s.heap.length, s'.heap[p]? = s.heap[p]?) ∧
      (∀ t < d.nT, ∃ p, s'.ptr v t = some p ∧ s'.heap[p]? = some miss) ∧
      (∀ w, w ≠ v → (s'.find w).isSome = (s.find w).isSome) := by
  obtain ⟨miss, hm, -, -⟩ := FieldC.new_sized (K := K) d.nY d.nX d.nE MV
  have key : ∀ n, n ≤ d.nT → ∃ s', foldM (fun s (t : Nat) => do
      let f ← FieldC.new d.nY d.nX d.nE MV
      addNew d s f v t) s (List.range n) = ok s' ∧ StoreWeak d s' ∧ (∀ w u, w ≠ v → s'.ptr w u = s.ptr w u) ∧
      (∀ p < s.heap.length, s'.heap[p]? = s.heap[p]?) ∧ s.heap.length ≤ s'.heap.length ∧
      (∀ t < n, ∃ p, s'.ptr v t = some p ∧ s'.heap[p]? = some miss) ∧
      (∀ w, w ≠ v → (s'.find w).isSome = (s.find w).isSome) := by
    intro n
    induction n with
    | zero => intro _; exact ⟨s, rfl, h, fun _ _ _ => rfl, fun _ _ => rfl, le_refl _, by omega, fun _ _ => rfl⟩
    | succ n ih =>
      intro hn
      obtain ⟨s1, h1, h2, h3, h4, h5, h6, h7⟩ := ih (by omega)
      obtain ⟨s2, g1, g2, g3, g4, g5⟩ := addNew_spec h2 miss v (t := n) (by omega)
      refine ⟨s2, ?_, g2, ?_, ?_, ?_, ?_, ?_⟩
      · rw [List.range_succ, foldM_append, h1, ok_bind, foldM_cons, hm, ok_bind, g1]; rfl
      · intro w u hw
        rw [g4, if_neg fun e => hw e.1, h3 w u hw]
      · intro p hp
        rw [g3, List.getElem?_append_left (by omega), h4 p hp]
      · rw [g3]; simp; omega
      · intro t ht
        rw [g4]
        by_cases e : t = n
        · rw [if_pos ⟨rfl, e⟩]
          exact ⟨_, rfl, by rw [g3]; simp⟩
        · rw [if_neg fun c => e c.2]
          obtain ⟨p, hp1, hp2⟩ := h6 t (by omega)
          refine ⟨p, hp1, ?_⟩
          rw [g3, List.getElem?_append_left (h2.bound _ _ _ hp1), hp2]
      · intro w hw
        rw [g5, h7 w hw]
        simp [hw]
  obtain ⟨s', h1, h2, h3, h4, -, h6, h7⟩ := key d.nT le_rfl
  exact ⟨s', miss, hm, h1, h2, h3, h4, h6, h7⟩

/-- The missing fields of a file. -/
noncomputable def FileData.missing (d : FileData K) : FieldC K := (FieldC.new_sized (K := K) d.nY d.nX d.nE MV).choose

theorem FileData.missing_eq (d : FileData K) : FieldC.new d.nY d.nX d.nE MV = ok d.missing :=
  (FieldC.new_sized (K := K) d.nY d.nX d.nE MV).choose_spec.1

/-- What a program that has done nothing reads. -/
noncomputable def FileData.initial (d : FileData K) (v : String) (t : Nat) : FieldC K := ((d.core v).map fun disk => disk t).getD d.missing

/-- What is read at present. -/
noncomputable def FileState.view (d : FileData K) (s : FileState K) (v : String) (t : Nat) : FieldC K :=
  ((s.ptr v t).bind fun p => s.heap[p]?).getD (d.initial v t)

theorem view_ptr {d : FileData K} {s : FileState K} {v : String} {t p : Nat} {f : FieldC K} (h : s.ptr v t = some p)
    (hf : s.heap[p]? = some f) : s.view d v t = f := by
  unfold FileState.view
  rw [h, Option.bind_some, hf]; rfl

theorem view_none {d : FileData K} {s : FileState K} {v : String} {t : Nat} (h : s.ptr v t = none) : s.view d v t = d.initial v t := by
  unfold FileState.view
  rw [h]; rfl

theorem view_congr {d : FileData K} {s s' : FileState K} {v : String} {t : Nat} (h : s'.ptr v t = s.ptr v t)
    (hh : ∀ p, s.ptr v t = some p → s'.heap[p]? = s.heap[p]?) : s'.view d v t = s.view d v t := by
  unfold FileState.view
  rw [h]
  cases hp : s.ptr v t with
  | none => rfl
  | some p => rw [Option.bind_some, Option.bind_some, hh p hp]

theorem ptr_store_empty {d : FileData K} {s : FileState K} {v : String} (hv : s.find v = none) (w : String) (u : Nat) :
    (s.store v (List.replicate d.nT none)).ptr w u = s.ptr w u := by
  unfold FileState.ptr
  rw [find_store]
  by_cases h : w = v
  · rw [if_pos h, h, hv, Option.bind_some, List.getElem?_replicate]
    split_ifs <;> rfl
  · rw [if_neg h]

/-- Space for a variable. -/
theorem allocate_spec {d : FileData K} {s : FileState K} (h : StoreInv d s) (v : String) {t : Nat} (ht : t < d.nT) :
    ∃ s1, allocate d s v (t : Int) = ok (s1, decide (s.ptr v t = none)) ∧ StoreWeak d s1 ∧ s1.heap = s.heap ∧
      (∀ w u, s1.ptr w u = s.ptr w u) ∧ (∀ w, w ≠ v → s1.find w = s.find w) ∧ ∃ l, s1.find v = some l := by
  unfold allocate
  cases hf : s.find v with
  | some l =>
    have hl := h.len v l hf
    refine ⟨s, ?_, h.weak, rfl, fun _ _ => rfl, fun _ _ => rfl, l, hf⟩
    simp only
    rw [if_neg (by omega), Int.toNat_natCast]
    have hp : s.ptr v t = l[t]?.join := by unfold FileState.ptr; rw [hf]; rfl
    rw [hp, List.getElem?_eq_getElem (by omega)]
    simp
  | none =>
    have hp : s.ptr v t = none := by unfold FileState.ptr; rw [hf]; rfl
    refine ⟨s.store v (List.replicate d.nT none), ?_, ⟨?_, ?_, ?_⟩, rfl, ptr_store_empty hf, ?_, _, by rw [find_store, if_pos rfl]⟩
    · simp only
      rw [if_neg (by omega), hp]
      simp
    · intro w l hw
      rw [find_store] at hw
      by_cases e : w = v
      · rw [if_pos e, Option.some.injEq] at hw
        rw [← hw, List.length_replicate]
      · rw [if_neg e] at hw; exact h.len w l hw
    · intro w u p hw
      rw [ptr_store_empty hf] at hw
      exact h.bound w u p hw
    · intro w u w' u' p hw hw'
      rw [ptr_store_empty hf] at hw hw'
      exact h.inj _ _ _ _ _ hw hw'
    · intro w hw
      rw [find_store, if_neg hw]

/-- The second half of `getField`. -/
theorem getField_finish {d : FileData K} {s0 s : FileState K} {v : String} {t p : Nat} {need skip : Bool} {s1 : FileState K} (ht : t < d.nT)
    (h0 : allocate d s0 v (t : Int) = ok (s1, need)) (h1 : (if need then fillField d s1 v (t : Int) skip else ok s1) = ok s)
    (hw : StoreWeak d s) (hp : s.ptr v t = some p) : getField d s0 v (t : Int) skip = ok (s.define v, some p) := by
  unfold getField
  rw [h0, ok_bind]
  simp only
  rw [h1, ok_bind]
  unfold FileState.ptr at hp
  cases hl : s.find v with
  | none => rw [hl] at hp; simp at hp
  | some l =>
    have hlen := hw.len v l hl
    rw [hl, Option.bind_some, List.getElem?_eq_getElem (by omega)] at hp
    simp only [Option.getD_some]
    rw [if_neg (by omega), vget_eq_ok_of_lt (by omega), ok_bind]
    simp only [Option.join_some] at hp
    rw [hp]

theorem ptr_define (s : FileState K) (v w : String) (u : Nat) : (s.define v).ptr w u = s.ptr w u := by
  unfold FileState.ptr; rw [find_define]

theorem StoreInv.define {d : FileData K} {s : FileState K} (h : StoreInv d s) (v : String) : StoreInv d (s.define v) := by
  refine ⟨?_, ?_, ?_, ?_⟩
  · intro w l hw; rw [find_define] at hw; exact h.len w l hw
  · intro w u p hp; rw [ptr_define] at hp; rw [heap_define]; exact h.bound w u p hp
  · intro w u w' u' p hp hp'; rw [ptr_define] at hp hp'; exact h.inj _ _ _ _ _ hp hp'
  · intro w hw hs t ht
    rw [find_define] at hs
    obtain ⟨p, hp⟩ := h.full w hw hs t ht
    exact ⟨p, by rw [ptr_define]; exact hp⟩

theorem view_define (d : FileData K) (s : FileState K) (v w : String) (u : Nat) : (s.define v).view d w u = s.view d w u := by
  unfold FileState.view; rw [ptr_define, heap_define]

/-- `getField` hands out the pointer under which the present field is kept, and changes nothing that can be read. -/
theorem getField_spec {d : FileData K} {s : FileState K} (h : StoreInv d s) (v : String) {t : Nat} (ht : t < d.nT) :
    ∃ s' p, getField d s v (t : Int) false = ok (s', some p) ∧ StoreInv d s' ∧ s'.ptr v t = some p ∧
      s'.heap[p]? = some (s.view d v t) ∧ (∀ w u, u < d.nT → s'.view d w u = s.view d w u) ∧
      (∀ w u q, s.ptr w u = some q → s'.ptr w u = some q) := by
  obtain ⟨s1, a1, a2, a3, a4, a5, l, a6⟩ := allocate_spec h v ht
  by_cases hp : s.ptr v t = none
  · rw [decide_eq_true hp] at a1
    cases hc : d.core v with
    | some disk =>
      obtain ⟨s2, b1, b2, b3, b4, b5⟩ := addNew_spec a2 (disk t) v ht
      have hfin : getField d s v (t : Int) false = ok (s2.define v, some s1.heap.length) := by
        refine getField_finish ht a1 ?_ b2 (by rw [b4, if_pos ⟨rfl, rfl⟩])
        rw [if_pos rfl]
        unfold fillField
        rw [hc]
        simp only [Bool.false_eq_true, if_false, Int.toNat_natCast]
        exact b1
      have hfull : StoreInv d s2 := by
        refine ⟨b2.len, b2.bound, b2.inj, fun w hw hs u hu => ?_⟩
        have hwv : w ≠ v := by rintro rfl; rw [hc] at hw; cases hw
        rw [b5, a5 w hwv] at hs
        simp only [hwv, decide_false, Bool.false_or] at hs
        obtain ⟨p, hp⟩ := h.full w hw hs u hu
        exact ⟨p, by rw [b4, if_neg fun e => hwv e.1, a4, hp]⟩
      refine ⟨_, _, hfin, hfull.define v, by rw [ptr_define, b4, if_pos ⟨rfl, rfl⟩], ?_, ?_, ?_⟩
      · rw [heap_define, b3, List.getElem?_concat_length, view_none hp]
        unfold FileData.initial
        rw [hc]; rfl
      · intro w u hu
        rw [view_define]
        by_cases e : w = v ∧ u = t
        · obtain ⟨rfl, rfl⟩ := e
          rw [view_none hp]
          rw [view_ptr (p := s1.heap.length) (f := disk u) (by rw [b4, if_pos ⟨rfl, rfl⟩]) (by rw [b3, List.getElem?_concat_length])]
          unfold FileData.initial
          rw [hc]; rfl
        · refine view_congr (by rw [b4, if_neg e, a4]) fun q hq => ?_
          rw [b3, List.getElem?_append_left (by rw [a3]; exact h.bound w u q hq), a3]
      · intro w u q hq
        rw [ptr_define, b4, if_neg (by rintro ⟨rfl, rfl⟩; rw [hp] at hq; cases hq), a4, hq]
    | none =>
      obtain ⟨s2, miss, b0, b1, b2, b3, b4, b5, b6⟩ := addMissing_spec a2 v
      have hmiss : miss = d.missing := by
        have := d.missing_eq
        rw [b0, Res.ok.injEq] at this
        exact this
      -- no field of this variable has been added before
      have hnone : ∀ u < d.nT, s.ptr v u = none := by
        intro u hu
        by_contra hne
        have : (s.find v).isSome = true := by
          cases hs : s.find v with
          | none => exfalso; apply hne; unfold FileState.ptr; rw [hs]; rfl
          | some l => rfl
        obtain ⟨p, hp'⟩ := h.full v hc this t ht
        rw [hp] at hp'; cases hp'
      obtain ⟨p, p1, p2⟩ := b5 t ht
      have hfin : getField d s v (t : Int) false = ok (s2.define v, some p) := by
        refine getField_finish ht a1 ?_ b2 p1
        rw [if_pos rfl]
        unfold fillField
        rw [hc]
        exact b1
      have hfull : StoreInv d s2 := by
        refine ⟨b2.len, b2.bound, b2.inj, fun w hw hs u hu => ?_⟩
        by_cases hwv : w = v
        · subst hwv
          obtain ⟨q, hq, -⟩ := b5 u hu
          exact ⟨q, hq⟩
        · rw [b6 w hwv, a5 w hwv] at hs
          obtain ⟨q, hq⟩ := h.full w hw hs u hu
          exact ⟨q, by rw [b3 w u hwv, a4, hq]⟩
      have hinit : ∀ u, d.initial v u = miss := by
        intro u
        unfold FileData.initial
        rw [hc, hmiss]; rfl
      refine ⟨_, _, hfin, hfull.define v, by rw [ptr_define, p1], ?_, ?_, ?_⟩
      · rw [heap_define, p2, view_none hp, hinit]
      · intro w u hu
        rw [view_define]
        by_cases e : w = v
        · subst e
          obtain ⟨q, q1, q2⟩ := b5 u hu
          rw [view_ptr q1 q2, view_none (hnone u hu), hinit]
        · refine view_congr (by rw [b3 w u e, a4]) fun q hq => ?_
          rw [b4 q (by rw [a3]; exact h.bound w u q hq), a3]
      · intro w u q hq
        rw [ptr_define]
        by_cases e : w = v
        · subst e
          by_cases hu : u < d.nT
          · rw [hnone u hu] at hq; cases hq
          · exfalso
            unfold FileState.ptr at hq
            cases hs : s.find w with
            | none => rw [hs] at hq; simp at hq
            | some l =>
              rw [hs, Option.bind_some, List.getElem?_eq_none (by rw [h.len w l hs]; omega)] at hq
              simp at hq
        · rw [b3 w u e, a4, hq]
  · rw [decide_eq_false hp] at a1
    obtain ⟨p, hp'⟩ := Option.ne_none_iff_exists'.mp hp
    have hfind : s1 = s := by
      unfold allocate at a1
      cases hs : s.find v with
      | none => exfalso; apply hp; unfold FileState.ptr; rw [hs]; rfl
      | some l =>
        rw [hs] at a1
        simp only at a1
        split_ifs at a1
        · cases a1
        · simp only [Res.ok.injEq, Prod.mk.injEq] at a1
          exact a1.1.symm
    subst hfind
    have hb := h.bound v t p hp'
    refine ⟨_, _, getField_finish ht a1 (by rw [if_neg (by decide)]) h.weak hp', h.define v, by rw [ptr_define, hp'], ?_, ?_, ?_⟩
    · rw [heap_define, List.getElem?_eq_getElem hb, view_ptr hp' (List.getElem?_eq_getElem hb)]
    · intro w u _
      rw [view_define]
    · intro w u q hq
      rw [ptr_define, hq]

end Gridpp.Client
