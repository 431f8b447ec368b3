import Verif.Lemmas.Client.FieldStore
import Verif.Lemmas.Fill
import Verif.Lemmas.Geo
import Verif.Model.Client.DownscaleFile

/-! # Lemmas on downscalers and the fields of files -/

set_option linter.unusedSectionVars false

namespace Gridpp.Client
open Fl Res

variable {K : Type} [Field K] [LinearOrder K] [IsStrictOrderedRing K]

theorem heap_view {d : FileData K} {s : FileState K} (h : StoreInv d s) {v : String} {t p : Nat} (hp : s.ptr v t = some p) :
    s.heap[p]? = some (s.view d v t) := by
  have hb := h.bound v t p hp
  rw [List.getElem?_eq_getElem hb, view_ptr hp (List.getElem?_eq_getElem hb)]

/-- `getField` without reading: the pointer that there is; otherwise all times are made missing first. -/
theorem getField_skip_spec {d : FileData K} {s : FileState K} (h : StoreInv d s) (v : String) {t : Nat} (ht : t < d.nT) :
    ∃ s' p, getField d s v (t : Int) true = ok (s', some p) ∧ StoreInv d s' ∧ s'.ptr v t = some p ∧
      (s.ptr v t = none → ∀ u < d.nT, (∃ q, s'.ptr v u = some q) ∧ s'.view d v u = d.missing) ∧
      (s.ptr v t ≠ none → ∀ u, s'.ptr v u = s.ptr v u ∧ s'.view d v u = s.view d v u) ∧
      ∀ w u, w ≠ v → s'.ptr w u = s.ptr w u ∧ s'.view d w u = s.view d w u := by
  obtain ⟨s1, a1, a2, a3, a4, a5, l, a6⟩ := allocate_spec h v ht
  obtain ⟨s2, miss, b0, b1, b2, b3, b4, b5, b6⟩ := addMissing_spec a2 v
  have hmiss : miss = d.missing := by
    have := d.missing_eq
    rw [b0, Res.ok.injEq] at this
    exact this
  by_cases hp : s.ptr v t = none
  · rw [decide_eq_true hp] at a1
    obtain ⟨p, p1, p2⟩ := b5 t ht
    have hfin : getField d s v (t : Int) true = ok (s2.define v, some p) := by
      refine getField_finish ht a1 ?_ b2 p1
      rw [if_pos rfl]
      unfold fillField
      cases d.core v <;> exact b1
    have hinv : StoreInv d s2 := by
      refine ⟨b2.len, b2.bound, b2.inj, fun w hw hs u hu => ?_⟩
      by_cases hwv : w = v
      · subst hwv
        obtain ⟨q, q1, -⟩ := b5 u hu
        exact ⟨q, q1⟩
      · rw [b6 w hwv, a5 w hwv] at hs
        obtain ⟨q, hq⟩ := h.full w hw hs u hu
        exact ⟨q, by rw [b3 w u hwv, a4, hq]⟩
    refine ⟨_, p, hfin, hinv.define v, by rw [ptr_define, p1], fun _ u hu => ?_, fun he => absurd hp he, fun w u hw => ⟨?_, ?_⟩⟩
    · obtain ⟨q, q1, q2⟩ := b5 u hu
      exact ⟨⟨q, by rw [ptr_define, q1]⟩, by rw [view_define, view_ptr q1 q2, hmiss]⟩
    · rw [ptr_define, b3 w u hw, a4]
    · rw [view_define]
      refine view_congr (by rw [b3 w u hw, a4]) fun q hq => ?_
      rw [b4 q (by rw [a3]; exact h.bound w u q hq), a3]
  · rw [decide_eq_false hp] at a1
    obtain ⟨p, hp'⟩ := Option.ne_none_iff_exists'.mp hp
    have hv : ∀ w u, s1.view d w u = s.view d w u := fun w u => view_congr (a4 w u) fun q _ => by rw [a3]
    have hinv : StoreInv d s1 := by
      refine ⟨a2.len, a2.bound, a2.inj, fun w hw hs u hu => ?_⟩
      have hs' : (s.find w).isSome = true := by
        by_cases hwv : w = v
        · subst hwv
          cases hf : s.find w with
          | none => unfold FileState.ptr at hp'; rw [hf] at hp'; cases hp'
          | some l => rfl
        · rw [a5 w hwv] at hs; exact hs
      obtain ⟨q, hq⟩ := h.full w hw hs' u hu
      exact ⟨q, by rw [a4, hq]⟩
    exact ⟨_, p, getField_finish ht a1 (by rw [if_neg (by decide)]) a2 (by rw [a4, hp']), hinv.define v, by rw [ptr_define, a4, hp'],
      fun he => absurd he hp, fun _ u => ⟨by rw [ptr_define, a4], by rw [view_define, hv]⟩,
      fun w u _ => ⟨by rw [ptr_define, a4], by rw [view_define, hv]⟩⟩

/-- A field is changed through its pointer. -/
theorem write_spec {d : FileData K} {s : FileState K} (h : StoreInv d s) {v : String} {t p : Nat} (hp : s.ptr v t = some p) (z : FieldC K) :
    StoreInv d { s with heap := s.heap.set p z } ∧ (∀ w u, FileState.ptr { s with heap := s.heap.set p z } w u = s.ptr w u) ∧
      FileState.view d { s with heap := s.heap.set p z } v t = z ∧
      ∀ w u, ¬ (w = v ∧ u = t) → FileState.view d { s with heap := s.heap.set p z } w u = s.view d w u := by
  have hptr : ∀ w u, FileState.ptr { s with heap := s.heap.set p z } w u = s.ptr w u := fun _ _ => rfl
  refine ⟨⟨h.len, fun w u q hq => ?_, h.inj, h.full⟩, hptr, ?_, fun w u hne => ?_⟩
  · rw [List.length_set]
    exact h.bound w u q hq
  · exact view_ptr (p := p) hp (by simp [h.bound v t p hp])
  · refine view_congr rfl fun q hq => ?_
    have hqp : p ≠ q := by
      rintro rfl
      exact hne (h.inj w u v t _ hq hp)
    simp [hqp]

/-- One time with two files, up to what is done to the fields. -/
theorem downscaleTime_spec {di dt : FileData K} {si so : FileState K} (hi : StoreInv di si) (ho : StoreInv dt so) (v w : String)
    (g : Nat → FieldC K → FieldC K → Res (FieldC K)) {t : Nat} (ht : t < di.nT) (ht' : t < dt.nT) :
    ∃ si' so' q, StoreInv di si' ∧ (∀ x u, u < di.nT → si'.view di x u = si.view di x u) ∧ StoreInv dt so' ∧ so'.ptr w t = some q ∧
      (so.ptr w t = none → ∀ u < dt.nT, (∃ q, so'.ptr w u = some q) ∧ so'.view dt w u = dt.missing) ∧
      (so.ptr w t ≠ none → ∀ u, so'.ptr w u = so.ptr w u ∧ so'.view dt w u = so.view dt w u) ∧
      (∀ x u, x ≠ w → so'.ptr x u = so.ptr x u ∧ so'.view dt x u = so.view dt x u) ∧
      downscaleTime di dt v w g (si, so) t =
        (g t (si.view di v t) (so'.view dt w t) >>= fun z => ok (si', { so' with heap := so'.heap.set q z })) := by
  obtain ⟨si', p, a1, a2, a3, a4, a5, -⟩ := getField_spec hi v ht
  obtain ⟨so', q, b1, b2, b3, b4, b5, b6⟩ := getField_skip_spec ho w ht'
  refine ⟨si', so', q, a2, a5, b2, b3, b4, b5, b6, ?_⟩
  unfold downscaleTime
  simp only
  rw [a1, ok_bind, b1, ok_bind]
  simp only
  rw [vget_nat_eq_ok.mpr a4, ok_bind, vget_nat_eq_ok.mpr (heap_view b2 b3), ok_bind]
  congr 1
  funext z
  rw [vset_nat z (b2.bound w t q b3), ok_bind]

theorem addNew_find {d : FileData K} {s s' : FileState K} {f : FieldC K} {v w : String} {t : Int} (h : addNew d s f v t = ok s') (hw : w ≠ v) :
    s'.find w = s.find w := by
  unfold addNew addField at h
  obtain ⟨l, -, h⟩ := bind_eq_ok.mp h
  rw [← Res.ok.inj h, find_store, if_neg hw, find_define]
  rfl

theorem addMissing_find {d : FileData K} {s s' : FileState K} {v w : String} (h : addMissing d s v = ok s') (hw : w ≠ v) :
    s'.find w = s.find w := by
  unfold addMissing at h
  refine foldM_inv (P := fun x => x.find w = s.find w) rfl (fun a x y _ hx hy => ?_) h
  obtain ⟨f, -, hy⟩ := bind_eq_ok.mp hy
  rw [addNew_find hy hw, hx]

/-- Asking for a field of one variable does not touch the others. -/
theorem getField_find {d : FileData K} {s s' : FileState K} {v w : String} {t : Int} {skip : Bool} {p : Option Nat}
    (h : getField d s v t skip = ok (s', p)) (hw : w ≠ v) : s'.find w = s.find w := by
  unfold getField at h
  obtain ⟨a, ha, h⟩ := bind_eq_ok.mp h
  obtain ⟨b, hb, h⟩ := bind_eq_ok.mp h
  have h1 : a.1.find w = s.find w := by
    unfold allocate at ha
    split at ha <;> split_ifs at ha
    · cases ha
    · rw [← Res.ok.inj ha]
    · cases ha
    · rw [← Res.ok.inj ha]
      simp only
      rw [find_store, if_neg hw]
  have h2 : b.find w = a.1.find w := by
    split_ifs at hb
    · unfold fillField at hb
      split at hb
      · split_ifs at hb
        · exact addMissing_find hb hw
        · exact addNew_find hb hw
      · exact addMissing_find hb hw
    · rw [Res.ok.inj hb]
  simp only at h
  split_ifs at h
  · cases h
  · obtain ⟨q, -, h⟩ := bind_eq_ok.mp h
    have := congrArg Prod.fst (Res.ok.inj h)
    simp only at this
    rw [← this, find_define, h2, h1]

/-- One time with one file and two variables. -/
theorem downscaleTimeSelf_spec {d : FileData K} {s : FileState K} (h : StoreInv d s) {v w : String} (hvw : v ≠ w)
    (g : Nat → FieldC K → FieldC K → Res (FieldC K)) {t : Nat} (ht : t < d.nT) :
    ∃ s' q, StoreInv d s' ∧ (∀ x u, u < d.nT → x ≠ w → s'.view d x u = s.view d x u) ∧ s'.ptr w t = some q ∧
      (s.ptr w t = none → ∀ u < d.nT, (∃ q, s'.ptr w u = some q) ∧ s'.view d w u = d.missing) ∧
      (s.ptr w t ≠ none → ∀ u < d.nT, (s.ptr w u ≠ none → s'.ptr w u ≠ none) ∧ (s.ptr w u = none → s'.ptr w u = none) ∧
        s'.view d w u = s.view d w u) ∧
      downscaleTimeSelf d v w g s t =
        (g t (s.view d v t) (s'.view d w t) >>= fun z => ok { s' with heap := s'.heap.set q z }) := by
  obtain ⟨s1, p, a1, a2, a3, a4, a5, a6⟩ := getField_spec h v ht
  obtain ⟨s2, q, b1, b2, b3, b4, b5, b6⟩ := getField_skip_spec a2 w ht
  -- reading one variable leaves the pointers of the other as they are
  have hkeep : ∀ u, s1.ptr w u = s.ptr w u := by
    intro u
    unfold FileState.ptr
    rw [getField_find a1 (fun e => hvw e.symm)]
  refine ⟨s2, q, b2, fun x u hu hx => by rw [(b6 x u hx).2, a5 x u hu], b3, fun hn u hu => b4 (by rw [hkeep]; exact hn) u hu,
    fun hn u hu => ?_, ?_⟩
  · obtain ⟨c1, c2⟩ := b5 (by rw [hkeep]; exact hn) u
    rw [c1, hkeep]
    exact ⟨id, id, by rw [c2, a5 w u hu]⟩
  · unfold downscaleTimeSelf
    rw [a1, ok_bind]
    simp only
    rw [b1, ok_bind]
    simp only
    have hp2 : s2.ptr v t = some p := by rw [(b6 v t hvw).1, a3]
    rw [vget_nat_eq_ok.mpr (heap_view b2 hp2), ok_bind, vget_nat_eq_ok.mpr (heap_view b2 b3), ok_bind, (b6 v t hvw).2, a5 v t ht]
    congr 1
    funext z
    rw [vset_nat z (b2.bound w t q b3), ok_bind]

end Gridpp.Client
