import Verif.Lemmas.Client.OiSingle
import Verif.Lemmas.Client.Field

/-! Lemmas about one time of the calibrator `oi`. -/

set_option linter.unusedSectionVars false

namespace Gridpp.Client
open Fl hiding MV isValid
open Res Client

variable {K : Type} [Field K] [LinearOrder K] [IsStrictOrderedRing K]

theorem getElem?_flatMap_range {α : Type} {m : Nat} (g : Nat → List α) (n : Nat) (h : ∀ a < n, (g a).length = m) {a i : Nat} (ha : a < n) (hi : i < m) :
    ((List.range n).flatMap g)[i + a * m]? = (g a)[i]? := by
  induction n with
  | zero => omega
  | succ n ih =>
    have hl : ((List.range n).flatMap g).length = n * m := by
      clear ih ha
      induction n with
      | zero => simp
      | succ n ih =>
        rw [List.range_succ, List.flatMap_append, List.length_append, ih (fun a ha => h a (by omega))]
        simp [h n (by omega)]
        ring
    rw [List.range_succ, List.flatMap_append]
    rcases Nat.lt_succ_iff_lt_or_eq.mp ha with h1 | h1
    · rw [List.getElem?_append_left, ih (fun b hb => h b (by omega)) h1]
      rw [hl]
      calc i + a * m < m + a * m := by omega
        _ = (a + 1) * m := by ring
        _ ≤ n * m := Nat.mul_le_mul_right _ h1
    · subst h1
      rw [List.getElem?_append_right (by rw [hl]; omega), hl]
      simp

theorem oiField_get {nY nX nE : Nat} (g : Nat → Nat → Nat → Fl K) {y x e : Nat} (hy : y < nY) (hx : x < nX) (he : e < nE) :
    (oiField nY nX nE g).get y x e = ok (g y x e) := by
  have h1 : ∀ y x, ((List.range nE).map fun e => g y x e).length = nE := by simp
  have h2 : ∀ y, ((List.range nX).flatMap fun x => (List.range nE).map fun e => g y x e).length = nX * nE := by
    intro y; simp [List.length_flatMap]
  have h3 : (oiField nY nX nE g).values[e + x * nE + y * nX * nE]? = some (g y x e) := by
    unfold oiField
    have : e + x * nE < nX * nE := by
      calc e + x * nE < nE + x * nE := by omega
        _ = (x + 1) * nE := by ring
        _ ≤ nX * nE := Nat.mul_le_mul_right _ hx
    rw [show e + x * nE + y * nX * nE = (e + x * nE) + y * (nX * nE) by ring]
    rw [getElem?_flatMap_range _ _ (fun a _ => h2 a) hy this, getElem?_flatMap_range _ _ (fun a _ => h1 y a) hx he]
    simp [he]
  unfold FieldC.get FieldC.getIndex
  simp only [oiField, hy, hx, he, decide_true, Bool.and_self, assert, if_true, ok_bind]
  exact vget_some h3

/-- The numbers of the members that have values. -/
def oiMembers (nE : Nat) (M : Finset Nat) : List Nat := (List.range nE).filter fun e => decide (e ∈ M)

theorem mem_oiMembers {nE : Nat} {M : Finset Nat} (h : ∀ e ∈ M, e < nE) {e : Nat} : e ∈ oiMembers nE M ↔ e ∈ M := by
  unfold oiMembers
  rw [List.mem_filter, List.mem_range, decide_eq_true_eq]
  exact ⟨fun h' => h'.2, fun h' => ⟨h e h', h'⟩⟩

theorem oiMembers_nodup (nE : Nat) (M : Finset Nat) : (oiMembers nE M).Nodup := List.Nodup.filter _ List.nodup_range

theorem oiMembers_toFinset {nE : Nat} {M : Finset Nat} (h : ∀ e ∈ M, e < nE) : (oiMembers nE M).toFinset = M := by
  ext e
  rw [List.mem_toFinset, mem_oiMembers h]

theorem oiMembers_length {nE : Nat} {M : Finset Nat} (h : ∀ e ∈ M, e < nE) : (oiMembers nE M).length = M.card := by
  have := List.toFinset_card_of_nodup (oiMembers_nodup nE M)
  rw [oiMembers_toFinset h] at this
  exact this.symm

theorem oiMembers_sum {nE : Nat} {M : Finset Nat} (h : ∀ e ∈ M, e < nE) (p : Nat → K) : ((oiMembers nE M).map p).sum = ∑ e ∈ M, p e := by
  have := List.sum_toFinset p (oiMembers_nodup nE M)
  rw [oiMembers_toFinset h] at this
  exact this.symm

theorem oiValidEns_eq {nY nX nE : Nat} (hY : 0 < nY) (hX : 0 < nX) {M : Finset Nat} {f : Nat → Nat → Nat → Fl K}
    (h1 : ∀ y < nY, ∀ x < nX, ∀ e ∈ M, Client.isValid (f y x e) = true) (h2 : ∀ y < nY, ∀ x < nX, ∀ e < nE, e ∉ M → f y x e = Client.MV) :
    oiValidEns nY nX nE f = oiMembers nE M := by
  unfold oiValidEns oiMembers
  apply List.filter_congr
  intro e he
  by_cases hm : e ∈ M
  · rw [decide_eq_true hm, List.all_eq_true]
    intro x hx
    rw [List.all_eq_true]
    intro y hy
    exact h1 y (List.mem_range.mp hy) x (List.mem_range.mp hx) e hm
  · rw [decide_eq_false hm, List.all_eq_false]
    refine ⟨0, by simpa using hX, ?_⟩
    rw [List.all_eq_true]
    intro hh
    have := hh 0 (by simpa using hY)
    rw [h2 0 hY 0 hX e (List.mem_range.mp he) hm] at this
    simp [Client.isValid, Client.MV] at this

end Gridpp.Client
