import Verif.Model.Client.OiAnalysis
import Verif.Lemmas.OI2
import Verif.Spec.ClientOi

/-! Lemmas about the stations of the calibrator `oi`. -/

set_option linter.unusedSectionVars false

namespace Gridpp.Client
open Fl hiding MV isValid
open Res Client

variable {K : Type} [Field K] [LinearOrder K] [IsStrictOrderedRing K]

theorem filterMap_ite {α : Type} (p : Nat → Bool) (f : Nat → α) (l : List Nat) :
    (l.map fun i => if p i = true then some (f i) else none).filterMap id = (l.filter p).map f := by
  induction l with
  | nil => rfl
  | cons a t ih =>
    rw [List.map_cons]
    by_cases h : p a = true
    · rw [if_pos h, List.filterMap_cons_some (by rfl), ih, List.filter_cons_of_pos h, List.map_cons]
    · rw [if_neg h, List.filterMap_cons_none (by rfl), ih, List.filter_cons_of_neg h]

/-- The position found by the search for the greatest correlation. -/
theorem oiBest_eq (rho : Nat → K) (idx : List Nat) (hp : ∀ i ∈ idx, 0 < rho i) (hne : idx ≠ []) :
    ∃ k, ∃ h : k < idx.length, (oiBest (rhoPairs rho idx)).2 = some k ∧ ∀ i ∈ idx, rho i ≤ rho idx[k] := by
  have key : ∀ l : List Nat, (∀ i ∈ l, 0 < rho i) →
      ((l = [] ∧ (rhoPairs rho l).foldl (fun (s : Nat × (Fl K × Option Nat)) p => (s.1 + 1, if p.1.gt s.2.1 then (p.1, some s.1) else s.2))
        (0, (0, none)) = (0, (0, none))) ∨
      ∃ k, ∃ h : k < l.length, (rhoPairs rho l).foldl (fun (s : Nat × (Fl K × Option Nat)) p =>
        (s.1 + 1, if p.1.gt s.2.1 then (p.1, some s.1) else s.2)) (0, (0, none)) = (l.length, (fin (rho l[k]), some k)) ∧
        ∀ i ∈ l, rho i ≤ rho l[k]) := by
    intro l
    induction l using List.reverseRecOn with
    | nil => intro _; exact Or.inl ⟨rfl, rfl⟩
    | append_singleton l a ih =>
      intro h
      right
      have ha : 0 < rho a := h a (by simp)
      unfold rhoPairs at ih ⊢
      rw [List.map_append, List.foldl_append]
      rcases ih (fun i hi => h i (by simp [hi])) with ⟨h1, h2⟩ | ⟨k, hk, h2, h3⟩
      · subst h1
        refine ⟨0, by simp, ?_, by simp⟩
        have e : (fin (rho a) : Fl K).gt 0 = true := by show (fin (rho a) : Fl K).gt (fin 0) = true; simpa using ha
        simpa [e] using ha
      · rw [h2]
        simp only [List.map_cons, List.map_nil, List.foldl_cons, List.foldl_nil]
        by_cases hc : rho l[k] < rho a
        · refine ⟨l.length, by simp, ?_, ?_⟩
          · rw [if_pos (by simpa using hc)]; simp
          · intro i hi
            rw [List.getElem_concat_length (by rfl)]
            rcases List.mem_append.mp hi with hi | hi
            · exact (h3 i hi).trans hc.le
            · rw [List.mem_singleton.mp hi]
        · refine ⟨k, by simp; omega, ?_, ?_⟩
          · rw [if_neg (by simpa using hc)]
            simp [List.getElem_append_left hk]
          · intro i hi
            rw [List.getElem_append_left hk]
            rcases List.mem_append.mp hi with hi | hi
            · exact h3 i hi
            · rw [List.mem_singleton.mp hi]; exact not_lt.mp hc
  rcases key idx hp with ⟨h1, -⟩ | ⟨k, hk, h2, h3⟩
  · exact absurd h1 hne
  · refine ⟨k, hk, ?_, h3⟩
    unfold oiBest
    rw [h2]

theorem oiDropBest_eq (cv : Bool) (rho : Nat → K) (idx : List Nat) (hn : idx.Nodup) (hp : ∀ i ∈ idx, 0 < rho i) :
    ∃ idx', oiDropBest cv (rhoPairs rho idx) = rhoPairs rho idx' ∧ idx'.Nodup ∧ (cv = false → idx' = idx) ∧
      (cv = true → Spec.WithoutBest (· ∈ idx) rho (· ∈ idx')) := by
  unfold oiDropBest
  cases cv with
  | false => exact ⟨idx, rfl, hn, fun _ => rfl, fun h => by cases h⟩
  | true =>
    rw [if_pos rfl]
    rcases eq_or_ne idx [] with h | h
    · subst h
      exact ⟨[], rfl, List.nodup_nil, fun h => (by cases h), fun _ => Or.inl (by simp)⟩
    · obtain ⟨k, hk, h2, h3⟩ := oiBest_eq rho idx hp h
      rw [h2]
      refine ⟨idx.eraseIdx k, ?_, hn.sublist (List.eraseIdx_sublist _ _), fun h => (by cases h), fun _ => Or.inr ⟨idx[k], List.getElem_mem hk, h3, ?_⟩⟩
      · show (rhoPairs rho idx).eraseIdx k = _
        unfold rhoPairs
        rw [List.eraseIdx_map]
      · intro i
        have e : idx.eraseIdx k = idx.erase idx[k] := (List.Nodup.erase_getElem hn k hk).symm
        show i ∈ idx.eraseIdx k ↔ i ∈ idx ∧ i ≠ idx[k]
        rw [e, hn.mem_erase_iff]
        tauto

theorem oiLimitLocations_eq {A : Arma K} (hA : A.Lawful) (max : Int) (rho : Nat → K) (idx : List Nat) (hn : idx.Nodup) :
    ∃ sel, oiLimitLocations A max (rhoPairs rho idx) = rhoPairs rho sel ∧ Spec.Best (· ∈ idx) rho (if 0 ≤ max then some max.toNat else none) sel := by
  unfold oiLimitLocations
  by_cases h : 0 ≤ max ∧ max < ((rhoPairs rho idx).length : Int)
  · rw [if_pos h, if_pos h.1]
    rcases h.1.lt_or_eq with h0 | h0
    · obtain ⟨r, h1, h2, h3, h4, -, h6⟩ := oiSelect_eq hA max h.1 rho idx hn
      unfold oiSelect at h1
      rw [if_pos ⟨h0, h.2⟩] at h1
      refine ⟨r, h1, h2, h3, fun m hm => ?_, fun i hi => ?_⟩
      · cases hm; omega
      · rcases h6 i hi with h6 | ⟨h6, -, h7⟩
        · exact Or.inl h6
        · exact Or.inr ⟨by congr 1; omega, h7⟩
    · refine ⟨[], by rw [← h0]; rfl, List.nodup_nil, by simp, by simp, fun i hi => Or.inr ⟨by rw [← h0]; rfl, by simp⟩⟩
  · rw [if_neg h]
    refine ⟨idx, rfl, hn, fun i hi => hi, fun m hm => ?_, fun i hi => Or.inl hi⟩
    split_ifs at hm with h0
    · cases hm
      have : ¬ max < ((rhoPairs rho idx).length : Int) := fun hh => h ⟨h0, hh⟩
      simp only [rhoPairs, List.length_map] at this
      omega
    · cases hm

end Gridpp.Client
