import Verif.Lemmas.Radius
import Verif.Lemmas.Fill
import Verif.Model.Gridding

/-! Helpers for C40–C42. -/

set_option linter.unusedSectionVars false

namespace Gridpp
open Fl Res

theorem foldM_upto_inv {β : Type} {f : β → Int → Res β} {P : Nat → β → Prop} (n : Nat) {b : β} (h0 : P 0 b)
    (hs : ∀ i < n, ∀ b, P i b → ∃ b', f b (i : Int) = ok b' ∧ P (i + 1) b') : ∃ b', foldM f b (upto n) = ok b' ∧ P n b' := by
  induction n with
  | zero => exact ⟨b, rfl, h0⟩
  | succ n ih =>
    obtain ⟨c, h1, h2⟩ := ih fun i hi => hs i (by omega)
    obtain ⟨d, h3, h4⟩ := hs n (by omega) c h2
    exact ⟨d, by rw [upto_succ_last, foldM_append, h1, ok_bind, foldM_cons, h3]; rfl, h4⟩

theorem mapM_vget_filterMap {α : Type} (values : List α) (l : List Nat) (h : ∀ i ∈ l, i < values.length) :
    mapM (fun i : Nat => vget values (i : Int)) l = ok (l.filterMap fun i => values[i]?) := by
  induction l with
  | nil => rfl
  | cons a t ih =>
    have ha := h a (by simp)
    rw [mapM_cons, vget_eq_ok_of_lt ha, ok_bind, ih fun i hi => h i (by simp [hi]), ok_bind,
      List.filterMap_cons_some (List.getElem?_eq_getElem ha)]

/-- Values of the positions below `n` that `near` maps to `c`, in order. -/
def groupOf {ι α : Type} [DecidableEq ι] (near : Nat → ι) (values : List α) (n : Nat) (c : ι) : List α :=
  ((List.range n).filter fun i => near i = c).filterMap fun i => values[i]?

theorem groupOf_succ {ι α : Type} [DecidableEq ι] (near : Nat → ι) (values : List α) (n : Nat) (c : ι) (v : α) (hv : values[n]? = some v) :
    groupOf near values (n + 1) c = if near n = c then groupOf near values n c ++ [v] else groupOf near values n c := by
  unfold groupOf
  rw [List.range_succ, List.filter_append]
  by_cases h : near n = c
  · simp [h, hv]
  · simp [h]

theorem groupOf_length {ι α : Type} [DecidableEq ι] (near : Nat → ι) (values : List α) (n : Nat) (hn : n ≤ values.length) (c : ι) :
    (groupOf near values n c).length = ((List.range n).filter fun i => near i = c).length := by
  induction n with
  | zero => rfl
  | succ n ih =>
    rw [groupOf_succ near values n c _ (List.getElem?_eq_getElem (by omega)), List.range_succ, List.filter_append]
    by_cases h : near n = c
    · simp [h, ih (by omega)]
    · simp [h, ih (by omega)]

section
variable {K : Type} [Field K] [LinearOrder K] [IsStrictOrderedRing K] [HasGeo K]

theorem push2_rect {α : Type} {Y X : Nat} {temp : List (List (List α))} (h : Rect Y X temp) {y x : Nat} (hy : y < Y) (hx : x < X) (v : α) :
    ∃ t', push2 temp (y : Int) (x : Int) v = ok t' ∧ Rect Y X t' ∧
      ∀ y' x', cell? t' y' x' = if y' = y ∧ x' = x then (cell? temp y x).map (· ++ [v]) else cell? temp y' x' := by
  obtain ⟨a, a1, a2⟩ := vget2_of_rect h hy hx
  obtain ⟨t', b1, b2, b3⟩ := vset2_rect h hy hx (a ++ [v])
  refine ⟨t', by unfold push2; rw [a2, ok_bind, b1], b2, fun y' x' => ?_⟩
  rw [b3, a1]; rfl

theorem push1_ok {α : Type} {temp : List (List α)} {i : Nat} (hi : i < temp.length) (v : α) :
    ∃ t', push1 temp (i : Int) v = ok t' ∧ t'.length = temp.length ∧
      ∀ j, t'[j]? = if j = i then temp[i]?.map (· ++ [v]) else temp[j]? := by
  refine ⟨temp.set i (temp[i] ++ [v]), ?_, by simp, fun j => ?_⟩
  · unfold push1 vmodify
    rw [vget_eq_ok_of_lt hi, ok_bind, vset_nat _ hi]
  · rw [List.getElem?_set]
    by_cases h : j = i
    · subst h; simp [hi]
    · rw [if_neg (Ne.symm h), if_neg h]

theorem maxDist_foldl (ds : List K) (m : K) :
    ∃ d : K, (ds.map fin).foldl maxDist (fin m) = fin d ∧ m ≤ d ∧ (∀ x ∈ ds, x ≤ d) ∧ (d = m ∨ d ∈ ds) := by
  induction ds generalizing m with
  | nil => exact ⟨m, rfl, le_refl _, by simp, Or.inl rfl⟩
  | cons a t ih =>
    by_cases h : m < a
    · obtain ⟨d, h1, h2, h3, h4⟩ := ih a
      refine ⟨d, ?_, le_trans (le_of_lt h) h2, ?_, ?_⟩
      · rw [List.map_cons, List.foldl_cons]
        have : maxDist (fin m) (fin a) = fin a := by simp [maxDist, h]
        rw [this, h1]
      · rintro x (_ | ⟨_, hx⟩)
        · exact h2
        · exact h3 x hx
      · rcases h4 with h4 | h4
        · right; rw [h4]; simp
        · right; simp [h4]
    · obtain ⟨d, h1, h2, h3, h4⟩ := ih m
      refine ⟨d, ?_, h2, ?_, ?_⟩
      · rw [List.map_cons, List.foldl_cons]
        have : maxDist (fin m) (fin a) = fin m := by simp [maxDist, h]
        rw [this, h1]
      · rintro x (_ | ⟨_, hx⟩)
        · exact le_trans (not_lt.mp h) h2
        · exact h3 x hx
      · rcases h4 with h4 | h4
        · exact Or.inl h4
        · right; simp [h4]

end
end Gridpp
