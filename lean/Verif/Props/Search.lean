import Verif.Lemmas.Search
import Verif.Base.Loops
import Verif.Base.Inst

/-! # C64: neighbourhood_search -/

set_option linter.unusedSectionVars false

namespace Gridpp.Props
open Fl Res Spec

section
variable {K : Type} [Field K] [LinearOrder K] [IsStrictOrderedRing K]

/-- The cell is searched: its search value is valid and it is flagged, or there are no flags. -/
def Searched (search : List (List (Fl K))) (apply : List (List Int)) (y x : Nat) (here : Fl K) : Prop :=
  cell? search y x = some here ∧ here.isValid = true ∧ (apply = [] ∨ cell? apply y x = some 1)

theorem searchRows {Y X : Nat} {array search : List (List (Fl K))} (ha : Rect Y X array) (hw : Int) (tmin tmax delta : Fl K) (apply : List (List Int)) :
    mapM (searchRow array search Y X hw tmin tmax delta apply) (upto Y) = grid2 Y X (searchCell array search Y X hw tmin tmax delta apply) := by
  unfold grid2
  refine mapM_congr fun y hy => ?_
  obtain ⟨k, hk, rfl⟩ : ∃ k : Nat, k < Y ∧ (k : Int) = y := by simpa [upto] using hy
  have hl : k < array.length := by rw [ha.1]; exact hk
  unfold searchRow
  rw [vget_eq_ok_of_lt hl, ok_bind, ha.row_length hl]
  simp only [lt_irrefl, if_false, Nat.sub_self, List.replicate_zero, List.append_nil]
  cases mapM (searchCell array search Y X hw tmin tmax delta apply k) (upto X) <;> rfl

theorem searchWindow_inactive {Y X : Nat} {array search : List (List (Fl K))} (ha : Rect Y X array) (hs : Rect Y X search) (hw : Nat) {y x : Nat}
    (hy : y < Y) (hx : x < X) (tmin tmax delta here : Fl K) :
    searchWindow array search Y X hw tmin tmax delta here false y x = vget2 array (y : Int) (x : Int) := by
  unfold searchWindow
  rw [search_inactive ha hs hw hy hx, ok_bind]
  rfl

theorem searchWindow_active {Y X : Nat} {array search : List (List (Fl K))} (ha : Rect Y X array) (hs : Rect Y X search) (hw : Nat) {y x : Nat}
    (hy : y < Y) (hx : x < X) (tmin tmax delta here own : Fl K) (ho : vget2 array (y : Int) (x : Int) = ok own) :
    ∃ v, searchWindow array search Y X hw tmin tmax delta here true y x = ok v ∧
      IsSearchResult (windowPairs search array hw y x) tmin tmax delta here own v := by
  unfold searchWindow
  obtain ⟨s, h1, h2, h3, h4⟩ := search_loop ha hs hw hy hx tmin tmax delta here
  rw [h1, ok_bind]
  generalize windowPairs search array hw y x = P at *
  by_cases hT : P.filter (fun p => inTarget tmin tmax p.1) = []
  · rw [hT] at h2
    rw [if_neg (by rw [h2]; simp)]
    rcases h4 hT with ⟨hC, hn⟩ | ⟨s0, a0, hn, hb, hr⟩
    · rw [hn, if_neg (by simp [isValid])]
      exact ⟨own, ho, fun h => absurd hT h, fun _ => ⟨fun _ => rfl, fun h => absurd hC h⟩⟩
    · rw [hn, if_pos (by rfl)]
      refine ⟨_, hr, fun h => absurd hT h, fun _ => ⟨fun h => ?_, fun _ => ⟨s0, a0, hb, rfl⟩⟩⟩
      obtain ⟨l1, l2, e, -⟩ := hb
      rw [e] at h
      simp at h
  · have hp : 0 < (P.filter fun p => inTarget tmin tmax p.1).length := List.length_pos_iff.mpr hT
    have hne : (((P.filter fun p => inTarget tmin tmax p.1).length : Nat) : K) ≠ 0 := by
      have : (P.filter fun p => inTarget tmin tmax p.1).length ≠ 0 := by omega
      exact_mod_cast this
    rw [h2, h3, if_pos hp, Fl.ofNat_def, fin_div_of_ne _ hne]
    refine ⟨_, rfl, fun _ => ?_, fun h => absurd h hT⟩
    unfold mean
    rw [List.length_map]

/-- **C64**. For fields of the same size and flags of the same size or none: a cell that is not searched keeps its value. A searched cell
gets the mean of the values in the target range in its window; if there are none, the value of the closest candidate; if there are none, its
own value. Nothing outside the fields is read. -/
theorem c64_search (Y X : Nat) (array search : List (List (Fl K))) (ha : Rect Y X array) (hs : Rect Y X search) (hY : 0 < Y) (hw : Nat)
    (tmin tmax delta : Fl K) (ht : tmin.gt tmax = false) (apply : List (List Int)) (hp : apply = [] ∨ Rect Y X apply) :
    ∃ out, neighbourhoodSearch array search hw tmin tmax delta apply = ok out ∧ Rect Y X out ∧
      ∀ y < Y, ∀ x < X, ∃ v own, cell? out y x = some v ∧ cell? array y x = some own ∧
        (∀ here, Searched search apply y x here → IsSearchResult (windowPairs search array hw y x) tmin tmax delta here own v) ∧
        ((∀ here, ¬ Searched search apply y x here) → v = own) := by
  obtain ⟨r0, t, e0⟩ := List.exists_cons_of_ne_nil (l := array) (by rintro rfl; have := ha.1; simp at this; omega)
  obtain ⟨s0, t', e1⟩ := List.exists_cons_of_ne_nil (l := search) (by rintro rfl; have := hs.1; simp at this; omega)
  have hl0 : r0.length = X := ha.2 r0 (by rw [e0]; simp)
  have hl1 : s0.length = X := hs.2 s0 (by rw [e1]; simp)
  have g0 : vget array 0 = ok r0 := by rw [e0]; rfl
  have g1 : vget search 0 = ok s0 := by rw [e1]; rfl
  have hsz : searchSizeOk array search = ok true := by
    unfold searchSizeOk
    rw [if_neg (by rw [ha.1, hs.1]; simp), g1, ok_bind, g0, ok_bind, hl0, hl1]
    simp
  have hap : applySizeOk array apply = ok true := by
    unfold applySizeOk
    by_cases h1 : apply.length ≤ 1
    · rw [if_pos h1]
    · rw [if_neg h1]
      rcases hp with rfl | hp
      · simp at h1
      · obtain ⟨p0, t'', e2⟩ := List.exists_cons_of_ne_nil (l := apply) (by rintro rfl; simp at h1)
        have hl2 : p0.length = X := hp.2 p0 (by rw [e2]; simp)
        have g2 : vget apply 0 = ok p0 := by rw [e2]; rfl
        rw [if_neg (by rw [hp.1, ha.1]; simp), g2, ok_bind, g0, ok_bind, hl0, hl2]
        simp
  unfold neighbourhoodSearch
  rw [if_neg (by simp [ht]), if_neg (by omega), hsz, ok_bind, if_neg (by simp), hap, ok_bind, if_neg (by simp), g0, ok_bind, hl0, ha.1, searchRows ha]
  obtain ⟨out, h1, h2, h3⟩ := grid2_exists (Y := Y) (X := X) (f := searchCell array search Y X hw tmin tmax delta apply)
    (P := fun y x v => ∃ own, cell? array y x = some own ∧
        (∀ here, Searched search apply y x here → IsSearchResult (windowPairs search array hw y x) tmin tmax delta here own v) ∧
        ((∀ here, ¬ Searched search apply y x here) → v = own)) (fun y hy x hx => by
      obtain ⟨own, o1, o2⟩ := vget2_of_rect ha hy hx
      obtain ⟨here, k1, k2⟩ := vget2_of_rect hs hy hx
      unfold searchCell
      rw [k2, ok_bind]
      by_cases hv : here.isValid = true
      · rw [if_neg (by simp [hv])]
        rcases hp with rfl | hp
        · rw [if_pos (by rfl)]
          obtain ⟨v, v1, v2⟩ := searchWindow_active ha hs hw hy hx tmin tmax delta here own o2
          refine ⟨v, v1, own, o1, fun h' hh => ?_, fun h => absurd ⟨k1, hv, Or.inl rfl⟩ (h here)⟩
          have : here = h' := by have := hh.1; rw [k1] at this; simpa using this
          subst this
          exact v2
        · obtain ⟨a, a1, a2⟩ := vget2_of_rect hp hy hx
          have hne : apply ≠ [] := by rintro rfl; have := hp.1; simp at this; omega
          rw [if_neg (by simpa using hne), a2, ok_bind]
          by_cases h1 : a = 1
          · subst h1
            rw [if_neg (by omega), show decide ((1 : Int) = 1) = true from rfl]
            obtain ⟨v, v1, v2⟩ := searchWindow_active ha hs hw hy hx tmin tmax delta here own o2
            refine ⟨v, v1, own, o1, fun h' hh => ?_, fun h => absurd ⟨k1, hv, Or.inr a1⟩ (h here)⟩
            have : here = h' := by have := hh.1; rw [k1] at this; simpa using this
            subst this
            exact v2
          · have hno : ∀ h', ¬ Searched search apply y x h' := by
              rintro h' ⟨-, -, h | h⟩
              · exact hne h
              · rw [a1] at h; exact h1 (by simpa using h)
            refine ⟨own, ?_, own, o1, fun h' hh => absurd hh (hno h'), fun _ => rfl⟩
            by_cases h0 : a = 0
            · rw [if_pos h0, o2]
            · rw [if_neg h0, decide_eq_false h1, searchWindow_inactive ha hs hw hy hx, o2]
      · rw [if_pos (by simp [hv]), o2]
        refine ⟨own, rfl, own, o1, fun h' hh => ?_, fun _ => rfl⟩
        have : here = h' := by have := hh.1; rw [k1] at this; simpa using this
        subst this
        exact absurd hh.2.1 hv)
  refine ⟨out, h1, h2, fun y hy x hx => ?_⟩
  obtain ⟨v, e1, -, own, e2, e3⟩ := h3 y hy x hx
  exact ⟨v, own, e1, e2, e3⟩

/-- **C64** (origin). Every output value is the cell's own value, the value of a valid cell of its window with a valid search value, or the
mean of such values in the target range. -/
theorem c64_origin (P : List (K × K)) (tmin tmax delta here own v : Fl K) (h : IsSearchResult P tmin tmax delta here own v) :
    v = own ∨ (∃ p ∈ P, v = fin p.2 ∧ farEnough delta here p.1 = true) ∨
      ∃ Q : List (K × K), Q ≠ [] ∧ (∀ p ∈ Q, p ∈ P ∧ inTarget tmin tmax p.1 = true) ∧ v = fin (mean (Q.map Prod.snd)) := by
  by_cases hT : P.filter (fun p => inTarget tmin tmax p.1) = []
  · obtain ⟨h1, h2⟩ := h.2 hT
    by_cases hC : P.filter (fun p => farEnough delta here p.1) = []
    · exact Or.inl (h1 hC)
    · obtain ⟨s, a, ⟨l1, l2, e, -⟩, hv⟩ := h2 hC
      have hm : (s, a) ∈ P.filter (fun p => farEnough delta here p.1) := by rw [e]; simp
      rw [List.mem_filter] at hm
      exact Or.inr (Or.inl ⟨(s, a), hm.1, hv, hm.2⟩)
  · exact Or.inr (Or.inr ⟨_, hT, fun p hp => List.mem_filter.mp hp, h.1 hT⟩)

/-- The closest candidate, for a finite target range, has the smallest distance to the nearer end of the range. -/
theorem c64_closest (lo hi : K) (C : List (K × K)) (s a : K) (h : IsFirstClosest (fin lo) (fin hi) C s a) :
    (s, a) ∈ C ∧ ∀ p ∈ C, min |s - lo| |s - hi| ≤ min |p.1 - lo| |p.1 - hi| := by
  obtain ⟨l1, l2, rfl, h1, h2⟩ := h
  refine ⟨by simp, fun p hp => ?_⟩
  rw [List.mem_append, List.mem_cons] at hp
  rcases hp with hp | rfl | hp
  · have := h1 p hp
    rw [rangeDist_fin, rangeDist_fin, lt_fin] at this
    exact le_of_lt (by simpa using this)
  · exact le_refl _
  · have := h2 p hp
    rw [rangeDist_fin, rangeDist_fin, lt_fin] at this
    exact not_lt.mp (of_decide_eq_false this)

/-- **C64** (errors). Reversed target range, negative half width, a search field with another number of rows or another length of the first row,
flags with more than one row and another size. -/
theorem c64_throws (array search : List (List (Fl K))) (hw : Int) (tmin tmax delta : Fl K) (apply : List (List Int)) (ha : array ≠ [])
    (h : tmin.gt tmax = true ∨ hw < 0 ∨ search.length ≠ array.length ∨ (search.headD []).length ≠ (array.headD []).length ∨
      (1 < apply.length ∧ (apply.length ≠ array.length ∨ (apply.headD []).length ≠ (array.headD []).length))) :
    neighbourhoodSearch array search hw tmin tmax delta apply = .throw .invalidArgument := by
  unfold neighbourhoodSearch
  by_cases h1 : tmin.gt tmax = true
  · rw [if_pos h1]
  rw [if_neg h1]
  by_cases h2 : hw < 0
  · rw [if_pos h2]
  rw [if_neg h2]
  obtain ⟨r0, t, rfl⟩ := List.exists_cons_of_ne_nil ha
  unfold searchSizeOk applySizeOk
  by_cases h3 : search.length = (r0 :: t).length
  · obtain ⟨s0, t', rfl⟩ := List.exists_cons_of_ne_nil (l := search) (by rintro rfl; simp at h3)
    rw [if_neg (by simpa using h3)]
    simp only [vget_zero_cons, ok_bind]
    by_cases h4 : s0.length = r0.length
    · rw [decide_eq_true h4, if_neg (by simp)]
      have h5 : 1 < apply.length ∧ (apply.length ≠ (r0 :: t).length ∨ (apply.headD []).length ≠ r0.length) := by
        rcases h with h | h | h | h | h
        · exact absurd h h1
        · exact absurd h h2
        · exact absurd h3 h
        · exact absurd h4 h
        · exact h
      rw [if_neg (by omega)]
      by_cases h6 : apply.length = (r0 :: t).length
      · rw [if_neg (by simpa using h6)]
        obtain ⟨p0, t'', rfl⟩ := List.exists_cons_of_ne_nil (l := apply) (by rintro rfl; simp at h5)
        have h7 : p0.length ≠ r0.length := by
          rcases h5.2 with h | h
          · exact absurd h6 h
          · exact h
        simp [h7]
      · rw [if_pos h6]; rfl
    · rw [decide_eq_false h4]; rfl
  · rw [if_pos h3]; rfl

end

/-- **C64** fails: flags of one row are not checked against a field of two rows, and are then read outside; empty fields are read before any
check, and rows of different length are not noticed. -/
theorem c64_unchecked :
    neighbourhoodSearch [[fin (1 : ℚ)], [fin 2]] [[fin 1], [fin 2]] 1 (fin 0) (fin 1) (fin 0) [[1]] = ub ∧
    neighbourhoodSearch [[fin (1 : ℚ), fin 2]] [[fin 1, fin 2]] 1 (fin 0) (fin 1) (fin 0) [[1]] = ub ∧
    neighbourhoodSearch ([] : List (List (Fl ℚ))) [] 1 (fin 0) (fin 1) (fin 0) [] = ub ∧
    neighbourhoodSearch [[fin (1 : ℚ)], [fin 2]] [[fin 1], []] 1 (fin 0) (fin 1) (fin 0) [] = ub := by
  decide +kernel

/-- Flags other than 0 and 1 also keep the value; the three outcomes for searched cells. -/
example : neighbourhoodSearch [[fin (10 : ℚ), fin 20, nan], [fin 40, fin 50, fin 60]] [[fin 1, fin 5, fin 5], [fin 6, nan, fin 2]] 1 (fin 5) (fin 6) (fin 1)
      [[1, 2, 1], [0, 1, 1]] = ok [[fin 30, fin 20, fin 20], [fin 40, fin 50, fin 20]] ∧
    neighbourhoodSearch [[fin (10 : ℚ), fin 20, fin 30]] [[fin 1, fin 3, fin 2]] 1 (fin 5) (fin 6) (fin 1) [] = ok [[fin 20, fin 30, fin 20]] ∧
    neighbourhoodSearch [[fin (10 : ℚ), fin 20, fin 30]] [[fin 1, fin 3, fin 2]] 1 (fin 5) (fin 6) (fin 9) [] = ok [[fin 10, fin 20, fin 30]] := by
  decide +kernel

end Gridpp.Props
