import Verif.Model.Search
import Verif.Spec.Search
import Verif.Lemmas.CalcGradient

/-! Lemmas for neighbourhood_search. -/

set_option linter.unusedSectionVars false

namespace Gridpp
open Fl Res Spec

section
variable {K : Type} [Field K] [LinearOrder K] [IsStrictOrderedRing K]

theorem targetDistance_eq (tmin tmax : Fl K) (s : K) : targetDistance tmin tmax (fin s) = rangeDist tmin tmax s := rfl

theorem rangeDist_fin (lo hi s : K) : rangeDist (fin lo) (fin hi) s = fin (min |s - lo| |s - hi|) := by
  unfold rangeDist
  rw [fin_sub, fin_sub]
  show (if (fin |s - hi|).lt (fin |s - lo|) then fin |s - hi| else fin |s - lo|) = _
  rw [lt_fin]
  by_cases h : |s - hi| < |s - lo|
  · rw [if_pos (by simpa using h), min_eq_right h.le]
  · rw [if_neg (by simpa using h), min_eq_left (not_lt.mp h)]

theorem lt_nan_left {a b : Fl K} (h : a.lt b = true) : a ≠ nan := by
  rintro rfl; simp [lt] at h

theorem lt_nan_right {a b : Fl K} (h : a.lt b = true) : b ≠ nan := by
  rintro rfl; cases a <;> simp [lt] at h

theorem abs_sub_nan {s : K} {t : Fl K} : Fl.abs (fin s - t) = nan ↔ t = nan := by
  cases t with
  | nan => exact ⟨fun _ => rfl, fun _ => rfl⟩
  | pinf => exact ⟨fun h => absurd (show (pinf : Fl K) = nan from h) (by simp), fun h => by cases h⟩
  | ninf => exact ⟨fun h => absurd (show (pinf : Fl K) = nan from h) (by simp), fun h => by cases h⟩
  | fin q => exact ⟨fun h => absurd (show (fin |s - q| : Fl K) = nan from by rw [fin_sub] at h; exact h) (by simp), fun h => by cases h⟩

/-- Distances are NaN exactly if the lower end is NaN. -/
theorem rangeDist_ne_nan {tmin tmax : Fl K} {s : K} : rangeDist tmin tmax s = nan ↔ tmin = nan := by
  unfold rangeDist
  split
  · rename_i h
    exact ⟨fun hc => absurd hc (lt_nan_left h), fun hc => absurd (abs_sub_nan.mpr hc) (lt_nan_right h)⟩
  · exact abs_sub_nan

theorem lt_of_lt_not_lt {a b c : Fl K} (h1 : a.lt b = true) (h2 : c.lt b = false) (hc : c ≠ nan) : a.lt c = true := by
  cases a <;> cases b <;> cases c <;> simp_all [lt]
  exact lt_of_lt_of_le h1 h2

theorem flt_trans {a b c : Fl K} (h1 : a.lt b = true) (h2 : b.lt c = true) : a.lt c = true := by
  cases a <;> cases b <;> cases c <;> simp_all [lt]
  exact lt_trans h1 h2

/-- The state of the search for the closest candidate. -/
def ClosestAt (tmin tmax : Fl K) (C : List (K × K)) (c : Fl K) (r : Res (Fl K)) : Prop :=
  (C = [] ∧ c = nan) ∨ ∃ s a, c = fin s ∧ IsFirstClosest tmin tmax C s a ∧ r = ok (fin a)

theorem closest_replace {tmin tmax : Fl K} {C : List (K × K)} {s a s' a' : K} (h : IsFirstClosest tmin tmax C s a)
    (hlt : (rangeDist tmin tmax s').lt (rangeDist tmin tmax s) = true) : IsFirstClosest tmin tmax (C ++ [(s', a')]) s' a' := by
  obtain ⟨l1, l2, rfl, h1, h2⟩ := h
  refine ⟨l1 ++ (s, a) :: l2, [], rfl, fun p hp => ?_, by simp⟩
  rw [List.mem_append, List.mem_cons] at hp
  rcases hp with hp | rfl | hp
  · exact flt_trans hlt (h1 p hp)
  · exact hlt
  · refine lt_of_lt_not_lt hlt (h2 p hp) fun hn => ?_
    exact lt_nan_left hlt (rangeDist_ne_nan.mpr (rangeDist_ne_nan.mp hn))

theorem closest_keep {tmin tmax : Fl K} {C : List (K × K)} {s a s' a' : K} (h : IsFirstClosest tmin tmax C s a)
    (hlt : (rangeDist tmin tmax s').lt (rangeDist tmin tmax s) = false) : IsFirstClosest tmin tmax (C ++ [(s', a')]) s a := by
  obtain ⟨l1, l2, rfl, h1, h2⟩ := h
  refine ⟨l1, l2 ++ [(s', a')], by simp, h1, fun p hp => ?_⟩
  rw [List.mem_append, List.mem_singleton] at hp
  rcases hp with hp | rfl
  · exact h2 p hp
  · exact hlt

/-- The state after the window loops. -/
theorem search_loop {Y X : Nat} {array search : List (List (Fl K))} (ha : Rect Y X array) (hs : Rect Y X search) (hw : Nat) {y x : Nat}
    (hy : y < Y) (hx : x < X) (tmin tmax delta here : Fl K) :
    ∃ s : SearchState K, foldM (fun s yy => foldM (fun s xx => searchStep array search tmin tmax delta here true s yy xx) s
        (irange (max 0 ((x : Int) - hw)) (min ((X : Int) - 1) (x + hw))))
        { nearest := MV, pos := (0, 0), counter := 0, accum := fin 0 }
        (irange (max 0 ((y : Int) - hw)) (min ((Y : Int) - 1) (y + hw))) = ok s ∧
      s.counter = ((windowPairs search array hw y x).filter fun p => inTarget tmin tmax p.1).length ∧
      s.accum = fin (((windowPairs search array hw y x).filter fun p => inTarget tmin tmax p.1).map Prod.snd).sum ∧
      ((windowPairs search array hw y x).filter (fun p => inTarget tmin tmax p.1) = [] →
        ClosestAt tmin tmax ((windowPairs search array hw y x).filter fun p => farEnough delta here p.1) s.nearest (vget2 array s.pos.1 s.pos.2)) := by
  rw [foldM_square hy hx]
  have hwp : windowPairs search array hw y x = bothValid ((square (positions Y X) hw y x).map (pairAt search array (nan, nan))) := by
    unfold windowPairs
    rw [← square_pairField hs ha]
    rfl
  rw [hwp]
  refine foldM_list_inv (P := fun d (s : SearchState K) =>
      s.counter = ((bothValid (d.map (pairAt search array (nan, nan)))).filter fun p => inTarget tmin tmax p.1).length ∧
      s.accum = fin (((bothValid (d.map (pairAt search array (nan, nan)))).filter fun p => inTarget tmin tmax p.1).map Prod.snd).sum ∧
      ((bothValid (d.map (pairAt search array (nan, nan)))).filter (fun p => inTarget tmin tmax p.1) = [] →
        ClosestAt tmin tmax ((bothValid (d.map (pairAt search array (nan, nan)))).filter fun p => farEnough delta here p.1) s.nearest
          (vget2 array s.pos.1 s.pos.2))) ?_ ?_
  · exact ⟨rfl, by simp [bothValid], fun _ => Or.inl ⟨rfl, rfl⟩⟩
  · intro d p s hp hinv
    have hm := mem_positions.mp hp
    obtain ⟨e1, e2⟩ := read_pairAt hs ha (nan, nan) hm.1 hm.2.1
    rw [List.map_append, bothValid_append, List.map_singleton]
    unfold searchStep
    generalize hq : pairAt search array (nan, nan) p = q at *
    obtain ⟨u, w⟩ := q
    simp only at e1 e2
    rw [e1, ok_bind]
    by_cases hu : u.isValid
    · by_cases hwv : w.isValid
      · obtain ⟨sv, rfl⟩ := exists_fin_of_valid hu
        obtain ⟨av, rfl⟩ := exists_fin_of_valid hwv
        generalize bothValid (d.map (pairAt search array (nan, nan))) = D at *
        obtain ⟨h1, h2, h3⟩ := hinv
        rw [e2, ok_bind]
        simp only [isValid_fin, Bool.not_true, Bool.false_eq_true, if_false, if_true]
        rw [show bothValid [(fin sv, fin av)] = [(sv, av)] from rfl, List.filter_append, List.filter_append]
        have hT : ((fin sv).ge tmin && (fin sv).le tmax) = inTarget tmin tmax sv := rfl
        have hF : (Fl.abs (fin sv - here)).ge delta = farEnough delta here sv := rfl
        rw [hT, hF]
        by_cases ht : inTarget tmin tmax sv = true
        · rw [if_pos ht]
          refine ⟨_, rfl, ?_, ?_, ?_⟩
          · simp [ht, h1]
          · simp [ht, h2]
          · intro h; simp [ht] at h
        · rw [if_neg ht]
          have e : [(sv, av)].filter (fun p => inTarget tmin tmax p.1) = [] := by simp [ht]
          rw [e, List.append_nil]
          by_cases hc : 0 < s.counter
          · rw [if_pos hc]
            exact ⟨s, rfl, h1, h2, fun h => by rw [h1, h] at hc; simp at hc⟩
          · rw [if_neg hc]
            have hnil : D.filter (fun p => inTarget tmin tmax p.1) = [] := by
              rw [← List.length_eq_zero_iff, ← h1]; omega
            have h3 := h3 hnil
            by_cases hf : farEnough delta here sv = true
            · rw [if_pos hf]
              have e : [(sv, av)].filter (fun p => farEnough delta here p.1) = [(sv, av)] := by simp [hf]
              rw [e]
              rcases h3 with ⟨hC, hn⟩ | ⟨s0, a0, hn, hb, hr⟩
              · rw [hn, if_pos (by rfl)]
                refine ⟨_, rfl, h1, h2, fun _ => Or.inr ⟨sv, av, rfl, ?_, e2⟩⟩
                rw [hC]
                exact ⟨[], [], rfl, by simp, by simp⟩
              · rw [hn, if_neg (by simp [isValid]), targetDistance_eq, targetDistance_eq]
                by_cases hlt : (rangeDist tmin tmax sv).lt (rangeDist tmin tmax s0) = true
                · rw [if_pos hlt]
                  exact ⟨_, rfl, h1, h2, fun _ => Or.inr ⟨sv, av, rfl, closest_replace hb hlt, e2⟩⟩
                · rw [if_neg hlt]
                  exact ⟨_, rfl, h1, h2, fun _ => Or.inr ⟨s0, a0, hn, closest_keep hb (by simpa using hlt), hr⟩⟩
            · rw [if_neg hf]
              have e : [(sv, av)].filter (fun p => farEnough delta here p.1) = [] := by simp [hf]
              rw [e, List.append_nil]
              exact ⟨s, rfl, h1, h2, fun _ => h3⟩
      · have hwv : w.isValid = false := by simpa using hwv
        rw [bothValid_invalid (Or.inr hwv), List.append_nil]
        simp only [hu, Bool.not_true, Bool.false_eq_true, if_false, e2, ok_bind, hwv, Bool.not_false, if_true]
        exact ⟨s, rfl, hinv⟩
    · have hu : u.isValid = false := by simpa using hu
      rw [bothValid_invalid (Or.inl hu), List.append_nil]
      simp only [hu, Bool.not_false, if_true]
      exact ⟨s, rfl, hinv⟩

/-- An inactive cell collects nothing. -/
theorem search_inactive {Y X : Nat} {array search : List (List (Fl K))} (ha : Rect Y X array) (hs : Rect Y X search) (hw : Nat) {y x : Nat}
    (hy : y < Y) (hx : x < X) (tmin tmax delta here : Fl K) :
    foldM (fun s yy => foldM (fun s xx => searchStep array search tmin tmax delta here false s yy xx) s
        (irange (max 0 ((x : Int) - hw)) (min ((X : Int) - 1) (x + hw))))
        { nearest := MV, pos := (0, 0), counter := 0, accum := fin 0 }
        (irange (max 0 ((y : Int) - hw)) (min ((Y : Int) - 1) (y + hw))) = ok { nearest := MV, pos := (0, 0), counter := 0, accum := fin 0 } := by
  rw [foldM_square hy hx]
  obtain ⟨s, h1, h2⟩ := foldM_list_inv (P := fun _ (s : SearchState K) => s = { nearest := MV, pos := (0, 0), counter := 0, accum := fin 0 })
    (l := square (positions Y X) hw y x)
    (f := fun s p => searchStep array search tmin tmax delta here false s (p.1 : Int) (p.2 : Int))
    (s := { nearest := MV, pos := (0, 0), counter := 0, accum := fin 0 }) rfl (by
      intro d p s hp hinv
      have hm := mem_positions.mp hp
      obtain ⟨e1, e2⟩ := read_pairAt hs ha (nan, nan) hm.1 hm.2.1
      refine ⟨s, ?_, hinv⟩
      unfold searchStep
      rw [e1, ok_bind]
      split
      · rfl
      · rw [e2, ok_bind]
        split <;> rfl)
  rw [h1, h2]

end
end Gridpp
