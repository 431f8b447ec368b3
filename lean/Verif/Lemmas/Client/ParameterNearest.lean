import Verif.Lemmas.Client.ParameterFile
import Verif.Props.Client.KDTree

/-! # Lemmas for the nearest place with parameters -/

set_option linter.unusedSectionVars false

namespace Gridpp.Client
open Fl hiding MV isValid
open Res Spec Props

variable {K : Type} [Field K] [LinearOrder K] [IsStrictOrderedRing K]

theorem gap_nonneg [HasArcC K] (hpos : ∀ a b c d : K, 0 ≤ HasArcC.arc a b c d) (a b c d : K) : 0 ≤ gap a b c d := by
  unfold gap
  split_ifs
  · exact le_rfl
  · exact hpos _ _ _ _

theorem gap_self [HasArcC K] (a b : K) : gap a b a b = 0 := by simp [gap]

theorem isValid_of_nonneg {x : K} (h : 0 ≤ x) : Client.isValid (fin x : Fl K) = true :=
  isValid_iff_present.mpr ⟨x, rfl, by linarith⟩

theorem isValid_MV : Client.isValid (Client.MV : Fl K) = false := isValid_false_iff.mpr not_present_MV

namespace ParFile

/-- The distance of the place of an entry. -/
def dist [HasArcC K] (l : Loc K) (e : Loc K × List (Pars K)) : K := gap l.lat l.lon e.1.lat e.1.lon

theorem scan_from [HasArcC K] (hpos : ∀ a b c d : K, 0 ≤ HasArcC.arc a b c d) {l : Loc K} (hq : OnGlobe l.lat l.lon) (t : Nat)
    (m : ParMap K) (hm : ∀ e ∈ m, OnGlobe e.1.lat e.1.lon) (x : K) (hx : 0 ≤ x) (p : Loc K) :
    ∃ r, scan t l m (fin x, p) = ok r ∧
      ((r = (fin x, p) ∧ ∀ e ∈ m, e.2.getD t [] ≠ [] → x ≤ dist l e) ∨
        ∃ e ∈ m, e.2.getD t [] ≠ [] ∧ r = (fin (dist l e), e.1) ∧ dist l e < x ∧ ∀ e' ∈ m, e'.2.getD t [] ≠ [] → dist l e ≤ dist l e') := by
  induction m generalizing x p with
  | nil => exact ⟨_, rfl, .inl ⟨rfl, by simp⟩⟩
  | cons z m ih =>
    have hz := hm z (by simp)
    have hm' : ∀ e ∈ m, OnGlobe e.1.lat e.1.lon := fun e he => hm e (by simp [he])
    have hd : getDistance (fin l.lat) (fin l.lon) (fin z.1.lat) (fin z.1.lon) = ok (fin (dist l z)) := getDistance_ok hq hz
    have hv : Client.isValid (fin (dist l z) : Fl K) = true := isValid_of_nonneg (gap_nonneg hpos _ _ _ _)
    have hvx : Client.isValid (fin x : Fl K) = true := isValid_of_nonneg hx
    rw [scan, hd, hasAt_eq]
    simp only [ok_bind, hvx, hv, Bool.not_true, Bool.false_or, Bool.true_and, lt_fin]
    by_cases hc : dist l z < x ∧ z.2.getD t [] ≠ []
    · rw [if_pos (by simpa using hc)]
      obtain ⟨r, h1, h2⟩ := ih hm' (dist l z) (gap_nonneg hpos _ _ _ _) z.1
      refine ⟨r, h1, .inr ?_⟩
      rcases h2 with ⟨h2, h3⟩ | ⟨e, he, he1, he2, he3, he4⟩
      · refine ⟨z, by simp, hc.2, h2, hc.1, ?_⟩
        intro e' he' hne
        rcases List.mem_cons.mp he' with rfl | he'
        · exact le_rfl
        · exact h3 e' he' hne
      · refine ⟨e, by simp [he], he1, he2, he3.trans hc.1, ?_⟩
        intro e' he' hne
        rcases List.mem_cons.mp he' with rfl | he'
        · exact he3.le
        · exact he4 e' he' hne
    · rw [if_neg (by simpa using hc)]
      have hz2 : z.2.getD t [] ≠ [] → x ≤ dist l z := fun h => by
        by_contra h'
        exact hc ⟨not_le.mp h', h⟩
      obtain ⟨r, h1, h2⟩ := ih hm' x hx p
      refine ⟨r, h1, ?_⟩
      rcases h2 with ⟨h2, h3⟩ | ⟨e, he, he1, he2, he3, he4⟩
      · refine .inl ⟨h2, ?_⟩
        intro e' he' hne
        rcases List.mem_cons.mp he' with rfl | he'
        · exact hz2 hne
        · exact h3 e' he' hne
      · refine .inr ⟨e, by simp [he], he1, he2, he3, ?_⟩
        intro e' he' hne
        rcases List.mem_cons.mp he' with rfl | he'
        · exact he3.le.trans (hz2 hne)
        · exact he4 e' he' hne

theorem scan_spec [HasArcC K] (hpos : ∀ a b c d : K, 0 ≤ HasArcC.arc a b c d) {l : Loc K} (hq : OnGlobe l.lat l.lon) (t : Nat)
    (m : ParMap K) (hm : ∀ e ∈ m, OnGlobe e.1.lat e.1.lon) (p : Loc K) :
    ∃ r, scan t l m (MV, p) = ok r ∧
      ((r = (MV, p) ∧ ∀ e ∈ m, e.2.getD t [] = []) ∨
        ∃ e ∈ m, e.2.getD t [] ≠ [] ∧ r = (fin (dist l e), e.1) ∧ ∀ e' ∈ m, e'.2.getD t [] ≠ [] → dist l e ≤ dist l e') := by
  induction m with
  | nil => exact ⟨_, rfl, .inl ⟨rfl, by simp⟩⟩
  | cons z m ih =>
    have hz := hm z (by simp)
    have hm' : ∀ e ∈ m, OnGlobe e.1.lat e.1.lon := fun e he => hm e (by simp [he])
    have hd : getDistance (fin l.lat) (fin l.lon) (fin z.1.lat) (fin z.1.lon) = ok (fin (dist l z)) := getDistance_ok hq hz
    rw [scan, hd, hasAt_eq]
    simp only [ok_bind, isValid_MV, Bool.not_false, Bool.true_or, Bool.true_and]
    by_cases hc : z.2.getD t [] ≠ []
    · rw [if_pos (by simpa using hc)]
      obtain ⟨r, h1, h2⟩ := scan_from hpos hq t m hm' (dist l z) (gap_nonneg hpos _ _ _ _) z.1
      refine ⟨r, h1, .inr ?_⟩
      rcases h2 with ⟨h2, h3⟩ | ⟨e, he, he1, he2, he3, he4⟩
      · refine ⟨z, by simp, hc, h2, ?_⟩
        intro e' he' hne
        rcases List.mem_cons.mp he' with rfl | he'
        · exact le_rfl
        · exact h3 e' he' hne
      · refine ⟨e, by simp [he], he1, he2, ?_⟩
        intro e' he' hne
        rcases List.mem_cons.mp he' with rfl | he'
        · exact he3.le
        · exact he4 e' he' hne
    · rw [if_neg (by simpa using hc)]
      push Not at hc
      obtain ⟨r, h1, h2⟩ := ih hm'
      refine ⟨r, h1, ?_⟩
      rcases h2 with ⟨h2, h3⟩ | ⟨e, he, he1, he2, he4⟩
      · refine .inl ⟨h2, ?_⟩
        intro e' he'
        rcases List.mem_cons.mp he' with rfl | he'
        · exact hc
        · exact h3 e' he'
      · refine .inr ⟨e, by simp [he], he1, he2, ?_⟩
        intro e' he' hne
        rcases List.mem_cons.mp he' with rfl | he'
        · exact absurd hc hne
        · exact he4 e' he' hne

/-- A column of values. -/
theorem cell?_column {α β : Type} (l : List α) (g : α → β) (i j : Nat) (v : β) :
    cell? (l.map fun e => [g e]) i j = some v ↔ j = 0 ∧ ∃ e, l[i]? = some e ∧ v = g e := by
  unfold cell?
  rw [List.getElem?_map]
  cases h : l[i]? with
  | none => simp
  | some e =>
    cases j with
    | zero => simp [eq_comm]
    | succ j => simp

/-- The tree after `recomputeTree`: the candidate is the nearest place of all. -/
theorem candidate_spec [HasArcC K] (hsep : KD.Separates K) (hpos : ∀ a b c d : K, 0 ≤ HasArcC.arc a b c d)
    {sort : Bool → List (Site K) → List (Site K)} (hsort : KD.Sorts sort) {f : ParFile K} (hs : f.pars.SortedKeys)
    (hl : f.locations = []) (hm : ∀ e ∈ f.pars, OnGlobe e.1.lat e.1.lon) (hne : f.pars ≠ []) :
    ∃ f', recomputeTree sort f = ok f' ∧ f'.pars = f.pars ∧ f'.maxTime = f.maxTime ∧ f'.timeDependent = f.timeDependent ∧
      f'.cycling = f.cycling ∧ f'.locations = f.pars.map Prod.fst ∧
      ∀ l : Loc K, OnGlobe l.lat l.lon → ∃ e ∈ f.pars, candidate f' l = ok e ∧ ∀ e' ∈ f.pars, dist l e ≤ dist l e' := by
  have hval : ∀ e ∈ f.pars, e.1.lat ≠ -999 ∧ e.1.lon ≠ -999 := by
    intro e he
    obtain ⟨h1, h2⟩ := hm e he
    constructor
    · intro h
      rw [h] at h1
      norm_num at h1
    · intro h
      rw [h] at h2
      norm_num at h2
  have hplace : ∀ i j c d, PlaceAt (f.pars.map fun e => [(fin e.1.lat : Fl K)]) (f.pars.map fun e => [fin e.1.lon]) i j c d ↔
      j = 0 ∧ ∃ e, f.pars[i]? = some e ∧ c = e.1.lat ∧ d = e.1.lon := by
    intro i j c d
    unfold PlaceAt
    rw [cell?_column, cell?_column]
    constructor
    · rintro ⟨⟨h1, e, he, h2⟩, ⟨-, e', he', h3⟩, -, -⟩
      rw [he] at he'
      cases he'
      exact ⟨h1, e, he, by simpa using h2, by simpa using h3⟩
    · rintro ⟨rfl, e, he, rfl, rfl⟩
      have := hval e (List.mem_of_getElem? he)
      exact ⟨⟨rfl, e, he, rfl⟩, ⟨rfl, e, he, rfl⟩, this.1, this.2⟩
  have hr1 : Rect f.pars.length 1 (f.pars.map fun e => [(fin e.1.lat : Fl K)]) := ⟨by simp, fun r hr => by obtain ⟨e, -, rfl⟩ := List.mem_map.mp hr; rfl⟩
  have hr2 : Rect f.pars.length 1 (f.pars.map fun e => [(fin e.1.lon : Fl K)]) := ⟨by simp, fun r hr => by obtain ⟨e, -, rfl⟩ := List.mem_map.mp hr; rfl⟩
  obtain ⟨root, hb1, hb2, hb3, hb4, hb5⟩ := build_ok hsort hr1 hr2 (by
      intro i j c d h
      obtain ⟨-, e, he, rfl, rfl⟩ := (hplace i j c d).mp h
      exact hm e (List.mem_of_getElem? he)) (by
      obtain ⟨e, he⟩ := List.exists_mem_of_ne_nil _ hne
      obtain ⟨i, hi⟩ := List.mem_iff_getElem?.mp he
      exact ⟨i, 0, _, _, (hplace i 0 _ _).mpr ⟨rfl, e, hi, rfl, rfl⟩⟩)
  have hdep : f.isLocationDependent = ok true := by
    unfold isLocationDependent
    cases hp : f.pars with
    | nil => exact absurd hp hne
    | cons e m =>
      cases m with
      | nil =>
        have := hval e (by rw [hp]; simp)
        have v1 : Client.isValid (fin e.1.lat : Fl K) = true := isValid_iff_present.mpr ⟨_, rfl, this.1⟩
        have v2 : Client.isValid (fin e.1.lon : Fl K) = true := isValid_iff_present.mpr ⟨_, rfl, this.2⟩
        simp only [v1, v2, Bool.and_self]
      | cons => rfl
  let f' : ParFile K := { f with locations := f.locations ++ f.pars.map Prod.fst, tree := root }
  refine ⟨f', ?_, rfl, rfl, rfl, rfl, by simp [f', hl], ?_⟩
  · unfold recomputeTree
    rw [hdep, ok_bind, if_pos rfl, hb1]
    rfl
  · intro l hq
    have hp' : f'.pars = f.pars := rfl
    unfold candidate
    rw [hp']
    cases hf : f.pars.find l with
    | some e =>
      obtain ⟨h1, h2⟩ := ParMap.find_some hf
      refine ⟨e, h1, rfl, ?_⟩
      intro e' _
      have : dist l e = 0 := by
        unfold dist
        rw [h2.1, h2.2, gap_self]
      rw [this]
      exact gap_nonneg hpos _ _ _ _
    | none =>
      obtain ⟨i, j, c, d, h1, h2, h3⟩ := search_ok hsep hb2 hb3 hb4 hb5 hq
      obtain ⟨rfl, e, he, rfl, rfl⟩ := (hplace i j c d).mp h2
      have hmem := List.mem_of_getElem? he
      have hloc : f'.locations[i]? = some e.1 := by
        show (f.locations ++ f.pars.map Prod.fst)[i]? = some e.1
        rw [hl, List.nil_append, List.getElem?_map, he]
        rfl
      have hlt : i < f'.locations.length := by
        by_contra h
        rw [List.getElem?_eq_none (by omega)] at hloc
        cases hloc
      have hv : vget f'.locations (i : Int) = ok e.1 := by
        rw [vget_eq_ok_of_lt hlt]
        rw [List.getElem?_eq_getElem hlt] at hloc
        exact congrArg ok (Option.some.inj hloc)
      refine ⟨e, hmem, ?_, ?_⟩
      · have ht : f'.tree = root := rfl
        simp only [ht, h1, ok_bind, hv, ParMap.find_mem hs hmem (⟨rfl, rfl⟩ : e.1.Same e.1)]
      · intro e' he'
        obtain ⟨i', hi'⟩ := List.mem_iff_getElem?.mp he'
        exact h3 i' 0 _ _ ((hplace i' 0 _ _).mpr ⟨rfl, e', hi', rfl, rfl⟩)

/-- The place that is used at time `u`: one with parameters, nearest of those. -/
theorem getNearestLocation_spec [HasArcC K] (hpos : ∀ a b c d : K, 0 ≤ HasArcC.arc a b c d) {f : ParFile K}
    (hm : ∀ e ∈ f.pars, OnGlobe e.1.lat e.1.lon) {l : Loc K} (hq : OnGlobe l.lat l.lon)
    (hcand : ∃ e ∈ f.pars, candidate f l = ok e ∧ ∀ e' ∈ f.pars, dist l e ≤ dist l e') (u : Nat) :
    ∃ r, f.getNearestLocation u l = ok r ∧
      (r = none → ∀ e ∈ f.pars, e.2.getD u [] = []) ∧
      ∀ loc, r = some loc → ∃ e ∈ f.pars, e.1 = loc ∧ ((∀ x ∈ f.pars, x.2.getD u [] = []) ∨
        e.2.getD u [] ≠ [] ∧ ∀ x ∈ f.pars, x.2.getD u [] ≠ [] → dist l e ≤ dist l x) := by
  by_cases hone : ∃ e, f.pars = [e]
  · obtain ⟨e, he⟩ := hone
    refine ⟨some e.1, by rw [getNearestLocation, he], by simp, ?_⟩
    intro loc hloc
    refine ⟨e, by rw [he]; simp, Option.some.inj hloc, ?_⟩
    rw [he]
    by_cases h0 : e.2.getD u [] = []
    · exact .inl fun x hx => by rw [List.mem_singleton.mp hx]; exact h0
    · exact .inr ⟨h0, fun x hx _ => by rw [List.mem_singleton.mp hx]⟩
  · obtain ⟨c, hc, hcand, hmin⟩ := hcand
    have hform : f.getNearestLocation u l = (do
        let c ← f.candidate l
        let has ← hasAt c.2 u
        if has then ok (some c.1)
        else do
          let s ← scan u l f.pars (MV, l)
          ok (if Client.isValid s.1 then some s.2 else none)) := by
      unfold getNearestLocation
      split
      · rename_i e he
        exact absurd ⟨e, he⟩ hone
      · rfl
    rw [hform, hcand, ok_bind, hasAt_eq, ok_bind]
    by_cases hhas : c.2.getD u [] ≠ []
    · rw [if_pos (by simpa using hhas)]
      refine ⟨_, rfl, by simp, ?_⟩
      intro loc hloc
      exact ⟨c, hc, Option.some.inj hloc, .inr ⟨hhas, fun x hx _ => hmin x hx⟩⟩
    · rw [if_neg (by simpa using hhas)]
      obtain ⟨r, hr1, hr2⟩ := scan_spec hpos hq u f.pars hm l
      rw [hr1, ok_bind]
      refine ⟨_, rfl, ?_, ?_⟩
      · intro hnone
        rcases hr2 with ⟨-, h5⟩ | ⟨e, -, -, rfl, -⟩
        · exact h5
        · have hv : Client.isValid (fin (dist l e) : Fl K) = true := isValid_of_nonneg (gap_nonneg hpos _ _ _ _)
          simp only [hv, if_true] at hnone
          cases hnone
      · intro loc hloc
        rcases hr2 with ⟨rfl, h5⟩ | ⟨e, he, he1, rfl, he2⟩
        · simp only [isValid_MV, Bool.false_eq_true, if_false] at hloc
          cases hloc
        · have hv : Client.isValid (fin (dist l e) : Fl K) = true := isValid_of_nonneg (gap_nonneg hpos _ _ _ _)
          simp only [hv, if_true] at hloc
          exact ⟨e, he, Option.some.inj hloc, .inr ⟨he1, he2⟩⟩

end ParFile

end Gridpp.Client
