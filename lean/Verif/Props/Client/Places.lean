import Verif.Lemmas.Client.Places
import Verif.Props.Client.ParameterFile
import Verif.Props.Client.KDTree

/-! # C110: the calibrators of the client that use places: mask, override, altitude -/

set_option linter.unusedSectionVars false

namespace Gridpp.Props
open Fl hiding MV isValid
open Res Client Spec

variable {K : Type} [Field K] [LinearOrder K] [IsStrictOrderedRing K]

/-! ### mask -/

/-- The grid point has coordinates and is nearer to one of the places than the radius of that place, its first parameter. -/
def InsideRadius [HasArcC K] (lats lons : List (List (Fl K))) (locs : List (Loc K)) (pars : Loc K → Pars K) (y x : Nat) : Prop :=
  ∃ a b, PlaceAt lats lons y x a b ∧ ∃ l ∈ locs, (fin (gap a b l.lat l.lon)).lt ((pars l).headD Client.MV) = true

theorem maskWithin_spec [HasArcC K] (hpos : ∀ a b c d : K, 0 ≤ HasArcC.arc a b c d) {Y X : Nat} (timeDependent : Bool)
    {lats lons : List (List (Fl K))} (hlat : Rect Y X lats) (hlon : Rect Y X lons) (hglobe : ∀ i j c d, PlaceAt lats lons i j c d → OnGlobe c d)
    {locs : List (Loc K)} (hloc : ∀ l ∈ locs, OnGlobe l.lat l.lon) {pars : Loc K → Pars K} (hpar : ∀ l ∈ locs, pars l ≠ []) (t : Nat)
    {within : List (List Bool)} (hw : Rect Y X within) {S : Nat → Nat → Prop} (hS : ∀ y < Y, ∀ x < X, cell? within y x = some true ↔ S y x) :
    ∃ within', maskWithin Y X timeDependent lats lons locs pars t within = ok within' ∧ Rect Y X within' ∧
      ∀ y < Y, ∀ x < X, cell? within' y x = some true ↔ S y x ∨ ((t = 0 ∨ timeDependent = true) ∧ InsideRadius lats lons locs pars y x) := by
  unfold maskWithin
  by_cases ht : t = 0 ∨ timeDependent = true
  · rw [if_pos ht]
    obtain ⟨out, h1, h2, h3⟩ := grid2_exists (Y := Y) (X := X) (f := fun y x => do
        let lat ← vget2 lats y x
        let lon ← vget2 lons y x
        let old ← vget2 within y x
        maskPoint lat lon pars locs old)
      (P := fun y x v => v = true ↔ S y x ∨ InsideRadius lats lons locs pars y x) (by
        intro y hy x hx
        obtain ⟨lat, ha1, ha2⟩ := vget2_of_rect hlat hy hx
        obtain ⟨lon, hb1, hb2⟩ := vget2_of_rect hlon hy hx
        obtain ⟨old, hc1, hc2⟩ := vget2_of_rect hw hy hx
        have hold : old = true ↔ S y x := by
          rw [← hS y hy x hx, hc1, Option.some.injEq]
        rw [ha2, ok_bind, hb2, ok_bind, hc2, ok_bind]
        by_cases hp : Present lat ∧ Present lon
        · obtain ⟨⟨a, rfl, ha⟩, ⟨b, rfl, hb⟩⟩ := hp
          have hpl : PlaceAt lats lons y x a b := ⟨ha1, hb1, ha, hb⟩
          obtain ⟨r, hr1, hr2⟩ := maskPoint_spec hpos pars (hglobe _ _ _ _ hpl) locs hloc hpar old
          refine ⟨r, hr1, ?_⟩
          rw [hr2, hold]
          refine or_congr Iff.rfl ⟨fun h => ⟨a, b, hpl, h⟩, ?_⟩
          rintro ⟨a', b', ⟨h4, h5, -, -⟩, h6⟩
          rw [ha1] at h4
          rw [hb1] at h5
          cases h4
          cases h5
          exact h6
        · refine ⟨old, maskPoint_missing pars hp locs old, ?_⟩
          rw [hold]
          refine ⟨Or.inl, ?_⟩
          rintro (h | ⟨a, b, ⟨h4, h5, h6, h7⟩, -⟩)
          · exact h
          · rw [ha1, Option.some.injEq] at h4
            rw [hb1, Option.some.injEq] at h5
            exact absurd ⟨⟨a, h4, h6⟩, ⟨b, h5, h7⟩⟩ hp)
    refine ⟨out, h1, h2, fun y hy x hx => ?_⟩
    obtain ⟨v, g1, -, g2⟩ := h3 y hy x hx
    rw [g1, Option.some.injEq, g2]
    simp [ht]
  · rw [if_neg ht]
    refine ⟨within, rfl, hw, fun y hy x hx => ?_⟩
    rw [hS y hy x hx]
    simp [ht]

theorem maskLoop_spec [HasArcC K] (hpos : ∀ a b c d : K, 0 ≤ HasArcC.arc a b c d) {Y X E : Nat} (keep timeDependent : Bool)
    {lats lons : List (List (Fl K))} (hlat : Rect Y X lats) (hlon : Rect Y X lons) (hglobe : ∀ i j c d, PlaceAt lats lons i j c d → OnGlobe c d)
    {locs : List (Loc K)} (hloc : ∀ l ∈ locs, OnGlobe l.lat l.lon) {pars : Nat → Loc K → Pars K} (hpar : ∀ t, ∀ l ∈ locs, pars t l ≠ [])
    {fields : List (FieldC K)} (hs : Series Y X E fields) (t : Nat) {within : List (List Bool)} (hw : Rect Y X within) {S : Nat → Nat → Prop}
    (hS : ∀ y < Y, ∀ x < X, cell? within y x = some true ↔ S y x) :
    ∃ out, maskLoop Y X E keep timeDependent lats lons locs pars t within fields = ok out ∧ out.length = fields.length ∧ Series Y X E out ∧
      ∀ n < fields.length, ∀ y < Y, ∀ x < X, ∀ e < E, ∃ v w, At fields n y x e v ∧ At out n y x e w ∧
        ((keep = true ↔ S y x ∨ ∃ s, t ≤ s ∧ s ≤ t + n ∧ (s = 0 ∨ timeDependent = true) ∧ InsideRadius lats lons locs (pars s) y x) → w = v) ∧
        (¬ (keep = true ↔ S y x ∨ ∃ s, t ≤ s ∧ s ≤ t + n ∧ (s = 0 ∨ timeDependent = true) ∧ InsideRadius lats lons locs (pars s) y x) →
          w = Client.MV) := by
  induction fields generalizing t within S with
  | nil => exact ⟨[], rfl, rfl, by simp [Series], by simp⟩
  | cons f fields ih =>
    obtain ⟨within', h1, h2, h3⟩ := maskWithin_spec hpos timeDependent hlat hlon hglobe hloc (hpar t) t hw hS
    have hf : Sized Y X E f := hs f (by simp)
    obtain ⟨f', g1, g2, g3⟩ := maskField_spec (E := E) keep h2 f hf
    obtain ⟨out, k1, k2, k3, k4⟩ := ih (fun f hf => hs f (by simp [hf])) (t + 1) h2 h3
    refine ⟨f' :: out, ?_, by simp [k2], ?_, ?_⟩
    · rw [maskLoop, h1, ok_bind, g1, ok_bind, k1]
      rfl
    · intro g hg
      rcases List.mem_cons.mp hg with rfl | hg
      · exact g2
      · exact k3 g hg
    · intro n hn y hy x hx e he
      cases n with
      | zero =>
        obtain ⟨v, hv⟩ := hf.exists_get hy hx he
        obtain ⟨b, hb⟩ := h2.cell?_some hy hx
        have hget := g3 y hy x hx e he b hb
        have hb' := h3 y hy x hx
        rw [hb, Option.some.injEq] at hb'
        have hseen : (∃ s, t ≤ s ∧ s ≤ t + 0 ∧ (s = 0 ∨ timeDependent = true) ∧ InsideRadius lats lons locs (pars s) y x) ↔
            ((t = 0 ∨ timeDependent = true) ∧ InsideRadius lats lons locs (pars t) y x) := by
          constructor
          · rintro ⟨s, h4, h5, h6⟩
            obtain rfl : s = t := by omega
            exact h6
          · intro h
            exact ⟨t, le_rfl, le_rfl, h⟩
        rw [hseen, ← hb']
        by_cases hkb : keep = b
        · subst hkb
          rw [if_pos rfl, hv] at hget
          exact ⟨v, v, ⟨f, rfl, hv⟩, ⟨f', rfl, hget⟩, fun _ => rfl, fun h => absurd Iff.rfl h⟩
        · rw [if_neg hkb] at hget
          refine ⟨v, Client.MV, ⟨f, rfl, hv⟩, ⟨f', rfl, hget⟩, fun h => absurd ?_ hkb, fun _ => rfl⟩
          rw [Bool.eq_iff_iff]
          exact h
      | succ n =>
        obtain ⟨v, w, ⟨u, hu1, hu2⟩, ⟨u', hu3, hu4⟩, h4, h5⟩ := k4 n (by simpa using hn) y hy x hx e he
        have hseen : ((S y x ∨ (t = 0 ∨ timeDependent = true) ∧ InsideRadius lats lons locs (pars t) y x) ∨
              ∃ s, t + 1 ≤ s ∧ s ≤ t + 1 + n ∧ (s = 0 ∨ timeDependent = true) ∧ InsideRadius lats lons locs (pars s) y x) ↔
            (S y x ∨ ∃ s, t ≤ s ∧ s ≤ t + (n + 1) ∧ (s = 0 ∨ timeDependent = true) ∧ InsideRadius lats lons locs (pars s) y x) := by
          constructor
          · rintro ((h | h) | ⟨s, h6, h7, h8⟩)
            · exact Or.inl h
            · exact Or.inr ⟨t, le_rfl, by omega, h⟩
            · exact Or.inr ⟨s, by omega, by omega, h8⟩
          · rintro (h | ⟨s, h6, h7, h8⟩)
            · exact Or.inl (Or.inl h)
            · rcases eq_or_lt_of_le h6 with rfl | h6
              · exact Or.inl (Or.inr h8)
              · exact Or.inr ⟨s, by omega, by omega, h8⟩
        rw [hseen] at h4 h5
        exact ⟨v, w, ⟨u, hu1, hu2⟩, ⟨u', hu3, hu4⟩, h4, h5⟩

theorem mask_start (Y X : Nat) : Rect Y X (List.replicate Y (List.replicate X false)) ∧
    ∀ y < Y, ∀ x < X, cell? (List.replicate Y (List.replicate X false)) y x = some true ↔ False := by
  refine ⟨⟨by simp, fun r hr => by rw [(List.mem_replicate.mp hr).2]; simp⟩, fun y hy x hx => ?_⟩
  simp [cell?, hy, hx]

/-- **C110**, mask with radii that do not depend on time: with `keep` the values outside of the radius of every place are removed, without
it those inside of the radius of some place; all other values stay. -/
theorem c110_mask [HasArcC K] (hpos : ∀ a b c d : K, 0 ≤ HasArcC.arc a b c d) {Y X E : Nat} (keep : Bool)
    {lats lons : List (List (Fl K))} (hlat : Rect Y X lats) (hlon : Rect Y X lons) (hglobe : ∀ i j c d, PlaceAt lats lons i j c d → OnGlobe c d)
    {locs : List (Loc K)} (hloc : ∀ l ∈ locs, OnGlobe l.lat l.lon) {pars : Nat → Loc K → Pars K} (hpar : ∀ t, ∀ l ∈ locs, pars t l ≠ [])
    {fields : List (FieldC K)} (hs : Series Y X E fields) :
    ∃ out, mask Y X E keep true true false lats lons locs pars fields = ok out ∧ out.length = fields.length ∧ Series Y X E out ∧
      ∀ t < fields.length, ∀ y < Y, ∀ x < X, ∀ e < E, ∃ v w, At fields t y x e v ∧ At out t y x e w ∧
        ((keep = true ↔ InsideRadius lats lons locs (pars 0) y x) → w = v) ∧
        (¬ (keep = true ↔ InsideRadius lats lons locs (pars 0) y x) → w = Client.MV) := by
  obtain ⟨hw, hS⟩ := mask_start Y X
  obtain ⟨out, h1, h2, h3, h4⟩ := maskLoop_spec hpos keep false hlat hlon hglobe hloc hpar hs 0 hw hS
  refine ⟨out, h1, h2, h3, fun t ht y hy x hx e he => ?_⟩
  obtain ⟨v, w, hv, hw, h5, h6⟩ := h4 t ht y hy x hx e he
  have hseen : (False ∨ ∃ s, 0 ≤ s ∧ s ≤ 0 + t ∧ (s = 0 ∨ false = true) ∧ InsideRadius lats lons locs (pars s) y x) ↔
      InsideRadius lats lons locs (pars 0) y x := by
    constructor
    · rintro (h | ⟨s, -, -, h7, h8⟩)
      · exact h.elim
      · rcases h7 with rfl | h7
        · exact h8
        · cases h7
    · intro h
      exact Or.inr ⟨0, le_rfl, by omega, Or.inl rfl, h⟩
  rw [hseen] at h5 h6
  exact ⟨v, w, hv, hw, h5, h6⟩

/-- **C110**, mask with radii that depend on time, as far as it holds: what counts is whether the grid point has been inside of a radius at
this or an earlier time. Missing: the radii of this time alone should count (`c110_mask_times_false`). -/
theorem c110_mask_times_partial [HasArcC K] (hpos : ∀ a b c d : K, 0 ≤ HasArcC.arc a b c d) {Y X E : Nat} (keep : Bool)
    {lats lons : List (List (Fl K))} (hlat : Rect Y X lats) (hlon : Rect Y X lons) (hglobe : ∀ i j c d, PlaceAt lats lons i j c d → OnGlobe c d)
    {locs : List (Loc K)} (hloc : ∀ l ∈ locs, OnGlobe l.lat l.lon) {pars : Nat → Loc K → Pars K} (hpar : ∀ t, ∀ l ∈ locs, pars t l ≠ [])
    {fields : List (FieldC K)} (hs : Series Y X E fields) :
    ∃ out, mask Y X E keep true true true lats lons locs pars fields = ok out ∧ out.length = fields.length ∧ Series Y X E out ∧
      ∀ t < fields.length, ∀ y < Y, ∀ x < X, ∀ e < E, ∃ v w, At fields t y x e v ∧ At out t y x e w ∧
        ((keep = true ↔ ∃ s ≤ t, InsideRadius lats lons locs (pars s) y x) → w = v) ∧
        (¬ (keep = true ↔ ∃ s ≤ t, InsideRadius lats lons locs (pars s) y x) → w = Client.MV) := by
  obtain ⟨hw, hS⟩ := mask_start Y X
  obtain ⟨out, h1, h2, h3, h4⟩ := maskLoop_spec hpos keep true hlat hlon hglobe hloc hpar hs 0 hw hS
  refine ⟨out, h1, h2, h3, fun t ht y hy x hx e he => ?_⟩
  obtain ⟨v, w, hv, hw, h5, h6⟩ := h4 t ht y hy x hx e he
  have hseen : (False ∨ ∃ s, 0 ≤ s ∧ s ≤ 0 + t ∧ (s = 0 ∨ true = true) ∧ InsideRadius lats lons locs (pars s) y x) ↔
      ∃ s ≤ t, InsideRadius lats lons locs (pars s) y x := by
    constructor
    · rintro (h | ⟨s, -, h7, -, h8⟩)
      · exact h.elim
      · exact ⟨s, by omega, h8⟩
    · rintro ⟨s, h7, h8⟩
      exact Or.inr ⟨s, by omega, by omega, Or.inr rfl, h8⟩
  rw [hseen] at h5 h6
  exact ⟨v, w, hv, hw, h5, h6⟩

/-- **C110**: mask and override refuse parameter files that do not suit them. -/
theorem c110_errors [HasArcC K] (sort : Bool → List (Site K) → List (Site K)) (Y X E : Nat) (keep timeDependent dependent fixed : Bool)
    (radius : Int) (maxElevDiff : Fl K) (n : Int) (lats lons elevs : List (List (Fl K))) (locs : List (Loc K)) (pars : Nat → Loc K → Pars K)
    (fields : List (FieldC K)) :
    (dependent = false ∨ fixed = false → mask Y X E keep dependent fixed timeDependent lats lons locs pars fields = .abort) ∧
    (n ≠ 1 ∨ dependent = false → override sort Y X E radius maxElevDiff n dependent lats lons elevs locs pars fields = .abort) := by
  refine ⟨fun h => ?_, fun h => ?_⟩
  · unfold mask
    rcases h with rfl | rfl
    · rfl
    · cases dependent <;> rfl
  · unfold override
    rcases h with h | rfl
    · rw [if_pos h]; rfl
    · split_ifs
      · rfl
      · rfl
      · next h => exact absurd rfl h

/-! ### override -/

/-- `i`, `j` is the nearest grid point of the place. -/
def GridPointNearest [HasArcC K] (lats lons : List (List (Fl K))) (l : Loc K) (i j : Nat) : Prop :=
  ∃ c d, PlaceAt lats lons i j c d ∧ ∀ i' j' c' d', PlaceAt lats lons i' j' c' d' → gap l.lat l.lon c d ≤ gap l.lat l.lon c' d'

/-- **C110**, override, as far as it holds: there is for each place a nearest grid point, and at every time each value is that of the last
place that covers it: the place has a value, its nearest grid point is not at the border, the grid point is in the box of the given radius
around it and within the elevation difference, if that is given. All other values stay. Missing: on the sphere the condition on distances
fails, see C91. -/
theorem c110_override_partial [HasArcC K] (hsep : KD.Separates K) {sort : Bool → List (Site K) → List (Site K)} (hsort : KD.Sorts sort)
    {Y X E : Nat} (radius : Int) (maxElevDiff : Fl K) {lats lons elevs : List (List (Fl K))} (hlat : Rect Y X lats) (hlon : Rect Y X lons)
    (hel : Rect Y X elevs) (hglobe : ∀ i j c d, PlaceAt lats lons i j c d → OnGlobe c d) (hsome : ∃ i j c d, PlaceAt lats lons i j c d)
    {locs : List (Loc K)} (hloc : ∀ l ∈ locs, OnGlobe l.lat l.lon) {pars : Nat → Loc K → Pars K} (hpar : ∀ t, ∀ l ∈ locs, pars t l ≠ [])
    {fields : List (FieldC K)} (hs : Series Y X E fields) :
    ∃ places : List (Loc K × (Nat × Nat)), places.map Prod.fst = locs ∧ (∀ p ∈ places, GridPointNearest lats lons p.1 p.2.1 p.2.2) ∧
      ∃ out, override sort Y X E radius maxElevDiff 1 true lats lons elevs locs pars fields = ok out ∧ out.length = fields.length ∧
        Series Y X E out ∧ ∀ t < fields.length, ∀ y < Y, ∀ x < X, ∀ e < E, ∃ v w, At fields t y x e v ∧ At out t y x e w ∧
          ((∀ p ∈ places, ¬ Covers Y X radius maxElevDiff elevs p.1.elev ((pars t p.1).headD Client.MV) p.2.1 p.2.2 y x) → w = v) ∧
          ∀ before p after, places = before ++ p :: after →
            Covers Y X radius maxElevDiff elevs p.1.elev ((pars t p.1).headD Client.MV) p.2.1 p.2.2 y x →
            (∀ p' ∈ after, ¬ Covers Y X radius maxElevDiff elevs p'.1.elev ((pars t p'.1).headD Client.MV) p'.2.1 p'.2.2 y x) →
            w = (pars t p.1).headD Client.MV := by
  obtain ⟨root, h1, h2⟩ := c91_nearest_partial hsep hsort hlat hlon hglobe hsome
  have hnear : ∃ places : List (Loc K × (Nat × Nat)), places.map Prod.fst = locs ∧ (∀ p ∈ places, GridPointNearest lats lons p.1 p.2.1 p.2.2) ∧
      mapM (fun l : Loc K => root.getNearestNeighbour (fin l.lat) (fin l.lon)) locs = ok (places.map fun p => ((p.2.1 : Int), (p.2.2 : Int))) := by
    clear hpar
    induction locs with
    | nil => exact ⟨[], rfl, by simp, rfl⟩
    | cons l locs ih =>
      obtain ⟨places, h3, h4, h5⟩ := ih fun l hl => hloc l (by simp [hl])
      obtain ⟨i, j, c, d, h6, h7, h8⟩ := h2 l.lat l.lon (hloc l (by simp))
      refine ⟨(l, (i, j)) :: places, by rw [List.map_cons, h3], ?_, ?_⟩
      · intro p hp
        rcases List.mem_cons.mp hp with rfl | hp
        · exact ⟨c, d, h7, h8⟩
        · exact h4 p hp
      · rw [mapM_cons, h6, ok_bind, h5]
        rfl
  obtain ⟨places, h3, h4, h5⟩ := hnear
  refine ⟨places, h3, h4, ?_⟩
  have hzip : locs.zip (places.map fun p => ((p.2.1 : Int), (p.2.2 : Int))) = places.map fun p => (p.1, ((p.2.1 : Int), (p.2.2 : Int))) := by
    rw [← h3, List.zip_map', ]
  obtain ⟨out, g1, g2, g3⟩ := eachTime_spec (body := fun t => overrideField Y X E radius maxElevDiff elevs (pars t)
      (locs.zip (places.map fun p => ((p.2.1 : Int), (p.2.2 : Int))))) (fields := fields)
    (P := fun t f f' => Sized Y X E f' ∧ ∀ y x e, e < E →
        ((∀ p ∈ places, ¬ Covers Y X radius maxElevDiff elevs p.1.elev ((pars t p.1).headD Client.MV) p.2.1 p.2.2 y x) → f'.get y x e = f.get y x e) ∧
        ∀ before p after, places = before ++ p :: after →
          Covers Y X radius maxElevDiff elevs p.1.elev ((pars t p.1).headD Client.MV) p.2.1 p.2.2 y x →
          (∀ p' ∈ after, ¬ Covers Y X radius maxElevDiff elevs p'.1.elev ((pars t p'.1).headD Client.MV) p'.2.1 p'.2.2 y x) →
          f'.get y x e = ok ((pars t p.1).headD Client.MV)) (by
      intro t f hf
      rw [hzip]
      refine overrideField_spec radius maxElevDiff hel (pars t) places ?_ f (hs f (List.mem_of_getElem? hf))
      intro p hp
      exact hpar t p.1 (by rw [← h3]; exact List.mem_map_of_mem hp))
  refine ⟨out, ?_, g2, series_iff.mpr fun t ht => ?_, fun t ht y hy x hx e he => ?_⟩
  · unfold override
    rw [if_neg (by simp), h1]
    simp only [Bool.not_true, Bool.false_eq_true, if_false, ok_bind]
    rw [h5, ok_bind]
    exact g1
  · obtain ⟨g, k1, k2, -⟩ := g3 t fields[t] (List.getElem?_eq_getElem (by omega))
    exact ⟨g, k1, k2⟩
  · obtain ⟨g, k1, k2, k3⟩ := g3 t fields[t] (List.getElem?_eq_getElem ht)
    have hf : Sized Y X E fields[t] := hs _ (List.getElem_mem _)
    obtain ⟨v, hv⟩ := hf.exists_get hy hx he
    obtain ⟨w, hw⟩ := k2.exists_get hy hx he
    refine ⟨v, w, ⟨_, List.getElem?_eq_getElem ht, hv⟩, ⟨g, k1, hw⟩, fun h => ?_, fun before p after h6 h7 h8 => ?_⟩
    · have := (k3 y x e he).1 h
      rw [hw, hv, Res.ok.injEq] at this
      exact this
    · have := (k3 y x e he).2 before p after h6 h7 h8
      rw [hw, Res.ok.injEq] at this
      exact this

/-! ### altitude -/

/-- **C110**, altitude, as far as it holds: after settings for places on the globe and one call of `recomputeTree`, every grid point on the
globe gets the elevation of the nearest place with parameters at time 0, which is the elevation given when that place was first set.
Missing: on the sphere the condition on distances fails (C91), and an elevation given later is ignored (`c110_elevation_false`). -/
theorem c110_altitude_partial [HasArcC K] (hsep : KD.Separates K) (hpos : ∀ a b c d : K, 0 ≤ HasArcC.arc a b c d)
    {sort : Bool → List (Site K) → List (Site K)} (hsort : KD.Sorts sort) (cycling : Bool) (ws : List (Setting K))
    (hsome : ∃ w ∈ ws, lastSetting ws w.lat w.lon 0 ≠ []) (hglobe : ∀ w ∈ ws, OnGlobe w.lat w.lon)
    {Y X : Nat} {lats lons elevs : List (List (Fl K))} (hel : Rect Y X elevs)
    (hgrid : ∀ y < Y, ∀ x < X, ∃ a b, cell? lats y x = some (fin a) ∧ cell? lons y x = some (fin b) ∧ OnGlobe a b) :
    ∃ f f' out, written cycling ws = ok f ∧ f.recomputeTree sort = ok f' ∧ altitude f' Y X lats lons elevs = ok out ∧ Rect Y X out ∧
      ∀ y < Y, ∀ x < X, ∀ a b, cell? lats y x = some (fin a) → cell? lons y x = some (fin b) →
        ∃ w ∈ ws, cell? out y x = some w.elev ∧ (ws.find? fun v => v.lat = w.lat ∧ v.lon = w.lon) = some w ∧
          lastSetting ws w.lat w.lon 0 ≠ [] ∧
          ∀ w' ∈ ws, lastSetting ws w'.lat w'.lon 0 ≠ [] → gap a b w.lat w.lon ≤ gap a b w'.lat w'.lon := by
  obtain ⟨w1, hw1, hw1'⟩ := hsome
  obtain ⟨f, h1, h2, h3, -⟩ := ParFile.written_holds cycling ws
  have hm : ∀ e ∈ f.pars, OnGlobe e.1.lat e.1.lon := by
    intro e he
    obtain ⟨w, hw, h4, h5⟩ := (h2.keys _ _).mp ⟨e, he, rfl, rfl⟩
    rw [← h4, ← h5]
    exact hglobe w hw
  have hpne : f.pars ≠ [] := by
    obtain ⟨e, he, -⟩ := (h2.keys _ _).mpr ⟨w1, hw1, rfl, rfl⟩
    exact List.ne_nil_of_mem he
  obtain ⟨f', g1, g2, g3, g4, g5, -, g6⟩ := ParFile.candidate_spec hsep hpos hsort h2.sorted h3 hm hpne
  have hh : f'.Holds cycling ws := ⟨g2 ▸ h2.sorted, g2 ▸ h2.keys, g2 ▸ h2.short, g2 ▸ h2.long, g2 ▸ h2.value, g2 ▸ h2.elev, g3 ▸ h2.maxTime,
    g4 ▸ h2.timeDependent, g5 ▸ h2.cycling⟩
  have hm' : ∀ e ∈ f'.pars, OnGlobe e.1.lat e.1.lon := by rw [g2]; exact hm
  have hdep : f'.isLocationDependent = ok true := by
    unfold ParFile.isLocationDependent
    rw [g2]
    match hp : f.pars with
    | [] => exact absurd hp hpne
    | [e] =>
      have hg := hm e (by rw [hp]; simp)
      have v1 : Client.isValid (fin e.1.lat : Fl K) = true := isValid_iff_present.mpr ⟨_, rfl, fun h => by
        have := (abs_le.mp hg.1).1; rw [h] at this; norm_num at this⟩
      have v2 : Client.isValid (fin e.1.lon : Fl K) = true := isValid_iff_present.mpr ⟨_, rfl, fun h => by
        have := (abs_le.mp hg.2).1; rw [h] at this; norm_num at this⟩
      simp only [v1, v2, Bool.and_self]
    | _ :: _ :: _ => rfl
  obtain ⟨out, k1, k2, k3⟩ := grid2_exists (Y := Y) (X := X) (f := fun y x => do
      let lat ← vget2 lats y x
      let lon ← vget2 lons y x
      let elev ← vget2 elevs y x
      altitudePoint f' lat lon elev)
    (P := fun y x u => ∀ a b, cell? lats y x = some (fin a) → cell? lons y x = some (fin b) →
        ∃ w ∈ ws, u = w.elev ∧ (ws.find? fun v => v.lat = w.lat ∧ v.lon = w.lon) = some w ∧
          lastSetting ws w.lat w.lon 0 ≠ [] ∧
          ∀ w' ∈ ws, lastSetting ws w'.lat w'.lon 0 ≠ [] → gap a b w.lat w.lon ≤ gap a b w'.lat w'.lon) (by
      intro y hy x hx
      obtain ⟨a, b, ha, hb, hq⟩ := hgrid y hy x hx
      obtain ⟨el, -, hel2⟩ := vget2_of_rect hel hy hx
      rw [vget2_of_cell? ha, ok_bind, vget2_of_cell? hb, ok_bind, hel2, ok_bind]
      obtain ⟨r, hr1, hr2, hr3⟩ := ParFile.getNearestLocation_spec hpos (f := f') hm' (l := ⟨a, b, el⟩) hq
        (by rw [g2]; exact g6 ⟨a, b, el⟩ hq) 0
      have hnot : ¬ ∀ e ∈ f'.pars, e.2.getD 0 [] = [] := by
        intro hall
        obtain ⟨e, he, h4, h5⟩ := (hh.keys _ _).mpr ⟨w1, hw1, rfl, rfl⟩
        refine hw1' ?_
        rw [← h4, ← h5, ← hh.value e he 0]
        exact hall e he
      cases r with
      | none => exact absurd (hr2 rfl) hnot
      | some loc =>
        obtain ⟨e, he, rfl, hcase⟩ := hr3 _ rfl
        rcases hcase with hall | ⟨hne, hmin⟩
        · exact absurd hall hnot
        · refine ⟨e.1.elev, ?_, ?_⟩
          · unfold altitudePoint
            simp only [Nat.cast_zero] at hr1
            simp only [hr1, ok_bind]
            rfl
          · intro a' b' ha' hb'
            rw [ha, Option.some.injEq, Fl.fin.injEq] at ha'
            rw [hb, Option.some.injEq, Fl.fin.injEq] at hb'
            subst ha' hb'
            obtain ⟨w, hw, hwe⟩ := hh.elev e he
            have hsame := List.find?_some hw
            simp only [decide_eq_true_eq] at hsame
            refine ⟨w, List.mem_of_find?_eq_some hw, hwe, ?_, ?_, ?_⟩
            · rw [hsame.1, hsame.2]
              exact hw
            · rw [hsame.1, hsame.2, ← hh.value e he 0]
              exact hne
            · intro w' hw' hne'
              obtain ⟨x, hx, h6, h7⟩ := (hh.keys _ _).mpr ⟨w', hw', rfl, rfl⟩
              have := hmin x hx (by rw [hh.value x hx 0, h6, h7]; exact hne')
              unfold ParFile.dist at this
              rw [h6, h7] at this
              rw [hsame.1, hsame.2]
              exact this)
  refine ⟨f, f', out, h1, g1, ?_, k2, fun y hy x hx a b ha hb => ?_⟩
  · unfold altitude
    rw [hdep, ok_bind]
    exact k1
  · obtain ⟨u, hu, -, h4⟩ := k3 y hy x hx
    obtain ⟨w, hw, rfl, h5⟩ := h4 a b ha hb
    exact ⟨w, hw, hu, h5⟩

/-! ### Witnesses -/

section
/-- A flat distance for which the hypothesis holds; only for the examples. -/
local instance flatPlaces : HasArcC ℚ := ⟨fun a b c d => |a - c| + |b - d|⟩

/-- The hypotheses of `c110_mask` hold: three grid points, the last one without coordinates, one place with radius 5. -/
example : (∀ a b c d : ℚ, 0 ≤ HasArcC.arc a b c d) ∧ Rect 1 3 [[fin 0, fin 0, (fin (-999) : Fl ℚ)]] ∧
    InsideRadius [[fin 0, fin 0, (fin (-999) : Fl ℚ)]] [[fin 0, fin 10, fin 20]] [⟨0, 1, fin 0⟩] (fun _ => [fin 5]) 0 0 ∧
    (mask 1 3 1 true true true false [[fin 0, fin 0, fin (-999)]] [[fin 0, fin 10, fin 20]] [⟨0, 1, fin 0⟩] (fun _ _ => [fin 5])
      [⟨[fin 1, fin 2, fin 3], 1, 3, 1⟩] : Res (List (FieldC ℚ))) = ok [⟨[fin 1, fin (-999), fin (-999)], 1, 3, 1⟩] ∧
    (mask 1 3 1 false true true false [[fin 0, fin 0, fin (-999)]] [[fin 0, fin 10, fin 20]] [⟨0, 1, fin 0⟩] (fun _ _ => [fin 5])
      [⟨[fin 1, fin 2, fin 3], 1, 3, 1⟩] : Res (List (FieldC ℚ))) = ok [⟨[fin (-999), fin 2, fin 3], 1, 3, 1⟩] :=
  ⟨fun a b c d => add_nonneg (abs_nonneg _) (abs_nonneg _), ⟨rfl, by simp⟩,
    ⟨0, 0, ⟨rfl, rfl, by norm_num, by norm_num⟩, ⟨0, 1, fin 0⟩, by simp, by decide +kernel⟩, by decide +kernel, by decide +kernel⟩

/-- **C110**: the radius at the second time is 5, but the grid point at distance 10 is kept, because it was inside of the radius of the first
time. -/
theorem c110_mask_times_false : (mask 1 2 1 true true true true [[fin 0, fin 0]] [[fin 0, fin 10]] [⟨0, 0, fin 0⟩]
    (fun t _ => [if t = 0 then fin 15 else fin 5]) [⟨[fin 1, fin 2], 1, 2, 1⟩, ⟨[fin 3, fin 4], 1, 2, 1⟩] : Res (List (FieldC ℚ))) =
      ok [⟨[fin 1, fin 2], 1, 2, 1⟩, ⟨[fin 3, fin 4], 1, 2, 1⟩] ∧
    ¬ InsideRadius [[fin 0, (fin 0 : Fl ℚ)]] [[fin 0, fin 10]] [⟨0, 0, fin 0⟩] (fun _ => [fin 5]) 0 1 := by
  refine ⟨by decide +kernel, ?_⟩
  rintro ⟨a, b, ⟨h1, h2, -, -⟩, l, hl, h3⟩
  rw [List.mem_singleton.mp hl] at h3
  have ha : a = 0 := by simpa [cell?] using h1.symm
  have hb : b = 10 := by simpa [cell?] using h2.symm
  rw [ha, hb] at h3
  revert h3
  decide +kernel

/-- The hypotheses of `c110_override_partial` hold. The place near the middle writes there; the later one with the same nearest grid point
has no value, and the one in the corner is at the border. -/
example : KD.Separates ℚ ∧ KD.Sorts (insertSort (K := ℚ)) ∧
    Covers 3 3 0 Client.MV [[fin 0, fin 0, fin 0], [fin 0, fin 0, fin 0], [fin 0, fin 0, (fin 0 : Fl ℚ)]] (fin 0) (fin 7) 1 1 1 1 ∧
    (override insertSort 3 3 1 0 Client.MV 1 true [[fin 0, fin 0, fin 0], [fin 1, fin 1, fin 1], [fin 2, fin 2, fin 2]]
      [[fin 0, fin 1, fin 2], [fin 0, fin 1, fin 2], [fin 0, fin 1, fin 2]]
      [[fin 0, fin 0, fin 0], [fin 0, fin 0, fin 0], [fin 0, fin 0, fin 0]] [⟨1, 1, fin 0⟩, ⟨1, 5 / 4, fin 0⟩, ⟨0, 0, fin 0⟩]
      (fun _ l => if l.lon = 5 / 4 then [Client.MV] else if l.lon = 0 then [fin 9] else [fin 7])
      [⟨[fin 1, fin 1, fin 1, fin 1, fin 1, fin 1, fin 1, fin 1, fin 1], 3, 3, 1⟩] : Res (List (FieldC ℚ))) =
      ok [⟨[fin 1, fin 1, fin 1, fin 1, fin 7, fin 1, fin 1, fin 1, fin 1], 3, 3, 1⟩] := by
  refine ⟨flat_separates, insertSort_sorts, ⟨⟨7, rfl, by norm_num⟩, by decide, by decide, by decide, by decide, fun b _ => Or.inl not_present_MV⟩,
    by decide +kernel⟩

/-- Elevation differences are compared strictly. -/
example : LevelWith (fin 10) (fin 0) (fin (9 : ℚ)) ∧ ¬ LevelWith (fin 10) (fin 0) (fin (10 : ℚ)) := by
  refine ⟨Or.inr ⟨0, 9, 10, rfl, rfl, rfl, by norm_num, by norm_num, by norm_num⟩, ?_⟩
  rintro (h | ⟨p, q, d, h1, h2, h3, -, -, h4⟩)
  · exact h ⟨10, rfl, by norm_num⟩
  · cases h1
    cases h2
    cases h3
    norm_num at h4

/-- The hypotheses of `c110_altitude_partial` hold. -/
example : (∃ w ∈ [(⟨0, 0, fin 5, 0, [fin 7]⟩ : Setting ℚ), ⟨0, 20, fin 6, 0, [fin 8]⟩],
      lastSetting [(⟨0, 0, fin 5, 0, [fin 7]⟩ : Setting ℚ), ⟨0, 20, fin 6, 0, [fin 8]⟩] w.lat w.lon 0 ≠ []) ∧
    ((do
      let f ← written false [(⟨0, 0, fin 5, 0, [fin 7]⟩ : Setting ℚ), ⟨0, 20, fin 6, 0, [fin 8]⟩]
      let f ← f.recomputeTree insertSort
      altitude f 1 2 [[fin 0, fin 0]] [[fin 1, fin 18]] [[fin 0, fin 0]]) : Res (List (List (Fl ℚ)))) = ok [[fin 5, fin 6]] := by
  decide +kernel

/-- **C110**: an elevation that is given for a place later is ignored. -/
theorem c110_elevation_false :
    ((do
      let f ← written false [(⟨0, 0, fin 5, 0, [fin 7]⟩ : Setting ℚ), ⟨0, 0, fin 9, 0, [fin 8]⟩]
      let f ← f.recomputeTree insertSort
      altitude f 1 1 [[fin 0]] [[fin 0]] [[fin 0]]) : Res (List (List (Fl ℚ)))) = ok [[fin 5]] := by decide +kernel

end

end Gridpp.Props
