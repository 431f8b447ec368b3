import Verif.Model.Client.Diagnose
import Verif.Lemmas.Client.Series

/-! # Lemmas about the calibrators that diagnose a variable from others -/

set_option linter.unusedSectionVars false

namespace Gridpp.Client
open Fl hiding MV isValid
open Res

variable {K : Type} [Field K] [LinearOrder K] [IsStrictOrderedRing K]

/-- A value is replaced by a function of the two inputs at the same place where both are present, and stays elsewhere. -/
theorem diagnose_spec {Y X E : Nat} {fields : List (FieldC K)} (hs : Series Y X E fields) (a b : Nat → FieldC K)
    (fn : Nat → Nat → Nat → Nat → Fl K → Fl K → Res (Fl K)) (hab : ∀ t < fields.length, Sized Y X E (a t) ∧ Sized Y X E (b t))
    (hfn : ∀ t < fields.length, ∀ y < Y, ∀ x < X, ∀ e < E, ∀ va vb, Present va → Present vb → ∃ w, fn t y x e va vb = ok w) :
    ∃ out, eachTime (fun t f => diagnoseField Y X E true (a t) (b t) (fn t) f) fields = ok out ∧ out.length = fields.length ∧ Series Y X E out ∧
      ∀ t < fields.length, ∀ y < Y, ∀ x < X, ∀ e < E, ∃ v w va vb, At fields t y x e v ∧ At out t y x e w ∧
        (a t).get y x e = ok va ∧ (b t).get y x e = ok vb ∧ (¬ (Present va ∧ Present vb) → w = v) ∧
        (Present va → Present vb → fn t y x e va vb = ok w) := by
  obtain ⟨out, h1, h2, h3, h4⟩ := eachTime_forAll (body := fun t => diagnoseMember (a t) (b t) (fn t)) hs
    (P := fun t y x e v w => ∃ va vb, (a t).get y x e = ok va ∧ (b t).get y x e = ok vb ∧ (¬ (Present va ∧ Present vb) → w = v) ∧
      (Present va → Present vb → fn t y x e va vb = ok w)) (by
      intro t ht f hf y hy x hx e he v hv
      obtain ⟨va, ha⟩ := (hab t ht).1.exists_get hy hx he
      obtain ⟨vb, hb⟩ := (hab t ht).2.exists_get hy hx he
      by_cases hp : Present va ∧ Present vb
      · obtain ⟨w, hw⟩ := hfn t ht y hy x hx e he va vb hp.1 hp.2
        obtain ⟨f', g1, g2, g3, g4⟩ := hf.set hy hx he w
        refine ⟨f', w, ?_, g2, g3, ⟨va, vb, ha, hb, fun h => absurd hp h, fun _ _ => hw⟩, g4⟩
        unfold diagnoseMember
        rw [ha, ok_bind, hb, ok_bind, isValid_iff_present.mpr hp.1, isValid_iff_present.mpr hp.2]
        simp only [Bool.and_self, if_true, hw, ok_bind]
        exact g1
      · refine ⟨f, v, ?_, hf, hv, ⟨va, vb, ha, hb, fun _ => rfl, fun h h' => absurd ⟨h, h'⟩ hp⟩, fun _ _ _ _ => rfl⟩
        unfold diagnoseMember
        rw [ha, ok_bind, hb, ok_bind, if_neg]
        rw [Bool.and_eq_true, isValid_iff_present, isValid_iff_present]
        exact hp)
  refine ⟨out, h1, h2, h3, fun t ht y hy x hx e he => ?_⟩
  obtain ⟨v, w, g1, g2, va, vb, g3, g4, g5, g6⟩ := h4 t ht y hy x hx e he
  exact ⟨v, w, va, vb, g1, g2, g3, g4, g5, g6⟩

theorem eachTime_id (fields : List (FieldC K)) : eachTime (fun _ f => ok f) fields = ok fields := by
  obtain ⟨out, h1, h2, h3⟩ := eachTime_spec (body := fun _ f => ok f) (fields := fields) (P := fun _ f g => g = f)
    (fun t f _ => ⟨f, rfl, rfl⟩)
  rw [h1]
  congr 1
  apply List.ext_getElem h2
  intro t ht ht'
  obtain ⟨g, g1, g2⟩ := h3 t fields[t] (List.getElem?_eq_getElem ht')
  rw [List.getElem?_eq_getElem ht, Option.some.injEq] at g1
  rw [g1, g2]

theorem computeDewpoint_eq [HasExp K] {T R : K} (hT : T ≠ -999) (hR : R ≠ -999) :
    computeDewpoint (fin T) (fin R) = Gridpp.dewpoint (fin T) (fin R) := by
  unfold computeDewpoint Gridpp.dewpoint
  rw [isValid_iff_present.mpr ⟨T, rfl, hT⟩, isValid_iff_present.mpr ⟨R, rfl, hR⟩]
  rfl

theorem ewtValue_eq [FloorRing K] (t : Fl K) : ewtValue t = ewtAt t := by
  unfold ewtValue ewtAt
  have h1 : ewtX t = ewtPosition t := rfl
  have h2 : ewtC = ewtTable := rfl
  rw [h1, h2]
  unfold ewtGet
  cases truncInt (ewtPosition t) with
  | ok l =>
    simp only [ok_bind]
    cases assert (decide (0 ≤ l)) with
    | ok u =>
      simp only [ok_bind]
      cases assert (decide (l + 1 < 41)) with
      | ok u =>
        simp only [ok_bind]
        cases vget ewtTable l with
        | ok n =>
          simp only [ok_bind]
          cases vget ewtTable (l + 1) <;> rfl
        | _ => rfl
      | _ => rfl
    | _ => rfl
  | _ => rfl

theorem computeRh_eq [FloorRing K] {T D : K} (hT : T ≠ -999) (hD : D ≠ -999) :
    computeRh (fin T) (fin D) = Gridpp.relativeHumidity (fin T) (fin D) := by
  unfold computeRh Gridpp.relativeHumidity
  rw [isValid_iff_present.mpr ⟨T, rfl, hT⟩, isValid_iff_present.mpr ⟨D, rfl, hD⟩, ewtValue_eq, ewtValue_eq]
  rfl

theorem computeWetbulb_missing [FloorRing K] [HasExp K] {T R : K} {p : Fl K} (h : ¬ Present p ∨ R ≤ 0 ∨ T ≤ 3011 / 100) :
    computeWetbulb (fin T) p (fin R) = fin (-999) := by
  unfold computeWetbulb
  simp only [fin_sub, le_fin]
  by_cases h1 : (decide (T - 27315 / 100 ≤ -(24304 / 100)) || decide (R ≤ 0)) = true
  · rw [if_pos h1]; rfl
  · rw [if_neg h1]
    simp only [Bool.or_eq_true, decide_eq_true_eq, not_or, not_le] at h1
    rcases h with h | h | h
    · rw [isValid_false_iff.mpr h]
      simp [MV]
    · exact absurd h (not_le.mpr h1.2)
    · exfalso
      have := h1.1
      linarith

theorem computeWetbulb_eq [FloorRing K] [HasExp K] {T P R u : K} (hP : P ≠ -999) (hR : R ≠ -999)
    (h : Gridpp.wetbulb (fin T) (fin P) (fin R) = fin u) : computeWetbulb (fin T) (fin P) (fin R) = fin u := by
  unfold Gridpp.wetbulb vapourPressure dewpointC at h
  unfold computeWetbulb
  simp only [] at h ⊢
  by_cases h1 : (le (fin T - fin (27315 / 100)) (fin (-(24304 / 100))) || le (fin R) (fin 0)) = true
  · rw [if_pos h1] at h
    simp [Fl.MV] at h
  · rw [if_neg h1] at h ⊢
    have hT : T - 27315 / 100 ≠ -999 := by
      intro hc
      simp only [fin_sub, hc, le_fin, Bool.or_eq_true, decide_eq_true_eq, not_or, not_le] at h1
      have := h1.1
      norm_num at this
    have v1 : Client.isValid (fin T - fin (27315 / 100)) = true := isValid_iff_present.mpr ⟨_, fin_sub T (27315 / 100), hT⟩
    have v2 : Client.isValid (fin P) = true := isValid_iff_present.mpr ⟨_, rfl, hP⟩
    have v3 : Client.isValid (fin R) = true := isValid_iff_present.mpr ⟨_, rfl, hR⟩
    have w1 : Fl.isValid (fin T - fin (27315 / 100)) = true := rfl
    have w2 : Fl.isValid (fin P) = true := rfl
    have w3 : Fl.isValid (fin R) = true := rfl
    rw [v1, v2, v3]
    rw [w1, w2, w3] at h
    simp only [Bool.and_self, if_true] at h ⊢
    split_ifs at h ⊢ with h3
    exact h

end Gridpp.Client
