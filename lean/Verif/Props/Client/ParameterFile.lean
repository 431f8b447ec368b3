import Verif.Lemmas.Client.ParameterNearest

/-! # C107: the parameters by place and time -/

set_option linter.unusedSectionVars false

namespace Gridpp.Props
open Fl hiding MV isValid
open Res Client Spec

variable {K : Type} [Field K] [LinearOrder K] [IsStrictOrderedRing K]

theorem holds_find {f : ParFile K} {c : Bool} {ws : List (Setting K)} (h : f.Holds c ws) (l : Loc K) (t : Nat) :
    (match f.pars.find l with
      | none => ok []
      | some e => ParFile.atTime e.2 t) = ok (lastSetting ws l.lat l.lon t) := by
  cases hf : f.pars.find l with
  | none =>
    rw [lastSetting_eq_nil]
    intro w hw hh
    obtain ⟨e, he, he'⟩ := (h.keys _ _).mpr ⟨w, hw, hh⟩
    exact ParMap.find_none.mp hf e he he'
  | some e =>
    obtain ⟨h1, h2⟩ := ParMap.find_some hf
    show ParFile.atTime e.2 t = _
    rw [ParFile.atTime_eq, h.value e h1 t, h2.1, h2.2]

theorem store_of_holds [HasArcC K] {f : ParFile K} {cycling : Bool} {ws : List (Setting K)} (h2 : f.Holds cycling ws) :
    (∀ l : Loc K, ∀ t : Int, t < 0 → f.getParameters t l false = .abort) ∧
      ∀ (l : Loc K) (n : Nat),
        (latest ws < usedTime ws cycling n → f.getParameters n l false = .abort) ∧
        (usedTime ws cycling n ≤ latest ws → f.getParameters n l false = ok (lastSetting ws l.lat l.lon (usedTime ws cycling n))) := by
  refine ⟨fun l t ht => ?_, fun l n => ⟨fun hn => ?_, fun hn => ?_⟩⟩
  · rw [ParFile.getParameters, (ParFile.timeIndex_spec h2 t).1 ht]; rfl
  · rw [ParFile.getParameters, ((ParFile.timeIndex_spec h2 n).2 n rfl).1 hn]; rfl
  · rw [ParFile.getParameters, ((ParFile.timeIndex_spec h2 n).2 n rfl).2 hn, ok_bind]
    by_cases h0 : f.pars.length = 0
    · rw [if_pos h0]
      have : f.pars = [] := List.length_eq_zero_iff.mp h0
      have hf : f.pars.find l = none := by rw [this]; rfl
      have := holds_find h2 l (usedTime ws cycling n)
      rw [hf] at this
      exact this
    · rw [if_neg h0]
      simp only [ParFile.place, Bool.false_eq_true, if_false, ok_bind]
      exact holds_find h2 l _

/-- **C107**, without nearest neighbours: after any settings, in any order, the parameters got for a place and a time are those given
last for the place and the time that is used; the elevation is of no account. A negative time and a time after the latest is an
error. -/
theorem c107_store [HasArcC K] (cycling : Bool) (ws : List (Setting K)) :
    ∃ f, written cycling ws = ok f ∧ (∀ l : Loc K, ∀ t : Int, t < 0 → f.getParameters t l false = .abort) ∧
      ∀ (l : Loc K) (n : Nat),
        (latest ws < usedTime ws cycling n → f.getParameters n l false = .abort) ∧
        (usedTime ws cycling n ≤ latest ws → f.getParameters n l false = ok (lastSetting ws l.lat l.lon (usedTime ws cycling n))) := by
  obtain ⟨f, h1, h2, -, -⟩ := ParFile.written_holds cycling ws
  exact ⟨f, h1, store_of_holds h2⟩

theorem times_of_holds {f : ParFile K} {cycling : Bool} {ws : List (Setting K)} (h2 : f.Holds cycling ws) :
    f.getTimes = if ws = [] then [] else List.range (latest ws + 1) := by
  have hmax : ∀ (m : ParMap K) (n : Nat), (∀ e ∈ m, e.2.length ≤ n) → (∃ e ∈ m, e.2.length = n) → (m.map fun e => e.2.length).foldr max 0 = n := by
    intro m n hle hex
    have key : ∀ (m : ParMap K), (∀ e ∈ m, e.2.length ≤ n) → (m.map fun e => e.2.length).foldr max 0 ≤ n ∧
        ∀ e ∈ m, e.2.length ≤ (m.map fun e => e.2.length).foldr max 0 := by
      intro m
      induction m with
      | nil => simp
      | cons x m ih =>
        intro hle
        obtain ⟨h1, h2⟩ := ih fun e he => hle e (by simp [he])
        have hx := hle x (by simp)
        simp only [List.map_cons, List.foldr_cons]
        refine ⟨by omega, fun e he => ?_⟩
        rcases List.mem_cons.mp he with rfl | he
        · omega
        · have := h2 e he
          omega
    obtain ⟨h1, h2⟩ := key m hle
    obtain ⟨e, he, he'⟩ := hex
    have := h2 e he
    omega
  by_cases h0 : ws = []
  · subst h0
    rw [if_pos rfl]
    have : f.pars = [] := by
      rw [List.eq_nil_iff_forall_not_mem]
      intro e he
      obtain ⟨w, hw, -⟩ := (h2.keys _ _).mp ⟨e, he, rfl, rfl⟩
      simp at hw
    simp [ParFile.getTimes, this]
  · rw [if_neg h0, ParFile.getTimes, hmax f.pars (latest ws + 1) h2.short (h2.long h0)]

/-- **C107**: the times are those up to the latest. -/
theorem c107_times (cycling : Bool) (ws : List (Setting K)) :
    ∃ f, written cycling ws = ok f ∧ f.getTimes = if ws = [] then [] else List.range (latest ws + 1) := by
  obtain ⟨f, h1, h2, -, -⟩ := ParFile.written_holds cycling ws
  exact ⟨f, h1, times_of_holds h2⟩

/-- **C107**, without a location: if all settings are for no location, the parameters of the time are returned; if one of them has a
location, the call is refused. -/
theorem c107_all (cycling : Bool) (ws : List (Setting K)) (hne : ws ≠ []) :
    ∃ f, written cycling ws = ok f ∧ (∀ t : Int, t < 0 → f.getParametersAll t = .abort) ∧ ∀ n : Nat,
      (latest ws < usedTime ws cycling n → f.getParametersAll n = .abort) ∧
      ((∀ w ∈ ws, w.lat = -999 ∧ w.lon = -999) → usedTime ws cycling n ≤ latest ws →
        f.getParametersAll n = ok (lastSetting ws (-999) (-999) (usedTime ws cycling n))) ∧
      ((∃ w ∈ ws, w.lat ≠ -999 ∧ w.lon ≠ -999) → f.getParametersAll n = .abort) := by
  obtain ⟨f, h1, h2, -, -⟩ := ParFile.written_holds cycling ws
  have habort : ∀ t, f.timeIndex t = .abort → f.getParametersAll t = .abort := by
    intro t ht
    rw [ParFile.getParametersAll, ht]
    rfl
  refine ⟨f, h1, fun t ht => habort _ ((ParFile.timeIndex_spec h2 t).1 ht), fun n => ?_⟩
  obtain ⟨hlate, hok⟩ := (ParFile.timeIndex_spec h2 n).2 n rfl
  refine ⟨fun hn => habort _ (hlate hn), ?_, ?_⟩
  · intro hall hn
    obtain ⟨w, hw⟩ := List.exists_mem_of_ne_nil _ hne
    obtain ⟨e, he, -⟩ := (h2.keys _ _).mpr ⟨w, hw, rfl, rfl⟩
    have hplace : ∀ x ∈ f.pars, x.1.lat = -999 ∧ x.1.lon = -999 := by
      intro x hx
      obtain ⟨w', hw', h3, h4⟩ := (h2.keys _ _).mp ⟨x, hx, rfl, rfl⟩
      rw [← h3, ← h4]
      exact hall w' hw'
    have hpars : f.pars = [e] := by
      have hs := h2.sorted
      cases hp : f.pars with
      | nil => rw [hp] at he; simp at he
      | cons x m =>
        have hx : x ∈ f.pars := by rw [hp]; simp
        have hxe : x = e := h2.sorted.unique hx he ⟨(hplace x hx).1.trans (hplace e he).1.symm, (hplace x hx).2.trans (hplace e he).2.symm⟩
        cases m with
        | nil => rw [hxe]
        | cons y m =>
          have hy : y ∈ f.pars := by rw [hp]; simp
          rw [hp] at hs
          exact absurd ⟨(hplace x hx).1.trans (hplace y hy).1.symm, (hplace x hx).2.trans (hplace y hy).2.symm⟩
            (Loc.not_same_of_before ((List.pairwise_cons.mp hs).1 y (by simp)))
    have hv := h2.value e he (usedTime ws cycling n)
    rw [(hplace e he).1, (hplace e he).2] at hv
    have hdep : f.isLocationDependent = ok false := by
      unfold ParFile.isLocationDependent
      rw [hpars]
      have : Client.isValid (fin e.1.lat : Fl K) = false := by rw [(hplace e he).1]; exact isValid_MV
      simp only [this, Bool.false_and]
    rw [ParFile.getParametersAll, hok hn, ok_bind, hdep, ok_bind, if_neg (by simp), hpars]
    show ParFile.atTime e.2 _ = _
    rw [ParFile.atTime_eq, hv]
  · rintro ⟨w, hw, h3, h4⟩
    have hdep : f.isLocationDependent = ok true := by
      obtain ⟨e, he, he1, he2⟩ := (h2.keys _ _).mpr ⟨w, hw, rfl, rfl⟩
      unfold ParFile.isLocationDependent
      cases hp : f.pars with
      | nil => rw [hp] at he; simp at he
      | cons x m =>
        cases m with
        | cons => rfl
        | nil =>
          rw [hp, List.mem_singleton] at he
          subst he
          have v1 : Client.isValid (fin e.1.lat : Fl K) = true := isValid_iff_present.mpr ⟨_, rfl, by rw [he1]; exact h3⟩
          have v2 : Client.isValid (fin e.1.lon : Fl K) = true := isValid_iff_present.mpr ⟨_, rfl, by rw [he2]; exact h4⟩
          simp only [v1, v2, Bool.and_self]
    by_cases hn : latest ws < usedTime ws cycling n
    · exact habort _ (hlate hn)
    · rw [ParFile.getParametersAll, hok (by omega), ok_bind, hdep, ok_bind, if_pos rfl]
      rfl

theorem nearest_of_holds [HasArcC K] (hsep : KD.Separates K) (hpos : ∀ a b c d : K, 0 ≤ HasArcC.arc a b c d)
    {sort : Bool → List (Site K) → List (Site K)} (hsort : KD.Sorts sort) {cycling : Bool} {ws : List (Setting K)} (hne : ws ≠ [])
    (hglobe : ∀ w ∈ ws, OnGlobe w.lat w.lon) {f : ParFile K} (h2 : f.Holds cycling ws) (h3 : f.locations = []) :
    ∃ f', f.recomputeTree sort = ok f' ∧ f'.Holds cycling ws ∧ f'.locations = f.pars.map Prod.fst ∧
      (∀ l : Loc K, ∀ t : Int, t < 0 → f'.getParameters t l true = .abort) ∧
      ∀ (l : Loc K) (n : Nat), (latest ws < usedTime ws cycling n → f'.getParameters n l true = .abort) ∧
        (OnGlobe l.lat l.lon → usedTime ws cycling n ≤ latest ws → ∃ p, f'.getParameters n l true = ok p ∧
          ((∀ w ∈ ws, lastSetting ws w.lat w.lon (usedTime ws cycling n) = []) → p = []) ∧
          ((∃ w ∈ ws, lastSetting ws w.lat w.lon (usedTime ws cycling n) ≠ []) →
            ∃ w ∈ ws, p = lastSetting ws w.lat w.lon (usedTime ws cycling n) ∧ p ≠ [] ∧
              ∀ w' ∈ ws, lastSetting ws w'.lat w'.lon (usedTime ws cycling n) ≠ [] →
                gap l.lat l.lon w.lat w.lon ≤ gap l.lat l.lon w'.lat w'.lon)) := by
  have hm : ∀ e ∈ f.pars, OnGlobe e.1.lat e.1.lon := by
    intro e he
    obtain ⟨w, hw, h4, h5⟩ := (h2.keys _ _).mp ⟨e, he, rfl, rfl⟩
    rw [← h4, ← h5]
    exact hglobe w hw
  have hpne : f.pars ≠ [] := by
    obtain ⟨w, hw⟩ := List.exists_mem_of_ne_nil _ hne
    obtain ⟨e, he, -⟩ := (h2.keys _ _).mpr ⟨w, hw, rfl, rfl⟩
    exact List.ne_nil_of_mem he
  obtain ⟨f', g1, g2, g3, g4, g5, g7, g6⟩ := ParFile.candidate_spec hsep hpos hsort h2.sorted h3 hm hpne
  have hh : f'.Holds cycling ws := ⟨g2 ▸ h2.sorted, g2 ▸ h2.keys, g2 ▸ h2.short, g2 ▸ h2.long, g2 ▸ h2.value, g2 ▸ h2.elev, g3 ▸ h2.maxTime,
    g4 ▸ h2.timeDependent, g5 ▸ h2.cycling⟩
  refine ⟨f', g1, hh, g7, fun l t ht => ?_, fun l n => ⟨fun hn => ?_, fun hq hn => ?_⟩⟩
  · rw [ParFile.getParameters, (ParFile.timeIndex_spec hh t).1 ht]; rfl
  · rw [ParFile.getParameters, ((ParFile.timeIndex_spec hh n).2 n rfl).1 hn]; rfl
  · generalize hu : usedTime ws cycling n = u at *
    -- the place that is used
    obtain ⟨r, hr1, hr2, hr3⟩ := ParFile.getNearestLocation_spec hpos (f := f') (by rw [g2]; exact hm) hq (by rw [g2]; exact g6 l hq) u
    have hnil : (∀ e ∈ f'.pars, e.2.getD u [] = []) → ∀ w ∈ ws, lastSetting ws w.lat w.lon u = [] := by
      intro hall w hw
      obtain ⟨e, he, h4, h5⟩ := (hh.keys _ _).mpr ⟨w, hw, rfl, rfl⟩
      rw [← h4, ← h5, ← hh.value e he u]
      exact hall e he
    have hlen : ¬ f'.pars.length = 0 := by
      rw [List.length_eq_zero_iff, g2]
      exact hpne
    have hidx : f'.timeIndex n = ok (u : Int) := by
      have := ((ParFile.timeIndex_spec hh n).2 n rfl).2 (by rw [hu]; exact hn)
      rw [hu] at this
      exact this
    have hget : f'.getParameters n l true = ok (r.elim [] fun loc => lastSetting ws loc.lat loc.lon u) := by
      rw [ParFile.getParameters, hidx, ok_bind, if_neg hlen, ParFile.place, if_pos rfl, hr1, ok_bind]
      cases r with
      | none => rfl
      | some loc => exact holds_find hh loc u
    rw [hget]
    cases r with
    | none =>
      refine ⟨[], rfl, fun _ => rfl, ?_⟩
      rintro ⟨w, hw, hw'⟩
      exact absurd (hnil (hr2 rfl) w hw) hw'
    | some loc =>
      obtain ⟨e, he, rfl, hcase⟩ := hr3 _ rfl
      have hval := hh.value e he u
      obtain ⟨w0, hw0, h4, h5⟩ := (hh.keys _ _).mp ⟨e, he, rfl, rfl⟩
      refine ⟨lastSetting ws e.1.lat e.1.lon u, rfl, fun hall => ?_, ?_⟩
      · rw [← h4, ← h5]
        exact hall w0 hw0
      · rintro ⟨w, hw, hw'⟩
        rcases hcase with hall | ⟨hne1, hmin⟩
        · exact absurd (hnil hall w hw) hw'
        · refine ⟨w0, hw0, by rw [h4, h5], by rw [← hval]; exact hne1, ?_⟩
          intro w' hw' hne'
          obtain ⟨x, hx, h6, h7⟩ := (hh.keys _ _).mpr ⟨w', hw', rfl, rfl⟩
          have := hmin x hx (by rw [hh.value x hx u, h6, h7]; exact hne')
          unfold ParFile.dist at this
          rw [h6, h7] at this
          rw [h4, h5]
          exact this

/-- **C107**, with nearest neighbours, as far as it holds: after settings for places on the globe and one call of `recomputeTree`, the
parameters got for a place are those of the nearest place that has some at the time. Missing: distances on the sphere do not meet
the condition (see C91); settings after the call and a second call spoil the search (`c107_without_tree`, `c107_second_tree_false`). -/
theorem c107_nearest_partial [HasArcC K] (hsep : KD.Separates K) (hpos : ∀ a b c d : K, 0 ≤ HasArcC.arc a b c d)
    {sort : Bool → List (Site K) → List (Site K)} (hsort : KD.Sorts sort) (cycling : Bool) (ws : List (Setting K)) (hne : ws ≠ [])
    (hglobe : ∀ w ∈ ws, OnGlobe w.lat w.lon) :
    ∃ f f', written cycling ws = ok f ∧ f.recomputeTree sort = ok f' ∧
      (∀ l : Loc K, ∀ t : Int, t < 0 → f'.getParameters t l true = .abort) ∧
      ∀ (l : Loc K) (n : Nat), (latest ws < usedTime ws cycling n → f'.getParameters n l true = .abort) ∧
        (OnGlobe l.lat l.lon → usedTime ws cycling n ≤ latest ws → ∃ p, f'.getParameters n l true = ok p ∧
          ((∀ w ∈ ws, lastSetting ws w.lat w.lon (usedTime ws cycling n) = []) → p = []) ∧
          ((∃ w ∈ ws, lastSetting ws w.lat w.lon (usedTime ws cycling n) ≠ []) →
            ∃ w ∈ ws, p = lastSetting ws w.lat w.lon (usedTime ws cycling n) ∧ p ≠ [] ∧
              ∀ w' ∈ ws, lastSetting ws w'.lat w'.lon (usedTime ws cycling n) ≠ [] →
                gap l.lat l.lon w.lat w.lon ≤ gap l.lat l.lon w'.lat w'.lon)) := by
  obtain ⟨f, h1, h2, h3, -⟩ := ParFile.written_holds cycling ws
  obtain ⟨f', g1, -, -, g2⟩ := nearest_of_holds hsep hpos hsort hne hglobe h2 h3
  exact ⟨f, f', h1, g1, g2⟩

/-- **C107**: without a call of `recomputeTree`, and with settings for two places, a null pointer is dereferenced for every other
place. -/
theorem c107_without_tree [HasArcC K] (cycling : Bool) (ws : List (Setting K)) (htwo : ∃ w ∈ ws, ∃ w' ∈ ws, ¬ (w.lat = w'.lat ∧ w.lon = w'.lon))
    (l : Loc K) (hl : ∀ w ∈ ws, ¬ (w.lat = l.lat ∧ w.lon = l.lon)) (n : Nat) (hn : usedTime ws cycling n ≤ latest ws) :
    ∃ f, written cycling ws = ok f ∧ f.getParameters n l true = .ub := by
  obtain ⟨f, h1, h2, -, h4⟩ := ParFile.written_holds cycling ws
  refine ⟨f, h1, ?_⟩
  obtain ⟨w, hw, w', hw', hdiff⟩ := htwo
  obtain ⟨e, he, e1, e2⟩ := (h2.keys _ _).mpr ⟨w, hw, rfl, rfl⟩
  obtain ⟨x, hx, x1, x2⟩ := (h2.keys _ _).mpr ⟨w', hw', rfl, rfl⟩
  have hfind : f.pars.find l = none := by
    rw [ParMap.find_none]
    intro y hy hsame
    obtain ⟨v, hv, h5, h6⟩ := (h2.keys _ _).mp ⟨y, hy, rfl, rfl⟩
    exact hl v hv ⟨h5.trans hsame.1, h6.trans hsame.2⟩
  have hcand : f.candidate l = .ub := by
    unfold ParFile.candidate
    rw [hfind, h4]
    rfl
  have hnear : f.getNearestLocation (usedTime ws cycling n : Nat) l = .ub := by
    unfold ParFile.getNearestLocation
    split
    · rename_i y hy
      rw [hy, List.mem_singleton] at he hx
      subst he
      rw [hx] at x1 x2
      exact absurd ⟨e1.symm.trans x1, e2.symm.trans x2⟩ hdiff
    · rw [hcand]
      rfl
  rw [ParFile.getParameters, ((ParFile.timeIndex_spec h2 n).2 n rfl).2 hn, ok_bind,
    if_neg (by rw [List.length_eq_zero_iff]; exact List.ne_nil_of_mem he), ParFile.place, if_pos rfl, hnear]
  rfl

/-- **C107**: a file without settings. -/
theorem c107_empty [HasArcC K] (cycling : Bool) (sort : Bool → List (Site K) → List (Site K)) :
    (ParFile.empty cycling : ParFile K).recomputeTree sort = .ub ∧ (ParFile.empty cycling : ParFile K).getParametersAll 0 = .ub ∧
      ∀ (n : Nat) (l : Loc K) (b : Bool), (ParFile.empty cycling : ParFile K).getParameters n l b = ok [] := by
  refine ⟨rfl, ?_, fun n l b => ?_⟩
  · cases cycling <;> rfl
  · have h : (ParFile.empty cycling : ParFile K).timeIndex n = ok 0 := by
      unfold ParFile.timeIndex ParFile.empty
      have : ¬ ((n : Int) < 0) := by omega
      simp [this]
    rw [ParFile.getParameters, h]
    rfl

theorem numLoop_inr {v : List (Pars K)} {s n : Int} (h : ParFile.numLoop v s = .inr n) :
    (v = [] ∧ n = s) ∨ (v ≠ [] ∧ 0 < n ∧ (s = -999 ∨ s = n) ∧ ∀ p ∈ v, (p.length : Int) = n) := by
  induction v generalizing s with
  | nil =>
    rw [ParFile.numLoop] at h
    cases h
    exact .inl ⟨rfl, rfl⟩
  | cons p v ih =>
    rw [ParFile.numLoop] at h
    by_cases h0 : p.length ≠ 0
    · rw [if_pos h0] at h
      by_cases h1 : s ≠ -999 ∧ (p.length : Int) ≠ s
      · rw [if_pos h1] at h
        cases h
      · rw [if_neg h1] at h
        have hs : s = -999 ∨ s = p.length := by
          by_contra hc
          push Not at hc
          exact h1 ⟨hc.1, fun h' => hc.2 h'.symm⟩
        rcases ih h with ⟨rfl, rfl⟩ | ⟨-, h2, h3, h4⟩
        · exact .inr ⟨by simp, by omega, hs, by simp⟩
        · have hp : (p.length : Int) = n := by omega
          refine .inr ⟨by simp, h2, by rwa [hp] at hs, ?_⟩
          intro q hq
          rcases List.mem_cons.mp hq with rfl | hq
          · exact hp
          · exact h4 q hq
    · rw [if_neg h0] at h
      cases h

theorem numLoop_inl {v : List (Pars K)} {s n : Int} (h : ParFile.numLoop v s = .inl n) : n = -999 ∨ n = 0 := by
  induction v generalizing s with
  | nil => rw [ParFile.numLoop] at h; cases h
  | cons p v ih =>
    rw [ParFile.numLoop] at h
    split_ifs at h with h0 h1
    · cases h
      exact .inl rfl
    · exact ih h
    · cases h
      exact .inr rfl

theorem numLoop_same {v : List (Pars K)} {s n : Int} (hn : 0 < n) (hs : s = -999 ∨ s = n) (hv : ∀ p ∈ v, (p.length : Int) = n) (hne : v ≠ []) :
    ParFile.numLoop v s = .inr n := by
  induction v generalizing s with
  | nil => exact absurd rfl hne
  | cons p v ih =>
    have hp := hv p (by simp)
    rw [ParFile.numLoop, if_pos (by omega), if_neg (by omega), hp]
    by_cases h0 : v = []
    · subst h0; rfl
    · exact ih (.inr rfl) (fun q hq => hv q (by simp [hq])) h0

/-- **C107**: a positive number of parameters is returned exactly if all the arrays in the file, of which there is at least one, are of
this size. -/
theorem c107_number (f : ParFile K) (n : Int) (hn : 0 < n) :
    f.getNumParameters = n ↔ (∃ e ∈ f.pars, e.2 ≠ []) ∧ ∀ e ∈ f.pars, ∀ p ∈ e.2, (p.length : Int) = n := by
  have hmem : (∀ e ∈ f.pars, ∀ p ∈ e.2, (p.length : Int) = n) ↔ ∀ p ∈ f.pars.flatMap Prod.snd, (p.length : Int) = n := by
    constructor
    · intro h p hp
      obtain ⟨e, he, hp⟩ := List.mem_flatMap.mp hp
      exact h e he p hp
    · intro h e he p hp
      exact h p (List.mem_flatMap.mpr ⟨e, he, hp⟩)
  have hne : (∃ e ∈ f.pars, e.2 ≠ []) ↔ f.pars.flatMap Prod.snd ≠ [] := by
    rw [Ne, List.flatMap_eq_nil_iff]
    push Not
    rfl
  rw [hmem, hne, ParFile.getNumParameters]
  constructor
  · intro h
    split at h
    · rename_i m hm
      rcases numLoop_inl hm with h' | h' <;> omega
    · rename_i m hm
      rcases numLoop_inr hm with ⟨-, h'⟩ | ⟨h1, -, -, h2⟩
      · omega
      · subst h
        exact ⟨h1, h2⟩
  · rintro ⟨h1, h2⟩
    rw [numLoop_same hn (.inl rfl) h2 h1]

/-! ### Counterexamples -/

section
local instance flatParameter : HasArcC ℚ := ⟨fun a b c d => |a - c| + |b - d|⟩

/-- The hypotheses of `c107_nearest_partial` hold. The place 0, 11 is nearest to 0, 10, but that has no parameters at time 1. -/
example : KD.Separates ℚ ∧ (∀ a b c d : ℚ, 0 ≤ HasArcC.arc a b c d) ∧ KD.Sorts (insertSort (K := ℚ)) ∧
    (∀ w ∈ [(⟨0, 0, fin 0, 1, [fin 7]⟩ : Setting ℚ), ⟨0, 20, fin 0, 1, [fin 8]⟩, ⟨0, 10, fin 0, 0, [fin 9]⟩], OnGlobe w.lat w.lon) ∧
    ((do
      let f ← written false [(⟨0, 0, fin 0, 1, [fin 7]⟩ : Setting ℚ), ⟨0, 20, fin 0, 1, [fin 8]⟩, ⟨0, 10, fin 0, 0, [fin 9]⟩]
      let f ← f.recomputeTree insertSort
      let p ← f.getParameters 1 ⟨0, 11, fin 0⟩ true
      let q ← f.getParameters 0 ⟨0, 11, fin 0⟩ true
      ok (p, q)) : Res (Pars ℚ × Pars ℚ)) = ok ([fin 8], [fin 9]) :=
  ⟨flat_separates, fun a b c d => add_nonneg (abs_nonneg _) (abs_nonneg _), insertSort_sorts, by
    intro w hw
    simp only [List.mem_cons, List.not_mem_nil, or_false] at hw
    rcases hw with rfl | rfl | rfl <;> (constructor <;> norm_num), by decide +kernel⟩

/-- The hypotheses of `c107_all` and `c107_without_tree` hold. -/
example : usedTime [(⟨0, 0, fin 0, 0, [fin 7]⟩ : Setting ℚ), ⟨0, 20, fin 0, 2, [fin 8]⟩] true 4 = 1 ∧
    ((do
      let f ← written true [(⟨-999, -999, fin 0, 0, [fin 7]⟩ : Setting ℚ), ⟨-999, -999, fin 0, 2, [fin 8]⟩]
      f.getParametersAll 5) : Res (Pars ℚ)) = ok [fin 8] := by decide +kernel

/-- **C107**: a second call of `recomputeTree`, after settings for another place, makes the search go wrong: for the place 0, 11 the
parameters of 0, 20 are found, and not those of 0, 10. -/
theorem c107_second_tree_false :
    ((do
      let f ← written false [(⟨0, 0, fin 0, 0, [fin 7]⟩ : Setting ℚ), ⟨0, 20, fin 0, 0, [fin 8]⟩]
      let f ← f.recomputeTree insertSort
      let f ← f.setParameters [fin 9] 0 ⟨0, 10, fin 0⟩
      let f ← f.recomputeTree insertSort
      f.getParameters 0 ⟨0, 11, fin 0⟩ true) : Res (Pars ℚ)) = ok [fin 8] := by decide +kernel

/-- **C107**: `getNearestLocation` does not, as the header says, return false if no location has parameters at the time. -/
theorem c107_single_false :
    ((do
      let f ← written false [(⟨0, 0, fin 0, 1, [fin 7]⟩ : Setting ℚ)]
      let f ← f.recomputeTree insertSort
      f.getNearestLocation 0 ⟨0, 11, fin 0⟩) : Res (Option (Loc ℚ))) = ok (some ⟨0, 0, fin 0⟩) ∧
    lastSetting [(⟨0, 0, fin 0, 1, [fin 7]⟩ : Setting ℚ)] 0 0 0 = [] := by decide +kernel

/-- **C107**: for a place with missing coordinates the parameters of some other place are returned. -/
theorem c107_missing_place_false :
    ((do
      let f ← written false [(⟨0, 0, fin 0, 0, [fin 7]⟩ : Setting ℚ), ⟨0, 20, fin 0, 0, [fin 8]⟩]
      let f ← f.recomputeTree insertSort
      f.getParameters 0 ⟨-999, -999, fin 0⟩ true) : Res (Pars ℚ)) = ok [fin 7] := by decide +kernel

/-- **C107**: the number of parameters is not -999, as the header says, for arrays of different sizes if one is empty; and it depends on
the order of the settings. -/
theorem c107_number_false :
    ((do
      let f ← written false [(⟨0, 0, fin 0, 0, [fin 7]⟩ : Setting ℚ), ⟨0, 20, fin 0, 0, [fin 8]⟩, ⟨0, 20, fin 0, 1, [fin 9]⟩]
      ok f.getNumParameters) : Res Int) = ok 1 ∧
    ((do
      let f ← written false [(⟨0, 20, fin 0, 0, [fin 8]⟩ : Setting ℚ), ⟨0, 20, fin 0, 1, [fin 9]⟩, ⟨0, 0, fin 0, 0, [fin 7]⟩]
      ok f.getNumParameters) : Res Int) = ok 0 := by decide +kernel

end

end Gridpp.Props
