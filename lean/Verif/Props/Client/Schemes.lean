import Verif.Lemmas.Client.Schemes
import Verif.Spec.ClientSchemes

/-! # C161: the options of the schemes of the client -/

namespace Gridpp.Props
open Res Client Spec

/-- The help text and the constructors of the calibrators and of the downscalers. -/
def schemeKinds : List (List (String × List (String × String)) × List (String × List SchemeStep)) :=
  [(calibratorDocs, calibratorTable), (downscalerDocs, downscalerTable)]

/-- The defaults in the help text that are not those of the code. -/
def wrongDefaults : List (String × String) := [("oi", "transform"), ("oi", "sigmaC"), ("oi", "elevGradient"), ("oi", "wmin"), ("oi", "epsilonC"),
  ("kriging", "approxDist"), ("gradient", "lafRadius"), ("gradient", "lafSearchRadii")]

/-- The options in the help text that the constructors never read. -/
def deadOptions : List (String × String) := [("bct", "maxEnsMean"), ("phase", "minPrecip")]

/-- The options that the constructors read though they are not in the help text. -/
def hiddenOptions : List (String × String) := [("deaccumulate", "window"), ("qnh", "pressureVariable"), ("qq", "x"), ("qq", "y"), ("oi", "biasVariable"),
  ("oi", "deltaVariable"), ("oi", "gamma"), ("oi", "mu"), ("oi", "saveDiff"), ("oi", "numVariable"), ("oi", "c"), ("oi", "newDeltaVar")]

/-- The schemes whose constructors do not look for options that have not been read. -/
def uncheckedSchemes : List String := ["diagnoseHumidity", "diagnoseWind"]

/-! ### Tables, by evaluation -/

/-- Every default that the help text gives fits the constructor. -/
def defaultsFit (docs : List (String × List (String × String))) (table : List (String × List SchemeStep)) : Bool :=
  docs.all fun e => e.2.all fun f =>
    ["undef", "required", ""].contains f.2 || wrongDefaults.contains (e.1, f.1) ||
    (match table.lookup e.1 with
      | none => true
      | some ss => (opt "debug" (.flag false) :: ss).all (fun s => s.fits f.1.toList f.2.toList) && f.1 ≠ "")

theorem defaultsFit_all : ∀ k ∈ schemeKinds, defaultsFit k.1 k.2 = true := by
  decide +kernel


/-- What a constructor reads according to the help text: every option that is described, except the dead ones, and the hidden ones. -/
def expectedReads (scheme : String) (ds : List (String × String)) : List (Str × OptCond) :=
  ("debug".toList, .always) ::
  ((ds.map Prod.fst).filter (fun k => !deadOptions.contains (scheme, k))).map (fun k => (k.toList,
    if k = "quantile" then .optionIs "stat".toList "quantile".toList
    else if scheme = "kriging" ∧ (k = "range" ∨ k = "window") then .given "auxVariable".toList
    else .always)) ++
  (hiddenOptions.filter (fun p => p.1 = scheme)).map (fun p => (p.2.toList, .always))

/-- The constructors read what is expected, and all but two end with `check`. -/
def readsFit (docs : List (String × List (String × String))) (table : List (String × List SchemeStep)) : Bool :=
  docs.all fun e => match table.lookup e.1 with
    | none => false
    | some ss =>
      let body := opt "debug" (.flag false) :: (if uncheckedSchemes.contains e.1 then ss else ss.dropLast)
      let reads := body.filterMap SchemeStep.reads
      let expected := expectedReads e.1 e.2
      body.all SchemeStep.quiet && reads.all (fun r => expected.contains r) && expected.all (fun r => reads.contains r) &&
        (uncheckedSchemes.contains e.1 || (match ss.getLast? with
          | some .check => true
          | _ => false))

theorem readsFit_all : ∀ k ∈ schemeKinds, readsFit k.1 k.2 = true := by
  decide +kernel

/-- A step that reads a required option in any case. -/
def isRequired (key : Str) : SchemeStep → Bool
  | .read k _ true .always => k = key
  | _ => false

theorem isRequired_spec {key : Str} {s : SchemeStep} (h : isRequired key s = true) : ∃ kind, s = .read key kind true .always := by
  unfold isRequired at h
  split at h
  · simp only [decide_eq_true_eq] at h; exact ⟨_, by rw [h]⟩
  · simp at h

/-- The required options of the help text are required, but for one. -/
def requiredFit (docs : List (String × List (String × String))) (table : List (String × List SchemeStep)) : Bool :=
  docs.all fun e => e.2.all fun f => f.2 ≠ "required" || (e.1 = "window" && f.1 = "length") ||
    (match table.lookup e.1 with
      | none => true
      | some ss => ss.any (isRequired f.1.toList))

theorem requiredFit_all : ∀ k ∈ schemeKinds, requiredFit k.1 k.2 = true := by
  decide +kernel

/-- The names are those of the help text. -/
theorem names_all : ∀ k ∈ schemeKinds, k.1.map Prod.fst = k.2.map Prod.fst := by
  decide +kernel

theorem lookup_none_of {table : List (String × List SchemeStep)} {name : String} (h : name ∉ table.map Prod.fst) : table.lookup name = none := by
  rw [List.lookup_eq_none_iff]
  intro p hp
  have h1 : name ≠ p.1 := by
    rintro rfl
    exact h (List.mem_map_of_mem hp)
  simpa using h1

theorem lookup_some_of {table : List (String × List SchemeStep)} {name : String} (h : name ∈ table.map Prod.fst) : ∃ ss, table.lookup name = some ss := by
  cases hl : table.lookup name with
  | some ss => exact ⟨ss, rfl⟩
  | none =>
    rw [List.lookup_eq_none_iff] at hl
    obtain ⟨p, hp, e⟩ := List.mem_map.1 h
    have := hl p hp
    simp [e] at this

theorem table_of {docs : List (String × List (String × String))} {table : List (String × List SchemeStep)} (hk : (docs, table) ∈ schemeKinds)
    {name : String} {ds : List (String × String)} (h : (name, ds) ∈ docs) : ∃ ss, table.lookup name = some ss :=
  lookup_some_of (by
    have h1 := names_all _ hk
    simp only at h1
    rw [← h1]
    exact List.mem_map_of_mem (f := Prod.fst) h)

theorem string_toList_ne {s : String} (h : s ≠ "") : s.toList ≠ [] := by
  intro e
  exact h (String.toList_injective (by rw [e]; rfl))

theorem hasKey_iff {ps : List (Str × Str)} {key : String} : HasKey ps key ↔ key.toList ∈ ps.map Prod.fst := by
  unfold HasKey
  simp

/-! ### The theorems -/

/-- Giving an option with the default of the help text does not change the scheme that is made (and does not end the program if it does not end
without it), for all other options, except for the eight wrong defaults; see `c161_defaults_false`. -/
theorem c161_defaults_partial {docs : List (String × List (String × String))} {table : List (String × List SchemeStep)}
    (hk : (docs, table) ∈ schemeKinds) {name key default : String} {ds : List (String × String)} (h : (name, ds) ∈ docs) (hd : (key, default) ∈ ds)
    (hv : default ∉ ["undef", "required", ""]) (hw : (name, key) ∉ wrongDefaults) (o : Options) (hn : ¬ HasKey o.pairs key) :
    (makeScheme table name o = abort ∧ makeScheme table name (addOption o key.toList default.toList) = abort) ∨
    ∃ m m', makeScheme table name o = ok m ∧ makeScheme table name (addOption o key.toList default.toList) = ok m' ∧ m'.members = m.members := by
  obtain ⟨ss, hs⟩ := table_of hk h
  have h1 := defaultsFit_all _ hk
  unfold defaultsFit at h1
  have h2 := List.all_eq_true.1 (List.all_eq_true.1 h1 _ h) _ hd
  simp only [List.contains_eq_mem, Bool.or_eq_true, decide_eq_true_eq, hs, Bool.and_eq_true] at h2
  obtain (h2 | h2) | ⟨h2, h3⟩ := h2
  · exact absurd h2 hv
  · exact absurd h2 hw
  · have hde : default ≠ "" := fun e => hv (by simp [e])
    rw [hasKey_iff] at hn
    rw [addOption_fresh (string_toList_ne h3) (string_toList_ne hde) hn]
    simp only [makeScheme, hs]
    have h4 := foldSteps_same hn h2 (m := ⟨[], o.accessed, false⟩) (m' := ⟨[], o.accessed, false⟩) rfl
    generalize foldM (schemeStep (o.pairs ++ [(key.toList, default.toList)])) _ _ = r at h4 ⊢
    generalize foldM (schemeStep o.pairs) _ _ = r' at h4 ⊢
    cases r <;> cases r' <;> simp only [SameScheme] at h4
    · exact Or.inr ⟨_, _, rfl, rfl, h4⟩
    · exact Or.inl ⟨rfl, rfl⟩

/-- The keys that are read: those of the help text that apply, except the dead ones, the hidden ones and `debug`. -/
def ReadKey (ps : List (Str × Str)) (scheme : String) (ds : List (String × String)) (k : String) : Prop :=
  k = "debug" ∨ (k ∈ ds.map Prod.fst ∧ (scheme, k) ∉ deadOptions ∧ Applies ps scheme k) ∨ (scheme, k) ∈ hiddenOptions

theorem holds_expected {ps : List (Str × Str)} (ho : OptionMap ps) (hw : ∀ p ∈ ps, ∀ c ∈ p.2, ¬ White c) {scheme k : String} :
    OptCond.holds ps (if k = "quantile" then .optionIs "stat".toList "quantile".toList
      else if scheme = "kriging" ∧ (k = "range" ∨ k = "window") then .given "auxVariable".toList else .always) = true ↔ Applies ps scheme k := by
  unfold Applies
  by_cases hq : k = "quantile"
  · subst hq
    rw [if_pos rfl]
    generalize "stat".toList = st
    generalize "quantile".toList = qu
    have h2 : ¬ (scheme = "kriging" ∧ ("quantile" = "range" ∨ "quantile" = "window")) := by
      rintro ⟨-, h⟩; revert h; decide
    simp only [OptCond.holds, h2, false_implies, and_true, true_implies]
    cases hf : ps.find? (fun p => p.1 = st) with
    | none => simp
    | some p =>
      have hp := List.mem_of_find?_eq_some hf
      simp only []
      rw [readWord_plain [] (ho.filled p hp).2 (hw p hp)]
      simp
  · rw [if_neg hq]
    by_cases hr : scheme = "kriging" ∧ (k = "range" ∨ k = "window")
    · rw [if_pos hr]
      simp only [OptCond.holds, hq, false_implies, hr, true_and, true_implies, HasKey]
      generalize "auxVariable".toList = aux
      simp
    · rw [if_neg hr]
      simp [OptCond.holds, hq, hr]

theorem expected_iff {ps : List (Str × Str)} (ho : OptionMap ps) (hw : ∀ p ∈ ps, ∀ c ∈ p.2, ¬ White c) (scheme : String) (ds : List (String × String))
    (k : Str) : (∃ c, (k, c) ∈ expectedReads scheme ds ∧ c.holds ps = true) ↔ ∃ s : String, s.toList = k ∧ ReadKey ps scheme ds s := by
  unfold expectedReads ReadKey
  constructor
  · rintro ⟨c, h, hc⟩
    simp only [List.mem_cons, List.mem_append, List.mem_map, List.mem_filter] at h
    obtain (h | ⟨a, ⟨h1, h2⟩, h3⟩) | ⟨q, ⟨h1, h2⟩, h3⟩ := h
    · simp only [Prod.mk.injEq] at h
      exact ⟨"debug", h.1.symm, Or.inl rfl⟩
    · simp only [Prod.mk.injEq] at h3
      refine ⟨a, h3.1, Or.inr (Or.inl ⟨?_, by simpa using h2, ?_⟩)⟩
      · obtain ⟨p, hp, e⟩ := h1; exact e ▸ List.mem_map_of_mem (f := Prod.fst) hp
      · rw [← h3.2] at hc
        exact (holds_expected ho hw).1 hc
    · simp only [Prod.mk.injEq] at h3
      simp only [decide_eq_true_eq] at h2
      refine ⟨q.2, h3.1, Or.inr (Or.inr ?_)⟩
      rw [← h2]; exact h1
  · rintro ⟨s, rfl, rfl | ⟨h1, h2, h3⟩ | h⟩
    · exact ⟨.always, List.mem_append_left _ List.mem_cons_self, rfl⟩
    · refine ⟨_, ?_, (holds_expected ho hw (scheme := scheme) (k := s)).2 h3⟩
      refine List.mem_append_left _ (List.mem_cons_of_mem _ (List.mem_map.2 ⟨s, List.mem_filter.2 ⟨h1, by simpa using h2⟩, rfl⟩))
    · exact ⟨.always, List.mem_append_right _ (List.mem_map.2 ⟨(scheme, s), List.mem_filter.2 ⟨h, decide_eq_true rfl⟩, rfl⟩), rfl⟩

/-- When a scheme has been made, there has been a warning if and only if some option has been given that the constructor does not read: one that is not
in the help text or does not apply, or a dead one, and not a hidden one. The two schemes for diagnosed variables never warn. For new options none has
been read. -/
theorem c161_warning_partial {docs : List (String × List (String × String))} {table : List (String × List SchemeStep)}
    (hk : (docs, table) ∈ schemeKinds) {name : String} {ds : List (String × String)} (h : (name, ds) ∈ docs) (o : Options) (ho : OptionMap o.pairs)
    (hw : ∀ p ∈ o.pairs, ∀ c ∈ p.2, ¬ White c) (ha : o.accessed = []) {m : MadeScheme} (hm : makeScheme table name o = ok m) :
    m.warned = true ↔ name ∉ uncheckedSchemes ∧ ∃ p ∈ o.pairs, ∀ s : String, s.toList = p.1 → ¬ ReadKey o.pairs name ds s := by
  obtain ⟨ss, hs⟩ := table_of hk h
  have h1 := readsFit_all _ hk
  unfold readsFit at h1
  have h2 := List.all_eq_true.1 h1 _ h
  simp only [hs, Bool.and_eq_true, Bool.or_eq_true] at h2
  obtain ⟨⟨⟨hq, hr⟩, hx⟩, hl⟩ := h2
  simp only [makeScheme, hs, ha] at hm
  by_cases hu : name ∈ uncheckedSchemes
  · have hu' : uncheckedSchemes.contains name = true := by simpa using hu
    simp only [hu', if_true] at hq
    obtain ⟨hwn, -⟩ := foldSteps_quiet hq hm
    rw [hwn]
    simp [hu]
  · have hu' : uncheckedSchemes.contains name = false := by simpa using hu
    simp only [hu', Bool.false_eq_true, if_false, false_or] at hq hr hx hl
    have hlast : ss = ss.dropLast ++ [.check] := by
      cases he : ss.getLast? with
      | none => rw [he] at hl; simp at hl
      | some c =>
        rw [he] at hl
        cases c with
        | check =>
          have hne : ss ≠ [] := by rintro rfl; simp at he
          rw [List.getLast?_eq_some_getLast hne] at he
          simp only [Option.some.injEq] at he
          rw [← he, List.dropLast_append_getLast]
        | _ => simp at hl
    rw [hlast, ← List.cons_append, foldM_append] at hm
    obtain ⟨m1, e1, e2⟩ := bind_eq_ok.1 hm
    obtain ⟨f1, f2⟩ := foldSteps_quiet hq e1
    simp only [foldM_cons, foldM_nil, schemeStep, ok_bind, Res.ok.injEq] at e2
    rw [← e2]
    simp only [f1, Bool.false_or, checkOptions, Bool.not_eq_true', decide_eq_false_iff_not, hu, not_false_eq_true, true_and]
    rw [List.length_eq_zero_iff, List.filter_eq_nil_iff]
    push Not
    refine exists_congr fun p => and_congr_right fun hp => ?_
    have hmem : p.1 ∈ o.pairs.map Prod.fst := List.mem_map_of_mem hp
    have e : p.1 ∈ m1.accessed ↔ ∃ s : String, s.toList = p.1 ∧ ReadKey o.pairs name ds s := by
      rw [f2, ← expected_iff ho hw]
      simp only [List.not_mem_nil, false_or, hmem, true_and]
      refine exists_congr fun c => and_congr_left fun _ => ⟨fun h' => ?_, fun h' => ?_⟩
      · simpa using List.all_eq_true.1 hr _ h'
      · simpa using List.all_eq_true.1 hx _ h'
    rw [show (!m1.accessed.contains p.1) = true ↔ p.1 ∉ m1.accessed by simp, e]
    push Not
    rfl

/-- A required option that is not given ends the program, except for `length` of the calibrator window. -/
theorem c161_required_partial {docs : List (String × List (String × String))} {table : List (String × List SchemeStep)}
    (hk : (docs, table) ∈ schemeKinds) {name key : String} {ds : List (String × String)} (h : (name, ds) ∈ docs) (hd : (key, "required") ∈ ds)
    (hw : ¬ (name = "window" ∧ key = "length")) (o : Options) (hn : ¬ HasKey o.pairs key) : makeScheme table name o = abort := by
  obtain ⟨ss, hs⟩ := table_of hk h
  have h1 := requiredFit_all _ hk
  unfold requiredFit at h1
  have h2 := List.all_eq_true.1 (List.all_eq_true.1 h1 _ h) _ hd
  simp only [hs, Bool.or_eq_true, Bool.and_eq_true, decide_eq_true_eq, ne_eq, not_true_eq_false, decide_false, Bool.false_eq_true, false_or] at h2
  obtain h2 | h2 := h2
  · exact absurd h2 hw
  · obtain ⟨s, hs1, hs2⟩ := List.any_eq_true.1 h2
    obtain ⟨kind, rfl⟩ := isRequired_spec hs2
    simp only [makeScheme, hs]
    exact foldSteps_required (fun e => hn (hasKey_iff.2 e)) (List.mem_cons_of_mem _ hs1) _

/-- A name that is not in the help text ends the program; a scheme that is in it is made or the program ends. -/
theorem c161_names {docs : List (String × List (String × String))} {table : List (String × List SchemeStep)} (hk : (docs, table) ∈ schemeKinds)
    (name : String) (o : Options) :
    (name ∉ docs.map Prod.fst → makeScheme table name o = abort) ∧
    (makeScheme table name o = abort ∨ ∃ m, makeScheme table name o = ok m) := by
  constructor
  · intro h
    have h1 := names_all _ hk
    simp only at h1
    rw [h1] at h
    simp only [makeScheme, lookup_none_of h]
  · unfold makeScheme
    split
    · exact Or.inl rfl
    · exact foldSteps_outcome _ _ _

/-! ### What is not as the help text says -/

/-- One of the options that are not in the help text must be given, whatever the others are: following the help text never makes the calibrator qnh. -/
theorem c161_hidden_required (o : Options) (hn : ¬ HasKey o.pairs "pressureVariable") : makeScheme calibratorTable "qnh" o = abort := by
  have hs : calibratorTable.lookup "qnh" = some qnhSteps := rfl
  simp only [makeScheme, hs]
  exact foldSteps_required (fun e => hn (hasKey_iff.2 e)) (List.mem_cons_of_mem _ (List.mem_cons_self ..)) _

/-- Options, none of which has been read. -/
def optionsOf (ps : List (String × String)) : Options := ⟨ps.map (fun p => (p.1.toList, p.2.toList)), []⟩

/-- It is the only option that must be given for the calibrator. -/
theorem c161_hidden_required_case : (match makeScheme calibratorTable "qnh" (optionsOf [("pressureVariable", "p")]) with
    | ok m => m.warned
    | _ => true) = false := by
  decide +kernel

/-- One of the schemes cannot be made or they have different members. -/
def schemesDiffer : Res MadeScheme → Res MadeScheme → Bool
  | .ok a, .ok b => a.members ≠ b.members
  | .ok _, _ => true
  | _, _ => false

/-- Each of the eight defaults is wrong: there are options with which a scheme can be made, but with the default in addition it cannot be made or has
other members. -/
theorem c161_defaults_false : ∀ k ∈ schemeKinds, ∀ e ∈ k.1, ∀ f ∈ e.2, (e.1, f.1) ∈ wrongDefaults →
    (optionsOf [("sigma", "2"), ("epsilon", "1")]).pairs.all (fun p => p.1 ≠ f.1.toList) = true ∧
    schemesDiffer (makeScheme k.2 e.1 (optionsOf [("sigma", "2"), ("epsilon", "1")]))
      (makeScheme k.2 e.1 (addOption (optionsOf [("sigma", "2"), ("epsilon", "1")]) f.1.toList f.2.toList)) = true := by
  decide +kernel

/-- All eight occur in the help text. -/
theorem c161_defaults_found : ∀ p ∈ wrongDefaults, ∃ k ∈ schemeKinds, ∃ e ∈ k.1, ∃ f ∈ e.2, (e.1, f.1) = p := by
  decide +kernel

/-- `transform=none`, one of the two values that the help text of the calibrator oi names, ends the program. -/
theorem c161_transform_false : makeScheme calibratorTable "oi" (optionsOf [("transform", "none")]) = abort ∧
    (makeScheme calibratorTable "oi" (optionsOf [])).isOk = true := by
  decide +kernel

/-- What a scheme has for an option, if it can be made. -/
def memberOf (table : List (String × List SchemeStep)) (name : String) (ps : List (String × String)) (key : String) : Option Setting :=
  match makeScheme table name (optionsOf ps) with
  | .ok m => some (m.members.at key.toList)
  | _ => none

/-- Whether making a scheme gives a warning, if it can be made. -/
def warningOf (table : List (String × List SchemeStep)) (name : String) (ps : List (String × String)) : Option Bool :=
  match makeScheme table name (optionsOf ps) with
  | .ok m => some m.warned
  | _ => none

/-- `approxDist=true` turns the approximation off; `approxDist=1` turns it on. -/
theorem c161_approx_false : memberOf calibratorTable "kriging" [("approxDist", "true")] "approxDist" = some (.flag false) ∧
    memberOf calibratorTable "kriging" [("approxDist", "1")] "approxDist" = some (.flag true) ∧
    memberOf calibratorTable "kriging" [] "approxDist" = some (.flag true) := by
  decide +kernel

/-- The value given for `epsilonC` is never used: it is replaced by `epsilon`. -/
theorem c161_epsilonC_false : memberOf calibratorTable "oi" [("epsilonC", "0.3")] "epsilonC" = some (.num (1 / 2)) ∧
    memberOf calibratorTable "oi" [("epsilon", "0.25"), ("epsilonC", "0.3")] "epsilonC" = some (.num (1 / 4)) ∧
    memberOf calibratorTable "oi" [("epsilon", "0.25")] "epsilonC" = some (.num (1 / 2)) := by
  decide +kernel

/-- The dead options give a warning though they are in the help text; without them there is none. -/
theorem c161_dead_false : warningOf calibratorTable "bct" [("maxEnsMean", "50")] = some true ∧ warningOf calibratorTable "bct" [] = some false ∧
    warningOf calibratorTable "phase" [("temperature", "t"), ("precipitation", "p"), ("minPrecip", "1")] = some true ∧
    warningOf calibratorTable "phase" [("temperature", "t"), ("precipitation", "p")] = some false := by
  decide +kernel

/-- An unknown option of the schemes for diagnosed variables does not give a warning; of another scheme it does. -/
theorem c161_silent_false :
    warningOf calibratorTable "diagnoseWind" [("x", "u"), ("y", "v"), ("compute", "speed"), ("sped", "w")] = some false ∧
    warningOf calibratorTable "diagnoseHumidity" [("temperature", "t"), ("rh", "h"), ("compute", "dewpoint"), ("prssure", "p")] = some false ∧
    warningOf calibratorTable "neighbourhood" [("radus", "3")] = some true := by
  decide +kernel

/-- `length` of the calibrator window is 7 without the option, though the help text says that it is required. -/
theorem c161_window_false : memberOf calibratorTable "window" [] "length" = some (.int 7) := by
  decide +kernel

/-- Without options the downscaler gradient has no radii for the land fraction and uninitialised limits. -/
theorem c161_gradient_false : memberOf downscalerTable "gradient" [] "lafSearchRadii" = some (.nums []) ∧
    memberOf downscalerTable "gradient" [] "minLafGradient" = some .junk ∧
    memberOf downscalerTable "gradient" [("lafSearchRadii", "1,2,3")] "lafWeights" = some (.nums [1 / 3, 1 / 3, 1 / 3]) := by
  decide +kernel

/-! ### Cases that meet the hypotheses -/

/-- For `c161_defaults_partial`: the default of `radius` beside another option; the scheme is made. -/
theorem c161_case_defaults : ("neighbourhood", [("radius", "3"), ("stat", "mean"), ("quantile", "undef"), ("fast", "1"), ("approx", "0")]) ∈ calibratorDocs ∧
    ("neighbourhood", "stat") ∉ wrongDefaults ∧ memberOf calibratorTable "neighbourhood" [("radius", "7")] "radius" = some (.int 7) ∧
    memberOf calibratorTable "neighbourhood" [("radius", "7"), ("stat", "quantile"), ("quantile", "0.9")] "quantile" = some (.num (9 / 10)) ∧
    makeScheme calibratorTable "neighbourhood" (optionsOf [("stat", "quantile")]) = abort := by
  decide +kernel

/-- For `c161_warning_partial`: the same option with and without what makes it apply. -/
theorem c161_case_warning : warningOf calibratorTable "kriging" [("window", "2")] = some true ∧
    warningOf calibratorTable "kriging" [("auxVariable", "precip"), ("range", "0,0.3"), ("window", "2")] = some false ∧
    makeScheme calibratorTable "kriging" (optionsOf [("auxVariable", "precip")]) = abort ∧
    makeScheme calibratorTable "kriging" (optionsOf [("auxVariable", "precip"), ("range", "1,0.3")]) = abort := by
  decide +kernel

/-- For `c161_required_partial`. -/
theorem c161_case_required : ("directionVariable", "required") ∈ [("directionVariable", "required")] ∧
    makeScheme calibratorTable "windDirection" (optionsOf []) = abort ∧
    memberOf calibratorTable "windDirection" [("directionVariable", "dir")] "directionVariable" = some (.text "dir".toList) := by
  decide +kernel

end Gridpp.Props
