import Verif.Lemmas.Client.SetupLine

/-! # C128: a command line that is written as it should be -/

namespace Gridpp.Props
open Gridpp.Client Gridpp.Spec Res

theorem init_orderly (args : List Str) : Orderly (SetupMachine.init args) := fun h => by simp [SetupMachine.init] at h

theorem init_turns (args : List Str) : turns (SetupMachine.init args) < 8 * args.length + 8 := by
  have := rank_le (SetupMachine.init args)
  unfold turns
  simp only [SetupMachine.init] at this ⊢
  omega

theorem init_fresh (args : List Str) : Fresh (SetupMachine.init args) := ⟨rfl, rfl, rfl, rfl, rfl, rfl, rfl, rfl, rfl, rfl, rfl⟩

theorem commandLine_leads {env : SetupEnv} {args : List Str} {r : Res SetupMachine} (h : Leads env (SetupMachine.init args) r)
    (hr : r = .abort ∨ ∃ m', r = ok m' ∧ m'.state = .done) : commandLine env args = r >>= fun m => ok (m.confs, m.aliases) := by
  unfold commandLine
  rw [leads_loop (init_orderly args) (init_turns args) h hr]

/-- The alias at the beginning. -/
theorem leads_alias (env : SetupEnv) {m : SetupMachine} {name : Str} {opts : List CmdOption} {tail : List Str} (hs : m.state = .varAlias)
    (hr : m.rest = name :: (opts.map CmdOption.text ++ tail)) (ha : m.aOptions = Options.empty) (hal : m.aliases = []) (hn : FineName name)
    (hf : ∀ o ∈ opts, o.Fine) (ht : AtVariable tail) :
    Leads env m (if "name".toList ∈ (optionsAfter opts).map Prod.fst then
      ok (nextVariable { m with state := .newVarAlias, rest := tail, aliases := [(name, optionsAfter opts)], variableAlias := [] }) else .abort) := by
  refine (Leads.step (m := m) (r := ok { m with state := .varAliasOpt, rest := opts.map CmdOption.text ++ tail, variableAlias := name })
    (by rw [hs]; decide) ?_).trans ?_
  · have hstep : setupStep env m = stepVarAlias m := by unfold setupStep; rw [hs]
    rw [hstep]
    unfold stepVarAlias
    rw [hr]
    simp only [hn.2, if_false, SetupMachine.goto]
  have h := leads_options env (fun o t => { m with state := .varAliasOpt, rest := t, variableAlias := name, aOptions := o }) (by simp)
    (fun o a t ha => by
      obtain ⟨n1, n2, _⟩ := notFlag ha
      simp only [setupStep, stepVarAliasOpt, n1, n2, if_false]) tail opts [] hf
  have ha' : ({ pairs := optionsOf [], accessed := [] } : Options) = m.aOptions := by rw [ha]; rfl
  rw [ha', List.nil_append] at h
  refine h.trans ?_
  refine (Leads.step (r := ok { m with
    state := .newVarAlias, rest := tail, variableAlias := name, aOptions := ⟨optionsAfter opts, []⟩ }) (by simp) ?_).trans ?_
  · show stepVarAliasOpt _ = _
    unfold stepVarAliasOpt
    rcases ht with rfl | ⟨t, rfl | rfl⟩ <;> simp [SetupMachine.goto, flags_distinct, optionsAfter]
  refine Leads.step (by simp) ?_
  show stepNewVarAlias _ = _
  unfold stepNewVarAlias
  have hg : (getValue ⟨optionsAfter opts, []⟩ "name".toList []).2.1 = decide ("name".toList ∈ (optionsAfter opts).map Prod.fst) := by
    unfold optionsAfter
    rw [getValue_optionsOf (clean_entries hf), Bool.eq_iff_iff, ← keysOf_mem]
    unfold optionsOf
    rw [List.map_map]
    simp [Function.comp_def]
  simp only [hal, List.any_nil, Bool.false_eq_true, if_false]
  rw [hg]
  by_cases hin : "name".toList ∈ (optionsAfter opts).map Prod.fst
  · rw [if_pos hin, decide_eq_true hin, if_neg (by decide)]
    simp only [List.nil_append, ha, clearOptions, Options.empty]
  · rw [if_neg hin, decide_eq_false hin, if_pos (by decide)]
    rfl

/-- **C128**, partial: only if the `-vi` of a variable cannot be taken for one of the variable before it, only for parameter files of calibrators,
and with the options of the earlier parameter files among those of a later one. A command line that is written as it should be gives, for each
name of a variable that is new, the configuration with that name, the input variable and the options given to it (those of the output
variable if there is no `-vi`), the downscaler with its options (`nearestNeighbour` if there is none), and the calibrators in their order
with their options and parameter files. It is refused exactly if a parameter file has no type, has an unknown type or cannot be read, if there is no
input variable and the downscaler is not `bypass`, if a scheme does not accept its name or options, or if an alias has no name. -/
theorem c128_line_partial (env : SetupEnv) (l : CmdLine) (hf : l.Fine) (hv : l.named ≠ none ∨ l.vars ≠ []) :
    commandLine env l.text = (l.meaning env).elim .abort ok := by
  have hfin : ∀ {m : SetupMachine} (hs : Leads env (SetupMachine.init l.text) (ok (nextVariable m))) (hm : Fresh m)
      (hr : m.rest = l.vars.flatMap CmdVariable.text) (hp : m.pOptions = ⟨optionsOf [], []⟩) (hc : m.confs = []),
      commandLine env l.text = ((confsOf env (m.aliases.map Prod.fst) [] [] l.vars).map fun cs => (cs, m.aliases)).elim .abort ok := by
    intro m hs hm hr hp hc
    have h := leads_variables env l.vars m [] hf.vars hf.apart hm hr hp (fun q hq => by simp at hq)
    rw [hc] at h
    cases hcs : confsOf env (m.aliases.map Prod.fst) [] [] l.vars with
    | none =>
      rw [hcs] at h
      rw [commandLine_leads (hs.trans h) (.inl rfl)]
      rfl
    | some cs =>
      rw [hcs] at h
      obtain ⟨m', h1, h2, h3, h4⟩ := h
      rw [commandLine_leads (hs.trans h1) (.inr ⟨m', rfl, h2⟩), ok_bind, h3, h4]
      rfl
  unfold CmdLine.meaning
  cases hn : l.named with
  | none =>
    have ht : l.text = l.vars.flatMap CmdVariable.text := by simp [CmdLine.text, hn]
    have hne : l.vars ≠ [] := hv.resolve_left (fun h => h hn)
    refine hfin (m := SetupMachine.init l.text) (Leads.step (by simp [SetupMachine.init]) ?_) (init_fresh _) ht rfl rfl
    show stepStart _ = _
    unfold stepStart nextVariable
    rcases vars_at l.vars with h | ⟨t, h | h⟩
    · cases hvs : l.vars with
      | nil => exact absurd hvs hne
      | cons v vs =>
        rw [hvs, List.flatMap_cons, variable_text] at h
        cases hi : v.input <;> simp [hi, inputText] at h
    · simp [SetupMachine.init, ht, h, SetupMachine.goto]
    · simp [SetupMachine.init, ht, h, SetupMachine.goto, flags_distinct]
  | some a =>
    have ht : l.text = flagVa :: a.1 :: (a.2.map CmdOption.text ++ l.vars.flatMap CmdVariable.text) := by
      simp [CmdLine.text, hn, flagged, flagVa]
    obtain ⟨hfa, hfo⟩ := hf.named a hn
    have h1 : Leads env (SetupMachine.init l.text) (ok ((SetupMachine.init l.text).goto .varAlias
        (a.1 :: (a.2.map CmdOption.text ++ l.vars.flatMap CmdVariable.text)))) := by
      refine Leads.step (by simp [SetupMachine.init]) ?_
      show stepStart _ = _
      unfold stepStart
      have e1 : flagVa ≠ flagV := by decide
      have e2 : flagVa ≠ flagVi := by decide
      simp [SetupMachine.init, ht, SetupMachine.goto, e1, e2]
    have h2 := h1.trans (leads_alias env (m := (SetupMachine.init l.text).goto .varAlias
        (a.1 :: (a.2.map CmdOption.text ++ l.vars.flatMap CmdVariable.text))) rfl rfl rfl rfl hfa hfo (vars_at _))
    simp only
    by_cases hin : "name".toList ∈ (optionsAfter a.2).map Prod.fst
    · rw [if_pos hin] at h2 ⊢
      exact hfin h2 ⟨rfl, rfl, rfl, rfl, rfl, rfl, rfl, rfl, rfl, rfl, rfl⟩ rfl rfl rfl
    · rw [if_neg hin] at h2 ⊢
      rw [commandLine_leads h2 (.inl rfl)]
      rfl

/-! A command line that meets the hypotheses of `c128_line_partial`, and command lines that do not get what they ask for. -/

set_option synthInstance.maxSize 1024

/-- Every variable is in the file, every scheme is accepted, and every parameter file but one with the name `-p` can be read. -/
def agreeable : SetupEnv where
  hasInput _ := true
  sameFile := false
  readable _ o := o.any fun q => q.1 = "file".toList ∧ q.2 ≠ "-p".toList
  calibratorOk _ _ := true
  downscalerOk _ _ := true

/-- Words apart by spaces. -/
def words (s : String) : List Str := (s.toList.splitOn ' ')

instance (o : CmdOption) : Decidable o.Fine :=
  haveI : ∀ c, Decidable (White c) := fun c => by unfold White; infer_instance
  haveI : Decidable (IsFlag o.text) := by unfold IsFlag; infer_instance
  decidable_of_iff (o.key ≠ [] ∧ '=' ∉ o.key ∧ (∀ c ∈ o.text, ¬ White c) ∧ ¬ IsFlag o.text)
    ⟨fun h => ⟨h.1, h.2.1, h.2.2.1, h.2.2.2⟩, fun h => ⟨h.1, h.2, h.3, h.4⟩⟩

instance (w : Str) : Decidable (FineName w) := by unfold FineName; infer_instance

instance (p : CmdParameters) : Decidable p.Fine :=
  haveI : ∀ c, Decidable (White c) := fun c => by unfold White; infer_instance
  haveI : Decidable (IsFlag p.file) := by unfold IsFlag; infer_instance
  decidable_of_iff (p.file ≠ [] ∧ '=' ∉ p.file ∧ (∀ c ∈ p.file, ¬ White c) ∧ ¬ IsFlag p.file ∧ ∀ o ∈ p.options, o.Fine)
    ⟨fun h => ⟨h.1, h.2.1, h.2.2.1, h.2.2.2.1, h.2.2.2.2⟩, fun h => ⟨h.1, h.2, h.3, h.4, h.5⟩⟩

instance (c : CmdCalibrator) : Decidable c.Fine :=
  decidable_of_iff ((∀ o ∈ c.options, o.Fine) ∧ ∀ p ∈ c.parameters, p.Fine) ⟨fun h => ⟨h.1, h.2⟩, fun h => ⟨h.1, h.2⟩⟩

instance (v : CmdVariable) : Decidable v.Fine :=
  decidable_of_iff ((∀ i ∈ v.input, FineName i.1 ∧ ∀ o ∈ i.2, o.Fine) ∧ FineName v.name ∧ (∀ o ∈ v.options, o.Fine) ∧
    (∀ d ∈ v.downscaler, ∀ o ∈ d.2, o.Fine) ∧ ∀ c ∈ v.calibrators, c.Fine)
    ⟨fun h => ⟨h.1, h.2.1, h.2.2.1, h.2.2.2.1, h.2.2.2.2⟩, fun h => ⟨h.1, h.2, h.3, h.4, h.5⟩⟩

/-- `-va w name=z -vi a x=1 -v b -d gradient y=2 -c zaga k=1 -p f type=text -vi w -v c o=3 -v b`. -/
def goodLine : CmdLine where
  named := some ("w".toList, [⟨"name".toList, some "z".toList⟩])
  vars := [⟨some ("a".toList, [⟨"x".toList, some "1".toList⟩]), "b".toList, [], some ("gradient".toList, [⟨"y".toList, some "2".toList⟩]),
      [⟨"zaga".toList, [⟨"k".toList, some "1".toList⟩], some ⟨"f".toList, [⟨"type".toList, some "text".toList⟩]⟩⟩]⟩,
    ⟨some ("w".toList, []), "c".toList, [⟨"o".toList, some "3".toList⟩], none, []⟩, ⟨none, "b".toList, [], none, []⟩]

/-- A line that meets the hypotheses, and what it gives. -/
theorem c128_example : goodLine.Fine ∧ goodLine.vars ≠ [] ∧
    goodLine.text = words "-va w name=z -vi a x=1 -v b -d gradient y=2 -c zaga k=1 -p f type=text -vi w -v c o=3 -v b" ∧
    (goodLine.meaning { agreeable with hasInput := fun n => n = "a".toList }).isSome ∧
    (goodLine.meaning { agreeable with hasInput := fun n => n = "c".toList }) = none ∧
    commandLine agreeable (words "-v b") = ok ([⟨"b".toList, "b".toList, .file, [], [], "nearestNeighbour".toList, [], none, []⟩], []) := by
  refine ⟨⟨by decide +kernel, by decide +kernel, ?_⟩, by decide +kernel, by decide +kernel, by decide +kernel, by decide +kernel, by decide +kernel⟩
  simp [goodLine, Apart]

/-- False of the code: the `-vi` before a variable belongs to that variable. With an option after the first variable, it replaces the input
variable of the first one, and the second one is read from the variable of its own name. -/
theorem c128_input_false : ∃ l : CmdLine, l.text = words "-vi a -v b o=1 -vi c -v d" ∧ (∀ v ∈ l.vars, v.Fine) ∧
    ((l.meaning agreeable).map fun r => r.1.map fun c => (c.output, c.input)) =
      some [("b".toList, "a".toList), ("d".toList, "c".toList)] ∧
    (commandLine agreeable l.text >>= fun r => ok (r.1.map fun c => (c.output, c.input))) =
      ok [("b".toList, "c".toList), ("d".toList, "d".toList)] :=
  ⟨⟨none, [⟨some ("a".toList, []), "b".toList, [⟨"o".toList, some "1".toList⟩], none, []⟩, ⟨some ("c".toList, []), "d".toList, [], none, []⟩]⟩,
    by decide +kernel, by decide +kernel, by decide +kernel, by decide +kernel⟩

/-- False of the code: every variable after `-v` is written. An option of the input variable of the first one makes the second one take its
place. -/
theorem c128_lost_false : ∃ l : CmdLine, l.text = words "-v a -vi b o=1 -v c" ∧ (∀ v ∈ l.vars, v.Fine) ∧
    ((l.meaning agreeable).map fun r => r.1.map VariableConf.output) = some ["a".toList, "c".toList] ∧
    (commandLine agreeable l.text >>= fun r => ok (r.1.map fun c => (c.output, c.input))) = ok [("c".toList, "b".toList)] :=
  ⟨⟨none, [⟨none, "a".toList, [], none, []⟩, ⟨some ("b".toList, [⟨"o".toList, some "1".toList⟩]), "c".toList, [], none, []⟩]⟩,
    by decide +kernel, by decide +kernel, by decide +kernel, by decide +kernel⟩

/-- False of the code: a parameter file after a downscaler is used. It is not, and a calibrator that follows is then to have a parameter file
with the name `-p`. Even a `-p` without a file is accepted. -/
theorem c128_downscaler_parameters_false :
    (commandLine agreeable (words "-v a -d gradient -p f type=text") >>= fun r => ok (r.1.map VariableConf.downscalerParameters)) = ok [none] ∧
    commandLine agreeable (words "-v a -d gradient -p f type=text -c zaga") = .abort ∧
    commandLine { agreeable with readable := fun _ o => ("file".toList, "-p".toList) ∈ o } (words "-v a -d gradient -p f type=text -c zaga") ≠
      .abort ∧
    commandLine agreeable (words "-v a -d gradient -c zaga") ≠ .abort ∧
    commandLine agreeable (words "-v a -d gradient -p") = commandLine agreeable (words "-v a -d gradient") := by
  refine ⟨?_, ?_, ?_, ?_, ?_⟩ <;> decide +kernel

/-- False of the code: the options of a parameter file are those after its name. The second file has no type of its own and gets the type and the
options of the first one. A file name is also taken for an option. -/
theorem c128_parameters_false :
    commandLine agreeable (words "-v a -c zaga -p g") = .abort ∧
    (commandLine agreeable (words "-v a -c zaga -p f type=text k=1 -v b -c zaga -p g") >>=
      fun r => ok (r.1.map fun c => c.calibrators.map CalibratorConf.parameters)) =
      ok [[some ("text".toList, [("f".toList, "1".toList), ("type".toList, "text".toList), ("k".toList, "1".toList), ("file".toList, "f".toList)])],
        [some ("text".toList, [("f".toList, "1".toList), ("type".toList, "text".toList), ("k".toList, "1".toList), ("file".toList, "g".toList),
          ("g".toList, "1".toList)])]] := by
  refine ⟨?_, ?_⟩ <;> decide +kernel

/-- False of the code: every `-va` gives an alias. The second one is taken for options of the first one, and replaces its name; after a calibrator
it is taken for options of the calibrator. -/
theorem c128_alias_false :
    (commandLine agreeable (words "-va x name=y -va z name=w -v a") >>= fun r => ok r.2) =
      ok [("x".toList, [("name".toList, "w".toList), ("-va".toList, "1".toList), ("z".toList, "1".toList)])] ∧
    (commandLine agreeable (words "-v a -c zaga -va z name=w") >>= fun r => ok (r.1.map fun c => c.calibrators.map CalibratorConf.options, r.2)) =
      ok ([[[("-va".toList, "1".toList), ("z".toList, "1".toList), ("name".toList, "w".toList)]]], []) := by
  refine ⟨?_, ?_⟩ <;> decide +kernel

/-- False of the code: a second downscaler replaces the first one. It does if the first one has no options; else it is taken for options of the
first one. -/
theorem c128_downscaler_false :
    (commandLine agreeable (words "-v a -d b -d c") >>= fun r => ok (r.1.map fun c => (c.downscaler, c.downscalerOptions))) =
      ok [("c".toList, [])] ∧
    (commandLine agreeable (words "-v a -d b o=1 -d c") >>= fun r => ok (r.1.map fun c => (c.downscaler, c.downscalerOptions))) =
      ok [("b".toList, [("o".toList, "1".toList), ("-d".toList, "1".toList), ("c".toList, "1".toList)])] := by
  refine ⟨?_, ?_⟩ <;> decide +kernel

/-- False of the code: a command line without a variable is refused. -/
theorem c128_no_variable_false : commandLine agreeable [] = .abort ∧
    commandLine agreeable (words "-va x name=y") = ok ([], [("x".toList, [("name".toList, "y".toList)])]) := by
  refine ⟨?_, ?_⟩ <;> decide +kernel

end Gridpp.Props
