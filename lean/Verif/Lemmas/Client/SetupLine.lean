import Verif.Lemmas.Client.Setup

/-! # Lemmas on the command line: the turns for a line that is written as it should be -/

namespace Gridpp.Client
open Res Spec

theorem loop_ends (env : SetupEnv) : ∀ n (m : SetupMachine), Orderly m → turns m < n →
    setupLoop env n m = .abort ∨ ∃ m', setupLoop env n m = ok m' ∧ m'.state = .done := by
  intro n
  induction n with
  | zero => intro m _ h; omega
  | succ n ih =>
    intro m ho h
    unfold setupLoop
    by_cases hd : m.state = .done
    · rw [if_pos hd]
      exact .inr ⟨m, rfl, hd⟩
    · rw [if_neg hd]
      rcases progress_step env hd ho with hp | ⟨m', hp, ho', ht⟩
      · rw [hp]; exact .inl rfl
      · rw [hp]
        exact ih m' ho' (by omega)

theorem loop_more (env : SetupEnv) : ∀ n (m : SetupMachine) k, setupLoop env n m ≠ ub → setupLoop env (n + k) m = setupLoop env n m := by
  intro n
  induction n with
  | zero => intro m k h; exact absurd rfl h
  | succ n ih =>
    intro m k h
    rw [Nat.add_right_comm]
    unfold setupLoop at h ⊢
    split_ifs with hd
    · rfl
    · rw [if_neg hd] at h
      cases hs : setupStep env m with
      | ok m' => rw [hs, ok_bind] at h; exact ih m' k h
      | abort => rfl
      | throw e => rfl
      | ub => rfl

/-- The turns from `m` lead to the outcome `r`, from where it goes on. -/
def Leads (env : SetupEnv) (m : SetupMachine) (r : Res SetupMachine) : Prop :=
  ∃ n, ∀ k, setupLoop env (n + k) m = r >>= setupLoop env k

theorem Leads.refl {env : SetupEnv} (m : SetupMachine) : Leads env m (ok m) := ⟨0, fun k => by rw [Nat.zero_add, ok_bind]⟩

theorem Leads.step {env : SetupEnv} {m : SetupMachine} {r : Res SetupMachine} (hd : m.state ≠ .done) (h : setupStep env m = r) :
    Leads env m r :=
  ⟨1, fun k => by rw [Nat.add_comm, setupLoop, if_neg hd, h]⟩

theorem Leads.trans {env : SetupEnv} {m m' : SetupMachine} {r : Res SetupMachine} (h : Leads env m (ok m')) (h' : Leads env m' r) :
    Leads env m r := by
  obtain ⟨n, h⟩ := h
  obtain ⟨n', h'⟩ := h'
  refine ⟨n + n', fun k => ?_⟩
  rw [Nat.add_assoc, h, ok_bind, h']

/-- What the whole loop gives. -/
theorem leads_loop {env : SetupEnv} {m : SetupMachine} {r : Res SetupMachine} {n : Nat} (ho : Orderly m) (hn : turns m < n) (h : Leads env m r)
    (hr : r = .abort ∨ ∃ m', r = ok m' ∧ m'.state = .done) : setupLoop env n m = r := by
  obtain ⟨k, hk⟩ := h
  have h1 : setupLoop env (k + 1) m = r := by
    rw [hk]
    rcases hr with hr | ⟨m', hr, hd⟩
    · rw [hr]; rfl
    · rw [hr, ok_bind, setupLoop, if_pos hd]
  have hu : r ≠ ub := by rcases hr with hr | ⟨m', hr, _⟩ <;> simp [hr]
  have h2 : setupLoop env n m ≠ ub := by
    rcases loop_ends env n m ho hn with h | ⟨m', h, _⟩ <;> simp [h]
  rw [← loop_more env n m (k + 1) h2, Nat.add_comm, loop_more env (k + 1) m n (by rw [h1]; exact hu), h1]

theorem notFlag {a : Str} (h : ¬ IsFlag a) : a ≠ flagV ∧ a ≠ flagVi ∧ a ≠ flagD ∧ a ≠ flagC ∧ a ≠ flagP := by
  refine ⟨?_, ?_, ?_, ?_, ?_⟩ <;> (rintro rfl; exact h (by simp [IsFlag, flagV, flagVi, flagD, flagC, flagP]))

/-- A state that collects options. -/
theorem leads_options (env : SetupEnv) (mk : Options → List Str → SetupMachine) (hd : ∀ o t, (mk o t).state ≠ .done)
    (hs : ∀ o a t, ¬ IsFlag a → setupStep env (mk o (a :: t)) = (addOptions o a >>= fun o' => ok (mk o' t))) (tail : List Str) :
    ∀ (opts : List CmdOption) (before : List (Str × Str)), (∀ o ∈ opts, o.Fine) →
      Leads env (mk ⟨optionsOf before, []⟩ (opts.map CmdOption.text ++ tail))
        (ok (mk ⟨optionsOf (before ++ opts.map CmdOption.entry), []⟩ tail)) := by
  intro opts
  induction opts with
  | nil => intro before _; simpa using Leads.refl _
  | cons o os ih =>
    intro before hf
    have ho := hf o (List.mem_cons_self ..)
    refine (Leads.step (hd _ _) ?_).trans (m' := mk ⟨optionsOf (before ++ [o.entry]), []⟩ (os.map CmdOption.text ++ tail)) ?_
    · rw [List.map_cons, List.cons_append, hs _ _ _ ho.noFlag, addOptions_cmd before [] ho, ok_bind]
    · have h := ih (before ++ [o.entry]) (fun o' h' => hf o' (List.mem_cons_of_mem _ h'))
      rw [List.append_assoc, List.singleton_append] at h
      simpa using h

/-- The state after a variable name or a downscaler, with its options: by the next argument. -/
def stateAfter : List Str → SetupState
  | [] => .newVar
  | a :: _ => if a = flagD then .down else if a = flagC then .cal else .newVar

/-- The arguments that are left then. -/
def restAfter : List Str → List Str
  | [] => []
  | a :: t => if a = flagD then t else if a = flagC then t else a :: t

/-- What can come after a variable name and its options. -/
inductive VarTail (inp : Str) (opts : List CmdOption) : List Str → Prop
  | nil : VarTail inp opts []
  | v (t : List Str) : VarTail inp opts (flagV :: t)
  | d (t : List Str) : VarTail inp opts (flagD :: t)
  | c (t : List Str) : VarTail inp opts (flagC :: t)
  | vi (t : List Str) : inp ≠ [] → opts = [] → VarTail inp opts (flagVi :: t)

theorem flags_distinct : flagV ≠ flagVi ∧ flagV ≠ flagD ∧ flagV ≠ flagC ∧ flagV ≠ flagP ∧ flagVi ≠ flagV ∧ flagVi ≠ flagD ∧ flagVi ≠ flagC ∧
    flagVi ≠ flagP ∧ flagD ≠ flagV ∧ flagD ≠ flagVi ∧ flagD ≠ flagC ∧ flagD ≠ flagP ∧ flagC ≠ flagV ∧ flagC ≠ flagVi ∧ flagC ≠ flagD ∧
    flagC ≠ flagP ∧ flagP ≠ flagV ∧ flagP ≠ flagVi ∧ flagP ≠ flagD ∧ flagP ≠ flagC := by decide

theorem leads_var (env : SetupEnv) {m : SetupMachine} {name : Str} {opts : List CmdOption} {tail : List Str} (hs : m.state = .var)
    (hr : m.rest = name :: (opts.map CmdOption.text ++ tail)) (hv : m.vOptions = Options.empty) (hn : FineName name)
    (hf : ∀ o ∈ opts, o.Fine) (ht : VarTail m.variableInputName opts tail) :
    Leads env m (ok { m with
      state := stateAfter tail, rest := restAfter tail, variableName := name, vOptions := ⟨optionsOf (opts.map CmdOption.entry), []⟩ }) := by
  have hstep : setupStep env m = stepVar m := by unfold setupStep; rw [hs]
  cases opts with
  | nil =>
    refine Leads.step (by rw [hs]; decide) ?_
    rw [hstep]
    unfold stepVar
    rw [hr]
    simp only [List.map_nil, List.nil_append, hn.2, if_false]
    have hv' : ({ pairs := optionsOf [], accessed := [] } : Options) = m.vOptions := by rw [hv]; rfl
    cases ht <;> simp_all [SetupMachine.goto, stateAfter, restAfter, flags_distinct]
  | cons o os =>
    have ho := hf o (List.mem_cons_self ..)
    obtain ⟨n1, n2, n3, n4, n5⟩ := notFlag ho.noFlag
    refine (Leads.step (m := m) (r := ok { m with state := .varOpt, rest := (o :: os).map CmdOption.text ++ tail, variableName := name })
      (by rw [hs]; decide) ?_).trans ?_
    · rw [hstep]
      unfold stepVar
      rw [hr]
      simp only [List.map_cons, List.cons_append, hn.2, if_false, n1, n2, n3, n4, n5, and_false, SetupMachine.goto]
    · have h := leads_options env (fun p t => { m with state := .varOpt, rest := t, variableName := name, vOptions := p }) (by simp)
        (fun p a t ha => by
          obtain ⟨n1, n2, n3, n4, n5⟩ := notFlag ha
          simp only [setupStep, stepVarOpt, n1, n2, n3, n4, n5, if_false]) tail (o :: os) [] hf
      have hv' : ({ pairs := optionsOf [], accessed := [] } : Options) = m.vOptions := by rw [hv]; rfl
      rw [hv', List.nil_append] at h
      refine h.trans (Leads.step (by simp) ?_)
      simp only [setupStep, stepVarOpt]
      cases ht <;> simp_all [SetupMachine.goto, stateAfter, restAfter, flags_distinct]

theorem leads_varI (env : SetupEnv) {m : SetupMachine} {name : Str} {opts : List CmdOption} {tail : List Str} (hs : m.state = .varI)
    (hr : m.rest = name :: (opts.map CmdOption.text ++ flagV :: tail)) (hv : m.viOptions = Options.empty) (hm : m.variableName = [])
    (hn : FineName name) (hf : ∀ o ∈ opts, o.Fine) :
    Leads env m (ok { m with
      state := .var, rest := tail, variableInputName := name, viOptions := ⟨optionsOf (opts.map CmdOption.entry), []⟩ }) := by
  have hstep : setupStep env m = stepVarI m := by unfold setupStep; rw [hs]
  have hv' : ({ pairs := optionsOf [], accessed := [] } : Options) = m.viOptions := by rw [hv]; rfl
  cases opts with
  | nil =>
    refine Leads.step (by rw [hs]; decide) ?_
    rw [hstep]
    unfold stepVarI
    rw [hr]
    simp only [List.map_nil, List.nil_append, hn.2, if_false]
    simp_all [SetupMachine.goto, flags_distinct]
  | cons o os =>
    have ho := hf o (List.mem_cons_self ..)
    obtain ⟨n1, n2, n3, n4, n5⟩ := notFlag ho.noFlag
    refine (Leads.step (m := m)
      (r := ok { m with state := .varIOpt, rest := (o :: os).map CmdOption.text ++ flagV :: tail, variableInputName := name })
      (by rw [hs]; decide) ?_).trans ?_
    · rw [hstep]
      unfold stepVarI
      rw [hr]
      simp only [List.map_cons, List.cons_append, hn.2, if_false, n1, n2, n3, n4, n5, and_false, SetupMachine.goto]
    · have h := leads_options env (fun p t => { m with state := .varIOpt, rest := t, variableInputName := name, viOptions := p }) (by simp)
        (fun p a t ha => by
          obtain ⟨n1, n2, n3, n4, n5⟩ := notFlag ha
          simp only [setupStep, stepVarIOpt, n1, n2, n3, n4, n5, if_false]) (flagV :: tail) (o :: os) [] hf
      rw [hv', List.nil_append] at h
      refine h.trans (Leads.step (by simp) ?_)
      simp only [setupStep, stepVarIOpt]
      simp_all [SetupMachine.goto, flags_distinct]

/-- What can come after a downscaler and its options. -/
inductive DownTail : List Str → Prop
  | nil : DownTail []
  | v (t : List Str) : DownTail (flagV :: t)
  | vi (t : List Str) : DownTail (flagVi :: t)
  | c (t : List Str) : DownTail (flagC :: t)

theorem leads_down (env : SetupEnv) {m : SetupMachine} {name : Str} {opts : List CmdOption} {tail : List Str} (hs : m.state = .down)
    (hr : m.rest = name :: (opts.map CmdOption.text ++ tail)) (hv : m.dOptions = Options.empty)
    (hf : ∀ o ∈ opts, o.Fine) (ht : DownTail tail) :
    Leads env m (ok { m with
      state := stateAfter tail, rest := restAfter tail, downscaler := name, dOptions := ⟨optionsOf (opts.map CmdOption.entry), []⟩ }) := by
  have hstep : setupStep env m = stepDown m := by unfold setupStep; rw [hs]
  have hv' : ({ pairs := optionsOf [], accessed := [] } : Options) = m.dOptions := by rw [hv]; rfl
  cases opts with
  | nil =>
    refine Leads.step (by rw [hs]; decide) ?_
    rw [hstep]
    unfold stepDown
    rw [hr]
    simp only [List.map_nil, List.nil_append]
    cases ht <;> simp_all [SetupMachine.goto, stateAfter, restAfter, flags_distinct]
  | cons o os =>
    have ho := hf o (List.mem_cons_self ..)
    obtain ⟨n1, n2, n3, n4, n5⟩ := notFlag ho.noFlag
    refine (Leads.step (m := m) (r := ok { m with state := .downOpt, rest := (o :: os).map CmdOption.text ++ tail, downscaler := name })
      (by rw [hs]; decide) ?_).trans ?_
    · rw [hstep]
      unfold stepDown
      rw [hr]
      simp only [List.map_cons, List.cons_append, if_false, n1, n2, n3, n4, n5, SetupMachine.goto]
    · have h := leads_options env (fun p t => { m with state := .downOpt, rest := t, downscaler := name, dOptions := p }) (by simp)
        (fun p a t ha => by
          obtain ⟨n1, n2, _, n4, n5⟩ := notFlag ha
          simp only [setupStep, stepDownOpt, n1, n2, n4, n5, if_false]) tail (o :: os) [] hf
      rw [hv', List.nil_append] at h
      refine h.trans (Leads.step (by simp) ?_)
      simp only [setupStep, stepDownOpt]
      cases ht <;> simp_all [SetupMachine.goto, stateAfter, restAfter, flags_distinct]

/-- The text of a parameter file after `-p`, as the options that the machine takes. -/
def parOptions (p : CmdParameters) : List CmdOption := ⟨p.file, none⟩ :: p.options

theorem parOptions_fine {p : CmdParameters} (h : p.Fine) : ∀ o ∈ parOptions p, o.Fine := by
  intro o ho
  rcases List.mem_cons.mp ho with rfl | ho
  · exact ⟨h.file, h.noEqual, h.noWhite, h.noFlag⟩
  · exact h.options o ho

/-- The entries after a parameter file that may be there. -/
def parEntries (p : Option CmdParameters) : List (Str × Str) := p.elim [] fun p => (parOptions p).map CmdOption.entry

/-- To the end of a calibrator: from the state for its options, or from the state for its name. -/
theorem leads_par (env : SetupEnv) {m : SetupMachine} {p : CmdParameters} {tail : List Str} {before : List (Str × Str)} (hs : m.state = .parCal)
    (hr : m.rest = flagP :: p.file :: (p.options.map CmdOption.text ++ tail)) (hp : m.pOptions = ⟨optionsOf before, []⟩)
    (hf : p.Fine) (ht : DownTail tail) :
    Leads env m (ok { m with
      state := .newCal, rest := tail, parameterFile := p.file, pOptions := ⟨optionsOf (before ++ (parOptions p).map CmdOption.entry), []⟩ }) := by
  obtain ⟨n1, n2, n3, n4, n5⟩ := notFlag hf.noFlag
  refine (Leads.step (m := m) (r := ok { m with
    state := .parCal, rest := p.file :: (p.options.map CmdOption.text ++ tail), parameterFile := flagP }) (by rw [hs]; decide) ?_).trans ?_
  · have hstep : setupStep env m = stepParCal m := by unfold setupStep; rw [hs]
    rw [hstep]
    unfold stepParCal
    rw [hr]
    simp [SetupMachine.goto, flags_distinct]
  refine (Leads.step (r := ok { m with
    state := .parOptCal, rest := p.file :: (p.options.map CmdOption.text ++ tail), parameterFile := p.file }) (by simp) ?_).trans ?_
  · simp only [setupStep, stepParCal, n1, n2, n3, n4, n5, if_false, SetupMachine.goto]
  have h := leads_options env (fun o t => { m with state := .parOptCal, rest := t, parameterFile := p.file, pOptions := o }) (by simp)
    (fun o a t ha => by
      obtain ⟨n1, n2, n3, n4, n5⟩ := notFlag ha
      simp only [setupStep, stepParOptCal, n1, n2, n3, n4, n5, if_false]) tail (parOptions p) before (parOptions_fine hf)
  rw [← hp] at h
  refine Leads.trans h (Leads.step (by simp) ?_)
  simp only [setupStep, stepParOptCal]
  cases ht <;> simp [SetupMachine.goto, flags_distinct]

/-- The text of a parameter file. -/
def parText (p : Option CmdParameters) : List Str := p.elim [] fun p => flagP :: p.file :: p.options.map CmdOption.text

theorem leads_cal (env : SetupEnv) {m : SetupMachine} {c : CmdCalibrator} {tail : List Str} {before : List (Str × Str)} (hs : m.state = .cal)
    (hr : m.rest = c.name :: (c.options.map CmdOption.text ++ (parText c.parameters ++ tail))) (hp : m.pOptions = ⟨optionsOf before, []⟩)
    (hc : m.cOpt = Options.empty) (hpf : m.parameterFile = []) (hf : c.Fine) (ht : DownTail tail) :
    Leads env m (ok { m with
      state := .newCal, rest := tail, calibrator := c.name, cOpt := ⟨optionsOf (c.options.map CmdOption.entry), []⟩,
      parameterFile := c.parameters.elim [] CmdParameters.file, pOptions := ⟨optionsOf (before ++ parEntries c.parameters), []⟩ }) := by
  have hc' : ({ pairs := optionsOf [], accessed := [] } : Options) = m.cOpt := by rw [hc]; rfl
  -- up to the state for the parameter file, or to the end
  have key : Leads env m (ok { m with
      state := if c.parameters = none then .newCal else .parCal, rest := parText c.parameters ++ tail, calibrator := c.name,
      cOpt := ⟨optionsOf (c.options.map CmdOption.entry), []⟩ }) := by
    have hstep : setupStep env m = stepCal m := by unfold setupStep; rw [hs]
    cases ho : c.options with
    | nil =>
      refine Leads.step (by rw [hs]; decide) ?_
      rw [hstep]
      unfold stepCal
      rw [hr, ho]
      simp only [List.map_nil, List.nil_append]
      cases hpar : c.parameters with
      | none => cases ht <;> simp_all [SetupMachine.goto, parText, flags_distinct]
      | some p => simp_all [SetupMachine.goto, parText, flags_distinct]
    | cons o os =>
      have hfo := hf.options
      rw [ho] at hfo
      obtain ⟨n1, n2, n3, n4, n5⟩ := notFlag (hfo o (List.mem_cons_self ..)).noFlag
      refine (Leads.step (m := m) (r := ok { m with
        state := .calOpt, rest := (o :: os).map CmdOption.text ++ (parText c.parameters ++ tail), calibrator := c.name })
        (by rw [hs]; decide) ?_).trans ?_
      · rw [hstep]
        unfold stepCal
        rw [hr, ho]
        simp only [List.map_cons, List.cons_append, if_false, n1, n2, n3, n4, n5, SetupMachine.goto]
      · have h := leads_options env (fun o t => { m with state := .calOpt, rest := t, calibrator := c.name, cOpt := o }) (by simp)
          (fun o a t ha => by
            obtain ⟨n1, n2, n3, n4, n5⟩ := notFlag ha
            simp only [setupStep, stepCalOpt, n1, n2, n3, n4, n5, if_false]) (parText c.parameters ++ tail) (o :: os) [] hfo
        rw [hc', List.nil_append] at h
        refine h.trans (Leads.step (by simp) ?_)
        simp only [setupStep, stepCalOpt]
        cases hpar : c.parameters with
        | none => cases ht <;> simp_all [SetupMachine.goto, parText, flags_distinct]
        | some p => simp_all [SetupMachine.goto, parText, flags_distinct]
  refine key.trans ?_
  cases hpar : c.parameters with
  | none =>
    simp only [if_true, parText, parEntries, Option.elim_none, List.nil_append, List.append_nil]
    rw [← hp, ← hpf]
    exact Leads.refl _
  | some p =>
    simp only [reduceCtorEq, if_false, parText, parEntries, Option.elim_some]
    exact leads_par env (m := { m with
      state := .parCal, rest := flagP :: p.file :: p.options.map CmdOption.text ++ tail, calibrator := c.name,
      cOpt := ⟨optionsOf (c.options.map CmdOption.entry), []⟩ }) rfl (by simp) hp (hf.parameters p hpar) ht

theorem openParameters_eq (env : SetupEnv) {kvs : List (Str × Str)} {file : Str} (hf : file ≠ []) (hc : Clean kvs) :
    openParameters env ⟨optionsOf kvs, []⟩ file =
      match lastValue (kvs ++ [("file".toList, file)]) "type".toList with
      | none => .abort
      | some type =>
        if type ∈ ["text".toList, "netcdf".toList] ∧ env.readable type (optionsOf (kvs ++ [("file".toList, file)])) = true then
          ok (⟨optionsOf (kvs ++ [("file".toList, file)]), []⟩, some (type, optionsOf (kvs ++ [("file".toList, file)])))
        else .abort := by
  have hl : lastValue (kvs ++ [("file".toList, file)]) "type".toList = lastValue kvs "type".toList := by
    rw [lastValue_snoc, if_neg (fun h => absurd h.1 (show "file".toList ≠ "type".toList by decide))]
  unfold openParameters
  have hfne : "file".toList ≠ [] := by decide
  simp only [hf, if_false, hl, getValue_optionsOf hc, addOption_optionsOf _ _ _ hfne, Client.error]
  cases h : lastValue kvs "type".toList with
  | none => simp
  | some type =>
    simp only [Option.isSome_some, Bool.not_true, Bool.false_eq_true, if_false, Option.getD_some, List.mem_cons, List.not_mem_nil, or_false]
    by_cases h1 : type = "text".toList ∨ type = "netcdf".toList
    · rw [if_neg (by rcases h1 with h1 | h1 <;> simp [h1])]
      by_cases h2 : env.readable type (optionsOf (kvs ++ [("file".toList, file)])) = true
      · rw [if_neg (by rw [h2]; decide), if_pos ⟨h1, h2⟩]
      · rw [if_pos (by simpa using h2), if_neg (fun h => h2 h.2)]
    · rw [if_pos (not_or.mp h1), if_neg (fun h => h1 h.1)]

theorem DownTail.ofAt {t : List Str} (h : AtVariable t) : DownTail t := by
  rcases h with rfl | ⟨t, rfl | rfl⟩
  · exact .nil
  · exact .v t
  · exact .vi t

theorem cal_text (c : CmdCalibrator) : c.text = flagC :: c.name :: (c.options.map CmdOption.text ++ parText c.parameters) := by
  unfold CmdCalibrator.text flagged parText
  cases c.parameters <;> simp [flagC, flagP]

theorem cals_tail (cs : List CmdCalibrator) {tail : List Str} (h : AtVariable tail) : DownTail (cs.flatMap CmdCalibrator.text ++ tail) := by
  cases cs with
  | nil => exact DownTail.ofAt h
  | cons c cs =>
    rw [List.flatMap_cons, cal_text]
    exact .c _

theorem after_at {tail : List Str} (h : AtVariable tail) : stateAfter tail = .newVar ∧ restAfter tail = tail := by
  rcases h with rfl | ⟨t, rfl | rfl⟩ <;> simp [stateAfter, restAfter, flags_distinct]

theorem newCal_next {m : SetupMachine} {tail : List Str} (h : DownTail tail) :
    (match (generalizing := false) tail with
      | [] => ok (m.goto .newVar [])
      | a :: t =>
        if a = flagC then ok (m.goto .cal t)
        else if a = flagV then ok (m.goto .newVar tail)
        else if a = flagVi then ok (m.goto .newVar tail)
        else if a = flagD then ok (m.goto .down t)
        else Client.error) = ok (m.goto (stateAfter tail) (restAfter tail)) := by
  cases h <;> simp [stateAfter, restAfter, flags_distinct]

theorem leads_cals (env : SetupEnv) {tail : List Str} (ht : AtVariable tail) : ∀ (cs : List CmdCalibrator) (m : SetupMachine) (before : List (Str × Str)),
    (∀ c ∈ cs, c.Fine) → m.state = stateAfter (cs.flatMap CmdCalibrator.text ++ tail) → m.rest = restAfter (cs.flatMap CmdCalibrator.text ++ tail) →
    m.pOptions = ⟨optionsOf before, []⟩ → Clean before → m.cOpt = Options.empty → m.parameterFile = [] → m.calibrator = [] →
    match calibratorsOf env before cs with
    | none => Leads env m .abort
    | some r => Clean r.2 ∧ Leads env m (ok { m with
        state := .newVar, rest := tail, calibrators := m.calibrators ++ r.1, pOptions := ⟨optionsOf r.2, []⟩ }) := by
  intro cs
  induction cs with
  | nil =>
    intro m before _ hs hr hp hb _ _ _
    simp only [List.flatMap_nil, List.nil_append, after_at ht] at hs hr
    simp only [calibratorsOf, List.append_nil]
    refine ⟨hb, ?_⟩
    rw [← hs, ← hr, ← hp]
    exact Leads.refl _
  | cons c cs ih =>
    intro m before hf hs hr hp hb hc hpf hcal
    have hcf := hf c (List.mem_cons_self ..)
    have hfs : ∀ c ∈ cs, c.Fine := fun c' h' => hf c' (List.mem_cons_of_mem _ h')
    rw [List.flatMap_cons, cal_text] at hs hr
    simp only [List.cons_append, stateAfter, restAfter, flags_distinct, if_true, if_false] at hs hr
    have hdt := cals_tail cs ht
    have h1 := leads_cal env (c := c) (tail := cs.flatMap CmdCalibrator.text ++ tail) hs (by rw [hr]; simp) hp hc hpf hcf hdt
    -- the turn that adds the calibrator
    have h2 : ∀ r, openParameters env ⟨optionsOf (before ++ parEntries c.parameters), []⟩ (c.parameters.elim [] CmdParameters.file) = ok r →
        Leads env m (ok { m with
          state := stateAfter (cs.flatMap CmdCalibrator.text ++ tail), rest := restAfter (cs.flatMap CmdCalibrator.text ++ tail)
          pOptions := r.1, calibrators := m.calibrators ++ [⟨c.name, optionsAfter c.options, r.2⟩] }) := by
      intro r hor
      refine h1.trans (Leads.step (by simp) ?_)
      simp only [setupStep, stepNewCal]
      rw [hor, ok_bind]
      refine (newCal_next hdt).trans ?_
      simp only [SetupMachine.goto, clearOptions, optionsAfter, hpf, hcal, hc, Options.empty]
    have h3 : openParameters env ⟨optionsOf (before ++ parEntries c.parameters), []⟩ (c.parameters.elim [] CmdParameters.file) = .abort →
        Leads env m .abort := by
      intro hor
      refine h1.trans (Leads.step (by simp) ?_)
      simp only [setupStep, stepNewCal]
      rw [hor, abort_bind]
    cases hpar : c.parameters with
    | none =>
      rw [hpar] at h2
      simp only [calibratorsOf, hpar]
      have h2' := h2 (⟨optionsOf before, []⟩, none) (by simp [openParameters, parEntries])
      have h4 := ih (before := before) hfs rfl rfl rfl hb hc hpf hcal (m := { m with
          state := stateAfter (cs.flatMap CmdCalibrator.text ++ tail), rest := restAfter (cs.flatMap CmdCalibrator.text ++ tail)
          pOptions := ⟨optionsOf before, []⟩, calibrators := m.calibrators ++ [⟨c.name, optionsAfter c.options, none⟩] })
      cases hcs : calibratorsOf env before cs with
      | none =>
        rw [hcs] at h4
        exact h2'.trans h4
      | some r =>
        rw [hcs] at h4
        refine ⟨h4.1, h2'.trans ?_⟩
        simpa using h4.2
    | some p =>
      have hpF := hcf.parameters p hpar
      rw [hpar] at h2 h3
      simp only [calibratorsOf, hpar]
      have hclean : Clean (before ++ parEntries (some p)) := hb.append (clean_entries (parOptions_fine hpF))
      have he : before ++ parEntries (some p) ++ [("file".toList, p.file)] =
          before ++ (p.file, ['1']) :: p.options.map CmdOption.entry ++ [("file".toList, p.file)] := by
        simp [parEntries, parOptions, CmdOption.entry]
      have hop := openParameters_eq env hpF.file hclean
      rw [he] at hop
      simp only [Option.elim_some] at h2 h3
      rw [hop] at h2 h3
      generalize hE : before ++ (p.file, ['1']) :: p.options.map CmdOption.entry ++ [("file".toList, p.file)] = entries at *
      have hE' : Clean entries := by
        rw [← he]
        refine hclean.append fun q hq => ?_
        rw [List.mem_singleton.mp hq]
        exact hpF.noWhite
      cases hty : lastValue entries "type".toList with
      | none => rw [hty] at h3; exact h3 rfl
      | some type =>
        rw [hty] at h2 h3
        simp only at h2 h3 ⊢
        by_cases hok : type ∈ ["text".toList, "netcdf".toList] ∧ env.readable type (optionsOf entries) = true
        · rw [if_pos hok] at h2 ⊢
          have h2' := h2 _ rfl
          have h4 := ih (before := entries) hfs rfl rfl rfl hE' hc hpf hcal (m := { m with
              state := stateAfter (cs.flatMap CmdCalibrator.text ++ tail), rest := restAfter (cs.flatMap CmdCalibrator.text ++ tail)
              pOptions := ⟨optionsOf entries, []⟩
              calibrators := m.calibrators ++ [⟨c.name, optionsAfter c.options, some (type, optionsOf entries)⟩] })
          cases hcs : calibratorsOf env entries cs with
          | none =>
            rw [hcs] at h4
            exact h2'.trans h4
          | some r =>
            rw [hcs] at h4
            refine ⟨h4.1, h2'.trans ?_⟩
            simpa using h4.2
        · rw [if_neg hok] at h3 ⊢
          exact h3 rfl

/-- The machine before a variable. -/
structure Fresh (m : SetupMachine) : Prop where
  name : m.variableName = []
  input : m.variableInputName = []
  v : m.vOptions = Options.empty
  vi : m.viOptions = Options.empty
  d : m.dOptions = Options.empty
  down : m.downscaler = defaultDownscaler
  cal : m.calibrator = []
  c : m.cOpt = Options.empty
  file : m.parameterFile = []
  cals : m.calibrators = []
  par : m.parameterFileDownscaler = none

/-- The text of a downscaler. -/
def downText (d : Option (Str × List CmdOption)) : List Str := d.elim [] fun d => flagD :: d.1 :: d.2.map CmdOption.text

/-- The text of an input variable. -/
def inputText (d : Option (Str × List CmdOption)) : List Str := d.elim [] fun d => flagVi :: d.1 :: d.2.map CmdOption.text

theorem variable_text (v : CmdVariable) : v.text = inputText v.input ++ flagV :: v.name :: (v.options.map CmdOption.text ++
    (downText v.downscaler ++ v.calibrators.flatMap CmdCalibrator.text)) := by
  unfold CmdVariable.text flagged inputText downText
  cases v.input <;> cases v.downscaler <;> simp [flagV, flagVi, flagD]

/-- The machine when the text of a variable has been read. -/
def afterVariable (m : SetupMachine) (v : CmdVariable) (tail : List Str) (cals : List CalibratorConf) (entries : List (Str × Str)) : SetupMachine :=
  { m with
    state := .newVar
    rest := tail
    variableName := v.name
    variableInputName := v.input.elim [] Prod.fst
    vOptions := ⟨optionsAfter v.options, []⟩
    viOptions := ⟨optionsAfter (v.input.elim [] Prod.snd), []⟩
    downscaler := v.downscaler.elim defaultDownscaler Prod.fst
    dOptions := ⟨optionsAfter (v.downscaler.elim [] Prod.snd), []⟩
    calibrators := cals
    pOptions := ⟨optionsOf entries, []⟩ }

theorem leads_variable (env : SetupEnv) {m : SetupMachine} {v : CmdVariable} {tail : List Str} {before : List (Str × Str)} (hm : Fresh m)
    (hr : m.rest = v.text ++ tail) (hp : m.pOptions = ⟨optionsOf before, []⟩) (hb : Clean before) (hf : v.Fine) (ht : AtVariable tail)
    (ha : ∀ t, tail = flagVi :: t → v.downscaler ≠ none ∨ v.calibrators ≠ [] ∨ v.input ≠ none ∧ v.options = []) :
    match calibratorsOf env before v.calibrators with
    | none => Leads env (nextVariable m) .abort
    | some r => Clean r.2 ∧ Leads env (nextVariable m) (ok (afterVariable m v tail r.1 r.2)) := by
  rw [variable_text] at hr
  -- the input variable
  have h1 : Leads env (nextVariable m) (ok { m with
      state := .var
      rest := v.name :: (v.options.map CmdOption.text ++ (downText v.downscaler ++ (v.calibrators.flatMap CmdCalibrator.text ++ tail)))
      variableInputName := v.input.elim [] Prod.fst
      viOptions := ⟨optionsAfter (v.input.elim [] Prod.snd), []⟩ }) := by
    unfold nextVariable
    rw [hr]
    cases hi : v.input with
    | none =>
      simp only [inputText, Option.elim_none, List.nil_append, List.cons_append, List.append_assoc, if_true]
      have e1 : ({ pairs := optionsAfter [], accessed := [] } : Options) = m.viOptions := by rw [hm.vi]; rfl
      rw [e1, ← hm.input]
      exact Leads.refl _
    | some i =>
      simp only [inputText, Option.elim_some, List.cons_append, List.append_assoc, flags_distinct, if_true, if_false]
      obtain ⟨hn, ho⟩ := hf.input i hi
      exact leads_varI env (m := m.goto .varI _) rfl rfl hm.vi hm.name hn ho
  -- the variable
  have hvt : VarTail (v.input.elim [] Prod.fst) v.options (downText v.downscaler ++ (v.calibrators.flatMap CmdCalibrator.text ++ tail)) := by
    cases hd : v.downscaler with
    | some d => exact .d _
    | none =>
      simp only [downText, Option.elim_none, List.nil_append]
      cases hc : v.calibrators with
      | cons c cs => rw [List.flatMap_cons, cal_text]; exact .c _
      | nil =>
        simp only [List.flatMap_nil, List.nil_append]
        rcases ht with rfl | ⟨t, rfl | rfl⟩
        · exact .nil
        · exact .v t
        · rcases ha t rfl with h | h | ⟨h, h'⟩
          · exact absurd hd h
          · exact absurd hc h
          · refine .vi t ?_ h'
            cases hi : v.input with
            | none => exact absurd hi h
            | some i => exact (hf.input i hi).1.1
  have h2 := h1.trans (leads_var env (m := { m with
      state := .var
      rest := v.name :: (v.options.map CmdOption.text ++ (downText v.downscaler ++ (v.calibrators.flatMap CmdCalibrator.text ++ tail)))
      variableInputName := v.input.elim [] Prod.fst
      viOptions := ⟨optionsAfter (v.input.elim [] Prod.snd), []⟩ }) rfl rfl hm.v hf.name hf.options hvt)
  -- the downscaler
  have h3 : Leads env (nextVariable m) (ok { m with
      state := stateAfter (v.calibrators.flatMap CmdCalibrator.text ++ tail)
      rest := restAfter (v.calibrators.flatMap CmdCalibrator.text ++ tail)
      variableName := v.name
      variableInputName := v.input.elim [] Prod.fst
      vOptions := ⟨optionsAfter v.options, []⟩
      viOptions := ⟨optionsAfter (v.input.elim [] Prod.snd), []⟩
      downscaler := v.downscaler.elim defaultDownscaler Prod.fst
      dOptions := ⟨optionsAfter (v.downscaler.elim [] Prod.snd), []⟩ }) := by
    cases hd : v.downscaler with
    | none =>
      rw [hd] at h2
      have e1 : ({ pairs := optionsAfter [], accessed := [] } : Options) = m.dOptions := by rw [hm.d]; rfl
      simp only [Option.elim_none, e1, ← hm.down]
      exact h2
    | some d =>
      rw [hd] at h2
      refine h2.trans ?_
      have h := leads_down env (m := { m with
        state := .down
        rest := d.1 :: (d.2.map CmdOption.text ++ (v.calibrators.flatMap CmdCalibrator.text ++ tail))
        variableName := v.name
        variableInputName := v.input.elim [] Prod.fst
        vOptions := ⟨optionsAfter v.options, []⟩
        viOptions := ⟨optionsAfter (v.input.elim [] Prod.snd), []⟩ }) rfl rfl hm.d (hf.downscaler d hd) (cals_tail v.calibrators ht)
      exact h
  -- the calibrators
  have h4 := leads_cals env ht v.calibrators { m with
      state := stateAfter (v.calibrators.flatMap CmdCalibrator.text ++ tail)
      rest := restAfter (v.calibrators.flatMap CmdCalibrator.text ++ tail)
      variableName := v.name
      variableInputName := v.input.elim [] Prod.fst
      vOptions := ⟨optionsAfter v.options, []⟩
      viOptions := ⟨optionsAfter (v.input.elim [] Prod.snd), []⟩
      downscaler := v.downscaler.elim defaultDownscaler Prod.fst
      dOptions := ⟨optionsAfter (v.downscaler.elim [] Prod.snd), []⟩ } before hf.calibrators rfl rfl hp hb hm.c hm.file hm.cal
  cases hc : calibratorsOf env before v.calibrators with
  | none =>
    rw [hc] at h4
    exact h3.trans h4
  | some r =>
    rw [hc] at h4
    refine ⟨h4.1, h3.trans ?_⟩
    have h5 := h4.2
    have e : m.calibrators ++ r.1 = r.1 := by rw [hm.cals, List.nil_append]
    simp only [e] at h5
    exact h5

theorem any_output (cs : List VariableConf) (n : Str) : cs.any (fun c => decide (c.output = n)) = decide (n ∈ cs.map VariableConf.output) := by
  rw [Bool.eq_iff_iff]
  simp

/-- The configuration that the machine makes. -/
def confHere (env : SetupEnv) (m : SetupMachine) : VariableConf where
  output := m.variableName
  input := if m.variableInputName = [] then m.variableName else m.variableInputName
  source := findSource env m (if m.variableInputName = [] then m.variableName else m.variableInputName)
  outputOptions := m.vOptions.pairs
  inputOptions := (if m.variableInputName = [] then m.vOptions else m.viOptions).pairs
  downscaler := m.downscaler
  downscalerOptions := m.dOptions.pairs
  downscalerParameters := m.parameterFileDownscaler
  calibrators := m.calibrators

theorem newConf_here (env : SetupEnv) (m : SetupMachine) : newConf env m =
    if m.variableName ∈ m.confs.map VariableConf.output then ok none
    else if Possible env (confHere env m) then ok (some (confHere env m)) else .abort := by
  unfold newConf
  simp only [Client.error]
  have hany := any_output m.confs m.variableName
  by_cases h1 : m.variableName ∈ m.confs.map VariableConf.output
  · rw [if_pos h1, if_pos (by rw [hany]; exact decide_eq_true h1)]
  rw [if_neg h1, if_neg (by rw [hany]; simpa using h1)]
  show (if (confHere env m).source = .none ∧ (confHere env m).downscaler ≠ "bypass".toList then .abort
    else if (!(confHere env m).calibrators.all (fun c => env.calibratorOk c.name c.options)) = true then .abort
    else if (!env.downscalerOk (confHere env m).downscaler (confHere env m).downscalerOptions) = true then .abort
    else ok (some (confHere env m))) = _
  generalize confHere env m = C
  by_cases p1 : C.source = .none ∧ C.downscaler ≠ "bypass".toList
  · rw [if_pos p1, if_neg (fun h : Possible env C => h.1.elim (fun h => h p1.1) p1.2)]
  rw [if_neg p1]
  have p1' : C.source ≠ .none ∨ C.downscaler = "bypass".toList := by
    by_contra hcon
    push Not at hcon
    exact p1 hcon
  by_cases p2 : C.calibrators.all (fun c => env.calibratorOk c.name c.options) = true
  · rw [if_neg (by rw [p2]; decide)]
    have p2' : ∀ k ∈ C.calibrators, env.calibratorOk k.name k.options = true := by simpa using p2
    by_cases p3 : env.downscalerOk C.downscaler C.downscalerOptions = true
    · rw [if_neg (by rw [p3]; decide), if_pos (show Possible env C from ⟨p1', p2', p3⟩)]
    · rw [if_pos (by simpa using p3), if_neg (fun h : Possible env C => p3 h.2.2)]
  · rw [if_pos (by simpa using p2), if_neg (fun h : Possible env C => p2 (by simpa using h.2.1))]

theorem findSource_eq (env : SetupEnv) (m : SetupMachine) (n : Str) :
    findSource env m n = sourceOf env (m.aliases.map Prod.fst) (m.confs.map VariableConf.output) n := by
  unfold findSource sourceOf
  have ha : m.aliases.any (fun a => decide (a.1 = n)) = decide (n ∈ m.aliases.map Prod.fst) := by
    rw [Bool.eq_iff_iff]; simp
  have hany := any_output m.confs n
  rw [ha, hany]
  simp only [decide_eq_true_eq, Bool.and_eq_true]

theorem confHere_eq (env : SetupEnv) {m : SetupMachine} (hm : Fresh m) {v : CmdVariable} (hf : v.Fine) (tail : List Str)
    (cals : List CalibratorConf) (entries : List (Str × Str)) :
    confHere env (afterVariable m v tail cals entries) = confOf env (m.aliases.map Prod.fst) (m.confs.map VariableConf.output) v cals := by
  unfold confHere confOf
  rw [findSource_eq]
  simp only [afterVariable, hm.par]
  cases hi : v.input with
  | none => simp only [Option.elim_none, if_true]; rfl
  | some i => simp only [Option.elim_some, (hf.input i hi).1.1, if_false]; rfl

theorem newConf_eq (env : SetupEnv) {m : SetupMachine} (hm : Fresh m) {v : CmdVariable} (hf : v.Fine) (tail : List Str) (cals : List CalibratorConf)
    (entries : List (Str × Str)) :
    newConf env (afterVariable m v tail cals entries) =
      if v.name ∈ m.confs.map VariableConf.output then ok none
      else if Possible env (confOf env (m.aliases.map Prod.fst) (m.confs.map VariableConf.output) v cals) then
        ok (some (confOf env (m.aliases.map Prod.fst) (m.confs.map VariableConf.output) v cals))
      else .abort := by
  rw [newConf_here, confHere_eq env hm hf]
  rfl

theorem chain_tail {v : CmdVariable} {vs : List CmdVariable} (h : (v :: vs).IsChain Apart) : vs.IsChain Apart ∧ ∀ t,
    vs.flatMap CmdVariable.text = flagVi :: t → v.downscaler ≠ none ∨ v.calibrators ≠ [] ∨ v.input ≠ none ∧ v.options = [] := by
  cases vs with
  | nil => exact ⟨List.isChain_nil, fun t ht => by simp at ht⟩
  | cons w ws =>
    obtain ⟨h1, h2⟩ := List.isChain_cons_cons.mp h
    refine ⟨h2, fun t ht => ?_⟩
    rcases h1 with h1 | h1
    · rw [List.flatMap_cons, variable_text, h1] at ht
      simp [inputText, flags_distinct] at ht
    · exact h1

theorem vars_at (vs : List CmdVariable) : AtVariable (vs.flatMap CmdVariable.text) := by
  cases vs with
  | nil => exact .inl rfl
  | cons v vs =>
    rw [List.flatMap_cons, variable_text]
    cases hi : v.input with
    | none => exact atVariable_v _
    | some i => exact atVariable_vi _

theorem leads_variables (env : SetupEnv) : ∀ (vs : List CmdVariable) (m : SetupMachine) (before : List (Str × Str)), (∀ v ∈ vs, v.Fine) →
    vs.IsChain Apart → Fresh m → m.rest = vs.flatMap CmdVariable.text → m.pOptions = ⟨optionsOf before, []⟩ → Clean before →
    match confsOf env (m.aliases.map Prod.fst) before m.confs vs with
    | none => Leads env (nextVariable m) .abort
    | some cs => ∃ m', Leads env (nextVariable m) (ok m') ∧ m'.state = .done ∧ m'.confs = cs ∧ m'.aliases = m.aliases := by
  intro vs
  induction vs with
  | nil =>
    intro m before _ _ _ hr _ _
    simp only [confsOf]
    refine ⟨_, Leads.refl _, ?_⟩
    unfold nextVariable
    rw [hr]
    exact ⟨rfl, rfl, rfl⟩
  | cons v vs ih =>
    intro m before hf hch hm hr hp hb
    obtain ⟨hch', hap⟩ := chain_tail hch
    have hv := hf v (List.mem_cons_self ..)
    rw [List.flatMap_cons] at hr
    have h1 := leads_variable env hm hr hp hb hv (vars_at vs) hap
    simp only [confsOf]
    cases hc : calibratorsOf env before v.calibrators with
    | none => rw [hc] at h1; exact h1
    | some r =>
      rw [hc] at h1
      obtain ⟨hb', h1⟩ := h1
      simp only
      have hname : (afterVariable m v (vs.flatMap CmdVariable.text) r.1 r.2).variableName ≠ [] := hv.name.1
      have hnew := newConf_eq env hm hv (vs.flatMap CmdVariable.text) r.1 r.2
      -- the turn that adds the variable
      have h2 : ∀ c, newConf env (afterVariable m v (vs.flatMap CmdVariable.text) r.1 r.2) = ok c →
          Leads env (nextVariable m) (ok (nextVariable
            { (afterVariable m v (vs.flatMap CmdVariable.text) r.1 r.2).reset with confs := m.confs ++ c.toList })) := by
        intro c hcc
        refine h1.trans (Leads.step (by simp [afterVariable]) ?_)
        show stepNewVar env _ = _
        unfold stepNewVar
        rw [if_neg hname, hcc, ok_bind]
        rfl
      have hfresh : ∀ cs, Fresh { (afterVariable m v (vs.flatMap CmdVariable.text) r.1 r.2).reset with confs := cs } := fun cs =>
        ⟨rfl, rfl, rfl, rfl, rfl, rfl, hm.cal, hm.c, hm.file, rfl, rfl⟩
      have hfs : ∀ v ∈ vs, v.Fine := fun w hw => hf w (List.mem_cons_of_mem _ hw)
      by_cases hin : v.name ∈ m.confs.map VariableConf.output
      · rw [if_pos hin] at hnew ⊢
        have h3 := h2 none hnew
        have h4 := ih { (afterVariable m v (vs.flatMap CmdVariable.text) r.1 r.2).reset with confs := m.confs ++ (none : Option VariableConf).toList }
          r.2 hfs hch' (hfresh _) rfl rfl hb'
        simp only [Option.toList_none, List.append_nil] at h3 h4
        change (match confsOf env (m.aliases.map Prod.fst) r.2 m.confs vs with | none => _ | some cs => _) at h4
        cases hcs : confsOf env (m.aliases.map Prod.fst) r.2 m.confs vs with
        | none => rw [hcs] at h4; exact h3.trans h4
        | some cs =>
          rw [hcs] at h4
          obtain ⟨m', h5, h6⟩ := h4
          exact ⟨m', h3.trans h5, h6⟩
      · rw [if_neg hin] at hnew ⊢
        generalize confOf env (m.aliases.map Prod.fst) (m.confs.map VariableConf.output) v r.1 = C at *
        by_cases hpos : Possible env C
        · rw [if_pos hpos] at hnew ⊢
          have h3 := h2 (some C) hnew
          have h4 := ih { (afterVariable m v (vs.flatMap CmdVariable.text) r.1 r.2).reset with confs := m.confs ++ (some C).toList }
            r.2 hfs hch' (hfresh _) rfl rfl hb'
          simp only [Option.toList_some] at h3 h4
          change (match confsOf env (m.aliases.map Prod.fst) r.2 (m.confs ++ [C]) vs with | none => _ | some cs => _) at h4
          cases hcs : confsOf env (m.aliases.map Prod.fst) r.2 (m.confs ++ [C]) vs with
          | none => rw [hcs] at h4; exact h3.trans h4
          | some cs =>
            rw [hcs] at h4
            obtain ⟨m', h5, h6⟩ := h4
            exact ⟨m', h3.trans h5, h6⟩
        · rw [if_neg hpos] at hnew ⊢
          refine h1.trans (Leads.step (by simp [afterVariable]) ?_)
          show stepNewVar env _ = _
          unfold stepNewVar
          rw [if_neg hname, hnew, abort_bind]

end Gridpp.Client
