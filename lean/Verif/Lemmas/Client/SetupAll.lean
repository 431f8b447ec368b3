import Verif.Lemmas.Client.SetupLine

/-! # Lemmas for C129: where the words of a configuration come from -/

namespace Gridpp.Client
open Gridpp.Spec Res

/-- The name that waits to be written. -/
def pending (name : Str) : List Str := if name = [] then [] else [name]

/-- What holds of the members after the arguments `d` have been read. -/
structure Body (env : SetupEnv) (args d : List Str) (m : SetupMachine) : Prop where
  sub : (m.confs.map VariableConf.output ++ pending m.variableName).Sublist d
  name : m.variableName = [] ∨ FlagThen args "-v" m.variableName ∧ FineName m.variableName
  input : m.variableInputName = [] ∨ FlagThen args "-vi" m.variableInputName ∧ FineName m.variableInputName
  down : m.downscaler = defaultDownscaler ∨ FlagThen args "-d" m.downscaler
  cals : ∀ k ∈ m.calibrators, CalibratorFrom env args k
  par : m.parameterFileDownscaler = none
  confs : ∀ c ∈ m.confs, FromLine env args c
  nodup : (m.confs.map VariableConf.output).Nodup

/-- The flag that leads into a state. -/
def entry : SetupState → Option Str
  | .var => some flagV
  | .varI => some flagVi
  | .down => some flagD
  | .cal => some flagC
  | _ => none

/-- In these states the name of a calibrator has been read. -/
def inCal : SetupState → Bool
  | .newCal => true
  | .calOpt => true
  | .parCal => true
  | .parOptCal => true
  | _ => false

def Traced (env : SetupEnv) (args : List Str) (m : SetupMachine) : Prop :=
  ∃ d, args = d ++ m.rest ∧ Body env args d m ∧ (∀ f, entry m.state = some f → d.getLast? = some f) ∧
    (inCal m.state = true → FlagThen args "-c" m.calibrator)

variable {env : SetupEnv} {args d e t r : List Str} {m m' : SetupMachine} {s : SetupState} {a b : Str}

theorem Body.mono (h : Body env args d m) (e : List Str) : Body env args (d ++ e) m :=
  ⟨h.sub.trans (List.sublist_append_left _ _), h.name, h.input, h.down, h.cals, h.par, h.confs, h.nodup⟩

theorem traced_goto (hb : Body env args d m) (hd : args = d ++ t) (e : List Str) (ht : t = e ++ r)
    (hl : ∀ f, entry s = some f → e.getLast? = some f) (hc : inCal s = true → FlagThen args "-c" m.calibrator) :
    Traced env args (m.goto s r) := by
  refine ⟨d ++ e, by simp [SetupMachine.goto, hd, ht], ?_, ?_, hc⟩
  · have := hb.mono e
    exact ⟨this.sub, this.name, this.input, this.down, this.cals, this.par, this.confs, this.nodup⟩
  · intro f hf
    rw [List.getLast?_append, hl f hf]
    rfl

theorem flagThen_of {flag : String} {f : Str} (hf : f = flag.toList) (hd : args = d ++ a :: t) (hl : d.getLast? = some f) : FlagThen args flag a := by
  obtain ⟨p, rfl⟩ := List.getLast?_eq_some_iff.mp hl
  exact ⟨p, t, by rw [hd, hf]; simp⟩

theorem body_name (h : Body env args d m) (hd : args = d ++ a :: t) (hl : d.getLast? = some flagV) (ha : a.head? ≠ some '-') :
    Body env args (d ++ [a]) { m with rest := a :: t, variableName := a } := by
  have hs : (m.confs.map VariableConf.output).Sublist d := (List.sublist_append_left _ _).trans h.sub
  refine ⟨?_, ?_, h.input, h.down, h.cals, h.par, h.confs, h.nodup⟩
  · refine hs.append ?_
    unfold pending
    simp only
    split_ifs
    · exact List.nil_sublist _
    · exact List.Sublist.refl _
  · by_cases hn : a = []
    · exact .inl hn
    · exact .inr ⟨flagThen_of (by decide) hd hl, hn, ha⟩

theorem body_input (h : Body env args d m) (hd : args = d ++ a :: t) (hl : d.getLast? = some flagVi) (ha : a.head? ≠ some '-') :
    Body env args (d ++ [a]) { m with rest := a :: t, variableInputName := a } := by
  refine ⟨h.sub.trans (List.sublist_append_left _ _), h.name, ?_, h.down, h.cals, h.par, h.confs, h.nodup⟩
  by_cases hn : a = []
  · exact .inl hn
  · exact .inr ⟨flagThen_of (by decide) hd hl, hn, ha⟩

theorem body_down (h : Body env args d m) (hd : args = d ++ a :: t) (hl : d.getLast? = some flagD) :
    Body env args (d ++ [a]) { m with rest := a :: t, downscaler := a } :=
  ⟨h.sub.trans (List.sublist_append_left _ _), h.name, h.input, .inr (flagThen_of (by decide) hd hl), h.cals, h.par, h.confs, h.nodup⟩

/-- Where nothing of the above is changed. -/
theorem Body.other (h : Body env args d m) (e : List Str) (h1 : m'.confs = m.confs) (h2 : m'.variableName = m.variableName)
    (h3 : m'.variableInputName = m.variableInputName) (h4 : m'.downscaler = m.downscaler) (h5 : m'.calibrators = m.calibrators)
    (h6 : m'.parameterFileDownscaler = m.parameterFileDownscaler) : Body env args (d ++ e) m' := by
  have := h.mono e
  refine ⟨?_, ?_, ?_, ?_, ?_, ?_, ?_, ?_⟩
  · rw [h1, h2]; exact this.sub
  · rw [h2]; exact this.name
  · rw [h3]; exact this.input
  · rw [h4]; exact this.down
  · rw [h5]; exact this.cals
  · rw [h6]; exact this.par
  · rw [h1]; exact this.confs
  · rw [h1]; exact this.nodup

theorem newConf_from {c : Option VariableConf} (h : Body env args d m) (hn : m.variableName ≠ []) (hc : newConf env m = ok c) :
    (∀ k ∈ c, FromLine env args k ∧ k.output = m.variableName ∧ m.variableName ∉ m.confs.map VariableConf.output) := by
  intro k hk
  rw [Option.mem_def] at hk
  subst hk
  have hin : (if m.variableInputName = [] then m.variableName else m.variableInputName) = m.variableName ∨
      FlagThen args "-vi" (if m.variableInputName = [] then m.variableName else m.variableInputName) ∧
        FineName (if m.variableInputName = [] then m.variableName else m.variableInputName) := by
    split_ifs with hi
    · exact .inl rfl
    · exact .inr (h.input.resolve_left hi)
  have hs : ∀ n, findSource env m n = .file ↔ env.hasInput n = true := by
    intro n
    unfold findSource
    split_ifs <;> simp_all
  unfold newConf at hc
  simp only [Client.error] at hc
  generalize (if m.variableInputName = [] then m.variableName else m.variableInputName) = nm at hin hc
  generalize (if m.variableInputName = [] then m.vOptions else m.viOptions) = os at hc
  split_ifs at hc with h1 h2 h3 h4
  · simp at hc
  · have hk := (Option.some.inj (Res.ok.inj hc)).symm
    refine ⟨?_, by rw [hk], ?_⟩
    · subst hk
      refine ⟨h.name.resolve_left hn, hin, h.down, h.cals, hs _, h.par, ?_, ?_, ?_⟩
      · by_contra hcon
        simp only [not_or] at hcon
        exact h2 ⟨by simpa using hcon.1, hcon.2⟩
      · simpa using h3
      · simpa using h4
    · intro hin
      apply h1
      obtain ⟨c, hc1, hc2⟩ := List.mem_map.mp hin
      exact List.any_eq_true.mpr ⟨c, hc1, by simpa using hc2⟩

theorem traced_next (hb : Body env args d m) (hd : args = d ++ m.rest) (hs : entry m.state = none) (hi : inCal m.state = false) :
    Traced env args (nextVariable m) := by
  unfold nextVariable
  cases hr : m.rest with
  | nil => exact traced_goto (t := []) hb (by rw [hd, hr]) [] rfl (by simp [entry]) (by simp [inCal])
  | cons a t =>
    simp only
    split_ifs with h1 h2
    · exact traced_goto (t := a :: t) hb (by rw [hd, hr]) [a] rfl (by simp [entry, h1]) (by simp [inCal])
    · exact traced_goto (t := a :: t) hb (by rw [hd, hr]) [a] rfl (by simp [entry, h2]) (by simp [inCal])
    · exact ⟨d, hd, hb, by simp [hs], by simp [hi]⟩

theorem openParameters_from {o : Options} {file : Str} {p : Options × Option (Str × List (Str × Str))} (h : openParameters env o file = ok p) :
    ∀ q ∈ p.2, q.1 ∈ ["text".toList, "netcdf".toList] ∧ env.readable q.1 q.2 = true := by
  unfold openParameters at h
  simp only [Client.error] at h
  split_ifs at h with h1 h2 h3 h4
  · rw [← Res.ok.inj h]
    simp
  · rw [← Res.ok.inj h]
    intro q hq
    have := Option.mem_some_iff.mp hq
    subst this
    refine ⟨?_, by simpa using h4⟩
    simp only [List.mem_cons, List.not_mem_nil, or_false]
    by_contra hcon
    exact h3 (not_or.mp hcon)

/-- Closes one branch of a state of the machine. -/
macro "trace" h:ident hb:term:max hd:term:max hc:term:max : tactic => `(tactic| first
  | (simp [Client.error] at $h:ident; done)
  | (rw [← Res.ok.inj $h:ident]; refine traced_goto $hb $hd [] rfl ?_ ?_ <;> simp [entry, inCal, $hc:term]; done)
  | (rw [← Res.ok.inj $h:ident]; refine traced_goto $hb $hd [_] rfl ?_ ?_ <;> simp [entry, inCal, $hc:term, *]; done))

theorem traced_step (ht : Traced env args m) (h : setupStep env m = ok m') : Traced env args m' := by
  obtain ⟨d, hd, hb, hl, hc⟩ := ht
  unfold setupStep at h
  cases hs : m.state with
  | done => 
    rw [hs] at h
    rw [← Res.ok.inj h]
    exact ⟨d, hd, hb, hl, hc⟩
  | start =>
    rw [hs] at h
    simp only [stepStart] at h
    cases hr : m.rest with
    | nil => rw [hr] at h; simp [Client.error] at h
    | cons a t =>
      rw [hr] at h hd
      simp only at h
      split_ifs at h <;> trace h hb hd True.intro
  | var =>
    rw [hs] at h hl
    simp only [stepVar] at h
    cases hr : m.rest with
    | nil => rw [hr] at h; simp [Client.error] at h
    | cons a t =>
      rw [hr] at h hd
      simp only at h
      split_ifs at h with ha
      · simp [Client.error] at h
      · have hb' := body_name hb hd (hl _ rfl) ha
        have hd' : args = (d ++ [a]) ++ t := by simp [hd]
        cases t with
        | nil => simp only at h; trace h hb' hd' True.intro
        | cons b u => simp only at h; split_ifs at h <;> trace h hb' hd' True.intro
  | varI =>
    rw [hs] at h hl
    simp only [stepVarI] at h
    cases hr : m.rest with
    | nil => rw [hr] at h; simp [Client.error] at h
    | cons a t =>
      rw [hr] at h hd
      simp only at h
      split_ifs at h with ha
      · simp [Client.error] at h
      · have hb' := body_input hb hd (hl _ rfl) ha
        have hd' : args = (d ++ [a]) ++ t := by simp [hd]
        cases t with
        | nil => simp only at h; trace h hb' hd' True.intro
        | cons b u => simp only at h; split_ifs at h <;> trace h hb' hd' True.intro
  | down =>
    rw [hs] at h hl
    simp only [stepDown] at h
    cases hr : m.rest with
    | nil => rw [hr] at h; simp [Client.error] at h
    | cons a t =>
      rw [hr] at h hd
      simp only at h
      have hb' := body_down hb hd (hl _ rfl)
      have hd' : args = (d ++ [a]) ++ t := by simp [hd]
      cases t with
      | nil => simp only at h; trace h hb' hd' True.intro
      | cons b u => simp only at h; split_ifs at h <;> trace h hb' hd' True.intro
  | cal =>
    rw [hs] at h hl
    simp only [stepCal] at h
    cases hr : m.rest with
    | nil => rw [hr] at h; simp [Client.error] at h
    | cons a t =>
      rw [hr] at h hd
      simp only at h
      have hb' : Body env args (d ++ [a]) { m with rest := a :: t, calibrator := a } := hb.other [a] rfl rfl rfl rfl rfl rfl
      have hc' : FlagThen args "-c" ({ m with calibrator := a } : SetupMachine).calibrator := flagThen_of (by decide) hd (hl _ rfl)
      have hd' : args = (d ++ [a]) ++ t := by simp [hd]
      cases t with
      | nil => simp only at h; trace h hb' hd' hc'
      | cons b u => simp only at h; split_ifs at h <;> trace h hb' hd' hc'
  | parDown =>
    rw [hs] at h
    simp only [stepParDown] at h
    cases hr : m.rest with
    | nil => rw [hr] at h; simp [Client.error] at h
    | cons a t =>
      rw [hr] at h hd
      simp only at h
      have hb' : Body env args (d ++ [a]) { m with rest := a :: t, parameterFile := a } := hb.other [a] rfl rfl rfl rfl rfl rfl
      have hd' : args = (d ++ [a]) ++ t := by simp [hd]
      cases t with
      | nil => simp only at h; trace h hb' hd' True.intro
      | cons b u => simp only at h; split_ifs at h <;> trace h hb' hd' True.intro
  | parCal =>
    rw [hs] at h hc
    have hc' := hc rfl
    simp only [stepParCal] at h
    cases hr : m.rest with
    | nil => rw [hr] at h; simp [Client.error] at h
    | cons a t =>
      rw [hr] at h hd
      have hb' : Body env args (d ++ []) { m with rest := a :: t, parameterFile := a } := hb.other [] rfl rfl rfl rfl rfl rfl
      rw [List.append_nil] at hb'
      simp only at h
      split_ifs at h
      any_goals
        rw [← Res.ok.inj h]
        exact traced_goto hb' hd [a] rfl (by simp [entry]) (fun _ => hc')
      rw [← Res.ok.inj h]
      exact traced_goto hb' hd [] rfl (by simp [entry]) (fun _ => hc')
  | varAlias =>
    rw [hs] at h
    simp only [stepVarAlias] at h
    cases hr : m.rest with
    | nil => rw [hr] at h; simp [Client.error] at h
    | cons a t =>
      rw [hr] at h hd
      have hb' : Body env args (d ++ []) { m with rest := a :: t, variableAlias := a } := hb.other [] rfl rfl rfl rfl rfl rfl
      rw [List.append_nil] at hb'
      simp only at h
      split_ifs at h <;> trace h hb' hd True.intro
  | varOpt | varIOpt | varAliasOpt | downOpt | parOptDown =>
    rw [hs] at h
    simp only [stepVarOpt, stepVarIOpt, stepVarAliasOpt, stepDownOpt, stepParOptDown] at h
    cases hr : m.rest with
    | nil => 
      rw [hr] at h hd
      simp only at h
      trace h hb hd True.intro
    | cons a t =>
      rw [hr] at h hd
      simp only at h
      have hopt : ∀ m1 : SetupMachine, m1.rest = t → m1.state = m.state → Body env args (d ++ [a]) m1 → Traced env args m1 := by
        intro m1 e1 e2 hb1
        exact ⟨d ++ [a], by simp [hd, e1], hb1, by simp [e2, hs, entry], by simp [e2, hs, inCal]⟩
      split_ifs at h <;> first
        | (obtain ⟨o, _, h2⟩ := bind_eq_ok.mp h
           rw [← Res.ok.inj h2]
           exact hopt _ rfl rfl (hb.other [a] rfl rfl rfl rfl rfl rfl))
        | trace h hb hd True.intro
  | calOpt | parOptCal =>
    rw [hs] at h hc
    have hc' := hc rfl
    simp only [stepCalOpt, stepParOptCal] at h
    cases hr : m.rest with
    | nil => 
      rw [hr] at h hd
      simp only at h
      trace h hb hd hc'
    | cons a t =>
      rw [hr] at h hd
      simp only at h
      have hopt : ∀ m1 : SetupMachine, m1.rest = t → m1.state = m.state → m1.calibrator = m.calibrator → Body env args (d ++ [a]) m1 →
          Traced env args m1 := by
        intro m1 e1 e2 e3 hb1
        exact ⟨d ++ [a], by simp [hd, e1], hb1, by simp [e2, hs, entry], fun _ => e3 ▸ hc'⟩
      split_ifs at h <;> first
        | (obtain ⟨o, _, h2⟩ := bind_eq_ok.mp h
           rw [← Res.ok.inj h2]
           exact hopt _ rfl rfl rfl (hb.other [a] rfl rfl rfl rfl rfl rfl))
        | trace h hb hd hc'
  | newVarAlias =>
    rw [hs] at h
    simp only [stepNewVarAlias] at h
    split_ifs at h
    · rw [← Res.ok.inj h]
      exact traced_next hb hd (by simp [hs, entry]) (by simp [hs, inCal])
    · simp [Client.error] at h
    · rw [← Res.ok.inj h]
      have hb' := hb.other (m' := { m with
        aliases := m.aliases ++ [(m.variableAlias, m.aOptions.pairs)]
        variableAlias := []
        aOptions := clearOptions m.aOptions }) [] rfl rfl rfl rfl rfl rfl
      rw [List.append_nil] at hb'
      exact traced_next hb' hd (by simp [hs, entry]) (by simp [hs, inCal])
  | newVar =>
    rw [hs] at h
    simp only [stepNewVar] at h
    split_ifs at h with hn
    · simp [Client.error] at h
    · obtain ⟨c, h1, h2⟩ := bind_eq_ok.mp h
      rw [← Res.ok.inj h2]
      have hf := newConf_from hb hn h1
      have hpend : pending m.variableName = [m.variableName] := if_neg hn
      have hsub := hb.sub
      rw [hpend] at hsub
      refine traced_next ⟨?_, .inl rfl, .inl rfl, .inl rfl, ?_, rfl, ?_, ?_⟩ hd (by simp [SetupMachine.reset, hs, entry])
        (by simp [SetupMachine.reset, hs, inCal])
      · cases c with
        | none =>
          simp only [SetupMachine.reset, Option.toList_none, List.append_nil, pending, if_true]
          exact (List.sublist_append_left _ _).trans hsub
        | some k =>
          simp only [SetupMachine.reset, Option.toList_some, pending, if_true, List.append_nil, List.map_append, List.map_cons, List.map_nil]
          rw [(hf k rfl).2.1]
          exact hsub
      · simp [SetupMachine.reset]
      · intro k hk
        rcases List.mem_append.mp hk with hk | hk
        · exact hb.confs k hk
        · exact (hf k (by simpa using hk)).1
      · cases c with
        | none => simpa using hb.nodup
        | some k =>
          simp only [Option.toList_some, List.map_append, List.map_cons, List.map_nil]
          rw [(hf k rfl).2.1]
          refine List.Nodup.append hb.nodup (by simp) ?_
          simpa using (hf k rfl).2.2
  | newCal =>
    rw [hs] at h hc
    have hc' := hc rfl
    simp only [stepNewCal] at h
    obtain ⟨p, h1, h2⟩ := bind_eq_ok.mp h
    clear h
    have hb' : Body env args d { m with
        pOptions := p.1
        calibrators := m.calibrators ++ [CalibratorConf.mk m.calibrator m.cOpt.pairs p.2]
        calibrator := []
        cOpt := clearOptions m.cOpt
        parameterFile := [] } := by
      refine ⟨hb.sub, hb.name, hb.input, hb.down, ?_, hb.par, hb.confs, hb.nodup⟩
      intro k hk
      rcases List.mem_append.mp hk with hk | hk
      · exact hb.cals k hk
      · have := List.mem_singleton.mp hk
        subst this
        exact ⟨hc', openParameters_from h1⟩
    cases hr : m.rest with
    | nil => 
      rw [hr] at h2 hd hb'
      simp only at h2
      trace h2 hb' hd True.intro
    | cons a t =>
      rw [hr] at h2 hd hb'
      simp only at h2
      split_ifs at h2 with g1 g2 g3 g4
      · rw [← Res.ok.inj h2]
        exact traced_goto hb' hd [a] rfl (by simp [entry, g1]) (by simp [inCal])
      · rw [← Res.ok.inj h2]
        exact traced_goto hb' hd [] rfl (by simp [entry]) (by simp [inCal])
      · rw [← Res.ok.inj h2]
        exact traced_goto hb' hd [] rfl (by simp [entry]) (by simp [inCal])
      · rw [← Res.ok.inj h2]
        exact traced_goto hb' hd [a] rfl (by simp [entry, g4]) (by simp [inCal])
      · simp [Client.error] at h2

theorem traced_loop (env : SetupEnv) (args : List Str) : ∀ (n : Nat) (m m' : SetupMachine), Traced env args m → setupLoop env n m = ok m' →
    Traced env args m'
  | 0, m, m', _, h => by simp [setupLoop] at h
  | n + 1, m, m', ht, h => by
    unfold setupLoop at h
    split_ifs at h
    · rw [← Res.ok.inj h]
      exact ht
    · obtain ⟨m1, h1, h2⟩ := bind_eq_ok.mp h
      exact traced_loop env args n m1 m' (traced_step ht h1) h2

theorem traced_init (env : SetupEnv) (args : List Str) : Traced env args (SetupMachine.init args) :=
  ⟨[], rfl, ⟨by simp [SetupMachine.init, pending], .inl rfl, .inl rfl, .inl rfl, by simp [SetupMachine.init], rfl, by simp [SetupMachine.init],
    by simp [SetupMachine.init]⟩, by simp [SetupMachine.init, entry], by simp [SetupMachine.init, inCal]⟩

end Gridpp.Client
