import Verif.Model.Client.Setup
import Verif.Spec.ClientSetup
import Verif.Lemmas.Client.Options

/-! # Lemmas on the command line: options, and that the loop ends -/

namespace Gridpp.Client
open Res Spec

/-! Options -/

theorem keysOf_snoc (kvs : List (Str × Str)) (q : Str × Str) :
    keysOf (kvs ++ [q]) = if q.2 = [] ∨ q.1 ∈ keysOf kvs then keysOf kvs else keysOf kvs ++ [q.1] := by
  induction kvs with
  | nil => by_cases h : q.2 = [] <;> simp [keysOf, h]
  | cons p t ih =>
    simp only [List.cons_append, keysOf]
    by_cases hp : p.2 = []
    · simp only [hp, if_true]; exact ih
    · simp only [hp, if_false, ih]
      by_cases hq : q.2 = []
      · simp [hq]
      · by_cases hpq : q.1 = p.1
        · by_cases hm : q.1 ∈ keysOf t <;> rw [hpq] at hm <;> simp [hq, hpq, hm]
        · by_cases hm : q.1 ∈ keysOf t <;> simp [hq, hpq, hm]

theorem lastValue_snoc (kvs : List (Str × Str)) (q : Str × Str) (k : Str) :
    lastValue (kvs ++ [q]) k = if q.1 = k ∧ q.2 ≠ [] then some q.2 else lastValue kvs k := by
  unfold lastValue
  rw [List.reverse_append, List.reverse_singleton, List.singleton_append, List.find?_cons]
  by_cases h : q.1 = k ∧ q.2 ≠ []
  · simp [h]
  · simp only [h, decide_false, if_false]

theorem keysOf_nodup (kvs : List (Str × Str)) : (keysOf kvs).Nodup := by
  induction kvs with
  | nil => exact List.nodup_nil
  | cons p t ih =>
    simp only [keysOf]
    split_ifs
    · exact ih
    · exact List.nodup_cons.mpr ⟨by simp, ih.filter _⟩

theorem overwrite_map (k v : Str) (f : Str → Str) (ks : List Str) (hn : ks.Nodup) (hk : k ∈ ks) :
    overwrite k v (ks.map fun j => (j, f j)) = some (ks.map fun j => (j, if j = k then v else f j)) := by
  induction ks with
  | nil => simp at hk
  | cons a t ih =>
    simp only [List.map_cons, overwrite]
    obtain ⟨hat, hn'⟩ := List.nodup_cons.mp hn
    by_cases h : a = k
    · subst h
      simp only [if_true, Option.some.injEq, List.cons.injEq, true_and]
      refine List.map_congr_left fun j hj => ?_
      rw [if_neg (fun he : j = a => hat (he ▸ hj))]
    · simp only [h, if_false]
      rw [ih hn' ((List.mem_cons.mp hk).resolve_left (fun he => h he.symm))]
      rfl

theorem addOption_optionsOf (kvs : List (Str × Str)) {k : Str} (v : Str) (a : List Str) (hk : k ≠ []) :
    addOption ⟨optionsOf kvs, a⟩ k v = ⟨optionsOf (kvs ++ [(k, v)]), a⟩ := by
  by_cases hv : v = []
  · rw [addOption_ignored (.inr hv)]
    unfold optionsOf
    rw [keysOf_snoc, if_pos (.inl hv)]
    simp only [lastValue_snoc, hv, ne_eq, not_true_eq_false, and_false, if_false]
  · unfold addOption
    rw [if_neg (by simp [hk, hv])]
    by_cases hm : k ∈ keysOf kvs
    · have h := overwrite_map k v (fun k => (lastValue kvs k).getD []) _ (keysOf_nodup kvs) hm
      unfold optionsOf
      rw [h, keysOf_snoc, if_pos (.inr hm)]
      simp only [lastValue_snoc, Options.mk.injEq, and_true]
      refine List.map_congr_left fun j _ => ?_
      by_cases hj : j = k
      · subst hj; simp [hv]
      · rw [if_neg hj, if_neg (fun h => hj h.1.symm)]
    · have h : overwrite k v (optionsOf kvs) = none := by
        rw [overwrite_none]
        unfold optionsOf
        rw [List.map_map]
        simpa [Function.comp_def] using hm
      rw [h]
      unfold optionsOf
      rw [keysOf_snoc, if_neg (by simp [hv, hm])]
      simp only [lastValue_snoc, Options.mk.injEq, and_true, List.map_append, List.map_singleton, hv, ne_eq, not_false_eq_true, and_true,
        if_true, Option.getD_some]
      refine congrArg (· ++ _) (List.map_congr_left fun j hj => ?_)
      rw [if_neg (fun he : k = j => hm (he ▸ hj))]

theorem split_ok (s d : Str) : ∃ ws, split s d = ok ws ∧ Words (fun c => d.contains c) s ws := by
  obtain ⟨ws, h, hw⟩ := splitLoop_words s d (s.length + 1) 0 (by omega) (by omega)
  rw [List.drop_zero] at hw
  exact ⟨ws, h, hw⟩

theorem addOptions_ok (o : Options) (s : Str) : ∃ o', addOptions o s = ok o' := by
  obtain ⟨ws, h, _⟩ := split_ok s [' ']
  exact ⟨_, by unfold addOptions; rw [h, ok_bind]⟩

theorem split_one {s : Str} (hs : s ≠ []) (hw : ∀ c ∈ s, ¬ White c) : split s [' '] = ok [s] := by
  obtain ⟨ws, h, hws⟩ := split_ok s [' ']
  rw [h]
  have h1 : Words (fun c => [' '].contains c) (s ++ []) [s] := by
    refine .word hs (fun c hc => ?_) (by simp) .nil
    have hne : c ≠ ' ' := fun he => hw c hc (by simp [he, White])
    simpa [List.contains_cons] using hne
  rw [List.append_nil] at h1
  rw [words_unique hws h1]

theorem CmdOption.oneOption {o : CmdOption} (h : '=' ∉ o.key) : OneOption o.text o.entry.1 o.entry.2 := by
  unfold CmdOption.text CmdOption.entry
  cases o.value with
  | none => exact .flag h
  | some v => exact .value h

theorem CmdOption.text_ne {o : CmdOption} (h : o.key ≠ []) : o.text ≠ [] := by
  unfold CmdOption.text
  cases o.value <;> simp [h]

theorem addOptions_cmd (kvs : List (Str × Str)) (a : List Str) {o : CmdOption} (h : o.Fine) :
    addOptions ⟨optionsOf kvs, a⟩ o.text = ok ⟨optionsOf (kvs ++ [o.entry]), a⟩ := by
  unfold addOptions
  rw [split_one (CmdOption.text_ne h.key) h.noWhite, ok_bind]
  simp only [List.foldl_cons, List.foldl_nil]
  rw [addOptionString_spec (CmdOption.oneOption h.noEqual), addOption_optionsOf _ _ _ (show o.entry.1 ≠ [] from h.key)]

theorem keysOf_mem {kvs : List (Str × Str)} {k : Str} : k ∈ keysOf kvs ↔ (lastValue kvs k).isSome := by
  induction kvs using List.reverseRecOn with
  | nil => simp [keysOf, lastValue]
  | append_singleton kvs q ih =>
    rw [keysOf_snoc, lastValue_snoc]
    by_cases hq : q.2 = []
    · simpa [hq] using ih
    · by_cases hk : q.1 = k
      · subst hk
        by_cases hm : q.1 ∈ keysOf kvs <;> simp [hq, hm]
      · by_cases hm : q.1 ∈ keysOf kvs
        · simpa [hq, hk, hm] using ih
        · simp only [hq, hm, or_self, if_false, List.mem_append, List.mem_singleton, hk, false_and]
          rw [← ih]
          exact ⟨fun h => h.resolve_right (fun he => hk he.symm), Or.inl⟩

theorem find?_optionsOf (kvs : List (Str × Str)) (k : Str) :
    ((optionsOf kvs).find? (fun p => p.1 = k)).map Prod.snd = lastValue kvs k := by
  unfold optionsOf
  rw [List.find?_map]
  by_cases hk : k ∈ keysOf kvs
  · have h : (keysOf kvs).find? ((fun p : Str × Str => decide (p.1 = k)) ∘ fun k => (k, (lastValue kvs k).getD [])) = some k := by
      obtain ⟨a, b, hab, hna⟩ := List.eq_append_cons_of_mem hk
      rw [hab, List.find?_append, List.find?_eq_none.mpr (fun x hx => by simpa using fun he : x = k => hna (he ▸ hx))]
      simp
    rw [h]
    obtain ⟨v, hv⟩ := Option.isSome_iff_exists.mp (keysOf_mem.mp hk)
    simp [hv]
  · have h : (keysOf kvs).find? ((fun p : Str × Str => decide (p.1 = k)) ∘ fun k => (k, (lastValue kvs k).getD [])) = none := by
      rw [List.find?_eq_none]
      exact fun x hx => by simpa using fun he : x = k => hk (he ▸ hx)
    rw [h]
    rw [keysOf_mem] at hk
    simpa using (Option.not_isSome_iff_eq_none.mp hk).symm

theorem lastValue_mem {kvs : List (Str × Str)} {k v : Str} (h : lastValue kvs k = some v) : (k, v) ∈ kvs ∧ v ≠ [] := by
  unfold lastValue at h
  obtain ⟨q, hq, rfl⟩ := Option.map_eq_some_iff.mp h
  have h1 := List.find?_some hq
  have h2 := List.mem_of_find?_eq_some hq
  simp only [decide_eq_true_eq] at h1
  rw [← h1.1]
  exact ⟨List.mem_reverse.mp h2, h1.2⟩

/-- No value has white space in it. -/
def Clean (kvs : List (Str × Str)) : Prop := ∀ q ∈ kvs, ∀ c ∈ q.2, ¬ White c

theorem getValue_optionsOf {kvs : List (Str × Str)} (hc : Clean kvs) (k : Str) (a : List Str) :
    (getValue ⟨optionsOf kvs, a⟩ k []).2 = ((lastValue kvs k).isSome, (lastValue kvs k).getD []) := by
  have h := find?_optionsOf kvs k
  unfold getValue
  cases hf : (optionsOf kvs).find? (fun p => p.1 = k) with
  | none => rw [hf] at h; simp [← h]
  | some p =>
    rw [hf] at h
    obtain ⟨hm, hv⟩ := lastValue_mem h.symm
    simp only [← h, Option.map_some, Option.isSome_some, Option.getD_some]
    rw [readWord_plain [] hv (hc (k, p.2) hm)]

theorem CmdOption.clean {o : CmdOption} (h : o.Fine) : ∀ c ∈ o.entry.2, ¬ White c := by
  have hw := h.noWhite
  unfold CmdOption.text at hw
  unfold CmdOption.entry
  cases hv : o.value with
  | none => simp [White]
  | some v => rw [hv] at hw; exact fun c hc => hw c (by simp at hc; simp [hc])

theorem clean_entries {os : List CmdOption} (h : ∀ o ∈ os, o.Fine) : Clean (os.map CmdOption.entry) := by
  intro q hq
  obtain ⟨o, ho, rfl⟩ := List.mem_map.mp hq
  exact CmdOption.clean (h o ho)

theorem Clean.append {a b : List (Str × Str)} (ha : Clean a) (hb : Clean b) : Clean (a ++ b) :=
  fun q hq => (List.mem_append.mp hq).elim (ha q) (hb q)

/-! The loop ends. -/

/-- There are no arguments left, or the next one begins a variable. -/
def AtVariable (rest : List Str) : Prop := rest = [] ∨ ∃ t, rest = flagV :: t ∨ rest = flagVi :: t

/-- What holds of the machine in every turn. -/
def Orderly (m : SetupMachine) : Prop := m.state = .newVar ∨ m.state = .newVarAlias → AtVariable m.rest

/-- How many turns can follow without moving the index. -/
def rank (m : SetupMachine) : Nat :=
  match m.state with
  | .done => 0
  | .newVar | .newVarAlias => 1
  | .varOpt | .varIOpt | .varAliasOpt | .newCal | .parDown | .parOptDown => 2
  | .downOpt => 3
  | .parCal => if m.rest.head? = some flagP then 4 else 5
  | .parOptCal => if m.rest.head? = some flagP then 5 else 4
  | .calOpt => 6
  | _ => 7

theorem rank_le (m : SetupMachine) : rank m ≤ 7 := by
  unfold rank
  split <;> (try split_ifs) <;> omega

/-- The turns that are left at most. -/
def turns (m : SetupMachine) : Nat := 8 * m.rest.length + rank m

/-- A turn either ends the program or leaves fewer turns. -/
def Progress (m : SetupMachine) (r : Res SetupMachine) : Prop :=
  r = .abort ∨ ∃ m', r = ok m' ∧ Orderly m' ∧ turns m' < turns m

theorem progress_error {m : SetupMachine} : Progress m Client.error := .inl rfl

/-- A turn that moves the index. -/
theorem progress_forward {m m' : SetupMachine} (h : m'.rest.length < m.rest.length)
    (ho : Orderly m') : Progress m (ok m') := by
  refine .inr ⟨m', rfl, ho, ?_⟩
  have := rank_le m'
  unfold turns
  omega

/-- A turn that does not. -/
theorem progress_stay {m m' : SetupMachine} (h : m'.rest = m.rest) (hr : rank m' < rank m)
    (ho : Orderly m') : Progress m (ok m') := by
  refine .inr ⟨m', rfl, ho, ?_⟩
  unfold turns
  rw [h]
  omega

theorem progress_bind {m : SetupMachine} (o : Options) (a : Str) {f : Options → SetupMachine} (h : ∀ o', Progress m (ok (f o'))) :
    Progress m (addOptions o a >>= fun o' => ok (f o')) := by
  obtain ⟨o', ho⟩ := addOptions_ok o a
  rw [ho, ok_bind]
  exact h o'

theorem atVariable_v (t : List Str) : AtVariable (flagV :: t) := .inr ⟨t, .inl rfl⟩
theorem atVariable_vi (t : List Str) : AtVariable (flagVi :: t) := .inr ⟨t, .inr rfl⟩
theorem atVariable_nil : AtVariable [] := .inl rfl

theorem orderly_of {m : SetupMachine} (h1 : m.state ≠ .newVar) (h2 : m.state ≠ .newVarAlias) : Orderly m :=
  fun h => h.elim (fun h => absurd h h1) (fun h => absurd h h2)

theorem progress_nextVariable {m m' : SetupMachine} (hm : 1 ≤ rank m) (hr : m'.rest = m.rest) (hv : AtVariable m.rest) :
    Progress m (ok (nextVariable m')) := by
  unfold nextVariable
  rw [hr]
  rcases hv with hv | ⟨t, hv | hv⟩
  · rw [hv]
    exact progress_stay (by simp [SetupMachine.goto, hv]) (Nat.lt_of_lt_of_le (by simp [rank, SetupMachine.goto]) hm)
      (orderly_of (by simp [SetupMachine.goto]) (by simp [SetupMachine.goto]))
  · rw [hv]
    exact progress_forward (by simp [SetupMachine.goto, hv]) (orderly_of (by simp [SetupMachine.goto]) (by simp [SetupMachine.goto]))
  · rw [hv]
    simp only [show flagVi ≠ flagV by decide, if_false, if_true]
    exact progress_forward (by simp [SetupMachine.goto, hv]) (orderly_of (by simp [SetupMachine.goto]) (by simp [SetupMachine.goto]))

theorem goto_forward {m m0 : SetupMachine} {s : SetupState} {rest : List Str} (h : rest.length < m.rest.length)
    (ho : s = .newVar ∨ s = .newVarAlias → AtVariable rest) : Progress m (ok (m0.goto s rest)) :=
  progress_forward h ho

theorem goto_stay {m m0 : SetupMachine} {s : SetupState} {rest : List Str} (h : rest = m.rest) (hr : rank (m0.goto s rest) < rank m)
    (ho : s = .newVar ∨ s = .newVarAlias → AtVariable rest) : Progress m (ok (m0.goto s rest)) :=
  progress_stay h hr ho

theorem atVariable_iff (a : Str) (t : List Str) : AtVariable (a :: t) ↔ a = flagV ∨ a = flagVi := by
  simp only [AtVariable, reduceCtorEq, List.cons.injEq, false_or]
  exact ⟨fun ⟨_, h⟩ => h.imp And.left And.left, fun h => ⟨t, h.imp (⟨·, rfl⟩) (⟨·, rfl⟩)⟩⟩

theorem flags_ne : flagV ≠ flagP ∧ flagVi ≠ flagP ∧ flagC ≠ flagP ∧ flagD ≠ flagP := by decide

/-- Closes one branch of a state of the machine. -/
macro "branch" h:term : tactic => `(tactic| first
  | exact progress_error
  | (refine goto_forward ?_ (fun h => absurd h (by decide)); rw [$h:term]; simp only [List.length_cons]; omega)
  | (refine goto_forward ?_ (fun _ => ?_) <;> simp [atVariable_iff, atVariable_nil, *]; done)
  | (refine goto_stay ?_ ?_ (fun h => absurd h (by decide)) <;> simp [rank, SetupMachine.goto, flags_ne, *]; done)
  | (refine goto_stay ?_ ?_ (fun _ => ?_) <;> simp [atVariable_iff, atVariable_nil, rank, SetupMachine.goto, *]; done)
  | (refine progress_bind _ _ (fun _ => progress_forward ?_ (orderly_of ?_ ?_)) <;> simp [*]; done))

theorem progress_step (env : SetupEnv) {m : SetupMachine} (hd : m.state ≠ .done) (ho : Orderly m) : Progress m (setupStep env m) := by
  unfold setupStep
  cases hs : m.state with
  | done => exact absurd hs hd
  | newVar =>
    have hv := ho (.inl hs)
    simp only [stepNewVar]
    split_ifs with hn
    · exact progress_error
    · cases hc : newConf env m with
      | ok c => exact progress_nextVariable (by simp [rank, hs]) rfl hv
      | abort => exact progress_error
      | throw e =>
        unfold newConf at hc
        simp only [Client.error] at hc
        split_ifs at hc
      | ub =>
        unfold newConf at hc
        simp only [Client.error] at hc
        split_ifs at hc
  | newVarAlias =>
    have hv := ho (.inr hs)
    simp only [stepNewVarAlias]
    split_ifs with h1 h2
    · exact progress_nextVariable (by simp [rank, hs]) rfl hv
    · exact progress_error
    · exact progress_nextVariable (by simp [rank, hs]) rfl hv
  | newCal =>
    simp only [stepNewCal]
    cases hc : openParameters env m.pOptions m.parameterFile with
    | ok p =>
      simp only [ok_bind]
      cases hr : m.rest with
      | nil => simp only; branch hr
      | cons a t =>
        simp only
        split_ifs <;> branch hr
    | abort => exact progress_error
    | throw e =>
      unfold openParameters at hc
      simp only [Client.error] at hc
      split_ifs at hc
    | ub =>
      unfold openParameters at hc
      simp only [Client.error] at hc
      split_ifs at hc
  | start => 
    simp only [stepStart]
    cases hr : m.rest with
    | nil => branch hr
    | cons a t => simp only; split_ifs <;> branch hr
  | varOpt | varIOpt | varAlias | varAliasOpt | downOpt | calOpt | parOptDown | parOptCal | parCal =>
    simp only [stepVarOpt, stepVarIOpt, stepVarAlias, stepVarAliasOpt, stepDownOpt, stepCalOpt, stepParOptDown, stepParOptCal, stepParCal]
    cases hr : m.rest with
    | nil => simp only; branch hr
    | cons a t => simp only; split_ifs <;> branch hr
  | var | varI =>
    simp only [stepVar, stepVarI]
    cases hr : m.rest with
    | nil => branch hr
    | cons a t =>
      simp only
      split_ifs
      · branch hr
      · cases t with
        | nil => simp only; branch hr
        | cons b u => simp only; split_ifs <;> branch hr
  | down | cal | parDown =>
    simp only [stepDown, stepCal, stepParDown]
    cases hr : m.rest with
    | nil => branch hr
    | cons a t =>
      cases t with
      | nil => simp only; branch hr
      | cons b u => simp only; split_ifs <;> branch hr

end Gridpp.Client
