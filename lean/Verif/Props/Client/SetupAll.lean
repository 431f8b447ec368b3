import Verif.Lemmas.Client.SetupAll
import Verif.Props.Client.Setup

/-! # C129: what holds of every command line -/

namespace Gridpp.Props
open Gridpp.Client Gridpp.Spec Res

/-- **C129**: every command line comes to an end: it is refused with an error message or gives configurations. -/
theorem c129_ends (env : SetupEnv) (args : List Str) : commandLine env args = .abort ∨ ∃ r, commandLine env args = ok r := by
  unfold commandLine
  rcases loop_ends env _ _ (init_orderly args) (init_turns args) with h | ⟨m', h, _⟩ <;> rw [h]
  · exact .inl rfl
  · exact .inr ⟨_, rfl⟩

/-- **C129**: whatever the arguments are, the variables that are written have different names, come in the order of the arguments, and stand
there after `-v`; the input variable is the one of the same name or stands after `-vi`; the downscaler is the default one or stands after `-d`
and has no parameter file; every calibrator stands after `-c`, and its parameter file, if it has one, could be read; there is an input
variable or the downscaler is `bypass`; and the schemes have been accepted. -/
theorem c129_all (env : SetupEnv) (args : List Str) (r : List VariableConf × List (Str × List (Str × Str))) (h : commandLine env args = ok r) :
    (r.1.map VariableConf.output).Nodup ∧ (r.1.map VariableConf.output).Sublist args ∧ ∀ c ∈ r.1, FromLine env args c := by
  unfold commandLine at h
  obtain ⟨m, h1, h2⟩ := bind_eq_ok.mp h
  obtain ⟨d, hd, hb, _, _⟩ := traced_loop env args _ _ _ (traced_init env args) h1
  rw [← Res.ok.inj h2]
  refine ⟨hb.nodup, ?_, hb.confs⟩
  rw [hd]
  exact ((List.sublist_append_left _ _).trans hb.sub).trans (List.sublist_append_left _ _)

/-- **C129**: command lines that are refused whatever else they contain: those that do not begin with `-v`, `-vi` or `-va`, and those
where the first of these is not followed by a name. -/
theorem c129_refused (env : SetupEnv) (args : List Str)
    (h : (∀ a ∈ args.head?, a ∉ ["-v".toList, "-vi".toList, "-va".toList]) ∨
      ∃ a t, args = a :: t ∧ (t = [] ∨ ∃ b u, t = b :: u ∧ b.head? = some '-')) : commandLine env args = .abort := by
  have key : Leads env (SetupMachine.init args) .abort := by
    cases args with
    | nil => exact Leads.step (by simp [SetupMachine.init]) rfl
    | cons a t =>
      by_cases ha : a ∈ ["-v".toList, "-vi".toList, "-va".toList]
      · have ht : t = [] ∨ ∃ b u, t = b :: u ∧ b.head? = some '-' := by
          rcases h with h | ⟨a', t', h, h'⟩
          · exact absurd ha (h a rfl)
          · rw [(List.cons.inj h).2]
            exact h'
        have hstep : ∀ s, (s = .var ∨ s = .varI ∨ s = .varAlias) → setupStep env ((SetupMachine.init (a :: t)).goto s t) = .abort := by
          intro s hs
          rcases ht with rfl | ⟨b, u, rfl, hb⟩ <;> rcases hs with rfl | rfl | rfl <;>
            simp [setupStep, stepVar, stepVarI, stepVarAlias, SetupMachine.goto, Client.error, *]
        have hgo : ∃ s, (s = .var ∨ s = .varI ∨ s = .varAlias) ∧ setupStep env (SetupMachine.init (a :: t)) = ok ((SetupMachine.init (a :: t)).goto s t) := by
          simp only [List.mem_cons, List.not_mem_nil, or_false] at ha
          rcases ha with rfl | rfl | rfl
          · exact ⟨.var, .inl rfl, rfl⟩
          · exact ⟨.varI, .inr (.inl rfl), rfl⟩
          · exact ⟨.varAlias, .inr (.inr rfl), rfl⟩
        obtain ⟨s, hs, h1⟩ := hgo
        refine (Leads.step (by simp [SetupMachine.init]) h1).trans (Leads.step ?_ (hstep s hs))
        rcases hs with rfl | rfl | rfl <;> simp [SetupMachine.goto]
      · refine Leads.step (by simp [SetupMachine.init]) ?_
        simp only [List.mem_cons, List.not_mem_nil, or_false, not_or] at ha
        have e1 : a ≠ flagV := ha.1
        have e2 : a ≠ flagVi := ha.2.1
        have e3 : a ≠ flagVa := ha.2.2
        simp [setupStep, stepStart, SetupMachine.init, e1, e2, e3, Client.error]
  rw [commandLine_leads key (.inl rfl)]
  rfl

set_option synthInstance.maxSize 1024 in
/-- A command line with configurations, although it is not written as it should be: the second `-v` takes the place of the first one. -/
theorem c129_example : (commandLine agreeable (words "-v a -vi b o=1 -v c -d g p=1 -d h -c z -p f type=text -p g") >>=
      fun r => ok (r.1.map fun c => (c.output, c.input, c.downscaler, c.calibrators.map CalibratorConf.name))) =
    ok [("c".toList, "b".toList, "g".toList, ["z".toList])] ∧
    commandLine agreeable (words "-v -vi") = .abort ∧ commandLine agreeable (words "v a") = .abort := by
  refine ⟨?_, ?_, ?_⟩ <;> decide +kernel

end Gridpp.Props
