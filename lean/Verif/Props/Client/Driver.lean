import Verif.Spec.Driver
import Verif.Props.Client.Setup
import Verif.Props.Client.SetupFiles
import Verif.Lemmas.Client.ParameterText
import Mathlib.Data.List.TakeWhile

/-! # C145: the program gridpp -/

namespace Gridpp.Props
open Gridpp.Client Gridpp.Spec Res

/-! ### The arguments -/

theorem mainFlags_append (l : List Str) (t : List Str) (h1 : "--version".toList ∉ l) (h2 : "--help".toList ∉ l) : mainFlags (l ++ t) = mainFlags t := by
  induction l with
  | nil => rfl
  | cons a l ih =>
    rw [List.cons_append, mainFlags, if_neg (fun h => h1 (by simp [h])), if_neg (fun h => h2 (by simp [h]))]
    exact ih (fun h => h1 (List.mem_cons_of_mem _ h)) (fun h => h2 (List.mem_cons_of_mem _ h))

theorem mainFlags_none {l : List Str} (h1 : "--version".toList ∉ l) (h2 : "--help".toList ∉ l) : mainFlags l = none := by
  have := mainFlags_append l [] h1 h2
  rwa [List.append_nil] at this

/-- **C145** (arguments): the first of `--version` and `--help` counts, wherever it is; without them and with fewer than two arguments the usage is
shown. -/
theorem c145_flags (l t : List Str) (h1 : "--version".toList ∉ l) (h2 : "--help".toList ∉ l) :
    mainAction (l ++ "--version".toList :: t) = ok .version ∧ mainAction (l ++ "--help".toList :: t) = ok .help ∧
      (l.length < 2 → mainAction l = ok .usage) := by
  refine ⟨?_, ?_, fun h => ?_⟩
  · unfold mainAction
    rw [mainFlags_append _ _ h1 h2, mainFlags, if_pos rfl]
  · unfold mainAction
    rw [mainFlags_append _ _ h1 h2, mainFlags, if_neg (by decide), if_pos rfl]
  · unfold mainAction
    rw [mainFlags_none h1 h2]
    simp only
    rw [if_pos h]

theorem debugLoop_keep (d : Str) {a : Str} (t : List Str) (ha : a ≠ "--debug".toList) :
    debugLoop d (a :: t) = (debugLoop d t >>= fun r => ok (a :: r.1, r.2)) := by
  rw [debugLoop.eq_def]
  simp only
  rw [if_neg ha]

theorem debugLoop_level (d l : Str) (t : List Str) : debugLoop d ("--debug".toList :: l :: t) = debugLoop l t := by
  rw [debugLoop.eq_def]
  exact if_pos rfl

theorem debugLoop_last (d : Str) : debugLoop d ["--debug".toList] = .abort := by
  rw [debugLoop.eq_def]
  exact if_pos rfl

theorem debugLoop_eq {argv args levels : List Str} (h : WithoutDebug argv args levels) (d : Str) :
    debugLoop d argv = ok (args, levels.getLast?.getD d) := by
  induction h generalizing d with
  | nil => rfl
  | keep ha _ ih =>
    rw [debugLoop_keep _ _ ha, ih d]
    rfl
  | @debug l argv args levels _ ih =>
    rw [debugLoop_level, ih l]
    cases levels with
    | nil => rfl
    | cons a t => simp [List.getLast?_cons]

/-- **C145** (debug level): each `--debug` and the word after it are taken out of the arguments, and the last of these words is the debug level,
`warn` if there is none. -/
theorem c145_run {argv args levels : List Str} (h1 : "--version".toList ∉ argv) (h2 : "--help".toList ∉ argv) (hn : 2 ≤ argv.length)
    (h : WithoutDebug argv args levels) : mainAction argv = ok (.run args (levels.getLast?.getD "warn".toList)) := by
  unfold mainAction
  rw [mainFlags_none h1 h2]
  simp only
  rw [if_neg (by omega), debugLoop_eq h]
  rfl

/-- **C145** (debug level): without a word after the last `--debug` the program ends; there are no other cases. -/
theorem c145_level {argv args levels : List Str} (h1 : "--version".toList ∉ argv) (h2 : "--help".toList ∉ argv) (hn : 1 ≤ argv.length)
    (h : WithoutDebug argv args levels) : mainAction (argv ++ ["--debug".toList]) = .abort := by
  have key : ∀ {argv args levels : List Str}, WithoutDebug argv args levels → ∀ d, debugLoop d (argv ++ ["--debug".toList]) = .abort := by
    intro argv args levels h
    induction h with
    | nil => intro d; exact debugLoop_last d
    | keep ha _ ih => intro d; rw [List.cons_append, debugLoop_keep _ _ ha, ih d]; rfl
    | debug _ ih => intro d; rw [List.cons_append, List.cons_append, debugLoop_level]; exact ih _
  unfold mainAction
  rw [mainFlags_none (fun h => (List.mem_append.mp h).elim h1 (by decide)) (fun h => (List.mem_append.mp h).elim h2 (by decide))]
  simp only
  rw [if_neg (by rw [List.length_append, List.length_singleton]; omega), key h]
  rfl

@[inherit_doc c145_level] theorem c145_cases (argv : List Str) : (∃ args levels, WithoutDebug argv args levels) ∨
    ∃ argv' args levels, argv = argv' ++ ["--debug".toList] ∧ WithoutDebug argv' args levels := by
  induction hn : argv.length using Nat.strong_induction_on generalizing argv with
  | _ n ih =>
    subst hn
    match argv with
    | [] => exact .inl ⟨[], [], .nil⟩
    | a :: t =>
      by_cases ha : a = "--debug".toList
      · subst ha
        match t with
        | [] => exact .inr ⟨[], [], [], rfl, .nil⟩
        | l :: t =>
          rcases ih t.length (by simp) t rfl with ⟨args, levels, h⟩ | ⟨argv', args, levels, rfl, h⟩
          · exact .inl ⟨_, _, .debug h⟩
          · exact .inr ⟨_, _, _, rfl, .debug h⟩
      · rcases ih t.length (by simp) t rfl with ⟨args, levels, h⟩ | ⟨argv', args, levels, rfl, h⟩
        · exact .inl ⟨_, _, .keep ha h⟩
        · exact .inr ⟨_, _, _, rfl, .keep ha h⟩

/-- **C145** (debug level): what is shown at the levels of the usage text. -/
theorem c145_shown : shownAt "quiet".toList = ⟨false, false, false, false⟩ ∧ shownAt "error".toList = ⟨true, false, false, false⟩ ∧
    shownAt "warn".toList = ⟨true, true, true, false⟩ ∧ shownAt "info".toList = ⟨true, true, true, true⟩ := by decide

/-- **C145** is false for a debug level that is none of these: it is not refused, and everything is shown. -/
theorem c145_shown_false (d : Str) (h : d ∉ ["quiet".toList, "error".toList, "warn".toList]) : shownAt d = ⟨true, true, true, true⟩ := by
  simp only [List.mem_cons, List.not_mem_nil, not_or] at h
  unfold shownAt
  rw [if_neg h.1, if_neg h.2.1, if_neg h.2.2.1]

/-- **C145** (message): the arguments, separated by blanks. -/
theorem c145_message (argv : List Str) : joinArgs argv = [' '].intercalate argv := by
  induction argv with
  | nil => rfl
  | cons a t ih =>
    cases t with
    | nil => simp [joinArgs, List.intercalate]
    | cons b t =>
      rw [joinArgs, ih]
      simp [List.intercalate]
      intro h
      cases h

/-! ### Which variables are written -/

theorem writeFlag_some {c : VariableConf} {before after : List (Str × Str)} {s : Str} (ho : c.outputOptions = before ++ ("write".toList, s) :: after)
    (hb : "write".toList ∉ before.map Prod.fst) : writeFlag c = readBool s true := by
  have hf : c.outputOptions.find? (fun p => p.1 = "write".toList) = some ("write".toList, s) := by
    rw [ho, List.find?_append, List.find?_eq_none.mpr]
    · simp
    · intro p hp hc
      exact hb (List.mem_map.mpr ⟨p, hp, of_decide_eq_true hc⟩)
  unfold writeFlag
  rw [hf]

theorem writeFlag_none {c : VariableConf} (h : "write".toList ∉ c.outputOptions.map Prod.fst) : writeFlag c = true := by
  have hf : c.outputOptions.find? (fun p => p.1 = "write".toList) = none := by
    rw [List.find?_eq_none]
    intro p hp hc
    exact h (List.mem_map.mpr ⟨p, hp, of_decide_eq_true hc⟩)
  unfold writeFlag
  rw [hf]

/-- **C145** (write): a variable is written unless the number given by the option `write` is zero; without a value it is written. -/
theorem c145_write {c : VariableConf} : ("write".toList ∉ c.outputOptions.map Prod.fst → writeFlag c = true) ∧
    ∀ before after s, c.outputOptions = before ++ ("write".toList, s) :: after → "write".toList ∉ before.map Prod.fst →
      ((∀ x ∈ s, White x) → writeFlag c = true) ∧ ∀ v, IntNumeral s v → (writeFlag c = true ↔ v ≠ 0) := by
  refine ⟨writeFlag_none, fun before after s ho hb => ⟨fun hw => ?_, fun v hs => ?_⟩⟩
  · rw [writeFlag_some ho hb]
    have hsk := skipSpace_eq (b := s) (s := []) hw (by simp)
    rw [List.append_nil] at hsk
    unfold readBool
    rw [hsk]
    rfl
  · rw [writeFlag_some ho hb]
    obtain ⟨sg, ds, g, h1, h2, h3, rfl, rfl⟩ := hs
    have hw : ∀ c ∈ (sg ++ ds).head?, ¬ White c := by
      intro c hc
      cases h1 with
      | none =>
        rw [List.nil_append] at hc
        exact (digit_facts (h3 c (List.mem_of_mem_head? hc))).1
      | plus => simp at hc; subst hc; simp [White]
      | minus => simp at hc; subst hc; simp [White]
    have hsk := skipSpace_eq (b := []) (s := sg ++ ds) (by simp) hw
    rw [List.nil_append] at hsk
    have hdig : ∀ c, Digit c → isDigit c = true := by
      intro c hc
      unfold Digit at hc
      fin_cases hc <;> decide
    have htw : ds.takeWhile isDigit = ds := by
      rw [List.takeWhile_eq_self_iff]
      exact fun c hc => hdig c (h3 c hc)
    unfold readBool
    rw [hsk]
    simp only
    rw [if_neg (by simp [h2])]
    rw [decide_eq_true_iff]
    have hts : (takeSign (sg ++ ds)).2 = ds := by
      cases h1 with
      | plus => rfl
      | minus => rfl
      | none =>
        rw [List.nil_append]
        cases ds with
        | nil => exact absurd rfl h2
        | cons d ds =>
          have hd := h3 d (by simp)
          unfold takeSign
          split
          · next heq => cases heq; simp [Digit] at hd
          · next heq => cases heq; simp [Digit] at hd
          · rfl
    rw [hts, htw, digitsVal_eq]
    have hg : g ≠ 0 := by cases h1 <;> decide
    constructor
    · intro h
      exact mul_ne_zero hg (by exact_mod_cast h)
    · intro h hc
      rw [hc] at h
      simp at h

/-- **C145** is false for an option that is no number: with `write=true` the variable is not written. -/
theorem c145_write_false : ∀ s ∈ ["true".toList, "yes".toList], ∀ c : VariableConf, c.outputOptions = [("write".toList, s)] → writeFlag c = false := by
  intro s hs c hc
  unfold writeFlag
  rw [hc]
  fin_cases hs <;> decide

/-! ### The files -/

variable {F : Type}

theorem Files.put_same (w : Files F) (n : Str) (f : F) : w.put n f n = f := if_pos rfl
theorem Files.put_other (w : Files F) {n m : Str} (f : F) (h : m ≠ n) : w.put n f m = w m := if_neg h

/-- The calibrators. -/
theorem calibrators_eq (ops : DriverOps F) (c : VariableConf) (out : Str) (ks : List CalibratorConf) (w w' : Files F)
    (h : foldM (fun w k => do
      let f ← ops.calibrate c k (w out)
      ok (Files.put w out f)) w ks = ok w') : Calibrated ops c ks (w out) (w' out) ∧ ∀ m, m ≠ out → w' m = w m := by
  induction ks generalizing w with
  | nil => cases h; exact ⟨.nil, fun _ _ => rfl⟩
  | cons k ks ih =>
    rw [foldM_cons] at h
    obtain ⟨w1, h1, h2⟩ := bind_eq_ok.mp h
    obtain ⟨f, h3, h4⟩ := bind_eq_ok.mp h1
    cases h4
    obtain ⟨i1, i2⟩ := ih _ h2
    rw [Files.put_same] at i1
    exact ⟨.cons h3 i1, fun m hm => (i2 m hm).trans (Files.put_other _ _ hm)⟩

theorem calibrators_ok {ops : DriverOps F} {c : VariableConf} {out : Str} {ks : List CalibratorConf} {f f' : F} (h : Calibrated ops c ks f f')
    (w : Files F) (hw : w out = f) : ∃ w', foldM (fun w k => do
      let f ← ops.calibrate c k (w out)
      ok (Files.put w out f)) w ks = ok w' ∧ w' out = f' := by
  induction h generalizing w with
  | nil => exact ⟨w, rfl, hw⟩
  | @cons k ks f g h h1 _ ih =>
    obtain ⟨w', i1, i2⟩ := ih (w.put out g) (Files.put_same ..)
    refine ⟨w', ?_, i2⟩
    rw [foldM_cons, hw, h1]
    simp only [ok_bind]
    exact i1

/-- The variables of a pair of different files. -/
theorem variables_eq (ops : DriverOps F) {inp out : Str} (hne : inp ≠ out) (cs : List VariableConf) (w w' : Files F)
    (h : foldM (runVariable ops inp out) w cs = ok w') :
    Processed ops cs (w inp) (w out) (w' inp) (w' out) ∧ ∀ m, m ≠ inp → m ≠ out → w' m = w m := by
  induction cs generalizing w with
  | nil => cases h; exact ⟨.nil, fun _ _ _ => rfl⟩
  | cons c cs ih =>
    rw [foldM_cons] at h
    obtain ⟨w1, h1, h2⟩ := bind_eq_ok.mp h
    unfold runVariable at h1
    obtain ⟨f, h3, h4⟩ := bind_eq_ok.mp h1
    obtain ⟨w2, h5, h6⟩ := bind_eq_ok.mp h4
    unfold runDownscaler at h5
    rw [if_neg hne] at h5
    obtain ⟨r, h7, h8⟩ := bind_eq_ok.mp h5
    cases h8
    rw [Files.put_other _ _ hne, Files.put_same] at h7
    obtain ⟨k1, k2⟩ := calibrators_eq ops c out _ _ _ h6
    rw [Files.put_same] at k1
    obtain ⟨i1, i2⟩ := ih _ h2
    have hin : w1 inp = r.1 := by rw [k2 inp hne, Files.put_other _ _ hne, Files.put_same]
    rw [hin] at i1
    refine ⟨.cons h3 h7 k1 i1, fun m hm hm' => ?_⟩
    rw [i2 m hm hm', k2 m hm', Files.put_other _ _ hm', Files.put_other _ _ hm, Files.put_other _ _ hm']

theorem variables_ok {ops : DriverOps F} {inp out : Str} (hne : inp ≠ out) {cs : List VariableConf} {i o i' o' : F} (h : Processed ops cs i o i' o')
    (w : Files F) (hi : w inp = i) (ho : w out = o) : ∃ w', foldM (runVariable ops inp out) w cs = ok w' ∧ w' inp = i' ∧ w' out = o' := by
  induction h generalizing w with
  | nil => exact ⟨w, rfl, hi, ho⟩
  | @cons c cs i o o1 i2 o2 o3 i' o' h1 h2 h3 _ ih =>
    obtain ⟨w1, k1, k2⟩ := calibrators_ok (out := out) h3 (((w.put out o1).put inp i2).put out o2) (Files.put_same ..)
    have hk := (calibrators_eq ops c out _ _ _ k1).2 inp hne
    rw [Files.put_other _ _ hne, Files.put_same] at hk
    obtain ⟨w', m1, m2⟩ := ih w1 hk k2
    refine ⟨w', ?_, m2⟩
    rw [foldM_cons]
    have : runVariable ops inp out w c = ok w1 := by
      unfold runVariable
      rw [ho, h1, ok_bind]
      unfold runDownscaler
      rw [if_neg hne, Files.put_other _ _ hne, Files.put_same, hi, h2]
      simp only [ok_bind]
      exact k1
    rw [this, ok_bind]
    exact m1

/-- **C145** (one pair): an output and another file as input. The output gets times, members and reference time of the input; then each variable is made,
downscaled and calibrated, in order; then those to be written are written, and both files are cleared. No other file changes. -/
theorem c145_pair (ops : DriverOps F) (confs : List VariableConf) (message : Str) (w w' : Files F) {inp out : Str} (hne : inp ≠ out) :
    (runFile ops confs message w (out, inp) = ok w' →
      PairDone ops confs ((confs.filter writeFlag).map VariableConf.output) message (w inp) (w out) (w' inp) (w' out) ∧
      ∀ m, m ≠ inp → m ≠ out → w' m = w m) ∧
    (∀ i' o', PairDone ops confs ((confs.filter writeFlag).map VariableConf.output) message (w inp) (w out) i' o' →
      ∃ w'', runFile ops confs message w (out, inp) = ok w'' ∧ w'' inp = i' ∧ w'' out = o') := by
  constructor
  · intro h
    unfold runFile at h
    simp only at h
    obtain ⟨w1, h1, h2⟩ := bind_eq_ok.mp h
    obtain ⟨f, h3, h4⟩ := bind_eq_ok.mp h2
    cases h4
    obtain ⟨k1, k2⟩ := variables_eq ops hne _ _ _ h1
    rw [Files.put_other _ _ hne, Files.put_same] at k1
    refine ⟨⟨_, _, f, k1, h3, ?_, ?_⟩, fun m hm hm' => ?_⟩
    · rw [Files.put_other _ _ hne, Files.put_same, Files.put_other _ _ hne]
    · rw [Files.put_same, Files.put_other _ _ (Ne.symm hne), Files.put_same]
    · rw [Files.put_other _ _ hm', Files.put_other _ _ hm, Files.put_other _ _ hm', k2 m hm hm', Files.put_other _ _ hm']
  · rintro i' o' ⟨i1, o1, o2, h1, h2, rfl, rfl⟩
    obtain ⟨w1, k1, k2, k3⟩ := variables_ok hne h1 (w.put out (ops.follow (w out) (w inp))) (Files.put_other _ _ hne) (Files.put_same ..)
    refine ⟨_, by unfold runFile; simp only; rw [k1, ok_bind, k3, h2, ok_bind], ?_, ?_⟩
    · rw [Files.put_other _ _ hne, Files.put_same, Files.put_other _ _ hne, k2]
    · rw [Files.put_same, Files.put_other _ _ (Ne.symm hne), Files.put_same]

/-- **C145** (in place): a file that is input and output. -/
theorem c145_self (ops : DriverOps F) (confs : List VariableConf) (message : Str) (w w' : Files F) (n : Str)
    (h : runFile ops confs message w (n, n) = ok w') :
    (∃ o1 o2, ProcessedSelf ops confs (ops.follow (w n) (w n)) o1 ∧ ops.write o1 ((confs.filter writeFlag).map VariableConf.output) message = ok o2 ∧
      w' n = ops.clear (ops.clear o2)) ∧ ∀ m, m ≠ n → w' m = w m := by
  have key : ∀ (cs : List VariableConf) (w w' : Files F), foldM (runVariable ops n n) w cs = ok w' →
      ProcessedSelf ops cs (w n) (w' n) ∧ ∀ m, m ≠ n → w' m = w m := by
    intro cs
    induction cs with
    | nil => intro w w' h; cases h; exact ⟨.nil, fun _ _ => rfl⟩
    | cons c cs ih =>
      intro w w' h
      rw [foldM_cons] at h
      obtain ⟨w1, h1, h2⟩ := bind_eq_ok.mp h
      unfold runVariable at h1
      obtain ⟨f, h3, h4⟩ := bind_eq_ok.mp h1
      obtain ⟨w2, h5, h6⟩ := bind_eq_ok.mp h4
      unfold runDownscaler at h5
      rw [if_pos rfl] at h5
      obtain ⟨r, h7, h8⟩ := bind_eq_ok.mp h5
      cases h8
      rw [Files.put_same] at h7
      obtain ⟨k1, k2⟩ := calibrators_eq ops c n _ _ _ h6
      rw [Files.put_same] at k1
      obtain ⟨i1, i2⟩ := ih _ _ h2
      refine ⟨.cons h3 h7 k1 i1, fun m hm => ?_⟩
      rw [i2 m hm, k2 m hm, Files.put_other _ _ hm, Files.put_other _ _ hm]
  unfold runFile at h
  simp only at h
  obtain ⟨w1, h1, h2⟩ := bind_eq_ok.mp h
  obtain ⟨f, h3, h4⟩ := bind_eq_ok.mp h2
  cases h4
  obtain ⟨k1, k2⟩ := key _ _ _ h1
  rw [Files.put_same] at k1
  refine ⟨⟨_, f, k1, h3, ?_⟩, fun m hm => ?_⟩
  · rw [Files.put_same, Files.put_same, Files.put_same]
  · rw [Files.put_other _ _ hm, Files.put_other _ _ hm, Files.put_other _ _ hm, k2 m hm, Files.put_other _ _ hm]

/-- **C145** (all pairs): if no file occurs twice, what is made of a pair depends on the two files only, and no file that is not mentioned changes. -/
theorem c145_files (ops : DriverOps F) (confs : List VariableConf) (message : Str) (w : Files F) (pairs : List (Str × Str))
    (hd : (pairs.flatMap fun p => [p.1, p.2]).Nodup) :
    (∀ w', runFiles ops confs message w pairs = ok w' →
      (∀ p ∈ pairs, PairDone ops confs ((confs.filter writeFlag).map VariableConf.output) message (w p.2) (w p.1) (w' p.2) (w' p.1)) ∧
      ∀ m, (∀ p ∈ pairs, m ≠ p.1 ∧ m ≠ p.2) → w' m = w m) ∧
    ((∀ p ∈ pairs, ∃ i' o', PairDone ops confs ((confs.filter writeFlag).map VariableConf.output) message (w p.2) (w p.1) i' o') →
      ∃ w', runFiles ops confs message w pairs = ok w') := by
  induction pairs generalizing w with
  | nil =>
    refine ⟨fun w' h => ?_, fun _ => ⟨w, rfl⟩⟩
    cases h
    exact ⟨by simp, fun _ _ => rfl⟩
  | cons p pairs ih =>
    obtain ⟨out, inp⟩ := p
    rw [List.flatMap_cons, List.nodup_append'] at hd
    obtain ⟨d1, d2, d3⟩ := hd
    simp only [List.nodup_cons, List.mem_singleton] at d1
    have hne : inp ≠ out := fun h => d1.1 h.symm
    have hout : ∀ p ∈ pairs, (p.1 ≠ inp ∧ p.1 ≠ out) ∧ (p.2 ≠ inp ∧ p.2 ≠ out) := by
      intro p hp
      have hx : ∀ x ∈ [out, inp], ∀ y ∈ [p.1, p.2], y ≠ x := fun x hx y hy h =>
        d3 hx (List.mem_flatMap.mpr ⟨p, hp, h ▸ hy⟩)
      exact ⟨⟨hx inp (by simp) _ (by simp), hx out (by simp) _ (by simp)⟩, hx inp (by simp) _ (by simp), hx out (by simp) _ (by simp)⟩
    constructor
    · intro w' h
      unfold runFiles at h
      rw [foldM_cons] at h
      obtain ⟨w1, h1, h2⟩ := bind_eq_ok.mp h
      obtain ⟨k1, k2⟩ := (c145_pair ops confs message w w1 hne).1 h1
      obtain ⟨i1, i2⟩ := (ih w1 d2).1 w' h2
      have e1 : w' inp = w1 inp := i2 inp fun p hp => ⟨(hout p hp).1.1.symm, (hout p hp).2.1.symm⟩
      have e2 : w' out = w1 out := i2 out fun p hp => ⟨(hout p hp).1.2.symm, (hout p hp).2.2.symm⟩
      refine ⟨fun p hp => ?_, fun m hm => ?_⟩
      · rcases List.mem_cons.mp hp with rfl | hp
        · simp only
          rw [e1, e2]
          exact k1
        · have := i1 p hp
          rwa [k2 p.1 (hout p hp).1.1 (hout p hp).1.2, k2 p.2 (hout p hp).2.1 (hout p hp).2.2] at this
      · rw [i2 m fun p hp => hm p (by simp [hp])]
        have := hm (out, inp) (by simp)
        exact k2 m this.2 this.1
    · intro h
      obtain ⟨i', o', h1⟩ := h (out, inp) (by simp)
      obtain ⟨w1, k1, -, -⟩ := (c145_pair ops confs message w w hne).2 i' o' h1
      have k2 := ((c145_pair ops confs message w w1 hne).1 k1).2
      obtain ⟨w', h2⟩ := (ih w1 d2).2 fun p hp => by
        rw [k2 p.1 (hout p hp).1.1 (hout p hp).1.2, k2 p.2 (hout p hp).2.1 (hout p hp).2.2]
        exact h p (by simp [hp])
      refine ⟨w', ?_⟩
      unfold runFiles
      rw [foldM_cons, k1, ok_bind]
      exact h2

/-- **C145** (chain): the output of a pair as input of the next is used as it is after it was written. -/
theorem c145_chain (ops : DriverOps F) (confs : List VariableConf) (message : Str) (w w' : Files F) {a b c : Str} (hab : a ≠ b) (hbc : b ≠ c)
    (hac : a ≠ c) (h : runFiles ops confs message w [(b, a), (c, b)] = ok w') :
    ∃ i' o', PairDone ops confs ((confs.filter writeFlag).map VariableConf.output) message (w a) (w b) i' o' ∧
      PairDone ops confs ((confs.filter writeFlag).map VariableConf.output) message o' (w c) (w' b) (w' c) := by
  unfold runFiles at h
  rw [foldM_cons] at h
  obtain ⟨w1, h1, h2⟩ := bind_eq_ok.mp h
  rw [foldM_cons] at h2
  obtain ⟨w2, h3, h4⟩ := bind_eq_ok.mp h2
  cases h4
  obtain ⟨k1, k2⟩ := (c145_pair ops confs message w w1 hab).1 h1
  obtain ⟨k3, -⟩ := (c145_pair ops confs message w1 w' hbc).1 h3
  rw [k2 c (Ne.symm hac) (Ne.symm hbc)] at k3
  exact ⟨_, _, k1, k3⟩

/-- **C145** (shared input): an input of several outputs. If reading from it changes only what `clear` takes away, each output is made from the input
as it was at the beginning. -/
theorem c145_shared (ops : DriverOps F) (confs : List VariableConf) (message : Str)
    (hlaw : ∀ c i o r, ops.downscale c i o = ok r → ops.clear r.1 = ops.clear i)
    (inp : Str) (outs : List Str) (hn : inp ∉ outs) (hd : outs.Nodup) (w w' : Files F) (hc : ops.clear (w inp) = w inp)
    (h : runFiles ops confs message w (outs.map fun o => (o, inp)) = ok w') :
    w' inp = w inp ∧ ∀ o ∈ outs, PairDone ops confs ((confs.filter writeFlag).map VariableConf.output) message (w inp) (w o) (w inp) (w' o) := by
  have hproc : ∀ {cs i o i' o'}, Processed ops cs i o i' o' → ops.clear i' = ops.clear i := by
    intro cs i o i' o' h
    induction h with
    | nil => rfl
    | cons _ h2 _ _ ih => exact ih.trans (hlaw _ _ _ _ h2)
  have main : ∀ (outs : List Str), inp ∉ outs → outs.Nodup → ∀ w w' : Files F, ops.clear (w inp) = w inp →
      runFiles ops confs message w (outs.map fun o => (o, inp)) = ok w' →
      (w' inp = w inp ∧ ∀ o ∈ outs, PairDone ops confs ((confs.filter writeFlag).map VariableConf.output) message (w inp) (w o) (w inp) (w' o)) ∧
        ∀ m, m ≠ inp → m ∉ outs → w' m = w m := by
    intro outs
    induction outs with
    | nil => intro _ _ w w' _ h; cases h; exact ⟨⟨rfl, by simp⟩, fun _ _ _ => rfl⟩
    | cons o outs ih =>
      intro hn hd w w' hc h
      rw [List.mem_cons, not_or] at hn
      rw [List.nodup_cons] at hd
      unfold runFiles at h
      rw [List.map_cons, foldM_cons] at h
      obtain ⟨w1, h1, h2⟩ := bind_eq_ok.mp h
      obtain ⟨k1, k2⟩ := (c145_pair ops confs message w w1 hn.1).1 h1
      have hin : w1 inp = w inp := by
        obtain ⟨i1, o1, o2, q1, -, q3, -⟩ := k1
        rw [q3, hproc q1, hc]
      obtain ⟨⟨i1, i2⟩, i3⟩ := ih hn.2 hd.2 w1 w' (by rw [hin, hc]) h2
      refine ⟨⟨i1.trans hin, fun m hm => ?_⟩, fun m hm hm' => ?_⟩
      · rcases List.mem_cons.mp hm with rfl | hm
        · rw [i3 m (Ne.symm hn.1) hd.1]
          rwa [hin] at k1
        · have := i2 m hm
          rwa [hin, k2 m (fun h => hn.2 (h ▸ hm)) (fun h => hd.1 (h ▸ hm))] at this
      · rw [List.mem_cons, not_or] at hm'
        rw [i3 m hm hm'.2, k2 m hm hm'.1]
  exact (main outs hn hd w w' hc h).1

/-- **C145** (all together), partial: different files, and a command line that is written as in C128 and C130, with `--debug` anywhere. The program
comes to its end if and only if each pair of files can be processed, and what it has then made of a pair depends on the two files only. -/
theorem c145_main_partial (fenv : FileEnv) (setup : List (FileHandle × FileHandle) → SetupEnv) (ops : DriverOps F) (opened : FileHandle → F)
    {argv levels : List Str} {f : CmdFiles} {l : CmdLine} {ins outs : List Str} {confs : List VariableConf} {aliases}
    (h1 : "--version".toList ∉ argv) (h2 : "--help".toList ∉ argv) (hargs : WithoutDebug argv (f.text ++ l.text) levels)
    (hn : 2 ≤ argv.length) (hf : f.Fine l.text) (hi : NamesOf fenv f.input ins) (ho : NamesOf fenv f.outName outs) (hlen : ins.length = outs.length)
    (hne : ins ≠ []) (hd : (outs ++ ins).Nodup)
    (hopen : (∀ n ∈ outs, fenv.openable ⟨n, optionsAfter f.outOptions, false⟩ = true) ∧
      ∀ n ∈ ins, fenv.openable ⟨n, optionsAfter f.inputOptions, true⟩ = true)
    (hl : l.Fine) (hv : l.named ≠ none ∨ l.vars ≠ [])
    (hm : l.meaning (setup ((outs.zip ins).map fun p => (⟨p.1, optionsAfter f.outOptions, false⟩, ⟨p.2, optionsAfter f.inputOptions, true⟩))) =
      some (confs, aliases)) :
    (∀ w, gridppMain fenv setup ops opened argv = ok (.done w) → ∀ p ∈ outs.zip ins,
      PairDone ops confs ((confs.filter writeFlag).map VariableConf.output) ([' '].intercalate argv)
        (opened ⟨p.2, optionsAfter f.inputOptions, true⟩) (opened ⟨p.1, optionsAfter f.outOptions, false⟩) (w p.2) (w p.1)) ∧
    ((∃ w, gridppMain fenv setup ops opened argv = ok (.done w)) ↔ ∀ p ∈ outs.zip ins, ∃ i' o',
      PairDone ops confs ((confs.filter writeFlag).map VariableConf.output) ([' '].intercalate argv)
        (opened ⟨p.2, optionsAfter f.inputOptions, true⟩) (opened ⟨p.1, optionsAfter f.outOptions, false⟩) i' o') := by
  have hmap : ((fun p : FileHandle × FileHandle => (p.1.name, p.2.name)) ∘ fun p : Str × Str =>
      ((⟨p.1, optionsAfter f.outOptions, false⟩ : FileHandle), (⟨p.2, optionsAfter f.inputOptions, true⟩ : FileHandle))) = id := rfl
  have hrun : gridppMain fenv setup ops opened argv = (runFiles ops confs ([' '].intercalate argv) (fun n => opened ((findFile
      (((outs.zip ins).map fun p => ((⟨p.1, optionsAfter f.outOptions, false⟩ : FileHandle),
        (⟨p.2, optionsAfter f.inputOptions, true⟩ : FileHandle))).flatMap fun p => [p.1, p.2]) n).getD ⟨n, [], true⟩)) (outs.zip ins) >>=
      fun w => ok (.done w)) := by
    unfold gridppMain
    rw [c145_run h1 h2 hn hargs, ok_bind]
    simp only
    rw [c130_distinct_partial fenv f l.text ins outs hf hi ho hlen hne hd hopen, ok_bind, c128_line_partial _ l hl hv, hm, Option.elim_some, ok_bind,
      c145_message]
    simp only
    rw [List.map_map, hmap, List.map_id]
  have hnd : ((outs.zip ins).flatMap fun p => [p.1, p.2]).Nodup := by
    have : ∀ (a b : List Str), a.length = b.length → (a ++ b).Nodup → ((a.zip b).flatMap fun p => [p.1, p.2]).Nodup := by
      intro a
      induction a with
      | nil => intro b _ _; simp
      | cons x a ih =>
        intro b hlb hnb
        cases b with
        | nil => simp at hlb
        | cons y b =>
          rw [List.cons_append, List.nodup_cons, List.nodup_append'] at hnb
          obtain ⟨g1, g2, g3, g4⟩ := hnb
          rw [List.nodup_cons] at g3
          rw [List.zip_cons_cons, List.flatMap_cons]
          have hin : ∀ z, z ∈ ((a.zip b).flatMap fun p : Str × Str => [p.1, p.2]) → z ∈ a ∨ z ∈ b := by
            intro z hz
            obtain ⟨q, hq, hz⟩ := List.mem_flatMap.mp hz
            have := List.of_mem_zip (show (q.1, q.2) ∈ a.zip b from hq)
            simp only [List.mem_cons, List.not_mem_nil, or_false] at hz
            rcases hz with rfl | rfl
            · exact .inl this.1
            · exact .inr this.2
          refine List.nodup_append'.mpr ⟨?_, ih b (by simpa using hlb) (List.nodup_append'.mpr ⟨g2, g3.2, fun z hz hz' => g4 hz (by simp [hz'])⟩), ?_⟩
          · rw [List.nodup_cons]
            exact ⟨fun h => g1 (by have h' : x = y := List.mem_singleton.mp h; rw [h']; simp), by simp⟩
          · intro z hz hz'
            simp only [List.mem_cons, List.not_mem_nil, or_false] at hz
            rcases hz with rfl | rfl
            · exact g1 (List.mem_append.mpr ((hin _ hz').imp_right fun h => by simp [h]))
            · rcases hin _ hz' with h | h
              · exact g4 h (by simp)
              · exact g3.1 h
    exact this outs ins hlen.symm hd
  have hfind : ∀ p ∈ outs.zip ins, ∀ x, (x = (⟨p.1, optionsAfter f.outOptions, false⟩ : FileHandle) ∨ x = ⟨p.2, optionsAfter f.inputOptions, true⟩) →
      findFile (((outs.zip ins).map fun p => ((⟨p.1, optionsAfter f.outOptions, false⟩ : FileHandle),
        (⟨p.2, optionsAfter f.inputOptions, true⟩ : FileHandle))).flatMap fun p => [p.1, p.2]) x.name = some x := by
    intro p hp x hx
    rw [List.flatMap_map]
    have hmem : x ∈ (outs.zip ins).flatMap fun p => [(⟨p.1, optionsAfter f.outOptions, false⟩ : FileHandle), ⟨p.2, optionsAfter f.inputOptions, true⟩] :=
      List.mem_flatMap.mpr ⟨p, hp, by rcases hx with rfl | rfl <;> simp⟩
    have hnames : (((outs.zip ins).flatMap fun p => [(⟨p.1, optionsAfter f.outOptions, false⟩ : FileHandle), ⟨p.2, optionsAfter f.inputOptions, true⟩]).map
        FileHandle.name).Nodup := by
      rw [List.map_flatMap]
      exact hnd
    generalize (outs.zip ins).flatMap _ = hs at hmem hnames
    unfold findFile
    induction hs with
    | nil => simp at hmem
    | cons y hs ih =>
      rw [List.map_cons, List.nodup_cons] at hnames
      rcases List.mem_cons.mp hmem with rfl | hmem
      · rw [List.find?_cons_of_pos (by simp)]
      · rw [List.find?_cons_of_neg (by
          simp only [decide_eq_true_eq]
          intro h
          exact hnames.1 (h ▸ List.mem_map_of_mem hmem))]
        exact ih hmem hnames.2
  rw [hrun]
  have hw : ∀ p ∈ outs.zip ins, (fun n => opened ((findFile
      (((outs.zip ins).map fun p => ((⟨p.1, optionsAfter f.outOptions, false⟩ : FileHandle),
        (⟨p.2, optionsAfter f.inputOptions, true⟩ : FileHandle))).flatMap fun p => [p.1, p.2]) n).getD ⟨n, [], true⟩)) p.1 =
        opened ⟨p.1, optionsAfter f.outOptions, false⟩ ∧ (fun n => opened ((findFile
      (((outs.zip ins).map fun p => ((⟨p.1, optionsAfter f.outOptions, false⟩ : FileHandle),
        (⟨p.2, optionsAfter f.inputOptions, true⟩ : FileHandle))).flatMap fun p => [p.1, p.2]) n).getD ⟨n, [], true⟩)) p.2 =
        opened ⟨p.2, optionsAfter f.inputOptions, true⟩ := by
    intro p hp
    have e1 := hfind p hp ⟨p.1, optionsAfter f.outOptions, false⟩ (.inl rfl)
    have e2 := hfind p hp ⟨p.2, optionsAfter f.inputOptions, true⟩ (.inr rfl)
    simp only at e1 e2 ⊢
    rw [e1, e2]
    exact ⟨rfl, rfl⟩
  generalize (fun n => opened ((findFile _ n).getD ⟨n, [], true⟩)) = w0 at hw ⊢
  have first : ∀ w, (runFiles ops confs ([' '].intercalate argv) w0 (outs.zip ins) >>= fun w => ok (MainResult.done w)) = ok (.done w) →
      ∀ p ∈ outs.zip ins, PairDone ops confs ((confs.filter writeFlag).map VariableConf.output) ([' '].intercalate argv)
        (opened ⟨p.2, optionsAfter f.inputOptions, true⟩) (opened ⟨p.1, optionsAfter f.outOptions, false⟩) (w p.2) (w p.1) := by
    intro w hr p hp
    obtain ⟨w', hr1, hr2⟩ := bind_eq_ok.mp hr
    cases hr2
    have h := ((c145_files ops confs ([' '].intercalate argv) w0 (outs.zip ins) hnd).1 _ hr1).1 p hp
    rwa [(hw p hp).1, (hw p hp).2] at h
  refine ⟨first, fun ⟨w, hr⟩ p hp => ⟨_, _, first w hr p hp⟩, fun h => ?_⟩
  obtain ⟨w', hr⟩ := (c145_files ops confs ([' '].intercalate argv) w0 (outs.zip ins) hnd).2 fun p hp => by
    rw [(hw p hp).1, (hw p hp).2]
    exact h p hp
  exact ⟨w', by rw [hr, ok_bind]⟩

/-- **C145**: a command line with a parameter file, scheme or variable that is refused ends the program before any file is changed. -/
theorem c145_main_refused (fenv : FileEnv) (setup : List (FileHandle × FileHandle) → SetupEnv) (ops : DriverOps F) (opened : FileHandle → F)
    {argv args levels rest : List Str} {pairs : List (FileHandle × FileHandle)} (h1 : "--version".toList ∉ argv) (h2 : "--help".toList ∉ argv)
    (hn : 2 ≤ argv.length) (hargs : WithoutDebug argv args levels)
    (h : setupFiles fenv args = .abort ∨ setupFiles fenv args = ok (pairs, rest) ∧ commandLine (setup pairs) rest = .abort) :
    gridppMain fenv setup ops opened argv = .abort := by
  unfold gridppMain
  rw [c145_run h1 h2 hn hargs, ok_bind]
  simp only
  rcases h with h | ⟨h, h'⟩
  · rw [h]; rfl
  · rw [h, ok_bind]; simp only; rw [h']; rfl

/-! ### An example: files that keep a record of what was done -/

/-- A file is the list of what was done to it since it was last cleared, and what was written. -/
structure Record where
  held : List Str
  written : List (List Str × Str)
  deriving DecidableEq

/-- What is done is recorded; a variable without a name is refused. -/
def recordOps : DriverOps Record where
  follow o i := { o with held := "follow".toList :: i.held ++ o.held }
  init o v := if v = [] then .abort else ok { o with held := v :: o.held }
  downscale c i o := ok ({ i with held := "read".toList :: i.held }, { o with held := c.downscaler :: o.held })
  downscaleSelf c o := ok { o with held := c.downscaler :: o.held }
  calibrate _ k o := ok { o with held := k.name :: o.held }
  write o vs m := ok { o with written := (vs, m) :: o.written }
  clear o := { o with held := [] }

/-- The law of `c145_shared` holds for it. -/
theorem recordOps_law (c : VariableConf) (i o : Record) (r) (h : recordOps.downscale c i o = ok r) : recordOps.clear r.1 = recordOps.clear i := by
  cases h
  rfl

/-- A variable `v` that is downscaled by `d`. -/
def plainVariable (v d : String) : VariableConf := ⟨v.toList, v.toList, .file, [], [], d.toList, [], none, []⟩

/-- Runs as in `c145_files`, `c145_self`, `c145_chain` and `c145_shared`, and one that is refused. -/
theorem c145_runs : let w : Files Record := fun n => ⟨if n = "a".toList then [] else [n], []⟩
    let run := fun v pairs => runFiles recordOps [plainVariable v "d"] "m".toList w pairs >>= fun w' => ok (["a", "b", "c", "d"].map fun n => w' n.toList)
    let wrote : Record := ⟨[], [(["t".toList], "m".toList)]⟩
    run "t" [("b".toList, "a".toList), ("d".toList, "c".toList)] = ok [⟨[], []⟩, wrote, ⟨[], []⟩, wrote] ∧
    run "t" [("a".toList, "a".toList)] = ok [wrote, ⟨["b".toList], []⟩, ⟨["c".toList], []⟩, ⟨["d".toList], []⟩] ∧
    run "t" [("b".toList, "a".toList), ("c".toList, "b".toList)] = ok [⟨[], []⟩, wrote, wrote, ⟨["d".toList], []⟩] ∧
    run "t" [("b".toList, "a".toList), ("c".toList, "a".toList)] = ok [⟨[], []⟩, wrote, wrote, ⟨["d".toList], []⟩] ∧
    run "" [("b".toList, "a".toList)] = .abort := by
  decide +kernel

/-- `-v t write=0 -v u -c zaga`. -/
def shortLine : CmdLine where
  named := none
  vars := [⟨none, "t".toList, [⟨"write".toList, some "0".toList⟩], none, []⟩, ⟨none, "u".toList, [], none, [⟨"zaga".toList, [], none⟩]⟩]

/-- `a c`. -/
def shortFiles : CmdFiles := ⟨"a".toList, [], some ("c".toList, [])⟩

/-- A command that meets the hypotheses of `c145_main_partial`. -/
theorem c145_example : WithoutDebug (words "a --debug info c -v t write=0 -v u -c zaga") (shortFiles.text ++ shortLine.text) ["info".toList] ∧
    shortFiles.Fine shortLine.text ∧ shortLine.Fine ∧ shortLine.vars ≠ [] ∧ (shortLine.meaning agreeable).isSome ∧
    NamesOf plainFiles shortFiles.input ["a".toList] ∧ NamesOf plainFiles shortFiles.outName ["c".toList] := by
  refine ⟨?_, ⟨by decide, by simp [shortFiles], ?_, by simp [shortFiles], by decide, by simp [shortFiles]⟩, ⟨by decide +kernel, by decide +kernel, ?_⟩,
    by decide, by decide +kernel, ⟨["a".toList], ?_, by decide⟩, ⟨["c".toList], ?_, by decide⟩⟩
  · have e : words "a --debug info c -v t write=0 -v u -c zaga" = "a".toList :: "--debug".toList :: "info".toList :: "c".toList :: "-v".toList ::
        "t".toList :: "write=0".toList :: "-v".toList :: "u".toList :: "-c".toList :: "zaga".toList :: [] := by decide +kernel
    have e' : shortFiles.text ++ shortLine.text = "a".toList :: "c".toList :: "-v".toList :: "t".toList :: "write=0".toList :: "-v".toList ::
        "u".toList :: "-c".toList :: "zaga".toList :: [] := by decide +kernel
    rw [e, e']
    refine .keep (by decide) (.debug (.keep (by decide) (.keep (by decide) (.keep (by decide) (.keep (by decide) (.keep (by decide) (.keep (by decide)
      (.keep (by decide) (.keep (by decide) .nil)))))))))
  · intro o ho
    have := (Option.some.inj ho).symm
    subst this
    exact ⟨⟨by decide, by decide⟩, by decide⟩
  · simp [shortLine, Apart]
  · exact .word (w := ['a']) (s := []) (by simp) (by decide) (by simp) .nil
  · exact .word (w := ['c']) (s := []) (by simp) (by decide) (by simp) .nil

/-- What the program makes of it: only `u` is written, and the message has all arguments. -/
theorem c145_example_result : (gridppMain plainFiles (fun _ => agreeable) recordOps (fun h => ⟨[h.name], []⟩)
    (words "a --debug info c -v t write=0 -v u -c zaga") >>= fun r => match r with
      | .done w => ok (w "a".toList, w "c".toList)
      | _ => .abort) = ok (⟨[], []⟩, ⟨[], [(["u".toList], "a --debug info c -v t write=0 -v u -c zaga".toList)]⟩) := by
  decide +kernel

end Gridpp.Props
