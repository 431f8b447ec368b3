import Verif.Lemmas.Client.Setup
import Verif.Model.Client.SetupFiles
import Verif.Spec.ClientSetupFiles
import Verif.Props.Client.Options

/-! # C130: the files of the command line -/

namespace Gridpp.Props
open Gridpp.Client Gridpp.Spec Res

/-! Reading the names. -/

theorem text_contains {o : CmdOption} (h : o.Full) : o.text.contains '=' = true := by
  obtain ⟨v, hv⟩ := Option.ne_none_iff_exists'.mp h.2
  simp [CmdOption.text, hv]

theorem fileLoop_inputOptions {s : FileArgs} (hi : s.input ≠ []) (ho : s.output = []) (tail : List Str) : ∀ (os : List CmdOption) (kvs : List (Str × Str)),
    (∀ o ∈ os, o.Full) → s.inputOptions = ⟨optionsOf kvs, []⟩ →
    fileLoop s (os.map CmdOption.text ++ tail) = fileLoop { s with inputOptions := ⟨optionsOf (kvs ++ os.map CmdOption.entry), []⟩ } tail := by
  intro os
  induction os generalizing s with
  | nil => intro kvs _ h; simp [← h]
  | cons o os ih =>
    intro kvs hf h
    have hfo := hf o (List.mem_cons_self ..)
    rw [List.map_cons, List.cons_append, fileLoop, if_neg hi, if_pos ho, if_pos (text_contains hfo), h, addOptions_cmd kvs [] hfo.1, ok_bind,
      ih (s := { s with inputOptions := ⟨optionsOf (kvs ++ [o.entry]), []⟩ }) hi ho _ (fun x hx => hf x (List.mem_cons_of_mem _ hx)) rfl]
    simp

theorem fileLoop_outputOptions {s : FileArgs} (hi : s.input ≠ []) (ho : s.output ≠ []) (tail : List Str) : ∀ (os : List CmdOption) (kvs : List (Str × Str)),
    (∀ o ∈ os, o.Full) → s.outputOptions = ⟨optionsOf kvs, []⟩ →
    fileLoop s (os.map CmdOption.text ++ tail) = fileLoop { s with outputOptions := ⟨optionsOf (kvs ++ os.map CmdOption.entry), []⟩ } tail := by
  intro os
  induction os generalizing s with
  | nil => intro kvs _ h; simp [← h]
  | cons o os ih =>
    intro kvs hf h
    have hfo := hf o (List.mem_cons_self ..)
    rw [List.map_cons, List.cons_append, fileLoop, if_neg hi, if_neg ho, if_pos (text_contains hfo), h, addOptions_cmd kvs [] hfo.1, ok_bind,
      ih (s := { s with outputOptions := ⟨optionsOf (kvs ++ [o.entry]), []⟩ }) hi ho _ (fun x hx => hf x (List.mem_cons_of_mem _ hx)) rfl]
    simp

theorem fileLoop_text {f : CmdFiles} {rest : List Str} (hf : f.Fine rest) : fileLoop FileArgs.init (f.text ++ rest) =
    ok ⟨f.input, ⟨optionsAfter f.inputOptions, []⟩, f.outName, ⟨optionsAfter f.outOptions, []⟩, rest⟩ := by
  have h0 : ({ FileArgs.init with input := f.input } : FileArgs).inputOptions = ⟨optionsOf [], []⟩ := rfl
  have h1 : ({ FileArgs.init with input := f.input } : FileArgs).input ≠ [] := hf.input
  unfold CmdFiles.text
  rw [List.cons_append, List.cons_append, fileLoop, if_pos (show FileArgs.init.input = [] from rfl), List.append_assoc,
    fileLoop_inputOptions h1 rfl _ f.inputOptions [] hf.inputOptions h0, List.nil_append]
  change fileLoop ⟨f.input, ⟨optionsAfter f.inputOptions, []⟩, [], Options.empty, []⟩ _ = _
  unfold CmdFiles.outName CmdFiles.outOptions
  cases ho : f.output with
  | none =>
    obtain ⟨w, t, hr, hw⟩ := hf.inPlace ho
    have he : ¬ (w.contains '=' = true) := by
      have := hf.restFree w (by rw [hr]; rfl)
      simpa using this
    simp only [Option.elim_none, List.nil_append]
    rw [hr, fileLoop]
    simp only [if_neg hf.input, if_true, if_neg he, hw]
  | some o =>
    obtain ⟨hn, he⟩ := hf.outputName o ho
    have he' : ¬ (o.1.contains '=' = true) := by simpa using he
    simp only [Option.elim_some, List.cons_append]
    rw [fileLoop]
    simp only [if_neg hf.input, if_true, if_neg he', if_neg hn.2]
    have h2 : ({ input := f.input, inputOptions := ⟨optionsAfter f.inputOptions, []⟩, output := o.1, outputOptions := Options.empty, rest := [] } :
      FileArgs).outputOptions = ⟨optionsOf [], []⟩ := rfl
    rw [fileLoop_outputOptions (show _ ≠ [] from hf.input) (show _ ≠ [] from hn.1) rest o.2 [] (hf.outputOptions o ho) h2, List.nil_append]
    change fileLoop ⟨f.input, ⟨optionsAfter f.inputOptions, []⟩, o.1, ⟨optionsAfter o.2, []⟩, []⟩ _ = _
    cases hr : rest with
    | nil => rfl
    | cons w t =>
      have he : ¬ (w.contains '=' = true) := by
        have := hf.restFree w (by rw [hr]; rfl)
        simpa using this
      rw [fileLoop]
      simp only [if_neg hf.input, if_neg hn.1, if_neg he]

/-! Opening the files. -/

theorem findFile_none {files : List FileHandle} {n : Str} (h : n ∉ files.map FileHandle.name) : findFile files n = none := by
  unfold findFile
  rw [List.find?_eq_none]
  intro f hf
  simpa using fun he : f.name = n => h (he ▸ List.mem_map_of_mem hf)

theorem openFiles_distinct {env : FileEnv} {io oo : Options} : ∀ (ps : List (Str × Str)) (files : List FileHandle),
    (files.map FileHandle.name ++ ps.flatMap fun p => [p.1, p.2]).Nodup →
    (∀ p ∈ ps, env.openable ⟨p.1, oo.pairs, false⟩ = true ∧ env.openable ⟨p.2, io.pairs, true⟩ = true) →
    openFiles env io oo files ps = ok (ps.map fun p => (⟨p.1, oo.pairs, false⟩, ⟨p.2, io.pairs, true⟩)) := by
  intro ps
  induction ps with
  | nil => intro files _ _; rfl
  | cons p ps ih =>
    intro files hn ho
    obtain ⟨o1, o2⟩ := ho p (List.mem_cons_self ..)
    rw [List.flatMap_cons] at hn
    have hn1 : p.1 ∉ files.map FileHandle.name := by
      intro hc
      exact (List.disjoint_of_nodup_append hn) hc (by simp)
    have hn2 : p.2 ∉ (files ++ [(⟨p.1, oo.pairs, false⟩ : FileHandle)]).map FileHandle.name := by
      rw [List.map_append, List.mem_append]
      rintro (hc | hc)
      · exact (List.disjoint_of_nodup_append hn) hc (by simp)
      · have h2 := (List.nodup_append.mp hn).2.1
        rw [List.cons_append, List.nodup_cons] at h2
        apply h2.1
        simp only [List.map_cons, List.map_nil, List.mem_singleton] at hc
        rw [← hc]
        simp
    obtain ⟨a, b⟩ := p
    simp only at o1 o2 hn1 hn2
    unfold openFiles openOutput openInput
    rw [findFile_none hn1]
    simp only [o1, if_true, ok_bind]
    rw [findFile_none hn2]
    simp only [o2, if_true, ok_bind]
    rw [ih _ _ (fun q hq => ho q (List.mem_cons_of_mem _ hq)), ok_bind]
    · rfl
    · simpa [List.append_assoc] using hn

theorem findFile_last (files : List FileHandle) (f : FileHandle) (h : f.name ∉ files.map FileHandle.name) : findFile (files ++ [f]) f.name = some f := by
  have := findFile_none h
  unfold findFile at this ⊢
  rw [List.find?_append, this]
  simp

theorem openFiles_same {env : FileEnv} {io oo : Options} (hs : (sameOptions io oo).1 = true) : ∀ (ns : List Str) (files : List FileHandle),
    (files.map FileHandle.name ++ ns).Nodup → (∀ n ∈ ns, env.openable ⟨n, oo.pairs, false⟩ = true) →
    openFiles env io oo files (ns.zip ns) = ok (ns.map fun n => (⟨n, oo.pairs, false⟩, ⟨n, oo.pairs, false⟩)) := by
  intro ns
  induction ns with
  | nil => intro files _ _; rfl
  | cons n ns ih =>
    intro files hn ho
    have o1 := ho n (List.mem_cons_self ..)
    have hn1 : n ∉ files.map FileHandle.name := fun hc => (List.disjoint_of_nodup_append hn) hc (by simp)
    rw [List.zip_cons_cons]
    unfold openFiles openOutput openInput
    rw [findFile_none hn1]
    simp only [o1, if_true, ok_bind]
    rw [findFile_last files ⟨n, oo.pairs, false⟩ hn1]
    simp only [hs, Bool.not_true, Bool.false_eq_true, if_false, ok_bind]
    rw [ih _ _ (fun q hq => ho q (List.mem_cons_of_mem _ hq)), ok_bind]
    · rfl
    · simpa [List.append_assoc] using hn

/-- The entries of options have no white space in them. -/
theorem clean_full {os : List CmdOption} (h : ∀ o ∈ os, o.Full) : OptionMap (optionsAfter os) ∧ ∀ q ∈ optionsAfter os, ∀ c ∈ q.2, ¬ White c := by
  have hc : Clean (os.map CmdOption.entry) := clean_entries fun o ho => (h o ho).1
  have hmem : ∀ q ∈ optionsAfter os, ∃ v, lastValue (os.map CmdOption.entry) q.1 = some v ∧ q.2 = v ∧ v ≠ [] ∧ (q.1, v) ∈ os.map CmdOption.entry := by
    intro q hq
    unfold optionsAfter optionsOf at hq
    obtain ⟨k, hk, rfl⟩ := List.mem_map.mp hq
    obtain ⟨v, hv⟩ := Option.isSome_iff_exists.mp (keysOf_mem.mp hk)
    obtain ⟨h1, h2⟩ := lastValue_mem hv
    exact ⟨v, hv, by simp [hv], h2, h1⟩
  refine ⟨⟨?_, ?_⟩, ?_⟩
  · have : (optionsAfter os).map Prod.fst = keysOf (os.map CmdOption.entry) := by
      unfold optionsAfter optionsOf
      rw [List.map_map]
      simp [Function.comp_def]
    rw [this]
    exact keysOf_nodup _
  · intro q hq
    obtain ⟨v, _, h2, h3, h4⟩ := hmem q hq
    obtain ⟨o, ho, he⟩ := List.mem_map.mp h4
    refine ⟨?_, h2 ▸ h3⟩
    have : o.key = q.1 := congrArg Prod.fst he
    exact this ▸ (h o ho).1.key
  · intro q hq
    obtain ⟨v, _, h2, h3, h4⟩ := hmem q hq
    rw [h2]
    exact hc _ h4

/-- The names that a text with commas stands for. -/
def NamesOf (env : FileEnv) (s : Str) (ns : List Str) : Prop := ∃ ws, Words (fun c => [','].contains c) s ws ∧ ns = ws.flatMap env.glob

theorem globFiles_names {env : FileEnv} {s : Str} {ns : List Str} (h : NamesOf env s ns) : globFiles env s = ok ns := by
  obtain ⟨ws, hw, rfl⟩ := h
  obtain ⟨ws', h1, h2⟩ := split_ok s [',']
  unfold globFiles
  rw [h1, ok_bind, words_unique h2 hw]

theorem setupFiles_text {env : FileEnv} {f : CmdFiles} {rest ins outs : List Str} (hf : f.Fine rest) (hi : NamesOf env f.input ins)
    (ho : NamesOf env f.outName outs) (hl : ins.length = outs.length) (hne : ins ≠ []) : setupFiles env (f.text ++ rest) =
    (openFiles env ⟨optionsAfter f.inputOptions, []⟩ ⟨optionsAfter f.outOptions, []⟩ [] (outs.zip ins) >>= fun r => ok (r, rest)) := by
  unfold setupFiles
  rw [fileLoop_text hf, ok_bind, globFiles_names hi, ok_bind, globFiles_names ho, ok_bind]
  have h0 : ins.length ≠ 0 := fun h => hne (List.length_eq_zero_iff.mp h)
  rw [if_neg (by simp [hl]), if_neg h0, if_neg (by rw [← hl]; exact h0)]

/-- **C130**, partial: only if the name of the output file has no `=` in it, and no file is written that has been read before it. The files at
the beginning of the command line are taken apart from their options and from the rest; if all files are different, every output file is opened
for writing with the options of the output, and every input file for reading with the options of the input. -/
theorem c130_distinct_partial (env : FileEnv) (f : CmdFiles) (rest ins outs : List Str) (hf : f.Fine rest) (hi : NamesOf env f.input ins)
    (ho : NamesOf env f.outName outs) (hl : ins.length = outs.length) (hne : ins ≠ []) (hd : (outs ++ ins).Nodup)
    (hopen : (∀ n ∈ outs, env.openable ⟨n, optionsAfter f.outOptions, false⟩ = true) ∧
      ∀ n ∈ ins, env.openable ⟨n, optionsAfter f.inputOptions, true⟩ = true) :
    setupFiles env (f.text ++ rest) =
      ok ((outs.zip ins).map fun p => (⟨p.1, optionsAfter f.outOptions, false⟩, ⟨p.2, optionsAfter f.inputOptions, true⟩), rest) := by
  have hn : ∀ (a b : List Str), a.length = b.length → (a ++ b).Nodup → ((a.zip b).flatMap fun p => [p.1, p.2]).Nodup := by
    intro a
    induction a with
    | nil => intro b _ _; simp
    | cons x a ih =>
      intro b hlb hnb
      cases b with
      | nil => simp at hlb
      | cons y b =>
        have hp : (x :: y :: (a ++ b)).Nodup := by
          refine (List.Perm.nodup_iff ?_).mp hnb
          rw [List.cons_append]
          exact List.Perm.cons x List.perm_middle
        rw [List.zip_cons_cons, List.flatMap_cons]
        have hmem : ∀ z, z ∈ ((a.zip b).flatMap fun p => [p.1, p.2]) → z ∈ a ++ b := by
          intro z hz
          obtain ⟨p, hp1, hp2⟩ := List.mem_flatMap.mp hz
          have := List.of_mem_zip (a := p.1) (b := p.2) hp1
          simp only [List.mem_cons, List.not_mem_nil, or_false] at hp2
          rcases hp2 with rfl | rfl
          · exact List.mem_append_left _ this.1
          · exact List.mem_append_right _ this.2
        rw [List.nodup_cons, List.nodup_cons] at hp
        show (x :: y :: _).Nodup
        rw [List.nodup_cons, List.nodup_cons]
        refine ⟨?_, fun hc => hp.2.1 (hmem _ hc), ih b (by simpa using hlb) hp.2.2⟩
        intro hc
        rcases List.mem_cons.mp hc with hc | hc
        · exact hp.1 (hc ▸ List.mem_cons_self ..)
        · exact hp.1 (List.mem_cons_of_mem _ (hmem _ hc))
  rw [setupFiles_text hf hi ho hl hne, openFiles_distinct _ _ (by simpa using hn outs ins hl.symm hd), ok_bind]
  intro p hp
  have := List.of_mem_zip (a := p.1) (b := p.2) hp
  exact ⟨hopen.1 _ this.1, hopen.2 _ this.2⟩

/-- **C130**: if the output files are the input files, each is opened once and for writing; the options of the input and of the output
must be the same, and if they are not the command is refused. -/
theorem c130_same (env : FileEnv) (f : CmdFiles) (rest ins : List Str) (hf : f.Fine rest) (hi : NamesOf env f.input ins)
    (ho : NamesOf env f.outName ins) (hne : ins ≠ []) (hd : ins.Nodup) (hopen : ∀ n ∈ ins, env.openable ⟨n, optionsAfter f.outOptions, false⟩ = true) :
    ((∀ q, q ∈ optionsAfter f.inputOptions ↔ q ∈ optionsAfter f.outOptions) →
      setupFiles env (f.text ++ rest) =
        ok (ins.map fun n => (⟨n, optionsAfter f.outOptions, false⟩, ⟨n, optionsAfter f.outOptions, false⟩), rest)) ∧
    ((¬ ∀ q, q ∈ optionsAfter f.inputOptions ↔ q ∈ optionsAfter f.outOptions) → setupFiles env (f.text ++ rest) = .abort) := by
  have hfo : ∀ o ∈ f.outOptions, o.Full := by
    unfold CmdFiles.outOptions
    cases hout : f.output with
    | none => exact hf.inputOptions
    | some o => exact hf.outputOptions o hout
  obtain ⟨ma, wa⟩ := clean_full hf.inputOptions
  obtain ⟨mb, wb⟩ := clean_full hfo
  have heq := c103_equal_partial (a := ⟨optionsAfter f.inputOptions, []⟩) (b := ⟨optionsAfter f.outOptions, []⟩) ma mb wa wb
  rw [setupFiles_text hf hi ho rfl hne]
  refine ⟨fun h => ?_, fun h => ?_⟩
  · rw [openFiles_same (heq.mpr h) ins [] (by simpa using hd) hopen, ok_bind]
  · have hsame : (sameOptions ⟨optionsAfter f.inputOptions, []⟩ ⟨optionsAfter f.outOptions, []⟩).1 = false := by
      rw [← Bool.not_eq_true]
      exact fun hc => h (heq.mp hc)
    cases ins with
    | nil => exact absurd rfl hne
    | cons n ns =>
      rw [List.zip_cons_cons]
      unfold openFiles openOutput
      simp only [findFile, List.find?_nil, hopen n (List.mem_cons_self ..), if_true, ok_bind]
      unfold openInput
      simp [findFile, hsame, Client.error]

/-- **C130**, in general: an accepted command line has as many output files as input files, at least one of each, under the names that the
patterns stand for and in their order; files of the same name are the same file. -/
theorem c130_all (env : FileEnv) (io oo : Options) : ∀ (ps : List (Str × Str)) (files : List FileHandle) (r : List (FileHandle × FileHandle)),
    (files.map FileHandle.name).Nodup → openFiles env io oo files ps = ok r →
    r.map (fun q => (q.1.name, q.2.name)) = ps ∧
    ∃ all : List FileHandle, (all.map FileHandle.name).Nodup ∧ (∀ f ∈ files, f ∈ all) ∧ ∀ q ∈ r, q.1 ∈ all ∧ q.2 ∈ all := by
  have hout : ∀ {files n x}, (files.map FileHandle.name).Nodup → openOutput env oo files n = ok x →
      x.1.name = n ∧ (x.2.map FileHandle.name).Nodup ∧ (∀ f ∈ files, f ∈ x.2) ∧ x.1 ∈ x.2 := by
    intro files n x hn h
    unfold openOutput at h
    cases hf : findFile files n with
    | some f =>
      rw [hf] at h
      have h := Res.ok.inj h
      subst h
      exact ⟨by simpa using List.find?_some hf, hn, fun f hf => hf, List.mem_of_find?_eq_some hf⟩
    | none =>
      rw [hf] at h
      simp only at h
      split_ifs at h
      · have h := Res.ok.inj h
        subst h
        refine ⟨rfl, ?_, fun f hf => List.mem_append_left _ hf, by simp⟩
        rw [List.map_append]
        refine List.Nodup.append hn (by simp) ?_
        intro z hz hz2
        obtain ⟨g, hg, rfl⟩ := List.mem_map.mp hz
        have := List.find?_eq_none.mp hf g hg
        simp at hz2 this
        exact this hz2
      · simp [Client.error] at h
  have hin : ∀ {files n x}, (files.map FileHandle.name).Nodup → openInput env io oo files n = ok x →
      x.1.name = n ∧ (x.2.map FileHandle.name).Nodup ∧ (∀ f ∈ files, f ∈ x.2) ∧ x.1 ∈ x.2 := by
    intro files n x hn h
    unfold openInput at h
    cases hf : findFile files n with
    | some f =>
      rw [hf] at h
      simp only at h
      split_ifs at h
      · simp [Client.error] at h
      · have h := Res.ok.inj h
        subst h
        exact ⟨by simpa using List.find?_some hf, hn, fun f hf => hf, List.mem_of_find?_eq_some hf⟩
    | none =>
      rw [hf] at h
      simp only at h
      split_ifs at h
      · have h := Res.ok.inj h
        subst h
        refine ⟨rfl, ?_, fun f hf => List.mem_append_left _ hf, by simp⟩
        rw [List.map_append]
        refine List.Nodup.append hn (by simp) ?_
        intro z hz hz2
        obtain ⟨g, hg, rfl⟩ := List.mem_map.mp hz
        have := List.find?_eq_none.mp hf g hg
        simp at hz2 this
        exact this hz2
      · simp [Client.error] at h
  intro ps
  induction ps with
  | nil =>
    intro files r hn h
    have h := Res.ok.inj h
    subst h
    exact ⟨rfl, files, hn, fun f hf => hf, by simp⟩
  | cons p ps ih =>
    intro files r hn h
    obtain ⟨a, b⟩ := p
    unfold openFiles at h
    obtain ⟨x, h1, h⟩ := bind_eq_ok.mp h
    obtain ⟨y, h2, h⟩ := bind_eq_ok.mp h
    obtain ⟨r', h3, h⟩ := bind_eq_ok.mp h
    have h := Res.ok.inj h
    subst h
    obtain ⟨x1, x2, x3, x4⟩ := hout hn h1
    obtain ⟨y1, y2, y3, y4⟩ := hin x2 h2
    obtain ⟨e1, all, e2, e3, e4⟩ := ih y.2 r' y2 h3
    refine ⟨by simp [e1, x1, y1], all, e2, fun f hf => e3 _ (y3 _ (x3 _ hf)), ?_⟩
    intro q hq
    rcases List.mem_cons.mp hq with rfl | hq
    · exact ⟨e3 _ (y3 _ x4), e3 _ y4⟩
    · exact e4 q hq

/-- **C130**: a different number of input and output files, or none, is refused. -/
theorem c130_refused (env : FileEnv) (f : CmdFiles) (rest ins outs : List Str) (hf : f.Fine rest) (hi : NamesOf env f.input ins)
    (ho : NamesOf env f.outName outs) (hl : ins.length ≠ outs.length ∨ ins = []) : setupFiles env (f.text ++ rest) = .abort := by
  unfold setupFiles
  rw [fileLoop_text hf, ok_bind, globFiles_names hi, ok_bind, globFiles_names ho, ok_bind]
  by_cases h : ins.length = outs.length
  · have : ins.length = 0 := List.length_eq_zero_iff.mpr (hl.resolve_left (fun hc => hc h))
    simp [h, h ▸ this, Client.error]
  · simp [h, Client.error]

/-- Every name stands for itself, and every file can be opened. -/
def plainFiles : FileEnv := ⟨fun n => [n], fun _ => true⟩

/-- False of the code: an output file is opened for writing, with the options of the output. With two files the other way round, the second output
file is the first input file, open for reading and with the options of the input. -/
theorem c130_swap_false : ∃ f : CmdFiles, f.Fine ["-v".toList] ∧ NamesOf plainFiles f.outName ["b".toList, "a".toList] ∧
    optionsAfter f.outOptions = [("k".toList, "1".toList)] ∧
    setupFiles plainFiles (f.text ++ ["-v".toList]) = .abort ∧
    setupFiles plainFiles (["a,b".toList, "b,a".toList] ++ ["-v".toList]) =
      ok ([(⟨"b".toList, [], false⟩, ⟨"a".toList, [], true⟩), (⟨"a".toList, [], true⟩, ⟨"b".toList, [], false⟩)], ["-v".toList]) ∧
    setupFiles plainFiles (["a,c".toList, "b,a".toList, "k=1".toList] ++ ["-v".toList]) =
      ok ([(⟨"b".toList, [("k".toList, "1".toList)], false⟩, ⟨"a".toList, [], true⟩), (⟨"a".toList, [], true⟩, ⟨"c".toList, [], true⟩)],
        ["-v".toList]) := by
  refine ⟨⟨"a,b".toList, [], some ("b,a".toList, [⟨"k".toList, some "1".toList⟩])⟩, ?_, ?_, by decide +kernel, by decide +kernel, by decide +kernel,
    by decide +kernel⟩
  · refine ⟨by decide, by simp, ?_, ?_, by decide, by simp⟩
    · intro o ho
      have := (Option.some.inj ho).symm
      subst this
      exact ⟨⟨by decide, by decide⟩, by decide⟩
    · intro o ho k hk
      have := (Option.some.inj ho).symm
      subst this
      have := List.mem_singleton.mp hk
      subst this
      refine ⟨⟨by decide, by decide, ?_, ?_⟩, by decide⟩
      · intro c hc
        simp [CmdOption.text] at hc
        rcases hc with rfl | rfl | rfl <;> simp [White]
      · simp [IsFlag, CmdOption.text]
  · refine ⟨["b".toList, "a".toList], ?_, by decide⟩
    exact .word (w := ['b']) (s := [',', 'a']) (by simp) (by decide) (by decide)
      (.skip (by decide) (.word (w := ['a']) (s := []) (by simp) (by decide) (by simp) .nil))

/-- False of the code: the input file is only read. An output file with `=` in its name is taken for an option of the input file, which is then
written to. -/
theorem c130_equal_sign_false : setupFiles plainFiles ["in.nc".toList, "date=1.nc".toList, "-v".toList, "t".toList] =
    ok ([(⟨"in.nc".toList, [("date".toList, "1.nc".toList)], false⟩, ⟨"in.nc".toList, [("date".toList, "1.nc".toList)], false⟩)],
      ["-v".toList, "t".toList]) := by
  decide +kernel

/-- A command line that meets the hypotheses of `c130_distinct_partial`. -/
theorem c130_example : setupFiles plainFiles ["a,b".toList, "k=1".toList, "c,d".toList, "m=2".toList, "-v".toList] =
    ok ([(⟨"c".toList, [("m".toList, "2".toList)], false⟩, ⟨"a".toList, [("k".toList, "1".toList)], true⟩),
      (⟨"d".toList, [("m".toList, "2".toList)], false⟩, ⟨"b".toList, [("k".toList, "1".toList)], true⟩)], ["-v".toList]) ∧
    NamesOf plainFiles "a,b".toList ["a".toList, "b".toList] ∧ (["c".toList, "d".toList] ++ ["a".toList, "b".toList]).Nodup := by
  refine ⟨by decide +kernel, ⟨["a".toList, "b".toList], ?_, by decide⟩, by decide⟩
  exact .word (w := ['a']) (s := [',', 'b']) (by simp) (by decide) (by decide)
    (.skip (by decide) (.word (w := ['b']) (s := []) (by simp) (by decide) (by simp) .nil))

end Gridpp.Props
