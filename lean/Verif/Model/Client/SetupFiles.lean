import Verif.Model.Client.Options
import Verif.Model.Client.Util

/-! # The files of the command line (src/client/Setup.cpp:6-87) -/

namespace Gridpp.Client
open Res

/-- What the first loop reads (src/client/Setup.cpp:8-10), with the arguments from `index` on after it. -/
structure FileArgs where
  input : Str
  inputOptions : Options
  output : Str
  outputOptions : Options
  rest : List Str
  deriving DecidableEq, Repr

/-- Before the loop. -/
def FileArgs.init : FileArgs := ⟨[], Options.empty, [], Options.empty, []⟩

/-- The loop over the file names and their options (src/client/Setup.cpp:12-41). -/
def fileLoop : FileArgs → List Str → Res FileArgs
  | s, [] => ok { s with rest := [] }
  | s, a :: t =>
    if s.input = [] then fileLoop { s with input := a } t
    else if s.output = [] then
      if a.contains '=' then do
        let o ← addOptions s.inputOptions a
        fileLoop { s with inputOptions := o } t
      else if a.head? = some '-' then ok { s with output := s.input, outputOptions := s.inputOptions, rest := a :: t }
      else fileLoop { s with output := a } t
    else if a.contains '=' then do
      let o ← addOptions s.outputOptions a
      fileLoop { s with outputOptions := o } t
    else ok { s with rest := a :: t }

/-- An open file: the arguments of `File::getScheme`. The object itself is left out. -/
structure FileHandle where
  name : Str
  options : List (Str × Str)
  readOnly : Bool
  deriving DecidableEq, Repr

/-- What the constructor asks of the file system: the files that match one pattern (`Cglob::glob`, src/client/Util.cpp:151-156), and whether
`File::getScheme` returns a file. -/
structure FileEnv where
  glob : Str → List Str
  openable : FileHandle → Bool

/-- `Util::glob` (src/client/Util.cpp:146-159). -/
def globFiles (env : FileEnv) (s : Str) : Res (List Str) := do
  let files ← split s [',']
  ok (files.flatMap env.glob)

/-- `mFileMap.find` (src/client/Setup.cpp:778-781 and :64). -/
def findFile (files : List FileHandle) (name : Str) : Option FileHandle := files.find? (fun f => f.name = name)

/-- The output file of one turn (src/client/Setup.cpp:57-69), with `mFileMap` after it. -/
def openOutput (env : FileEnv) (options : Options) (files : List FileHandle) (name : Str) : Res (FileHandle × List FileHandle) :=
  match findFile files name with
  | some f => ok (f, files)
  | none => if env.openable ⟨name, options.pairs, false⟩ then ok (⟨name, options.pairs, false⟩, files ++ [⟨name, options.pairs, false⟩]) else Client.error

/-- The input file of one turn (src/client/Setup.cpp:71-86). -/
def openInput (env : FileEnv) (inputOptions outputOptions : Options) (files : List FileHandle) (name : Str) : Res (FileHandle × List FileHandle) :=
  match findFile files name with
  | some f => if !(sameOptions inputOptions outputOptions).1 then Client.error else ok (f, files)
  | none =>
    if env.openable ⟨name, inputOptions.pairs, true⟩ then ok (⟨name, inputOptions.pairs, true⟩, files ++ [⟨name, inputOptions.pairs, true⟩])
    else Client.error

/-- The loop over the files (src/client/Setup.cpp:55-87): the members `inputFiles` and `outputFiles` as pairs of an output and an input file. -/
def openFiles (env : FileEnv) (inputOptions outputOptions : Options) : List FileHandle → List (Str × Str) → Res (List (FileHandle × FileHandle))
  | _, [] => ok []
  | files, (out, inp) :: t => do
    let o ← openOutput env outputOptions files out
    let i ← openInput env inputOptions outputOptions o.2 inp
    let r ← openFiles env inputOptions outputOptions i.2 t
    ok ((o.1, i.1) :: r)

/-- The files of the command line (src/client/Setup.cpp:6-87), and the arguments that are left. -/
def setupFiles (env : FileEnv) (args : List Str) : Res (List (FileHandle × FileHandle) × List Str) := do
  let a ← fileLoop FileArgs.init args
  let inputs ← globFiles env a.input
  let outputs ← globFiles env a.output
  if inputs.length ≠ outputs.length then Client.error
  else if inputs.length = 0 then Client.error
  else if outputs.length = 0 then Client.error
  else do
    let files ← openFiles env a.inputOptions a.outputOptions [] (outputs.zip inputs)
    ok (files, a.rest)

end Gridpp.Client
