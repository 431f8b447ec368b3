import Verif.Model.Client.SetupData
import Verif.Spec.ClientOptions

/-! # A command line: how it is written and what it asks for

Only the data that come out of the command line (Model/Client/SetupData.lean) are shared with the model. -/

namespace Gridpp.Spec
open Gridpp.Client

/-- An option, `key=value` or `key`. -/
structure CmdOption where
  key : Str
  value : Option Str
  deriving DecidableEq, Repr

/-- How it is written. -/
def CmdOption.text (o : CmdOption) : Str :=
  match o.value with
  | none => o.key
  | some v => o.key ++ '=' :: v

/-- What it says; a key alone has the value 1. -/
def CmdOption.entry (o : CmdOption) : Str × Str := (o.key, o.value.getD ['1'])

/-- `-p file options`. -/
structure CmdParameters where
  file : Str
  options : List CmdOption
  deriving DecidableEq, Repr

/-- `-c name options [-p file options]`. -/
structure CmdCalibrator where
  name : Str
  options : List CmdOption
  parameters : Option CmdParameters
  deriving DecidableEq, Repr

/-- `[-vi input options] -v name options [-d downscaler options] calibrators`. -/
structure CmdVariable where
  input : Option (Str × List CmdOption)
  name : Str
  options : List CmdOption
  downscaler : Option (Str × List CmdOption)
  calibrators : List CmdCalibrator
  deriving DecidableEq, Repr

/-- `[-va alias options] variables`. -/
structure CmdLine where
  named : Option (Str × List CmdOption)
  vars : List CmdVariable
  deriving DecidableEq, Repr

/-- A flag, a name and its options. -/
def flagged (flag : String) (name : Str) (options : List CmdOption) : List Str := flag.toList :: name :: options.map CmdOption.text

def CmdCalibrator.text (c : CmdCalibrator) : List Str :=
  flagged "-c" c.name c.options ++ (c.parameters.elim [] fun p => flagged "-p" p.file p.options)

def CmdVariable.text (v : CmdVariable) : List Str :=
  (v.input.elim [] fun i => flagged "-vi" i.1 i.2) ++ flagged "-v" v.name v.options ++
    (v.downscaler.elim [] fun d => flagged "-d" d.1 d.2) ++ v.calibrators.flatMap CmdCalibrator.text

def CmdLine.text (l : CmdLine) : List Str :=
  (l.named.elim [] fun a => flagged "-va" a.1 a.2) ++ l.vars.flatMap CmdVariable.text

/-- The flags that end the options. -/
def IsFlag (w : Str) : Prop := w ∈ ["-v".toList, "-vi".toList, "-d".toList, "-c".toList, "-p".toList]

/-- An option that can be told from a flag and that has no white space in it. -/
structure CmdOption.Fine (o : CmdOption) : Prop where
  key : o.key ≠ []
  noEqual : '=' ∉ o.key
  noWhite : ∀ c ∈ o.text, ¬ White c
  noFlag : ¬ IsFlag o.text

/-- A name that can be told from a flag. -/
def FineName (w : Str) : Prop := w ≠ [] ∧ w.head? ≠ some '-'

structure CmdParameters.Fine (p : CmdParameters) : Prop where
  file : p.file ≠ []
  noEqual : '=' ∉ p.file
  noWhite : ∀ c ∈ p.file, ¬ White c
  noFlag : ¬ IsFlag p.file
  options : ∀ o ∈ p.options, o.Fine

structure CmdCalibrator.Fine (c : CmdCalibrator) : Prop where
  options : ∀ o ∈ c.options, o.Fine
  parameters : ∀ p ∈ c.parameters, p.Fine

structure CmdVariable.Fine (v : CmdVariable) : Prop where
  input : ∀ i ∈ v.input, FineName i.1 ∧ ∀ o ∈ i.2, o.Fine
  name : FineName v.name
  options : ∀ o ∈ v.options, o.Fine
  downscaler : ∀ d ∈ v.downscaler, ∀ o ∈ d.2, o.Fine
  calibrators : ∀ c ∈ v.calibrators, c.Fine

/-- The `-vi` of the second variable is not taken for one of the first: the first variable has a downscaler or a calibrator, or it has its own
`-vi` and no options after its name. -/
def Apart (v w : CmdVariable) : Prop :=
  w.input = none ∨ v.downscaler ≠ none ∨ v.calibrators ≠ [] ∨ v.input ≠ none ∧ v.options = []

structure CmdLine.Fine (l : CmdLine) : Prop where
  named : ∀ a ∈ l.named, FineName a.1 ∧ ∀ o ∈ a.2, o.Fine
  vars : ∀ v ∈ l.vars, v.Fine
  apart : l.vars.IsChain Apart

/-! What it asks for. -/

/-- The keys that get a value, in the order in which they come first. -/
def keysOf : List (Str × Str) → List Str
  | [] => []
  | q :: t => if q.2 = [] then keysOf t else q.1 :: (keysOf t).filter (fun k => k ≠ q.1)

/-- The last value that a key gets. -/
def lastValue (kvs : List (Str × Str)) (k : Str) : Option Str := (kvs.reverse.find? (fun q => q.1 = k ∧ q.2 ≠ [])).map Prod.snd

/-- The options that a list of entries gives: every key with its last value. -/
def optionsOf (kvs : List (Str × Str)) : List (Str × Str) := (keysOf kvs).map fun k => (k, (lastValue kvs k).getD [])

/-- The options after a name. -/
def optionsAfter (os : List CmdOption) : List (Str × Str) := optionsOf (os.map CmdOption.entry)

/-- The calibrators; `none` if a parameter file cannot be had. The entries for parameter files pile up: `before` are those of the parameter files
earlier on the command line, and the name of the file is one more key. -/
def calibratorsOf (env : SetupEnv) : List (Str × Str) → List CmdCalibrator → Option (List CalibratorConf × List (Str × Str))
  | before, [] => some ([], before)
  | before, c :: cs =>
    match c.parameters with
    | none => (calibratorsOf env before cs).map fun r => (⟨c.name, optionsAfter c.options, none⟩ :: r.1, r.2)
    | some p =>
      let entries := before ++ (p.file, ['1']) :: p.options.map CmdOption.entry ++ [("file".toList, p.file)]
      match lastValue entries "type".toList with
      | none => none
      | some type =>
        if type ∈ ["text".toList, "netcdf".toList] ∧ env.readable type (optionsOf entries) = true then
          (calibratorsOf env entries cs).map fun r => (⟨c.name, optionsAfter c.options, some (type, optionsOf entries)⟩ :: r.1, r.2)
        else none

/-- Where the input variable comes from. -/
def sourceOf (env : SetupEnv) (aliases earlier : List Str) (name : Str) : InputSource :=
  if env.hasInput name = true then .file
  else if name ∈ aliases then .alias
  else if env.sameFile = true ∧ name ∈ earlier then .earlier
  else .none

/-- The configuration of one variable, with its calibrators. -/
def confOf (env : SetupEnv) (aliases earlier : List Str) (v : CmdVariable) (cals : List CalibratorConf) : VariableConf where
  output := v.name
  input := v.input.elim v.name Prod.fst
  source := sourceOf env aliases earlier (v.input.elim v.name Prod.fst)
  outputOptions := optionsAfter v.options
  inputOptions := optionsAfter (v.input.elim v.options Prod.snd)
  downscaler := v.downscaler.elim "nearestNeighbour".toList Prod.fst
  downscalerOptions := optionsAfter (v.downscaler.elim [] Prod.snd)
  downscalerParameters := none
  calibrators := cals

/-- The configuration can be had: there is an input variable, or the downscaler is the one that needs none; and the schemes are there. -/
def Possible (env : SetupEnv) (c : VariableConf) : Prop :=
  (c.source ≠ .none ∨ c.downscaler = "bypass".toList) ∧ (∀ k ∈ c.calibrators, env.calibratorOk k.name k.options = true) ∧
    env.downscalerOk c.downscaler c.downscalerOptions = true

instance (env : SetupEnv) (c : VariableConf) : Decidable (Possible env c) := by unfold Possible; infer_instance

/-- The configurations: those of `earlier` and then one for each variable, but none for a name that there is already. -/
def confsOf (env : SetupEnv) (aliases : List Str) : List (Str × Str) → List VariableConf → List CmdVariable → Option (List VariableConf)
  | _, earlier, [] => some earlier
  | before, earlier, v :: vs =>
    match calibratorsOf env before v.calibrators with
    | none => none
    | some (cals, before') =>
      let names := earlier.map VariableConf.output
      if v.name ∈ names then confsOf env aliases before' earlier vs
      else if Possible env (confOf env aliases names v cals) then confsOf env aliases before' (earlier ++ [confOf env aliases names v cals]) vs
      else none

/-- What the whole command line asks for: the configurations and the aliases. An alias needs a name. -/
def CmdLine.meaning (env : SetupEnv) (l : CmdLine) : Option (List VariableConf × List (Str × List (Str × Str))) :=
  match l.named with
  | none => (confsOf env [] [] [] l.vars).map fun cs => (cs, [])
  | some a =>
    if "name".toList ∈ (optionsAfter a.2).map Prod.fst then (confsOf env [a.1] [] [] l.vars).map fun cs => (cs, [(a.1, optionsAfter a.2)])
    else none

/-! What can be said of every command line. -/

/-- The word comes right after the flag somewhere in the arguments. -/
def FlagThen (args : List Str) (flag : String) (w : Str) : Prop := ∃ p s, args = p ++ flag.toList :: w :: s

/-- A calibrator that was asked for, with a parameter file of a known type that can be read, if with any. -/
structure CalibratorFrom (env : SetupEnv) (args : List Str) (k : CalibratorConf) : Prop where
  name : FlagThen args "-c" k.name
  parameters : ∀ p ∈ k.parameters, p.1 ∈ ["text".toList, "netcdf".toList] ∧ env.readable p.1 p.2 = true

/-- A configuration that was asked for. -/
structure FromLine (env : SetupEnv) (args : List Str) (c : VariableConf) : Prop where
  output : FlagThen args "-v" c.output ∧ FineName c.output
  input : c.input = c.output ∨ FlagThen args "-vi" c.input ∧ FineName c.input
  downscaler : c.downscaler = "nearestNeighbour".toList ∨ FlagThen args "-d" c.downscaler
  calibrators : ∀ k ∈ c.calibrators, CalibratorFrom env args k
  source : c.source = .file ↔ env.hasInput c.input = true
  noParameters : c.downscalerParameters = none
  possible : Possible env c

end Gridpp.Spec
