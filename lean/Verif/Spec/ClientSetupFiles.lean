import Verif.Spec.ClientSetup

/-! # The files at the beginning of a command line: how they are written -/

namespace Gridpp.Spec
open Gridpp.Client

/-- `input options [output options]`. -/
structure CmdFiles where
  input : Str
  inputOptions : List CmdOption
  output : Option (Str × List CmdOption)
  deriving DecidableEq, Repr

def CmdFiles.text (f : CmdFiles) : List Str :=
  f.input :: f.inputOptions.map CmdOption.text ++ (f.output.elim [] fun o => o.1 :: o.2.map CmdOption.text)

/-- The name of the output: that of the input, if there is no other. -/
def CmdFiles.outName (f : CmdFiles) : Str := f.output.elim f.input Prod.fst

/-- The options of the output: those of the input, if there is no other name. -/
def CmdFiles.outOptions (f : CmdFiles) : List CmdOption := f.output.elim f.inputOptions Prod.snd

/-- The option has a value. Without one it cannot be told from the name of a file. -/
def CmdOption.Full (o : CmdOption) : Prop := o.Fine ∧ o.value ≠ none

/-- What follows the files can be told from them: if there is an output it does not begin with an option; if there is none it begins with a flag. -/
structure CmdFiles.Fine (f : CmdFiles) (rest : List Str) : Prop where
  input : f.input ≠ []
  inputOptions : ∀ o ∈ f.inputOptions, o.Full
  outputName : ∀ o ∈ f.output, FineName o.1 ∧ '=' ∉ o.1
  outputOptions : ∀ o ∈ f.output, ∀ k ∈ o.2, k.Full
  restFree : ∀ w ∈ rest.head?, '=' ∉ w
  inPlace : f.output = none → ∃ w t, rest = w :: t ∧ w.head? = some '-'

end Gridpp.Spec
