import Verif.Model.Client.Options

/-! # Lines of the history of a file -/

namespace Gridpp.Spec
open Gridpp.Client

/-- Texts joined by line breaks. -/
def joinLines : List Str → Str
  | [] => []
  | [l] => l
  | l :: m :: t => l ++ '\n' :: joinLines (m :: t)

/-- The line for one run of the program. -/
def historyLine (run : Str × Str) : Str := run.1 ++ ": gridpp ".toList ++ run.2

/-- A text without the character with the number 0. -/
def PlainText (s : Str) : Prop := Char.ofNat 0 ∉ s

end Gridpp.Spec
