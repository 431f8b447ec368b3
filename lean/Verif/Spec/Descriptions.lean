import Verif.Spec.Attributes
import Verif.Spec.ClientOptions

/-! # A text in two columns -/

namespace Gridpp.Spec
open Gridpp.Client

/-- Words with one space between them. -/
def joinWords : List Str → Str
  | [] => []
  | [w] => w
  | w :: x :: t => w ++ ' ' :: joinWords (x :: t)

/-- A line: what stands in the first column, and the words of the second one. -/
def lineText (line : Str × List Str) : Str := line.1 ++ joinWords line.2

/-- The first column of the first line: the title after the indentation, and spaces up to the second column. -/
def titleColumn (title : Str) (width indent : Nat) : Str :=
  List.replicate indent ' ' ++ title ++ List.replicate (width - (indent + title.length)) ' '

/-- The lines of a description: the title is in the first one, the words of the message are in the second column, in order, and a
new line is begun only for a word that would make the line too long. -/
structure TwoColumns (title : Str) (width maxLength indent : Nat) (words : List Str) (lines : List (Str × List Str)) : Prop where
  first : lines.head?.map Prod.fst = some (titleColumn title width indent)
  others : ∀ l ∈ lines.tail, l.1 = List.replicate width ' ' ∧ l.2 ≠ []
  words : (lines.map Prod.snd).flatten = words
  needed : lines.IsChain fun a b => ∃ w, b.2.head? = some w ∧ maxLength < (lineText a).length + w.length

end Gridpp.Spec
