import Verif.Model.Client.Options

/-! # src/client/Util.cpp: formatDescription -/

namespace Gridpp.Client
open Res

/-- `for(int k = 0; k < n; k++) curr << " "` (src/client/Util.cpp:308-309, 313-315, 326-327). -/
def spaces (n : Int) : Str := List.replicate n.toNat ' '

/-- `currLength + word.length() > iMaxLength` (src/client/Util.cpp:320): the numbers are compared without sign, so that a number below
zero is huge. -/
def tooLong (maxLength : Int) (n : Nat) : Bool := decide (0 ≤ maxLength ∧ maxLength < n)

/-- The loop over the words (src/client/Util.cpp:317-335); `ss` has the lines that are complete. -/
def formatLoop (titleLength maxLength : Int) : List Str → Bool → Str → Str → Str
  | [], _, ss, curr => ss ++ curr
  | word :: words, first, ss, curr =>
    if tooLong maxLength (curr.length + word.length) then
      formatLoop titleLength maxLength words false (ss ++ curr ++ ['\n']) (spaces titleLength ++ word)
    else if !first then formatLoop titleLength maxLength words false ss (curr ++ [' '] ++ word)
    else formatLoop titleLength maxLength words false ss (curr ++ word)

/-- The title with spaces before and after it (src/client/Util.cpp:308-315). -/
def titlePart (title : Str) (titleLength titleIndent : Int) : Str :=
  let curr := spaces titleIndent ++ title
  curr ++ spaces (titleLength - curr.length)

/-- `Util::formatDescription` (src/client/Util.cpp:294-337). The warning is left out. -/
def formatDescription (title message : Str) (titleLength maxLength titleIndent : Int) : Res Str :=
  if maxLength ≤ titleLength then ok (title ++ [' '] ++ message)
  else do
    let words ← split message [' ']
    ok (formatLoop titleLength maxLength words true [] (titlePart title titleLength titleIndent))

end Gridpp.Client
