import Verif.Spec.ClientOptions
import Verif.Spec.ClientParameters
import Mathlib.Data.Nat.Digits.Defs
import Mathlib.Algebra.Order.Field.Basic

/-! # A table of numbers as text -/

namespace Gridpp.Spec
open Fl

/-- One of the ten digits. -/
def Digit (c : Char) : Prop := c ∈ ['0', '1', '2', '3', '4', '5', '6', '7', '8', '9']

/-- The number that decimal digits stand for, the last one being the ones. -/
def decimal (ds : List Char) : Nat := Nat.ofDigits 10 (ds.reverse.map fun c => c.toNat - '0'.toNat)

/-- A sign and the factor it stands for. -/
inductive Sign : List Char → Int → Prop
  | none : Sign [] 1
  | plus : Sign ['+'] 1
  | minus : Sign ['-'] (-1)

/-- The text `w` is the whole number `v`. -/
def IntNumeral (w : List Char) (v : Int) : Prop :=
  ∃ sg ds g, Sign sg g ∧ ds ≠ [] ∧ (∀ c ∈ ds, Digit c) ∧ w = sg ++ ds ∧ v = g * decimal ds

/-- The decimal point and what follows it: nothing, or digits. -/
inductive Fraction : List Char → List Char → Prop
  | none : Fraction [] []
  | point {ds : List Char} : (∀ c ∈ ds, Digit c) → Fraction ('.' :: ds) ds

/-- The power of ten of a number. -/
inductive Exponent : List Char → Int → Prop
  | none : Exponent [] 0
  | some {c : Char} {w : List Char} {v : Int} : c = 'e' ∨ c = 'E' → IntNumeral w v → Exponent (c :: w) v

/-- The text `w` is the number `q`: digits, a fraction and a power of ten. -/
def Numeral {K : Type} [Field K] (w : List Char) (q : K) : Prop :=
  ∃ sg whole pt frac ex g e, Sign sg g ∧ (∀ c ∈ whole, Digit c) ∧ Fraction pt frac ∧ Exponent ex e ∧ ¬ (whole = [] ∧ frac = []) ∧
    w = sg ++ whole ++ pt ++ ex ∧ q = (g : K) * ((decimal whole : K) + (decimal frac : K) / 10 ^ frac.length) * 10 ^ e

/-- The words of a line: white space, a word, white space, and so on, with a word at the end. -/
inductive WordLine : List Char → List (List Char) → Prop
  | last {b w : List Char} : (∀ c ∈ b, White c) → w ≠ [] → (∀ c ∈ w, ¬ White c) → WordLine (b ++ w) [w]
  | cons {b w s : List Char} {c : Char} {ws : List (List Char)} : (∀ c ∈ b, White c) → w ≠ [] → (∀ c ∈ w, ¬ White c) → White c →
      WordLine (c :: s) ws → WordLine (b ++ w ++ c :: s) (w :: ws)

/-- What a column holds. -/
inductive ColumnKind
  | time
  | lat
  | lon
  | elev
  | parameter
  deriving DecidableEq

/-- The last column with the name. -/
def LastWith (names : List (List Char)) (name : String) (k : Nat) : Prop := names[k]? = some name.toList ∧ name.toList ∉ names.drop (k + 1)

instance (names : List (List Char)) (name : String) (k : Nat) : Decidable (LastWith names name k) := by unfold LastWith; infer_instance

/-- What column `k` holds if the header has these names. -/
def columnKind (names : List (List Char)) (k : Nat) : ColumnKind :=
  if LastWith names "time" k then .time
  else if LastWith names "lat" k then .lat
  else if LastWith names "lon" k then .lon
  else if LastWith names "elev" k then .elev
  else .parameter

/-- The words in the columns of one kind; the words are those from column `k` on. -/
def wordsOf (names : List (List Char)) (kind : ColumnKind) : Nat → List (List Char) → List (List Char)
  | _, [] => []
  | k, w :: ws => if columnKind names k = kind then w :: wordsOf names kind (k + 1) ws else wordsOf names kind (k + 1) ws

/-- The number of a line in the column of this kind, or `d` if there is none. -/
def CellIs {V : Type} (names ws : List (List Char)) (kind : ColumnKind) (means : List Char → V → Prop) (d v : V) : Prop :=
  (∀ w ∈ wordsOf names kind 0 ws, means w v) ∧ (wordsOf names kind 0 ws = [] → v = d)

/-- A line of the table: its time (0 if there is none), its place (-999 for what there is not) and its parameters. -/
structure TableRow {K : Type} [Field K] (names ws : List (List Char)) (time : Nat) (lat lon elev : K) (pars : List (Fl K)) : Prop where
  timeCell : CellIs names ws .time (fun w v => IntNumeral w v) (0 : Int) time
  small : time < 2147483648
  latCell : CellIs names ws .lat Numeral (-999) lat
  lonCell : CellIs names ws .lon Numeral (-999) lon
  elevCell : CellIs names ws .elev Numeral (-999) elev
  parCells : List.Forall₂ (fun w v => ∃ q : K, Numeral w q ∧ v = fin q) (wordsOf names .parameter 0 ws) pars

/-- What a line of the table says: the parameters for a place and a time; a place of which something is missing is no place. -/
def RowMeans {K : Type} [Field K] (names : List (List Char)) (line : List Char) (s : Setting K) : Prop :=
  ∃ ws a b h, WordLine line ws ∧ TableRow names ws s.time a b h s.pars ∧
    (a ≠ -999 ∧ b ≠ -999 ∧ h ≠ -999 → s.lat = a ∧ s.lon = b ∧ s.elev = fin h) ∧
    (a = -999 ∨ b = -999 ∨ h = -999 → s.lat = -999 ∧ s.lon = -999 ∧ s.elev = fin (-999))

/-- Of the columns for a place there are all or none. -/
def PlaceColumns (names : List (List Char)) : Prop :=
  ("lat".toList ∈ names ∧ "lon".toList ∈ names ∧ "elev".toList ∈ names) ∨ ("lat".toList ∉ names ∧ "lon".toList ∉ names ∧ "elev".toList ∉ names)

/-- What is left of a text after its last line that can be used: there is no line break any more, or a line that is too long. -/
def Leftover (tail : List Char) : Prop := '\n' ∉ tail ∨ ∃ l t, tail = l ++ '\n' :: t ∧ '\n' ∉ l ∧ 9999 < l.length

/-- The text consists of these lines and something that is left. -/
def TextOf (content : List Char) (lines : List (List Char)) : Prop :=
  (∀ l ∈ lines, '\n' ∉ l ∧ l.length ≤ 9999) ∧ ∃ tail, Leftover tail ∧ content = lines.flatMap (fun l => l ++ ['\n']) ++ tail

/-- The lines that are no comments. -/
def plainLines (lines : List (List Char)) : List (List Char) := lines.filter fun l => decide (l.head? ≠ some '#')

end Gridpp.Spec
