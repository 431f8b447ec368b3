import Mathlib.Data.List.Basic

/-! # Words of a text, and what a set of options is -/

namespace Gridpp.Spec

/-- `ws` are the words of the text `s`: the longest stretches without a separator, in order. -/
inductive Words (sep : Char → Bool) : List Char → List (List Char) → Prop
  | nil : Words sep [] []
  | skip {c : Char} {s : List Char} {ws : List (List Char)} : sep c = true → Words sep s ws → Words sep (c :: s) ws
  | word {w s : List Char} {ws : List (List Char)} : w ≠ [] → (∀ c ∈ w, sep c = false) → (∀ c ∈ s.head?, sep c = true) →
      Words sep s ws → Words sep (w ++ s) (w :: ws)

/-- The white space of the C locale. -/
def White (c : Char) : Prop := c ∈ [' ', '\t', '\n', '\x0b', '\x0c', '\r']

/-- The text of one option: the key alone has the value "1". -/
inductive OneOption : List Char → List Char → List Char → Prop
  | flag {k : List Char} : '=' ∉ k → OneOption k k ['1']
  | value {k v : List Char} : '=' ∉ k → OneOption (k ++ '=' :: v) k v

/-- The pairs are a finite map from keys to values, none of them empty. -/
structure OptionMap (pairs : List (List Char × List Char)) : Prop where
  keys : (pairs.map Prod.fst).Nodup
  filled : ∀ p ∈ pairs, p.1 ≠ [] ∧ p.2 ≠ []

end Gridpp.Spec
