import Verif.Base.Fl

/-! # Scores of a 2x2 contingency table (specification)

Independent of the model: the textbook definitions in terms of hit rate, false alarm rate and the agreement expected by
chance. `a` hits, `b` false alarms, `c` misses, `d` correct negatives. -/

namespace Gridpp.Spec.Score
open Fl
variable {K : Type} [Field K] [LinearOrder K]

/-- Hits divided by observed events. -/
def hitRate (a c : K) : K := a / (a + c)

/-- False alarms divided by observed non-events. -/
def falseAlarmRate (b d : K) : K := b / (b + d)

/-- Proportion of correct forecasts. -/
def correct (a b c d : K) : K := (a + d) / (a + b + c + d)

/-- Hits expected of a random forecast with the same marginal frequencies. -/
def chanceHits (a b c d : K) : K := (a + b) * (a + c) / (a + b + c + d)

/-- Correct negatives expected of a random forecast with the same marginal frequencies. -/
def chanceNegatives (a b c d : K) : K := (d + b) * (d + c) / (a + b + c + d)

/-- Proportion correct expected of a random forecast. -/
def chanceCorrect (a b c d : K) : K := (chanceHits a b c d + chanceNegatives a b c d) / (a + b + c + d)

/-- Threat score: hits among all cases where the event was observed or forecast. -/
def threat (a b c : K) : K := a / (a + b + c)

/-- The threat score after removing the hits due to chance. -/
def equitableThreat (a b c d : K) : K := (a - chanceHits a b c d) / (a + b + c - chanceHits a b c d)

/-- Hanssen-Kuipers: hit rate minus false alarm rate. -/
def hanssenKuipers (a b c d : K) : K := hitRate a c - falseAlarmRate b d

/-- Heidke skill score: the gain in proportion correct over chance relative to a perfect forecast. -/
def heidke (a b c d : K) : K := (correct a b c d - chanceCorrect a b c d) / (1 - chanceCorrect a b c d)

/-- How a pair of forecast and reference is classified; `none` for a missing reference. -/
inductive Outcome where
  | hit | falseAlarm | miss | correctNegative
  deriving DecidableEq

/-- A forecast above its threshold is a yes; everything else, including a missing forecast, is a no. -/
def outcome (threshold fthreshold : Fl K) (p : Fl K × Fl K) : Option Outcome :=
  if p.2 = nan ∨ threshold = nan then none
  else if gt p.1 fthreshold then (if gt p.2 threshold then some .hit else some .falseAlarm)
  else (if gt p.2 threshold then some .miss else some .correctNegative)

end Gridpp.Spec.Score
