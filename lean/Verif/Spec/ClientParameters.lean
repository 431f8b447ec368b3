import Verif.Base.Fl

/-! # What a collection of parameters by place and time holds -/

namespace Gridpp.Spec

variable {K : Type} [DecidableEq K]

/-- The parameters `pars` have been given for a place and a time. -/
structure Setting (K : Type) where
  lat : K
  lon : K
  elev : Fl K
  time : Nat
  pars : List (Fl K)

/-- The settings for the place `a`, `b` and the time `t`. -/
def settingsFor (ws : List (Setting K)) (a b : K) (t : Nat) : List (Setting K) := ws.filter fun w => w.lat = a ∧ w.lon = b ∧ w.time = t

/-- The parameters given last for the place `a`, `b` and the time `t`; none if there were none. -/
def lastSetting (ws : List (Setting K)) (a b : K) (t : Nat) : List (Fl K) :=
  match (settingsFor ws a b t).getLast? with
  | some w => w.pars
  | none => []

/-- The latest time with a setting. -/
def latest (ws : List (Setting K)) : Nat := (ws.map Setting.time).foldr max 0

/-- The time of the settings that is meant by time `t`: with settings for the first time only, these are for all times; with cycling
the times repeat. -/
def usedTime (ws : List (Setting K)) (cycling : Bool) (t : Nat) : Nat :=
  if latest ws = 0 then 0 else if cycling then t % (latest ws + 1) else t

end Gridpp.Spec
