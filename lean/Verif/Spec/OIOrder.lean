import Verif.Base.Fl

/-! What it means that the same observations are given in another order, or together with others that are missing (C169). -/

namespace Gridpp.Spec
open Fl

/-- Observation `i` is present: it and the background there are numbers. -/
def Present {K : Type} (pobs pbg : List (Fl K)) (i : Nat) : Prop := (∃ o, pobs[i]? = some (fin o)) ∧ ∃ b, pbg[i]? = some (fin b)

/-- Observation `i` in the first lists is observation `π i` in the second ones: `lats`, `lons`, `elevs`, `lafs` are those of the places of the observations, then
come observations, variances of the observations, background there, and variances of it. What is missing may be anywhere, and anything. -/
structure Rearranged {K : Type} (π : Nat → Nat) (lats lons elevs lafs pobs obsVar pbg bvarAt lats' lons' elevs' lafs' pobs' obsVar' pbg' bvarAt' : List (Fl K)) :
    Prop where
  onto : ∀ j, Present pobs' pbg' j ↔ ∃ i, Present pobs pbg i ∧ π i = j
  inj : ∀ i j, Present pobs pbg i → Present pobs pbg j → π i = π j → i = j
  place : ∀ i, Present pobs pbg i → lats'[π i]? = lats[i]? ∧ lons'[π i]? = lons[i]? ∧ elevs'[π i]? = elevs[i]? ∧ lafs'[π i]? = lafs[i]?
  value : ∀ i, Present pobs pbg i → pobs'[π i]? = pobs[i]? ∧ obsVar'[π i]? = obsVar[i]? ∧ pbg'[π i]? = pbg[i]? ∧ bvarAt'[π i]? = bvarAt[i]?

end Gridpp.Spec
