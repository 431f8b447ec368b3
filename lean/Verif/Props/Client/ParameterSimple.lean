import Verif.Spec.Client
import Verif.Model.Client.ParameterSimple
import Verif.Lemmas.Client.ParameterFile

/-! # C165: a parameter file of a single set, and the elements of a set -/

set_option linter.unusedSectionVars false

namespace Gridpp.Props
open Fl hiding MV isValid
open Res Client Spec

variable {K : Type} [Field K] [LinearOrder K] [IsStrictOrderedRing K]

/-- The file that the constructor makes. -/
theorem simple_eq (sort : Bool → List (Site K) → List (Site K)) (p : Pars K) :
    ParFile.simple sort p = ok ⟨[(⟨-999, -999, Client.MV⟩, [p])], false, 0, false, [], .nil⟩ := by
  have hv : Client.isValid (fin (-999) : Fl K) = false := by
    unfold Client.isValid
    simp
  unfold ParFile.simple ParFile.setParameters
  rw [if_neg (by omega)]
  simp only [ParFile.empty, ParMap.update, ok_bind, ParFile.recomputeTree, ParFile.isLocationDependent, ParFile.nowhere, hv]
  rfl

/-- **C165** (anywhere, any time). The set that was given is found for every time from 0 on and for every place, and without a place;
if the place has to be the one of the set itself, only "nowhere" finds it, whatever the elevation. Times before 0 are refused. -/
theorem c165_everywhere [HasArcC K] (sort : Bool → List (Site K) → List (Site K)) (p : Pars K) :
    ∃ f, ParFile.simple sort p = ok f ∧
      (∀ n : Nat, f.getParametersAll n = ok p ∧ ∀ l : Loc K, f.getParameters n l true = ok p ∧
        (l.lat = -999 ∧ l.lon = -999 → f.getParameters n l false = ok p) ∧
        (¬ (l.lat = -999 ∧ l.lon = -999) → f.getParameters n l false = ok [])) ∧
      ∀ t : Int, t < 0 → f.getParametersAll t = .abort ∧ ∀ (l : Loc K) (b : Bool), f.getParameters t l b = .abort := by
  refine ⟨_, simple_eq sort p, fun n => ?_, fun t ht => ?_⟩
  · have hv : Client.isValid (fin (-999) : Fl K) = false := by
      unfold Client.isValid
      simp
    have htime : (ParFile.timeIndex ⟨[(⟨-999, -999, Client.MV⟩, [p])], false, 0, false, [], .nil⟩ (n : Int) : Res Int) = ok 0 := by
      unfold ParFile.timeIndex
      rw [if_neg (by omega)]
      simp
    have hat : ParFile.atTime [p] 0 = ok p := rfl
    refine ⟨?_, fun l => ⟨?_, fun hl => ?_, fun hl => ?_⟩⟩
    · unfold ParFile.getParametersAll
      rw [htime]
      simp only [ok_bind, ParFile.isLocationDependent, hv, Bool.and_self]
      exact hat
    · unfold ParFile.getParameters
      rw [htime]
      simp only [ok_bind, ParFile.place, ParFile.getNearestLocation, List.length_cons, List.length_nil, if_true]
      rw [if_neg (by omega)]
      simp only [ParMap.find, (Loc.same_iff (⟨-999, -999, Client.MV⟩ : Loc K) _).mpr ⟨rfl, rfl⟩, if_true]
      exact hat
    · unfold ParFile.getParameters
      rw [htime]
      simp only [ok_bind, ParFile.place, List.length_cons, List.length_nil]
      rw [if_neg (by omega)]
      simp only [Bool.false_eq_true, if_false, ok_bind, ParMap.find,
        (Loc.same_iff (⟨-999, -999, Client.MV⟩ : Loc K) l).mpr ⟨hl.1.symm, hl.2.symm⟩, if_true]
      exact hat
    · unfold ParFile.getParameters
      rw [htime]
      have hno : ¬ ((!Loc.before (⟨-999, -999, Client.MV⟩ : Loc K) l && !l.before ⟨-999, -999, Client.MV⟩) = true) := by
        rw [Loc.same_iff]
        exact fun h => hl ⟨h.1.symm, h.2.symm⟩
      simp only [ok_bind, ParFile.place, List.length_cons, List.length_nil]
      rw [if_neg (by omega)]
      simp only [Bool.false_eq_true, if_false, ok_bind, ParMap.find]
      rw [if_neg hno]
  · have htime : (ParFile.timeIndex ⟨[(⟨-999, -999, Client.MV⟩, [p])], false, 0, false, [], .nil⟩ t : Res Int) = .abort := by
      unfold ParFile.timeIndex
      rw [if_pos ht]
      rfl
    refine ⟨?_, fun l b => ?_⟩
    · unfold ParFile.getParametersAll; rw [htime]; rfl
    · unfold ParFile.getParameters; rw [htime]; rfl

/-- **C165** (what the file says about itself). It depends neither on the place nor on the time, has the time 0 only, stores one set, and
has as many parameters as the set. -/
theorem c165_about (sort : Bool → List (Site K) → List (Site K)) (p : Pars K) :
    ∃ f, ParFile.simple sort p = ok f ∧ f.isLocationDependent = ok false ∧ f.timeDependent = false ∧ f.simpleTimes = [0] ∧
      f.getTimes = [0] ∧ f.getCacheSize = 1 ∧ f.getNumParameters = p.length := by
  refine ⟨_, simple_eq sort p, ?_, rfl, rfl, rfl, rfl, ?_⟩
  · have hv : Client.isValid (fin (-999) : Fl K) = false := by
      unfold Client.isValid
      simp
    simp only [ParFile.isLocationDependent, hv, Bool.and_self]
  · cases p with
    | nil => rfl
    | cons x p => simp [ParFile.getNumParameters, ParFile.numLoop]

/-- **C165** (size of the store): the number of sets of all places and times together. -/
theorem c165_cache (f : ParFile K) : f.getCacheSize = (f.pars.map fun e => e.2.length).sum := by
  have hin : ∀ (v : List (Pars K)) (n : Nat), v.foldl (fun total _ => total + 1) n = n + v.length := by
    intro v
    induction v with
    | nil => intro n; rfl
    | cons x v ih => intro n; rw [List.foldl_cons, ih, List.length_cons]; omega
  have hout : ∀ (m : ParMap K) (n : Nat),
      m.foldl (fun total e => e.2.foldl (fun total _ => total + 1) total) n = n + (m.map fun e => e.2.length).sum := by
    intro m
    induction m with
    | nil => intro n; rfl
    | cons e m ih => intro n; rw [List.foldl_cons, ih, hin, List.map_cons, List.sum_cons]; omega
  unfold ParFile.getCacheSize
  rw [hout, Nat.zero_add]

/-- **C165** is false for a file to which more sets are added: its list of times stays `[0]`, although another time is found … -/
theorem c165_times_false [HasArcC ℚ] (sort : Bool → List (Site ℚ) → List (Site ℚ)) :
    ∃ f g, ParFile.simple sort [fin 1] = ok f ∧ f.setParameters [fin 2] 3 ParFile.nowhere = ok g ∧
      g.simpleTimes = [0] ∧ g.getParametersAll 3 = ok [fin 2] := by
  refine ⟨_, _, simple_eq sort _, rfl, rfl, ?_⟩
  decide +kernel

/-- … and as the tree is not made again, a set for another place makes the search of the nearest place undefined. -/
theorem c165_place_false [HasArcC ℚ] (sort : Bool → List (Site ℚ) → List (Site ℚ)) :
    ∃ f g, ParFile.simple sort [fin 1] = ok f ∧ f.setParameters [fin 2] 0 ⟨60, 10, fin 0⟩ = ok g ∧
      g.getParameters 0 ⟨61, 10, fin 0⟩ true = .ub := by
  refine ⟨_, _, simple_eq sort _, rfl, ?_⟩
  rfl

/-- **C165** (elements). For sets of fewer than 2³¹ values, an element is read exactly if its number is in the set, and any other number,
also a negative one, is refused. -/
theorem c165_element (p : Pars K) (i : Int) (hi : -2147483648 ≤ i ∧ i < 2147483648) (hp : p.length ≤ 2147483648) :
    (∀ n : Nat, i = n → ∀ h : n < p.length, p.index i = ok p[n]) ∧ (i < 0 ∨ (p.length : Int) ≤ i → p.index i = .abort) := by
  refine ⟨fun n hn h => ?_, fun h => ?_⟩
  · subst hn
    have h1 : (n : Int) % 4294967296 = n := by omega
    simp only [Pars.index, h1]
    rw [if_neg (by omega)]
    exact vget_eq_ok_of_lt h
  · unfold Pars.index
    simp only
    rw [if_pos]
    · rfl
    · rcases h with h | h <;> omega

/-- **C165** (assignment): the element is replaced and no other; any other number is refused. -/
theorem c165_assign (p : Pars K) (i : Int) (v : Fl K) (hi : -2147483648 ≤ i ∧ i < 2147483648) (hp : p.length ≤ 2147483648) :
    (∀ n : Nat, i = n → n < p.length → ∃ q, p.assign i v = ok q ∧ q.length = p.length ∧ q[n]? = some v ∧ ∀ m, m ≠ n → q[m]? = p[m]?) ∧
      (i < 0 ∨ (p.length : Int) ≤ i → p.assign i v = .abort) := by
  refine ⟨fun n hn h => ?_, fun h => ?_⟩
  · subst hn
    have h1 : (n : Int) % 4294967296 = n := by omega
    refine ⟨p.set n v, ?_, by simp, by simp [h], fun m hm => by simp [Ne.symm hm]⟩
    simp only [Pars.assign, h1]
    rw [if_neg (by omega)]
    simp [vset, h]
  · unfold Pars.assign
    simp only
    rw [if_pos]
    · rfl
    · rcases h with h | h <;> omega

/-- **C165** (validity): a set is valid exactly if none of its values is missing, not a number or infinite; the empty set is valid. -/
theorem c165_valid (p : Pars K) : p.valid = true ↔ ∀ x ∈ p, ∃ q : K, x = fin q ∧ q ≠ -999 := by
  induction p with
  | nil => simp [Pars.valid]
  | cons x p ih =>
    rw [Pars.valid]
    have hx : Client.isValid x = true ↔ ∃ q : K, x = fin q ∧ q ≠ -999 := by
      unfold Client.isValid
      cases x <;> simp
    cases hv : Client.isValid x with
    | false =>
      simp only [Bool.not_false, if_true, Bool.false_eq_true, false_iff]
      intro h
      have := hx.mpr (h x (by simp))
      rw [hv] at this
      cases this
    | true =>
      simp only [Bool.not_true, Bool.false_eq_true, if_false, ih, List.forall_mem_cons]
      exact ⟨fun h => ⟨hx.mp hv, h⟩, fun h => h.2⟩

/-- The cases are met: a set of two values is found at a place and late, its second value is read and its third refused. -/
theorem c165_case :
    (Pars.index [fin 1, fin (2 : ℚ)] 1 = ok (fin 2)) ∧ (Pars.index [fin 1, fin (2 : ℚ)] 2 = .abort) ∧
    (Pars.index [fin 1, fin (2 : ℚ)] (-1) = .abort) ∧ (Pars.valid [fin 1, fin (2 : ℚ)] = true) ∧
    (Pars.valid [fin 1, fin (-999 : ℚ)] = false) := by decide +kernel

end Gridpp.Props
