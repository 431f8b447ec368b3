import Verif.Model.Client.TrainFields
import Verif.Lemmas.Client.Field
import Verif.Base.Inst
import Mathlib.Data.Rat.Floor

/-! # C167: training from fields uses the values at the two points only -/

set_option linter.unusedSectionVars false

namespace Gridpp.Props
open Fl hiding MV isValid
open Res Client

variable {K : Type} [Field K] [LinearOrder K] [IsStrictOrderedRing K]

/-- What is to be handed on of one case: the first member of the observations at one point, all members of the ensemble at the other. -/
def CasePair (obsAt ensAt : Nat × Nat) (E : Nat) (d : FieldC K × FieldC K) (p : Fl K × List (Fl K)) : Prop :=
  d.1.get obsAt.1 obsAt.2 0 = ok p.1 ∧ p.2.length = E ∧ ∀ e, (he : e < p.2.length) → d.2.get ensAt.1 ensAt.2 e = ok p.2[e]

theorem getInt_nat (f : FieldC K) (i j e : Nat) : f.getInt i j e = f.get i j e := by
  unfold FieldC.getInt
  rw [if_neg (by omega), Int.toNat_natCast, Int.toNat_natCast]

theorem ensInt_nat (f : FieldC K) (i j : Nat) : f.ensInt i j = f.ens i j := by
  unfold FieldC.ensInt
  rw [if_neg (by omega), Int.toNat_natCast, Int.toNat_natCast]

/-- **C167** (cases). With points inside the fields, the method is trained with one pair for each case, in order: the first member of the
observations at the point of the observations and all members of the ensemble at the point of the ensemble. -/
theorem c167_cases (train : List (Fl K × List (Fl K)) → Res (List (Fl K))) {Yo Xo Eo Y X E : Nat} {obsAt ensAt : Nat × Nat}
    (hobs : obsAt.1 < Yo ∧ obsAt.2 < Xo ∧ 0 < Eo) (hens : ensAt.1 < Y ∧ ensAt.2 < X ∧ 0 < E) (data : List (FieldC K × FieldC K))
    (hd : ∀ d ∈ data, Sized Yo Xo Eo d.1 ∧ Sized Y X E d.2) :
    ∃ pairs, List.Forall₂ (CasePair obsAt ensAt E) data pairs ∧
      trainFields train (obsAt.1, obsAt.2) (ensAt.1, ensAt.2) data = train pairs := by
  have key : ∃ pairs, List.Forall₂ (CasePair obsAt ensAt E) data pairs ∧
      trainArrange (obsAt.1, obsAt.2) (ensAt.1, ensAt.2) data = ok pairs := by
    induction data with
    | nil => exact ⟨[], .nil, rfl⟩
    | cons d data ih =>
      obtain ⟨pairs, h1, h2⟩ := ih fun x hx => hd x (List.mem_cons_of_mem _ hx)
      obtain ⟨hs1, hs2⟩ := hd d (by simp)
      obtain ⟨o, ho⟩ := hs1.exists_get hobs.1 hobs.2.1 hobs.2.2
      obtain ⟨l, hl, hlen, hval⟩ := hs2.ens hens.1 hens.2.1 hens.2.2
      refine ⟨(o, l) :: pairs, .cons ⟨ho, hlen, fun e he => (hval e _).mp (List.getElem?_eq_getElem he)⟩ h1, ?_⟩
      unfold trainArrange at h2 ⊢
      rw [mapM_cons, h2, getInt_nat, ensInt_nat, ho, ok_bind, hl, ok_bind, ok_bind, ok_bind]
  obtain ⟨pairs, h1, h2⟩ := key
  exact ⟨pairs, h1, by unfold trainFields; rw [h2, ok_bind]⟩

/-- **C167** (nothing else). Two sets of cases with the same values at the two points train the same parameters, whatever the fields are
elsewhere. -/
theorem c167_elsewhere (train : List (Fl K × List (Fl K)) → Res (List (Fl K))) {Yo Xo Eo Y X E : Nat} {obsAt ensAt : Nat × Nat}
    (hens : ensAt.1 < Y ∧ ensAt.2 < X ∧ 0 < E) (data data' : List (FieldC K × FieldC K))
    (h : List.Forall₂ (fun d d' => (Sized Yo Xo Eo d.1 ∧ Sized Y X E d.2) ∧ (Sized Yo Xo Eo d'.1 ∧ Sized Y X E d'.2) ∧
      d.1.get obsAt.1 obsAt.2 0 = d'.1.get obsAt.1 obsAt.2 0 ∧ ∀ e < E, d.2.get ensAt.1 ensAt.2 e = d'.2.get ensAt.1 ensAt.2 e) data data') :
    trainFields train (obsAt.1, obsAt.2) (ensAt.1, ensAt.2) data = trainFields train (obsAt.1, obsAt.2) (ensAt.1, ensAt.2) data' := by
  have key : trainArrange (obsAt.1, obsAt.2) (ensAt.1, ensAt.2) data = trainArrange (obsAt.1, obsAt.2) (ensAt.1, ensAt.2) data' := by
    induction h with
    | nil => rfl
    | @cons d d' data data' hx _ ih =>
      obtain ⟨⟨s1, s2⟩, ⟨s3, s4⟩, ho, he⟩ := hx
      obtain ⟨l, hl, hlen, hval⟩ := s2.ens hens.1 hens.2.1 hens.2.2
      obtain ⟨l', hl', hlen', hval'⟩ := s4.ens hens.1 hens.2.1 hens.2.2
      have hll : l = l' := by
        refine List.ext_getElem (by rw [hlen, hlen']) fun e h1 h2 => ?_
        have e1 := (hval e _).mp (List.getElem?_eq_getElem h1)
        have e2 := (hval' e _).mp (List.getElem?_eq_getElem h2)
        rw [he e (by rw [← hlen]; exact h1), e2, Res.ok.injEq] at e1
        exact e1.symm
      unfold trainArrange at ih ⊢
      rw [mapM_cons, mapM_cons, ih, getInt_nat, getInt_nat, ensInt_nat, ensInt_nat, ho, hl, hl', hll]
  unfold trainFields
  rw [key]

/-- **C167** (refusal). With at least one case, a point outside the first fields ends the program. -/
theorem c167_outside (train : List (Fl K × List (Fl K)) → Res (List (Fl K))) {Yo Xo Eo Y X E : Nat} (obsAt ensAt : Int × Int)
    {d : FieldC K × FieldC K} (data : List (FieldC K × FieldC K)) (hd : Sized Yo Xo Eo d.1 ∧ Sized Y X E d.2)
    (hout : ¬ ((0 ≤ obsAt.1 ∧ obsAt.1 < Yo ∧ 0 ≤ obsAt.2 ∧ obsAt.2 < Xo ∧ 0 < Eo) ∧
      (0 ≤ ensAt.1 ∧ ensAt.1 < Y ∧ 0 ≤ ensAt.2 ∧ ensAt.2 < X ∧ 0 < E))) :
    trainFields train obsAt ensAt (d :: data) = .abort := by
  have hobs : (∃ o, d.1.getInt obsAt.1 obsAt.2 0 = ok o ∧ 0 ≤ obsAt.1 ∧ obsAt.1 < Yo ∧ 0 ≤ obsAt.2 ∧ obsAt.2 < Xo ∧ 0 < Eo) ∨
      d.1.getInt obsAt.1 obsAt.2 0 = .abort := by
    unfold FieldC.getInt
    split_ifs with h
    · exact .inr rfl
    · by_cases hin : obsAt.1.toNat < Yo ∧ obsAt.2.toNat < Xo ∧ 0 < Eo
      · obtain ⟨o, ho⟩ := hd.1.exists_get hin.1 hin.2.1 hin.2.2
        exact .inl ⟨o, ho, by omega, by omega, by omega, by omega, hin.2.2⟩
      · exact .inr (hd.1.get_abort hin)
  unfold trainFields trainArrange
  rw [mapM_cons]
  rcases hobs with ⟨o, ho, hin⟩ | ho
  · rw [ho, ok_bind]
    have hens : d.2.ensInt ensAt.1 ensAt.2 = .abort := by
      unfold FieldC.ensInt
      split_ifs with h
      · rfl
      · have hn : ¬ (ensAt.1.toNat < Y ∧ ensAt.2.toNat < X ∧ 0 < E) := fun hc => hout ⟨hin, by omega⟩
        have hg : d.2.getIndex ensAt.1.toNat ensAt.2.toNat 0 = .abort := by
          have : (decide (ensAt.1.toNat < d.2.nY) && decide (ensAt.2.toNat < d.2.nX) && decide (0 < d.2.nE)) = false := by
            rw [hd.2.nY, hd.2.nX, hd.2.nE]
            simpa only [Bool.and_eq_false_iff, decide_eq_false_iff_not, not_and_or, or_assoc] using hn
          simp [FieldC.getIndex, this]
        unfold FieldC.ens
        rw [hg]
        rfl
    rw [hens]
    rfl
  · rw [ho]
    rfl

/-- **C167** (methods that cannot be trained) end the program, whatever the data. -/
theorem c167_none {Yo Xo Eo Y X E : Nat} (obsAt ensAt : Nat × Nat) (hobs : obsAt.1 < Yo ∧ obsAt.2 < Xo ∧ 0 < Eo)
    (hens : ensAt.1 < Y ∧ ensAt.2 < X ∧ 0 < E) (data : List (FieldC K × FieldC K)) (hd : ∀ d ∈ data, Sized Yo Xo Eo d.1 ∧ Sized Y X E d.2) :
    trainFields trainNone (obsAt.1, obsAt.2) (ensAt.1, ensAt.2) data = .abort := by
  obtain ⟨pairs, -, h⟩ := c167_cases trainNone hobs hens data hd
  rw [h]
  rfl

/-- The cases are met: observations on two columns, ensembles of two members. -/
theorem c167_case :
    trainFields (fun pairs => ok (pairs.flatMap fun p => p.1 :: p.2)) (0, 1) (1, 0)
      [((⟨[fin 1, fin 2], 1, 2, 1⟩ : FieldC ℚ), ⟨[fin 3, fin 4, fin 5, fin 6], 2, 1, 2⟩),
       (⟨[fin 7, fin 8], 1, 2, 1⟩, ⟨[fin 9, fin 10, fin 11, fin 12], 2, 1, 2⟩)] =
      ok [fin 2, fin 5, fin 6, fin 8, fin 11, fin 12] := by decide +kernel

end Gridpp.Props
