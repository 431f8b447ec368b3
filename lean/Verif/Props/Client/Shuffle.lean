import Verif.Lemmas.Client.Series
import Verif.Lemmas.OI
import Verif.Lemmas.Quantile
import Verif.Props.OICases

/-! # C86: shuffle gives calibrated members the rank order of the raw members; C87: sort -/

set_option linter.unusedSectionVars false

namespace Gridpp.Props
open Fl hiding MV isValid
open Res Client Spec

variable {K : Type} [Field K] [LinearOrder K] [IsStrictOrderedRing K]

/-- Writing through a list of distinct places. -/
theorem foldM_place (P : List (Fl K × Nat)) (S : List (Fl K)) (N : Nat) (hP : P.length = N) (hS : S.length = N)
    (hnd : (P.map (·.2)).Nodup) (hlt : ∀ p ∈ P, p.2 < N) (init : List (Fl K)) (hi : init.length = N) :
    ∀ m ≤ N, ∃ res, foldM (fun res e => do
      let p ← vget P (e : Nat)
      let v ← vget S (e : Nat)
      vset res p.2 v) init (List.range m) = ok res ∧ res.length = N ∧
      ∀ e (h1 : e < P.length) (h2 : e < S.length), e < m → res[P[e].2]? = some S[e] := by
  intro m
  induction m with
  | zero => intro _; exact ⟨init, rfl, hi, fun e _ _ h => absurd h (by omega)⟩
  | succ m ih =>
    intro hm
    obtain ⟨res, h1, h2, h3⟩ := ih (by omega)
    have hmP : m < P.length := by omega
    have hmS : m < S.length := by omega
    have hk : P[m].2 < res.length := by rw [h2]; exact hlt _ (List.getElem_mem _)
    refine ⟨res.set P[m].2 S[m], ?_, by simp [h2], ?_⟩
    · rw [List.range_succ, foldM_append, h1, ok_bind, foldM_cons, vget_eq_ok_of_lt hmP, ok_bind, vget_eq_ok_of_lt hmS, ok_bind,
        vset_nat _ hk]
      rfl
    · intro e g1 g2 g3
      by_cases he : e = m
      · subst he
        rw [List.getElem?_set_self hk]
      · rw [List.getElem?_set_ne, h3 e g1 g2 (by omega)]
        intro hc
        have := (List.Nodup.getElem_inj_iff hnd (i := m) (j := e) (hi := by simpa using hmP) (hj := by simpa using g1)).mp (by simpa using hc)
        omega

/-- **C86**. With as many values before as after and none missing, `shuffle` rearranges the values after calibration so
that they have the rank order of the values before: a member below another one before is not above it afterwards. This
holds for whatever order `std::sort` gives equal values. -/
theorem c86_shuffle (A : Arma K) (hA : Arma.Lawful A) (bs as : List K) (hl : bs.length = as.length) (hb : ∀ b ∈ bs, b ≠ -999)
    (ha : ∀ a ∈ as, a ≠ -999) :
    ∃ rs : List K, shuffle A (bs.map fin) (as.map fin) = ok (rs.map fin) ∧ rs.Perm as ∧
      ∀ (i j : Nat) b c r s, bs[i]? = some b → bs[j]? = some c → rs[i]? = some r → rs[j]? = some s → b < c → r ≤ s := by
  by_cases h0 : bs.length = 0
  · have e1 : bs = [] := List.length_eq_zero_iff.mp h0
    have e2 : as = [] := List.length_eq_zero_iff.mp (by omega)
    subst e1; subst e2
    exact ⟨[], rfl, List.Perm.refl _, by simp⟩
  unfold shuffle
  rw [if_neg (by simp [hl]), if_neg (by simpa using h0), if_neg (by
    simp only [List.any_eq_true, not_exists, not_and, Bool.or_eq_true, Bool.not_eq_true']
    rintro ⟨u, v⟩ huv
    have h1 := List.of_mem_zip huv
    obtain ⟨b, hb1, rfl⟩ := List.mem_map.mp h1.1
    obtain ⟨a, ha1, rfl⟩ := List.mem_map.mp h1.2
    have e1 : Client.isValid (fin b) = true := isValid_iff_present.mpr ⟨b, rfl, hb b hb1⟩
    have e2 : Client.isValid (fin a) = true := isValid_iff_present.mpr ⟨a, rfl, ha a ha1⟩
    simp [e1, e2])]
  rw [stdSort_map_fin, ok_bind]
  set Z := (bs.map (fin : K → Fl K)).zipIdx with hZ
  have hnn : ∀ e ∈ Z, e.1 ≠ nan := by
    rintro ⟨v, k⟩ he
    obtain ⟨b, -, hb⟩ := List.mem_map.mp (List.fst_mem_of_mem_zipIdx he)
    rw [← hb]; simp
  have hperm := hA.sort_perm Z hnn
  have hsorted := hA.sort_sorted Z hnn
  set P := A.sortFirst Z with hPdef
  have hZl : Z.length = bs.length := by simp [hZ]
  have hPl : P.length = bs.length := by rw [hperm.length_eq, hZl]
  have hZ2 : Z.map (·.2) = List.range bs.length := by
    rw [hZ, List.zipIdx_map_snd, List.length_map, List.range_eq_range']
  have hP2 : (P.map (·.2)).Perm (List.range bs.length) := hZ2 ▸ hperm.map _
  have hlt : ∀ p ∈ P, p.2 < bs.length := fun p hp => List.mem_range.mp (hP2.subset (List.mem_map_of_mem hp))
  have hfst : ∀ p ∈ P, ∃ h : p.2 < bs.length, p.1 = fin bs[p.2] := by
    intro p hp
    refine ⟨hlt p hp, ?_⟩
    have := hperm.subset hp
    obtain ⟨v, k⟩ := p
    have h1 := List.mem_zipIdx_iff_getElem?.mp this
    simp only [List.getElem?_map] at h1
    have h2 := hlt _ hp
    simp only at h2
    rw [List.getElem?_eq_getElem h2] at h1
    simpa using h1.symm
  obtain ⟨res, h1, h2, h3⟩ := foldM_place P ((sorted as).map fin) bs.length hPl (by simp [length_sorted, hl])
    (hP2.nodup_iff.mpr List.nodup_range) hlt (as.map fin) (by simp [hl]) bs.length le_rfl
  have hsl : (sorted as).length = bs.length := by rw [length_sorted, hl]
  have h3' : ∀ e (g1 : e < P.length) (g2 : e < (sorted as).length), res[P[e].2]? = some (fin (sorted as)[e]) := by
    intro e g1 g2
    rw [h3 e g1 (by simpa using g2) (by omega)]
    simp
  have hres : res.Perm ((sorted as).map fin) := by
    have p1 : ((P.map (·.2)).map fun i => res[i]?).Perm ((List.range bs.length).map fun i => res[i]?) := hP2.map _
    have p2 : (P.map (·.2)).map (fun i => res[i]?) = ((sorted as).map fin).map some := by
      apply List.ext_getElem
      · simp [hPl, hsl]
      · intro e g1 g2
        simp only [List.length_map] at g1 g2
        simpa using h3' e g1 g2
    have p3 : (List.range bs.length).map (fun i => res[i]?) = res.map some := by
      apply List.ext_getElem
      · simp [h2]
      · intro e g1 g2
        simp only [List.length_map] at g2
        simp [g2]
    rw [p2, p3] at p1
    have := p1.filterMap id
    simpa using this.symm
  obtain ⟨rs, hrs⟩ : ∃ rs : List K, res = rs.map fin := by
    have : ∀ v ∈ res, ∃ q : K, fin q = v := fun v hv => by
      obtain ⟨q, -, hq⟩ := List.mem_map.mp (hres.subset hv)
      exact ⟨q, hq⟩
    clear_value P
    clear h3 h3' hres h1 h2
    induction res with
    | nil => exact ⟨[], rfl⟩
    | cons v t ih =>
      obtain ⟨q, rfl⟩ := this v (by simp)
      obtain ⟨rs, rfl⟩ := ih fun v hv => this v (by simp [hv])
      exact ⟨q :: rs, rfl⟩
  refine ⟨rs, by rw [← hrs]; simpa using h1, ?_, ?_⟩
  · rw [hrs] at hres
    have := hres.filterMap (fun v : Fl K => match v with | fin q => some q | _ => none)
    simp only [List.filterMap_map] at this
    rw [show (fun v : Fl K => match v with | fin q => some q | _ => none) ∘ (fin : K → Fl K) = some from rfl] at this
    simp only [List.filterMap_some] at this
    exact this.trans (sorted_perm as)
  · intro i j b c r s hi hj hr hs hbc
    have place : ∀ k < bs.length, ∃ e, ∃ he : e < P.length, P[e].2 = k := by
      intro k hk
      have : k ∈ P.map (·.2) := hP2.symm.subset (List.mem_range.mpr hk)
      obtain ⟨p, hp, rfl⟩ := List.mem_map.mp this
      obtain ⟨e, he, rfl⟩ := List.mem_iff_getElem.mp hp
      exact ⟨e, he, rfl⟩
    obtain ⟨hib, rfl⟩ := List.getElem?_eq_some_iff.mp hi
    obtain ⟨hjb, rfl⟩ := List.getElem?_eq_some_iff.mp hj
    obtain ⟨e, he, rfl⟩ := place i hib
    obtain ⟨f, hf, rfl⟩ := place j hjb
    have er := h3' e he (by omega)
    have es := h3' f hf (by omega)
    have hr' : ∀ k : Nat, res[k]? = rs[k]?.map fin := fun k => by rw [hrs, List.getElem?_map]
    rw [hr', hr] at er
    rw [hr', hs] at es
    simp only [Option.map_some, Option.some.injEq, Fl.fin.injEq] at er es
    rw [er, es]
    by_cases hef : e ≤ f
    · exact sorted_mono hef (by omega)
    · exfalso
      have := List.pairwise_iff_getElem.mp hsorted f e hf he (by omega)
      obtain ⟨_, q1⟩ := hfst P[e] (List.getElem_mem _)
      obtain ⟨_, q2⟩ := hfst P[f] (List.getElem_mem _)
      rw [q1, q2, lt_fin] at this
      simp only [decide_eq_false_iff_not] at this
      exact this hbc

/-- **C86** (otherwise). With different numbers of values or a missing value on either side nothing is changed. -/
theorem c86_unchanged (A : Arma K) (before after : List (Fl K))
    (h : before.length ≠ after.length ∨ (∃ v ∈ before, ¬ Present v) ∨ ∃ v ∈ after, ¬ Present v) :
    shuffle A before after = ok after := by
  unfold shuffle
  by_cases h1 : before.length ≠ after.length
  · rw [if_pos h1]
  rw [if_neg h1]
  by_cases h2 : before.length = 0
  · rw [if_pos h2]
  rw [if_neg h2, if_pos]
  rw [List.any_eq_true]
  have h1 : before.length = after.length := not_not.mp h1
  rcases h with h | ⟨v, hv, hn⟩ | ⟨v, hv, hn⟩
  · exact absurd h1 h
  · obtain ⟨i, hi, rfl⟩ := List.mem_iff_getElem.mp hv
    refine ⟨(before[i], after[i]), List.mem_iff_getElem.mpr ⟨i, by simp; omega, by simp⟩, ?_⟩
    simp [isValid_false_iff.mpr hn]
  · obtain ⟨i, hi, rfl⟩ := List.mem_iff_getElem.mp hv
    refine ⟨(before[i], after[i]), List.mem_iff_getElem.mpr ⟨i, by simp; omega, by simp⟩, ?_⟩
    simp [isValid_false_iff.mpr hn]

example (A : Arma ℚ) (hA : Arma.Lawful A) : ∃ rs : List ℚ, shuffle A ([5, 2, 3].map fin) ([1, 4, 2].map fin) = ok (rs.map fin) ∧ rs = [4, 1, 2] := by
  obtain ⟨rs, h1, h2, h3⟩ := c86_shuffle A hA [5, 2, 3] [1, 4, 2] rfl (by simp; norm_num) (by simp; norm_num)
  refine ⟨rs, h1, ?_⟩
  match rs, h2.length_eq with
  | [x, y, z], _ =>
    have a1 := h3 1 2 2 3 y z rfl rfl rfl rfl (by norm_num)
    have a2 := h3 2 0 3 5 z x rfl rfl rfl rfl (by norm_num)
    have : [y, z, x].Perm [1, 2, 4] := by
      have q : [y, z, x].Perm [x, y, z] := (List.perm_append_comm (l₁ := [y, z]) (l₂ := [x]))
      exact q.trans (h2.trans (by decide))
    have h4 := List.Perm.eq_of_pairwise (le := (· ≤ ·)) (fun a b _ _ h h' => le_antisymm h h') (by simp; exact ⟨⟨a1, a1.trans a2⟩, a2⟩) (by simp; norm_num) this
    simp at h4
    simp [h4]

end Gridpp.Props
