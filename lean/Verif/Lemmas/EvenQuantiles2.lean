import Verif.Lemmas.EvenQuantiles
import Mathlib.Data.List.Dedup
import Mathlib.Data.Finset.Card
import Mathlib.Data.Finset.Dedup

/-! Main case analysis of `calc_even_quantiles`. -/

set_option linter.unusedSectionVars false

namespace Gridpp
open Fl Res Spec

section
variable {K : Type} [Field K] [LinearOrder K] [IsStrictOrderedRing K] [FloorRing K]

/-- What is shown of the output `out` for input `xs` and `num`. -/
structure EvenOK (xs : List K) (num : Int) (out : List K) : Prop where
  sorted : out.Pairwise (· ≤ ·)
  mem : ∀ z ∈ out, z ∈ xs
  len : (out.length : Int) ≤ num
  first : ∃ m, out.head? = some m ∧ MinOf m xs
  last : ∃ m, out.getLast? = some m ∧ MaxOf m xs
  distinct : (xs.length : Int) ≤ num → out.Pairwise (· < ·) ∧ ∀ z ∈ xs, z ∈ out
  strict : num ≤ (xs.toFinset.card : Int) → out.Pairwise (· < ·)

theorem irange_pairwise (a b : Int) : (irange a b).Pairwise (· < ·) := by
  unfold irange
  rw [List.pairwise_map]
  apply List.Pairwise.imp _ List.pairwise_lt_range
  intro x y h; omega

theorem card_of_strict {l : List K} (h : l.Pairwise (· < ·)) : l.toFinset.card = l.length := by
  apply List.toFinset_card_of_nodup
  exact h.imp (fun h => h.ne)

theorem calcEvenQuantiles_ok (xs : List K) (hne : xs ≠ []) (num : Int) (hnum : 2 ≤ num) :
    ∃ out : List K, calcEvenQuantiles (xs.map fin) num = ok (out.map fin) ∧ EvenOK xs num out := by
  obtain ⟨p, t, hpt⟩ : ∃ p t, sorted xs = p :: t := by
    have : sorted xs ≠ [] := by
      intro h; have := length_sorted xs; rw [h] at this; simp at this; exact hne (List.length_eq_zero_iff.mp this.symm)
    exact List.exists_cons_of_ne_nil this
  have hlen : xs.length = t.length + 1 := by rw [← length_sorted xs, hpt]; simp
  have hps := pairwise_sorted xs
  rw [hpt] at hps
  have hmem : ∀ z, z ∈ p :: t ↔ z ∈ xs := by intro z; rw [← hpt]; exact (sorted_perm xs).mem_iff
  have hmin : MinOf p xs := by
    have := minOf_sorted_zero (xs := xs) (by rw [length_sorted]; omega)
    simpa [hpt] using this
  have hmaxi : MaxOf ((p :: t)[t.length]'(by simp)) xs := by
    have := maxOf_sorted_last (xs := xs) (n := t.length) (by rw [length_sorted]; omega) (by rw [length_sorted]; omega)
    simpa [hpt] using this
  set hi := (p :: t)[t.length]'(by simp) with hhi
  have hcard : xs.toFinset.card ≤ xs.length := List.toFinset_card_le xs
  have h0 : ¬ (num = 0 ∨ (((xs.map (fin : K → Fl K)).length : Int)) = 0) := by rw [List.length_map]; omega
  unfold calcEvenQuantiles
  simp only []
  rw [if_neg h0]
  simp only [stdSort_map_fin, ok_bind, hpt, List.length_map]
  by_cases hge : num ≥ (xs.length : Int)
  · rw [if_pos hge]
    obtain ⟨r, h1, h2, h3, h4⟩ := uniqueRuns_spec p t hps
    refine ⟨p :: r, by simp [h1], ?_⟩
    have hmax2 : ∃ m, (p :: r).getLast? = some m ∧ MaxOf m xs := by
      refine ⟨(p :: r).getLast (by simp), List.getLast?_eq_getLast_of_ne_nil _, ?_, ?_⟩
      · rw [← hmem, ← h3]; exact List.getLast_mem _
      · intro z hz
        have hz' : z ∈ p :: r := (h3 z).mpr ((hmem z).mpr hz)
        exact List.Pairwise.rel_getLast_of_rel_getLast_getLast (h2.imp le_of_lt) hz' (le_refl _)
    exact ⟨h2.imp le_of_lt, fun z hz => (hmem z).mp ((h3 z).mp hz), by simp; omega, ⟨p, rfl, hmin⟩, hmax2,
      fun _ => ⟨h2, fun z hz => (h3 z).mpr ((hmem z).mpr hz)⟩, fun _ => h2⟩
  · rw [if_neg hge]
    have hsz : 2 < xs.length := by omega
    have hfirst : vget ((p :: t).map (fin : K → Fl K)) 0 = ok (fin p) := rfl
    have hlastv : vget ((p :: t).map (fin : K → Fl K)) ((xs.length : Int) - 1) = ok (fin hi) := by
      have e : (xs.length : Int) - 1 = (t.length : Int) := by omega
      rw [e, vget_eq_ok_of_lt (by simp), List.getElem_map]
    simp only [hfirst, hlastv, ok_bind]
    rw [if_neg (by omega : ¬ num < 0)]
    have hphi : p ≤ hi := hmin.2 _ hmaxi.1
    by_cases h2 : num = 2
    · rw [if_pos h2]
      by_cases hd : p = hi
      · refine ⟨[p], by simp [hd], ?_⟩
        refine ⟨by simp, fun z hz => ?_, by simp; omega, ⟨p, rfl, hmin⟩, ⟨p, rfl, hd ▸ hmaxi⟩, fun h => absurd h hge, fun _ => by simp⟩
        simp only [List.mem_cons, List.not_mem_nil, or_false] at hz; subst hz; exact hmin.1
      · refine ⟨[p, hi], by simp [hd], ?_⟩
        have hlt : p < hi := lt_of_le_of_ne hphi hd
        refine ⟨by simpa using hphi, fun z hz => ?_, by simp; omega, ⟨p, rfl, hmin⟩, ⟨hi, rfl, hmaxi⟩, fun h => absurd h hge, fun _ => by simpa using hlt⟩
        simp only [List.mem_cons, List.not_mem_nil, or_false] at hz
        rcases hz with rfl | rfl
        · exact hmin.1
        · exact hmaxi.1
    · rw [if_neg h2]
      obtain ⟨c1, c2, c3⟩ := countLower_spec p t hps
      set c := countLower (fin p) ((p :: t).map fin) with hc
      -- the first one or two values
      have hq : ∃ (qs : List K) (la : K), (if (decide ((c : Int) < (xs.length : Int)) && decide ((c : Int) > (xs.length : Int).tdiv num)) = true
          then (do let v ← vget ((p :: t).map (fin : K → Fl K)) (c : Int); ok [fin p, v])
          else ok [fin p] : Res (List (Fl K))) = ok (qs.map fin) ∧ qs.Pairwise (· < ·) ∧ (∀ z ∈ qs, z ∈ xs) ∧
          qs.head? = some p ∧ qs.getLast? = some la ∧ 0 < qs.length ∧ qs.length ≤ 2 ∧ (∀ z ∈ qs, z ≤ la) ∧
          (∀ z ∈ xs, z ≤ la → z ∈ qs) := by
        by_cases hrep : (decide ((c : Int) < (xs.length : Int)) && decide ((c : Int) > (xs.length : Int).tdiv num)) = true
        · have hcl : c < (p :: t).length := by simp only [Bool.and_eq_true, decide_eq_true_eq] at hrep; simp; omega
          have hpc := c2 hcl
          refine ⟨[p, (p :: t)[c]], (p :: t)[c], ?_, by simpa using hpc, ?_, rfl, rfl, by simp, by simp, ?_, ?_⟩
          · rw [if_pos hrep, vget_eq_ok_of_lt (by simpa using hcl), List.getElem_map]; rfl
          · intro z hz; simp only [List.mem_cons, List.not_mem_nil, or_false] at hz
            rcases hz with rfl | rfl
            · exact hmin.1
            · exact (hmem _).mp (List.getElem_mem hcl)
          · intro z hz; simp only [List.mem_cons, List.not_mem_nil, or_false] at hz
            rcases hz with rfl | rfl
            · exact hpc.le
            · exact le_refl _
          · intro z hz hle
            obtain ⟨k, hk, rfl⟩ := List.getElem_of_mem ((hmem z).mpr hz)
            rcases Nat.lt_or_ge k c with h | h
            · rw [c3 k hk h]; simp
            · have := le_antisymm hle (sorted_le hps h hk)
              rw [this]; simp
        · refine ⟨[p], p, ?_, by simp, ?_, rfl, rfl, by simp, by simp, by simp, ?_⟩
          · rw [if_neg hrep]; rfl
          · intro z hz; simp only [List.mem_cons, List.not_mem_nil, or_false] at hz; subst hz; exact hmin.1
          · intro z hz hle; have := le_antisymm hle (hmin.2 z hz); simp [this]
      obtain ⟨qs, la, hq1, hq2, hq3, hq4, hq5, hq6, hq7, hq8, hq9⟩ := hq
      have hlav : vget (qs.map (fin : K → Fl K)) (((qs.map (fin : K → Fl K)).length : Int) - 1) = ok (fin la) := by
        have e : ((qs.map (fin : K → Fl K)).length : Int) - 1 = ((qs.length - 1 : Nat) : Int) := by simp; omega
        rw [e, vget_eq_ok_of_lt (by simp; omega)]
        rw [List.getLast?_eq_getElem?, List.getElem?_eq_getElem (by omega)] at hq5
        simp at hq5; simp [hq5]
      obtain ⟨r, hr1, hr2, hr3⟩ := remainingUnique_spec la (p :: t) hps
      simp only [hq1, ok_bind, hlav, hr1]
      have hqmap : qs.head? = some p := hq4
      by_cases hr : 0 < r.length
      · rw [if_pos (by simpa using hr)]
        obtain ⟨n, hn⟩ : ∃ n : Nat, num - (qs.length : Int) = (n : Int) := ⟨(num - qs.length).toNat, by omega⟩
        have hnpos : 0 < n := by omega
        simp only [List.length_map] at *
        rw [hn]
        have hrest := evenRest_eq hr hnpos
        simp only [List.length_map] at hrest
        rw [hrest]
        simp only [ok_bind]
        have hgd : ∀ i : Int, 1 ≤ i → i ≤ n → ∃ h : (evenIndex (K := K) r.length n i).toNat < r.length,
            r.getD (evenIndex (K := K) r.length n i).toNat 0 = r[(evenIndex (K := K) r.length n i).toNat] := by
          intro i h1 h2
          have a := evenIndex_nonneg (K := K) hr hnpos h1
          have b := evenIndex_lt (K := K) hr hnpos h1 h2
          have : (evenIndex (K := K) r.length n i).toNat < r.length := by omega
          exact ⟨this, by simp [this]⟩
        set g : Int → K := fun i => r.getD (evenIndex (K := K) r.length n i).toNat 0 with hg
        set rest := (irange 1 (n : Int)).map g with hrestdef
        have hrestmem : ∀ z ∈ rest, z ∈ r := by
          intro z hz
          simp only [hrestdef, List.mem_map, mem_irange] at hz
          obtain ⟨i, ⟨h1, h2⟩, rfl⟩ := hz
          obtain ⟨h, he⟩ := hgd i h1 h2
          simp only [hg]; rw [he]; exact List.getElem_mem h
        have hrestlen : rest.length = n := by simp [hrestdef, length_irange]
        have hrestlast : rest.getLast? = some (r[r.length - 1]'(by omega)) := by
          rw [List.getLast?_eq_getElem?, hrestlen]
          have : n - 1 < rest.length := by omega
          rw [List.getElem?_eq_getElem this]
          simp only [hrestdef, List.getElem_map, irange, List.getElem_range, hg]
          have e : (1 : Int) + ((n - 1 : Nat) : Int) = (n : Int) := by omega
          rw [e, evenIndex_last hr hnpos]
          have e2 : ((r.length : Int) - 1).toNat = r.length - 1 := by omega
          rw [e2]
          have : r.length - 1 < r.length := by omega
          simp [this]
        have hrmax : MaxOf (r[r.length - 1]'(by omega)) xs := by
          have hm := (hr3 _).mp (List.getElem_mem (show r.length - 1 < r.length by omega))
          refine ⟨(hmem _).mp hm.1, fun z hz => ?_⟩
          by_cases hzla : la < z
          · obtain ⟨k, hk, rfl⟩ := List.getElem_of_mem ((hr3 z).mpr ⟨(hmem z).mpr hz, hzla⟩)
            exact sorted_le (hr2.imp le_of_lt) (by omega) (by omega)
          · exact (not_lt.mp hzla).trans hm.2.le
        have cross : ∀ a ∈ qs, ∀ b ∈ rest, a < b := fun a ha b hb =>
          lt_of_le_of_lt (hq8 a ha) ((hr3 b).mp (hrestmem b hb)).2
        have hrestsorted : rest.Pairwise (· ≤ ·) := by
          rw [hrestdef, List.pairwise_map]
          apply List.Pairwise.imp_of_mem _ (irange_pairwise 1 (n : Int))
          intro i j hi' hj' hij
          rw [mem_irange] at hi' hj'
          obtain ⟨h, he⟩ := hgd i hi'.1 hi'.2
          obtain ⟨h', he'⟩ := hgd j hj'.1 hj'.2
          simp only [hg]; rw [he, he']
          apply sorted_le (hr2.imp le_of_lt)
          have := evenIndex_mono (K := K) hr hnpos hi'.1 hij.le
          omega
        refine ⟨qs ++ rest, by simp [hrestdef, hg], ?_⟩
        have hne' : rest ≠ [] := by intro h; rw [h] at hrestlen; simp at hrestlen; omega
        refine ⟨?_, ?_, ?_, ?_, ?_, fun h => absurd h hge, ?_⟩
        · rw [List.pairwise_append]
          exact ⟨hq2.imp le_of_lt, hrestsorted, fun a ha b hb => (cross a ha b hb).le⟩
        · intro z hz
          rcases List.mem_append.mp hz with hz | hz
          · exact hq3 z hz
          · exact (hmem z).mp ((hr3 z).mp (hrestmem z hz)).1
        · rw [List.length_append, hrestlen]; push_cast; omega
        · refine ⟨p, ?_, hmin⟩
          rw [List.head?_append, hq4]; rfl
        · refine ⟨_, ?_, hrmax⟩
          rw [List.getLast?_append, hrestlast]; rfl
        · intro hcardn
          rw [List.pairwise_append]
          refine ⟨hq2, ?_, cross⟩
          -- enough distinct values remain
          have hcount : xs.toFinset.card = qs.length + r.length := by
            have : xs.toFinset = (qs ++ r).toFinset := by
              ext z
              simp only [List.mem_toFinset, List.mem_append]
              constructor
              · intro hz
                by_cases hzla : la < z
                · exact Or.inr ((hr3 z).mpr ⟨(hmem z).mpr hz, hzla⟩)
                · exact Or.inl (hq9 z hz (not_lt.mp hzla))
              · rintro (hz | hz)
                · exact hq3 z hz
                · exact (hmem z).mp ((hr3 z).mp hz).1
            rw [this, card_of_strict, List.length_append]
            rw [List.pairwise_append]
            exact ⟨hq2, hr2, fun a ha b hb => lt_of_le_of_lt (hq8 a ha) ((hr3 b).mp hb).2⟩
          have hnr : n ≤ r.length := by omega
          rw [hrestdef, List.pairwise_map]
          apply List.Pairwise.imp_of_mem _ (irange_pairwise 1 (n : Int))
          intro i j hi' hj' hij
          rw [mem_irange] at hi' hj'
          obtain ⟨h, he⟩ := hgd i hi'.1 hi'.2
          obtain ⟨h', he'⟩ := hgd j hj'.1 hj'.2
          simp only [hg]; rw [he, he']
          have h5 := evenIndex_strict (K := K) hnpos hnr hi'.1 hij
          have h6 := evenIndex_nonneg (K := K) hr hnpos hi'.1
          exact List.pairwise_iff_getElem.mp hr2 _ _ h h' (by omega)
      · rw [if_neg (by simpa using hr)]
        have hr0 : r = [] := List.length_eq_zero_iff.mp (by omega)
        refine ⟨qs, rfl, hq2.imp le_of_lt, hq3, by omega, ⟨p, hq4, hmin⟩, ⟨la, hq5, ?_, ?_⟩, fun h => absurd h hge, fun _ => hq2⟩
        · exact hq3 _ (List.mem_of_getLast? hq5)
        · intro z hz
          by_contra hc
          have := (hr3 z).mpr ⟨(hmem z).mpr hz, not_le.mp hc⟩
          rw [hr0] at this; simp at this

end
end Gridpp
