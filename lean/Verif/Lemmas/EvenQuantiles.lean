import Verif.Lemmas.Quantile
import Verif.Lemmas.Interp

/-! Lemmas about `calc_even_quantiles`. -/

set_option linter.unusedSectionVars false

namespace Gridpp
open Fl Res Spec

section
variable {K : Type} [Field K] [LinearOrder K] [IsStrictOrderedRing K]

theorem uniqueRuns_spec (p : K) (t : List K) (hs : (p :: t).Pairwise (· ≤ ·)) :
    ∃ r : List K, uniqueRuns (fin p) (t.map fin) = r.map fin ∧ (p :: r).Pairwise (· < ·) ∧ (∀ z, z ∈ p :: r ↔ z ∈ p :: t) ∧
      r.length ≤ t.length := by
  induction t generalizing p with
  | nil => exact ⟨[], by simp [uniqueRuns]⟩
  | cons v t ih =>
    have hs' := hs
    rw [List.pairwise_cons] at hs
    obtain ⟨r, h1, h2, h3, h4⟩ := ih v hs.2
    have hpv : p ≤ v := hs.1 v (by simp)
    by_cases hv : v = p
    · subst hv
      refine ⟨r, by simp [uniqueRuns, h1], h2, ?_, by simp; omega⟩
      intro z; have := h3 z; simp only [List.mem_cons] at this ⊢; tauto
    · refine ⟨v :: r, by simp [uniqueRuns, h1, hv], ?_, ?_, by simp; omega⟩
      · have hlt : p < v := lt_of_le_of_ne hpv (Ne.symm hv)
        rw [List.pairwise_cons]
        refine ⟨fun z hz => ?_, h2⟩
        rw [List.pairwise_cons] at h2
        rcases List.mem_cons.mp hz with rfl | hz
        · exact hlt
        · exact hlt.trans (h2.1 z hz)
      · intro z; have := h3 z; simp only [List.mem_cons] at this ⊢; tauto

theorem countLower_spec (p : K) (t : List K) (hs : (p :: t).Pairwise (· ≤ ·)) :
    (countLower (fin p) ((p :: t).map fin) ≤ (p :: t).length) ∧
    (∀ h : countLower (fin p) ((p :: t).map fin) < (p :: t).length, p < (p :: t)[countLower (fin p) ((p :: t).map fin)]) ∧
    (∀ k, (h : k < (p :: t).length) → k < countLower (fin p) ((p :: t).map fin) → (p :: t)[k] = p) := by
  have key : ∀ t : List K, t.Pairwise (· ≤ ·) → (∀ z ∈ t, p ≤ z) →
      (countLower (fin p) (t.map fin) ≤ t.length) ∧
      (∀ h : countLower (fin p) (t.map fin) < t.length, p < t[countLower (fin p) (t.map fin)]) ∧
      (∀ k, (h : k < t.length) → k < countLower (fin p) (t.map fin) → t[k] = p) := by
    intro t
    induction t with
    | nil => intro _ _; simp [countLower]
    | cons v t ih =>
      intro hs hz
      rw [List.pairwise_cons] at hs
      obtain ⟨h1, h2, h3⟩ := ih hs.2 (fun z hz' => hz z (by simp [hz']))
      by_cases hv : v = p
      · have e : countLower (fin p) ((v :: t).map fin) = countLower (fin p) (t.map fin) + 1 := by
          simp [countLower, hv]
        rw [e]
        refine ⟨by simpa using h1, fun h => ?_, fun k hk hk' => ?_⟩
        · simpa using h2 (by simpa using h)
        · cases k with
          | zero => simpa using hv
          | succ k => simpa using h3 k (by simpa using hk) (by omega)
      · have e : countLower (fin p) ((v :: t).map fin) = 0 := by simp [countLower, hv]
        rw [e]
        refine ⟨by simp, fun h => ?_, fun k hk hk' => by omega⟩
        exact lt_of_le_of_ne (hz v (by simp)) (Ne.symm hv)
  apply key _ hs
  intro z hz
  rw [List.pairwise_cons] at hs
  rcases List.mem_cons.mp hz with rfl | hz
  · exact le_refl _
  · exact hs.1 z hz

theorem remainingUnique_spec (last : K) (t : List K) (hs : t.Pairwise (· ≤ ·)) :
    ∃ r : List K, remainingUnique (fin last) (t.map fin) = r.map fin ∧ r.Pairwise (· < ·) ∧ (∀ z, z ∈ r ↔ z ∈ t ∧ last < z) := by
  have key : ∀ (t acc : List K), t.Pairwise (· ≤ ·) → acc.Pairwise (· < ·) → (∀ a ∈ acc, ∀ b ∈ t, a ≤ b) →
      ∃ r : List K, (t.map fin).foldl (fun (acc : List (Fl K)) v =>
        if v.gt (fin last) && (match acc.getLast? with
          | none => true
          | some w => v.fne w) then acc ++ [v] else acc) (acc.map fin) = r.map fin ∧
        r.Pairwise (· < ·) ∧ (∀ z, z ∈ r ↔ z ∈ acc ∨ (z ∈ t ∧ last < z)) := by
    intro t
    induction t with
    | nil => intro acc _ ha _; exact ⟨acc, rfl, ha, by simp⟩
    | cons v t ih =>
      intro acc hs ha hle
      rw [List.pairwise_cons] at hs
      simp only [List.map_cons, List.foldl_cons]
      by_cases hgt : last < v
      · rcases List.eq_nil_or_concat acc with rfl | ⟨b, w, rfl⟩
        · obtain ⟨r, h1, h2, h3⟩ := ih [v] hs.2 (by simp) (by simpa using hs.1)
          refine ⟨r, ?_, h2, ?_⟩
          · simpa [hgt] using h1
          · intro z; rw [h3 z]; simp only [List.mem_cons, List.not_mem_nil]; constructor
            · rintro ((rfl | h) | ⟨h, h'⟩)
              · exact Or.inr ⟨Or.inl rfl, hgt⟩
              · exact absurd h id
              · exact Or.inr ⟨Or.inr h, h'⟩
            · rintro (h | ⟨rfl | h, h'⟩)
              · exact absurd h id
              · exact Or.inl (Or.inl rfl)
              · exact Or.inr ⟨h, h'⟩
        · by_cases hvw : v = w
          · obtain ⟨r, h1, h2, h3⟩ := ih (b.concat w) hs.2 ha (fun a ha' c hc => hle a ha' c (by simp [hc]))
            refine ⟨r, ?_, h2, ?_⟩
            · simpa [hgt, hvw] using h1
            · intro z; rw [h3 z]; simp only [List.mem_cons, List.concat_eq_append, List.mem_append]
              subst hvw
              constructor
              · rintro (h | ⟨h, h'⟩)
                · exact Or.inl h
                · exact Or.inr ⟨Or.inr h, h'⟩
              · rintro (h | ⟨rfl | h, h'⟩)
                · exact Or.inl h
                · exact Or.inl (Or.inr (Or.inl rfl))
                · exact Or.inr ⟨h, h'⟩
          · have hwv : w < v := lt_of_le_of_ne (hle w (by simp) v (by simp)) (Ne.symm hvw)
            have ha2 : ((b.concat w) ++ [v]).Pairwise (· < ·) := by
              rw [List.pairwise_append]
              refine ⟨ha, by simp, fun a ha' c hc => ?_⟩
              simp only [List.mem_cons, List.not_mem_nil, or_false] at hc
              subst hc
              rw [List.concat_eq_append, List.pairwise_append] at ha
              simp only [List.concat_eq_append, List.mem_append, List.mem_cons, List.not_mem_nil, or_false] at ha'
              rcases ha' with ha' | rfl
              · exact (ha.2.2 a ha' w (by simp)).trans hwv
              · exact hwv
            obtain ⟨r, h1, h2, h3⟩ := ih ((b.concat w) ++ [v]) hs.2 ha2 (by
              intro a ha' c hc
              rcases List.mem_append.mp ha' with ha' | ha'
              · exact hle a ha' c (by simp [hc])
              · simp only [List.mem_cons, List.not_mem_nil, or_false] at ha'
                subst ha'
                exact hs.1 c hc)
            refine ⟨r, ?_, h2, ?_⟩
            · simpa [hgt, hvw] using h1
            · intro z; rw [h3 z]; simp only [List.mem_cons, List.concat_eq_append, List.mem_append, List.not_mem_nil, or_false]
              constructor
              · rintro ((h | rfl) | ⟨h, h'⟩)
                · exact Or.inl h
                · exact Or.inr ⟨Or.inl rfl, hgt⟩
                · exact Or.inr ⟨Or.inr h, h'⟩
              · rintro (h | ⟨rfl | h, h'⟩)
                · exact Or.inl (Or.inl h)
                · exact Or.inl (Or.inr rfl)
                · exact Or.inr ⟨h, h'⟩
      · obtain ⟨r, h1, h2, h3⟩ := ih acc hs.2 ha (fun a ha' c hc => hle a ha' c (by simp [hc]))
        refine ⟨r, ?_, h2, ?_⟩
        · simpa [hgt] using h1
        · intro z; rw [h3 z]; simp only [List.mem_cons]; constructor
          · rintro (h | ⟨h, h'⟩)
            · exact Or.inl h
            · exact Or.inr ⟨Or.inr h, h'⟩
          · rintro (h | ⟨rfl | h, h'⟩)
            · exact Or.inl h
            · exact absurd h' hgt
            · exact Or.inr ⟨h, h'⟩
  obtain ⟨r, h1, h2, h3⟩ := key t [] hs (by simp) (by simp)
  exact ⟨r, h1, h2, by simpa using h3⟩

section floor
variable [FloorRing K]

/-- The index computed at util.cpp:323-324. -/
def evenIndex (R n : Nat) (i : Int) : Int :=
  if 0 ≤ (R : K) * ((i : K) / (n : K)) - 1 then ⌊(R : K) * ((i : K) / (n : K)) - 1⌋ else ⌈(R : K) * ((i : K) / (n : K)) - 1⌉

theorem evenIndex_eq_max {R n : Nat} (hR : 0 < R) (hn : 0 < n) {i : Int} (hi : 1 ≤ i) :
    evenIndex (K := K) R n i = max 0 ⌊(R : K) * ((i : K) / (n : K)) - 1⌋ := by
  have hRK : (0 : K) < R := by exact_mod_cast hR
  have hnK : (0 : K) < n := by exact_mod_cast hn
  have hiK : (1 : K) ≤ i := by exact_mod_cast hi
  unfold evenIndex
  set v : K := (R : K) * ((i : K) / (n : K)) - 1
  by_cases hv : 0 ≤ v
  · rw [if_pos hv, max_eq_right (Int.floor_nonneg.mpr hv)]
  · rw [if_neg hv]
    have h1 : -1 < v := by
      have : 0 < (R : K) * ((i : K) / (n : K)) := by positivity
      show -1 < (R : K) * ((i : K) / (n : K)) - 1
      linarith
    have h2 : ⌈v⌉ = 0 := by
      rw [Int.ceil_eq_iff]; push Not at hv; constructor
      · simpa using h1
      · simpa using hv.le
    have h3 : ⌊v⌋ < 0 := by rw [Int.floor_lt]; simpa using hv
    rw [h2, max_eq_left h3.le]

theorem evenIndex_mono {R n : Nat} (hR : 0 < R) (hn : 0 < n) {i j : Int} (hi : 1 ≤ i) (hij : i ≤ j) :
    evenIndex (K := K) R n i ≤ evenIndex (K := K) R n j := by
  rw [evenIndex_eq_max hR hn hi, evenIndex_eq_max hR hn (hi.trans hij)]
  apply max_le_max le_rfl
  apply Int.floor_mono
  have hnK : (0 : K) < n := by exact_mod_cast hn
  have : (i : K) ≤ j := by exact_mod_cast hij
  gcongr

theorem evenIndex_nonneg {R n : Nat} (hR : 0 < R) (hn : 0 < n) {i : Int} (hi : 1 ≤ i) :
    0 ≤ evenIndex (K := K) R n i := by
  rw [evenIndex_eq_max hR hn hi]; exact le_max_left _ _

theorem evenIndex_last {R n : Nat} (hR : 0 < R) (hn : 0 < n) : evenIndex (K := K) R n (n : Int) = (R : Int) - 1 := by
  rw [evenIndex_eq_max hR hn (by omega)]
  have hnK : (n : K) ≠ 0 := by exact_mod_cast hn.ne'
  have : (R : K) * (((n : Int) : K) / (n : K)) - 1 = (((R : Int) - 1 : Int) : K) := by
    push_cast; field_simp
  rw [this, Int.floor_intCast]
  omega

theorem evenIndex_lt {R n : Nat} (hR : 0 < R) (hn : 0 < n) {i : Int} (hi : 1 ≤ i) (hin : i ≤ n) :
    evenIndex (K := K) R n i < R := by
  have := evenIndex_mono (K := K) hR hn hi hin
  rw [evenIndex_last hR hn] at this
  omega

theorem evenIndex_strict {R n : Nat} (hn : 0 < n) (hRn : n ≤ R) {i j : Int} (hi : 1 ≤ i) (hij : i < j) :
    evenIndex (K := K) R n i < evenIndex (K := K) R n j := by
  have hR : 0 < R := by omega
  have hnK : (0 : K) < n := by exact_mod_cast hn
  have hRK : (n : K) ≤ R := by exact_mod_cast hRn
  have hiK : (1 : K) ≤ i := by exact_mod_cast hi
  have hijK : (i : K) + 1 ≤ j := by exact_mod_cast hij
  have h1 : (1 : K) ≤ (R : K) / n := by rw [le_div_iff₀ hnK]; linarith
  have e : ∀ k : K, (R : K) * (k / n) = R / n * k := by intro k; field_simp
  have h0 : 0 ≤ (R : K) * ((i : K) / (n : K)) - 1 := by rw [e]; nlinarith
  have h2 : (R : K) * ((i : K) / (n : K)) - 1 + 1 ≤ (R : K) * ((j : K) / (n : K)) - 1 := by
    rw [e, e]; nlinarith
  have h3 : 0 ≤ (R : K) * ((j : K) / (n : K)) - 1 := by linarith
  unfold evenIndex
  rw [if_pos h0, if_pos h3]
  have h4 := Int.floor_mono h2
  rw [Int.floor_add_one] at h4
  omega

/-- Description of the general branch (`3 ≤ num < size`). -/
theorem evenRest_eq {r : List K} (hr : 0 < r.length) {n : Nat} (hn : 0 < n) :
    mapM (fun i : Int => do
        let f : Fl K := Fl.ofInt i / Fl.ofInt (n : Int)
        let index ← Fl.truncInt (Fl.ofNat (r.map fin).length * f - 1)
        if index ≥ 0 then do
          assert (index < (r.map (fin : K → Fl K)).length)
          vget (r.map fin) index
        else Res.throw .runtimeError) (irange 1 (n : Int))
      = ok ((irange 1 (n : Int)).map fun i => fin (r.getD (evenIndex (K := K) r.length n i).toNat 0)) := by
  apply mapM_ok
  intro i hi
  rw [mem_irange] at hi
  have hnK : (((n : Int) : Int) : K) ≠ 0 := by push_cast; exact_mod_cast hn.ne'
  have hnn := evenIndex_nonneg (K := K) hr hn hi.1
  have hlt := evenIndex_lt (K := K) hr hn hi.1 hi.2
  obtain ⟨m, hm⟩ := Int.eq_ofNat_of_zero_le hnn
  have hmr : m < r.length := by omega
  have ht : Fl.truncInt (Fl.ofNat (r.map (fin : K → Fl K)).length * (Fl.ofInt i / Fl.ofInt (n : Int)) - 1 : Fl K) = ok (m : Int) := by
    simp only [ofInt_def, ofNat_def, fin_div_of_ne _ hnK, List.length_map, fin_mul, one_def, fin_sub, Fl.truncInt]
    rw [← hm]; unfold evenIndex; push_cast; rfl
  simp only [ht, ok_bind]
  have : (m : Int) ≥ 0 := by omega
  rw [if_pos this]
  have h2 : decide ((m : Int) < ((r.map (fin : K → Fl K)).length : Int)) = true := by simp; omega
  rw [h2, vget_eq_ok_of_lt (by simpa using hmr)]
  simp [hm, List.getElem?_eq_getElem hmr]

end floor
end
end Gridpp
