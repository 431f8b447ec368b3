import Verif.Lemmas.EnsiEtkf

/-! The anti-extrapolation filter of the ensemble-based optimal interpolation, and the increments of the variants `ebe` and
`ebesc`, on data that are numbers. -/

set_option linter.unusedSectionVars false

namespace Gridpp
open Fl Res Matrix

section
variable {K : Type} [Field K] [LinearOrder K] [IsStrictOrderedRing K]

theorem multiLimit_fin (x lo hi : K) : multiLimit (fin x) (fin lo) (fin hi) =
    fin (if 0 < hi ∧ hi < x then hi else if hi < 0 ∧ 0 < x then 0 else if lo < 0 ∧ x < lo then lo
      else if 0 < lo ∧ x < 0 then 0 else x) := by
  simp only [multiLimit, zero_def, gt_fin, lt_fin, Bool.and_eq_true, decide_eq_true_eq]
  split_ifs <;> rfl

theorem inRange_iff {n : Nat} {d : Fin n → K} {lo hi : K} {a b : Fin n} (ha : lo = d a) (hb : hi = d b) (hlo : ∀ c, lo ≤ d c)
    (hhi : ∀ c, d c ≤ hi) (x : K) : Spec.InRange d x ↔ (0 ≤ x ∨ lo ≤ x) ∧ (x ≤ 0 ∨ x ≤ hi) := by
  unfold Spec.InRange
  constructor
  · rintro ⟨h1, h2⟩
    exact ⟨h1.imp id fun ⟨c, hc⟩ => (hlo c).trans hc, h2.imp id fun ⟨c, hc⟩ => hc.trans (hhi c)⟩
  · rintro ⟨h1, h2⟩
    exact ⟨h1.imp id fun h => ⟨a, ha ▸ h⟩, h2.imp id fun h => ⟨b, hb ▸ h⟩⟩

theorem gap_cases {n : Nat} {d : Fin n → K} {lo hi : K} {a b : Fin n} (ha : lo = d a) (hb : hi = d b) (hlo : ∀ c, lo ≤ d c)
    (hhi : ∀ c, d c ≤ hi) (x : K) : Spec.Gap d x ↔ (0 < x ∧ hi = 0) ∨ (x < 0 ∧ lo = 0) := by
  unfold Spec.Gap
  constructor
  · rintro (⟨h1, h2, c, hc⟩ | ⟨h1, h2, c, hc⟩)
    · exact Or.inl ⟨h1, le_antisymm (hb ▸ h2 b) (hc ▸ hhi c)⟩
    · exact Or.inr ⟨h1, le_antisymm (hc ▸ hlo c) (ha ▸ h2 a)⟩
  · rintro (⟨h1, h2⟩ | ⟨h1, h2⟩)
    · exact Or.inl ⟨h1, fun c => h2 ▸ hhi c, b, hb ▸ h2⟩
    · exact Or.inr ⟨h1, fun c => h2 ▸ hlo c, a, ha ▸ h2⟩

theorem clamped {n : Nat} (d : Fin n → K) (x lo hi : K) (a b : Fin n) (ha : lo = d a) (hb : hi = d b) (hlo : ∀ c, lo ≤ d c)
    (hhi : ∀ c, d c ≤ hi) :
    Spec.Clamped d x (if 0 < hi ∧ hi < x then hi else if hi < 0 ∧ 0 < x then 0 else if lo < 0 ∧ x < lo then lo
      else if 0 < lo ∧ x < 0 then 0 else x) := by
  have hlh : lo ≤ hi := by rw [ha]; exact hhi a
  have inr := inRange_iff ha hb hlo hhi
  have gap := gap_cases ha hb hlo hhi
  refine ⟨fun h => ?_, fun h => ?_, fun h v hv => ?_⟩
  · rw [gap] at h
    rcases h with ⟨h1, h2⟩ | ⟨h1, h2⟩
    · rw [if_neg (fun c => by linarith [c.1]), if_neg (fun c => by linarith [c.1]), if_neg (fun c => by linarith [c.1, c.2]),
        if_neg (fun c => by linarith [c.2])]
    · rw [if_neg (fun c => by linarith [c.1, c.2]), if_neg (fun c => by linarith [c.2]), if_neg (fun c => by linarith [c.1]),
        if_neg (fun c => by linarith [c.1])]
  · rw [gap] at h
    push Not at h
    rw [inr]
    split_ifs with h1 h2 h3 h4
    · exact ⟨Or.inl h1.1.le, Or.inr le_rfl⟩
    · exact ⟨Or.inl le_rfl, Or.inl le_rfl⟩
    · exact ⟨Or.inr le_rfl, Or.inl h3.1.le⟩
    · exact ⟨Or.inl le_rfl, Or.inl le_rfl⟩
    · push Not at h1 h2 h3 h4
      constructor
      · by_contra hc
        push Not at hc
        rcases lt_trichotomy lo 0 with h0 | h0 | h0
        · exact absurd (h3 h0) (not_le.mpr hc.2)
        · exact h.2 hc.1 h0
        · exact absurd (h4 h0) (not_le.mpr hc.1)
      · by_contra hc
        push Not at hc
        rcases lt_trichotomy hi 0 with h0 | h0 | h0
        · exact absurd (h2 h0) (not_le.mpr hc.1)
        · exact h.1 hc.1 h0
        · exact absurd (h1 h0) (not_le.mpr hc.2)
  · rw [inr] at hv
    split_ifs with h1 h2 h3 h4
    · have hvh : v ≤ hi := hv.2.elim (fun c => c.trans h1.1.le) id
      rw [abs_of_nonpos (by linarith [h1.2]), abs_of_nonpos (by linarith [h1.2])]
      linarith
    · have hvh : v ≤ 0 := hv.2.elim id (fun c => c.trans h2.1.le)
      rw [abs_of_nonpos (by linarith [h2.2]), abs_of_nonpos (by linarith [h2.2])]
      linarith
    · have hvh : lo ≤ v := hv.1.elim (fun c => h3.1.le.trans c) id
      rw [abs_of_nonneg (by linarith [h3.2]), abs_of_nonneg (by linarith [h3.2])]
      linarith
    · have hvh : 0 ≤ v := hv.1.elim id (fun c => h4.1.le.trans c)
      rw [abs_of_nonneg (by linarith [h4.2]), abs_of_nonneg (by linarith [h4.2])]
      linarith
    · rw [sub_self, abs_zero]; exact abs_nonneg _

/-- The filter of `ebe` and `ebesc`. -/
theorem multiLimit_clamped {m : Nat} (hm : 0 < m) (d : Fin m → K) (x : K) :
    ∃ inc, multiLimit (fin x) (armaMin (List.ofFn fun i => fin (d i))) (armaMax (List.ofFn fun i => fin (d i))) = fin inc ∧
      Spec.Clamped d x inc := by
  obtain ⟨a, ha1, ha2⟩ := armaMin_ofFn d hm
  obtain ⟨b, hb1, hb2⟩ := armaMax_ofFn d hm
  rw [ha1, hb1, multiLimit_fin]
  exact ⟨_, rfl, clamped d x _ _ a b rfl rfl ha2 hb2⟩

/-- The filter of `optimal_interpolation_ensi` and `utem`: the same, but with the number `t` that is found at `lY[e]`. -/
theorem ensiLimit_clamped {m n : Nat} (hm : 0 < m) (o q h : Fin m → K) (Y Z : Matrix (Fin m) (Fin n) K) (e : Nat) (t x inc : K)
    (ht : ensiElement (ensiRows o q h Y Z) e = fin t) :
    ∃ r, ensiLimit (ensiRows o q h Y Z) e (fin x) (fin inc) = fin (x + r) ∧ Spec.Clamped (fun i => o i - (t + h i)) (inc - x) r := by
  obtain ⟨a, ha1, ha2⟩ := armaMin_ofFn (fun i => o i - (t + h i)) hm
  obtain ⟨b, hb1, hb2⟩ := armaMax_ofFn (fun i => o i - (t + h i)) hm
  refine ⟨_, ?_, clamped _ (inc - x) _ _ a b rfl rfl ha2 hb2⟩
  have hd : (ensiRows o q h Y Z).map (fun r => r.obs - (ensiElement (ensiRows o q h Y Z) e + r.yhat)) =
      List.ofFn fun i => fin (o i - (t + h i)) := by
    rw [ht]
    unfold ensiRows
    rw [List.map_ofFn]
    congr 1
    funext i
    show fin (o i) - (fin t + fin (h i)) = _
    rw [fin_add, fin_sub]
  unfold ensiLimit
  simp only [hd, ha1, hb1, zero_def, fin_sub, gt_fin, lt_fin, Bool.and_eq_true, decide_eq_true_eq, fin_add]
  split_ifs <;> (congr 1; ring)

/-- The increments of `ebe` and `ebesc` for numbers: `c` are the correlations with the output point, `R` those between the
observations, `d i e` the innovations. -/
theorem multiIncrements_fin {A : Arma K} (hA : A.Lawful) {m : Nat} (hm : 0 < m) (n : Nat) (rows : List (MultiObs K)) (lr : List (Fl K))
    (R : List (List (Fl K))) (c ratio : Fin m → K) (M : Matrix (Fin m) (Fin m) K) (d : Fin m → Nat → K) (br : K) (extrap : Bool)
    (hrows : rows.length = m) (hlr : ∀ i : Fin m, lr.getD i nan = fin (c i)) (hR : ∀ i j : Fin m, ent R i j = fin (M i j))
    (hrat : ∀ i : Fin m, (rows.map MultiObs.ratio).getD i nan = fin (ratio i))
    (hd : ∀ e < n, (rows.map fun r => r.innov.getD e nan) = List.ofFn fun i => fin (d i e)) :
    ((M + diagonal ratio).det ≠ 0 → ∃ w : Fin m → K, w ᵥ* (M + diagonal ratio) = c ∧ ∃ inc : Nat → K,
      multiIncrements A n rows lr R (fin br) extrap = ok ((List.range n).map fun e => fin (inc e)) ∧
      ∀ e < n, (extrap = true → inc e = br * (w ⬝ᵥ fun i => d i e)) ∧
        (extrap = false → Spec.Clamped (fun i => d i e) (br * (w ⬝ᵥ fun i => d i e)) (inc e))) ∧
    ((M + diagonal ratio).det = 0 → multiIncrements A n rows lr R (fin br) extrap = .throw .runtimeError) := by
  have hmat : (tab rows.length rows.length fun i j => ent R i j + (if i = j then (rows.map MultiObs.ratio).getD i nan else 0)) =
      toRows (M + diagonal ratio) := by
    rw [hrows]
    refine tab_toRows fun i j => ?_
    rw [hR, hrat, Matrix.add_apply, diagonal_apply]
    by_cases hij : i = j
    · rw [if_pos hij, if_pos (by rw [hij]), fin_add]
    · rw [if_neg hij, if_neg (fun h => hij (Fin.ext h)), zero_def, fin_add]
  constructor
  · intro hdet
    have hu : IsUnit (M + diagonal ratio).det := isUnit_iff_ne_zero.mpr hdet
    refine ⟨c ᵥ* (M + diagonal ratio)⁻¹, ?_, ?_⟩
    · rw [Matrix.vecMul_vecMul, Matrix.nonsing_inv_mul _ hu, Matrix.vecMul_one]
    · have hk : ((List.range rows.length).map fun j => sumTo rows.length fun i => lr.getD i nan * ent (toRows (M + diagonal ratio)⁻¹) i j) =
          List.ofFn fun j => fin ((c ᵥ* (M + diagonal ratio)⁻¹) j) := by
        rw [hrows]
        apply List.ext_getElem
        · simp
        · intro j h1 h2
          have hj : j < m := by simpa using h1
          simp only [List.getElem_map, List.getElem_range, List.getElem_ofFn]
          rw [sumTo_fin (g := fun i => c i * (M + diagonal ratio)⁻¹ i ⟨j, hj⟩) (fun i => by
            have := ent_toRows (M + diagonal ratio)⁻¹ i ⟨j, hj⟩
            simp only at this
            rw [hlr, this, fin_mul])]
          rfl
      generalize hw : c ᵥ* (M + diagonal ratio)⁻¹ = w at hk ⊢
      have hraw : ∀ e < n, fin br * (sumTo rows.length fun i => (List.ofFn fun j => fin (w j)).getD i nan *
          (rows.map fun r => r.innov.getD e nan).getD i nan) = fin (br * (w ⬝ᵥ fun i => d i e)) := by
        intro e he
        rw [hd e he, hrows, sumTo_fin (g := fun i => w i * d i e) (fun i => by rw [getD_ofFn, getD_ofFn, fin_mul]), fin_mul]
        rfl
      have hone : ∀ e, ∃ v : K, e < n → (if extrap then fin br * (sumTo rows.length fun i => (List.ofFn fun j => fin (w j)).getD i nan *
            (rows.map fun r => r.innov.getD e nan).getD i nan) else
          multiLimit (fin br * (sumTo rows.length fun i => (List.ofFn fun j => fin (w j)).getD i nan *
            (rows.map fun r => r.innov.getD e nan).getD i nan)) (armaMin (rows.map fun r => r.innov.getD e nan))
            (armaMax (rows.map fun r => r.innov.getD e nan))) = fin v ∧ (extrap = true → v = br * (w ⬝ᵥ fun i => d i e)) ∧
          (extrap = false → Spec.Clamped (fun i => d i e) (br * (w ⬝ᵥ fun i => d i e)) v) := by
        intro e
        by_cases he : e < n
        · rw [hraw e he, hd e he]
          cases extrap with
          | true => exact ⟨_, fun _ => ⟨rfl, fun _ => rfl, fun h => by cases h⟩⟩
          | false =>
            obtain ⟨v, h1, h2⟩ := multiLimit_clamped hm (fun i => d i e) (br * (w ⬝ᵥ fun i => d i e))
            exact ⟨v, fun _ => ⟨by rw [← h1]; rfl, fun h => (by cases h), fun _ => h2⟩⟩
        · exact ⟨0, fun h => absurd h he⟩
      choose inc hinc using hone
      refine ⟨inc, ?_, fun e he => (hinc e he).2⟩
      unfold multiIncrements
      simp only [hmat, hA.inv_ok _ _ hdet, ok_bind, hk]
      congr 1
      exact List.map_congr_left fun e he => (hinc e (List.mem_range.mp he)).1
  · intro hdet
    unfold multiIncrements
    simp only [hmat, hA.inv_singular _ _ hdet]
    rfl

end
end Gridpp
