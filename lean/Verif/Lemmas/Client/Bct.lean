import Verif.Model.Client.Bct
import Verif.Spec.Bct
import Verif.Spec.Gaussian
import Verif.Lemmas.Client.Zaga
import Verif.Lemmas.Client.Gaussian

/-! # The calibrator bct: lemmas -/

set_option linter.unusedSectionVars false

namespace Gridpp.Client
open Fl hiding MV isValid
open Res Spec

section law
variable {K : Type} [Field K] [LinearOrder K] [IsStrictOrderedRing K] [LawfulExp K]

theorem boxCox_lt {nu x y : K} (hx : 0 < x) (h : x < y) : boxCox nu x < boxCox nu y := by
  have hlog := log_strictMono hx h
  unfold boxCox
  by_cases h0 : nu = 0
  · rw [if_pos h0, if_pos h0]; exact hlog
  · rw [if_neg h0, if_neg h0]
    rcases lt_or_gt_of_ne h0 with hn | hn
    · rw [div_lt_div_right_of_neg hn]
      have := exp_strictMono (mul_lt_mul_of_neg_left hlog hn)
      linarith
    · rw [div_lt_div_iff_of_pos_right hn]
      have := exp_strictMono (mul_lt_mul_of_pos_left hlog hn)
      linarith

/-- The inverse of the transformation. -/
theorem boxCox_pow {nu u : K} (h0 : nu ≠ 0) (hu : 0 < 1 + nu * u) : boxCox nu (realPow (1 + nu * u) (1 / nu)) = u := by
  unfold boxCox realPow
  rw [if_neg h0, LawfulExp.log_exp, ← mul_assoc, mul_one_div_cancel h0, one_mul, LawfulExp.exp_log _ hu]
  field_simp
  ring

theorem student_lt {T : K → K} (hT : ∀ x y, x < y → T x < T y) {x y : K} (h : T x < T y) : x < y := by
  by_contra hn
  rcases (not_lt.mp hn).lt_or_eq with h1 | h1
  · exact absurd h (not_lt.mpr (hT _ _ h1).le)
  · rw [h1] at h; exact absurd h (lt_irrefl _)

/-- A level belongs to one value only, and greater levels to greater values. -/
theorem truncated_lt {T : K → K} (hT : ∀ x y, x < y → T x < T y) (hr : ∀ x, 0 < T x ∧ T x < 1) {sigma nu z z' q q' : K}
    (h : TruncatedLevel T sigma nu z q) (h' : TruncatedLevel T sigma nu z' q') (hq : q < q') : z < z' := by
  apply student_lt hT
  rcases lt_trichotomy nu 0 with hn | hn | hn
  · rw [← h.1 hn, ← h'.1 hn, div_lt_div_iff_of_pos_right (hr _).1] at hq
    exact hq
  · rw [h.2.1 hn, h'.2.1 hn]; exact hq
  · rw [← h.2.2 hn, ← h'.2.2 hn, div_lt_div_iff_of_pos_right (by linarith [(hr (-(1 / (sigma * nu)))).2])] at hq
    linarith

end law

section mean
variable {K : Type} [Field K] [LinearOrder K] [IsStrictOrderedRing K]

theorem bctAdd_MV (l : List Nat) (v w : Nat → Fl K) (n : Nat) : ∃ k, l.foldl (fun s e => bctAdd (v e) (w e) s) (MV, n) = (MV, k) := by
  induction l generalizing n with
  | nil => exact ⟨n, rfl⟩
  | cons e t ih =>
    have : bctAdd (v e) (w e) ((MV : Fl K), n) = (MV, n) := by
      unfold bctAdd
      rw [isValid_false_iff.mpr not_present_MV, Bool.and_false]
      simp
    rw [List.foldl_cons, this]
    exact ih n

theorem bctAdd_missing (l : List Nat) {v : Nat → Fl K} (w : Nat → Fl K) (h : ∃ e ∈ l, ¬ Present (v e)) (s : Fl K × Nat) :
    ∃ k, l.foldl (fun s e => bctAdd (v e) (w e) s) s = (MV, k) := by
  induction l generalizing s with
  | nil => obtain ⟨e, he, -⟩ := h; cases he
  | cons e t ih =>
    rw [List.foldl_cons]
    by_cases he : Present (v e)
    · apply ih
      obtain ⟨d, hd, hn⟩ := h
      rcases List.mem_cons.mp hd with rfl | hd
      · exact absurd he hn
      · exact ⟨d, hd, hn⟩
    · have : bctAdd (v e) (w e) s = (MV, s.2) := by
        unfold bctAdd
        rw [isValid_false_iff.mpr he]
        simp
      rw [this]
      exact bctAdd_MV t v w _

theorem bctAdd_present (l : List Nat) {v w : Nat → Fl K} {g : Nat → K} (hv : ∀ e ∈ l, Present (v e)) (hw : ∀ e ∈ l, w e = fin (g e) ∧ 0 ≤ g e)
    {a : K} (ha : 0 ≤ a) (n : Nat) :
    l.foldl (fun s e => bctAdd (v e) (w e) s) (fin a, n) = (fin (a + (l.map g).sum), n + l.length) := by
  induction l generalizing a n with
  | nil => simp
  | cons e t ih =>
    obtain ⟨h1, h2⟩ := hw e (by simp)
    have : bctAdd (v e) (w e) (fin a, n) = (fin (a + g e), n + 1) := by
      unfold bctAdd
      rw [isValid_iff_present.mpr (hv e (by simp)), valid_nonneg ha, h1]
      simp
    rw [List.foldl_cons, this, ih (fun d hd => hv d (by simp [hd])) (fun d hd => hw d (by simp [hd])) (by linarith)]
    rw [List.map_cons, List.sum_cons, add_assoc, List.length_cons, Nat.add_assoc, Nat.add_comm 1]

/-- With values of either sign the sum may become -999 on the way. -/
theorem bctAdd_sum (l : List Nat) {v : Nat → Fl K} {g : Nat → K} (hv : ∀ e ∈ l, Present (v e)) (hw : ∀ e ∈ l, v e = fin (g e)) (a : K) (n : Nat) :
    (∃ k, l.foldl (fun s e => bctAdd (v e) (v e) s) (fin a, n) = (MV, k)) ∨
      l.foldl (fun s e => bctAdd (v e) (v e) s) (fin a, n) = (fin (a + (l.map g).sum), n + l.length) := by
  induction l generalizing a n with
  | nil => right; simp
  | cons e t ih =>
    rw [List.foldl_cons]
    by_cases ha : a = -999
    · left
      have : bctAdd (v e) (v e) ((fin a : Fl K), n) = (MV, n) := by
        have h : isValid (fin a : Fl K) = false := by rw [ha]; exact isValid_false_iff.mpr not_present_MV
        unfold bctAdd
        rw [h, Bool.and_false]
        simp
      rw [this]
      exact bctAdd_MV t v v n
    · have : bctAdd (v e) (v e) (fin a, n) = (fin (a + g e), n + 1) := by
        unfold bctAdd
        rw [isValid_iff_present.mpr (hv e (by simp)), valid_fin ha, hw e (by simp)]
        simp
      rw [this]
      rcases ih (fun d hd => hv d (by simp [hd])) (fun d hd => hw d (by simp [hd])) (a + g e) (n + 1) with h | h
      · exact Or.inl h
      · right
        rw [h, List.map_cons, List.sum_cons, add_assoc, List.length_cons, Nat.add_assoc, Nat.add_comm 1]

variable {Y X E : Nat} {f : FieldC K} {i j : Nat} {raw : Nat → Fl K}

theorem bctMean_eq (h : ∀ e < E, f.get i j e = ok (raw e)) :
    bctMean E f i j = ok (if isValid ((List.range E).foldl (fun s e => bctAdd (raw e) (raw e) s) ((fin 0 : Fl K), 0)).1 then
      ((List.range E).foldl (fun s e => bctAdd (raw e) (raw e) s) ((fin 0 : Fl K), 0)).1 /
        Fl.ofNat ((List.range E).foldl (fun s e => bctAdd (raw e) (raw e) s) ((fin 0 : Fl K), 0)).2
      else ((List.range E).foldl (fun s e => bctAdd (raw e) (raw e) s) ((fin 0 : Fl K), 0)).1,
      ((List.range E).foldl (fun s e => bctAdd (raw e) (raw e) s) ((fin 0 : Fl K), 0)).2) := by
  unfold bctMean
  rw [foldM_ok (g := fun s e => bctAdd (raw e) (raw e) s) (by
    intro s e he
    rw [h e (List.mem_range.mp he), ok_bind]), ok_bind]

theorem bctMean_missing (h : ∀ e < E, f.get i j e = ok (raw e)) (hm : ∃ e < E, ¬ Present (raw e)) : ∃ k, bctMean E f i j = ok (MV, k) := by
  obtain ⟨e, he, hn⟩ := hm
  obtain ⟨k, hk⟩ := bctAdd_missing (List.range E) (v := raw) raw ⟨e, List.mem_range.mpr he, hn⟩ (fin 0, 0)
  refine ⟨k, ?_⟩
  rw [bctMean_eq h, hk, isValid_false_iff.mpr not_present_MV]
  simp

theorem bctMean_present (hE : 0 < E) {r : Nat → K} (hr : ∀ e < E, raw e = fin (r e) ∧ 0 ≤ r e) (h : ∀ e < E, f.get i j e = ok (raw e)) :
    bctMean E f i j = ok (fin ((∑ e ∈ Finset.range E, r e) / (E : K)), E) := by
  have hp : ∀ e ∈ List.range E, Present (raw e) := by
    intro e he
    obtain ⟨h1, h2⟩ := hr e (List.mem_range.mp he)
    exact ⟨r e, h1, by intro h; rw [h] at h2; linarith⟩
  have hE' : (E : K) ≠ 0 := by exact_mod_cast hE.ne'
  have hs : (0 : K) + ((List.range E).map r).sum = ∑ e ∈ Finset.range E, r e := by rw [zero_add]; rfl
  have hs0 : 0 ≤ ∑ e ∈ Finset.range E, r e := Finset.sum_nonneg fun e he => (hr e (Finset.mem_range.mp he)).2
  rw [bctMean_eq h, bctAdd_present (List.range E) hp (fun e he => hr e (List.mem_range.mp he)) (le_refl _), hs]
  simp only [List.length_range, Nat.zero_add]
  rw [valid_nonneg hs0, ofNat_def, fin_div_of_ne _ hE']
  simp

/-- Values of either sign: the mean, or a missing value. -/
theorem bctMean_sum (hE : 0 < E) {r : Nat → K} (hr : ∀ e < E, raw e = fin (r e) ∧ r e ≠ -999) (h : ∀ e < E, f.get i j e = ok (raw e)) :
    (∃ k, bctMean E f i j = ok (MV, k)) ∨ bctMean E f i j = ok (fin ((∑ e ∈ Finset.range E, r e) / (E : K)), E) := by
  have hE' : (E : K) ≠ 0 := by exact_mod_cast hE.ne'
  have hs : (0 : K) + ((List.range E).map r).sum = ∑ e ∈ Finset.range E, r e := by rw [zero_add]; rfl
  have hMV : isValid (MV : Fl K) = false := isValid_false_iff.mpr not_present_MV
  rw [bctMean_eq h]
  rcases bctAdd_sum (List.range E) (v := raw) (g := r) (fun e he => ⟨r e, hr e (List.mem_range.mp he)⟩)
    (fun e he => (hr e (List.mem_range.mp he)).1) 0 0 with ⟨k, hk⟩ | hk
  · left
    exact ⟨k, by rw [hk, hMV]; simp⟩
  · rw [hk, hs]
    simp only [List.length_range, Nat.zero_add]
    by_cases h9 : ∑ e ∈ Finset.range E, r e = -999
    · left
      exact ⟨E, by rw [h9]; rw [show isValid (fin (-999) : Fl K) = false from hMV]; rfl⟩
    · right
      rw [valid_fin h9, ofNat_def, fin_div_of_ne _ hE']
      simp

theorem bctStd_present [LawfulSqrt K] (hE : 0 < E) {r : Nat → K} (hr : ∀ e < E, raw e = fin (r e) ∧ r e ≠ -999) {m : K} (hm : m ≠ -999)
    (h : ∀ e < E, f.get i j e = ok (raw e)) (hmean : (E : K) * m = ∑ e ∈ Finset.range E, r e) :
    ∃ s, bctStd E f i j (fin m) = ok (fin s) ∧ MeanAndSpread (Finset.range E) r m s := by
  have hE' : (0 : K) < (E : K) := by exact_mod_cast hE
  have hp : ∀ e ∈ List.range E, Present (raw e) := fun e he => ⟨r e, hr e (List.mem_range.mp he)⟩
  have hs : (0 : K) + ((List.range E).map fun e => (r e - m) * (r e - m)).sum = ∑ e ∈ Finset.range E, (r e - m) * (r e - m) := by rw [zero_add]; rfl
  have hs0 : 0 ≤ ∑ e ∈ Finset.range E, (r e - m) * (r e - m) := Finset.sum_nonneg fun e _ => mul_self_nonneg _
  have hd0 : 0 ≤ (∑ e ∈ Finset.range E, (r e - m) * (r e - m)) / (E : K) := div_nonneg hs0 hE'.le
  refine ⟨HasSqrt.sqrt ((∑ e ∈ Finset.range E, (r e - m) * (r e - m)) / (E : K)), ?_, ?_⟩
  · unfold bctStd
    rw [if_pos (valid_fin hm), foldM_ok (g := fun s e => bctAdd (raw e) ((raw e - fin m) * (raw e - fin m)) s) (by
      intro s e he
      rw [h e (List.mem_range.mp he), ok_bind]), ok_bind,
      bctAdd_present (List.range E) hp (w := fun e => (raw e - fin m) * (raw e - fin m)) (g := fun e => (r e - m) * (r e - m)) (by
        intro e he
        rw [(hr e (List.mem_range.mp he)).1, fin_sub, fin_mul]
        exact ⟨rfl, mul_self_nonneg _⟩) (le_refl _), hs]
    simp only [List.length_range, Nat.zero_add]
    rw [valid_nonneg hs0, ofNat_def, fin_div_of_ne _ hE'.ne']
    simp only [Fl.sqrt, if_true]
    rw [if_neg (not_lt.mpr hd0)]
  · refine ⟨by rw [Finset.card_range]; exact hmean, LawfulSqrt.sqrt_nonneg _ hd0, ?_⟩
    rw [LawfulSqrt.sqrt_mul_self _ hd0, Finset.card_range, mul_div_cancel₀ _ hE'.ne']

end mean

end Gridpp.Client
