import Verif.Lemmas.Client.Bct
import Verif.Lemmas.Client.Recalibrate
import Verif.Props.Client.Gaussian

/-! # C125: the calibrator bct of the client -/

set_option linter.unusedSectionVars false

namespace Gridpp.Props
open Fl hiding MV isValid
open Res Client Spec

variable {K : Type} [Field K] [LinearOrder K] [IsStrictOrderedRing K] [FloorRing K] [LawfulSqrt K] [LawfulExp K]

/-- The parameters start with these seven numbers and none is missing. -/
structure Pars7 (p : List (Fl K)) (c : Fin 7 → K) : Prop where
  present : ∀ v ∈ p, Present v
  get : ∀ i : Fin 7, p[i.val]? = some (fin (c i))

omit [FloorRing K] [LawfulSqrt K] [LawfulExp K] in
theorem Pars7.all {p : List (Fl K)} {c : Fin 7 → K} (h : Pars7 p c) : p.all isValid = true := by
  rw [List.all_eq_true]
  exact fun v hv => isValid_iff_present.mpr (h.present v hv)

/-- The four numbers of the distribution: the median factor, the scale, the exponent and the degrees of freedom. -/
def bctMu (c : Fin 7 → K) (m : K) : K := c 0 + c 1 * m
def bctSigma (c : Fin 7 → K) (r : K) : K := HasExp.exp (c 2 + c 3 * r)
def bctNu (c : Fin 7 → K) (m : K) : K := c 4 + c 5 * m
def bctTau (c : Fin 7 → K) : K := HasExp.exp (min (c 6) 10)

omit [FloorRing K] [LawfulSqrt K] in
/-- The level in the t distribution and the threshold. -/
theorem bct_threshold {mk : Fl K → Dist K} {T : K → K → K} (hmk : StudentFamily mk T) {tau sigma nu q : K} (ht : 0 < tau) (hs : 0 < sigma)
    (hq0 : 0 < q) (hq1 : q < 1) :
    ∃ l z, bctLevel (mk (fin tau)) (fin q) (fin sigma) (fin nu) = ok (fin l) ∧ (mk (fin tau)).quantile (fin l) = ok (fin z) ∧
      TruncatedLevel (T tau) sigma nu z q ∧ (nu ≠ 0 → 0 < 1 + sigma * nu * z) := by
  rcases lt_trichotomy nu 0 with hn | hn | hn
  · have hsn : 0 < sigma * -nu := mul_pos hs (by linarith)
    obtain ⟨h1, h2⟩ := hmk.range tau (1 / (sigma * -nu)) ht
    have hl1 : q * T tau (1 / (sigma * -nu)) < 1 := by nlinarith
    obtain ⟨z, z1, z2⟩ := hmk.quantile tau (q * T tau (1 / (sigma * -nu))) ht (mul_pos hq0 h1) hl1
    refine ⟨_, z, ?_, z1, ⟨fun _ => ?_, fun h => absurd h hn.ne, fun h => absurd h (not_lt.mpr hn.le)⟩, fun _ => ?_⟩
    · unfold bctLevel
      rw [Fl.abs, abs_of_neg hn, fin_mul, one_def, fin_div_of_ne _ hsn.ne', hmk.cdf _ _ ht, ok_bind, zero_def, le_fin, decide_eq_true hn.le,
        if_pos rfl, fin_mul]
    · rw [z2, mul_div_assoc, div_self h1.ne', mul_one]
    · have : z < 1 / (sigma * -nu) := by
        apply student_lt (fun x y => hmk.mono tau x y ht)
        rw [z2]
        nlinarith
      rw [lt_div_iff₀ hsn] at this
      linarith
  · subst hn
    obtain ⟨z, z1, z2⟩ := hmk.quantile tau q ht hq0 hq1
    refine ⟨q, z, ?_, z1, ⟨fun h => absurd h (lt_irrefl _), fun _ => z2, fun h => absurd h (lt_irrefl _)⟩, fun h => absurd rfl h⟩
    unfold bctLevel
    have : (1 : Fl K) / (fin sigma * (fin 0 : Fl K).abs) = pinf := by
      rw [Fl.abs, abs_zero, fin_mul, mul_zero, one_def]
      show Fl.div _ _ = _
      simp [Fl.div, infOfSign]
    rw [this, hmk.infinity _ ht, ok_bind, zero_def, le_fin, decide_eq_true (le_refl _), if_pos rfl, fin_mul, mul_one]
  · have hsn : 0 < sigma * nu := mul_pos hs hn
    obtain ⟨h1, h2⟩ := hmk.range tau (1 / (sigma * nu)) ht
    have hsym := hmk.symmetric tau (1 / (sigma * nu)) ht
    have hp : 0 < 1 - (1 - q) * T tau (1 / (sigma * nu)) := by nlinarith
    obtain ⟨z, z1, z2⟩ := hmk.quantile tau (1 - (1 - q) * T tau (1 / (sigma * nu))) ht hp (by nlinarith)
    refine ⟨_, z, ?_, z1, ⟨fun h => absurd h (not_lt.mpr hn.le), fun h => absurd h hn.ne', fun _ => ?_⟩, fun _ => ?_⟩
    · unfold bctLevel
      rw [Fl.abs, abs_of_pos hn, fin_mul, one_def, fin_div_of_ne _ hsn.ne', hmk.cdf _ _ ht, ok_bind, zero_def, le_fin,
        decide_eq_false (not_le.mpr hn), if_neg (by simp), fin_sub, fin_mul, fin_sub]
    · rw [z2, hsym, div_eq_iff (by linarith)]
      ring
    · have : -(1 / (sigma * nu)) < z := by
        apply student_lt (fun x y => hmk.mono tau x y ht)
        rw [z2, hsym]
        nlinarith
      rw [neg_lt, lt_div_iff₀ hsn] at this
      linarith

omit [LawfulSqrt K] in
/-- The value for a threshold. -/
theorem bct_value (mu : K) {sigma nu z : K} (h : nu ≠ 0 → 0 < 1 + sigma * nu * z) :
    ∃ y, bctValue (fin mu) (fin sigma) (fin nu) (fin z) = fin (mu * y) ∧ 0 < y ∧ boxCox nu y = sigma * z := by
  by_cases h0 : nu = 0
  · subst h0
    refine ⟨HasExp.exp (sigma * z), ?_, LawfulExp.exp_pos _, ?_⟩
    · unfold bctValue
      simp [zero_def, fne_fin, fin_mul, Fl.exp]
    · unfold boxCox
      rw [if_pos rfl, LawfulExp.log_exp]
  · have hb := h h0
    have e : sigma * nu * z = nu * (sigma * z) := by ring
    refine ⟨realPow (1 + sigma * nu * z) (1 / nu), ?_, realPow_pos _ _, ?_⟩
    · unfold bctValue
      rw [zero_def, fne_fin, decide_eq_false h0, Bool.not_false, if_pos rfl, one_def, fin_mul, fin_mul, fin_add, fin_div_of_ne _ h0, pow_pos_base hb, fin_mul]
    · rw [e] at hb ⊢
      exact boxCox_pow h0 hb

omit [LawfulSqrt K] in
/-- **C125** (quantile). With seven parameters and a level strictly between 0 and 1, the value is `mu` times the number that has this level in
the Box-Cox t distribution. -/
theorem c125_quantile {mk : Fl K → Dist K} {T : K → K → K} (hmk : StudentFamily mk T) {p : List (Fl K)} {c : Fin 7 → K} (hp : Pars7 p c)
    {m s r q : K} (hm : 0 ≤ m) (hs : 0 ≤ s) (hr : ThirdRoot r s) (hq0 : 0 < q) (hq1 : q < 1) :
    ∃ y, bctInvCdf mk (fin q) (fin m) (fin s) p = ok (fin (bctMu c m * y)) ∧ BctLevel (T (bctTau c)) (bctSigma c r) (bctNu c m) y q := by
  have hsig : 0 < bctSigma c r := LawfulExp.exp_pos _
  have htau : 0 < bctTau c := LawfulExp.exp_pos _
  obtain ⟨l, z, h1, h2, h3, h4⟩ := bct_threshold hmk (nu := bctNu c m) htau hsig hq0 hq1
  obtain ⟨y, y1, y2, y3⟩ := bct_value (bctMu c m) h4
  refine ⟨y, ?_, y2, z, y3, h3⟩
  have e0 := parAt_of_get (hp.get 0)
  have e1 := parAt_of_get (hp.get 1)
  have e2 := parAt_of_get (hp.get 2)
  have e3 := parAt_of_get (hp.get 3)
  have e4 := parAt_of_get (hp.get 4)
  have e5 := parAt_of_get (hp.get 5)
  have e6 := parAt_of_get (hp.get 6)
  simp only [Fin.isValue, Fin.val_zero, Fin.val_one, Fin.val_two] at e0 e1 e2
  have e3' : parAt p 3 = ok (fin (c 3)) := e3
  have e4' : parAt p 4 = ok (fin (c 4)) := e4
  have e5' : parAt p 5 = ok (fin (c 5)) := e5
  have e6' : parAt p 6 = ok (fin (c 6)) := e6
  have hg : Fl.exp (if (fin (c 6) : Fl K).gt (fin 10) then fin 10 else fin (c 6)) = fin (bctTau c) := by
    unfold bctTau
    rw [gt_fin]
    by_cases h : 10 < c 6
    · rw [decide_eq_true h, if_pos rfl, min_eq_right h.le]; rfl
    · rw [decide_eq_false h, if_neg (by simp), min_eq_left (not_lt.mp h)]; rfl
  have hmu : (fin (c 0) + fin (c 1) * fin m : Fl K) = fin (bctMu c m) := rfl
  have hnu : (fin (c 4) + fin (c 5) * fin m : Fl K) = fin (bctNu c m) := rfl
  have hsg : Fl.exp (fin (c 2) + fin (c 3) * fin r : Fl K) = fin (bctSigma c r) := rfl
  unfold bctInvCdf
  rw [valid_nonneg hm, valid_nonneg hs, hp.all, thirdRoot_pow hr]
  simp only [zero_def, one_def, lt_fin, ge_fin, feq_fin, not_lt.mpr hq0.le, not_le.mpr hq1, not_lt.mpr hm, not_lt.mpr hs, hq0.ne', decide_false,
    Bool.or_false, Bool.not_true, Bool.false_eq_true, if_false]
  simp only [e0, e1, e2, e3', e4', e5', e6', ok_bind]
  rw [hg, hmu, hnu, hsg, h1, ok_bind, h2, ok_bind, y1]
  by_cases h : bctMu c m * y = -999
  · rw [h]
    have : isValid (fin (-999) : Fl K) = false := isValid_false_iff.mpr not_present_MV
    rw [this]
    rfl
  · rw [valid_fin h]
    simp

omit [FloorRing K] [LawfulSqrt K] in
/-- **C125** (order). A greater level has a greater value. -/
theorem c125_level_lt {mk : Fl K → Dist K} {T : K → K → K} (hmk : StudentFamily mk T) {tau sigma nu y y' q q' : K} (ht : 0 < tau) (hs : 0 < sigma)
    (h : BctLevel (T tau) sigma nu y q) (h' : BctLevel (T tau) sigma nu y' q') (hq : q < q') : y < y' := by
  obtain ⟨h0, z, h1, h2⟩ := h
  obtain ⟨h0', z', h1', h2'⟩ := h'
  have hz := truncated_lt (fun x y => hmk.mono tau x y ht) (fun x => hmk.range tau x ht) h2 h2' hq
  by_contra hn
  rcases (not_lt.mp hn).lt_or_eq with hl | hl
  · have := boxCox_lt (nu := nu) h0' hl
    rw [h1, h1'] at this
    have := mul_lt_mul_of_pos_left hz hs
    linarith
  · rw [hl] at h1'
    rw [h1] at h1'
    exact absurd (mul_left_cancel₀ hs.ne' h1') hz.ne

omit [FloorRing K] [LawfulSqrt K] in
/-- A level has one value only. -/
theorem c125_level_unique {mk : Fl K → Dist K} {T : K → K → K} (hmk : StudentFamily mk T) {tau sigma nu y y' q : K} (ht : 0 < tau)
    (h : BctLevel (T tau) sigma nu y q) (h' : BctLevel (T tau) sigma nu y' q) : y = y' := by
  obtain ⟨h0, z, h1, h2⟩ := h
  obtain ⟨h0', z', h1', h2'⟩ := h'
  have hT : ∀ x y, T tau x = T tau y → x = y := by
    intro x y h
    rcases lt_trichotomy x y with hl | hl | hl
    · exact absurd h (hmk.mono tau _ _ ht hl).ne
    · exact hl
    · exact absurd h (hmk.mono tau _ _ ht hl).ne'
  have hz : z = z' := by
    apply hT
    rcases lt_trichotomy nu 0 with hn | hn | hn
    · have a := h2.1 hn
      rw [← h2'.1 hn, div_left_inj' (hmk.range tau _ ht).1.ne'] at a
      exact a
    · rw [h2.2.1 hn, h2'.2.1 hn]
    · have a := h2.2.2 hn
      rw [← h2'.2.2 hn, div_left_inj' (by linarith [(hmk.range tau (-(1 / (sigma * nu))) ht).2])] at a
      linarith
  rcases lt_trichotomy y y' with hl | hl | hl
  · have := boxCox_lt (nu := nu) h0 hl
    rw [h1, h1', hz] at this
    exact absurd this (lt_irrefl _)
  · exact hl
  · have := boxCox_lt (nu := nu) h0' hl
    rw [h1, h1', hz] at this
    exact absurd this (lt_irrefl _)

omit [LawfulSqrt K] in
/-- **C125** (missing values). Missing or negative predictors, missing parameters and a level outside of [0, 1) give a missing value. -/
theorem c125_missing (mk : Fl K → Dist K) (q mean std : Fl K) (p : List (Fl K)) (h : (∃ v ∈ p, ¬ Present v) ∨ ¬ Present mean ∨
    ¬ Present std ∨ (∃ m, mean = fin m ∧ m < 0) ∨ (∃ s, std = fin s ∧ s < 0) ∨ ∃ x, q = fin x ∧ (x < 0 ∨ 1 ≤ x)) :
    bctInvCdf mk q mean std p = ok MV := by
  unfold bctInvCdf
  by_cases c1 : (q.lt 0 || q.ge 1) = true
  · rw [if_pos c1]
  rw [if_neg c1]
  by_cases c2 : (!isValid mean || mean.lt 0 || !isValid std || std.lt 0) = true
  · rw [if_pos c2]
  rw [if_neg c2]
  by_cases c4 : (!p.all isValid) = true
  · rw [if_pos c4]
  exfalso
  simp only [Bool.or_eq_true, not_or, Bool.not_eq_true', Bool.not_eq_false] at c1 c2 c4
  rcases h with ⟨v, hv, hn⟩ | hn | hn | ⟨m, rfl, hm⟩ | ⟨s, rfl, hs⟩ | ⟨x, rfl, hx⟩
  · exact absurd (isValid_iff_present.mp (List.all_eq_true.mp c4 v hv)) hn
  · exact absurd (isValid_iff_present.mp c2.1.1.1) hn
  · exact absurd (isValid_iff_present.mp c2.1.2) hn
  · exact absurd (by simpa [zero_def, lt_fin] using hm) c2.1.1.2
  · exact absurd (by simpa [zero_def, lt_fin] using hs) c2.2
  · rcases hx with hx | hx
    · exact absurd (by simpa [zero_def, lt_fin] using hx) c1.1
    · exact absurd (by simpa [one_def, ge_fin] using hx) c1.2

omit [LawfulSqrt K] in
/-- **C125** (level 0). The value is 0, whatever the parameters are, even if there are none. -/
theorem c125_level_zero (mk : Fl K → Dist K) {m s : K} (hm : 0 ≤ m) (hs : 0 ≤ s) {p : List (Fl K)} (hp : ∀ v ∈ p, Present v) :
    bctInvCdf mk (fin 0) (fin m) (fin s) p = ok (fin 0) := by
  have hall : p.all isValid = true := by
    rw [List.all_eq_true]
    exact fun v hv => isValid_iff_present.mpr (hp v hv)
  unfold bctInvCdf
  rw [valid_nonneg hm, valid_nonneg hs, hall]
  simp [zero_def, one_def, lt_fin, ge_fin, feq_fin, not_lt.mpr hm, not_lt.mpr hs]

omit [LawfulSqrt K] in
/-- Fewer than seven parameters, none of them missing, end the program. -/
theorem c125_few (mk : Fl K → Dist K) {p : List (Fl K)} (hp : ∀ v ∈ p, Present v) (hl : p.length < 7) {m s q : K} (hm : 0 ≤ m)
    (hs : 0 ≤ s) (hq0 : 0 < q) (hq1 : q < 1) : bctInvCdf mk (fin q) (fin m) (fin s) p = .abort := by
  have hall : p.all isValid = true := by
    rw [List.all_eq_true]
    exact fun v hv => isValid_iff_present.mpr (hp v hv)
  have hpar : ∀ i, parAt p i = .abort ∨ ∃ v, parAt p i = ok v := by
    intro i
    by_cases h : i < p.length
    · exact Or.inr ⟨_, parAt_of_get (List.getElem?_eq_getElem h)⟩
    · left; unfold parAt; rw [if_pos (by omega)]; rfl
  have h6 : parAt p 6 = .abort := by unfold parAt; rw [if_pos (by omega)]; rfl
  unfold bctInvCdf
  rw [valid_nonneg hm, valid_nonneg hs, hall]
  simp only [zero_def, one_def, lt_fin, ge_fin, feq_fin, not_lt.mpr hq0.le, not_le.mpr hq1, not_lt.mpr hm, not_lt.mpr hs, hq0.ne', decide_false,
    Bool.or_false, Bool.not_true, Bool.false_eq_true, if_false]
  rcases hpar 0 with h | ⟨v0, h⟩ <;> rw [h]
  · rfl
  rcases hpar 1 with h | ⟨v1, h⟩ <;> rw [ok_bind, h]
  · rfl
  rcases hpar 2 with h | ⟨v2, h⟩ <;> rw [ok_bind] <;> simp only [h]
  · rfl
  rcases hpar 3 with h | ⟨v3, h⟩ <;> rw [ok_bind, h]
  · rfl
  rcases hpar 4 with h | ⟨v4, h⟩ <;> rw [ok_bind] <;> simp only [h]
  · rfl
  rcases hpar 5 with h | ⟨v5, h⟩ <;> rw [ok_bind, h]
  · rfl
  rw [ok_bind]
  simp only [h6]
  rfl

/-- Parameters the calibrator can use: one is missing or there are seven. -/
def BctPars (p : List (Fl K)) : Prop := (∃ v ∈ p, ¬ Present v) ∨ ∃ c, Pars7 p c

omit [LawfulSqrt K] in
theorem bctInvCdf_total {mk : Fl K → Dist K} {T : K → K → K} (hmk : StudentFamily mk T) {p : List (Fl K)} (hp : BctPars p)
    {m s : K} (hm : 0 ≤ m) (hs : 0 ≤ s) {q : K} (hq0 : 0 < q) (hq1 : q < 1) : ∃ w, bctInvCdf mk (fin q) (fin m) (fin s) p = ok w := by
  rcases hp with hp | ⟨c, hp⟩
  · exact ⟨MV, c125_missing mk _ _ _ _ (Or.inl hp)⟩
  · obtain ⟨r, hr, -⟩ := pow_third hs
    obtain ⟨y, hy, -⟩ := c125_quantile hmk hp hm hs hr hq0 hq1
    exact ⟨_, hy⟩

omit [LawfulSqrt K] in
/-- **C125** (sign) is false: if `a + b * mean` is negative, all values are negative. -/
theorem c125_negative_false {mk : Fl K → Dist K} {T : K → K → K} (hmk : StudentFamily mk T) {p : List (Fl K)} {c : Fin 7 → K} (hp : Pars7 p c)
    {m s q : K} (hm : 0 ≤ m) (hs : 0 ≤ s) (hq0 : 0 < q) (hq1 : q < 1) (hmu : bctMu c m < 0) :
    ∃ v < 0, bctInvCdf mk (fin q) (fin m) (fin s) p = ok (fin v) := by
  obtain ⟨r, hr, -⟩ := pow_third hs
  obtain ⟨y, hy, h0, -⟩ := c125_quantile hmk hp hm hs hr hq0 hq1
  exact ⟨_, mul_neg_of_neg_of_pos hmu h0, hy⟩

/-! ### The ensemble -/

/-- What becomes of the members `raw` of one grid point: nothing if one is missing or the mean is negative. Else, if no
member is negative, the predictors are the mean, but not more than 100,
and the standard deviation; the quantiles `w` of the levels (e + 1/2) / E take the places of the members. -/
def BctCellOut (mk : Fl K → Dist K) (p : List (Fl K)) (E : Nat) (raw out : Nat → Fl K) : Prop :=
  ((∃ e < E, ¬ Present (raw e)) → ∀ e < E, out e = raw e) ∧
  ∀ (r : Nat → K) (m s : K), (∀ e < E, raw e = fin (r e) ∧ r e ≠ -999) → MeanAndSpread (Finset.range E) r m s →
    (m < 0 → ∀ e < E, out e = raw e) ∧
    ((∀ e < E, 0 ≤ r e) → ∃ w, (∀ e < E, bctInvCdf mk (fin (((e : K) + 1 / 2) / (E : K))) (fin (min m 100)) (fin s) p = ok (w e)) ∧
      Recalibrated E raw w out)

omit [FloorRing K] [LawfulSqrt K] [LawfulExp K] in
theorem bctLimit_fin (m : K) : bctLimit (fin m) = fin (min m 100) := by
  unfold bctLimit
  rw [gt_fin]
  by_cases h : 100 < m
  · rw [decide_eq_true h, if_pos rfl, min_eq_right h.le]
  · rw [decide_eq_false h, if_neg (by simp), min_eq_left (not_lt.mp h)]

theorem bct_cell {mk : Fl K → Dist K} {T : K → K → K} (hmk : StudentFamily mk T) (A : Arma K) (hA : Arma.Lawful A)
    {Y X E : Nat} (hE : 0 < E) {p : List (Fl K)} (hp : BctPars p) {f : FieldC K} (hf : Sized Y X E f) {i j : Nat} (hi : i < Y) (hj : j < X)
    {raw : Nat → Fl K} (hraw : ∀ e < E, f.get i j e = ok (raw e)) :
    ∃ g out, bctCell mk A E p f i j = ok g ∧ Sized Y X E g ∧ (∀ e < E, g.get i j e = ok (out e)) ∧
      BctCellOut mk p E raw out ∧ ∀ y' x', ¬ (y' = i ∧ x' = j) → g.get y' x' = f.get y' x' := by
  obtain ⟨l, l1, l2, l3⟩ := hf.ens hi hj hE
  have hl : l = (List.range E).map raw := map_range_getElem? l2 fun e he => (l3 e _).mpr (hraw e he)
  subst hl
  have hMV : isValid (MV : Fl K) = false := isValid_false_iff.mpr not_present_MV
  obtain ⟨g0, g01, g02, g03, g04⟩ := putMembers_spec hi hj (vals := (List.range E).map raw) (by simp) hf
  have hget0 : ∀ e < E, g0.get i j e = ok (raw e) := fun e he => g03 e _ (by simp [he])
  have hkeep : ∀ k v, isValid v = false → bctMean E f i j = ok (v, k) → bctCell mk A E p f i j = ok g0 := by
    intro k v hv hk
    unfold bctCell bctStd
    rw [hk, ok_bind]
    simp only [hv, Bool.false_eq_true, if_false, ok_bind, l1, Bool.false_and]
    exact g01
  by_cases hmiss : ∃ e < E, ¬ Present (raw e)
  · obtain ⟨k, hk⟩ := bctMean_missing hraw hmiss
    refine ⟨g0, raw, hkeep k _ hMV hk, g02, hget0, ⟨fun _ _ _ => rfl, fun r m s h _ => ?_⟩, g04⟩
    obtain ⟨e, he, hn⟩ := hmiss
    exact absurd ⟨r e, h e he⟩ hn
  · have hval : ∀ e, ∃ q, e < E → raw e = fin q ∧ q ≠ -999 := by
      intro e
      by_cases he : e < E
      · have : Present (raw e) := by
          by_contra hn
          exact hmiss ⟨e, he, hn⟩
        obtain ⟨q, hq⟩ := this
        exact ⟨q, fun _ => hq⟩
      · exact ⟨0, fun h => absurd h he⟩
    choose r hr using hval
    have hE' : (0 : K) < (E : K) := by exact_mod_cast hE
    set m := (∑ e ∈ Finset.range E, r e) / (E : K) with hmdef
    have hEm : (E : K) * m = ∑ e ∈ Finset.range E, r e := by rw [hmdef, mul_div_cancel₀ _ hE'.ne']
    have hr' : ∀ r' : Nat → K, (∀ e < E, raw e = fin (r' e) ∧ r' e ≠ -999) → ∀ e ∈ Finset.range E, r' e = r e := by
      intro r' h e he
      have := (h e (Finset.mem_range.mp he)).1
      rw [(hr e (Finset.mem_range.mp he)).1, Fl.fin.injEq] at this
      exact this.symm
    have hm' : ∀ (r' : Nat → K) (m' s' : K), (∀ e < E, raw e = fin (r' e) ∧ r' e ≠ -999) → MeanAndSpread (Finset.range E) r' m' s' →
        m' = m ∧ MeanAndSpread (Finset.range E) r m' s' := by
      intro r' m' s' h h2
      have h3 : MeanAndSpread (Finset.range E) r m' s' :=
        ⟨by rw [h2.mean]; exact Finset.sum_congr rfl (hr' r' h), h2.nonneg, by
          rw [h2.spread]; exact Finset.sum_congr rfl fun e he => by rw [hr' r' h e he]⟩
      refine ⟨?_, h3⟩
      have := h3.mean
      rw [Finset.card_range, ← hEm] at this
      exact mul_left_cancel₀ hE'.ne' this
    by_cases hkept : ∃ k v, isValid v = false ∧ bctMean E f i j = ok (v, k)
    · obtain ⟨k, v, hv, hk⟩ := hkept
      refine ⟨g0, raw, hkeep k v hv hk, g02, hget0, ⟨fun _ _ _ => rfl, fun r' m' s' h _ => ⟨fun _ _ _ => rfl, fun hpos => ?_⟩⟩, g04⟩
      have := bctMean_present hE (r := r') (fun e he => ⟨(h e he).1, hpos e he⟩) hraw
      rw [hk, Res.ok.injEq, Prod.mk.injEq] at this
      rw [this.1, valid_nonneg (div_nonneg (Finset.sum_nonneg fun e he => hpos e (Finset.mem_range.mp he)) hE'.le)] at hv
      exact absurd hv (by simp)
    · have hmean : bctMean E f i j = ok (fin m, E) := by
        rcases bctMean_sum hE hr hraw with ⟨k, hk⟩ | hk
        · exact absurd ⟨k, MV, hMV, hk⟩ hkept
        · exact hk
      have hm9 : m ≠ -999 := by
        intro h
        exact hkept ⟨E, fin m, by rw [h]; exact hMV, hmean⟩
      obtain ⟨s, hs, hms⟩ := bctStd_present hE (f := f) (i := i) (j := j) (raw := raw) (r := r) hr hm9 hraw hEm
      have hinv : ∀ e, ∃ w, e < E → bctInvCdf mk (quantileLevel E e) (fin (min m 100)) (fin s) p = ok w ∧ (m < 0 → w = MV) := by
        intro e
        by_cases he : e < E
        · obtain ⟨q, hq, -, h0, h1⟩ := quantileLevel_eq (K := K) he
          by_cases hm0 : m < 0
          · refine ⟨MV, fun _ => ⟨c125_missing mk _ _ _ _ (Or.inr (Or.inr (Or.inr (Or.inl ⟨min m 100, rfl, ?_⟩)))), fun _ => rfl⟩⟩
            exact lt_of_le_of_lt (min_le_left _ _) hm0
          · obtain ⟨w, hw⟩ := bctInvCdf_total hmk hp (le_min (not_lt.mp hm0) (by norm_num : (0 : K) ≤ 100)) hms.nonneg h0 h1
            exact ⟨w, fun _ => ⟨by rw [hq]; exact hw, fun h => absurd h hm0⟩⟩
        · exact ⟨MV, fun h => absurd h he⟩
      choose w hw using hinv
      obtain ⟨g, out, g1, g2, g3, g4, g5⟩ := recalibrate_spec A hA hi hj hE (raw := raw) (w := w)
        (inv := fun q => bctInvCdf mk q (fin (min m 100)) (fin s) p) (fun e he => (hw e he).1) hf
      refine ⟨g, out, ?_, g2, g3, ⟨fun h => absurd h hmiss, fun r' m' s' h1 h2 => ?_⟩, g5⟩
      · unfold bctCell
        rw [hmean, ok_bind]
        simp only
        rw [hs, ok_bind, l1, ok_bind, valid_fin hm9, valid_nonneg hms.nonneg, decide_eq_true hE, bctLimit_fin]
        exact g1
      · obtain ⟨hmm, h2'⟩ := hm' r' m' s' h1 h2
        have hss := (meanAndSpread_unique (by rw [Finset.card_range]; exact hE) h2' hms).2
        rw [hmm, hss]
        refine ⟨fun hm0 => ?_, fun _ => ⟨w, fun e he => ?_, g4⟩⟩
        · rcases g4 with ⟨-, ho⟩ | ⟨hn, -, -⟩ | ⟨_, v, _, -, hv, -, -⟩
          · exact ho
          · exact absurd (hn 0 hE) (by rw [(hw 0 hE).2 hm0]; exact not_present_MV)
          · exact absurd (show Present (w 0) from ⟨v 0, hv 0 hE⟩) (by rw [(hw 0 hE).2 hm0]; exact not_present_MV)
        · rw [← (hw e he).1]
          obtain ⟨q, hq, hq', -⟩ := quantileLevel_eq (K := K) he
          rw [hq, hq']

/-- **C125** (ensemble). Each grid point is calibrated by itself. -/
theorem c125_ensemble {mk : Fl K → Dist K} {T : K → K → K} (hmk : StudentFamily mk T) (A : Arma K) (hA : Arma.Lawful A)
    {Y X E : Nat} (hE : 0 < E) {par : Nat → Nat → Nat → List (Fl K)} {fields : List (FieldC K)} (hs : Series Y X E fields)
    (hp : ∀ t < fields.length, ∀ y < Y, ∀ x < X, BctPars (par t y x)) :
    ∃ out, bctCore mk A Y X E par fields = ok out ∧ out.length = fields.length ∧ Series Y X E out ∧
      ∀ t < fields.length, ∀ y < Y, ∀ x < X, ∃ raw new, (∀ e < E, At fields t y x e (raw e)) ∧ (∀ e < E, At out t y x e (new e)) ∧
        BctCellOut mk (par t y x) E raw new := by
  obtain ⟨out, h1, h2, h3⟩ := eachTime_spec (fields := fields)
    (body := fun t f => Res.omp (FieldC.forCells Y X (fun f i j => bctCell mk A E (par t i j) f i j) f))
    (P := fun t f g => Sized Y X E g ∧ ∀ y < Y, ∀ x < X, ∃ raw new, (∀ e < E, f.get y x e = ok (raw e)) ∧ (∀ e < E, g.get y x e = ok (new e)) ∧
      BctCellOut mk (par t y x) E raw new) (by
      intro t f hf
      have ht := (List.getElem?_eq_some_iff.mp hf).1
      obtain ⟨out, h1, h2, h3⟩ := forCells_spec (Y := Y) (X := X) (E := E) (fun f i j => bctCell mk A E (par t i j) f i j)
        (fun y x u v => ∃ raw new, (∀ e < E, u e = ok (raw e)) ∧ (∀ e < E, v e = ok (new e)) ∧ BctCellOut mk (par t y x) E raw new) (by
          intro f hf i hi j hj
          have hex : ∀ e, ∃ v, e < E → f.get i j e = ok v := by
            intro e
            by_cases he : e < E
            · obtain ⟨v, hv⟩ := hf.exists_get hi hj he
              exact ⟨v, fun _ => hv⟩
            · exact ⟨MV, fun h => absurd h he⟩
          choose raw hraw using hex
          obtain ⟨g, new, g1, g2, g3, g4, g5⟩ := bct_cell hmk A hA hE (hp t ht i hi j hj) hf hi hj hraw
          exact ⟨g, g1, g2, ⟨raw, new, hraw, g3, g4⟩, g5⟩) f (hs f (List.mem_of_getElem? hf))
      exact ⟨out, by rw [h1]; rfl, h2, h3⟩)
  refine ⟨out, h1, h2, ?_, ?_⟩
  · intro g hg
    obtain ⟨t, ht, rfl⟩ := List.mem_iff_getElem.mp hg
    obtain ⟨g', g1, g2, -⟩ := h3 t _ (List.getElem?_eq_getElem (by omega))
    rw [List.getElem?_eq_getElem ht, Option.some.injEq] at g1
    rw [g1]; exact g2
  · intro t ht y hy x hx
    obtain ⟨g, g1, g2, g3⟩ := h3 t _ (List.getElem?_eq_getElem ht)
    obtain ⟨raw, new, r1, r2, r3⟩ := g3 y hy x hx
    exact ⟨raw, new, fun e he => ⟨_, List.getElem?_eq_getElem ht, r1 e he⟩, fun e he => ⟨g, g1, r2 e he⟩, r3⟩

omit [LawfulSqrt K] in
/-- **C125** (rank). If no two members are equal, none is negative and `a + b * mean` is positive, the member with `k` members below it gets
`a + b * mean` times the number of the level (k + 1/2) / E. -/
theorem c125_rank_partial {mk : Fl K → Dist K} {T : K → K → K} (hmk : StudentFamily mk T) {p : List (Fl K)} {c : Fin 7 → K}
    (hp : Pars7 p c) {E : Nat} {raw new : Nat → Fl K} (h : BctCellOut mk p E raw new) {r : Nat → K}
    (hr : ∀ e < E, raw e = fin (r e) ∧ 0 ≤ r e) (hd : ∀ i < E, ∀ j < E, r i = r j → i = j) {m s t : K}
    (hms : MeanAndSpread (Finset.range E) r m s) (ht : ThirdRoot t s) (hmu : 0 < bctMu c (min m 100)) :
    ∀ e < E, ∃ y, new e = fin (bctMu c (min m 100) * y) ∧
      BctLevel (T (bctTau c)) (bctSigma c t) (bctNu c (min m 100)) y (((rankOf E r e : K) + 1 / 2) / (E : K)) := by
  intro e0 he0
  have hE : (0 : K) < (E : K) := by exact_mod_cast (show 0 < E by omega)
  have hne : ∀ e < E, r e ≠ -999 := by
    intro e he h
    have := (hr e he).2
    rw [h] at this
    linarith
  have hm0 : 0 ≤ m := by
    have h1 := hms.mean
    rw [Finset.card_range] at h1
    have h2 : 0 ≤ (E : K) * m := by rw [h1]; exact Finset.sum_nonneg fun e he => (hr e (Finset.mem_range.mp he)).2
    exact nonneg_of_mul_nonneg_right h2 hE
  have hcap : (0 : K) ≤ min m 100 := le_min hm0 (by norm_num)
  obtain ⟨w, hw, hre⟩ := (h.2 r m s (fun e he => ⟨(hr e he).1, hne e he⟩) hms).2 fun e he => (hr e he).2
  have hy : ∀ e, ∃ y, e < E → w e = fin (bctMu c (min m 100) * y) ∧
      BctLevel (T (bctTau c)) (bctSigma c t) (bctNu c (min m 100)) y (((e : K) + 1 / 2) / (E : K)) := by
    intro e
    by_cases he : e < E
    · obtain ⟨q, -, hq, h0, h1⟩ := quantileLevel_eq (K := K) he
      obtain ⟨y, y1, y2⟩ := c125_quantile hmk hp hcap hms.nonneg ht h0 h1
      have := hw e he
      rw [← hq, y1, Res.ok.injEq] at this
      exact ⟨y, fun _ => ⟨this.symm, by rw [← hq]; exact y2⟩⟩
    · exact ⟨0, fun h => absurd h he⟩
  choose y hy using hy
  have hpos : ∀ e < E, 0 < bctMu c (min m 100) * y e := fun e he => mul_pos hmu (hy e he).2.1
  rcases hre with ⟨⟨e, he, hn⟩, -⟩ | ⟨-, ⟨e, he, hn⟩, -⟩ | ⟨r', v, out, hr', hv, ho, hreo⟩
  · exact absurd ⟨_, (hy e he).1, by intro h9; have := hpos e he; rw [h9] at this; linarith⟩ hn
  · exact absurd ⟨r e, (hr e he).1, hne e he⟩ hn
  · have hrr : ∀ e < E, r' e = r e := by
      intro e he
      have := (hr' e he).1
      rw [(hr e he).1, Fl.fin.injEq] at this
      exact this.symm
    have hvv : ∀ e < E, v e = bctMu c (min m 100) * y e := by
      intro e he
      have := (hv e he).1
      rw [(hy e he).1, Fl.fin.injEq] at this
      exact this.symm
    have hreo' : Reordered E r v out := ⟨hreo.perm, fun i hi j hj hij => hreo.order i hi j hj (by rw [hrr i hi, hrr j hj]; exact hij)⟩
    have hmono : ∀ i j, i ≤ j → j < E → v i ≤ v j := by
      intro i j hij hj
      rcases hij.lt_or_eq with hlt | rfl
      · rw [hvv i (by omega), hvv j hj]
        refine (mul_lt_mul_of_pos_left (c125_level_lt hmk (LawfulExp.exp_pos _) (LawfulExp.exp_pos _) (hy i (by omega)).2 (hy j hj).2 ?_) hmu).le
        rw [div_lt_div_iff_of_pos_right hE]
        have : (i : K) < (j : K) := by exact_mod_cast hlt
        linarith
      · exact le_refl _
    obtain ⟨k1, k2⟩ := reordered_rank hreo' hd hmono e0 he0
    exact ⟨y (rankOf E r e0), by rw [ho e0 he0, k2, hvv _ k1], (hy _ k1).2⟩

/-! ### Examples -/

/-- A family as assumed, the same for all degrees of freedom. -/
def exampleStudent (_ : Fl K) : Dist K :=
  ⟨fun x => match x with
    | pinf => ok (fin 1)
    | x => (exampleNormal (fin 0) (fin 1)).cdf x, (exampleNormal (fin 0) (fin 1)).quantile⟩

omit [FloorRing K] [LawfulSqrt K] [LawfulExp K] in
theorem exampleStudent_family : StudentFamily (exampleStudent (K := K)) fun _ x => (1 + x / (1 + |x|)) / 2 where
  cdf tau x _ := by
    show (exampleNormal (fin 0) (fin 1)).cdf (fin x) = _
    rw [exampleNormal_family.cdf 0 1 x one_pos, sub_zero, div_one]
  infinity _ _ := rfl
  range _ x _ := exampleNormal_family.range x
  mono _ x y _ h := exampleNormal_family.mono x y h
  symmetric _ x _ := exampleNormal_family.symmetric x
  quantile _ p _ h0 h1 := by
    refine ⟨_, exampleNormal_family.quantile 0 1 p one_pos h0 h1, ?_⟩
    rw [zero_add, one_mul]
    exact exampleNormal_family.inverse p h0 h1

omit [FloorRing K] [LawfulSqrt K] [LawfulExp K] in
/-- The hypotheses hold for the members 3 and 5. -/
example : MeanAndSpread (K := K) (Finset.range 2) (fun e => if e = 0 then 3 else 5) 4 1 ∧ ThirdRoot (1 : K) 1 ∧
    Pars7 (K := K) ([0, 1, 0, 1, 0, 1, 0].map fin) ![0, 1, 0, 1, 0, 1, 0] ∧ 0 < bctMu (K := K) ![0, 1, 0, 1, 0, 1, 0] (min 4 100) := by
  refine ⟨⟨?_, by norm_num, ?_⟩, ⟨by norm_num, by norm_num⟩, ⟨?_, ?_⟩, ?_⟩
  · simp [Finset.sum_range_succ]; norm_num
  · simp [Finset.sum_range_succ]; norm_num
  · intro v hv
    simp only [List.map_cons, List.map_nil, List.mem_cons, List.not_mem_nil, or_false] at hv
    rcases hv with rfl | rfl | rfl | rfl | rfl | rfl | rfl <;> exact ⟨_, rfl, by norm_num⟩
  · intro i
    fin_cases i <;> rfl
  · unfold bctMu
    simp

omit [FloorRing K] [LawfulSqrt K] [LawfulExp K] in
/-- The sign of the value can be negative: parameters -1 and 0 give -1 for the median. -/
example : bctMu (K := K) ![-1, 0, 0, 0, 0, 0, 0] 5 < 0 := by
  unfold bctMu
  simp

end Gridpp.Props
