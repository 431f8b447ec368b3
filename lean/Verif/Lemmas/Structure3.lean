import Verif.Lemmas.Structure2

/-! Range, symmetry and monotonicity of the correlation functions. -/

set_option linter.unusedSectionVars false

namespace Gridpp

open Fl Res Props

section
variable {K : Type} [Field K] [LinearOrder K] [IsStrictOrderedRing K] [LawfulExp K]

theorem scaled_zero {f : K → K} (hf : f 0 = 1) (L : Fl K) : Spec.scaled f 0 L = 1 := by
  cases L with
  | fin l => simp only [Spec.scaled, zero_div, hf, ite_self]
  | _ => rfl

theorem scaled_range {f : K → K} (hf : ∀ u, 0 ≤ f u ∧ f u ≤ 1) (d : K) (L : Fl K) : 0 ≤ Spec.scaled f d L ∧ Spec.scaled f d L ≤ 1 := by
  cases L with
  | fin l =>
    simp only [Spec.scaled]
    split
    · exact ⟨zero_le_one, le_rfl⟩
    · exact hf _
  | _ => exact ⟨zero_le_one, le_rfl⟩

theorem scaled_range_pos {f : K → K} (hf : ∀ u, 0 ≤ u → 0 ≤ f u ∧ f u ≤ 1) {d : K} (hd : 0 ≤ d) {L : Fl K} (hL : Spec.ScaleOk L) :
    0 ≤ Spec.scaled f d L ∧ Spec.scaled f d L ≤ 1 := by
  cases L with
  | fin l =>
    simp only [Spec.scaled]
    split
    · exact ⟨zero_le_one, le_rfl⟩
    · exact hf _ (div_nonneg hd (hL l rfl))
  | _ => exact ⟨zero_le_one, le_rfl⟩

theorem scaled_anti {f : K → K} (hf : ∀ u v, 0 ≤ u → u ≤ v → f v ≤ f u) {d d' : K} (hd : 0 ≤ d) (h : d ≤ d') {L : Fl K}
    (hL : Spec.ScaleOk L) : Spec.scaled f d' L ≤ Spec.scaled f d L := by
  cases L with
  | fin l =>
    simp only [Spec.scaled]
    split
    · exact le_rfl
    · exact hf _ _ (div_nonneg hd (hL l rfl)) (div_le_div_of_nonneg_right h (hL l rfl))
  | _ => exact le_rfl

theorem scaled_even {f : K → K} (hf : ∀ u, f (-u) = f u) (d : K) (L : Fl K) : Spec.scaled f (-d) L = Spec.scaled f d L := by
  cases L with
  | fin l => simp only [Spec.scaled, neg_div, hf]
  | _ => rfl

theorem range_of_anti {f : K → K} (h0 : f 0 = 1) (hn : ∀ u, 0 ≤ u → 0 ≤ f u) (hf : ∀ u v, 0 ≤ u → u ≤ v → f v ≤ f u) (u : K) (hu : 0 ≤ u) :
    0 ≤ f u ∧ f u ≤ 1 := ⟨hn u hu, h0 ▸ hf 0 u le_rfl hu⟩

theorem range_even {f : K → K} (h0 : f 0 = 1) (hn : ∀ u, 0 < f u) (he : ∀ u, f (-u) = f u) (hf : ∀ u v, 0 ≤ u → u ≤ v → f v ≤ f u) (u : K) :
    0 ≤ f u ∧ f u ≤ 1 := by
  refine ⟨(hn u).le, ?_⟩
  rcases le_total 0 u with h | h
  · exact h0 ▸ hf 0 u le_rfl h
  · rw [← he]
    exact h0 ▸ hf 0 (-u) le_rfl (by linarith)

theorem linear_zero (L : Fl K) : Spec.linear 0 L = 1 := by
  cases L with
  | fin c => simp [Spec.linear]
  | _ => rfl

theorem linear_nonneg (d : K) (L : Fl K) : 0 ≤ Spec.linear d L := by
  cases L with
  | fin c =>
    simp only [Spec.linear]
    split
    · exact zero_le_one
    · next h =>
      have h1 : min |d| 1 ≤ 1 := min_le_right _ _
      have h2 : 0 ≤ min |d| 1 := le_min (abs_nonneg d) zero_le_one
      have h3 := not_lt.mp h
      nlinarith
  | _ => exact zero_le_one

theorem linear_le_one (d : K) {L : Fl K} (hL : ∀ c, L = fin c → c ≤ 1) : Spec.linear d L ≤ 1 := by
  cases L with
  | fin c =>
    simp only [Spec.linear]
    split
    · exact le_rfl
    · have h1 := hL c rfl
      have h2 : 0 ≤ min |d| 1 := le_min (abs_nonneg d) zero_le_one
      nlinarith
  | _ => exact le_rfl

theorem linear_even (d : K) (L : Fl K) : Spec.linear (-d) L = Spec.linear d L := by
  cases L with
  | fin c => simp only [Spec.linear, abs_neg]
  | _ => rfl

theorem Kind.factor_zero (k : Kind) (L : Fl K) : k.factor 0 L = 1 := by
  cases k
  · exact scaled_zero barnes_zero L
  · exact scaled_zero soar_zero L
  · exact scaled_zero toar_zero L
  · exact scaled_zero powerlaw_zero L
  · exact linear_zero L

theorem Kind.factor_even {k : Kind} (hk : k = .barnes ∨ k = .powerlaw ∨ k = .linear) (d : K) (L : Fl K) :
    k.factor (-d) L = k.factor d L := by
  rcases hk with rfl | rfl | rfl
  · exact scaled_even barnes_even d L
  · exact scaled_even powerlaw_even d L
  · exact linear_even d L

theorem Kind.factor_nonneg {k : Kind} (hk : k = .barnes ∨ k = .powerlaw ∨ k = .linear) (d : K) (L : Fl K) : 0 ≤ k.factor d L := by
  rcases hk with rfl | rfl | rfl
  · exact (scaled_range (range_even barnes_zero barnes_pos barnes_even fun _ _ => barnes_anti) d L).1
  · exact (scaled_range (range_even powerlaw_zero powerlaw_pos powerlaw_even fun _ _ => powerlaw_anti) d L).1
  · exact linear_nonneg d L

theorem Kind.factor_le_one {k : Kind} {d : K} {L : Fl K} (hk : k = .barnes ∨ k = .powerlaw ∨ (k = .linear ∧ ∀ c, L = fin c → c ≤ 1)) :
    k.factor d L ≤ 1 := by
  rcases hk with rfl | rfl | ⟨rfl, hL⟩
  · exact (scaled_range (range_even barnes_zero barnes_pos barnes_even fun _ _ => barnes_anti) d L).2
  · exact (scaled_range (range_even powerlaw_zero powerlaw_pos powerlaw_even fun _ _ => powerlaw_anti) d L).2
  · exact linear_le_one d hL

theorem Kind.factor_range_pos {k : Kind} (hk : k ≠ .linear) {d : K} (hd : 0 ≤ d) {L : Fl K} (hL : Spec.ScaleOk L) :
    0 ≤ k.factor d L ∧ k.factor d L ≤ 1 := by
  cases k
  · exact scaled_range_pos (range_of_anti barnes_zero (fun u _ => (barnes_pos u).le) fun _ _ => barnes_anti) hd hL
  · exact scaled_range_pos (range_of_anti soar_zero (fun _ => soar_nonneg) fun _ _ => soar_anti) hd hL
  · exact scaled_range_pos (range_of_anti toar_zero (fun _ => toar_nonneg) fun _ _ => toar_anti) hd hL
  · exact scaled_range_pos (range_of_anti powerlaw_zero (fun u _ => (powerlaw_pos u).le) fun _ _ => powerlaw_anti) hd hL
  · exact absurd rfl hk

theorem Kind.factor_anti {k : Kind} (hk : k ≠ .linear) {d d' : K} (hd : 0 ≤ d) (h : d ≤ d') {L : Fl K} (hL : Spec.ScaleOk L) :
    k.factor d' L ≤ k.factor d L := by
  cases k
  · exact scaled_anti (fun _ _ => barnes_anti) hd h hL
  · exact scaled_anti (fun _ _ => soar_anti) hd h hL
  · exact scaled_anti (fun _ _ => toar_anti) hd h hL
  · exact scaled_anti (fun _ _ => powerlaw_anti) hd h hL
  · exact absurd rfl hk

theorem cressman_zero (L : Fl K) (hL : Spec.ScaleOk L) : Spec.cressman 0 L = 1 := by
  cases L with
  | fin l =>
    simp only [Spec.cressman]
    split
    · rfl
    · next h =>
      have hl : 0 < l := lt_of_le_of_ne (hL l rfl) (Ne.symm h)
      rw [if_neg (not_le.mpr hl), mul_zero, sub_zero, add_zero]
      exact div_self (mul_ne_zero h h)
  | _ => rfl

theorem cressman_range {d : K} (hd : 0 ≤ d) {L : Fl K} (hL : Spec.ScaleOk L) : 0 ≤ Spec.cressman d L ∧ Spec.cressman d L ≤ 1 := by
  cases L with
  | fin l =>
    simp only [Spec.cressman]
    split
    · exact ⟨zero_le_one, le_rfl⟩
    · next h =>
      split
      · exact ⟨le_rfl, zero_le_one⟩
      · next h' =>
        have hl : 0 < l := lt_of_le_of_ne (hL l rfl) (Ne.symm h)
        have h'' := not_le.mp h'
        have hp : 0 < l * l + d * d := by nlinarith
        exact ⟨div_nonneg (by nlinarith) hp.le, by rw [div_le_one hp]; nlinarith⟩
  | _ => exact ⟨zero_le_one, le_rfl⟩

theorem cressman_anti {d d' : K} (hd : 0 ≤ d) (h : d ≤ d') {L : Fl K} (hL : Spec.ScaleOk L) :
    Spec.cressman d' L ≤ Spec.cressman d L := by
  have hr := (cressman_range hd hL).1
  cases L with
  | fin l =>
    simp only [Spec.cressman] at hr ⊢
    by_cases h0 : l = 0
    · rw [if_pos h0, if_pos h0]
    · rw [if_neg h0] at hr ⊢
      rw [if_neg h0]
      by_cases h1 : l ≤ d'
      · rw [if_pos h1]; exact hr
      · have h2 : ¬ l ≤ d := by intro hc; exact h1 (le_trans hc h)
        have hl : 0 < l := lt_of_le_of_ne (hL l rfl) (Ne.symm h0)
        have hp : 0 < l * l + d * d := by nlinarith
        have hp' : 0 < l * l + d' * d' := by nlinarith
        rw [if_neg h1, if_neg h2, div_le_div_iff₀ hp' hp]
        have hs : d * d ≤ d' * d' := by nlinarith
        have hll : 0 < l * l := by nlinarith
        nlinarith
  | _ => exact le_rfl

theorem difference_swap (a b : Fl K) : Spec.difference b a = (Spec.difference a b).map Neg.neg := by
  cases a <;> cases b <;> simp [Spec.difference]

theorem difference_self (a : Fl K) : Spec.difference a a = none ∨ Spec.difference a a = some 0 := by
  cases a <;> simp [Spec.difference]

theorem optional_even {f : K → Fl K → K} (hf : ∀ d L, f (-d) L = f d L) (L a b : Fl K) :
    Spec.optional f L (Spec.difference b a) = Spec.optional f L (Spec.difference a b) := by
  rw [difference_swap a b]
  cases Spec.difference a b with
  | none => rfl
  | some d => exact hf d L

theorem optional_self {f : K → Fl K → K} {L : Fl K} (hf : f 0 L = 1) (a : Fl K) : Spec.optional f L (Spec.difference a a) = 1 := by
  rcases difference_self a with h | h
  · rw [h]; rfl
  · rw [h]; exact hf

theorem correlation_even {f : K → Fl K → K} (hf : ∀ d L, f (-d) L = f d L) (p1 p2 : Point K) (d : K) (h v w : Fl K) :
    Spec.correlation f p2 p1 d h v w = Spec.correlation f p1 p2 d h v w := by
  unfold Spec.correlation
  rw [optional_even hf v p1.elev p2.elev, optional_even hf w p1.laf p2.laf]

theorem correlation_self {f : K → Fl K → K} {h v w : Fl K} (hh : f 0 h = 1) (hv : f 0 v = 1) (hw : f 0 w = 1) (p : Point K) :
    Spec.correlation f p p 0 h v w = 1 := by
  unfold Spec.correlation
  rw [hh, optional_self hv, optional_self hw, mul_one, mul_one]

theorem optional_range {f : K → Fl K → K} {L : Fl K} {o : Option K} (h : ∀ d, o = some d → 0 ≤ f d L ∧ f d L ≤ 1) :
    0 ≤ Spec.optional f L o ∧ Spec.optional f L o ≤ 1 := by
  cases o with
  | none => exact ⟨zero_le_one, le_rfl⟩
  | some d => exact h d rfl

theorem mul3_range {a b c : K} (ha : 0 ≤ a ∧ a ≤ 1) (hb : 0 ≤ b ∧ b ≤ 1) (hc : 0 ≤ c ∧ c ≤ 1) : 0 ≤ a * b * c ∧ a * b * c ≤ 1 :=
  ⟨mul_nonneg (mul_nonneg ha.1 hb.1) hc.1, mul_le_one₀ (mul_le_one₀ ha.2 hb.1 hb.2) hc.1 hc.2⟩

theorem sqrt_mul_not_neg [LawfulSqrt K] (x : Fl K) {b : K} (hb : 0 ≤ b) : (fin 0).gt (sqrt x * fin b) = false := by
  have hs : sqrt x = nan ∨ sqrt x = pinf ∨ ∃ a, 0 ≤ a ∧ sqrt x = fin a := by
    cases x with
    | fin a =>
      by_cases ha : a < 0
      · left; simp only [sqrt, if_pos ha]
      · right; right
        exact ⟨HasSqrt.sqrt a, LawfulSqrt.sqrt_nonneg a (not_lt.mp ha), by simp only [sqrt, if_neg ha]⟩
    | nan => left; rfl
    | pinf => right; left; rfl
    | ninf => left; rfl
  rcases hs with e | e | ⟨a, ha, e⟩ <;> rw [e]
  · simp
  · show (fin 0).gt (infOfSign b) = false
    unfold infOfSign
    split
    · rfl
    · rw [if_neg (not_lt.mpr hb)]; rfl
  · rw [fin_mul, gt_fin]
    have := mul_nonneg ha hb
    simpa using this

end
end Gridpp

namespace Gridpp
open Fl Res Props
section
variable {K : Type} [Field K] [LinearOrder K] [IsStrictOrderedRing K]

theorem badScale_false {x : Fl K} (hx : badScale x = false) : ∃ a, x = fin a ∧ 0 ≤ a := by
  cases x with
  | fin a =>
    refine ⟨a, rfl, ?_⟩
    simp only [badScale, isValid_fin, Bool.not_true, Bool.false_or, zero_def, lt_fin, decide_eq_false_iff_not] at hx
    exact not_lt.mp hx
  | nan => simp [badScale] at hx
  | pinf => simp [badScale] at hx
  | ninf => simp [badScale] at hx

theorem scaleOk_of {x : Fl K} (hx : badScale x = false) : Spec.ScaleOk x := by
  obtain ⟨a, rfl, ha⟩ := badScale_false hx
  rintro l ⟨⟩
  exact ha

theorem newCressman_ok {h v w : Fl K} {s : SF K} (hs : SF.newCressman h v w = ok s) :
    s = .cressman h v w ∧ Spec.ScaleOk h ∧ Spec.ScaleOk v ∧ Spec.ScaleOk w := by
  unfold SF.newCressman at hs
  by_cases h2 : badScale h = true
  · rw [if_pos h2] at hs; cases hs
  rw [if_neg h2] at hs
  by_cases h3 : badScale v = true
  · rw [if_pos h3] at hs; cases hs
  rw [if_neg h3] at hs
  by_cases h4 : badScale w = true
  · rw [if_pos h4] at hs; cases hs
  rw [if_neg h4] at hs
  exact ⟨(Res.ok.inj hs).symm, scaleOk_of (by simpa using h2), scaleOk_of (by simpa using h3), scaleOk_of (by simpa using h4)⟩

theorem gt_zero_mul_zero (x : Fl K) : (fin 0).gt (x * fin 0) = false := by
  cases x with
  | fin a => rw [fin_mul, mul_zero]; simp
  | nan => simp
  | pinf => show (fin 0).gt (infOfSign (0 : K)) = false; simp [infOfSign]
  | ninf => show (fin 0).gt (infOfSign (-(0 : K))) = false; simp [infOfSign]

theorem gt_mono {a b : K} {l : Fl K} (h : a ≤ b) (hg : (fin a).gt l = true) : (fin b).gt l = true := by
  cases l with
  | fin c =>
    simp only [gt_fin, decide_eq_true_eq] at hg ⊢
    exact lt_of_lt_of_le hg h
  | nan => simp at hg
  | pinf => simp [Fl.gt, Fl.lt] at hg
  | ninf => rfl

theorem sqrt_sq [LawfulSqrt K] {a : K} (ha : 0 ≤ a) : HasSqrt.sqrt (a * a) = a := by
  have h1 := LawfulSqrt.sqrt_mul_self (a * a) (mul_self_nonneg a)
  have h2 := LawfulSqrt.sqrt_nonneg (a * a) (mul_self_nonneg a)
  exact (mul_self_inj h2 ha).mp h1

end
end Gridpp
