import Verif.Model.OI
import Verif.Spec.Units

/-! Values multiplied by a number that is not 0: sums, products and comparisons, also of infinite and missing values. -/

set_option linter.unusedSectionVars false

namespace Gridpp
open Fl Res Spec

section
variable {K : Type} [Field K] [LinearOrder K] [IsStrictOrderedRing K]

theorem infOfSign_pos {q : K} (h : 0 < q) : infOfSign q = (pinf : Fl K) := if_pos h
theorem infOfSign_neg {q : K} (h : q < 0) : infOfSign q = (ninf : Fl K) := by unfold infOfSign; rw [if_neg (not_lt.mpr h.le), if_pos h]
theorem infOfSign_zero : infOfSign (0 : K) = (nan : Fl K) := by unfold infOfSign; simp

theorem fin_mul_pinf (q : K) : (fin q * pinf : Fl K) = infOfSign q := rfl
theorem fin_mul_ninf (q : K) : (fin q * ninf : Fl K) = infOfSign (-q) := rfl
theorem pinf_mul_fin (q : K) : (pinf * fin q : Fl K) = infOfSign q := rfl
theorem ninf_mul_fin (q : K) : (ninf * fin q : Fl K) = infOfSign (-q) := rfl

/-- A factor that is not 0 is positive or negative. -/
theorem scale_cases {c : K} (hc : c ≠ 0) : (0 < c ∧ (fin c * pinf : Fl K) = pinf ∧ (fin c * ninf : Fl K) = ninf) ∨
    (c < 0 ∧ (fin c * pinf : Fl K) = ninf ∧ (fin c * ninf : Fl K) = pinf) := by
  rcases lt_or_gt_of_ne hc with h | h
  · exact Or.inr ⟨h, infOfSign_neg h, infOfSign_pos (neg_pos.mpr h)⟩
  · exact Or.inl ⟨h, infOfSign_pos h, infOfSign_neg (neg_lt_zero.mpr h)⟩

theorem scale_infOfSign {c : K} (hc : c ≠ 0) (q : K) : fin c * infOfSign q = (infOfSign (c * q) : Fl K) := by
  rcases scale_cases hc with ⟨h, e1, e2⟩ | ⟨h, e1, e2⟩ <;> rcases lt_trichotomy q 0 with hq | rfl | hq
  · rw [infOfSign_neg hq, e2, infOfSign_neg (mul_neg_of_pos_of_neg h hq)]
  · rw [mul_zero, infOfSign_zero, mul_nan]
  · rw [infOfSign_pos hq, e1, infOfSign_pos (mul_pos h hq)]
  · rw [infOfSign_neg hq, e2, infOfSign_pos (mul_pos_of_neg_of_neg h hq)]
  · rw [mul_zero, infOfSign_zero, mul_nan]
  · rw [infOfSign_pos hq, e1, infOfSign_neg (mul_neg_of_neg_of_pos h hq)]

theorem scale_add {c : K} (hc : c ≠ 0) (x y : Fl K) : fin c * (x + y) = fin c * x + fin c * y := by
  rcases scale_cases hc with ⟨h, e1, e2⟩ | ⟨h, e1, e2⟩ <;> cases x <;> cases y <;>
    first
    | (simp only [nan_add, add_nan, mul_nan]; done)
    | (simp only [fin_add, fin_mul, mul_add]; done)
    | (show fin c * _ = _ ; simp only [e1, e2, fin_mul, mul_nan]; first | exact e1 | exact e2 | rfl)

theorem scale_neg {c : K} (hc : c ≠ 0) (x : Fl K) : fin c * (-x) = -(fin c * x) := by
  rcases scale_cases hc with ⟨h, e1, e2⟩ | ⟨h, e1, e2⟩ <;> cases x <;>
    first
    | (simp only [fin_neg, fin_mul, mul_neg]; done)
    | (show fin c * _ = _ ; simp only [e1, e2, mul_nan]; first | exact e1 | exact e2 | rfl)

theorem scale_sub {c : K} (hc : c ≠ 0) (x y : Fl K) : fin c * (x - y) = fin c * x - fin c * y := by
  show fin c * (x + -y) = fin c * x + -(fin c * y)
  rw [scale_add hc, scale_neg hc]

theorem infOfSign_scale_pos {c : K} (h : 0 < c) (q : K) : infOfSign (c * q) = (infOfSign q : Fl K) := by
  rw [← scale_infOfSign h.ne']
  unfold infOfSign
  split_ifs
  · exact infOfSign_pos h
  · exact infOfSign_neg (neg_lt_zero.mpr h)
  · exact mul_nan _

theorem infOfSign_scale_neg {c : K} (h : c < 0) (q : K) : infOfSign (c * q) = (infOfSign (-q) : Fl K) := by
  rw [← infOfSign_scale_pos (neg_pos.mpr h) (-q), neg_mul_neg]

theorem fl_mul_comm (x y : Fl K) : x * y = y * x := by
  cases x <;> cases y <;> first | rfl | (simp only [fin_mul, mul_comm])

theorem scale_mul {c : K} (hc : c ≠ 0) (x y : Fl K) : fin c * (x * y) = (fin c * x) * y := by
  rcases scale_cases hc with ⟨h, e1, e2⟩ | ⟨h, e1, e2⟩
  · cases x with
    | nan => simp only [nan_mul, mul_nan]
    | pinf => cases y with
      | nan => simp only [mul_nan]
      | pinf => rw [e1]; exact e1
      | ninf => rw [e1]; exact e2
      | fin q => rw [pinf_mul_fin, scale_infOfSign hc, e1, infOfSign_scale_pos h]; rfl
    | ninf => cases y with
      | nan => simp only [mul_nan]
      | pinf => rw [e2]; exact e2
      | ninf => rw [e2]; exact e1
      | fin q => rw [ninf_mul_fin, scale_infOfSign hc, e2, infOfSign_scale_pos h]; rfl
    | fin p => cases y with
      | nan => simp only [mul_nan]
      | pinf => rw [fin_mul_pinf, scale_infOfSign hc, fin_mul, fin_mul_pinf]
      | ninf => rw [fin_mul_ninf, scale_infOfSign hc, fin_mul, fin_mul_ninf, mul_neg]
      | fin q => simp only [fin_mul, mul_assoc]
  · cases x with
    | nan => simp only [nan_mul, mul_nan]
    | pinf => cases y with
      | nan => simp only [mul_nan]
      | pinf => rw [e1]; exact e1
      | ninf => rw [e1]; exact e2
      | fin q => rw [pinf_mul_fin, scale_infOfSign hc, e1, infOfSign_scale_neg h]; rfl
    | ninf => cases y with
      | nan => simp only [mul_nan]
      | pinf => rw [e2]; exact e2
      | ninf => rw [e2]; exact e1
      | fin q => rw [ninf_mul_fin, scale_infOfSign hc, e2, infOfSign_scale_neg h, neg_neg]; rfl
    | fin p => cases y with
      | nan => simp only [mul_nan]
      | pinf => rw [fin_mul_pinf, scale_infOfSign hc, fin_mul, fin_mul_pinf]
      | ninf => rw [fin_mul_ninf, scale_infOfSign hc, fin_mul, fin_mul_ninf, mul_neg]
      | fin q => simp only [fin_mul, mul_assoc]

theorem scale_mul_right {c : K} (hc : c ≠ 0) (x y : Fl K) : x * (fin c * y) = fin c * (x * y) := by
  rw [fl_mul_comm x, ← scale_mul hc, fl_mul_comm y]

theorem scale_lt_pos {c : K} (h : 0 < c) (x y : Fl K) : (fin c * x).lt (fin c * y) = x.lt y := by
  obtain ⟨-, e1, e2⟩ | ⟨h', -⟩ := scale_cases h.ne'
  · cases x <;> cases y <;> simp only [e1, e2, mul_nan, fin_mul, lt_fin, mul_lt_mul_iff_right₀ h] <;> rfl
  · exact absurd h' (not_lt.mpr h.le)

theorem scale_lt_neg {c : K} (h : c < 0) (x y : Fl K) : (fin c * x).lt (fin c * y) = y.lt x := by
  obtain ⟨h', -⟩ | ⟨-, e1, e2⟩ := scale_cases h.ne
  · exact absurd h' (not_lt.mpr h.le)
  · cases x <;> cases y <;> simp only [e1, e2, mul_nan, fin_mul, lt_fin, mul_lt_mul_left_of_neg h] <;> rfl

theorem scale_zero (c : K) : fin c * (0 : Fl K) = 0 := by simp

theorem scale_isValid {c : K} (hc : c ≠ 0) (x : Fl K) : (fin c * x).isValid = x.isValid := by
  rcases scale_cases hc with ⟨h, e1, e2⟩ | ⟨h, e1, e2⟩ <;> cases x <;> simp only [e1, e2, mul_nan, fin_mul] <;> rfl

theorem add_fin_isValid (d : K) (x : Fl K) : (x + fin d).isValid = x.isValid := by cases x <;> rfl

theorem inUnits_isValid {c : K} (hc : c ≠ 0) (d : K) (x : Fl K) : (inUnits c d x).isValid = x.isValid := by
  rw [inUnits, add_fin_isValid, scale_isValid hc]

theorem inUnits_sub {c : K} (hc : c ≠ 0) (d : K) (x y : Fl K) : inUnits c d x - inUnits c d y = fin c * (x - y) := by
  rw [scale_sub hc]
  unfold inUnits
  generalize fin c * x = u
  generalize fin c * y = v
  cases u <;> cases v <;> first | rfl | (simp only [fin_add, fin_sub]; congr 1; ring)

theorem inUnits_add {c : K} (hc : c ≠ 0) (d : K) (x y : Fl K) : inUnits c d (x + y) = inUnits c d x + fin c * y := by
  unfold inUnits
  rw [scale_add hc]
  generalize fin c * x = u
  generalize fin c * y = v
  cases u <;> cases v <;> first | rfl | (simp only [fin_add]; congr 1; ring)

theorem scale_div {k : K} (hk : 0 < k) (x y : Fl K) : (fin k * x) / (fin k * y) = x / y := by
  obtain ⟨-, e1, e2⟩ | ⟨h', -⟩ := scale_cases hk.ne'
  · cases x with
    | nan => simp only [mul_nan, nan_div]
    | pinf => cases y with
      | fin q =>
        rw [e1, fin_mul]
        show (if k * q < 0 then ninf else pinf) = if q < 0 then ninf else pinf
        simp only [show (k * q < 0) ↔ q < 0 from ⟨fun h => neg_of_mul_neg_right h hk.le, fun h => mul_neg_of_pos_of_neg hk h⟩]
      | _ => simp only [e1, e2, mul_nan]
    | ninf => cases y with
      | fin q =>
        rw [e2, fin_mul]
        show (if k * q < 0 then pinf else ninf) = if q < 0 then pinf else ninf
        simp only [show (k * q < 0) ↔ q < 0 from ⟨fun h => neg_of_mul_neg_right h hk.le, fun h => mul_neg_of_pos_of_neg hk h⟩]
      | _ => simp only [e1, e2, mul_nan]
    | fin p => cases y with
      | fin q =>
        simp only [fin_mul, fin_div, mul_eq_zero, hk.ne', false_or, infOfSign_scale_pos hk, mul_div_mul_left _ _ hk.ne']
      | nan => simp only [mul_nan, div_nan]
      | pinf => rw [e1, fin_mul]; rfl
      | ninf => rw [e2, fin_mul]; rfl
  · exact absurd h' (not_lt.mpr hk.le)

/-! ## Reading and loops -/

theorem vget_map {α β : Type} (f : α → β) (l : List α) (i : Int) : vget (l.map f) i = f <$> vget l i := by
  unfold vget
  split
  · rfl
  · rw [List.getElem?_map]
    cases l[i.toNat]? <;> rfl

theorem map_bind_eq {α β γ : Type} (f : α → β) (x : Res α) (g : β → Res γ) : (f <$> x) >>= g = x >>= fun a => g (f a) := by cases x <;> rfl

theorem bind_map_eq {α β γ : Type} (f : β → γ) (x : Res α) (g : α → Res β) : f <$> (x >>= g) = x >>= fun a => f <$> g a := by cases x <;> rfl

theorem mapM_map_eq {α β γ : Type} (f : α → Res β) (g : β → γ) (l : List α) : mapM (fun a => g <$> f a) l = List.map g <$> mapM f l := by
  induction l with
  | nil => rfl
  | cons a t ih =>
    rw [mapM_cons, mapM_cons, ih]
    cases f a <;> first | rfl | (cases mapM f t <;> rfl)

theorem omp_map {α β : Type} (f : α → β) (x : Res α) : Res.omp (f <$> x) = f <$> Res.omp x := by cases x <;> rfl

end
end Gridpp
