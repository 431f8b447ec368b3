import Verif.Spec.Curve
import Verif.Lemmas.Interp

/-! Lemmas about `apply_curve`. -/

set_option linter.unusedSectionVars false

namespace Gridpp
open Fl Res

section
variable {K : Type} [Field K] [LinearOrder K] [IsStrictOrderedRing K]

theorem strict_le {xs : List K} (hs : xs.Pairwise (· < ·)) : xs.Pairwise (· ≤ ·) := hs.imp le_of_lt

theorem strict_lt {xs : List K} (hs : xs.Pairwise (· < ·)) {i j : Nat} (hij : i < j) (hj : j < xs.length) :
    xs[i]'(by omega) < xs[j] := List.pairwise_iff_getElem.mp hs i j _ hj hij

theorem vget_map_fin (xs : List K) (i : Nat) (h : i < xs.length) : vget (xs.map fin) (i : Int) = ok (fin xs[i]) := by
  rw [vget_eq_ok_of_lt (by simpa using h)]; simp

/-- The interpolation branch needs no assumption on the curve. -/
theorem applyCurve_inside (xs ys : List K) (hl : xs.length = ys.length) (hne : 0 < xs.length) (x : K)
    (h0 : xs[0] ≤ x) (h1 : x ≤ xs[xs.length - 1]) (below above : Extrapolation) :
    applyCurve (fin x) (ys.map fin) (xs.map fin) below above = interpolate (fin x) (xs.map fin) (ys.map fin) := by
  have e1 : vget (xs.map (fin : K → Fl K)) 0 = ok (fin xs[0]) := vget_map_fin xs 0 hne
  have e2 : vget (ys.map (fin : K → Fl K)) 0 = ok (fin (ys[0]'(by omega))) := vget_map_fin ys 0 (by omega)
  have hc : ((xs.map (fin : K → Fl K)).length : Int) - 1 = ((xs.length - 1 : Nat) : Int) := by simp; omega
  unfold applyCurve
  rw [if_neg (by simp [hl]), if_neg (by rw [List.length_map]; omega)]
  simp only [hc, e1, e2, vget_map_fin xs (xs.length - 1) (by omega), vget_map_fin ys (xs.length - 1) (by omega),
    ok_bind, ge_fin, le_fin, h0, h1, decide_true, Bool.and_self, if_true]

theorem applyCurve_below (xs ys : List K) (hl : xs.length = ys.length) (hs : xs.Pairwise (· < ·)) (hne : 0 < xs.length)
    (x : K) (hx : x < xs[0]) (below above : Extrapolation) {s : K} (hs' : ContinuesWith below xs ys 0 1 s) :
    applyCurve (fin x) (ys.map fin) (xs.map fin) below above = ok (fin (ys[0] + s * (x - xs[0]))) := by
  have e1 : vget (xs.map (fin : K → Fl K)) 0 = ok (fin xs[0]) := vget_map_fin xs 0 hne
  have e2 : vget (ys.map (fin : K → Fl K)) 0 = ok (fin (ys[0]'(by omega))) := vget_map_fin ys 0 (by omega)
  have hc : ((xs.map (fin : K → Fl K)).length : Int) - 1 = ((xs.length - 1 : Nat) : Int) := by simp; omega
  have hc' : ((xs.map (fin : K → Fl K)).length : Int) ≤ 1 ↔ xs.length = 1 := by simp; omega
  unfold applyCurve
  rw [if_neg (by simp [hl]), if_neg (by rw [List.length_map]; omega)]
  simp only [hc, e1, e2, vget_map_fin xs (xs.length - 1) (by omega), vget_map_fin ys (xs.length - 1) (by omega),
    ok_bind, ge_fin, le_fin, not_le.mpr hx, hx.le, decide_true, decide_false, Bool.false_and, if_true, Bool.false_eq_true, if_false, hc']
  rcases hs' with ⟨rfl, rfl⟩ | ⟨rfl, rfl⟩ | ⟨hp, h1, rfl⟩ | ⟨rfl, h, h', he⟩ | ⟨rfl, h1, hi, hj, hi', hj', he⟩
  · simp
  · simp
  · rw [if_neg (by rcases hp with rfl | rfl <;> simp), if_neg (by rcases hp with rfl | rfl <;> simp), if_pos (Or.inr h1)]
    simp
  · have hlt := strict_lt hs (show 0 < xs.length - 1 by omega) (by omega)
    have hd : xs[xs.length - 1] - xs[0] ≠ 0 := (sub_pos.mpr hlt).ne'
    rw [if_neg (by simp), if_neg (by simp), if_neg (by simp; omega)]
    simp only [if_true, fin_sub, fin_div_of_ne _ hd, ok_bind, fin_mul, fin_add]
    have : s = (ys[ys.length - 1] - ys[0]) / (xs[xs.length - 1] - xs[0]) := by rw [eq_div_iff hd, he]
    rw [this]; simp only [hl]
  · have hlt := strict_lt hs (show 0 < 1 by omega) hj
    have hd : xs[1] - xs[0] ≠ 0 := (sub_pos.mpr hlt).ne'
    have f1 : vget (xs.map (fin : K → Fl K)) 1 = ok (fin xs[1]) := vget_map_fin xs 1 hj
    have f2 : vget (ys.map (fin : K → Fl K)) 1 = ok (fin ys[1]) := vget_map_fin ys 1 (by omega)
    rw [if_neg (by simp), if_neg (by simp), if_neg (by simp; omega), if_neg (by simp)]
    simp only [if_true, f1, f2, fin_sub, fin_div_of_ne _ hd, ok_bind, fin_mul, fin_add]
    congr 4
    rw [div_eq_iff hd, he]

theorem applyCurve_above (xs ys : List K) (hl : xs.length = ys.length) (hs : xs.Pairwise (· < ·)) (hne : 0 < xs.length)
    (x : K) (hx : xs[xs.length - 1] < x) (below above : Extrapolation) {s : K}
    (hs' : ContinuesWith above xs ys (xs.length - 2) (xs.length - 1) s) :
    applyCurve (fin x) (ys.map fin) (xs.map fin) below above =
      ok (fin (ys[ys.length - 1] + s * (x - xs[xs.length - 1]))) := by
  have e1 : vget (xs.map (fin : K → Fl K)) 0 = ok (fin xs[0]) := vget_map_fin xs 0 hne
  have e2 : vget (ys.map (fin : K → Fl K)) 0 = ok (fin (ys[0]'(by omega))) := vget_map_fin ys 0 (by omega)
  have hc : ((xs.map (fin : K → Fl K)).length : Int) - 1 = ((xs.length - 1 : Nat) : Int) := by simp; omega
  have hc' : ((xs.map (fin : K → Fl K)).length : Int) ≤ 1 ↔ xs.length = 1 := by simp; omega
  have h0 : xs[0] < x := lt_of_le_of_lt (sorted_le (strict_le hs) (Nat.zero_le _) (by omega)) hx
  unfold applyCurve
  rw [if_neg (by simp [hl]), if_neg (by rw [List.length_map]; omega)]
  simp only [hc, e1, e2, vget_map_fin xs (xs.length - 1) (by omega), vget_map_fin ys (xs.length - 1) (by omega),
    ok_bind, le_fin, not_le.mpr hx, not_le.mpr h0, decide_false, Bool.and_false, Bool.false_eq_true, if_false, hc']
  rcases hs' with ⟨rfl, rfl⟩ | ⟨rfl, rfl⟩ | ⟨hp, h1, rfl⟩ | ⟨rfl, h, h', he⟩ | ⟨rfl, h1, hi, hj, hi', hj', he⟩
  · simp [hl]
  · simp [hl]
  · rw [if_neg (by rcases hp with rfl | rfl <;> simp), if_neg (by rcases hp with rfl | rfl <;> simp), if_pos (Or.inr h1)]
    simp [hl]
  · have hlt := strict_lt hs (show 0 < xs.length - 1 by omega) (by omega)
    have hd : xs[xs.length - 1] - xs[0] ≠ 0 := (sub_pos.mpr hlt).ne'
    rw [if_neg (by simp), if_neg (by simp), if_neg (by simp; omega)]
    simp only [if_true, fin_sub, fin_div_of_ne _ hd, ok_bind, fin_mul, fin_add]
    have : s = (ys[ys.length - 1] - ys[0]) / (xs[xs.length - 1] - xs[0]) := by rw [eq_div_iff hd, he]
    rw [this]; simp only [hl]
  · have hlt := strict_lt hs (show xs.length - 2 < xs.length - 1 by omega) hj
    have hd : xs[xs.length - 1] - xs[xs.length - 2] ≠ 0 := (sub_pos.mpr hlt).ne'
    have hc2 : ((xs.map (fin : K → Fl K)).length : Int) - 2 = ((xs.length - 2 : Nat) : Int) := by simp; omega
    rw [if_neg (by simp), if_neg (by simp), if_neg (by simp; omega), if_neg (by simp)]
    simp only [if_true, hc2, vget_map_fin xs (xs.length - 2) (by omega), vget_map_fin ys (xs.length - 2) (by omega),
      fin_sub, fin_div_of_ne _ hd, ok_bind, fin_mul, fin_add]
    have : s = (ys[xs.length - 1] - ys[xs.length - 2]) / (xs[xs.length - 1] - xs[xs.length - 2]) := by rw [eq_div_iff hd, he]
    rw [this]; simp only [hl]

end
end Gridpp
