import Verif.Model.OI
import Verif.Spec.OI
import Verif.Lemmas.Radius
import Verif.Lemmas.Structure

/-! Lemmas about optimal interpolation: linear algebra on lists, selection, the increment filter. -/

set_option linter.unusedSectionVars false

namespace Gridpp
open Fl Res Matrix

section
variable {K : Type} [Field K] [LinearOrder K] [IsStrictOrderedRing K]

/-- The rows of a matrix of numbers. -/
def toRows {m n : Nat} (M : Matrix (Fin m) (Fin n) K) : List (List (Fl K)) := List.ofFn fun i => List.ofFn fun j => fin (M i j)

/-- What is required of the libraries: `arma::inv` gives the inverse of an invertible matrix of numbers (without rounding)
and throws `std::runtime_error` for a singular one; sorting pairs gives a permutation in order of the first entries (if none
is NaN). -/
structure Arma.Lawful (A : Arma K) : Prop where
  inv_ok : ∀ (n : Nat) (M : Matrix (Fin n) (Fin n) K), M.det ≠ 0 → A.inv (toRows M) = ok (toRows M⁻¹)
  inv_singular : ∀ (n : Nat) (M : Matrix (Fin n) (Fin n) K), M.det = 0 → A.inv (toRows M) = .throw .runtimeError
  sort_perm : ∀ l : List (Fl K × Nat), (∀ e ∈ l, e.1 ≠ nan) → (A.sortFirst l).Perm l
  sort_sorted : ∀ l : List (Fl K × Nat), (∀ e ∈ l, e.1 ≠ nan) → (A.sortFirst l).Pairwise fun a b => b.1.lt a.1 = false

/-! ### Linear algebra -/

theorem foldl_add_fin (l : List K) (a : K) : (l.map fin).foldl (· + ·) (fin a) = fin (a + l.sum) := by
  induction l generalizing a with
  | nil => simp
  | cons x t ih => simp only [List.map_cons, List.foldl_cons, fin_add, ih, List.sum_cons, add_assoc]

theorem dot_ofFn {n : Nat} (u v : Fin n → K) :
    dot (List.ofFn fun i => fin (u i)) (List.ofFn fun i => fin (v i)) = fin (u ⬝ᵥ v) := by
  have h : List.zipWith (· * ·) (List.ofFn fun i => fin (u i)) (List.ofFn fun i => fin (v i)) =
      (List.ofFn fun i => u i * v i).map fin := by
    rw [List.map_ofFn]
    apply List.ext_getElem
    · simp
    · intro i h1 h2; simp
  unfold dot
  rw [h, zero_def, foldl_add_fin, zero_add, List.sum_ofFn]
  rfl

theorem vecMat_ofFn {n : Nat} (u : Fin n → K) (M : Matrix (Fin n) (Fin n) K) :
    vecMat (List.ofFn fun i => fin (u i)) (toRows M) = List.ofFn fun j => fin ((u ᵥ* M) j) := by
  unfold vecMat toRows
  apply List.ext_getElem
  · simp
  · intro j h1 h2
    have hj : j < n := by simpa using h2
    have hc : (List.ofFn fun i => List.ofFn fun j => fin (M i j)).map (fun row => row.getD j nan) =
        List.ofFn fun i => fin (M i ⟨j, hj⟩) := by
      rw [List.map_ofFn]
      congr 1
      funext i
      simp [List.getD, hj]
    simp only [List.getElem_map, List.getElem_range, hc, dot_ofFn, List.getElem_ofFn]
    rfl

/-! ### The increment filter -/

theorem armaMax_ofFn {n : Nat} (d : Fin n → K) (hn : 0 < n) :
    ∃ a, armaMax (List.ofFn fun i => fin (d i)) = fin (d a) ∧ ∀ b, d b ≤ d a := by
  have gen : ∀ (l : List K) (m : K), ∃ r, (l.map fin).foldl (fun a x => if x.gt a then x else a) (fin m) = fin r ∧
      (r = m ∨ r ∈ l) ∧ m ≤ r ∧ ∀ x ∈ l, x ≤ r := by
    intro l
    induction l with
    | nil => intro m; exact ⟨m, rfl, Or.inl rfl, le_rfl, by simp⟩
    | cons x t ih =>
      intro m
      simp only [List.map_cons, List.foldl_cons, gt_fin, decide_eq_true_eq]
      by_cases h : m < x
      · rw [if_pos h]
        obtain ⟨r, h1, h2, h3, h4⟩ := ih x
        refine ⟨r, h1, Or.inr ?_, h.le.trans h3, ?_⟩
        · rcases h2 with h2 | h2 <;> simp [h2]
        · intro z hz
          rcases List.mem_cons.mp hz with rfl | hz
          · exact h3
          · exact h4 z hz
      · rw [if_neg h]
        obtain ⟨r, h1, h2, h3, h4⟩ := ih m
        refine ⟨r, h1, ?_, h3, ?_⟩
        · rcases h2 with h2 | h2 <;> simp [h2]
        · intro z hz
          rcases List.mem_cons.mp hz with rfl | hz
          · exact (not_lt.mp h).trans h3
          · exact h4 z hz
  cases n with
  | zero => omega
  | succ n =>
    have e : (List.ofFn fun i => fin (d i)) = fin (d 0) :: (List.ofFn fun i : Fin n => d i.succ).map fin := by
      rw [List.ofFn_succ, List.map_ofFn]; rfl
    unfold armaMax
    rw [e, List.foldl_cons, if_pos (by rfl)]
    obtain ⟨r, h1, h2, h3, h4⟩ := gen (List.ofFn fun i : Fin n => d i.succ) (d 0)
    rw [h1]
    have hex : ∃ a, r = d a := by
      rcases h2 with h2 | h2
      · exact ⟨0, h2⟩
      · obtain ⟨i, hi⟩ := List.mem_ofFn.mp h2
        exact ⟨i.succ, hi.symm⟩
    obtain ⟨a, rfl⟩ := hex
    refine ⟨a, rfl, fun b => ?_⟩
    refine Fin.cases h3 (fun i => ?_) b
    exact h4 _ (List.mem_ofFn.mpr ⟨i, rfl⟩)

theorem armaMin_ofFn {n : Nat} (d : Fin n → K) (hn : 0 < n) :
    ∃ a, armaMin (List.ofFn fun i => fin (d i)) = fin (d a) ∧ ∀ b, d a ≤ d b := by
  have gen : ∀ (l : List K) (m : K), ∃ r, (l.map fin).foldl (fun a x => if x.lt a then x else a) (fin m) = fin r ∧
      (r = m ∨ r ∈ l) ∧ r ≤ m ∧ ∀ x ∈ l, r ≤ x := by
    intro l
    induction l with
    | nil => intro m; exact ⟨m, rfl, Or.inl rfl, le_rfl, by simp⟩
    | cons x t ih =>
      intro m
      simp only [List.map_cons, List.foldl_cons, lt_fin, decide_eq_true_eq]
      by_cases h : x < m
      · rw [if_pos h]
        obtain ⟨r, h1, h2, h3, h4⟩ := ih x
        refine ⟨r, h1, Or.inr ?_, h3.trans h.le, ?_⟩
        · rcases h2 with h2 | h2 <;> simp [h2]
        · intro z hz
          rcases List.mem_cons.mp hz with rfl | hz
          · exact h3
          · exact h4 z hz
      · rw [if_neg h]
        obtain ⟨r, h1, h2, h3, h4⟩ := ih m
        refine ⟨r, h1, ?_, h3, ?_⟩
        · rcases h2 with h2 | h2 <;> simp [h2]
        · intro z hz
          rcases List.mem_cons.mp hz with rfl | hz
          · exact h3.trans (not_lt.mp h)
          · exact h4 z hz
  cases n with
  | zero => omega
  | succ n =>
    have e : (List.ofFn fun i => fin (d i)) = fin (d 0) :: (List.ofFn fun i : Fin n => d i.succ).map fin := by
      rw [List.ofFn_succ, List.map_ofFn]; rfl
    unfold armaMin
    rw [e, List.foldl_cons, if_pos (by rfl)]
    obtain ⟨r, h1, h2, h3, h4⟩ := gen (List.ofFn fun i : Fin n => d i.succ) (d 0)
    rw [h1]
    have hex : ∃ a, r = d a := by
      rcases h2 with h2 | h2
      · exact ⟨0, h2⟩
      · obtain ⟨i, hi⟩ := List.mem_ofFn.mp h2
        exact ⟨i.succ, hi.symm⟩
    obtain ⟨a, rfl⟩ := hex
    refine ⟨a, rfl, fun b => ?_⟩
    refine Fin.cases h3 (fun i => ?_) b
    exact h4 _ (List.mem_ofFn.mpr ⟨i, rfl⟩)

theorem limitIncrement_fin (x lo hi : K) : ∃ r, limitIncrement (fin x) (fin lo) (fin hi) = fin r ∧
    r = if 0 < hi ∧ hi < x then hi else if hi < 0 ∧ 0 < x then hi else if lo < 0 ∧ x < lo then lo
      else if 0 < lo ∧ x < 0 then lo else x := by
  refine ⟨_, ?_, rfl⟩
  simp only [limitIncrement, zero_def, gt_fin, lt_fin, Bool.and_eq_true, decide_eq_true_eq]
  split_ifs <;> rfl

theorem limited {n : Nat} (d : Fin n → K) (x lo hi : K) (a b : Fin n) (ha : lo = d a) (hb : hi = d b) (hlo : ∀ c, lo ≤ d c)
    (hhi : ∀ c, d c ≤ hi) :
    Spec.Limited d x (if 0 < hi ∧ hi < x then hi else if hi < 0 ∧ 0 < x then hi else if lo < 0 ∧ x < lo then lo
      else if 0 < lo ∧ x < 0 then lo else x) := by
  have hlh : lo ≤ hi := by rw [ha]; exact hhi a
  have inr : Spec.InRange d x ↔ (0 ≤ x ∨ lo ≤ x) ∧ (x ≤ 0 ∨ x ≤ hi) := by
    unfold Spec.InRange
    constructor
    · rintro ⟨h1, h2⟩
      refine ⟨h1.imp id fun ⟨c, hc⟩ => (hlo c).trans hc, h2.imp id fun ⟨c, hc⟩ => hc.trans (hhi c)⟩
    · rintro ⟨h1, h2⟩
      exact ⟨h1.imp id fun h => ⟨a, ha ▸ h⟩, h2.imp id fun h => ⟨b, hb ▸ h⟩⟩
  have gap : Spec.Gap d x ↔ (0 < x ∧ hi = 0) ∨ (x < 0 ∧ lo = 0) := by
    unfold Spec.Gap
    constructor
    · rintro (⟨h1, h2, c, hc⟩ | ⟨h1, h2, c, hc⟩)
      · exact Or.inl ⟨h1, le_antisymm (hb ▸ h2 b) (hc ▸ hhi c)⟩
      · exact Or.inr ⟨h1, le_antisymm (hc ▸ hlo c) (ha ▸ h2 a)⟩
    · rintro (⟨h1, h2⟩ | ⟨h1, h2⟩)
      · exact Or.inl ⟨h1, fun c => h2 ▸ hhi c, b, hb ▸ h2⟩
      · exact Or.inr ⟨h1, fun c => h2 ▸ hlo c, a, ha ▸ h2⟩
  refine ⟨?_, ?_, ?_⟩
  · rw [inr, gap]
    intro h
    split_ifs with h1 h2 h3 h4
    · exfalso
      rcases h with ⟨_, h | h⟩ | ⟨_, h⟩ | ⟨h, _⟩
      · linarith [h1.1, h1.2]
      · linarith [h1.2]
      · linarith [h1.1]
      · linarith [h1.1, h1.2]
    · exfalso
      rcases h with ⟨_, h | h⟩ | ⟨_, h⟩ | ⟨h, _⟩
      · linarith [h2.2]
      · linarith [h2.1, h2.2]
      · linarith [h2.1]
      · linarith [h2.2]
    · exfalso
      rcases h with ⟨h | h, _⟩ | ⟨h, _⟩ | ⟨_, h⟩
      · linarith [h3.1, h3.2]
      · linarith [h3.2]
      · linarith [h3.1, h3.2]
      · linarith [h3.1]
    · exfalso
      rcases h with ⟨h | h, _⟩ | ⟨h, _⟩ | ⟨_, h⟩
      · linarith [h4.2]
      · linarith [h4.1, h4.2]
      · linarith [h4.2]
      · linarith [h4.1]
    · rfl
  · rw [inr, gap]
    intro h g hx
    have h1 : hi < x := by
      by_contra hc
      exact h ⟨Or.inl hx.le, Or.inr (not_lt.mp hc)⟩
    rcases lt_trichotomy hi 0 with h0 | h0 | h0
    · rw [if_neg (fun c => by linarith [c.1]), if_pos ⟨h0, hx⟩]; exact ⟨⟨b, hb⟩, hhi⟩
    · exact absurd (Or.inl ⟨hx, h0⟩) g
    · rw [if_pos ⟨h0, h1⟩]; exact ⟨⟨b, hb⟩, hhi⟩
  · rw [inr, gap]
    intro h g hx
    have h1 : x < lo := by
      by_contra hc
      exact h ⟨Or.inr (not_lt.mp hc), Or.inl hx.le⟩
    rw [if_neg (fun c => by linarith [c.1, c.2]), if_neg (fun c => by linarith [c.2])]
    rcases lt_trichotomy lo 0 with h0 | h0 | h0
    · rw [if_pos ⟨h0, h1⟩]; exact ⟨⟨a, ha⟩, hlo⟩
    · exact absurd (Or.inr ⟨hx, h0⟩) g
    · rw [if_neg (fun c => by linarith [c.1]), if_pos ⟨h0, hx⟩]; exact ⟨⟨a, ha⟩, hlo⟩

/-! ### Solving -/

theorem toRows_eq {n : Nat} (sel : Fin n → Nat) (P : Nat → Nat → K) (ratio d : Nat → K) :
    oiMatrix (List.ofFn fun a => (fin (d (sel a)), fin (ratio (sel a)), List.ofFn fun b => fin (P (sel a) (sel b)))) =
      toRows (Spec.system sel P ratio) := by
  unfold oiMatrix toRows
  apply List.ext_getElem
  · simp
  · intro i h1 h2
    simp only [List.getElem_mapIdx, List.getElem_ofFn]
    apply List.ext_getElem
    · simp
    · intro j h3 h4
      simp only [List.getElem_mapIdx, List.getElem_ofFn, Spec.system, Matrix.of_apply, zero_def]
      by_cases hij : i = j
      · rw [if_pos hij, if_pos (by simpa using hij)]; rfl
      · rw [if_neg hij, if_neg (by simpa using hij)]; rfl

/-- The rows of the selected observations. -/
abbrev selRows {n : Nat} (sel : Fin n → Nat) (P : Nat → Nat → K) (ratio d : Nat → K) : List (Fl K × Fl K × List (Fl K)) :=
  List.ofFn fun a => (fin (d (sel a)), fin (ratio (sel a)), List.ofFn fun b => fin (P (sel a) (sel b)))

theorem oiSolve_ok {A : Arma K} (hA : A.Lawful) {n : Nat} (hn : 0 < n) (sel : Fin n → Nat) (rho : Nat → K) (P : Nat → Nat → K)
    (ratio d : Nat → K) (extrap : Bool) (hdet : (Spec.system sel P ratio).det ≠ 0) :
    ∃ w : Fin n → K, w ᵥ* Spec.system sel P ratio = rho ∘ sel ∧ ∃ inc,
      oiSolve A (List.ofFn fun a => (fin (rho (sel a)), sel a)) (selRows sel P ratio d) extrap =
        ok (fin inc, fin (w ⬝ᵥ (rho ∘ sel))) ∧
      (extrap = true → inc = w ⬝ᵥ (d ∘ sel)) ∧ (extrap = false → Spec.Limited (d ∘ sel) (w ⬝ᵥ (d ∘ sel)) inc) := by
  have hu : IsUnit (Spec.system sel P ratio).det := isUnit_iff_ne_zero.mpr hdet
  refine ⟨(rho ∘ sel) ᵥ* (Spec.system sel P ratio)⁻¹, ?_, ?_⟩
  · rw [Matrix.vecMul_vecMul, Matrix.nonsing_inv_mul _ hu, Matrix.vecMul_one]
  · have e1 : (List.ofFn fun a => (fin (rho (sel a)), sel a)).map Prod.fst = List.ofFn fun a => fin ((rho ∘ sel) a) := by
      rw [List.map_ofFn]; rfl
    have e2 : (selRows sel P ratio d).map Prod.fst = List.ofFn fun a => fin ((d ∘ sel) a) := by
      rw [List.map_ofFn]; rfl
    obtain ⟨a, ha1, ha2⟩ := armaMin_ofFn (d ∘ sel) hn
    obtain ⟨b, hb1, hb2⟩ := armaMax_ofFn (d ∘ sel) hn
    unfold oiSolve
    rw [toRows_eq, hA.inv_ok _ _ hdet, ok_bind]
    simp only [e1, e2, vecMat_ofFn, dot_ofFn, ha1, hb1]
    generalize (rho ∘ sel) ᵥ* (Spec.system sel P ratio)⁻¹ = w
    cases extrap with
    | true => exact ⟨w ⬝ᵥ (d ∘ sel), rfl, fun _ => rfl, fun h => by cases h⟩
    | false =>
      obtain ⟨r, hr1, hr2⟩ := limitIncrement_fin (w ⬝ᵥ (d ∘ sel)) ((d ∘ sel) a) ((d ∘ sel) b)
      refine ⟨r, ?_, fun h => (by cases h), fun _ => ?_⟩
      · rw [hr1]; rfl
      · rw [hr2]; exact limited _ _ _ _ a b rfl rfl ha2 hb2

theorem oiSolve_singular {A : Arma K} (hA : A.Lawful) {n : Nat} (sel : Fin n → Nat) (rho : Nat → K) (P : Nat → Nat → K)
    (ratio d : Nat → K) (extrap : Bool) (hdet : (Spec.system sel P ratio).det = 0) :
    oiSolve A (List.ofFn fun a => (fin (rho (sel a)), sel a)) (selRows sel P ratio d) extrap = .throw .runtimeError := by
  unfold oiSolve
  rw [toRows_eq, hA.inv_singular _ _ hdet]
  rfl

end
end Gridpp
