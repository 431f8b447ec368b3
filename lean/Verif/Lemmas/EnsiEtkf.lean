import Verif.Lemmas.Etkf
import Verif.Lemmas.Ensi
import Verif.Lemmas.OI
import Verif.Spec.Kalman

/-! The transform of `optimal_interpolation_ensi` on data that are numbers. -/

set_option linter.unusedSectionVars false

namespace Gridpp
open Fl Res Matrix

section
variable {K : Type} [Field K] [LinearOrder K] [IsStrictOrderedRing K]

/-- What is required of Armadillo (beyond `Arma.Lawful`): `rcond` of an invertible matrix with rows is positive, and `eig_sym` finds the
eigenvalues and an orthonormal basis of eigenvectors of a symmetric matrix (without rounding). -/
structure ArmaE.Lawful (A : ArmaE K) : Prop where
  arma : A.toArma.Lawful
  rcond_pos : ∀ (n : Nat) (M : Matrix (Fin n) (Fin n) K), 0 < n → M.det ≠ 0 → (A.rcond (toRows M)).gt 0 = true
  eigSym_ok : ∀ (n : Nat) (M : Matrix (Fin n) (Fin n) K), 0 < n → Mᵀ = M → ∃ (lam : Fin n → K) (V : Matrix (Fin n) (Fin n) K),
    A.eigSym (toRows M) = some (List.ofFn fun i => fin (lam i), toRows V) ∧ Vᵀ * V = 1 ∧ M = V * diagonal lam * Vᵀ

theorem sumTo_fin {n : Nat} {f : Nat → Fl K} {g : Fin n → K} (h : ∀ k : Fin n, f k = fin (g k)) : sumTo n f = fin (∑ k, g k) := by
  unfold sumTo
  have h1 : (List.range n).foldl (fun a k => a + f k) 0 = ((List.ofFn g).map fin).foldl (· + ·) (fin 0) := by
    have : (List.ofFn g).map fin = (List.range n).map f := by
      apply List.ext_getElem
      · simp
      · intro k h1 h2
        simp only [List.getElem_map, List.getElem_ofFn, List.getElem_range]
        have hk : k < n := by simpa using h1
        exact (h ⟨k, hk⟩).symm
    rw [this, List.foldl_map]
    rfl
  rw [h1, foldl_add_fin, zero_add, List.sum_ofFn]

theorem ent_toRows {m n : Nat} (M : Matrix (Fin m) (Fin n) K) (i : Fin m) (j : Fin n) : ent (toRows M) i j = fin (M i j) := by
  simp [ent, toRows, List.getD]

theorem tab_toRows {m n : Nat} {f : Nat → Nat → Fl K} {M : Matrix (Fin m) (Fin n) K} (h : ∀ (i : Fin m) (j : Fin n), f i j = fin (M i j)) :
    tab m n f = toRows M := by
  unfold tab toRows
  apply List.ext_getElem
  · simp
  · intro i h1 h2
    have hi : i < m := by simpa using h1
    simp only [List.getElem_map, List.getElem_range, List.getElem_ofFn]
    apply List.ext_getElem
    · simp
    · intro j h3 h4
      have hj : j < n := by simpa using h3
      simpa using h ⟨i, hi⟩ ⟨j, hj⟩

theorem mmul_toRows {m k n : Nat} (A : Matrix (Fin m) (Fin k) K) (B : Matrix (Fin k) (Fin n) K) :
    mmul m k n (toRows A) (toRows B) = toRows (A * B) := by
  unfold mmul
  refine tab_toRows fun i j => ?_
  rw [sumTo_fin (g := fun l => A i l * B l j) (fun l => by rw [ent_toRows, ent_toRows, fin_mul])]
  rfl

theorem getD_ofFn {n : Nat} (f : Fin n → Fl K) (i : Fin n) : (List.ofFn f).getD i nan = f i := by simp [List.getD]

/-- The selected observations as numbers. -/
def ensiRows {m n : Nat} (o q h : Fin m → K) (Y Z : Matrix (Fin m) (Fin n) K) : List (EnsiObs K) :=
  List.ofFn fun i => ⟨fin (o i), fin (q i), fin (h i), List.ofFn fun e => fin (Y i e), List.ofFn fun e => fin (Z i e)⟩

section
variable {m n : Nat} (o q h : Fin m → K) (Y Z : Matrix (Fin m) (Fin n) K)

theorem ensiRows_length : (ensiRows o q h Y Z).length = m := by simp [ensiRows]

theorem ensiRows_z : (ensiRows o q h Y Z).map EnsiObs.z = toRows Z := by
  unfold ensiRows toRows; rw [List.map_ofFn]; rfl

theorem ensiRows_y : (ensiRows o q h Y Z).map EnsiObs.y = toRows Y := by
  unfold ensiRows toRows; rw [List.map_ofFn]; rfl

theorem ensiRows_rinv : (ensiRows o q h Y Z).map EnsiObs.rinv = List.ofFn fun i => fin (q i) := by
  unfold ensiRows; rw [List.map_ofFn]; rfl

theorem ensiRows_innov : (ensiRows o q h Y Z).map (fun r => r.obs - r.yhat) = List.ofFn fun i => fin (o i - h i) := by
  unfold ensiRows
  rw [List.map_ofFn]
  congr 1
  funext i
  exact fin_sub _ _

theorem ensiC_toRows : ensiC n (ensiRows o q h Y Z) = toRows (Zᵀ * diagonal q) := by
  unfold ensiC
  rw [ensiRows_length, ensiRows_z, ensiRows_rinv]
  refine tab_toRows fun e i => ?_
  rw [sumTo_fin (g := fun l => Z l e * if l = i then q i else 0) (fun l => by
    rw [ent_toRows, getD_ofFn]
    by_cases hl : l = i
    · rw [if_pos hl, if_pos (by rw [hl]), fin_mul]
    · rw [if_neg hl, if_neg (fun c => hl (Fin.ext c)), zero_def, fin_mul])]
  congr 1
  rw [Matrix.mul_apply]
  refine Finset.sum_congr rfl fun l _ => ?_
  rw [transpose_apply, diagonal_apply]
  by_cases hl : l = i
  · rw [if_pos hl, if_pos hl, hl]
  · rw [if_neg hl, if_neg hl]

theorem ensiPinv_toRows (δ : K) : ensiPinv n (ensiRows o q h Y Z) (fin δ) = toRows (pinvMat Z q δ) := by
  unfold ensiPinv
  rw [ensiC_toRows, ensiRows_length, ensiRows_z]
  refine tab_toRows fun e f => ?_
  rw [sumTo_fin (g := fun i => (Zᵀ * diagonal q) e i * Z i f) (fun i => by rw [ent_toRows, ent_toRows, fin_mul])]
  unfold pinvMat
  rw [Matrix.add_apply, Matrix.smul_apply, Matrix.one_apply, Matrix.mul_apply]
  by_cases hl : e = f
  · rw [if_pos hl, if_pos (by rw [hl]), fin_add, smul_eq_mul, mul_one]
  · rw [if_neg hl, if_neg (fun c => hl (Fin.ext c)), zero_def, fin_add, smul_eq_mul, mul_zero]

theorem ensiWeights_toRows (P : Matrix (Fin n) (Fin n) K) :
    ensiWeights n (ensiRows o q h Y Z) (toRows P) = List.ofFn fun e => fin ((P *ᵥ (Zᵀ *ᵥ (diagonal q *ᵥ (o - h)))) e) := by
  unfold ensiWeights
  rw [ensiC_toRows, ensiRows_length, mmul_toRows, ensiRows_innov]
  apply List.ext_getElem
  · simp
  · intro e h1 h2
    have he : e < n := by simpa using h1
    simp only [List.getElem_map, List.getElem_range, List.getElem_ofFn]
    rw [sumTo_fin (g := fun i => (P * (Zᵀ * diagonal q)) ⟨e, he⟩ i * (o i - h i)) (fun i => by
      have := ent_toRows (P * (Zᵀ * diagonal q)) ⟨e, he⟩ i
      simp only at this
      rw [this, getD_ofFn, fin_mul])]
    have e2 : P *ᵥ (Zᵀ *ᵥ (diagonal q *ᵥ (o - h))) = (P * (Zᵀ * diagonal q)) *ᵥ (o - h) := by
      rw [mulVec_mulVec, mulVec_mulVec, Matrix.mul_assoc]
    have e3 := congrFun e2 ⟨e, he⟩
    rw [e3]
    rfl

end

theorem ensiW_toRows [LawfulSqrt K] {n : Nat} (lam : Fin n → K) (hl : ∀ i, 0 ≤ lam i) (V : Matrix (Fin n) (Fin n) K) :
    ensiW n (List.ofFn fun i => fin (lam i)) (toRows V) = toRows (V * diagonal (fun i => HasSqrt.sqrt (lam i)) * Vᵀ) := by
  unfold ensiW
  refine tab_toRows fun e f => ?_
  rw [sumTo_fin (g := fun k => (V * diagonal (fun i => HasSqrt.sqrt (lam i))) e k * V f k) (fun k => by
    rw [sumTo_fin (g := fun j => V e j * if j = k then HasSqrt.sqrt (lam j) else 0) (fun j => by
      rw [ent_toRows, getD_ofFn]
      by_cases hj : j = k
      · rw [if_pos hj, if_pos (by rw [hj]), sqrt_fin (hl j), fin_mul]
      · rw [if_neg hj, if_neg (fun c => hj (Fin.ext c)), zero_def, fin_mul]), ent_toRows, fin_mul]
    rfl)]
  rfl

/-- The transform exists, and `W` is the symmetric root of `(n - 1) P`. -/
theorem ensiTransform_ok [LawfulSqrt K] {A : ArmaE K} (hA : A.Lawful) {m n : Nat} (hn : 0 < n) (o q h : Fin m → K) (hq : ∀ i, 0 < q i)
    (Y Z : Matrix (Fin m) (Fin n) K) {δ : K} (hδ : 0 < δ) : ∃ W : Matrix (Fin n) (Fin n) K,
      SymRoot (((n : K) - 1) • (pinvMat Z q δ)⁻¹) W ∧ ensiTransform A n (ensiRows o q h Y Z) (fin δ) =
        ok (some (toRows W, List.ofFn fun e => fin (((pinvMat Z q δ)⁻¹ *ᵥ (Zᵀ *ᵥ (diagonal q *ᵥ (o - h)))) e))) := by
  have hdet := pinv_det Z (fun i => (hq i).le) hδ
  have hu : IsUnit (pinvMat Z q δ).det := isUnit_iff_ne_zero.mpr hdet
  have hn1 : (0 : K) ≤ (n : K) - 1 := by
    have : (1 : K) ≤ (n : K) := by exact_mod_cast hn
    linarith
  have hsym : (((n : K) - 1) • (pinvMat Z q δ)⁻¹)ᵀ = ((n : K) - 1) • (pinvMat Z q δ)⁻¹ := by
    rw [transpose_smul, transpose_nonsing_inv, pinv_symm]
  obtain ⟨lam, V, h1, h2, h3⟩ := hA.eigSym_ok n _ hn hsym
  have hpos : ∀ v, 0 ≤ v ⬝ᵥ ((((n : K) - 1) • (pinvMat Z q δ)⁻¹) *ᵥ v) := by
    intro v
    have hv : v = pinvMat Z q δ *ᵥ ((pinvMat Z q δ)⁻¹ *ᵥ v) := by rw [mulVec_mulVec, Matrix.mul_nonsing_inv _ hu, one_mulVec]
    rw [smul_mulVec, dotProduct_smul, smul_eq_mul]
    refine mul_nonneg hn1 ?_
    rw [dotProduct_comm]
    nth_rw 2 [hv]
    rw [pinv_form]
    exact add_nonneg (diag_form_nonneg (fun i => (hq i).le) _) (mul_nonneg hδ.le (dot_self_nonneg _))
  have hl := eigen_nonneg h2 h3 hpos
  refine ⟨V * diagonal (fun i => HasSqrt.sqrt (lam i)) * Vᵀ, symRoot_of_eigen h2 h3 (fun i => LawfulSqrt.sqrt_nonneg _ (hl i))
    (fun i => LawfulSqrt.sqrt_mul_self _ (hl i)), ?_⟩
  have hrc : ¬ (A.rcond (toRows (pinvMat Z q δ))).le 0 = true := by
    have := hA.rcond_pos n _ hn hdet
    revert this
    cases A.rcond (toRows (pinvMat Z q δ)) with
    | fin _ => simp [zero_def]
    | _ => simp [Fl.gt, Fl.le, Fl.lt, Fl.feq]
  have he : (tab n n fun e f => Fl.ofInt ((n : Int) - 1) * ent (toRows (pinvMat Z q δ)⁻¹) e f) =
      toRows (((n : K) - 1) • (pinvMat Z q δ)⁻¹) := tab_toRows fun i j => by
    rw [ent_toRows, ofInt_def, fin_mul]
    simp
  unfold ensiTransform
  simp only [ensiPinv_toRows]
  rw [if_neg hrc, hA.arma.inv_ok _ _ hdet, ok_bind, he, h1]
  simp only [ensiFactor]
  rw [if_neg (by simp [toRows]; omega), ensiW_toRows lam hl, ensiWeights_toRows]

/-! ### Sums over members -/

theorem sum_members (members : List Nat) (hnd : members.Nodup) (f : Nat → K) :
    ∑ k : Fin members.length, f (members.get k) = ∑ e ∈ members.toFinset, f e := by
  rw [List.sum_toFinset f hnd, ← List.sum_ofFn]
  congr 1
  rw [← List.ofFn_get (members.map f)]
  apply List.ext_getElem <;> simp

theorem vals_eq_filter (row : List (Fl K)) (c : Nat → Bool) (p : Nat → K) (h1 : ∀ e < row.length, c e = true → row[e]? = some (fin (p e)))
    (h2 : ∀ e < row.length, c e = false → ∀ v, row[e]? ≠ some (fin v)) : vals row = ((List.range row.length).filter c).map p := by
  induction row using List.reverseRecOn with
  | nil => rfl
  | append_singleton t a ih =>
    have hlast : (t ++ [a])[t.length]? = some a := by simp
    have hget : ∀ e < t.length, (t ++ [a])[e]? = t[e]? := fun e he => List.getElem?_append_left he
    have hl : (t ++ [a]).length = t.length + 1 := by simp
    rw [vals_append, hl, List.range_succ, List.filter_append, List.map_append,
      ih (fun e he hc => by rw [← hget e he]; exact h1 e (by omega) hc) (fun e he hc v => by rw [← hget e he]; exact h2 e (by omega) hc v)]
    congr 1
    cases hc : c t.length with
    | true =>
      have := h1 t.length (by omega) hc
      rw [hlast, Option.some.injEq] at this
      simp [hc, this]
    | false =>
      have h3 := h2 t.length (by omega) hc
      rw [hlast] at h3
      cases a with
      | fin q => exact absurd rfl (h3 q)
      | _ => simp [hc]

theorem meanStat_members (row : List (Fl K)) (S : Finset Nat) (hS : S.Nonempty) (p : Nat → K) (h1 : ∀ e ∈ S, row[e]? = some (fin (p e)))
    (h2 : ∀ e, e ∉ S → ∀ v, row[e]? ≠ some (fin v)) : meanStat row = fin (Spec.ensMean S p) := by
  have e1 := vals_eq_filter row (fun e => decide (e ∈ S)) p (fun e _ hc => h1 e (by simpa using hc)) (fun e _ hc => h2 e (by simpa using hc))
  have hSl : S = ((List.range row.length).filter fun e => decide (e ∈ S)).toFinset := by
    ext e
    simp only [List.toFinset_filter, Finset.mem_filter, List.mem_toFinset, List.mem_range, decide_eq_true_eq]
    refine ⟨fun he => ⟨?_, he⟩, fun he => he.2⟩
    have := h1 e he
    exact (List.getElem?_eq_some_iff.mp this).1
  have hnd : ((List.range row.length).filter fun e => decide (e ∈ S)).Nodup := List.nodup_range.filter _
  have e2 : (vals row).sum = ∑ e ∈ S, p e := by
    rw [e1, ← List.sum_toFinset p hnd, ← hSl]
  have e3 : (vals row).length = S.card := by
    rw [e1, List.length_map, ← List.toFinset_card_of_nodup hnd, ← hSl]
  have hc : 0 < S.card := hS.card_pos
  unfold meanStat
  rw [sumCount_eq]
  simp only [e2, e3]
  rw [if_pos hc, ofNat_def, fin_div_of_ne _ (by exact_mod_cast hc.ne')]
  rfl

/-! ### The update of one output point -/

/-- The new values of the members. -/
theorem ensiUpdate_gen (row : List (Fl K)) (members : List Nat) (hnd : members.Nodup) (hn : 0 < members.length) (b : Nat → K)
    (hrow : ∀ e ∈ members, row[e]? = some (fin (b e))) (rows : List (EnsiObs K)) (W : Matrix (Fin members.length) (Fin members.length) K)
    (w : Fin members.length → K) (X : Fin members.length → K) (hX : ∀ k, X k = b (members.get k) - Spec.ensMean members.toFinset b)
    (extrap : Bool) :
    ∃ out, ensiUpdate row members rows extrap (some (toRows W, List.ofFn fun e => fin (w e))) = ok out ∧ out.length = row.length ∧
      (∀ i, i ∉ members → out[i]? = row[i]?) ∧
      ∀ k : Fin members.length, out[members.get k]? = some (fin (Spec.ensMean members.toFinset b) +
        (if extrap then fin ((X ᵥ* W) k + X ⬝ᵥ w) else ensiLimit rows k (fin (X k)) (fin ((X ᵥ* W) k + X ⬝ᵥ w)))) := by
  have hm : ∀ e ∈ members, e < row.length := fun e he => (List.getElem?_eq_some_iff.mp (hrow e he)).1
  have hv : mapM (fun ei : Nat => vget row (ei : Int)) members = ok (List.ofFn fun k => fin (b (members.get k))) := by
    rw [mapM_ok (g := fun e => fin (b e)) (fun e he => vget_some (hrow e he))]
    congr 1
    apply List.ext_getElem <;> simp
  have hmean : (sumTo members.length fun k => (List.ofFn fun k => fin (b (members.get k))).getD k nan) / Fl.ofNat members.length =
      fin (Spec.ensMean members.toFinset b) := by
    rw [sumTo_fin (g := fun k => b (members.get k)) (fun k => getD_ofFn _ k), sum_members members hnd, ofNat_def,
      fin_div_of_ne _ (by exact_mod_cast hn.ne')]
    unfold Spec.ensMean
    rw [List.toFinset_card_of_nodup hnd]
  have hXl : (List.ofFn fun k => fin (b (members.get k))).map (fun v => v - fin (Spec.ensMean members.toFinset b)) =
      List.ofFn fun k => fin (X k) := by
    rw [List.map_ofFn]
    congr 1
    funext k
    simp only [Function.comp, fin_sub, hX]
  have hl : (List.ofFn fun k : Fin members.length => fin (b (members.get k))).length = members.length := by simp
  have hvals : (List.range members.length).map (ensiMember rows extrap (fin (Spec.ensMean members.toFinset b)) (List.ofFn fun k => fin (X k))
      fun k e => ent (toRows W) k e + (List.ofFn fun e => fin (w e)).getD k nan) =
      List.ofFn fun k : Fin members.length => fin (Spec.ensMean members.toFinset b) +
        (if extrap then fin ((X ᵥ* W) k + X ⬝ᵥ w) else ensiLimit rows k (fin (X k)) (fin ((X ᵥ* W) k + X ⬝ᵥ w))) := by
    apply List.ext_getElem
    · simp
    · intro k h1 h2
      have hk : k < members.length := by simpa using h1
      simp only [List.getElem_map, List.getElem_range, List.getElem_ofFn, ensiMember]
      have e : (List.ofFn fun k => fin (X k)).length = members.length := by simp
      have e2 : (sumTo members.length fun j => (List.ofFn fun k => fin (X k)).getD j nan * (ent (toRows W) j k +
          (List.ofFn fun e => fin (w e)).getD j nan)) = fin ((X ᵥ* W) ⟨k, hk⟩ + X ⬝ᵥ w) := by
        rw [sumTo_fin (g := fun j => X j * (W j ⟨k, hk⟩ + w j)) (fun j => by
          have := ent_toRows W j ⟨k, hk⟩
          simp only at this
          rw [getD_ofFn, getD_ofFn, this, fin_add, fin_mul])]
        simp only [mul_add, Finset.sum_add_distrib]
        rfl
      have e3 : (List.ofFn fun k => fin (X k)).getD k nan = fin (X ⟨k, hk⟩) := getD_ofFn (fun k => fin (X k)) ⟨k, hk⟩
      rw [e, e2, e3]
  obtain ⟨out, h1, h2, h3, h4⟩ := writeMembers_eq row members (List.ofFn fun k : Fin members.length => fin (Spec.ensMean members.toFinset b) +
    (if extrap then fin ((X ᵥ* W) k + X ⬝ᵥ w) else ensiLimit rows k (fin (X k)) (fin ((X ᵥ* W) k + X ⬝ᵥ w)))) hm
  refine ⟨out, ?_, h2, h3, fun k => h4 hnd k _ _ (by simp) (by simp)⟩
  simp only [ensiUpdate, hv, ok_bind, hl, hmean, hXl, hvals, h1]

/-! ### The Kalman update -/

theorem sum_dev (S : Finset Nat) (hS : S.Nonempty) (x : Nat → K) : ∑ e ∈ S, (x e - Spec.ensMean S x) = 0 := by
  have hc : (S.card : K) ≠ 0 := by exact_mod_cast hS.card_pos.ne'
  rw [Finset.sum_sub_distrib, Finset.sum_const, nsmul_eq_mul]
  unfold Spec.ensMean
  field_simp
  ring

theorem kalman_of_etkf (members : List Nat) (hnd : members.Nodup) (hn : 2 ≤ members.length) (x : Nat → K) {m : Nat} (p : Fin m → Nat → K)
    (q r o : Fin m → K) (hr : ∀ i, 0 < r i) (hq : ∀ i, q i = (r i)⁻¹) (Y : Matrix (Fin m) (Fin members.length) K)
    (hY : ∀ i k, Y i k = p i (members.get k) - Spec.ensMean members.toFinset (p i)) (X : Fin members.length → K)
    (hX : ∀ k, X k = x (members.get k) - Spec.ensMean members.toFinset x) (W : Matrix (Fin members.length) (Fin members.length) K)
    (hW : SymRoot (((members.length : K) - 1) • (pinvMat Y q ((members.length : K) - 1))⁻¹) W) (a : Nat → K)
    (ha : ∀ k, a (members.get k) = Spec.ensMean members.toFinset x + ((X ᵥ* W) k + X ⬝ᵥ ((pinvMat Y q ((members.length : K) - 1))⁻¹ *ᵥ
      (Yᵀ *ᵥ (diagonal q *ᵥ (o - fun i => Spec.ensMean members.toFinset (p i))))))) :
    Spec.KalmanUpdate members.toFinset x p r o a := by
  have hcard : members.toFinset.card = members.length := List.toFinset_card_of_nodup hnd
  have hne : members.toFinset.Nonempty := Finset.card_pos.mp (by omega)
  have hn0 : (members.length : K) ≠ 0 := by exact_mod_cast (by omega : members.length ≠ 0)
  have hδ : (0 : K) < (members.length : K) - 1 := by
    have : (2 : K) ≤ (members.length : K) := by exact_mod_cast hn
    linarith
  generalize hδe : (members.length : K) - 1 = δ at *
  have hq0 : ∀ i, 0 < q i := fun i => by rw [hq]; exact inv_pos.mpr (hr i)
  have hqi : (fun i => (q i)⁻¹) = r := by funext i; rw [hq, inv_inv]
  have hY1 : Y *ᵥ 1 = 0 := by
    funext i
    have : (Y *ᵥ 1) i = ∑ k, (p i (members.get k) - Spec.ensMean members.toFinset (p i)) := by
      simp only [mulVec, dotProduct, Pi.one_apply, mul_one, hY]
    rw [this, sum_members members hnd fun e => p i e - Spec.ensMean members.toFinset (p i), sum_dev _ hne]
    rfl
  have hX1 : X ⬝ᵥ 1 = 0 := by
    have : X ⬝ᵥ 1 = ∑ k, (x (members.get k) - Spec.ensMean members.toFinset x) := by
      simp only [dotProduct, Pi.one_apply, mul_one, hX]
    rw [this, sum_members members hnd fun e => x e - Spec.ensMean members.toFinset x, sum_dev _ hne]
  obtain ⟨h1, k, h2, h3, h4, h5⟩ := etkf Y hq0 hδ (zero_lt_one) (by ring) hY1 hX1 hW (o - fun i => Spec.ensMean members.toFinset (p i))
  rw [hqi] at h2
  have hcovY : ∀ i j, Spec.ensCov members.toFinset (p i) (p j) = (Y * Yᵀ) i j / δ := by
    intro i j
    unfold Spec.ensCov
    rw [hcard, hδe, Matrix.mul_apply,
      ← sum_members members hnd fun e => (p i e - Spec.ensMean members.toFinset (p i)) * (p j e - Spec.ensMean members.toFinset (p j))]
    simp only [transpose_apply, hY]
  have hcovX : ∀ j, Spec.ensCov members.toFinset (p j) x = (Y *ᵥ X) j / δ := by
    intro j
    unfold Spec.ensCov
    rw [hcard, hδe, ← sum_members members hnd fun e => (p j e - Spec.ensMean members.toFinset (p j)) * (x e - Spec.ensMean members.toFinset x)]
    simp only [mulVec, dotProduct, hY, hX]
  have hcovXX : Spec.ensCov members.toFinset x x = (X ⬝ᵥ X) / δ := by
    unfold Spec.ensCov
    rw [hcard, hδe, ← sum_members members hnd fun e => (x e - Spec.ensMean members.toFinset x) * (x e - Spec.ensMean members.toFinset x)]
    simp only [dotProduct, hX]
  have hmean : Spec.ensMean members.toFinset a = Spec.ensMean members.toFinset x + k ⬝ᵥ (o - fun i => Spec.ensMean members.toFinset (p i)) := by
    conv_lhs => unfold Spec.ensMean
    rw [hcard, ← sum_members members hnd]
    simp only [ha, h3]
    rw [Finset.sum_add_distrib, Finset.sum_add_distrib, Finset.sum_const, Finset.sum_const, Finset.card_univ, Fintype.card_fin,
      nsmul_eq_mul, nsmul_eq_mul]
    have : ∑ k, (X ᵥ* W) k = 0 := by rw [← h1]; simp only [dotProduct, Pi.one_apply, mul_one]
    rw [this]
    field_simp
    ring
  have hvar : Spec.ensCov members.toFinset a a = (X ⬝ᵥ X - k ⬝ᵥ (Y *ᵥ X)) / δ := by
    unfold Spec.ensCov
    rw [hcard, hδe, ← sum_members members hnd fun e => (a e - Spec.ensMean members.toFinset a) * (a e - Spec.ensMean members.toFinset a)]
    have e : ∑ j, (a (members.get j) - Spec.ensMean members.toFinset a) * (a (members.get j) - Spec.ensMean members.toFinset a) =
        (X ᵥ* W) ⬝ᵥ (X ᵥ* W) := by
      refine Finset.sum_congr rfl fun j _ => ?_
      rw [ha, h3, hmean]
      ring
    rw [e]
    congr 1
    exact mul_left_cancel₀ hδ.ne' h4
  have hkx : ∑ i, k i * Spec.ensCov members.toFinset (p i) x = (k ⬝ᵥ (Y *ᵥ X)) / δ := by
    simp only [hcovX, dotProduct, div_eq_mul_inv, Finset.sum_mul, mul_assoc]
  have hgain : ∀ k', Spec.KalmanGain members.toFinset x p r k' ↔ k' ᵥ* (Y * Yᵀ + δ • diagonal r) = Y *ᵥ X := by
    intro k'
    unfold Spec.KalmanGain
    rw [funext_iff]
    refine forall_congr' fun j => ?_
    have e : (k' ᵥ* (Y * Yᵀ + δ • diagonal r)) j = δ * ∑ i, k' i * (Spec.ensCov members.toFinset (p i) (p j) + if i = j then r i else 0) := by
      rw [Finset.mul_sum]
      simp only [vecMul, dotProduct]
      refine Finset.sum_congr rfl fun i _ => ?_
      rw [Matrix.add_apply, Matrix.smul_apply, diagonal_apply, hcovY, smul_eq_mul]
      have := hδ.ne'
      field_simp
    rw [e, hcovX, eq_div_iff hδ.ne', mul_comm]
  refine ⟨k, fun k' => ?_, hmean, ?_, ?_⟩
  · rw [hgain]
    refine ⟨fun h => ?_, fun h => by rw [h]; exact h2⟩
    have hu : IsUnit (Y * Yᵀ + δ • diagonal r).det := isUnit_iff_ne_zero.mpr (inner_det Y hr hδ)
    have := congrArg (· ᵥ* (Y * Yᵀ + δ • diagonal r)⁻¹) (h.trans h2.symm)
    simpa [vecMul_vecMul, Matrix.mul_nonsing_inv _ hu] using this
  · rw [hvar, hcovXX, hkx, sub_div]
  · rw [hvar, hcovXX]
    exact div_le_div_of_nonneg_right (by linarith) hδ.le

end
end Gridpp
