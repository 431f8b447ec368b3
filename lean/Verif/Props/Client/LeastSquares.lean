import Verif.Props.Client.Inverse

/-! # C159: regression -/

set_option linter.unusedSectionVars false

namespace Gridpp.Props
open Fl hiding MV isValid
open Res Client Spec

variable {K : Type} [Field K] [LinearOrder K] [IsStrictOrderedRing K]

theorem foldl_add_fin : ∀ (l : List K) (a : K), (l.map fin).foldl (· + ·) (fin a) = fin (a + l.sum)
  | [], a => by simp
  | x :: l, a => by
    simp only [List.map_cons, List.foldl_cons, List.sum_cons, fin_add]
    rw [foldl_add_fin l (a + x), add_assoc]

theorem fdot_fin (a b : List K) : fdot (a.map fin) (b.map fin) = fin (kdot a b) := by
  unfold fdot kdot
  rw [List.zipWith_map, show List.zipWith (fun x y => (fin x * fin y : Fl K)) a b = (List.zipWith (· * ·) a b).map fin by
    rw [List.map_zipWith]
    rfl, foldl_add_fin, zero_add]

theorem getD_fin (c : List K) (t : Nat) : (c.map fin).getD t (fin 0) = fin (c.getD t 0) := by
  simp only [List.getD_eq_getElem?_getD, List.getElem?_map]
  cases c[t]? <;> rfl

/-- The products of the columns. -/
def gram (cols : List (List K)) : List (List K) := cols.map fun c => cols.map fun d => kdot c d

theorem gram_rect (cols : List (List K)) : Rect cols.length cols.length (gram cols) := by
  refine ⟨by simp [gram], ?_⟩
  intro r hr
  obtain ⟨c, -, rfl⟩ := List.mem_map.mp hr
  simp

/-- The matrix of the columns: a row for every time. -/
def design (T : Nat) (cols : List (List K)) : Matrix (Fin T) (Fin cols.length) K := fun t n => (cols.getD n []).getD t 0

theorem gram_matrix {T : Nat} {cols : List (List K)} (hc : ∀ c ∈ cols, c.length = T) :
    matOf cols.length cols.length (gram cols) = (design T cols).transpose * design T cols := by
  ext i j
  rw [Matrix.mul_apply]
  unfold matOf gram
  have hi : cols[(i : Nat)]? = some cols[(i : Nat)] := List.getElem?_eq_getElem i.2
  have hj : cols[(j : Nat)]? = some cols[(j : Nat)] := List.getElem?_eq_getElem j.2
  simp only [List.getD_eq_getElem?_getD, List.getElem?_map, hi, hj, Option.map_some, Option.getD_some]
  rw [kdot_sum T _ _ (hc _ (List.getElem_mem i.2)) (hc _ (List.getElem_mem j.2))]
  refine Finset.sum_congr rfl fun t _ => ?_
  rw [Matrix.transpose_apply]
  unfold design
  simp only [List.getD_eq_getElem?_getD, hi, hj, Option.getD_some]

theorem predict_eq {T : Nat} {cols : List (List K)} {b : List K} (hb : b.length = cols.length) (t : Fin T) :
    predict cols b t = ((design T cols).mulVec fun n => b.getD n 0) t := by
  unfold predict Matrix.mulVec dotProduct design
  rw [kdot_sum cols.length _ _ hb (by simp)]
  refine Finset.sum_congr rfl fun n _ => ?_
  have hn : cols[(n : Nat)]? = some cols[(n : Nat)] := List.getElem?_eq_getElem n.2
  simp only [List.getD_eq_getElem?_getD, List.getElem?_map, hn, Option.map_some, Option.getD_some]
  ring

theorem lsq_sum_range (T : Nat) (f : Nat → K) : ((List.range T).map f).sum = ∑ t : Fin T, f t := by
  induction T with
  | zero => simp
  | succ T ih => rw [List.range_succ, List.map_append, List.sum_append, ih, Fin.sum_univ_castSucc]; simp

theorem squaredError_eq {cols : List (List K)} {y b : List K} (hb : b.length = cols.length) :
    squaredError cols y b = ((fun t : Fin y.length => y.getD t 0) - (design y.length cols).mulVec fun n => b.getD n 0) ⬝ᵥ
      ((fun t : Fin y.length => y.getD t 0) - (design y.length cols).mulVec fun n => b.getD n 0) := by
  unfold squaredError
  rw [lsq_sum_range]
  unfold dotProduct
  refine Finset.sum_congr rfl fun t _ => ?_
  rw [predict_eq hb t, Pi.sub_apply, sq]

theorem dotProduct_self_nonneg' {ι : Type} [Fintype ι] (v : ι → K) : 0 ≤ v ⬝ᵥ v := Finset.sum_nonneg fun i _ => mul_self_nonneg (v i)

theorem dotProduct_self_zero {ι : Type} [Fintype ι] {v : ι → K} (h : v ⬝ᵥ v = 0) : v = 0 := by
  funext i
  have := (Finset.sum_eq_zero_iff_of_nonneg fun j _ => mul_self_nonneg (v j)).mp h i (Finset.mem_univ i)
  exact mul_self_eq_zero.mp this

theorem list_zero_iff {n : Nat} {v : List K} (hv : v.length = n) : (∀ x ∈ v, x = 0) ↔ (fun k : Fin n => v.getD k 0) = 0 := by
  subst hv
  constructor
  · intro h
    funext k
    rw [List.getD_eq_getElem?_getD, List.getElem?_eq_getElem k.2]
    exact h _ (List.getElem_mem k.2)
  · intro h x hx
    obtain ⟨k, hk, rfl⟩ := List.getElem_of_mem hx
    have := congrFun h ⟨k, hk⟩
    simp only [List.getD_eq_getElem?_getD, List.getElem?_eq_getElem hk, Option.getD_some] at this
    exact this

/-- The products of the columns have an inverse if and only if the columns are independent. -/
theorem gram_det {T : Nat} {cols : List (List K)} (hc : ∀ c ∈ cols, c.length = T) :
    (matOf cols.length cols.length (gram cols)).det = 0 ↔ ¬ IndependentColumns T cols := by
  rw [gram_matrix hc, ← Matrix.exists_mulVec_eq_zero_iff]
  unfold IndependentColumns
  push Not
  constructor
  · rintro ⟨w, h1, h2⟩
    have hAw : (design T cols).mulVec w = 0 := by
      apply dotProduct_self_zero
      rw [Matrix.dotProduct_mulVec, Matrix.vecMul_mulVec] at *
      rw [← Matrix.mulVec_mulVec] at h2
      rw [← Matrix.dotProduct_mulVec, Matrix.mulVec_mulVec] at *
      simp_all
    refine ⟨List.ofFn w, by simp, fun t ht => ?_, ?_⟩
    · rw [predict_eq (T := T) (by simp) ⟨t, ht⟩]
      have : (fun n : Fin cols.length => (List.ofFn w).getD n 0) = w := by
        funext n
        simp [List.getD_eq_getElem?_getD]
      rw [this, hAw]
      rfl
    · by_contra hcon
      push Not at hcon
      apply h1
      funext n
      exact hcon (w n) (List.mem_ofFn.mpr ⟨n, rfl⟩)
  · rintro ⟨v, h1, h2, x, h3, h4⟩
    refine ⟨fun n => v.getD n 0, fun hz => h4 ((list_zero_iff h1).mpr hz x h3), ?_⟩
    rw [← Matrix.mulVec_mulVec]
    have : ((design T cols).mulVec fun n => v.getD n 0) = 0 := by
      funext t
      rw [← predict_eq h1 t]
      exact h2 t t.2
    rw [this, Matrix.mulVec_zero]

/-- The coefficients that are computed from the inverse. -/
def coefficients (T : Nat) (cols X : List (List K)) (y : List K) : List K :=
  X.map fun r => kdot ((List.range T).map fun t => kdot r (cols.map fun c => c.getD t 0)) y

theorem regression_fin {cols : List (List K)} {y : List K} {predictors : List (List K)} {addConst : Bool}
    (hcols : cols = if addConst then List.replicate y.length 1 :: predictors else predictors) (hy : 2 ≤ y.length) (hp : ∀ p ∈ predictors, p.length = y.length) :
    utilRegression (y.map fin) (predictors.map (List.map fin)) addConst =
      match luSolve cols.length (((gram cols).map (List.map fin)).mapIdx fun i r => (r, unitRow cols.length i)) with
      | none => .abort
      | some X => ok (X.map fun r => fdot ((List.range y.length).map fun t => fdot r ((cols.map (List.map fin)).map fun c => c.getD t (fin 0))) (y.map fin)) := by
  unfold utilRegression
  simp only [List.length_map]
  rw [if_neg (by omega), if_neg (by
    simp only [List.any_map, List.any_eq_true, Function.comp_apply, List.length_map, not_exists, not_and, bne_iff_ne, ne_eq, not_not]
    exact hp)]
  have h1 : regressionColumns y.length (predictors.map (List.map fin)) addConst = cols.map (List.map fin) := by
    unfold regressionColumns
    rw [hcols]
    cases addConst <;> simp
  rw [h1, List.length_map]
  have h2 : ((cols.map (List.map fin)).mapIdx fun i c => ((cols.map (List.map fin)).map fun d => fdot c d, (unitRow cols.length i : List (Fl K)))) =
      ((gram cols).map (List.map fin)).mapIdx fun i r => (r, unitRow cols.length i) := by
    apply List.ext_getElem?
    intro i
    simp only [List.getElem?_mapIdx, List.getElem?_map, gram]
    cases cols[i]? with
    | none => rfl
    | some c => simp [fdot_fin]
  rw [h2]
  rfl

/-- C159: if no predictor depends on the others, the coefficients are those with the least squared error, and no other coefficients are as
good; if one does, the program ends. -/
theorem c159_least {cols : List (List K)} {y : List K} {predictors : List (List K)} {addConst : Bool}
    (hcols : cols = if addConst then List.replicate y.length 1 :: predictors else predictors) (hy : 2 ≤ y.length) (hp : ∀ p ∈ predictors, p.length = y.length) :
    (IndependentColumns y.length cols → ∃ b : List K, utilRegression (y.map fin) (predictors.map (List.map fin)) addConst = ok (b.map fin) ∧
      b.length = cols.length ∧ ∀ c : List K, c.length = cols.length → squaredError cols y b ≤ squaredError cols y c ∧
        (squaredError cols y c = squaredError cols y b → c = b)) ∧
    (¬ IndependentColumns y.length cols → utilRegression (y.map fin) (predictors.map (List.map fin)) addConst = .abort) := by
  have hc : ∀ c ∈ cols, c.length = y.length := by
    intro c hc
    rw [hcols] at hc
    cases addConst with
    | false => exact hp c hc
    | true =>
      rcases List.mem_cons.mp hc with rfl | hc
      · simp
      · exact hp c hc
  obtain ⟨s1, s2⟩ := luSolve_unit (gram_rect cols)
  rw [regression_fin hcols hy hp]
  constructor
  · intro hi
    obtain ⟨X, x1, x2, x3⟩ := s1 (fun h => (gram_det hc).mp h hi)
    rw [x2]
    set b := coefficients y.length cols X y with hb
    have hbl : b.length = cols.length := by
      rw [hb]
      unfold coefficients
      rw [List.length_map]
      exact x1.1
    refine ⟨b, ?_, hbl, ?_⟩
    · simp only
      rw [hb]
      unfold coefficients
      simp only [List.map_map]
      refine congrArg ok (List.map_congr_left fun r _ => ?_)
      simp only [Function.comp_apply]
      rw [← fdot_fin]
      congr 1
      rw [List.map_map]
      refine List.map_congr_left fun t _ => ?_
      simp only [Function.comp_apply]
      rw [← fdot_fin, List.map_map]
      congr 1
      refine List.map_congr_left fun c _ => ?_
      simp only [Function.comp_apply]
      exact getD_fin c t
    · have hbv : (fun n : Fin cols.length => b.getD n 0) =
          (matOf cols.length cols.length X).mulVec ((design y.length cols).transpose.mulVec fun t => y.getD t 0) := by
        funext n
        have hn : (n : Nat) < X.length := by rw [x1.1]; exact n.2
        have hXn : X[(n : Nat)]? = some X[(n : Nat)] := List.getElem?_eq_getElem hn
        rw [Matrix.mulVec_mulVec, hb]
        unfold coefficients
        rw [List.getD_eq_getElem?_getD, List.getElem?_map, hXn, Option.map_some, Option.getD_some, kdot_sum y.length _ _ (by simp) rfl]
        unfold Matrix.mulVec dotProduct
        refine Finset.sum_congr rfl fun t _ => ?_
        congr 1
        rw [List.getD_eq_getElem?_getD, List.getElem?_map, List.getElem?_range t.2, Option.map_some, Option.getD_some,
          kdot_sum cols.length _ _ (x1.2 _ (List.getElem_mem hn)) (by simp)]
        refine Eq.trans ?_ (Matrix.mul_apply (M := matOf cols.length cols.length X) (N := (design y.length cols).transpose) (i := n) (k := t)).symm
        refine Finset.sum_congr rfl fun k _ => ?_
        rw [Matrix.transpose_apply]
        have hk : cols[(k : Nat)]? = some cols[(k : Nat)] := List.getElem?_eq_getElem k.2
        unfold matOf design
        simp only [List.getD_eq_getElem?_getD, List.getElem?_map, hk, hXn, Option.map_some, Option.getD_some]
      set A := design y.length cols with hA
      set Y : Fin y.length → K := fun t => y.getD t 0 with hY
      set B : Fin cols.length → K := fun n => b.getD n 0 with hB
      have hnormal : A.transpose.mulVec (Y - A.mulVec B) = 0 := by
        rw [Matrix.mulVec_sub, Matrix.mulVec_mulVec, ← gram_matrix hc, hbv, Matrix.mulVec_mulVec, x3, Matrix.one_mulVec, sub_self]
      intro c hcl
      rw [squaredError_eq hbl, squaredError_eq hcl]
      set C : Fin cols.length → K := fun n => c.getD n 0 with hC
      have hsplit : (Y - A.mulVec C) ⬝ᵥ (Y - A.mulVec C) = (Y - A.mulVec B) ⬝ᵥ (Y - A.mulVec B) + A.mulVec (B - C) ⬝ᵥ A.mulVec (B - C) := by
        have h1 : Y - A.mulVec C = (Y - A.mulVec B) + A.mulVec (B - C) := by
          rw [Matrix.mulVec_sub]
          abel
        have h2 : (Y - A.mulVec B) ⬝ᵥ A.mulVec (B - C) = 0 := by
          rw [Matrix.dotProduct_mulVec, ← Matrix.mulVec_transpose, hnormal, zero_dotProduct]
        rw [h1, add_dotProduct, dotProduct_add, dotProduct_add, dotProduct_comm (A.mulVec (B - C)) (Y - A.mulVec B), h2]
        ring
      rw [hsplit]
      refine ⟨le_add_of_nonneg_right (dotProduct_self_nonneg' _), fun h => ?_⟩
      have hz : A.mulVec (B - C) = 0 := dotProduct_self_zero (by linear_combination h)
      have hd := hi (List.ofFn (B - C)) (by simp) (fun t ht => by
        rw [predict_eq (T := y.length) (by simp) ⟨t, ht⟩]
        have : (fun n : Fin cols.length => (List.ofFn (B - C)).getD n 0) = B - C := by
          funext n
          simp [List.getD_eq_getElem?_getD]
        rw [this, ← hA, hz]
        rfl)
      apply List.ext_getElem (by rw [hcl, hbl])
      intro n h1 h2
      have := hd ((B - C) ⟨n, by omega⟩) (List.mem_ofFn.mpr ⟨_, rfl⟩)
      rw [Pi.sub_apply, hB, hC] at this
      simp only [List.getD_eq_getElem?_getD, List.getElem?_eq_getElem h1, List.getElem?_eq_getElem h2, Option.getD_some] at this
      exact (sub_eq_zero.mp this).symm
  · intro hi
    rw [s2 ((gram_det hc).mpr hi)]

/-- C159, too few data or predictors of another length: the program ends. -/
theorem c159_error {y : List (Fl K)} {predictors : List (List (Fl K))} (addConst : Bool) (h : y.length < 2 ∨ ∃ p ∈ predictors, p.length ≠ y.length) :
    utilRegression y predictors addConst = .abort := by
  unfold utilRegression
  simp only
  by_cases hy : y.length < 2
  · rw [if_pos hy]
    rfl
  · rw [if_neg hy, if_pos]
    · rfl
    · obtain ⟨p, h1, h2⟩ := h.resolve_left hy
      exact List.any_eq_true.mpr ⟨p, h1, by simpa using h2⟩

/-- C159 is false of the code for missing values: they are used as numbers. -/
theorem c159_missing_false : utilRegression [fin 1, fin 2, MV] [([fin 1, fin 2, fin 3] : List (Fl ℚ))] true = ok [fin 668, fin (-500)] := by decide +kernel

/-- The line through three points. -/
example : utilRegression [fin 1, fin 2, fin 4] [([fin 0, fin 1, fin 2] : List (Fl ℚ))] true = ok [fin (5 / 6), fin (3 / 2)] := by decide +kernel

/-- The hypotheses hold for it. -/
example : IndependentColumns 3 ([[1, 1, 1], [0, 1, 2]] : List (List ℚ)) := by
  intro v hv h x hx
  match v, hv with
  | [a, b], _ =>
    have h0 := h 0 (by omega)
    have h1 := h 1 (by omega)
    simp [predict] at h0 h1
    rw [h0, zero_add] at h1
    simp only [List.mem_cons, List.not_mem_nil, or_false] at hx
    rcases hx with rfl | rfl
    · exact h0
    · exact h1

/-- The same predictor twice: the program ends. -/
example : utilRegression [fin 1, fin 2, fin 4] [([fin 0, fin 1, fin 2] : List (Fl ℚ)), [fin 0, fin 1, fin 2]] true = .abort := by decide +kernel

end Gridpp.Props
