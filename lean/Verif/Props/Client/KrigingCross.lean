import Verif.Props.Client.Kriging
import Mathlib.Algebra.Order.BigOperators.Ring.Finset

/-! # C118: kriging with cross validation and with an auxiliary variable -/

set_option linter.unusedSectionVars false

namespace Gridpp.Props
open Fl hiding MV isValid
open Res Client

variable {K : Type} [Field K] [LinearOrder K] [IsStrictOrderedRing K] [FloorRing K] [HasExp K]

/-- The matrix in which station `k` has nothing to do with the others. -/
def isolated (A : Nat → Nat → K) (k i j : Nat) : K := if i = k ∧ j = k then 1 else if i = k ∨ j = k then 0 else A i j

theorem krigHoldOut_eq (N k : Nat) (A : Nat → Nat → K) :
    krigHoldOut (tabulate N N fun i j => fin (A i j)) k N = tabulate N N fun i j => fin (isolated A k i j) := by
  unfold krigHoldOut tabulate
  apply List.ext_getElem
  · simp
  · intro i h1 h2
    have hi : i < N := by simpa using h2
    simp only [List.getElem_mapIdx, List.getElem_map, List.getElem_range]
    apply List.ext_getElem
    · simp
    · intro j h3 h4
      have hj : j < N := by simpa using h4
      simp only [List.getElem_mapIdx, List.getElem_map, List.getElem_range, isolated, hi, hj, and_true]
      by_cases h5 : i = k ∧ j = k
      · rw [if_pos h5, if_pos h5]; rfl
      · rw [if_neg h5, if_neg h5]
        split_ifs <;> rfl

theorem near_without (N k : Nat) (c : Nat → K) :
    (((List.range N).map fun i => (i, (fin (c i) : Fl K))).mapIdx fun i p => if i = k then (p.1, 0) else p) =
      (List.range N).map fun i => (i, fin (if i = k then 0 else c i)) := by
  apply List.ext_getElem
  · simp
  · intro i h1 h2
    simp only [List.getElem_mapIdx, List.getElem_map, List.getElem_range]
    split_ifs <;> rfl

/-- The weights without station `k`. -/
theorem isolated_solves {invert : List (List (Fl K)) → List (List (Fl K))} {N : Nat} {A B : Nat → Nat → K} {k : Nat} (hk : k < N)
    (hi : InvertsTo invert N (isolated A k) B) {c : Nat → K} (hc : ∀ i < N, 0 < c i) (w : Nat → K)
    (hw : ∀ i, w i = ∑ j ∈ Finset.range N, B i j * if j = k then 0 else c j) :
    w k = 0 ∧ ∀ i < N, i ≠ k → ∑ j ∈ Finset.range N, A i j * w j = c i := by
  have hs := krig_solves hi fun j => if j = k then 0 else c j
  have hw' : ∀ i, (∑ j ∈ Finset.range N, B i j * max 0 (if j = k then 0 else c j)) = w i := by
    intro i
    rw [hw]
    refine Finset.sum_congr rfl fun j hj => ?_
    congr 1
    apply max_eq_right
    split_ifs
    exacts [le_refl _, (hc j (Finset.mem_range.mp hj)).le]
  have hs' : ∀ i < N, ∑ j ∈ Finset.range N, isolated A k i j * w j = max 0 (if i = k then 0 else c i) := by
    intro i hi
    rw [← hs i hi]
    exact Finset.sum_congr rfl fun j _ => congrArg _ (hw' j).symm
  have h0 : w k = 0 := by
    have := hs' k hk
    rw [if_pos rfl, max_self] at this
    rw [← this]
    symm
    rw [Finset.sum_eq_single k]
    · simp [isolated]
    · intro j _ hj; simp [isolated, hj]
    · intro h; exact absurd (Finset.mem_range.mpr hk) h
  refine ⟨h0, fun i hi hik => ?_⟩
  have := hs' i hi
  rw [if_neg hik, max_eq_right (hc i hi).le] at this
  rw [← this]
  refine Finset.sum_congr rfl fun j _ => ?_
  by_cases hj : j = k
  · rw [hj, h0, mul_zero, mul_zero]
  · simp [isolated, hik, hj]

/-- **C118** (cross validation). If all stations have positive covariance with the grid point, a station with the greatest covariance is
left out: its weight is 0 and the others solve the kriging equations without it. Missing: grid points with some stations not near. -/
theorem c118_cross_partial (op : KrigOp) {N : Nat} (hN : 0 < N) (A : Nat → Nat → K) {c : Nat → K} (hc : ∀ i < N, 0 < c i) :
    ∃ k < N, (∀ i < N, c i ≤ c k) ∧ ∀ invert B, InvertsTo invert N (isolated A k) B →
      ∃ w : Nat → K, w k = 0 ∧ (∀ i < N, i ≠ k → ∑ j ∈ Finset.range N, A i j * w j = c i) ∧
        ∀ b : Nat → K, (∀ i < N, b i ≠ -999) →
          krigPoint op true invert (tabulate N N fun i j => fin (A i j)) ((List.range N).map fun i => fin (b i))
            ((List.range N).map fun i => (i, fin (c i))) =
          ok (if ∑ i ∈ Finset.range N, b i * w i = -999 then none
            else some (krigRestore op (fin (∑ i ∈ Finset.range N, b i * w i)))) := by
  have hne : ((List.range N).map fun i => (i, (fin (c i) : Fl K))) ≠ [] := by
    rw [Ne, List.map_eq_nil_iff, List.range_eq_nil]; omega
  obtain ⟨p, hp1, hp2⟩ := krigNearest_spec _ hne (by
    intro p hp
    obtain ⟨i, -, rfl⟩ := List.mem_map.mp hp
    exact ⟨_, rfl⟩)
  generalize hkd : krigNearest ((List.range N).map fun i => (i, (fin (c i) : Fl K))) = k at hp1
  have hk : k < N := by simpa using (List.getElem?_eq_some_iff.mp hp1).1
  have hp : p = (k, fin (c k)) := by
    rw [List.getElem?_map, List.getElem?_range hk] at hp1
    simpa using hp1.symm
  subst hp
  refine ⟨k, hk, fun i hi => ?_, fun invert B hB => ?_⟩
  · have := hp2 (i, fin (c i)) (List.mem_map.mpr ⟨i, List.mem_range.mpr hi, rfl⟩)
    rw [le_fin, decide_eq_true_eq] at this
    exact this
  · obtain ⟨h0, h1⟩ := isolated_solves hk hB hc (fun i => ∑ j ∈ Finset.range N, B i j * if j = k then 0 else c j) fun _ => rfl
    refine ⟨fun i => ∑ j ∈ Finset.range N, B i j * if j = k then 0 else c j, h0, h1, fun b hb => ?_⟩
    unfold krigPoint krigAllWeights
    rw [List.isEmpty_eq_false_iff.mpr hne]
    simp only [Bool.false_eq_true, if_false, if_true, List.length_map, List.length_range]
    rw [hkd, krigHoldOut_eq, hB.1, near_without, krigWeights_eq N B (fun i => if i = k then 0 else c i) _ (fun i h => List.mem_range.mp h),
      ok_bind, vset_nat _ (by simpa using hk), ok_bind]
    have hset : ((List.range N).map fun i => (fin ((List.range N).map fun j => B i j * if j = k then 0 else c j).sum : Fl K)).set k 0 =
        (List.range N).map fun i => fin (∑ j ∈ Finset.range N, B i j * if j = k then 0 else c j) := by
      apply List.ext_getElem
      · simp
      · intro i h3 h4
        rw [List.getElem_set]
        simp only [List.getElem_map, List.getElem_range]
        split_ifs with hik
        · subst hik
          rw [h0]; rfl
        · rw [sum_range_list]
    rw [hset, krig_zip, zero_def, krigDot_eq _ _ _ (fun i h => hb i (List.mem_range.mp h)), sum_range_list, zero_add]
    generalize (∑ i ∈ Finset.range N, b i * ∑ j ∈ Finset.range N, B i j * if j = k then 0 else c j) = T
    by_cases h9 : T = -999
    · rw [if_pos h9, if_neg (by simp [Client.isValid, h9])]
    · have hv : Client.isValid (fin T) = true := by simp [Client.isValid, h9]
      rw [if_neg h9, if_pos hv]

/-- The matrix of three stations, the first far from the two others, and its inverse. -/
def threeMatrix : List (List (Fl ℚ)) := [[fin 1, fin 0, fin 0], [fin 0, fin 1, fin (1 / 2)], [fin 0, fin (1 / 2), fin 1]]

def threeInverse (m : List (List (Fl ℚ))) : List (List (Fl ℚ)) :=
  if m = threeMatrix then [[fin 1, fin 0, fin 0], [fin 0, fin (4 / 3), fin (-2 / 3)], [fin 0, fin (-2 / 3), fin (4 / 3)]] else m

/-- **C118** (cross validation) is false in general: the position in the list of the near stations is used as the number of the station.
Here the nearest station is number 1, at position 0; its own correction (0 or 3) still changes the result. -/
theorem c118_cross_false :
    krigPoint .add true threeInverse threeMatrix [fin 0, fin 0, fin 0] [(1, fin (9 / 10)), (2, fin (1 / 2))] = ok (some (fin 0)) ∧
    krigPoint .add true threeInverse threeMatrix [fin 0, fin 3, fin 0] [(1, fin (9 / 10)), (2, fin (1 / 2))] = ok (some (fin (-1))) := by
  decide +kernel

/-- The members of a grid point with weights of the auxiliary variable. -/
theorem krigMembers_aux {Y X E y x : Nat} (hy : y < Y) (hx : x < X) (w : Nat → K) (b : K) (f : FieldC K) (hf : Sized Y X E f) (n : Nat)
    (hn : n ≤ E) :
    ∃ out, foldM (fun (s : FieldC K × Fl K) e => do
      let v ← s.1.get y x e
      let b := match (some fun e => (fin (w e) : Fl K)) with | none => s.2 | some w => krigAdjust .add s.2 (w e)
      let g ← s.1.set y x e (krigApply .add v b)
      ok (g, b)) (f, fin b) (List.range n) = ok (out, fin (b * ∏ i ∈ Finset.range n, w i)) ∧ Sized Y X E out ∧
      (∀ e < n, ∃ v, f.get y x e = ok v ∧ out.get y x e = ok (v + fin (b * ∏ i ∈ Finset.range (e + 1), w i))) ∧
      (∀ e, n ≤ e → out.get y x e = f.get y x e) := by
  induction n with
  | zero => exact ⟨f, by simp, hf, by omega, fun _ _ => rfl⟩
  | succ n ih =>
    obtain ⟨out, h1, h2, h3, h4⟩ := ih (by omega)
    obtain ⟨v, hv⟩ := h2.exists_get hy hx (show n < E by omega)
    obtain ⟨g, g1, g2, g3, g4⟩ := h2.set hy hx (show n < E by omega) (v + fin (b * ∏ i ∈ Finset.range (n + 1), w i))
    refine ⟨g, ?_, g2, fun e he => ?_, fun e he => ?_⟩
    · rw [List.range_succ, foldM_append, h1, ok_bind, foldM_cons]
      simp only [hv, ok_bind, krigAdjust, krigApply, fin_mul]
      rw [Finset.prod_range_succ, ← mul_assoc] at g1
      rw [g1, ok_bind, Finset.prod_range_succ, ← mul_assoc]
      rfl
    · by_cases hen : e < n
      · obtain ⟨u, h5, h6⟩ := h3 e hen
        exact ⟨u, h5, by rw [g4 y x e (by omega), h6]⟩
      · obtain rfl : e = n := by omega
        exact ⟨v, by rw [← h4 e le_rfl, hv], g3⟩
    · rw [g4 y x e (by omega), h4 e (by omega)]

/-- **C118** (auxiliary variable). The claim is that a member is corrected by the correction times its weight. In fact it is multiplied by
the weights of all members before it as well. -/
theorem c118_aux_partial {Y X E y x : Nat} (hy : y < Y) (hx : x < X) (w : Nat → K) (b : K) (f : FieldC K) (hf : Sized Y X E f) :
    ∃ out, krigMembers .add (some fun e => fin (w e)) E y x (fin b) f = ok out ∧ Sized Y X E out ∧ ∀ e < E, ∃ v, f.get y x e = ok v ∧
      out.get y x e = ok (v + fin (b * ∏ i ∈ Finset.range (e + 1), w i)) := by
  obtain ⟨out, h1, h2, h3, -⟩ := krigMembers_aux hy hx w b f hf E le_rfl
  refine ⟨out, ?_, h2, h3⟩
  unfold krigMembers
  rw [h1]
  rfl

/-- **C118** (auxiliary variable) is false: the second of two members with weights 0 and 1 is not corrected. -/
theorem c118_aux_false : krigMembers (K := ℚ) .add (some fun e => if e = 0 then fin 0 else fin 1) 2 0 0 (fin 5) ⟨[fin 7, fin 7], 1, 1, 2⟩ =
    ok ⟨[fin 7, fin 7], 1, 1, 2⟩ := by decide +kernel

/-- **C118** (auxiliary weight). The weight is the fraction of the times with a value at which it is within the limits, 1 if there is
none; it is in [0, 1]. -/
theorem c118_aux_weight (lower upper : K) (values : List (Fl K)) :
    ∃ q, krigAuxWeight (fin lower) (fin upper) values = fin q ∧ 0 ≤ q ∧ q ≤ 1 ∧
      ((∀ v ∈ values, ¬ Present v) → q = 1) ∧
      ((∃ v ∈ values, Present v) → q * ((values.filter Client.isValid).length : K) =
        ((values.filter fun v => Client.isValid v && v.ge (fin lower) && v.le (fin upper)).length : K)) := by
  unfold krigAuxWeight
  simp only
  have hff : ((values.filter Client.isValid).filter fun a => a.ge (fin lower) && a.le (fin upper)) =
      values.filter fun v => Client.isValid v && v.ge (fin lower) && v.le (fin upper) := by
    rw [List.filter_filter]
    congr 1
    funext v
    cases Client.isValid v <;> simp
  by_cases h0 : (values.filter Client.isValid).length = 0
  · rw [if_pos h0]
    refine ⟨1, rfl, zero_le_one, le_refl _, fun _ => rfl, ?_⟩
    rintro ⟨v, h1, h2⟩
    rw [List.length_eq_zero_iff, List.filter_eq_nil_iff] at h0
    exact absurd (isValid_iff_present.mpr h2) (h0 v h1)
  · rw [if_neg h0, hff, ofNat_def, ofNat_def]
    have hpos : (0 : K) < ((values.filter Client.isValid).length : K) := by exact_mod_cast Nat.pos_of_ne_zero h0
    rw [fin_div_of_ne _ hpos.ne']
    refine ⟨_, rfl, div_nonneg (Nat.cast_nonneg _) hpos.le, ?_, ?_, ?_⟩
    · rw [div_le_one hpos, ← hff]
      exact_mod_cast List.length_filter_le _ _
    · intro hn
      exfalso
      apply h0
      rw [List.length_eq_zero_iff, List.filter_eq_nil_iff]
      intro v hv hc
      exact hn v hv (isValid_iff_present.mp hc)
    · intro _
      rw [div_mul_cancel₀ _ hpos.ne']

/-- The division of a field by the factor 1: the sign is changed (an instance of `c118_divide_false`). -/
example : kriging twoOptions lineDist (fun m => m) .divide false none 1 1 1 (fun _ _ => ⟨fin 0, fin 0, fin 0⟩) true (twoStations.take 1)
    (fun _ _ => [fin 1]) [⟨[fin 7], 1, 1, 1⟩] = ok [⟨[fin (-7)], 1, 1, 1⟩] := by decide +kernel

end Gridpp.Props
