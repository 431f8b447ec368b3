import Verif.Lemmas.Monotonize
import Verif.Lemmas.Quantile
import Verif.Base.Inst

/-! # C33–C35: monotonize_curve, quantile_mapping_curve -/

set_option linter.unusedSectionVars false

namespace Gridpp.Props
open Fl Res Spec

variable {K : Type} [Field K] [LinearOrder K] [IsStrictOrderedRing K]

/-- Meaning of `finitePairs`: a pair of numbers is at some position of it exactly when both curves have these numbers at a
common position. -/
theorem mem_finitePairs (ref fcst : List (Fl K)) (r f : K) :
    (r, f) ∈ finitePairs ref fcst ↔ (fin r, fin f) ∈ ref.zip fcst := by
  unfold finitePairs
  rw [List.mem_filterMap]
  constructor
  · rintro ⟨⟨a, b⟩, hm, he⟩
    cases a <;> cases b <;> simp_all
  · intro h; exact ⟨_, h, rfl⟩

/-- **C33**. Whenever `monotonize_curve` returns, the output is a subsequence of the pairs in which both values are
valid, the two output curves come from the same points, and any two output abscissas are more than 0.1 apart in order. -/
theorem c33_separated_subsequence (ref fcst oref ofcst : List (Fl K)) (h : monotonizeCurve ref fcst = ok (oref, ofcst)) :
    ∃ sub : List (K × K), sub.Sublist (finitePairs ref fcst) ∧ oref = sub.map (fun p => fin p.1) ∧
      ofcst = sub.map (fun p => fin p.2) ∧ sub.Pairwise fun a b => a.2 + 1 / 10 < b.2 := by
  by_cases hl : ref.length = fcst.length
  swap
  · unfold monotonizeCurve at h; rw [if_pos hl] at h; cases h
  by_cases hp : finitePairs ref fcst = []
  · exfalso
    unfold monotonizeCurve at h
    rw [if_neg (by simpa using hl)] at h
    split_ifs at h
    simp only [filter_zip, hp] at h
    exact absurd h (by simp [vget])
  · obtain ⟨is, h1, h2, h3, h4⟩ := monotonizeCurve_ok ref fcst hl hp
    rw [h4] at h
    cases h
    refine ⟨is.map fun i => (finitePairs ref fcst).getD i (0, 0), map_getD_sublist _ _ is h1 h2, ?_, ?_, ?_⟩
    · rw [List.map_map]; refine List.map_congr_left fun i hi => ?_
      have := h2 i hi
      simp [this]
    · rw [List.map_map]; refine List.map_congr_left fun i hi => ?_
      have := h2 i hi
      simp [this]
    · rw [List.pairwise_map]
      refine h3.imp_of_mem fun {a b} ha hb hab => ?_
      have h5 := h2 a ha
      have h6 := h2 b hb
      rw [List.getD_eq_getElem _ _ (by simpa using h5), List.getD_eq_getElem _ _ (by simpa using h6)] at hab
      rw [List.getD_eq_getElem _ _ h5, List.getD_eq_getElem _ _ h6]
      simpa using hab

/-- **C33** (nothing is lost without need). If the valid points are already more than 0.1 apart in order, exactly they
are returned. -/
theorem c33_identity (ref fcst : List (Fl K)) (hl : ref.length = fcst.length) (hp : finitePairs ref fcst ≠ [])
    (hsep : (finitePairs ref fcst).Pairwise fun a b => a.2 + 1 / 10 < b.2) :
    monotonizeCurve ref fcst = ok ((finitePairs ref fcst).map fun p => fin p.1, (finitePairs ref fcst).map fun p => fin p.2) :=
  monotonizeCurve_sep ref fcst hl hp hsep

/-- **C33** (idempotent). Monotonizing a non-empty result again does not change it. -/
theorem c33_idempotent (ref fcst oref ofcst : List (Fl K)) (h : monotonizeCurve ref fcst = ok (oref, ofcst)) (hne : oref ≠ []) :
    monotonizeCurve oref ofcst = ok (oref, ofcst) := by
  obtain ⟨sub, -, rfl, rfl, hs⟩ := c33_separated_subsequence ref fcst oref ofcst h
  have hf : finitePairs (sub.map fun p => (fin p.1 : Fl K)) (sub.map fun p => (fin p.2 : Fl K)) = sub := by
    unfold finitePairs
    rw [List.zip_map', List.filterMap_map]
    exact List.filterMap_some
  have hsub : sub ≠ [] := fun h' => hne (by rw [h']; rfl)
  have := c33_identity (sub.map fun p => (fin p.1 : Fl K)) (sub.map fun p => (fin p.2 : Fl K)) (by simp) (by rw [hf]; exact hsub)
    (by rw [hf]; exact hs)
  rw [hf] at this
  exact this

/-- Non-vacuity: a missing point, a deviation that removes an earlier point, and a final deviation. -/
example : monotonizeCurve ([1, 2, 3, 4, 5, 6, 7].map fin ++ [nan, fin 9]) ([0, 2, 5, 1, 3, 6, 7].map fin ++ [fin 4, fin (13/2)]) =
    ok (([1, 6].map fin : List (Fl ℚ)), ([0, 6].map fin : List (Fl ℚ))) := by decide +kernel

/-- **C33** (remark). The result can be empty although the input has valid points. -/
theorem c33_can_be_empty : monotonizeCurve ([1, 2].map fin : List (Fl ℚ)) ([5, 1].map fin) = ok ([], []) := by
  decide +kernel

/-- **C34** is false: a non-empty curve whose points are all missing makes `curve_fcst[0]` (line 167) read outside. -/
theorem c34_all_missing_reads_outside : monotonizeCurve ([nan] : List (Fl ℚ)) [nan] = ub ∧
    monotonizeCurve ([nan, fin 1] : List (Fl ℚ)) [fin 2, nan] = ub := by decide +kernel

/-- **C34** (exact extent). Missing from C34: the all-missing case. On curves of equal non-zero length with at least one
valid pair the function returns, without any invalid read or failing assertion; without a valid pair it always reads
outside; mismatched or empty curves throw. -/
theorem c34_defined_partial (ref fcst : List (Fl K)) :
    (ref.length = fcst.length → finitePairs ref fcst ≠ [] → ∃ out, monotonizeCurve ref fcst = ok out) ∧
    (ref.length = fcst.length → ref ≠ [] → finitePairs ref fcst = [] → monotonizeCurve ref fcst = ub) ∧
    (ref.length ≠ fcst.length ∨ ref = [] → monotonizeCurve ref fcst = .throw .invalidArgument) := by
  refine ⟨fun hl hp => ?_, fun hl hne hp => ?_, fun h => ?_⟩
  · obtain ⟨is, -, -, -, h⟩ := monotonizeCurve_ok ref fcst hl hp
    exact ⟨_, h⟩
  · unfold monotonizeCurve
    rw [if_neg (by simpa using hl), if_neg (by simpa using hne)]
    simp only [filter_zip, hp]
    simp [vget]
  · unfold monotonizeCurve
    by_cases hl : ref.length = fcst.length
    · rw [if_neg (by simpa using hl), if_pos]
      rcases h with h | rfl
      · exact absurd hl h
      · rfl
    · rw [if_pos hl]

example : finitePairs [fin 1, nan, fin 3] [nan, fin (2 : ℚ), fin 4] = [(3, 4)] := by decide +kernel

/-- **C35** (without quantiles). For arrays of at least two numbers the outputs are the two arrays sorted: the i-th pair
is (i-th smallest of `ref`, i-th smallest of `fcst`). -/
theorem c35_sorted [FloorRing K] (ref fcst : List K) (hl : ref.length = fcst.length) (h2 : 2 ≤ ref.length) :
    ∃ r f : List K, quantileMappingCurve (ref.map fin) (fcst.map fin) [] = ok (r.map fin, f.map fin) ∧
      r.Perm ref ∧ f.Perm fcst ∧ r.Pairwise (· ≤ ·) ∧ f.Pairwise (· ≤ ·) := by
  refine ⟨sorted ref, sorted fcst, ?_, sorted_perm _, sorted_perm _, pairwise_sorted _, pairwise_sorted _⟩
  unfold quantileMappingCurve
  rw [if_neg (by simpa using hl), if_neg (by simp), if_neg (by rw [List.length_map]; omega), if_neg (by rw [List.length_map]; omega)]
  simp [stdSort_map_fin]

/-- With quantiles the code reads the *unsorted* arrays at `int(q*(S-1))`. -/
theorem quantileMappingCurve_reads [FloorRing K] (ref fcst qs : List K) (hl : ref.length = fcst.length) (h2 : 2 ≤ ref.length)
    (hq : ∀ q ∈ qs, 0 ≤ q ∧ q ≤ 1) (hne : qs ≠ []) :
    quantileMappingCurve (ref.map fin) (fcst.map fin) (qs.map fin) =
      ok (qs.map (fun q => fin (ref.getD ⌊q * ((fcst.length : K) - 1)⌋.toNat 0)),
          qs.map (fun q => fin (fcst.getD ⌊q * ((fcst.length : K) - 1)⌋.toNat 0))) := by
  unfold quantileMappingCurve
  have hany : ((qs.map fin).any fun q : Fl K => !q.isValid || q.gt 1 || q.lt 0) = false := by
    rw [List.any_eq_false]
    intro q hm
    obtain ⟨a, ha, rfl⟩ := List.mem_map.mp hm
    have := hq a ha
    simp [one_def, zero_def, this.1, this.2]
  rw [if_neg (by simpa using hl), if_neg (by rw [hany]; simp), if_neg (by rw [List.length_map]; omega),
    if_neg (by rw [List.length_map]; omega), stdSort_map_fin, stdSort_map_fin, ok_bind, ok_bind, if_neg (by simpa using hne)]
  rw [mapM_ok (g := fun q : Fl K => match q with
    | fin q => (fin (ref.getD ⌊q * ((fcst.length : K) - 1)⌋.toNat 0), fin (fcst.getD ⌊q * ((fcst.length : K) - 1)⌋.toNat 0))
    | _ => (nan, nan))]
  · simp only [ok_bind, List.map_map, Function.comp_def]
  · intro q hm
    obtain ⟨a, ha, rfl⟩ := List.mem_map.mp hm
    obtain ⟨h0, h1⟩ := hq a ha
    have hS : (1 : K) ≤ (fcst.length : K) - 1 := by
      have : ((2 : Nat) : K) ≤ (fcst.length : K) := by exact_mod_cast (by omega : 2 ≤ fcst.length)
      push_cast at this
      linarith
    have hp : 0 ≤ a * ((fcst.length : K) - 1) := mul_nonneg h0 (by linarith)
    have hp' : a * ((fcst.length : K) - 1) ≤ (fcst.length : K) - 1 := by
      have := mul_le_mul_of_nonneg_right h1 (show (0 : K) ≤ (fcst.length : K) - 1 by linarith)
      simpa using this
    have hf0 : 0 ≤ ⌊a * ((fcst.length : K) - 1)⌋ := Int.floor_nonneg.mpr hp
    have hf1 : ⌊a * ((fcst.length : K) - 1)⌋ ≤ (fcst.length : Int) - 1 := by
      have := (Int.floor_le (a * ((fcst.length : K) - 1))).trans hp'
      have h' : ((⌊a * ((fcst.length : K) - 1)⌋ : Int) : K) ≤ (((fcst.length : Int) - 1 : Int) : K) := by push_cast; exact this
      exact_mod_cast h'
    set k := ⌊a * ((fcst.length : K) - 1)⌋.toNat with hk
    have hkI : ⌊a * ((fcst.length : K) - 1)⌋ = (k : Int) := by omega
    have hkl : k < fcst.length := by omega
    have ht : Fl.truncInt ((fin a : Fl K) * Fl.ofInt (((((sorted fcst).map (fin : K → Fl K)).length : Nat) : Int) - 1)) = ok (k : Int) := by
      simp only [ofInt_def, List.length_map, length_sorted, fin_mul, Fl.truncInt]
      have hc : (((fcst.length : Int) - 1 : Int) : K) = (fcst.length : K) - 1 := by push_cast; rfl
      rw [hc, if_pos hp, hkI]
    simp only [ht, ok_bind, vget_map_fin fcst k hkl, vget_map_fin ref k (by omega)]
    rw [← hk, List.getD_eq_getElem _ _ hkl, List.getD_eq_getElem _ _ (by omega)]

/-- **C35** (with quantiles), partial: if both arrays are already sorted, the pair for level `q` is the order statistic
number `⌊q (S-1)⌋` of each. Missing: arrays that are not sorted (see `c35_unsorted_counterexample`). -/
theorem c35_quantiles_partial [FloorRing K] (ref fcst qs : List K) (hl : ref.length = fcst.length) (h2 : 2 ≤ ref.length)
    (hq : ∀ q ∈ qs, 0 ≤ q ∧ q ≤ 1) (hne : qs ≠ []) (hr : ref.Pairwise (· ≤ ·)) (hf : fcst.Pairwise (· ≤ ·)) :
    ∃ r f : List K, quantileMappingCurve (ref.map fin) (fcst.map fin) (qs.map fin) = ok (r.map fin, f.map fin) ∧
      r = qs.map (fun q => (sorted ref).getD ⌊q * ((fcst.length : K) - 1)⌋.toNat 0) ∧
      f = qs.map (fun q => (sorted fcst).getD ⌊q * ((fcst.length : K) - 1)⌋.toNat 0) ∧
      (qs.Pairwise (· ≤ ·) → r.Pairwise (· ≤ ·) ∧ f.Pairwise (· ≤ ·)) := by
  have es : ∀ l : List K, l.Pairwise (· ≤ ·) → sorted l = l := fun l h => h.insertionSort_eq
  rw [es ref hr, es fcst hf]
  refine ⟨_, _, ?_, rfl, rfl, fun hs => ?_⟩
  · rw [quantileMappingCurve_reads ref fcst qs hl h2 hq hne]
    simp only [List.map_map, Function.comp_def]
  · have hS : (1 : K) ≤ (fcst.length : K) - 1 := by
      have : ((2 : Nat) : K) ≤ (fcst.length : K) := by exact_mod_cast (by omega : 2 ≤ fcst.length)
      push_cast at this
      linarith
    have main : ∀ l : List K, l.length = fcst.length → l.Pairwise (· ≤ ·) →
        (qs.map (fun q => l.getD ⌊q * ((fcst.length : K) - 1)⌋.toNat 0)).Pairwise (· ≤ ·) := by
      intro l hll hlp
      rw [List.pairwise_map]
      refine hs.imp_of_mem fun {a b} ha hb hab => ?_
      have h1 : ⌊a * ((fcst.length : K) - 1)⌋ ≤ ⌊b * ((fcst.length : K) - 1)⌋ :=
        Int.floor_le_floor (mul_le_mul_of_nonneg_right hab (by linarith))
      have h3 : ⌊b * ((fcst.length : K) - 1)⌋ ≤ (fcst.length : Int) - 1 := by
        have h4 := mul_le_mul_of_nonneg_right (hq b hb).2 (show (0 : K) ≤ (fcst.length : K) - 1 by linarith)
        have := (Int.floor_le (b * ((fcst.length : K) - 1))).trans h4
        have h' : ((⌊b * ((fcst.length : K) - 1)⌋ : Int) : K) ≤ (((fcst.length : Int) - 1 : Int) : K) := by push_cast; simpa using this
        exact_mod_cast h'
      rw [List.getD_eq_getElem _ _ (by omega), List.getD_eq_getElem _ _ (by omega)]
      exact sorted_le hlp (by omega) (by omega)
    exact ⟨main ref hl hr, main fcst rfl hf⟩

/-- **C35** is false on unsorted arrays: the level 0 entry is not the minimum and the outputs are not sorted, although
the quantile levels are. -/
theorem c35_unsorted_counterexample :
    quantileMappingCurve ([3, 1, 2].map fin : List (Fl ℚ)) ([30, 10, 20].map fin) ([0, 1 / 2, 1].map fin) =
      ok ([3, 1, 2].map fin, [30, 10, 20].map fin) ∧
    ¬ ([30, 10, 20] : List ℚ).Pairwise (· ≤ ·) := by decide +kernel

/-- **C35** (errors and trivial sizes). Mismatched sizes and invalid levels throw; arrays of size 0 and 1 are returned
as they are. -/
theorem c35_contract [FloorRing K] (ref fcst qs : List (Fl K)) :
    (ref.length ≠ fcst.length → quantileMappingCurve ref fcst qs = .throw .invalidArgument) ∧
    (∀ q ∈ qs, (∀ a, q = fin a → a < 0 ∨ 1 < a) → quantileMappingCurve ref fcst qs = .throw .invalidArgument) ∧
    (ref.length = fcst.length → ref.length ≤ 1 → (∀ q ∈ qs, ∃ a, q = fin a ∧ 0 ≤ a ∧ a ≤ 1) →
      quantileMappingCurve ref fcst qs = ok (ref, fcst)) ∧
    (ref.length = fcst.length → 2 ≤ ref.length → (∀ q ∈ qs, ∃ a, q = fin a ∧ 0 ≤ a ∧ a ≤ 1) → nan ∈ ref ∨ nan ∈ fcst →
      quantileMappingCurve ref fcst qs = ub) := by
  have hgood : (∀ q ∈ qs, ∃ a, q = fin a ∧ 0 ≤ a ∧ a ≤ 1) →
      (qs.any fun q : Fl K => !q.isValid || q.gt 1 || q.lt 0) = false := by
    intro h
    rw [List.any_eq_false]
    intro q hm
    obtain ⟨a, rfl, h0, h1⟩ := h q hm
    simp [one_def, zero_def, h0, h1]
  refine ⟨fun h => by unfold quantileMappingCurve; rw [if_pos h], fun q hm hq => ?_, fun hl h1 hq => ?_, fun hl h2 hq hn => ?_⟩
  · unfold quantileMappingCurve
    split_ifs with h1 h2
    · rfl
    · rfl
    all_goals
      exfalso
      apply h2
      rw [List.any_eq_true]
      refine ⟨q, hm, ?_⟩
      cases q with
      | fin a => rcases hq a rfl with h | h <;> simp [one_def, zero_def, h]
      | _ => simp
  · unfold quantileMappingCurve
    rw [if_neg (by simpa using hl), if_neg (by rw [hgood hq]; simp)]
    split_ifs with a b
    · rfl
    · rfl
    all_goals omega
  · unfold quantileMappingCurve
    rw [if_neg (by simpa using hl), if_neg (by rw [hgood hq]; simp), if_neg (by omega), if_neg (by omega)]
    have hsort : ∀ l : List (Fl K), nan ∈ l → stdSort l = ub := by
      intro l hm
      unfold stdSort
      rw [if_pos (List.any_eq_true.mpr ⟨nan, hm, rfl⟩)]
    rcases hn with h | h
    · rw [hsort ref h]; rfl
    · by_cases hr : nan ∈ ref
      · rw [hsort ref hr]; rfl
      · have hno : ref.any isNan = false := by
          rw [List.any_eq_false]
          intro v hv hn
          cases v with
          | nan => exact hr hv
          | _ => cases hn
        have h1 : stdSort ref = ok (ref.insertionSort fun a b => Fl.le a b = true) := by
          unfold stdSort; rw [hno]; rfl
        rw [h1, hsort fcst h]; rfl

example : ([1, 2, 2] : List ℚ).Pairwise (· ≤ ·) ∧ quantileMappingCurve ([1, 2, 2].map fin : List (Fl ℚ)) ([4, 5, 9].map fin)
    ([1 / 4, 1].map fin) = ok ([1, 2].map fin, [4, 9].map fin) := by decide +kernel

end Gridpp.Props
