import Verif.Model.Distribution
import Verif.Lemmas.EnsiMulti
import Verif.Lemmas.Elementwise
import Verif.Props.QuantileFast

/-! # C82: gamma_inv; C83: get_neighbourhood_thresholds for ensembles -/

set_option linter.unusedSectionVars false

namespace Gridpp.Props
open Fl Res Spec

section
variable {K : Type} [Field K] [LinearOrder K] [IsStrictOrderedRing K]

/-- What is assumed of `boost::math::gamma_distribution`: for a shape and a scale above 0, `quantile` at a level from 0
up to but not including 1 is the value at or above 0 where the distribution function `F` reaches the level, `F` is
strictly increasing there, and `quantile` at level 1 throws (`std::overflow_error`, a `runtime_error`). -/
structure GammaQuantile (mk : Fl K → Fl K → Dist K) (F : K → K → K → K) : Prop where
  inside : ∀ k s p : K, 0 < k → 0 < s → 0 ≤ p → p < 1 →
    ∃ v, (mk (fin k) (fin s)).quantile (fin p) = ok (fin v) ∧ 0 ≤ v ∧ F k s v = p
  mono : ∀ k s v w : K, 0 < k → 0 < s → 0 ≤ v → v < w → F k s v < F k s w
  top : ∀ k s : K, 0 < k → 0 < s → (mk (fin k) (fin s)).quantile (fin 1) = .throw .runtimeError

/-- Arguments for which a gamma distribution has a quantile, as documented: a level in [0, 1], a positive shape and scale. -/
def GammaArgs (l a s : Fl K) : Prop := ∃ p k t, l = fin p ∧ a = fin k ∧ s = fin t ∧ 0 ≤ p ∧ p ≤ 1 ∧ 0 < k ∧ 0 < t

theorem gammaInvCheck_ok {l a s : Fl K} (h : GammaArgs l a s) : gammaInvCheck l a s = ok () := by
  obtain ⟨p, k, t, rfl, rfl, rfl, h1, h2, h3, h4⟩ := h
  simp [gammaInvCheck, not_lt.mpr h1, not_lt.mpr h2, not_le.mpr h3, not_le.mpr h4]

theorem gammaInvCheck_throw {l a s : Fl K} (h : ¬ GammaArgs l a s) : gammaInvCheck l a s = .throw .invalidArgument := by
  unfold gammaInvCheck
  cases l with
  | fin p =>
    cases a with
    | fin k =>
      cases s with
      | fin t =>
        simp only [lt_fin, gt_fin, le_fin, isValid_fin]
        by_cases h1 : p < 0
        · simp [h1]
        by_cases h2 : 1 < p
        · simp [h2]
        by_cases h3 : k ≤ 0
        · simp [h3]
        by_cases h4 : t ≤ 0
        · simp [h4]
        exact absurd ⟨p, k, t, rfl, rfl, rfl, not_lt.mp h1, not_lt.mp h2, not_le.mp h3, not_le.mp h4⟩ h
      | _ => simp
    | _ => simp
  | _ => simp

theorem omp_ne_throw {α : Type} (r : Res α) (e : Exc) : omp r ≠ .throw e := by cases r <;> simp

/-- The check of all arguments. -/
theorem gammaInv_checks (levels shape scale : List (Fl K)) (hl : levels.length = shape.length) (hs : scale.length = shape.length) :
    (mapM (fun i : Nat => do
      let l ← vget levels i
      let a ← vget shape i
      let s ← vget scale i
      gammaInvCheck l a s) (List.range shape.length) = .throw .invalidArgument ∧
      ∃ i : Nat, ∃ l a s, levels[i]? = some l ∧ shape[i]? = some a ∧ scale[i]? = some s ∧ ¬ GammaArgs l a s) ∨
    ((∃ us, mapM (fun i : Nat => do
      let l ← vget levels i
      let a ← vget shape i
      let s ← vget scale i
      gammaInvCheck l a s) (List.range shape.length) = ok us) ∧
      ∀ (i : Nat) l a s, levels[i]? = some l → shape[i]? = some a → scale[i]? = some s → GammaArgs l a s) := by
  have key : ∀ i < shape.length, ∃ l a s, levels[i]? = some l ∧ shape[i]? = some a ∧ scale[i]? = some s ∧
      (do
        let l ← vget levels (i : Int)
        let a ← vget shape (i : Int)
        let s ← vget scale (i : Int)
        gammaInvCheck l a s) = gammaInvCheck l a s := by
    intro i hi
    refine ⟨levels[i], shape[i], scale[i], List.getElem?_eq_getElem _, List.getElem?_eq_getElem _, List.getElem?_eq_getElem _, ?_⟩
    rw [vget_eq_ok_of_lt (by omega), ok_bind, vget_eq_ok_of_lt (by omega), ok_bind, vget_eq_ok_of_lt (by omega), ok_bind]
  rcases mapM_range_cases (fun i : Nat => do
      let l ← vget levels (i : Int)
      let a ← vget shape (i : Int)
      let s ← vget scale (i : Int)
      gammaInvCheck l a s)
      (fun e => e = .invalidArgument ∧ ∃ i : Nat, ∃ l a s, levels[i]? = some l ∧ shape[i]? = some a ∧ scale[i]? = some s ∧ ¬ GammaArgs l a s)
      (fun i _ => ∀ l a s, levels[i]? = some l → shape[i]? = some a → scale[i]? = some s → GammaArgs l a s) shape.length (by
    intro i hi
    obtain ⟨l, a, s, h1, h2, h3, h4⟩ := key i hi
    by_cases hg : GammaArgs l a s
    · refine Or.inl ⟨(), by rw [h4, gammaInvCheck_ok hg], fun l' a' s' g1 g2 g3 => ?_⟩
      rw [h1] at g1; rw [h2] at g2; rw [h3] at g3
      cases g1; cases g2; cases g3
      exact hg
    · exact Or.inr ⟨_, by rw [h4, gammaInvCheck_throw hg], rfl, i, l, a, s, h1, h2, h3, hg⟩) with ⟨us, h1, -, h3⟩ | ⟨e, h1, rfl, h2⟩
  · refine Or.inr ⟨⟨us, h1⟩, fun i l a s g1 g2 g3 => ?_⟩
    have hi : i < shape.length := (List.getElem?_eq_some_iff.mp g2).1
    obtain ⟨-, -, hb⟩ := h3 i hi
    exact hb l a s g1 g2 g3
  · exact Or.inl ⟨h1, h2⟩

/-- **C82** (rejection). With vectors of one size, `gamma_inv` raises `invalid_argument` exactly if some level is not a
number in [0, 1] or some shape or scale is not a positive number. -/
theorem c82_rejects (mk : Fl K → Fl K → Dist K) (levels shape scale : List (Fl K)) (hl : levels.length = shape.length)
    (hs : scale.length = shape.length) :
    gammaInv mk levels shape scale = .throw .invalidArgument ↔
      ∃ i : Nat, ∃ l a s, levels[i]? = some l ∧ shape[i]? = some a ∧ scale[i]? = some s ∧ ¬ GammaArgs l a s := by
  unfold gammaInv
  rcases gammaInv_checks levels shape scale hl hs with ⟨h1, h2⟩ | ⟨⟨us, h1⟩, h2⟩
  · simp only [h1]
    exact ⟨fun _ => h2, fun _ => rfl⟩
  · simp only [h1, ok_bind]
    constructor
    · intro h
      exact absurd h (omp_ne_throw _ _)
    · rintro ⟨i, l, a, s, g1, g2, g3, g4⟩
      exact absurd (h2 i l a s g1 g2 g3) g4

/-- **C82** (partial). For levels from 0 up to but not including 1 and positive shapes and scales, element `i` is the
value at or above 0 where the distribution function of the gamma distribution with shape `i` and scale `i` reaches
level `i`, and for equal shape and scale a larger level gives a larger value. Missing: level 1, which the check accepts
and the documentation allows; it terminates the process (`c82_level_one`). -/
theorem c82_quantile_partial (mk : Fl K → Fl K → Dist K) (F : K → K → K → K) (hmk : GammaQuantile mk F) (n : Nat) (p k s : Fin n → K)
    (hp : ∀ i, 0 ≤ p i) (hp1 : ∀ i, p i < 1) (hk : ∀ i, 0 < k i) (hs : ∀ i, 0 < s i) :
    ∃ v : Fin n → K, gammaInv mk (List.ofFn fun i => fin (p i)) (List.ofFn fun i => fin (k i)) (List.ofFn fun i => fin (s i)) =
        ok (List.ofFn fun i => fin (v i)) ∧
      (∀ i, 0 ≤ v i ∧ F (k i) (s i) (v i) = p i) ∧ ∀ i j, k i = k j → s i = s j → p i < p j → v i < v j := by
  choose q hq using fun i => hmk.inside (k i) (s i) (p i) (hk i) (hs i) (hp i) (hp1 i)
  refine ⟨q, ?_, fun i => (hq i).2, ?_⟩
  · unfold gammaInv
    rcases gammaInv_checks (List.ofFn fun i => (fin (p i) : Fl K)) (List.ofFn fun i => fin (k i)) (List.ofFn fun i => fin (s i))
      (by simp) (by simp) with ⟨-, h2⟩ | ⟨⟨us, h1⟩, -⟩
    · obtain ⟨i, l, a, t, g1, g2, g3, g4⟩ := h2
      have hi : i < n := by
        have := (List.getElem?_eq_some_iff.mp g1).1
        simpa using this
      rw [List.getElem?_ofFn, dif_pos hi] at g1 g2 g3
      cases g1; cases g2; cases g3
      exact absurd ⟨_, _, _, rfl, rfl, rfl, hp _, (hp1 _).le, hk _, hs _⟩ g4
    · simp only [h1, ok_bind]
      rw [List.length_ofFn]
      have : mapM (fun i : Nat => do
          let a ← vget (List.ofFn fun i => (fin (k i) : Fl K)) (i : Int)
          let t ← vget (List.ofFn fun i => (fin (s i) : Fl K)) (i : Int)
          let l ← vget (List.ofFn fun i => (fin (p i) : Fl K)) (i : Int)
          (mk a t).quantile l) (List.range n) = ok (List.ofFn fun i => fin (q i)) := by
        rw [mapM_ok_iff, List.forall₂_iff_get]
        refine ⟨by simp, fun i h1 h2 => ?_⟩
        have hi : i < n := by simpa using h1
        simp only [List.get_eq_getElem, List.getElem_range, List.getElem_ofFn]
        rw [vget_eq_ok_of_lt (by simpa using hi), ok_bind, vget_eq_ok_of_lt (by simpa using hi), ok_bind,
          vget_eq_ok_of_lt (by simpa using hi), ok_bind]
        simpa using (hq ⟨i, hi⟩).1
      rw [this, omp_ok]
  · intro i j h1 h2 h3
    by_contra hc
    rcases (not_lt.mp hc).lt_or_eq with h | h
    · have := hmk.mono (k j) (s j) _ _ (hk j) (hs j) (hq j).2.1 h
      rw [(hq j).2.2, ← h1, ← h2, (hq i).2.2] at this
      exact absurd h3 (not_lt.mpr this.le)
    · have h4 := (hq i).2.2
      rw [h1, h2, ← h, (hq j).2.2] at h4
      exact absurd h3 (by rw [h4]; exact lt_irrefl _)

/-- **C82** (level 1). If all arguments pass the check and the first level that is 1 is at `i`, the process is terminated:
the exception of boost leaves a parallel region. -/
theorem c82_level_one (mk : Fl K → Fl K → Dist K) (F : K → K → K → K) (hmk : GammaQuantile mk F) (n : Nat) (p k s : Fin n → K)
    (hp : ∀ i, 0 ≤ p i) (hp1 : ∀ i, p i ≤ 1) (hk : ∀ i, 0 < k i) (hs : ∀ i, 0 < s i) (i : Fin n) (hi : p i = 1) :
    gammaInv mk (List.ofFn fun i => fin (p i)) (List.ofFn fun i => fin (k i)) (List.ofFn fun i => fin (s i)) = .abort := by
  unfold gammaInv
  rcases gammaInv_checks (List.ofFn fun i => (fin (p i) : Fl K)) (List.ofFn fun i => fin (k i)) (List.ofFn fun i => fin (s i))
    (by simp) (by simp) with ⟨-, h2⟩ | ⟨⟨us, h1⟩, -⟩
  · obtain ⟨i, l, a, t, g1, g2, g3, g4⟩ := h2
    have hi : i < n := by
      have := (List.getElem?_eq_some_iff.mp g1).1
      simpa using this
    rw [List.getElem?_ofFn, dif_pos hi] at g1 g2 g3
    cases g1; cases g2; cases g3
    exact absurd ⟨_, _, _, rfl, rfl, rfl, hp _, hp1 _, hk _, hs _⟩ g4
  · simp only [h1, ok_bind]
    rw [List.length_ofFn]
    have hstep : ∀ j (hj : j < n), (do
          let a ← vget (List.ofFn fun i => (fin (k i) : Fl K)) (j : Int)
          let t ← vget (List.ofFn fun i => (fin (s i) : Fl K)) (j : Int)
          let l ← vget (List.ofFn fun i => (fin (p i) : Fl K)) (j : Int)
          (mk a t).quantile l) = (mk (fin (k ⟨j, hj⟩)) (fin (s ⟨j, hj⟩))).quantile (fin (p ⟨j, hj⟩)) := by
      intro j hj
      rw [vget_eq_ok_of_lt (by simpa using hj), ok_bind, vget_eq_ok_of_lt (by simpa using hj), ok_bind,
        vget_eq_ok_of_lt (by simpa using hj), ok_bind]
      simp
    obtain ⟨e, he⟩ := mapM_throw_of_mem (fun j : Nat => do
          let a ← vget (List.ofFn fun i => (fin (k i) : Fl K)) (j : Int)
          let t ← vget (List.ofFn fun i => (fin (s i) : Fl K)) (j : Int)
          let l ← vget (List.ofFn fun i => (fin (p i) : Fl K)) (j : Int)
          (mk a t).quantile l) (List.range n) (fun j hj => by
        have hj' := List.mem_range.mp hj
        rw [hstep j hj']
        rcases (hp1 ⟨j, hj'⟩).lt_or_eq with h | h
        · obtain ⟨v, hv, -⟩ := hmk.inside _ _ _ (hk ⟨j, hj'⟩) (hs ⟨j, hj'⟩) (hp ⟨j, hj'⟩) h
          exact Or.inl ⟨_, hv⟩
        · exact Or.inr ⟨_, by rw [h, hmk.top _ _ (hk ⟨j, hj'⟩) (hs ⟨j, hj'⟩)]⟩)
      (a := (i : Nat)) (List.mem_range.mpr i.2) (e := .runtimeError) (by
        rw [hstep i i.2]
        have : (⟨(i : Nat), i.2⟩ : Fin n) = i := rfl
        rw [this, hi, hmk.top _ _ (hk i) (hs i)])
    rw [he, omp_throw]

/-- **C82** (sizes). The sizes are not checked: with fewer levels than shapes the vector is read past its end. -/
theorem c82_short (mk : Fl K → Fl K → Dist K) : gammaInv mk [] [fin 1] [fin 1] = .ub := rfl

/-- The assumption on the library can be met: a distribution function `v / (v + k * s)` and its inverse. -/
example : ∃ (mk : Fl ℚ → Fl ℚ → Dist ℚ) (F : ℚ → ℚ → ℚ → ℚ), GammaQuantile mk F := by
  refine ⟨fun a s => ⟨fun _ => .ub, fun l =>
    match a, s, l with
    | fin k, fin t, fin p => if p < 1 then ok (fin (p * (k * t) / (1 - p))) else .throw .runtimeError
    | _, _, _ => .ub⟩, fun k t v => v / (v + k * t), ?_, ?_, ?_⟩
  · intro k t p hk ht h0 h1
    have h2 : 0 < 1 - p := by linarith
    have hkt : 0 < k * t := mul_pos hk ht
    refine ⟨p * (k * t) / (1 - p), by simp [h1], by positivity, ?_⟩
    have h3 : p * (k * t) / (1 - p) + k * t = k * t / (1 - p) := by field_simp; ring
    rw [h3]
    field_simp
  · intro k t v w hk ht hv hvw
    have hkt : 0 < k * t := mul_pos hk ht
    rw [div_lt_div_iff₀ (by linarith) (by linarith)]
    nlinarith
  · intro k t hk ht
    simp

end

/-! ### C83 -/

section
variable {K : Type} [Field K] [LinearOrder K] [IsStrictOrderedRing K] [FloorRing K] [HasSqrt K]

/-- All values of an ensemble field. -/
abbrev members (a : List (List (List (Fl K)))) : List K := vals a.flatten.flatten

theorem thresholds3_eq (Y X E : Nat) (a : List (List (List (Fl K)))) (h : Rect Y X a) (hE : ∀ row ∈ a, ∀ c ∈ row, c.length = E)
    (hY : 0 < Y) (hX : 0 < X) (hE0 : 0 < E) (num : Int) (hnum : 0 < num) :
    getNeighbourhoodThresholds3 a num = calcEvenQuantiles ((sorted (members a)).map fin) num := by
  have hne' : a ≠ [] := by rintro rfl; exact absurd h.1 (by simp; omega)
  obtain ⟨r, l, rfl⟩ := List.exists_cons_of_ne_nil hne'
  have hr : r.length = X := h.2 r (by simp)
  have hr' : r ≠ [] := by rintro rfl; simp at hr; omega
  obtain ⟨c, r', rfl⟩ := List.exists_cons_of_ne_nil hr'
  have hc : c.length = E := hE (c :: r') (by simp) c (by simp)
  have hall : grid2 Y X (fun y x => do
        let d ← vget2 ((c :: r') :: l) y x
        mapM (fun e : Nat => vget d e) (List.range E)) = ok ((c :: r') :: l) := by
    rw [grid2_map h (f := id) (by
      intro y x v hv
      rw [vget2_of_cell? hv, ok_bind]
      have hvl : v.length = E := by
        obtain ⟨row, h1, h2⟩ := Option.bind_eq_some_iff.mp hv
        exact hE row (List.mem_of_getElem? h1) v (List.mem_of_getElem? h2)
      rw [mapM_ok_iff, List.forall₂_iff_get]
      refine ⟨by simp [hvl], fun i h1 h2 => ?_⟩
      simp only [List.get_eq_getElem, List.getElem_range, id_eq]
      exact vget_eq_ok_of_lt h2)]
    simp
  unfold getNeighbourhoodThresholds3
  rw [if_neg (by omega)]
  simp only [hc, show ((c :: r') :: l).length = Y from h.1, show (c :: r').length = X from hr]
  rw [if_neg (by omega), hall, ok_bind, filter_isValid, stdSort_map_fin, ok_bind]

/-- **C83**. For an ensemble field with a valid value and at least two thresholds asked for, the thresholds are finite,
sorted, values of some member somewhere, at most as many as asked for, and run from the minimum to the maximum over
cells and members; if no more values than that are valid, they are all the distinct values. -/
theorem c83_thresholds (Y X E : Nat) (a : List (List (List (Fl K)))) (h : Rect Y X a) (hE : ∀ row ∈ a, ∀ c ∈ row, c.length = E)
    (hY : 0 < Y) (hX : 0 < X) (hE0 : 0 < E) (num : Int) (hnum : 2 ≤ num) (hv : members a ≠ []) :
    ∃ ts : List K, getNeighbourhoodThresholds3 a num = ok (ts.map fin) ∧ ts.Pairwise (· ≤ ·) ∧ 0 < ts.length ∧
      (ts.length : Int) ≤ num ∧ (∀ t ∈ ts, t ∈ members a) ∧
      (∃ m, ts.head? = some m ∧ MinOf m (members a)) ∧ (∃ m, ts.getLast? = some m ∧ MaxOf m (members a)) ∧
      (((members a).length : Int) ≤ num → ts.Pairwise (· < ·) ∧ ∀ z ∈ members a, z ∈ ts) := by
  have hne2 : sorted (members a) ≠ [] := by
    intro hc
    have := length_sorted (members a)
    rw [hc] at this
    exact hv (List.length_eq_zero_iff.mp this.symm)
  obtain ⟨out, h1, h2, h3, h4, h5, h6, h7⟩ := c05_even_quantiles (sorted (members a)) hne2 num hnum
  have hperm : ∀ z, z ∈ sorted (members a) ↔ z ∈ members a := fun z => (sorted_perm _).mem_iff
  refine ⟨out, by rw [thresholds3_eq Y X E a h hE hY hX hE0 num (by omega), h1], h2, ?_, h4, fun t ht => (hperm t).mp (h3 t ht), ?_, ?_, ?_⟩
  · obtain ⟨m, hm, -⟩ := h5
    cases out with
    | nil => simp at hm
    | cons => simp
  · obtain ⟨m, hm, hm'⟩ := h5
    exact ⟨m, hm, (hperm m).mp hm'.1, fun z hz => hm'.2 z ((hperm z).mpr hz)⟩
  · obtain ⟨m, hm, hm'⟩ := h6
    exact ⟨m, hm, (hperm m).mp hm'.1, fun z hz => hm'.2 z ((hperm z).mpr hz)⟩
  · intro hl
    obtain ⟨g1, g2⟩ := h7 (by rw [length_sorted]; exact hl)
    exact ⟨g1, fun z hz => g2 z ((hperm z).mpr hz)⟩

/-- **C83** (other cases). Asking for no thresholds is rejected whatever the field; an empty field, a field without
members, and a field without valid values give no thresholds; one threshold of a field with a valid value is the
minimum. -/
theorem c83_cases (a : List (List (List (Fl K)))) (num : Int) :
    (num ≤ 0 → getNeighbourhoodThresholds3 a num = .throw .invalidArgument) ∧
    (0 < num → (a = [] ∨ (∃ l, a = [] :: l) ∨ ∃ r l, a = ([] :: r) :: l) → getNeighbourhoodThresholds3 a num = ok []) ∧
    (∀ Y X E, Rect Y X a → (∀ row ∈ a, ∀ c ∈ row, c.length = E) → 0 < Y → 0 < X → 0 < E → 0 < num →
      (members a = [] → getNeighbourhoodThresholds3 a num = ok []) ∧
      (members a ≠ [] → num = 1 → ∃ m, getNeighbourhoodThresholds3 a num = ok [fin m] ∧ MinOf m (members a))) := by
  refine ⟨fun h => by simp [getNeighbourhoodThresholds3, h], ?_, ?_⟩
  · rintro h (rfl | ⟨l, rfl⟩ | ⟨r, l, rfl⟩) <;> simp [getNeighbourhoodThresholds3, not_le.mpr h]
  · intro Y X E h hE hY hX hE0 hn
    rw [thresholds3_eq Y X E a h hE hY hX hE0 num hn]
    constructor
    · intro hm
      have : sorted (members a) = [] := by
        apply List.length_eq_zero_iff.mp
        rw [length_sorted, hm]; rfl
      rw [this]
      exact (c05_small_num ([] : List K)).2.1 num
    · rintro hm rfl
      have hne2 : sorted (members a) ≠ [] := by
        intro hc
        have := length_sorted (members a)
        rw [hc] at this
        exact hm (List.length_eq_zero_iff.mp this.symm)
      obtain ⟨m, hm'⟩ := (c05_small_num (sorted (members a))).2.2.2
      obtain ⟨h1, h2⟩ := hm' hne2
      have hperm : ∀ z, z ∈ sorted (members a) ↔ z ∈ members a := fun z => (sorted_perm _).mem_iff
      exact ⟨m, h1, (hperm m).mp h2.1, fun z hz => h2.2 z ((hperm z).mpr hz)⟩

example : ∃ a : List (List (List (Fl ℚ))), Rect 1 2 a ∧ (∀ row ∈ a, ∀ c ∈ row, c.length = 2) ∧ members a ≠ [] ∧
    getNeighbourhoodThresholds3 a 2 = ok [fin 0, fin 7] :=
  ⟨[[[fin 7, nan], [fin 0, fin 3]]], by simp [Rect], by simp, by decide, by decide +kernel⟩

end

end Gridpp.Props
