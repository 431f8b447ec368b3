import Verif.Props.Window
import Verif.Props.Neighbourhood
import Verif.Props.Curve
import Verif.Props.Gridding
import Verif.Props.Pressure
import Verif.Props.OI
import Verif.Props.Score
import Verif.Model.Transform
import Verif.Model.Gradient

/-!
C67: unsupported argument values. The claim is false: the functions below check some arguments before their parallel loop
and report those, but leave others to a function called inside the loop, from where an exception terminates the process.
For each function it is shown which calls raise an exception and which calls terminate the process.
-/

set_option linter.unusedSectionVars false

namespace Gridpp.Props
open Fl Res

/-- The call raises an exception that its caller can catch. -/
def Raises {α : Type} (r : Res α) : Prop := ∃ e, r = .throw e

theorem not_raises_ok {α : Type} (a : α) : ¬ Raises (ok a) := by rintro ⟨e, h⟩; cases h
theorem not_raises_ub {α : Type} : ¬ Raises (ub : Res α) := by rintro ⟨e, h⟩; cases h

/-- No exception leaves a parallel loop. -/
theorem c67_parallel {α : Type} (r : Res α) : ¬ Raises (omp r) := by
  rintro ⟨e, h⟩
  cases r <;> cases h

theorem not_raises_bind {α β : Type} {r : Res α} {f : α → Res β} (hr : ¬ Raises r) (hf : ∀ a, ¬ Raises (f a)) :
    ¬ Raises (do let a ← r; f a) := by
  cases r with
  | ok a => exact hf a
  | throw e => exact absurd ⟨e, rfl⟩ hr
  | abort => rintro ⟨e, h⟩; cases h
  | ub => rintro ⟨e, h⟩; cases h

theorem not_raises_vget {α : Type} (v : List α) (i : Int) : ¬ Raises (vget v i) := by
  unfold vget
  split_ifs
  · exact not_raises_ub
  · split
    · exact not_raises_ok _
    · exact not_raises_ub

theorem not_raises_vget2 {α : Type} (v : List (List α)) (i j : Int) : ¬ Raises (vget2 v i j) :=
  not_raises_bind (not_raises_vget _ _) fun _ => not_raises_vget _ _

theorem not_raises_mapM {α β : Type} {f : α → Res β} (l : List α) (h : ∀ a, ¬ Raises (f a)) : ¬ Raises (mapM f l) := by
  induction l with
  | nil => exact not_raises_ok _
  | cons a t ih =>
    rw [mapM_cons]
    exact not_raises_bind (h a) fun _ => not_raises_bind ih fun _ => not_raises_ok _

theorem not_raises_grid2 {β : Type} (Y X : Nat) {f : Int → Int → Res β} (h : ∀ y x, ¬ Raises (f y x)) : ¬ Raises (grid2 Y X f) :=
  not_raises_mapM _ fun _ => not_raises_mapM _ fun _ => h _ _

theorem not_raises_foldM {α β : Type} {f : β → α → Res β} (l : List α) (b : β) (h : ∀ b a, ¬ Raises (f b a)) : ¬ Raises (foldM f b l) := by
  induction l generalizing b with
  | nil => exact not_raises_ok _
  | cons a t ih =>
    rw [foldM_cons]
    exact not_raises_bind (h b a) fun _ => ih _

theorem not_raises_buildM {β : Type} (n : Nat) {f : List β → Nat → Res β} (h : ∀ acc i, ¬ Raises (f acc i)) : ¬ Raises (buildM n f) := by
  unfold buildM
  exact not_raises_foldM _ _ fun _ _ => not_raises_bind (h _ _) fun _ => not_raises_ok _

/-- A parallel loop over elements that are computed or raise an exception: it terminates the process iff one element raises. -/
theorem c67_loop {α β : Type} (f : α → Res β) (l : List α) (h : ∀ a ∈ l, (∃ b, f a = ok b) ∨ Raises (f a)) :
    (omp (mapM f l) = abort ↔ ∃ a ∈ l, Raises (f a)) ∧ ((∃ out, omp (mapM f l) = ok out) ↔ ∀ a ∈ l, ¬ Raises (f a)) := by
  by_cases hx : ∃ a ∈ l, Raises (f a)
  · have hm : ∃ e, mapM f l = .throw e := by
      rcases mapM_ok_or_throw f l h with ⟨bs, hbs⟩ | h
      · exfalso
        obtain ⟨a, ha, hr⟩ := hx
        clear h
        induction l generalizing bs with
        | nil => cases ha
        | cons c t ih =>
          rw [mapM_cons] at hbs
          obtain ⟨b, h1, h2⟩ := bind_eq_ok.mp hbs
          obtain ⟨bs', h3, -⟩ := bind_eq_ok.mp h2
          rcases List.mem_cons.mp ha with rfl | ha
          · rw [h1] at hr; exact not_raises_ok _ hr
          · exact ih bs' h3 ha
      · exact h
    obtain ⟨e, hm⟩ := hm
    rw [hm]
    refine ⟨⟨fun _ => hx, fun _ => rfl⟩, fun h => ?_, fun h => ?_⟩
    · obtain ⟨out, h⟩ := h; cases h
    · obtain ⟨a, ha, hr⟩ := hx; exact absurd hr (h a ha)
  · have hm : ∃ bs, mapM f l = ok bs := by
      push Not at hx
      induction l with
      | nil => exact ⟨[], rfl⟩
      | cons a t ih =>
        obtain ⟨b, hb⟩ := (h a (by simp)).resolve_right (hx a (by simp))
        obtain ⟨bs, hbs⟩ := ih (fun a ha => h a (List.mem_cons_of_mem _ ha)) (fun a ha => hx a (List.mem_cons_of_mem _ ha))
        exact ⟨b :: bs, by rw [mapM_cons, hb, ok_bind, hbs]; rfl⟩
    obtain ⟨bs, hm⟩ := hm
    rw [hm]
    refine ⟨⟨fun h => (by cases h), fun h => absurd h hx⟩, fun _ a ha hr => hx ⟨a, ha, hr⟩, fun _ => ⟨bs, rfl⟩⟩

section
variable {K : Type} [Field K] [LinearOrder K] [IsStrictOrderedRing K] [FloorRing K]

/-! ## window -/

/-- The exceptions of `window` are those of the length. -/
theorem c67_window_raises [HasSqrt K] (rnd : Rnd K) (a : List (List (Fl K))) (length : Int) (s : Statistic) (before keep edges : Bool) :
    Raises (window rnd a length s before keep edges) ↔
      length ≤ 0 ∨ (before = false ∧ length.tmod 2 = 0 ∧ ∃ r l, a = r :: l ∧ r ≠ []) := by
  unfold window
  by_cases h : length ≤ 0
  · rw [if_pos h]
    exact ⟨fun _ => Or.inl h, fun _ => ⟨_, rfl⟩⟩
  · rw [if_neg h]
    cases a with
    | nil =>
      constructor
      · intro h; exact absurd h (not_raises_ok _)
      · rintro (h' | ⟨-, -, r, l, h', -⟩)
        · exact absurd h' h
        · cases h'
    | cons r l =>
      simp only []
      by_cases hr : r = []
      · rw [if_pos (by simp [hr])]
        constructor
        · intro h; exact absurd h (not_raises_ok _)
        · rintro (h' | ⟨-, -, r', l', h', h''⟩)
          · exact absurd h' h
          · cases h'; exact absurd hr h''
      · rw [if_neg (by simpa using hr)]
        by_cases he : length.tmod 2 = 0 ∧ before = false
        · rw [if_pos he]
          exact ⟨fun _ => Or.inr ⟨he.2, he.1, r, l, rfl, hr⟩, fun _ => ⟨_, rfl⟩⟩
        · rw [if_neg he]
          constructor
          · intro h; exact absurd h (c67_parallel _)
          · rintro (h' | ⟨h1, h2, -⟩)
            · exact absurd h' h
            · exact absurd ⟨h2, h1⟩ he

/-- **C67** is false of `window`: the statistics Quantile and Unknown terminate the process, for every non-empty array. -/
theorem c67_window_terminates [HasSqrt K] (rnd : Rnd K) {Y X L : Nat} {a : List (List (Fl K))} (h : Rect Y X a) (hY : 0 < Y) (hX : 0 < X)
    (hL : 0 < L) (before : Bool) (hb : before = true ∨ L % 2 = 1) {s : Statistic} (hs : s = .quantile ∨ s = .unknown) :
    window rnd a (L : Int) s before false false = abort := by
  obtain ⟨r, l, rfl⟩ : ∃ r l, a = r :: l := by
    cases a with
    | nil => have := h.1; simp at this; omega
    | cons r l => exact ⟨r, l, rfl⟩
  have hr : r.length = X := h.2 r (by simp)
  unfold window
  rw [if_neg (by omega)]
  simp only []
  rw [if_neg (by omega), if_neg (by
    rintro ⟨h1, h2⟩
    rcases hb with hb | hb
    · simp [hb] at h2
    · rw [Int.tmod_eq_emod_of_nonneg (by omega)] at h1
      omega)]
  have hrow : windowRow rnd r r.length (L : Int) s before false false = .throw .runtimeError := by
    unfold windowRow
    have hacc : decide (s = .mean ∨ s = .sum ∨ s = .count) = false := by rcases hs with rfl | rfl <;> rfl
    simp only [hacc, Bool.false_eq_true, if_false, ok_bind]
    have hcell : windowStatCell rnd r r.length (L : Int) s before false false 0 = .throw .runtimeError := by
      unfold windowStatCell
      obtain ⟨st, hst⟩ : ∃ st, mapM (fun i => vget r i) (irange
          (if (if before then (0 : Int) - L + 1 else 0 - (L : Int).tdiv 2) < 0 then 0 else (if before then (0 : Int) - L + 1 else 0 - (L : Int).tdiv 2))
          (if (if before then (0 : Int) else 0 + (L : Int).tdiv 2) > (r.length : Int) - 1 then (r.length : Int) - 1 else
            (if before then (0 : Int) else 0 + (L : Int).tdiv 2))) = ok st := by
        apply mapM_exists
        intro i hi
        rw [mem_irange] at hi
        obtain ⟨h1, h2⟩ := hi
        have h0 : 0 ≤ i := by
          refine le_trans ?_ h1
          split_ifs <;> omega
        have h3 : i ≤ (r.length : Int) - 1 := by
          refine le_trans h2 ?_
          split_ifs with c <;> omega
        obtain ⟨n, rfl⟩ := Int.eq_ofNat_of_zero_le h0
        exact ⟨_, vget_eq_ok_of_lt (by omega)⟩
      simp only [hst, ok_bind, Bool.false_and, Bool.false_eq_true, if_false]
      rcases hs with rfl | rfl <;> rfl
    rw [mapM_upto_first_throw (e := .runtimeError) (by omega)]
    · rfl
    · rw [hcell]; rfl
  rw [mapM_cons, hrow]
  rfl

/-! ## neighbourhood -/

theorem not_raises_sum [HasSqrt K] (rnd : Rnd K) (a : List (List (Fl K))) (hw : Int) (h : 0 ≤ hw) : ¬ Raises (neighbourhoodBasic rnd a hw .mean) := by
  unfold neighbourhoodBasic
  rw [if_neg (by omega), if_neg (by simp)]
  cases a with
  | nil => exact not_raises_ok _
  | cons r l =>
    simp only []
    by_cases hz : r.length = 0
    · rw [if_pos hz]; exact not_raises_ok _
    · rw [if_neg hz, if_pos (by simp)]
      unfold neighbourhoodSum
      refine not_raises_bind ?_ fun _ => c67_parallel _
      refine not_raises_buildM _ fun acc i => not_raises_bind (not_raises_vget _ _) fun row => ?_
      refine not_raises_buildM _ fun acc' j => not_raises_bind (not_raises_vget _ _) fun v => ?_
      refine not_raises_bind ?_ fun _ => not_raises_bind ?_ fun _ => not_raises_bind ?_ fun _ => not_raises_ok _
      · split_ifs
        · exact not_raises_ok _
        · exact not_raises_bind (not_raises_vget _ _) fun _ => not_raises_ok _
      · split
        · exact not_raises_ok _
        · exact not_raises_bind (not_raises_vget _ _) fun _ => not_raises_ok _
      · split
        · split_ifs
          · exact not_raises_ok _
          · exact not_raises_bind (not_raises_vget _ _) fun _ => not_raises_ok _
        · exact not_raises_ok _

/-- The exceptions of `neighbourhood` are those of the half width and of the statistic Quantile. -/
theorem c67_neighbourhood_raises [HasSqrt K] (rnd : Rnd K) (a : List (List (Fl K))) (hw : Int) (s : Statistic) :
    Raises (neighbourhood rnd a hw s) ↔ hw < 0 ∨ s = .quantile := by
  have hc := c24_contract rnd a hw s
  constructor
  · intro hr
    by_contra hx
    push Not at hx
    obtain ⟨h1, h2⟩ := hx
    refine absurd hr ?_
    unfold neighbourhood
    by_cases hs : s = .std ∨ s = .variance
    · rw [if_pos hs, if_neg (by omega)]
      cases a with
      | nil => exact not_raises_ok _
      | cons r l =>
        simp only []
        by_cases hz : r.length = 0
        · rw [if_pos hz]; exact not_raises_ok _
        · rw [if_neg hz]
          refine not_raises_bind (not_raises_sum _ _ _ h1) fun _ => not_raises_bind ?_ fun _ =>
            not_raises_bind (not_raises_sum _ _ _ h1) fun _ => ?_
          · exact not_raises_grid2 _ _ fun _ _ => not_raises_bind (not_raises_vget2 _ _ _) fun _ => not_raises_ok _
          · exact not_raises_grid2 _ _ fun _ _ => not_raises_bind (not_raises_vget2 _ _ _) fun _ =>
              not_raises_bind (not_raises_vget2 _ _ _) fun _ => not_raises_ok _
    · rw [if_neg hs]
      unfold neighbourhoodBasic
      rw [if_neg (by omega), if_neg h2]
      cases a with
      | nil => exact not_raises_ok _
      | cons r l =>
        simp only []
        by_cases hz : r.length = 0
        · rw [if_pos hz]; exact not_raises_ok _
        · rw [if_neg hz]
          by_cases hm : s = .mean ∨ s = .sum ∨ s = .count
          · rw [if_pos hm]
            have := not_raises_sum rnd (r :: l) hw h1
            unfold neighbourhoodBasic at this
            rw [if_neg (by omega), if_neg (by simp)] at this
            simp only [] at this
            rw [if_neg hz, if_pos (by simp)] at this
            unfold neighbourhoodSum at this ⊢
            cases ht : satTable (r :: l).length r.length (r :: l) with
            | ok t => exact c67_parallel _
            | throw e => rw [ht] at this; exact absurd ⟨e, rfl⟩ this
            | abort => rintro ⟨e, h⟩; cases h
            | ub => rintro ⟨e, h⟩; cases h
          · rw [if_neg hm]
            split_ifs
            · exact c67_parallel _
            · unfold neighbourhoodBrute
              rw [if_neg (by omega)]
              simp only []
              rw [if_neg hz]
              exact c67_parallel _
  · rintro (h | rfl)
    · exact ⟨_, hc.1 h⟩
    · exact ⟨_, hc.2.1⟩

/-- **C67** is false of `neighbourhood`: the statistic Unknown terminates the process, for every non-empty field. -/
theorem c67_neighbourhood_terminates [HasSqrt K] (rnd : Rnd K) {Y X : Nat} {a : List (List (Fl K))} (h : Rect Y X a) (hY : 0 < Y) (hX : 0 < X)
    (hw : Nat) : neighbourhood rnd a (hw : Int) .unknown = abort ∧ neighbourhoodBruteForce rnd a (hw : Int) .unknown = abort := by
  have hb : neighbourhoodBrute rnd a (hw : Int) .unknown 0 = abort := by
    unfold neighbourhoodBrute
    rw [if_neg (by omega)]
    obtain ⟨r, t, rfl⟩ : ∃ r t, a = r :: t := by
      cases a with
      | nil => have := h.1; simp at this; omega
      | cons r t => exact ⟨r, t, rfl⟩
    have hr : r.length = X := h.2 r (by simp)
    have hl : (r :: t).length = Y := h.1
    simp only []
    rw [if_neg (by omega), hr, hl]
    rw [grid2_first_throw hY hX (e := .runtimeError)]
    · rfl
    · have h0 := collectSquare_ok h (hw := hw) hY hX
      have h1 := squareSize_ok (hw := hw) hY hX
      have h2 := length_square h (hw := hw) hY hX
      simp only [Nat.cast_zero] at h0 h1 h2
      rw [h1, ok_bind, h0, ok_bind, ← h2]
      simp only [decide_true, assert_true, ok_bind]
      rfl
  refine ⟨?_, hb⟩
  unfold neighbourhood neighbourhoodBasic
  rw [if_neg (by simp), if_neg (by omega), if_neg (by simp)]
  obtain ⟨r, t, rfl⟩ : ∃ r t, a = r :: t := by
    cases a with
    | nil => have := h.1; simp at this; omega
    | cons r t => exact ⟨r, t, rfl⟩
  have hr : r.length = X := h.2 r (by simp)
  simp only []
  rw [if_neg (by omega), if_neg (by simp), if_neg (by simp)]
  exact hb

/-! ## apply_curve -/

/-- **C67** is false of `apply_curve` on vectors: with an extrapolation policy outside the enumeration, an input below the
curve terminates the process. The scalar version raises an exception for the same input (`c31_other_policy`). -/
theorem c67_apply_curve (xs ys : List K) (hl : xs.length = ys.length) (hs : xs.Pairwise (· < ·)) (hne : 1 < xs.length)
    (above : Extrapolation) (ha : above ≠ .other) (f : List K) :
    (applyCurveVec (f.map fin) (ys.map fin) (xs.map fin) .other above = abort ↔ ∃ x ∈ f, x < xs[0]) ∧
    ((∃ out, applyCurveVec (f.map fin) (ys.map fin) (xs.map fin) .other above = ok out) ↔ ∀ x ∈ f, xs[0] ≤ x) := by
  have hgood : ∀ x, xs[0] ≤ x → ∃ v, applyCurve (fin x) (ys.map fin) (xs.map fin) .other above = ok v := by
    intro x hx
    rcases le_or_gt x xs[xs.length - 1] with h | h
    · rw [applyCurve_inside xs ys hl (by omega) x hx h]
      obtain ⟨r, hr, -⟩ := c07_interpolate xs ys hl (hs.imp le_of_lt) (by omega) x
      exact ⟨_, hr⟩
    · by_cases hu : above = .unchanged
      · subst hu
        exact ⟨_, (c31_unchanged xs ys hl (by omega) .other x).2 (lt_of_lt_of_le (strict_lt hs (by omega) (by omega)) h.le) h⟩
      · obtain ⟨s, h1, -⟩ := continuesWith_existsUnique above hu ha xs ys hl (by omega) hs (xs.length - 2) (xs.length - 1) (by omega)
        exact ⟨_, c31_above xs ys hl hs (by omega) .other above s h1 x h.le⟩
  have hbad : ∀ x, x < xs[0] → Raises (applyCurve (fin x) (ys.map fin) (xs.map fin) .other above) := fun x hx =>
    ⟨_, c31_other_policy xs ys hl hne above x hx⟩
  have hiff : ∀ x, Raises (applyCurve (fin x) (ys.map fin) (xs.map fin) .other above) ↔ x < xs[0] := by
    intro x
    refine ⟨fun h => ?_, hbad x⟩
    by_contra hx
    obtain ⟨v, hv⟩ := hgood x (not_lt.mp hx)
    rw [hv] at h
    exact not_raises_ok _ h
  have key := c67_loop (fun v => applyCurve v (ys.map fin) (xs.map fin) .other above) (f.map fin) (by
    intro v hv
    obtain ⟨x, -, rfl⟩ := List.mem_map.mp hv
    rcases lt_or_ge x xs[0] with h | h
    · exact Or.inr (hbad x h)
    · exact Or.inl (hgood x h))
  unfold applyCurveVec
  rw [if_neg (by simp [hl]), if_neg (by rw [List.length_map]; omega), key.1, key.2]
  simp only [List.mem_map, exists_exists_and_eq_and, forall_exists_index, and_imp, forall_apply_eq_imp_iff₂, hiff, not_lt]
  exact ⟨trivial, trivial⟩

/-! ## sea_level_pressure -/

/-- An element that `sea_level_pressure` refuses. -/
def SlpRefused (ps al te rh dp : Fl K) : Prop :=
  al.isValid = false ∨ te.isValid = false ∨ ps.lt (fin 0) = true ∨ te.lt (fin 0) = true ∨ rh.lt (fin 0) = true ∨ rh.gt (fin 1) = true ∨
    dp.lt (fin 0) = true

theorem slp_raises [HasExp K] (ps al te rh dp : Fl K) :
    (SlpRefused ps al te rh dp → Raises (seaLevelPressure ps al te rh dp)) ∧
    (¬ SlpRefused ps al te rh dp → ∃ v, seaLevelPressure ps al te rh dp = ok v) := by
  constructor
  · intro h
    refine ⟨.runtimeError, ?_⟩
    unfold seaLevelPressure
    split_ifs with h1 h2 h3
    · rfl
    · rfl
    · rfl
    · exfalso
      simp only [Bool.not_eq_true', Bool.not_eq_false, Bool.or_eq_true, not_or] at h1 h2 h3
      unfold SlpRefused at h
      rcases h with h | h | h | h | h | h | h <;> simp_all
  intro h
  unfold SlpRefused at h
  push Not at h
  simp only [Bool.not_eq_false, Bool.not_eq_true] at h
  obtain ⟨h1, h2, h3, h4, h5, h6, h7⟩ := h
  unfold seaLevelPressure
  rw [if_neg (by simp [h1]), if_neg (by simp [h2]), if_neg (by simp [h3, h4, h5, h6, h7])]
  exact ⟨_, rfl⟩

/-- **C67** is false of `sea_level_pressure` on vectors: it reports different sizes, but terminates the process iff one
element is refused. The scalar version raises an exception for that element. -/
theorem c67_sea_level_pressure [HasExp K] (ps al te rh dp : List (Fl K)) :
    (Raises (seaLevelPressureVec ps al te rh dp) ↔ ¬ (al.length = ps.length ∧ te.length = ps.length ∧ rh.length = ps.length ∧ dp.length = ps.length)) ∧
    (al.length = ps.length → te.length = ps.length → rh.length = ps.length → dp.length = ps.length →
      (seaLevelPressureVec ps al te rh dp = abort ↔ ∃ (i : Nat) (a b c d e : Fl K), ps[i]? = some a ∧ al[i]? = some b ∧ te[i]? = some c ∧
        rh[i]? = some d ∧ dp[i]? = some e ∧ SlpRefused a b c d e)) := by
  constructor
  · unfold seaLevelPressureVec
    split_ifs with h
    · exact ⟨fun _ hx => by rcases h with h | h | h | h <;> simp [hx] at h, fun _ => ⟨_, rfl⟩⟩
    · refine ⟨fun h' => absurd h' (c67_parallel _), fun h' => ?_⟩
      push Not at h
      exact absurd h h'
  · intro h1 h2 h3 h4
    unfold seaLevelPressureVec
    rw [if_neg (by simp [h1, h2, h3, h4])]
    have hget : ∀ i : Nat, i < ps.length → ∃ a b c d e, ps[i]? = some a ∧ al[i]? = some b ∧ te[i]? = some c ∧ rh[i]? = some d ∧ dp[i]? = some e ∧
        vget ps (i : Int) = ok a ∧ vget al (i : Int) = ok b ∧ vget te (i : Int) = ok c ∧ vget rh (i : Int) = ok d ∧ vget dp (i : Int) = ok e := by
      intro i hi
      exact ⟨ps[i], al[i], te[i], rh[i], dp[i], List.getElem?_eq_getElem _, List.getElem?_eq_getElem _, List.getElem?_eq_getElem _,
        List.getElem?_eq_getElem _, List.getElem?_eq_getElem _, vget_eq_ok_of_lt _, vget_eq_ok_of_lt _, vget_eq_ok_of_lt _,
        vget_eq_ok_of_lt _, vget_eq_ok_of_lt _⟩
    rw [(c67_loop _ _ _).1]
    · constructor
      · rintro ⟨j, hj, hr⟩
        obtain ⟨i, hi, rfl⟩ := List.mem_map.mp hj
        obtain ⟨a, b, c, d, e, k1, k2, k3, k4, k5, m1, m2, m3, m4, m5⟩ := hget i (List.mem_range.mp hi)
        refine ⟨i, a, b, c, d, e, k1, k2, k3, k4, k5, ?_⟩
        by_contra hx
        obtain ⟨v, hv⟩ := (slp_raises a b c d e).2 hx
        simp only [m1, m2, m3, m4, m5, ok_bind, hv] at hr
        exact not_raises_ok _ hr
      · rintro ⟨i, a, b, c, d, e, k1, k2, k3, k4, k5, hr⟩
        have hi := (List.getElem?_eq_some_iff.mp k1).1
        refine ⟨(i : Int), List.mem_map.mpr ⟨i, List.mem_range.mpr hi, rfl⟩, ?_⟩
        obtain ⟨a', b', c', d', e', n1, n2, n3, n4, n5, m1, m2, m3, m4, m5⟩ := hget i hi
        rw [k1] at n1; rw [k2] at n2; rw [k3] at n3; rw [k4] at n4; rw [k5] at n5
        cases n1; cases n2; cases n3; cases n4; cases n5
        simp only [m1, m2, m3, m4, m5, ok_bind]
        exact (slp_raises a b c d e).1 hr
    · intro j hj
      obtain ⟨i, hi, rfl⟩ := List.mem_map.mp hj
      obtain ⟨a, b, c, d, e, -, -, -, -, -, m1, m2, m3, m4, m5⟩ := hget i (List.mem_range.mp hi)
      simp only [m1, m2, m3, m4, m5, ok_bind]
      by_cases hx : SlpRefused a b c d e
      · exact Or.inr ((slp_raises a b c d e).1 hx)
      · exact Or.inl ((slp_raises a b c d e).2 hx)

/-! ## gridding -/

/-- **C67** is false of `gridding`: the statistics Quantile and Unknown terminate the process. -/
theorem c67_gridding [HasGeo K] [LawfulSqrt K] {T : RTree K} (hT : T.Lawful) {g : Grid K} {Y X : Nat} {glats glons : List (List (Fl K))} {gtype : CoordType}
    (hg : BuiltGrid g Y X glats glons gtype) {P : Points K} {lats lons : List (Fl K)} {type : CoordType} (hP : BuiltPoints P lats lons type)
    (hv : GridValidIn type glats glons) (rnd : Rnd K) (values : List (Fl K)) (hl : values.length = lats.length) (r : K) (hr : 0 ≤ r)
    {s : Statistic} (hs : s = .quantile ∨ s = .unknown) : griddingG T rnd g P values (fin r) 0 s = abort := by
  obtain ⟨hw, e1, e2, e3⟩ := hg.wf
  have hY : 0 < Y := hg.1
  have hX : 0 < X := hg.2.1
  have hsz : compatibleSizeP1 P values = true := by
    unfold compatibleSizeP1 Points.size
    rw [hP.wf.1, hl]; simp
  unfold griddingG griddingChecks
  rw [if_neg (by simp [hsz]), if_neg (by simp [hr]), if_neg (by simp), ok_bind, hw.size, ok_bind, grid2_first_throw hY hX (e := .runtimeError)]
  · rfl
  · obtain ⟨la, h1, h1'⟩ := vget2_of_rect hw.lats hY hX
    obtain ⟨lo, h2, h2'⟩ := vget2_of_rect hw.lons hY hX
    rw [e1] at h1
    rw [e2] at h2
    simp only [Nat.cast_zero] at h1' h2'
    rw [h1', ok_bind, h2', ok_bind]
    obtain ⟨p, hp⟩ := hv 0 0 la lo h1 h2
    obtain ⟨l, k1, -, -, k4⟩ := points_within hT hP hp (fin r)
    unfold griddingAt
    rw [k1, ok_bind, if_pos (Or.inl le_rfl)]
    obtain ⟨c, hc⟩ : ∃ c, mapM (fun i : Nat => vget values (i : Int)) l = ok c := by
      apply mapM_exists
      intro i hi
      obtain ⟨q, hq, -⟩ := (k4 i).mp hi
      exact ⟨_, vget_eq_ok_of_lt (by rw [hl]; exact hq.lt)⟩
    rw [hc, ok_bind]
    rcases hs with rfl | rfl <;> rfl

/-! ## Functions that report their arguments -/

/-- `downscaling` reports a downscaler outside the enumeration, `calc_score` a metric outside it; neither is inside a loop. -/
theorem c67_downscaling_partial [HasGeo K] [HasSqrt K] (T : RTree K) (ig og : Grid K) (op : Points K) (iv : List (List (Fl K))) (c : Bool)
    (h : compatibleSizeG2 ig iv = ok c) :
    downscalingGP2 T .other ig op iv = .throw .invalidArgument ∧ downscalingGG2 T .other ig og iv = .throw .invalidArgument := by
  unfold downscalingGP2 downscalingGG2
  rw [h]
  cases c <;> exact ⟨rfl, rfl⟩

theorem c67_score_partial (a b c d : Fl K) (m : Metric) : Raises (calcScore a b c d m) ↔ m = .other := by
  constructor
  · intro h
    cases m <;> first | rfl | skip
    all_goals
      unfold calcScore at h
      first | exact absurd h (not_raises_ok _) | (split_ifs at h <;> exact absurd h (not_raises_ok _))
  · rintro rfl; exact ⟨_, rfl⟩

/-- The constructors of the structure functions and transforms report exactly the unusable parameters. -/
theorem c67_constructors_partial [HasSqrt K] [HasExp K] (k : Kind) (h v w hmax : Fl K) (threshold scaling : Fl K) :
    (Raises (Scaled.new k h v w hmax) ↔ (hmax.isValid = true ∧ hmax.lt 0 = true) ∨ ∃ x ∈ [h, v, w], x.isValid = false ∨ x.lt 0 = true) ∧
    (Raises (SF.newCressman h v w) ↔ ∃ x ∈ [h, v, w], x.isValid = false ∨ x.lt 0 = true) ∧
    (Raises (Transform.newStarted threshold scaling) ↔ ∃ x ∈ [threshold, scaling], x.isValid = false ∨ x.le 0 = true) := by
  have hb : ∀ x : Fl K, badScale x = true ↔ (x.isValid = false ∨ x.lt 0 = true) := by intro x; simp [badScale]
  refine ⟨?_, ?_, ?_⟩
  · unfold Scaled.new
    simp only [List.mem_cons, List.not_mem_nil, or_false, exists_eq_or_imp, exists_eq_left, ← hb]
    split_ifs with h1 h2 h3 h4
    · exact ⟨fun _ => Or.inl (by simpa using h1), fun _ => ⟨_, rfl⟩⟩
    · exact ⟨fun _ => Or.inr (Or.inl h2), fun _ => ⟨_, rfl⟩⟩
    · exact ⟨fun _ => Or.inr (Or.inr (Or.inl h3)), fun _ => ⟨_, rfl⟩⟩
    · exact ⟨fun _ => Or.inr (Or.inr (Or.inr h4)), fun _ => ⟨_, rfl⟩⟩
    · refine ⟨fun h => absurd h (not_raises_ok _), ?_⟩
      rintro (h | h | h | h)
      · exact absurd (by simpa using h) h1
      · exact absurd h h2
      · exact absurd h h3
      · exact absurd h h4
  · unfold SF.newCressman
    simp only [List.mem_cons, List.not_mem_nil, or_false, exists_eq_or_imp, exists_eq_left, ← hb]
    split_ifs with h2 h3 h4
    · exact ⟨fun _ => Or.inl h2, fun _ => ⟨_, rfl⟩⟩
    · exact ⟨fun _ => Or.inr (Or.inl h3), fun _ => ⟨_, rfl⟩⟩
    · exact ⟨fun _ => Or.inr (Or.inr h4), fun _ => ⟨_, rfl⟩⟩
    · refine ⟨fun h => absurd h (not_raises_ok _), ?_⟩
      rintro (h | h | h)
      · exact absurd h h2
      · exact absurd h h3
      · exact absurd h h4
  · unfold Transform.newStarted
    simp only [List.mem_cons, List.not_mem_nil, or_false, exists_eq_or_imp, exists_eq_left]
    simp only [Bool.or_eq_true, Bool.not_eq_true', ← zero_def]
    split_ifs with h1 h2
    · exact ⟨fun _ => Or.inl h1, fun _ => ⟨_, rfl⟩⟩
    · exact ⟨fun _ => Or.inr h2, fun _ => ⟨_, rfl⟩⟩
    · refine ⟨fun h => absurd h (not_raises_ok _), ?_⟩
      rintro (h | h)
      · exact absurd h h1
      · exact absurd h h2

end

/-! ## Concrete cases -/

example : window (fun _ => 0) ([[fin 1, nan, fin 3]] : List (List (Fl ℚ))) 3 .unknown false false false = abort ∧
    window (fun _ => 0) ([[fin 1, nan, fin 3]] : List (List (Fl ℚ))) 2 .unknown false false false = .throw .invalidArgument ∧
    Rect 1 3 ([[fin 1, nan, fin 3]] : List (List (Fl ℚ))) := by decide +kernel

example : neighbourhood (fun _ => 0) ([[fin 1, nan, fin 3]] : List (List (Fl ℚ))) 1 .unknown = abort ∧
    neighbourhood (fun _ => 0) ([[fin 1, nan, fin 3]] : List (List (Fl ℚ))) 1 .quantile = .throw .invalidArgument := by decide +kernel

example : applyCurveVec ([fin 3, fin 0] : List (Fl ℚ)) [fin 1, fin 2] [fin 1, fin 4] .other .zero = abort ∧
    applyCurveVec ([fin 3, fin 1] : List (Fl ℚ)) [fin 1, fin 2] [fin 1, fin 4] .other .zero = ok [fin (5 / 3), fin 1] ∧
    applyCurve (fin (0 : ℚ)) [fin 1, fin 2] [fin 1, fin 4] .other .zero = .throw .invalidArgument := by decide +kernel

example : seaLevelPressureVec ([fin 100000] : List (Fl ℚ)) [nan] [fin 280] [fin (1 / 2)] [nan] = abort ∧
    seaLevelPressure (fin (100000 : ℚ)) nan (fin 280) (fin (1 / 2)) nan = .throw .runtimeError := by decide +kernel

example : (do
      let g ← Grid.new [[fin (0 : ℚ)]] [[fin 0]] [] [] .cartesian
      let p ← Points.new [fin 0] [fin 1] [] [] .cartesian
      griddingG RTree.scan (fun _ => 0) g p [fin 7] (fin 2) 0 .unknown) = abort := by decide +kernel

end Gridpp.Props
