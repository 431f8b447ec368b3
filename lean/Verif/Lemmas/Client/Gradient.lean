import Verif.Model.Client.Gradient
import Verif.Spec.ClientGradient
import Verif.Lemmas.Client.Stencil
import Verif.Lemmas.CalcGradient

/-! # Lemmas about the gradient downscaler of the client -/

set_option linter.unusedSectionVars false

namespace Gridpp.Client
open Fl hiding MV isValid
open Res Spec

variable {K : Type} [Field K] [LinearOrder K] [IsStrictOrderedRing K]

/-- Reading in a loop is reading first. -/
theorem foldM_read {α β S : Type} {read : α → Res β} {upd : S → β → S} {l : List α} {bs : List β} (h : mapM read l = ok bs) (s : S) :
    foldM (fun s p => do
      let a ← read p
      ok (upd s a)) s l = ok (bs.foldl upd s) := by
  induction l generalizing s bs with
  | nil =>
    cases h
    rfl
  | cons p t ih =>
    rw [mapM_cons] at h
    obtain ⟨b, h1, h2⟩ := bind_eq_ok.mp h
    obtain ⟨bs', h3, h4⟩ := bind_eq_ok.mp h2
    cases h4
    rw [foldM_cons]
    simp only [h1, ok_bind, List.foldl_cons]
    exact ih h3 _

/-- Reading all points of a stencil. -/
theorem stencil_read {β : Type} {read : Int × Int → Res β} {Y X : Nat} {P : Nat → Nat → β → Prop}
    (h : ∀ i < Y, ∀ j < X, ∃ b, read ((i : Int), (j : Int)) = ok b ∧ P i j b) (radius : Int) (c : Int × Int) :
    ∃ bs, mapM read (stencil Y X radius c) = ok bs ∧
      List.Forall₂ (fun p b => ∃ i j : Nat, p = ((i : Int), (j : Int)) ∧ i < Y ∧ j < X ∧ P i j b) (stencil Y X radius c) bs := by
  have : ∀ l : List (Int × Int), (∀ p ∈ l, 0 ≤ p.1 ∧ p.1 < Y ∧ 0 ≤ p.2 ∧ p.2 < X) → ∃ bs, mapM read l = ok bs ∧
      List.Forall₂ (fun p b => ∃ i j : Nat, p = ((i : Int), (j : Int)) ∧ i < Y ∧ j < X ∧ P i j b) l bs := by
    intro l
    induction l with
    | nil => exact fun _ => ⟨[], rfl, .nil⟩
    | cons p l ih =>
      intro hl
      obtain ⟨p1, p2⟩ := p
      obtain ⟨a1, a2, a3, a4⟩ := hl _ List.mem_cons_self
      obtain ⟨m, rfl⟩ : ∃ m : Nat, p1 = (m : Int) := ⟨p1.toNat, by simp only at a1; omega⟩
      obtain ⟨n, rfl⟩ : ∃ n : Nat, p2 = (n : Int) := ⟨p2.toNat, by simp only at a3; omega⟩
      have hm : m < Y := by simp only at a2; omega
      have hn : n < X := by simp only at a4; omega
      obtain ⟨b, hb, hP⟩ := h m hm n hn
      obtain ⟨bs, e1, e2⟩ := ih fun q hq => hl q (List.mem_cons_of_mem _ hq)
      refine ⟨b :: bs, ?_, .cons ⟨m, n, rfl, hm, hn, hP⟩ e2⟩
      rw [mapM_cons, hb, ok_bind, e1, ok_bind]
  exact this _ fun p hp => by
    have := mem_stencil.mp hp
    exact ⟨this.1, this.2.1, this.2.2.1, this.2.2.2.1⟩

/-! ### The elevation gradient -/

theorem elevRead_spec {Y X E : Nat} {ielevs ilafs : List (List (Fl K))} (he : Rect Y X ielevs) (hl : Rect Y X ilafs) {gfield : FieldC K}
    (hg : Sized Y X E gfield) {e : Nat} (hE : e < E) {i j : Nat} (hi : i < Y) (hj : j < X) :
    ∃ b, elevRead ielevs ilafs gfield e ((i : Int), (j : Int)) = ok b ∧ cell? ielevs i j = some b.1 ∧ gfield.get i j e = ok b.2.1 ∧
      cell? ilafs i j = some b.2.2 := by
  obtain ⟨x, hx, hx'⟩ := vget2_of_rect he hi hj
  obtain ⟨l, hl1, hl'⟩ := vget2_of_rect hl hi hj
  obtain ⟨y, hy, hy'⟩ := getInt_nat hg hi hj hE
  have hle : i < ielevs.length := by rw [he.1]; exact hi
  refine ⟨(x, y, l), ?_, hx, hy', hl1⟩
  unfold elevRead
  unfold vget2 at hx'
  rw [vget_eq_ok_of_lt hle, ok_bind] at hx'
  simp only
  rw [show decide ((i : Int) < (ielevs.length : Int)) = true by simp [hle], assert_true, ok_bind, vget_eq_ok_of_lt hle, ok_bind,
    he.2 _ (List.getElem_mem hle), show decide ((j : Int) < (X : Int)) = true by simp [hj], assert_true, ok_bind, hx', ok_bind, hy, ok_bind,
    hl', ok_bind]

/-- The state of the loop in terms of the pairs seen. -/
structure ElevInv (s : ElevState K) (ps : List (K × K)) : Prop where
  xy : s.xy = fin (ps.map fun p => p.1 * p.2).sum
  x : s.x = fin (ps.map Prod.fst).sum
  y : s.y = fin (ps.map Prod.snd).sum
  xx : s.xx = fin (ps.map fun p => p.1 * p.1).sum
  n : s.n = ps.length
  none : ps = [] → s.min = Client.MV ∧ s.max = Client.MV
  some : ps ≠ [] → ∃ a b, s.min = fin a ∧ s.max = fin b ∧ MinOf a (ps.map Prod.fst) ∧ MaxOf b (ps.map Prod.fst)
  valid : ∀ p ∈ ps, p.1 ≠ -999

theorem usable_valid [HasExp K] {log : Bool} {m : K} {a : Fl K × Fl K × Fl K} {p : K × K} (h : usable log m a = some p) : p.1 ≠ -999 := by
  obtain ⟨x, y, l⟩ := a
  cases x with
  | fin x =>
    cases y with
    | fin y =>
      simp only [usable] at h
      rw [Option.ite_none_right_eq_some, Option.some.injEq] at h
      rw [← h.2]
      exact h.1.1
    | _ => simp [usable] at h
  | _ => simp [usable] at h

/-- Whether a point counts, and its pair. -/
theorem usable_spec [HasExp K] {o : GradientOptions K} {m : K} (hm : o.minLafForElevGradient = fin m) (a : Fl K × Fl K × Fl K) :
    (isValid a.1 && isValid (if o.logTransform then Fl.log a.2.1 else a.2.1) && (!isValid a.2.2 || a.2.2.ge o.minLafForElevGradient)) =
      (usable o.logTransform m a).isSome ∧
    ∀ p, usable o.logTransform m a = some p → a.1 = fin p.1 ∧ (if o.logTransform then Fl.log a.2.1 else a.2.1) = fin p.2 := by
  obtain ⟨x, y, l⟩ := a
  have hlaf : (!isValid l || l.ge (fin m)) = decide (∀ q ∈ Fl.vals [l], q ≠ -999 → m ≤ q) := by
    cases l with
    | fin q => by_cases hq : q = -999 <;> simp [isValid, Fl.vals, ge_fin, hq]
    | _ => simp [isValid, Fl.vals]
  simp only [hm, hlaf]
  cases x with
  | fin x =>
    cases y with
    | fin y =>
      cases hlog : o.logTransform with
      | false =>
        simp only [usable, Bool.false_eq_true, if_false]
        refine ⟨?_, ?_⟩
        · rw [Bool.eq_iff_iff, Option.isSome_ite]
          simp [isValid, and_assoc]
        · intro p hp
          split_ifs at hp
          rw [Option.some.injEq] at hp
          rw [← hp]
          exact ⟨rfl, rfl⟩
      | true =>
        simp only [usable, if_true, Fl.log]
        refine ⟨?_, ?_⟩
        · rw [Bool.eq_iff_iff, Option.isSome_ite]
          by_cases h2 : 0 < y
          · simp [isValid, h2, and_assoc]
          · by_cases h5 : y < 0 <;> simp [isValid, h2, h5]
        · intro p hp
          split_ifs at hp with h1
          rw [Option.some.injEq] at hp
          rw [← hp, if_pos h1.2.1.1]
          exact ⟨rfl, rfl⟩
    | _ => cases hlog : o.logTransform <;> simp [usable, isValid, Fl.log]
  | _ => simp [usable, isValid]

theorem elevUpdate_inv [HasExp K] {o : GradientOptions K} {m : K} (hm : o.minLafForElevGradient = fin m) {s : ElevState K} {ps : List (K × K)}
    (h : ElevInv s ps) (a : Fl K × Fl K × Fl K) : ElevInv (elevUpdate o s a) (ps ++ (usable o.logTransform m a).toList) := by
  obtain ⟨h1, h2⟩ := usable_spec hm a
  unfold elevUpdate
  simp only
  rw [h1]
  cases hu : usable o.logTransform m a with
  | none =>
    simp only [Option.isSome_none, Bool.false_eq_true, if_false, Option.toList_none, List.append_nil]
    exact h
  | some p =>
    obtain ⟨e1, e2⟩ := h2 p hu
    have hp := usable_valid hu
    simp only [Option.isSome_some, if_true, Option.toList_some]
    rw [e1, e2]
    refine ⟨?_, ?_, ?_, ?_, ?_, ?_, ?_, ?_⟩
    · simp only [h.xy, fin_mul, fin_add]; simp
    · simp only [h.x, fin_add]; simp
    · simp only [h.y, fin_add]; simp
    · simp only [h.xx, fin_mul, fin_add]; simp
    · simp [h.n]
    · intro hc; simp at hc
    · intro _
      by_cases hps : ps = []
      · obtain ⟨g1, g2⟩ := h.none hps
        refine ⟨p.1, p.1, ?_, ?_, ?_, ?_⟩
        · simp only [g1, isValid_false_iff.mpr not_present_MV]; simp
        · simp only [g2, isValid_false_iff.mpr not_present_MV]; simp
        · simp [hps, MinOf]
        · simp [hps, MaxOf]
      · obtain ⟨a, b, g1, g2, g3, g4⟩ := h.some hps
        have hne : ∀ q ∈ ps.map Prod.fst, q ≠ -999 := by
          intro q hq
          obtain ⟨r, hr, rfl⟩ := List.mem_map.mp hq
          exact h.valid r hr
        simp only [g1, g2, isValid_iff_present.mpr ⟨a, rfl, hne a g3.1⟩, isValid_iff_present.mpr ⟨b, rfl, hne b g4.1⟩, Bool.not_true, Bool.false_or]
        refine ⟨if p.1 < a then p.1 else a, if b < p.1 then p.1 else b, ?_, ?_, ?_, ?_⟩
        · by_cases hc : p.1 < a <;> simp [lt_fin, hc]
        · by_cases hc : b < p.1 <;> simp [gt_fin, hc]
        · rw [List.map_append]
          split_ifs with hc
          · refine ⟨by simp, fun x hx => ?_⟩
            rcases List.mem_append.mp hx with hx | hx
            · exact hc.le.trans (g3.2 x hx)
            · simp at hx; rw [hx]
          · refine ⟨List.mem_append_left _ g3.1, fun x hx => ?_⟩
            rcases List.mem_append.mp hx with hx | hx
            · exact g3.2 x hx
            · simp at hx; rw [hx]; exact not_lt.mp hc
        · rw [List.map_append]
          split_ifs with hc
          · refine ⟨by simp, fun x hx => ?_⟩
            rcases List.mem_append.mp hx with hx | hx
            · exact (g4.2 x hx).trans hc.le
            · simp at hx; rw [hx]
          · refine ⟨List.mem_append_left _ g4.1, fun x hx => ?_⟩
            rcases List.mem_append.mp hx with hx | hx
            · exact g4.2 x hx
            · simp at hx; rw [hx]; exact not_lt.mp hc
    · intro q hq
      rcases List.mem_append.mp hq with hq | hq
      · exact h.valid q hq
      · rw [List.mem_singleton] at hq
        rw [hq]
        exact hp

theorem elevFold_inv [HasExp K] {o : GradientOptions K} {m : K} (hm : o.minLafForElevGradient = fin m) (l : List (Fl K × Fl K × Fl K)) :
    ElevInv (l.foldl (elevUpdate o) ⟨0, 0, 0, 0, 0, Client.MV, Client.MV⟩) (l.filterMap (usable o.logTransform m)) := by
  induction l using List.reverseRecOn with
  | nil => exact ⟨by simp [zero_def], by simp [zero_def], by simp [zero_def], by simp [zero_def], rfl, fun _ => ⟨rfl, rfl⟩, fun h => absurd rfl h, by simp⟩
  | append_singleton l a ih =>
    rw [List.foldl_append, List.filterMap_append]
    have := elevUpdate_inv hm ih a
    rw [List.foldl_cons, List.foldl_nil, show List.filterMap (usable o.logTransform m) [a] = (usable o.logTransform m a).toList by
      cases h : usable o.logTransform m a <;> simp [h]]
    exact this

theorem elevFit_spec {o : GradientOptions K} {d : K} (hd : o.minElevDiff = fin d) {s : ElevState K} {ps : List (K × K)} (h : ElevInv s ps) :
    ∃ g, elevFit o s = ok g ∧
      (Fits o.minNumPoints d ps ∧ (ps.map fun p => p.1 * p.1).sum ≠ (ps.map Prod.fst).sum * (ps.map Prod.fst).sum → g = fin (slope ps)) ∧
      (¬ (Fits o.minNumPoints d ps ∧ (ps.map fun p => p.1 * p.1).sum ≠ (ps.map Prod.fst).sum * (ps.map Prod.fst).sum) → g = Client.MV) := by
  unfold elevFit
  by_cases hps : ps = []
  · obtain ⟨g1, g2⟩ := h.none hps
    rw [g1, g2, isValid_false_iff.mpr not_present_MV]
    refine ⟨_, by simp; rfl, ?_, fun _ => ?_⟩
    · rintro ⟨⟨-, ⟨p, hp, -⟩, -⟩, -⟩
      rw [hps] at hp
      simp at hp
    · unfold elevSlope
      rw [isValid_false_iff.mpr not_present_MV]
      simp
  · obtain ⟨a, b, g1, g2, g3, g4⟩ := h.some hps
    have hne : ∀ q ∈ ps.map Prod.fst, q ≠ -999 := by
      intro q hq
      obtain ⟨r, hr, rfl⟩ := List.mem_map.mp hq
      exact h.valid r hr
    have hab : a ≤ b := g3.2 b g4.1
    have hn : (ps.length : K) ≠ 0 := by simpa using hps
    rw [g1, g2, isValid_iff_present.mpr ⟨a, rfl, hne a g3.1⟩, isValid_iff_present.mpr ⟨b, rfl, hne b g4.1⟩]
    simp only [Bool.and_self, if_true, ge_fin, decide_eq_true hab, assert_true, ok_bind, fin_sub]
    have hdiff : isValid (fin (b - a) : Fl K) = true := isValid_iff_present.mpr ⟨_, rfl, by linarith⟩
    have hrange : d ≤ b - a ↔ ∃ p ∈ ps, ∃ q ∈ ps, d ≤ q.1 - p.1 := by
      constructor
      · intro hdl
        obtain ⟨p, hp, e1⟩ := List.mem_map.mp g3.1
        obtain ⟨q, hq, e2⟩ := List.mem_map.mp g4.1
        exact ⟨p, hp, q, hq, by rw [e1, e2]; exact hdl⟩
      · rintro ⟨p, hp, q, hq, hdl⟩
        have h1 := g3.2 p.1 (List.mem_map_of_mem hp)
        have h2 := g4.2 q.1 (List.mem_map_of_mem hq)
        linarith
    have hvar := mean_sub_sq ps hps
    have hcov := mean_sub_prod ps hps
    unfold mean at hvar hcov
    simp only [List.length_map] at hvar hcov
    refine ⟨_, rfl, ?_, ?_⟩
    · rintro ⟨⟨k1, k2, k3⟩, k4⟩
      unfold elevSlope
      rw [hdiff, hd, h.n, h.xx, h.x, h.y, h.xy, fin_mul, feq_fin, ge_fin]
      rw [if_pos (by simp [k1, hrange.mpr k2, k4])]
      simp only [ofNat_def, fin_div_of_ne _ hn, fin_mul, fin_sub, hvar, hcov, zero_def, feq_fin]
      rw [if_pos (by simp [k3]), fin_div_of_ne _ k3]
      rfl
    · intro hc
      unfold elevSlope
      rw [hdiff, hd, h.n, h.xx, h.x, h.y, h.xy, fin_mul, feq_fin, ge_fin]
      split_ifs with hif
      · simp only [Bool.and_eq_true, decide_eq_true_eq, Bool.not_eq_true', decide_eq_false_iff_not, and_true] at hif
        simp only [ofNat_def, fin_div_of_ne _ hn, fin_mul, fin_sub, hvar, hcov, zero_def, feq_fin]
        rw [if_neg]
        intro hv
        have hv : variance (ps.map Prod.fst) ≠ 0 := by simpa using hv
        exact hc ⟨⟨hif.1.1, hrange.mp hif.1.2, hv⟩, hif.2⟩
      · rfl

theorem elevCheck_bounded {o : GradientOptions K} {g : Fl K} {q : K} (hq : (if !isValid g then o.defaultElevGradient else g) = fin q) :
    ∃ v, elevCheck o g = fin v ∧ Bounded o.minElevGradient o.maxElevGradient q v := by
  unfold elevCheck
  simp only [hq]
  -- the two bounds
  have hlo : ∃ q', (if isValid o.minElevGradient && (fin q).lt o.minElevGradient then o.minElevGradient else fin q) = fin q' ∧
      ((∀ m, o.minElevGradient = fin m → m ≠ -999 → m ≤ q) ∧ q' = q ∨ ∃ m, o.minElevGradient = fin m ∧ m ≠ -999 ∧ q < m ∧ q' = m) := by
    by_cases hv : Present o.minElevGradient
    · obtain ⟨m, hm, hm'⟩ := hv
      rw [hm, isValid_iff_present.mpr ⟨m, rfl, hm'⟩, lt_fin]
      by_cases hc : q < m
      · exact ⟨m, by simp [hc], .inr ⟨m, rfl, hm', hc, rfl⟩⟩
      · refine ⟨q, by simp [hc], .inl ⟨?_, rfl⟩⟩
        intro m' e _
        rw [Fl.fin.injEq] at e
        rw [← e]
        exact not_lt.mp hc
    · rw [isValid_false_iff.mpr hv]
      exact ⟨q, by simp, .inl ⟨fun m e e' => absurd ⟨m, e, e'⟩ hv, rfl⟩⟩
  obtain ⟨q', e1, h1⟩ := hlo
  rw [e1]
  have hhi : ∃ v, (if isValid o.maxElevGradient && (fin q').gt o.maxElevGradient then o.maxElevGradient else fin q') = fin v ∧
      ((∀ m, o.maxElevGradient = fin m → m ≠ -999 → q' ≤ m) ∧ v = q' ∨ ∃ m, o.maxElevGradient = fin m ∧ m ≠ -999 ∧ m < q' ∧ v = m) := by
    by_cases hv : Present o.maxElevGradient
    · obtain ⟨m, hm, hm'⟩ := hv
      rw [hm, isValid_iff_present.mpr ⟨m, rfl, hm'⟩, gt_fin]
      by_cases hc : m < q'
      · exact ⟨m, by simp [hc], .inr ⟨m, rfl, hm', hc, rfl⟩⟩
      · refine ⟨q', by simp [hc], .inl ⟨?_, rfl⟩⟩
        intro m' e _
        rw [Fl.fin.injEq] at e
        rw [← e]
        exact not_lt.mp hc
    · rw [isValid_false_iff.mpr hv]
      exact ⟨q', by simp, .inl ⟨fun m e e' => absurd ⟨m, e, e'⟩ hv, rfl⟩⟩
  obtain ⟨v, e2, h2⟩ := hhi
  refine ⟨v, e2, ?_⟩
  rintro ⟨w, hw1, hw2⟩
  have hin : InBounds o.minElevGradient o.maxElevGradient v := by
    refine ⟨fun m e e' => ?_, fun m e e' => ?_⟩
    · have hmw := hw1 m e e'
      rcases h2 with ⟨-, rfl⟩ | ⟨M, k1, k2, k3, rfl⟩
      · rcases h1 with ⟨k, rfl⟩ | ⟨m', k1, k2, k3, rfl⟩
        · exact k m e e'
        · rw [e, Fl.fin.injEq] at k1
          exact k1.le
      · exact hmw.trans (hw2 _ k1 k2)
    · rcases h2 with ⟨k, rfl⟩ | ⟨M, k1, k2, k3, rfl⟩
      · exact k m e e'
      · rw [e, Fl.fin.injEq] at k1
        exact k1.ge
  refine ⟨hin, fun u hu => ?_⟩
  rcases h2 with ⟨k, rfl⟩ | ⟨M, k1, k2, k3, rfl⟩
  · rcases h1 with ⟨k, rfl⟩ | ⟨m', k1, k2, k3, rfl⟩
    · simp
    · have := hu.1 _ k1 k2
      rw [abs_of_nonneg (by linarith), abs_of_nonneg (by linarith)]
      linarith
  · have hle := hu.2 _ k1 k2
    rcases h1 with ⟨-, rfl⟩ | ⟨m', j1, j2, j3, rfl⟩
    · rw [abs_of_nonpos (by linarith), abs_of_nonpos (by linarith)]
      linarith
    · have := hin.1 _ j1 j2
      linarith

/-! ### The gradient of the land area fraction -/

theorem given_eq (v : Fl K) : given v = isValid v := by
  cases v <;> rfl

theorem given_iff {v : Fl K} : given v = true ↔ Present v := by
  rw [given_eq, isValid_iff_present]

theorem given_fin {v : Fl K} (h : given v = true) : v = fin (number v) ∧ number v ≠ -999 := by
  obtain ⟨q, rfl, hq⟩ := given_iff.mp h
  exact ⟨rfl, hq⟩

theorem given_lt {a b : Fl K} (ha : given a = true) (hb : given b = true) : a.lt b = decide (number a < number b) := by
  obtain ⟨q, rfl, -⟩ := given_iff.mp ha
  obtain ⟨r, rfl, -⟩ := given_iff.mp hb
  exact lt_fin q r

theorem given_gt {a b : Fl K} (ha : given a = true) (hb : given b = true) : a.gt b = decide (number b < number a) := by
  obtain ⟨q, rfl, -⟩ := given_iff.mp ha
  obtain ⟨r, rfl, -⟩ := given_iff.mp hb
  exact gt_fin q r

theorem given_sub {a b : Fl K} (ha : given a = true) (hb : given b = true) : a - b = fin (number a - number b) := by
  obtain ⟨q, rfl, -⟩ := given_iff.mp ha
  obtain ⟨r, rfl, -⟩ := given_iff.mp hb
  exact fin_sub q r

theorem given_lt_fin {a : Fl K} (ha : given a = true) (r : K) : a.lt (fin r) = decide (number a < r) := by
  obtain ⟨q, rfl, -⟩ := given_iff.mp ha
  exact lt_fin q r

theorem mem_withFraction {l : List (Fl K × Fl K × Fl K)} {a : Fl K × Fl K × Fl K} :
    a ∈ withFraction l ↔ a ∈ l ∧ given a.1 = true ∧ given a.2.2 = true := by
  unfold withFraction
  rw [List.mem_filter, Bool.and_eq_true]

/-- `a` has the least key of the pool; it is the initial value if the pool is empty. -/
def Best (key : K → K) (pool : List (Fl K × Fl K × Fl K)) (a : Fl K × Fl K × Fl K) : Prop :=
  (pool = [] ∧ a = (Client.MV, Client.MV, Client.MV)) ∨ a ∈ pool ∧ ∀ b ∈ pool, key (number a.1) ≤ key (number b.1)

theorem best_step {key : K → K} {pool : List (Fl K × Fl K × Fl K)} {a b : Fl K × Fl K × Fl K} (h : Best key pool a)
    (hpool : ∀ c ∈ pool, given c.1 = true) {better : Bool}
    (hbetter : given a.1 = true → (better = true ↔ key (number b.1) < key (number a.1))) :
    Best key (pool ++ [b]) (if !isValid a.1 || better then b else a) := by
  rcases h with ⟨rfl, rfl⟩ | ⟨h1, h2⟩
  · rw [isValid_false_iff.mpr not_present_MV]
    right
    simp
  · have ha := hpool a h1
    rw [← given_eq, ha]
    have hiff := hbetter ha
    right
    cases hbt : better with
    | true =>
      have hlt := hiff.mp hbt
      simp only [Bool.not_true, Bool.or_true, if_true]
      refine ⟨by simp, fun c hc => ?_⟩
      rcases List.mem_append.mp hc with hc | hc
      · exact hlt.le.trans (h2 c hc)
      · rw [List.mem_singleton] at hc
        rw [hc]
    | false =>
      have hle : key (number a.1) ≤ key (number b.1) := not_lt.mp fun hlt => by
        rw [hiff.mpr hlt] at hbt
        simp at hbt
      simp only [Bool.not_true, Bool.or_self, Bool.false_eq_true, if_false]
      refine ⟨List.mem_append_left _ h1, fun c hc => ?_⟩
      rcases List.mem_append.mp hc with hc | hc
      · exact h2 c hc
      · rw [List.mem_singleton] at hc
        rw [hc]
        exact hle

theorem best_absorb {key : K → K} {p q : List (Fl K × Fl K × Fl K)} {a : Fl K × Fl K × Fl K} (h : Best key (p ++ q) a) (hpq : ∀ b ∈ p, b ∈ q) :
    Best key q a := by
  rcases h with ⟨h1, h2⟩ | ⟨h1, h2⟩
  · rw [List.append_eq_nil_iff] at h1
    exact .inl ⟨h1.2, h2⟩
  · refine .inr ⟨?_, fun b hb => h2 b (List.mem_append_right _ hb)⟩
    rcases List.mem_append.mp h1 with h | h
    · exact hpq a h
    · exact h

/-- The state of the loop over a neighbourhood. -/
structure LafInv (pool : List (Fl K × Fl K × Fl K)) (s : LafState K) (l : List (Fl K × Fl K × Fl K)) : Prop where
  min : Best id (pool ++ withFraction l) s.min
  max : Best Neg.neg (pool ++ withFraction l) s.max
  sea : s.sea = (l.filter fun a => given a.2.2 && a.1.lt (fin (1 / 2))).length
  n : s.n = (l.filter fun a => given a.2.2).length

theorem lafUpdate_inv {pool : List (Fl K × Fl K × Fl K)} (hpool : ∀ c ∈ pool, given c.1 = true) {s : LafState K} {l : List (Fl K × Fl K × Fl K)}
    (h : LafInv pool s l) (a : Fl K × Fl K × Fl K) : LafInv pool (lafUpdate s a) (l ++ [a]) := by
  have hp : ∀ c ∈ pool ++ withFraction l, given c.1 = true := by
    intro c hc
    rcases List.mem_append.mp hc with hc | hc
    · exact hpool c hc
    · exact (mem_withFraction.mp hc).2.1
  have hw : withFraction (l ++ [a]) = withFraction l ++ (if given a.1 && given a.2.2 then [a] else []) := by
    unfold withFraction
    rw [List.filter_append]
    congr 1
    cases hc : (given a.1 && given a.2.2) <;> simp only [List.filter_cons, List.filter_nil, hc]
  cases hv : given a.2.2 with
  | false =>
    have : lafUpdate s a = s := by
      unfold lafUpdate
      rw [← given_eq, hv]
      simp
    rw [this]
    refine ⟨?_, ?_, ?_, ?_⟩
    · rw [hw, hv]; simpa using h.min
    · rw [hw, hv]; simpa using h.max
    · rw [h.sea, List.filter_append]; simp [hv]
    · rw [h.n, List.filter_append]; simp [hv]
  | true =>
    cases hl : given a.1 with
    | false =>
      have : lafUpdate s a = { s with sea := s.sea + (if a.1.lt (fin (1 / 2)) then 1 else 0), n := s.n + 1 } := by
        unfold lafUpdate
        rw [← given_eq a.2.2, ← given_eq a.1, hv, hl]
        simp
      rw [this]
      refine ⟨?_, ?_, ?_, ?_⟩
      · rw [hw, hl]; simpa using h.min
      · rw [hw, hl]; simpa using h.max
      · rw [List.filter_append]
        cases hlt : a.1.lt (fin (1 / 2)) <;>
          simp only [List.filter_cons, List.filter_nil, hv, hlt, h.sea, Bool.and_self, Bool.and_false, Bool.false_eq_true, if_true, if_false,
            List.length_append, List.length_cons, List.length_nil]
      · rw [List.filter_append]; simp [hv, h.n]
    | true =>
      have : lafUpdate s a = ⟨if !isValid s.min.1 || a.1.lt s.min.1 then a else s.min, if !isValid s.max.1 || a.1.gt s.max.1 then a else s.max,
          s.sea + (if a.1.lt (fin (1 / 2)) then 1 else 0), s.n + 1⟩ := by
        unfold lafUpdate
        rw [← given_eq a.2.2, ← given_eq a.1, hv, hl]
        simp
      rw [this]
      refine ⟨?_, ?_, ?_, ?_⟩
      · rw [hw, hl, hv]
        simp only [Bool.and_self, if_true, ← List.append_assoc]
        refine best_step h.min hp fun hg => ?_
        rw [given_lt hl hg]
        simp
      · rw [hw, hl, hv]
        simp only [Bool.and_self, if_true, ← List.append_assoc]
        refine best_step h.max hp fun hg => ?_
        rw [given_gt hl hg]
        simp
      · rw [List.filter_append]
        cases hlt : a.1.lt (fin (1 / 2)) <;>
          simp only [List.filter_cons, List.filter_nil, hv, hlt, h.sea, Bool.and_self, Bool.and_false, Bool.false_eq_true, if_true, if_false,
            List.length_append, List.length_cons, List.length_nil]
      · rw [List.filter_append]; simp [hv, h.n]

theorem lafFold_inv {pool : List (Fl K × Fl K × Fl K)} (hpool : ∀ c ∈ pool, given c.1 = true) {min max : Fl K × Fl K × Fl K}
    (hmin : Best id pool min) (hmax : Best Neg.neg pool max) (l : List (Fl K × Fl K × Fl K)) :
    LafInv pool (l.foldl lafUpdate ⟨min, max, 0, 0⟩) l := by
  induction l using List.reverseRecOn with
  | nil => exact ⟨by simpa [withFraction] using hmin, by simpa [withFraction] using hmax, rfl, rfl⟩
  | append_singleton l a ih =>
    rw [List.foldl_append]
    exact lafUpdate_inv hpool ih a

/-- The gradient of one neighbourhood. -/
theorem lafSlope_spec {o : GradientOptions K} {d f eg : K} (hd : o.minLafDiff = fin d) (hd0 : 0 < d) (hf : o.minFracSeaPoints = fin f)
    {pool l : List (Fl K × Fl K × Fl K)} (hsub : ∀ b ∈ pool, b ∈ withFraction l) {s : LafState K} (h : LafInv pool s l)
    (hsea : f ≤ 0 ∨ ∀ a ∈ l, given a.2.2 = true → given a.1 = true) :
    ∃ g : Option K, lafSlope o (fin eg) s = g.map fin ∧ FractionRule d f eg l g := by
  have hmin := best_absorb h.min hsub
  have hmax := best_absorb h.max hsub
  rcases hmin with ⟨h1, h2⟩ | ⟨h1, h2⟩
  · refine ⟨none, ?_, fun _ => rfl, fun hc => absurd h1 hc⟩
    unfold lafSlope
    rw [h2, isValid_false_iff.mpr not_present_MV]
    simp
  · have hne : withFraction l ≠ [] := List.ne_nil_of_mem h1
    rcases hmax with ⟨h3, -⟩ | ⟨h3, h4⟩
    · exact absurd h3 hne
    obtain ⟨m1, m2, m3⟩ := mem_withFraction.mp h1
    obtain ⟨M1, M2, M3⟩ := mem_withFraction.mp h3
    have hext : ∀ a ∈ withFraction l, number s.min.1 ≤ number a.1 ∧ number a.1 ≤ number s.max.1 :=
      fun a ha => ⟨h2 a ha, neg_le_neg_iff.mp (h4 a ha)⟩
    have hn : 0 < s.n := by
      rw [h.n]
      exact List.length_pos_of_mem (List.mem_filter.mpr ⟨m1, m3⟩)
    have hnK : (s.n : K) ≠ 0 := by
      rw [Nat.cast_ne_zero]
      omega
    have hfrac : f ≤ (s.sea : K) / (s.n : K) ↔
        f ≤ (((withFraction l).filter fun a => decide (number a.1 < 1 / 2)).length : K) / ((withFraction l).length : K) := by
      rcases hsea with hf0 | hall
      · exact ⟨fun _ => hf0.trans (div_nonneg (Nat.cast_nonneg _) (Nat.cast_nonneg _)), fun _ => hf0.trans (div_nonneg (Nat.cast_nonneg _) (Nat.cast_nonneg _))⟩
      · have e1 : (l.filter fun a => given a.2.2) = withFraction l := by
          unfold withFraction
          refine List.filter_congr fun a ha => ?_
          cases hv : given a.2.2 with
          | false => simp
          | true => rw [hall a ha hv]; rfl
        have e2 : (l.filter fun a => given a.2.2 && a.1.lt (fin (1 / 2))) = (withFraction l).filter fun a => decide (number a.1 < 1 / 2) := by
          unfold withFraction
          rw [List.filter_filter]
          refine List.filter_congr fun a ha => ?_
          cases hv : given a.2.2 with
          | false => simp
          | true =>
            have hg := hall a ha hv
            rw [hg, given_lt_fin hg]
            simp
        rw [h.n, h.sea, e1, e2]
    have hcond : (isValid s.max.1 && isValid s.min.1 && (s.max.1 - s.min.1).ge o.minLafDiff &&
        (Fl.ofNat s.sea / Fl.ofNat s.n : Fl K).ge o.minFracSeaPoints) =
        decide (d ≤ number s.max.1 - number s.min.1 ∧
          f ≤ (((withFraction l).filter fun a => decide (number a.1 < 1 / 2)).length : K) / ((withFraction l).length : K)) := by
      rw [← given_eq, ← given_eq, M2, m2, hd, hf, given_sub M2 m2, ge_fin, ofNat_def, ofNat_def, fin_div_of_ne _ hnK, ge_fin]
      rw [Bool.eq_iff_iff]
      simp only [Bool.and_self, Bool.true_and, Bool.and_eq_true, decide_eq_true_eq, hfrac]
    by_cases hc : d ≤ number s.max.1 - number s.min.1 ∧ given s.min.2.1 = true ∧ given s.max.2.1 = true ∧
        f ≤ (((withFraction l).filter fun a => decide (number a.1 < 1 / 2)).length : K) / ((withFraction l).length : K)
    · refine ⟨some ((number s.max.2.2 - eg * (number s.max.2.1 - number s.min.2.1) - number s.min.2.2) / (number s.max.1 - number s.min.1)), ?_,
        fun h0 => absurd h0 hne, fun _ => ⟨s.min, h1, s.max, h3, hext, fun _ => rfl, fun hn => absurd hc hn⟩⟩
      obtain ⟨c1, c2, c3, c4⟩ := hc
      unfold lafSlope
      rw [hcond, if_pos (by rw [decide_eq_true_eq]; exact ⟨c1, c4⟩), ← given_eq, ← given_eq, c2, c3]
      have hne0 : number s.max.1 - number s.min.1 ≠ 0 := ne_of_gt (hd0.trans_le c1)
      simp only [Bool.and_self, if_true, Option.map_some, Option.some.injEq]
      rw [given_sub M2 m2, given_sub c3 c2]
      obtain ⟨u, hu, -⟩ := given_iff.mp M3
      obtain ⟨w, hw, -⟩ := given_iff.mp m3
      rw [hu, hw]
      simp only [fin_sub, fin_mul]
      rw [fin_div_of_ne _ hne0]
      rfl
    · refine ⟨none, ?_, fun _ => rfl, fun _ => ⟨s.min, h1, s.max, h3, hext, fun h => absurd h hc, fun _ => rfl⟩⟩
      unfold lafSlope
      rw [hcond]
      by_cases hc1 : d ≤ number s.max.1 - number s.min.1 ∧
          f ≤ (((withFraction l).filter fun a => decide (number a.1 < 1 / 2)).length : K) / ((withFraction l).length : K)
      · rw [if_pos (decide_eq_true hc1), if_neg]
        · rfl
        · rw [Bool.and_eq_true, ← given_eq, ← given_eq]
          exact fun h => hc ⟨hc1.1, h.2, h.1, hc1.2⟩
      · rw [if_neg (by rw [decide_eq_true_eq]; exact hc1)]
        rfl

theorem lafRead_spec {Y X E : Nat} {ielevs ilafs : List (List (Fl K))} (he : Rect Y X ielevs) (hl : Rect Y X ilafs) {ifield : FieldC K}
    (hg : Sized Y X E ifield) {e : Nat} (hE : e < E) {i j : Nat} (hi : i < Y) (hj : j < X) :
    ∃ b, lafRead ielevs ilafs ifield e ((i : Int), (j : Int)) = ok b ∧ cell? ilafs i j = some b.1 ∧ cell? ielevs i j = some b.2.1 ∧
      ifield.get i j e = ok b.2.2 := by
  obtain ⟨x, hx, hx'⟩ := vget2_of_rect he hi hj
  obtain ⟨l, hl1, hl'⟩ := vget2_of_rect hl hi hj
  obtain ⟨y, hy, hy'⟩ := getInt_nat hg hi hj hE
  refine ⟨(l, x, y), ?_, hl1, hx, hy'⟩
  unfold lafRead
  simp only [hl', hx', hy, ok_bind]

theorem mapM_mem {α β : Type} {f : α → Res β} {l : List α} {bs : List β} (h : mapM f l = ok bs) :
    (∀ a ∈ l, ∃ b ∈ bs, f a = ok b) ∧ ∀ b ∈ bs, ∃ a ∈ l, f a = ok b := by
  induction l generalizing bs with
  | nil =>
    cases h
    simp
  | cons p t ih =>
    rw [mapM_cons] at h
    obtain ⟨b, h1, h2⟩ := bind_eq_ok.mp h
    obtain ⟨bs', h3, h4⟩ := bind_eq_ok.mp h2
    cases h4
    obtain ⟨k1, k2⟩ := ih h3
    refine ⟨fun a ha => ?_, fun c hc => ?_⟩
    · rcases List.mem_cons.mp ha with rfl | ha
      · exact ⟨b, List.mem_cons_self, h1⟩
      · obtain ⟨c, hc, e⟩ := k1 a ha
        exact ⟨c, List.mem_cons_of_mem _ hc, e⟩
    · rcases List.mem_cons.mp hc with rfl | hc
      · exact ⟨p, List.mem_cons_self, h1⟩
      · obtain ⟨a, ha, e⟩ := k2 c hc
        exact ⟨a, List.mem_cons_of_mem _ ha, e⟩

theorem stencil_mono {Y X : Nat} {r R : Int} (h : r ≤ R) {c p : Int × Int} (hp : p ∈ stencil Y X r c) : p ∈ stencil Y X R c := by
  rw [mem_stencil] at hp ⊢
  omega

theorem weighted_append {gs : List (Option K)} {ws ws' : List K} (h : gs.length = ws.length) (g : Option K) (w : K) :
    weighted (gs ++ [g]) (ws ++ w :: ws') = weighted gs ws ++ (g.map fun q => (q, w)).toList := by
  unfold weighted
  rw [List.zip_append h, List.filterMap_append]
  congr 1

/-- The loop over the radii. -/
theorem lafRadii_spec {o : GradientOptions K} {d f eg : K} (hd : o.minLafDiff = fin d) (hd0 : 0 < d) (hf : o.minFracSeaPoints = fin f)
    {Y X E : Nat} {ielevs ilafs : List (List (Fl K))} (hel : Rect Y X ielevs) (hl : Rect Y X ilafs) {ifield : FieldC K}
    (hg : Sized Y X E ifield) {e : Nat} (hE : e < E) (c : Int × Int)
    (hsea : f ≤ 0 ∨ ∀ i j l t, cell? ilafs i j = some l → ifield.get i j e = ok t → given t = true → given l = true)
    (hsorted : o.lafSearchRadii.Pairwise (· ≤ ·)) {ws : List K} (hws : o.lafWeights = ws.map fin)
    (hlen : ws.length = o.lafSearchRadii.length) (r : Nat) (hr : r ≤ o.lafSearchRadii.length) :
    ∃ (t : LafSums K) (gs : List (Option K)), foldM (lafRadius o Y X ielevs ilafs ifield e c (fin eg)) ⟨(Client.MV, Client.MV, Client.MV), (Client.MV, Client.MV, Client.MV), 0, 0, 0⟩ (List.range r) = ok t ∧
      gs.length = r ∧
      (∀ k < r, ∃ R g, o.lafSearchRadii[k]? = some R ∧ gs[k]? = some g ∧ ∃ bs, List.Forall₂ (fun p b => ∃ i j : Nat, p = ((i : Int), (j : Int)) ∧ i < Y ∧ j < X ∧
        cell? ilafs i j = some b.1 ∧ cell? ielevs i j = some b.2.1 ∧ ifield.get i j e = ok b.2.2) (stencil Y X R c) bs ∧ FractionRule d f eg bs g) ∧
      t.value = fin ((weighted gs (ws.take r)).map fun p => p.1 * p.2).sum ∧ t.weight = fin ((weighted gs (ws.take r)).map Prod.snd).sum ∧
      t.n = (weighted gs (ws.take r)).length ∧
      ∃ pool, Best id pool t.min ∧ Best Neg.neg pool t.max ∧ ∀ a ∈ pool, given a.1 = true ∧ given a.2.2 = true ∧
        ∃ k < r, ∃ R, o.lafSearchRadii[k]? = some R ∧ ∃ p ∈ stencil Y X R c, lafRead ielevs ilafs ifield e p = ok a := by
  induction r with
  | zero =>
    exact ⟨_, [], rfl, rfl, by simp, by simp [weighted, zero_def], by simp [weighted, zero_def], rfl, [], .inl ⟨rfl, rfl⟩, .inl ⟨rfl, rfl⟩, by simp⟩
  | succ r ih =>
    obtain ⟨t, gs, h1, h2, h3, h4, h5, h6, pool, h7, h8, h9⟩ := ih (by omega)
    have hrl : r < o.lafSearchRadii.length := by omega
    have hR : o.lafSearchRadii[r]? = some o.lafSearchRadii[r] := List.getElem?_eq_getElem hrl
    generalize hRdef : o.lafSearchRadii[r] = R at hR
    have hpool : ∀ a ∈ pool, given a.1 = true := fun a ha => (h9 a ha).1
    obtain ⟨bs, b1, b2⟩ := stencil_read (read := lafRead ielevs ilafs ifield e) (P := fun i j b => cell? ilafs i j = some b.1 ∧
      cell? ielevs i j = some b.2.1 ∧ ifield.get i j e = ok b.2.2) (fun i hi j hj => lafRead_spec hel hl hg hE hi hj) R c
    have hinv := lafFold_inv hpool h7 h8 bs
    have hsub : ∀ a ∈ pool, a ∈ withFraction bs := by
      intro a ha
      obtain ⟨k1, k2, k, hk, R', hR', p, hp, hread⟩ := h9 a ha
      have hle : R' ≤ R := by
        obtain ⟨l1, e1⟩ := List.getElem?_eq_some_iff.mp hR'
        have := List.pairwise_iff_getElem.mp hsorted k r l1 hrl hk
        rw [e1, hRdef] at this
        exact this
      obtain ⟨b, hb, hb'⟩ := (mapM_mem b1).1 p (stencil_mono hle hp)
      rw [hread, Res.ok.injEq] at hb'
      rw [hb']
      rw [hb'] at k1 k2
      exact mem_withFraction.mpr ⟨hb, k1, k2⟩
    obtain ⟨g, g1, g2⟩ := lafSlope_spec (eg := eg) hd hd0 hf hsub hinv (by
      rcases hsea with h | h
      · exact .inl h
      · refine .inr fun a ha hv => ?_
        obtain ⟨p, -, i, j, -, -, -, e1, -, e3⟩ := forall₂_mem_right b2 a ha
        exact h i j _ _ e1 e3 hv)
    have hw : ws.take (r + 1) = ws.take r ++ [ws[r]'(by omega)] := by
      rw [List.take_add_one, List.getElem?_eq_getElem (by omega)]
      rfl
    have hweighted : weighted (gs ++ [g]) (ws.take (r + 1)) = weighted gs (ws.take r) ++ (g.map fun q => (q, ws[r]'(by omega))).toList := by
      rw [hw]
      exact weighted_append (by rw [h2, List.length_take]; omega) g _
    have hwr : vget o.lafWeights (r : Int) = ok (fin (ws[r]'(by omega))) := by
      rw [hws, vget_eq_ok_of_lt (by simp; omega)]
      simp
    have hstep : lafRadius o Y X ielevs ilafs ifield e c (fin eg) t r = ok ⟨(bs.foldl lafUpdate ⟨t.min, t.max, 0, 0⟩).min, (bs.foldl lafUpdate ⟨t.min, t.max, 0, 0⟩).max,
        fin ((weighted (gs ++ [g]) (ws.take (r + 1))).map fun p => p.1 * p.2).sum, fin ((weighted (gs ++ [g]) (ws.take (r + 1))).map Prod.snd).sum,
        (weighted (gs ++ [g]) (ws.take (r + 1))).length⟩ := by
      unfold lafRadius
      rw [vget_eq_ok_of_lt hrl, ok_bind, hRdef]
      unfold lafLoop
      rw [foldM_read b1, ok_bind, g1, hweighted]
      cases g with
      | none => simp [h4, h5, h6]
      | some q =>
        simp only [Option.map_some, hwr, ok_bind, Option.toList_some, List.map_append, List.sum_append, List.map_cons, List.map_nil, List.sum_cons,
          List.sum_nil, add_zero, List.length_append, List.length_cons, List.length_nil, h4, h5, h6, fin_mul, fin_add]
    refine ⟨⟨(bs.foldl lafUpdate ⟨t.min, t.max, 0, 0⟩).min, (bs.foldl lafUpdate ⟨t.min, t.max, 0, 0⟩).max,
        fin ((weighted (gs ++ [g]) (ws.take (r + 1))).map fun p => p.1 * p.2).sum, fin ((weighted (gs ++ [g]) (ws.take (r + 1))).map Prod.snd).sum,
        (weighted (gs ++ [g]) (ws.take (r + 1))).length⟩, gs ++ [g], ?_, by simp [h2], ?_, rfl, rfl, rfl, withFraction bs, best_absorb hinv.min hsub, best_absorb hinv.max hsub, ?_⟩
    · rw [List.range_succ, foldM_append, h1, ok_bind, foldM_cons, hstep]
      rfl
    · intro k hk
      rcases Nat.lt_succ_iff_lt_or_eq.mp hk with hk | hk
      · obtain ⟨R', g', e1, e2, e3⟩ := h3 k hk
        exact ⟨R', g', e1, by rw [List.getElem?_append_left (by omega)]; exact e2, e3⟩
      · refine ⟨R, g, by rw [hk]; exact hR, by rw [List.getElem?_append_right (by omega)]; simp [h2, hk], bs, b2, g2⟩
    · intro a ha
      obtain ⟨m1, m2, m3⟩ := mem_withFraction.mp ha
      obtain ⟨p, hp, hread⟩ := (mapM_mem b1).2 a m1
      exact ⟨m2, m3, r, by omega, R, hR, p, hp, hread⟩

/-! ### The value -/

theorem stencil_places {β : Type} {P : Nat → Nat → β → Prop} {Y X : Nat} {R : Int} {i j : Nat} {bs : List β}
    (h : List.Forall₂ (fun p b => ∃ m n : Nat, p = ((m : Int), (n : Int)) ∧ m < Y ∧ n < X ∧ P m n b) (stencil Y X R ((i : Int), (j : Int))) bs) :
    ∃ places, Around Y X R i j places ∧ List.Forall₂ (fun (p : Nat × Nat) b => P p.1 p.2 b) places bs := by
  refine ⟨(stencil Y X R ((i : Int), (j : Int))).map fun p => (p.1.toNat, p.2.toNat), ⟨?_, fun p => ?_⟩, ?_⟩
  · refine List.Nodup.map_on ?_ (stencil_nodup _ _ _ _)
    intro p hp q hq e
    have h1 := mem_stencil.mp hp
    have h2 := mem_stencil.mp hq
    rw [Prod.mk.injEq] at e
    exact Prod.ext (by omega) (by omega)
  · rw [List.mem_map]
    constructor
    · rintro ⟨q, hq, rfl⟩
      obtain ⟨h1, h2, h3, h4, h5, h6⟩ := within_iff.mp hq
      refine ⟨by simp only; omega, by simp only; omega, ?_, ?_⟩
      · simp only; rw [Int.toNat_of_nonneg h1]; exact h5
      · simp only; rw [Int.toNat_of_nonneg h3]; exact h6
    · rintro ⟨h1, h2, h3, h4⟩
      exact ⟨((p.1 : Int), (p.2 : Int)), within_iff.mpr ⟨by simp, by simpa using h1, by simp, by simpa using h2, h3, h4⟩, by simp⟩
  · rw [List.forall₂_map_left_iff]
    refine h.imp ?_
    rintro p b ⟨m, n, rfl, -, -, hP⟩
    simpa using hP

theorem present_valid {l : List (Fl K)} {q : K} (h : q ∈ present l) : q ≠ -999 := by
  unfold present at h
  simpa using (List.mem_filter.mp h).2

/-- The state of the loop in `limit`. -/
structure LimitInv (s : Fl K × Fl K) (vs : List K) : Prop where
  empty : vs = [] → s = (Client.MV, Client.MV)
  min : vs ≠ [] → ∃ lo, s.1 = fin lo ∧ MinOf lo vs
  max : vs ≠ [] → s.2 = Client.MV ∨ ∃ hi ∈ vs, s.2 = fin hi

theorem limitFold_inv (l : List (Fl K)) : LimitInv (l.foldl limitUpdate (Client.MV, Client.MV)) (present l) := by
  induction l using List.reverseRecOn with
  | nil => exact ⟨fun _ => rfl, fun h => absurd rfl h, fun h => absurd rfl h⟩
  | append_singleton l a ih =>
    rw [List.foldl_append, present_append, List.foldl_cons, List.foldl_nil]
    generalize l.foldl limitUpdate (Client.MV, Client.MV) = s at ih
    unfold limitUpdate
    by_cases ha : Present a
    · rw [isValid_iff_present.mpr ha]
      obtain ⟨q, rfl, hq⟩ := ha
      rw [present_cons_fin hq, show present ([] : List (Fl K)) = [] from rfl]
      simp only [if_true]
      by_cases hl : present l = []
      · rw [ih.empty hl, isValid_false_iff.mpr not_present_MV, hl]
        exact ⟨fun h => by simp at h, fun _ => ⟨q, by simp, by simp [MinOf]⟩, fun _ => .inl (by simp)⟩
      · obtain ⟨lo, e1, e2⟩ := ih.min hl
        rw [e1, isValid_iff_present.mpr ⟨lo, rfl, present_valid e2.1⟩, lt_fin]
        by_cases hlt : q < lo
        · rw [if_pos (by simp [hlt])]
          refine ⟨fun h => by simp at h, fun _ => ⟨q, rfl, by simp, fun x hx => ?_⟩, fun _ => ?_⟩
          · rcases List.mem_append.mp hx with hx | hx
            · exact hlt.le.trans (e2.2 x hx)
            · rw [List.mem_singleton] at hx; rw [hx]
          · rcases ih.max hl with h | ⟨hi, h1, h2⟩
            · exact .inl h
            · exact .inr ⟨hi, List.mem_append_left _ h1, h2⟩
        · rw [if_neg (by simp [hlt])]
          have hmin : MinOf lo (present l ++ [q]) := by
            refine ⟨List.mem_append_left _ e2.1, fun x hx => ?_⟩
            rcases List.mem_append.mp hx with hx | hx
            · exact e2.2 x hx
            · rw [List.mem_singleton] at hx; rw [hx]; exact not_lt.mp hlt
          split_ifs
          · exact ⟨fun h => by simp at h, fun _ => ⟨lo, rfl, hmin⟩, fun _ => .inr ⟨q, by simp, rfl⟩⟩
          · refine ⟨fun h => by simp at h, fun _ => ⟨lo, e1, hmin⟩, fun _ => ?_⟩
            rcases ih.max hl with h | ⟨hi, h1, h2⟩
            · exact .inl h
            · exact .inr ⟨hi, List.mem_append_left _ h1, h2⟩
    · rw [isValid_false_iff.mpr ha, present_cons_missing ha, show present ([] : List (Fl K)) = [] from rfl, List.append_nil]
      simpa using ih

/-- The two bounds applied to a value. -/
theorem limitBounds {s : Fl K × Fl K} {vs : List K} (h : LimitInv s vs) (hne : vs ≠ []) (hlow : ∀ q ∈ vs, -999 < q) (v : K) :
    ∃ u lo, (if (if (fin v).gt s.2 then s.2 else fin v).lt s.1 then s.1 else if (fin v).gt s.2 then s.2 else fin v) = fin u ∧ MinOf lo vs ∧ lo ≤ u ∧
      (∃ hi ∈ vs, u ≤ hi) ∧ (v ≤ lo → u = lo) ∧ (u = v ∨ u ∈ vs) := by
  obtain ⟨lo, e1, e2⟩ := h.min hne
  have hlo := hlow lo e2.1
  refine ?_
  rw [e1]
  rcases h.max hne with h2 | ⟨hi, h1, h2⟩
  · refine ⟨lo, lo, ?_, e2, le_refl _, ⟨lo, e2.1, le_refl _⟩, fun _ => rfl, .inr e2.1⟩
    rw [h2]
    unfold Client.MV
    rw [gt_fin]
    by_cases hc : (-999 : K) < v
    · simp [hc, lt_fin, hlo]
    · simp [hc, lt_fin, (not_lt.mp hc).trans_lt hlo]
  · rw [h2, gt_fin]
    have hle := e2.2 hi h1
    by_cases hc : hi < v
    · refine ⟨hi, lo, ?_, e2, hle, ⟨hi, h1, le_refl _⟩, fun h3 => ?_, .inr h1⟩
      · simp [hc, lt_fin, not_lt.mpr hle]
      · exact absurd (hc.trans_le h3) (not_lt.mpr hle)
    · by_cases hd : v < lo
      · refine ⟨lo, lo, ?_, e2, le_refl _, ⟨lo, e2.1, le_refl _⟩, fun _ => rfl, .inr e2.1⟩
        simp [hc, lt_fin, hd]
      · refine ⟨v, lo, ?_, e2, not_lt.mp hd, ⟨hi, h1, not_lt.mp hc⟩, fun h3 => le_antisymm h3 (not_lt.mp hd), .inl rfl⟩
        simp [hc, lt_fin, hd]

theorem limitValue_spec {Y X E : Nat} {ifield : FieldC K} (hi : Sized Y X E ifield) {e : Nat} (he : e < E) (R : Int) (i j : Nat) (v : K) :
    ∃ (places : List (Nat × Nat)) (vals : List (Fl K)) (w : Fl K), limitValue R ifield ((i : Int), (j : Int)) e (fin v) = ok w ∧ Around Y X R i j places ∧
      List.Forall₂ (fun (p : Nat × Nat) u => ifield.get p.1 p.2 e = ok u) places vals ∧
      (present vals ≠ [] → (∀ q ∈ present vals, -999 < q) → ∃ u lo, w = fin u ∧ MinOf lo (present vals) ∧ lo ≤ u ∧ (∃ hi ∈ present vals, u ≤ hi) ∧
        (v ≤ lo → u = lo) ∧ (u = v ∨ u ∈ present vals)) := by
  obtain ⟨bs, b1, b2⟩ := stencil_read (read := fun p : Int × Int => ifield.getInt p.1 p.2 e) (P := fun m n b => ifield.get m n e = ok b)
    (fun m hm n hn => getInt_nat hi hm hn he) R ((i : Int), (j : Int))
  obtain ⟨places, p1, p2⟩ := stencil_places b2
  have hinv := limitFold_inv bs
  have hval : ∃ w, limitValue R ifield ((i : Int), (j : Int)) e (fin v) = ok w ∧ w =
      let s := bs.foldl limitUpdate (Client.MV, Client.MV)
      if (if (fin v).gt s.2 then s.2 else fin v).lt s.1 then s.1 else if (fin v).gt s.2 then s.2 else fin v := by
    refine ⟨_, ?_, rfl⟩
    unfold limitValue
    rw [hi.nY, hi.nX, foldM_read b1, ok_bind]
  obtain ⟨w, w1, w2⟩ := hval
  refine ⟨places, bs, w, w1, p1, p2, fun hne hlow => ?_⟩
  obtain ⟨u, lo, h⟩ := limitBounds hinv hne hlow v
  exact ⟨u, lo, w2.trans h.1, h.2⟩

/-- The smoothed land area fraction. -/
theorem smoothLaf_spec {nY nX : Nat} {olafs : List (List (Fl K))} (ho : Rect nY nX olafs) (R : Int) {i j : Nat} (hi : i < nY) (hj : j < nX) :
    ∃ l, smoothLaf R olafs nY nX i j = ok l ∧ (R = 0 → cell? olafs i j = some l) ∧
      (R ≠ 0 → ∃ (places : List (Nat × Nat)) (vals : List (Fl K)), Around nY nX R i j places ∧
        List.Forall₂ (fun (p : Nat × Nat) u => cell? olafs p.1 p.2 = some u) places vals ∧
        (present vals = [] → l = fin (-999)) ∧ (present vals ≠ [] → l = fin (mean (present vals)))) := by
  unfold smoothLaf
  by_cases hR : R = 0
  · rw [if_pos hR]
    obtain ⟨v, h1, h2⟩ := vget2_of_rect ho hi hj
    exact ⟨v, h2, fun _ => h1, fun h => absurd hR h⟩
  · rw [if_neg hR]
    obtain ⟨bs, b1, b2⟩ := stencil_read (read := fun p : Int × Int => vget2 olafs p.1 p.2) (P := fun m n b => cell? olafs m n = some b)
      (fun m hm n hn => by
        obtain ⟨v, h1, h2⟩ := vget2_of_rect ho hm hn
        exact ⟨v, h2, h1⟩) R ((i : Int), (j : Int))
    obtain ⟨places, p1, p2⟩ := stencil_places b2
    have hfold : ∀ l : List (Fl K), l.foldl (fun (s : Fl K × Nat) v => if isValid v then (s.1 + v, s.2 + 1) else s) (0, 0) =
        (fin (present l).sum, (present l).length) := by
      intro l
      induction l using List.reverseRecOn with
      | nil => rfl
      | append_singleton l a ih =>
        rw [List.foldl_append, ih, List.foldl_cons, List.foldl_nil, present_append]
        by_cases ha : Present a
        · rw [isValid_iff_present.mpr ha]
          obtain ⟨q, rfl, hq⟩ := ha
          rw [present_cons_fin hq]
          simp [fin_add, present, Fl.vals]
        · rw [isValid_false_iff.mpr ha, present_cons_missing ha]
          simp [present, Fl.vals]
    have hf := foldM_read (upd := fun (s : Fl K × Nat) v => if isValid v then (s.1 + v, s.2 + 1) else s) b1 (0, 0)
    rw [hf, ok_bind, hfold bs]
    refine ⟨_, rfl, fun h => absurd h hR, fun _ => ⟨places, bs, p1, p2, fun h => ?_, fun h => ?_⟩⟩
    · rw [h]
      rfl
    · have hpos : 0 < (present bs).length := List.length_pos_iff.mpr h
      rw [if_pos hpos]
      simp only [ofNat_def]
      rw [fin_div_of_ne _ (by rw [Nat.cast_ne_zero]; omega)]
      rfl

theorem known_isValid (v : Fl K) : (isValid v = true ∧ ∃ q, v = fin q ∧ known v = some q) ∨ (isValid v = false ∧ known v = none) := by
  by_cases h : Present v
  · left
    refine ⟨isValid_iff_present.mpr h, ?_⟩
    have hg := given_iff.mpr h
    obtain ⟨q, rfl, hq⟩ := h
    exact ⟨q, rfl, by unfold known; rw [if_pos hg]; rfl⟩
  · right
    refine ⟨isValid_false_iff.mpr h, ?_⟩
    unfold known
    rw [if_neg]
    exact fun hg => h (given_iff.mp hg)

theorem applyGradients_spec [HasExp K] (log : Bool) (b eg : K) (z z0 l l0 lg : Fl K) :
    applyGradients log (fin b) z z0 (fin eg) l l0 lg = fin (liftedBy log b eg (known z) (known z0) + coastal (known l) (known l0) (known lg)) := by
  have h1 : (if isValid z && isValid z0 then
      if log then fin b * Fl.exp ((z - z0) * fin eg) else fin b + (z - z0) * fin eg else fin b) = fin (liftedBy log b eg (known z) (known z0)) := by
    rcases known_isValid z with ⟨e1, q, rfl, e2⟩ | ⟨e1, e2⟩
    · rcases known_isValid z0 with ⟨f1, q0, rfl, f2⟩ | ⟨f1, f2⟩
      · rw [e1, f1, e2, f2]
        cases log <;> simp [liftedBy, fin_sub, fin_mul, fin_add, Fl.exp]
      · rw [f1, f2]
        simp [liftedBy]
    · rw [e1, e2]
      simp [liftedBy]
  unfold applyGradients
  simp only [h1]
  rcases known_isValid l with ⟨e1, q, rfl, e2⟩ | ⟨e1, e2⟩
  · rcases known_isValid l0 with ⟨f1, q0, rfl, f2⟩ | ⟨f1, f2⟩
    · rcases known_isValid lg with ⟨g1, g, rfl, g2⟩ | ⟨g1, g2⟩
      · rw [e1, f1, g1, e2, f2, g2]
        simp [coastal, fin_sub, fin_mul, fin_add]
      · rw [g1, g2]
        simp [coastal]
    · rw [f1, f2]
      simp [coastal]
  · rw [e1, e2]
    simp [coastal]

theorem inDomain_spec (lo hi : Fl K) (b raw : K) : ∃ v, inDomain lo hi (fin b) (fin raw) = fin v ∧ OrBase lo hi b raw v := by
  have h1 : (isValid lo && (fin raw).lt lo) = true ↔ ∃ m, lo = fin m ∧ m ≠ -999 ∧ raw < m := by
    rw [Bool.and_eq_true, isValid_iff_present]
    constructor
    · rintro ⟨⟨m, rfl, hm⟩, h⟩
      rw [lt_fin, decide_eq_true_eq] at h
      exact ⟨m, rfl, hm, h⟩
    · rintro ⟨m, rfl, hm, h⟩
      exact ⟨⟨m, rfl, hm⟩, by rw [lt_fin, decide_eq_true_eq]; exact h⟩
  have h2 : (isValid hi && (fin raw).gt hi) = true ↔ ∃ m, hi = fin m ∧ m ≠ -999 ∧ m < raw := by
    rw [Bool.and_eq_true, isValid_iff_present]
    constructor
    · rintro ⟨⟨m, rfl, hm⟩, h⟩
      rw [gt_fin, decide_eq_true_eq] at h
      exact ⟨m, rfl, hm, h⟩
    · rintro ⟨m, rfl, hm, h⟩
      exact ⟨⟨m, rfl, hm⟩, by rw [gt_fin, decide_eq_true_eq]; exact h⟩
  have hiff : ((isValid lo && (fin raw).lt lo) || (isValid hi && (fin raw).gt hi)) = true ↔ ¬ InBounds lo hi raw := by
    rw [Bool.or_eq_true, h1, h2]
    unfold InBounds
    constructor
    · rintro (⟨m, e, hm, h⟩ | ⟨m, e, hm, h⟩) ⟨g1, g2⟩
      · exact absurd (g1 m e hm) (not_le.mpr h)
      · exact absurd (g2 m e hm) (not_le.mpr h)
    · intro h
      by_contra hc
      rw [not_or] at hc
      exact h ⟨fun m e hm => not_lt.mp fun hl => hc.1 ⟨m, e, hm, hl⟩, fun m e hm => not_lt.mp fun hl => hc.2 ⟨m, e, hm, hl⟩⟩
  unfold inDomain
  by_cases hb : InBounds lo hi raw
  · rw [if_neg (fun h => hiff.mp h hb)]
    exact ⟨raw, rfl, fun _ => rfl, fun h => absurd hb h⟩
  · rw [if_pos (hiff.mpr hb)]
    exact ⟨b, rfl, fun h => absurd h hb, fun _ => rfl⟩

end Gridpp.Client
