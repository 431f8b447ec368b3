import Verif.Model.LocalDistribution
import Verif.Spec.LocalDistribution
import Verif.Props.Interp
import Verif.Props.Smart
import Mathlib.Algebra.Order.BigOperators.Group.List

/-! Lemmas about the local distribution correction. -/

set_option linter.unusedSectionVars false

namespace Gridpp
open Fl Res Spec Props

section
variable {K : Type} [Field K] [LinearOrder K] [IsStrictOrderedRing K]

theorem cumSums_fin (a : K) (r : List K) :
    cumSums (fin a) (r.map fin) = (List.range (r.length + 1)).map fun k => fin (a + (r.take k).sum) := by
  induction r generalizing a with
  | nil => simp [cumSums]
  | cons x t ih =>
    rw [List.map_cons, cumSums, fin_add, ih, List.length_cons, List.range_succ_eq_map (n := t.length + 1), List.map_cons, List.map_map]
    simp [Function.comp_def, add_assoc]

theorem readOff_interpolate (xs ys : List K) (hl : xs.length = ys.length) (hs : xs.Pairwise (· ≤ ·)) (hne : 0 < xs.length) (x : K) :
    ∃ r, interpolate (fin x) (xs.map fin) (ys.map fin) = ok (fin r) ∧ ReadOff xs ys x r := by
  obtain ⟨r, h1, -, -, h2, h3, h4⟩ := c07_interpolate xs ys hl hs hne x
  refine ⟨r, h1, ?_, ?_, h4⟩
  · intro i x0 x1 y0 y1 e1 e2 e3 e4 l1 l2
    obtain ⟨i1, e1⟩ := List.getElem?_eq_some_iff.mp e1
    obtain ⟨i2, e2⟩ := List.getElem?_eq_some_iff.mp e2
    obtain ⟨i3, e3⟩ := List.getElem?_eq_some_iff.mp e3
    obtain ⟨i4, e4⟩ := List.getElem?_eq_some_iff.mp e4
    have := h3 i i2 (by rw [e1]; exact l1) (by rw [e2]; exact l2)
    rw [this, e1, e2, e3, e4]
  · intro i e1 hu
    obtain ⟨i1, e1⟩ := List.getElem?_eq_some_iff.mp e1
    have := h2 i i1 e1 (fun k hk hne he => hne (hu k (by rw [List.getElem?_eq_getElem hk, he])))
    rw [this, List.getElem?_eq_getElem]

end

section
variable {K : Type} [Field K] [LinearOrder K] [IsStrictOrderedRing K] [FloorRing K]

theorem levels_length (kept : List (K × K)) (mn mx : K) : (levels kept mn mx).length = kept.length + 1 := by simp [levels]

theorem ldcQuantiles_fin (kept : List (K × K)) (mn mx : K) (h : kept = [] ∨ (kept.map Prod.snd).sum ≠ 0) :
    ldcQuantiles (kept.map fun e => fin e.2) (fin mn) (fin mx) = (levels kept mn mx).map fin := by
  have e : (kept.map fun e => fin e.2) = (kept.map Prod.snd).map fin := by rw [List.map_map]; rfl
  unfold ldcQuantiles levels
  rw [e, zero_def, cumSums_fin]
  simp only [List.length_map, List.map_cons, List.map_map]
  congr 1
  have hlast : ((List.range (kept.length + 1)).map fun k => fin (0 + ((kept.map Prod.snd).take k).sum)).getLastD (fin 0) =
      fin (kept.map Prod.snd).sum := by
    rw [List.range_succ, List.map_append, List.map_singleton, List.getLastD_concat, List.take_of_length_le (by simp), zero_add]
  rw [hlast, List.range_succ_eq_map, List.map_cons, List.tail_cons, List.map_map, List.map_map]
  apply List.map_congr_left
  intro k hk
  have hk := List.mem_range.mp hk
  have hsum : (kept.map Prod.snd).sum ≠ 0 := by
    rcases h with h | h
    · rw [h] at hk; simp at hk
    · exact h
  simp only [Function.comp_apply, zero_add, Nat.succ_eq_add_one]
  rw [fin_div_of_ne _ hsum, fin_sub, fin_mul, fin_add, List.map_take]

theorem ldcTrim_eq {A : Arma K} (hA : A.Lawful) (l : List (K × K)) {mn mx : K} (h0 : 0 ≤ mn) (h1 : mn ≤ mx) (h2 : mx ≤ 1) :
    ∃ kept, ldcTrim A (l.map fun e => fin e.1) (l.map fun e => fin e.2) (fin mn) (fin mx) = ok (kept.map fun e => (fin e.1, fin e.2)) ∧
      Kept l mn mx kept ∧ kept.length = ⌊(l.length : K) * mx⌋.toNat - ⌊(l.length : K) * mn⌋.toNat := by
  have hz : (l.map fun e => fin e.1).zipIdx = rhoPairs (fun i => (l.getD i 0).1) (List.range l.length) := by
    apply List.ext_getElem
    · simp
    · intro i h1 h2
      have hi : i < l.length := by simpa using h1
      simp [hi]
  obtain ⟨l2, e1, e2, e3⟩ := sortPairs_eq hA (fun i => (l.getD i 0).1) (List.range l.length)
  have hlt : ∀ i ∈ l2, i < l.length := fun i hi => List.mem_range.mp (e2.subset hi)
  have hpairs : mapM (fun e : Fl K × Nat => do
      let r ← vget (l.map fun e => fin e.2) (e.2 : Int)
      ok (e.1, r)) (rhoPairs (fun i => (l.getD i 0).1) l2) = ok ((l2.map fun i => l.getD i 0).map fun e => (fin e.1, fin e.2)) := by
    clear e1 e2 e3
    induction l2 with
    | nil => rfl
    | cons i t ih =>
      have hi := hlt i (by simp)
      show mapM _ ((fin (l.getD i 0).1, i) :: rhoPairs (fun i => (l.getD i 0).1) t) = _
      rw [mapM_cons, ih (fun j hj => hlt j (List.mem_cons_of_mem _ hj)),
        vget_some (show (l.map fun e => fin e.2)[i]? = some (fin (l.getD i 0).2) by simp [hi])]
      rfl
  have hn : (0 : K) ≤ (l.length : K) := Nat.cast_nonneg _
  have f0 : (0 : K) ≤ (l.length : K) * mn := mul_nonneg hn h0
  have f1 : (l.length : K) * mn ≤ (l.length : K) * mx := mul_le_mul_of_nonneg_left h1 hn
  have f2 : (l.length : K) * mx ≤ (l.length : K) := by
    calc (l.length : K) * mx ≤ (l.length : K) * 1 := mul_le_mul_of_nonneg_left h2 hn
      _ = _ := mul_one _
  have g0 : 0 ≤ ⌊(l.length : K) * mn⌋ := Int.floor_nonneg.mpr f0
  have g1 : ⌊(l.length : K) * mn⌋ ≤ ⌊(l.length : K) * mx⌋ := Int.floor_mono f1
  have g2 : ⌊(l.length : K) * mx⌋ ≤ (l.length : Int) := by
    have := Int.floor_mono f2
    rwa [Int.floor_natCast] at this
  have hl2 : l2.length = l.length := by rw [e2.length_eq, List.length_range]
  refine ⟨((l2.map fun i => l.getD i 0).take ⌊(l.length : K) * mx⌋.toNat).drop ⌊(l.length : K) * mn⌋.toNat, ?_,
    ⟨l2.map fun i => l.getD i 0, ?_, ?_, rfl⟩, ?_⟩
  · unfold ldcTrim
    rw [hz, e1, ok_bind, hpairs, ok_bind, List.length_map, ofNat_def, fin_mul, fin_mul]
    simp only [Fl.truncInt, ok_bind, if_pos f0, if_pos (f0.trans f1)]
    unfold subRange
    rw [if_pos ⟨g0, g1, by simpa [hl2] using g2⟩]
    simp [List.map_take, List.map_drop]
  · have := e2.map fun i => l.getD i 0
    have hr : (List.range l.length).map (fun i => l.getD i 0) = l := by
      apply List.ext_getElem
      · simp
      · intro i h1 h2
        simp [h2]
    rwa [hr] at this
  · rw [List.pairwise_map]
    exact e3
  · simp [hl2]
    omega

theorem levels_sorted (kept : List (K × K)) {mn mx : K} (h0 : 0 ≤ mn) (h1 : mn ≤ mx) (hw : ∀ e ∈ kept, 0 ≤ e.2)
    (hs : 0 < (kept.map Prod.snd).sum) : (levels kept mn mx).Pairwise (· ≤ ·) := by
  have hm : (0 : K) ≤ mx - mn := sub_nonneg.mpr h1
  have hnn : ∀ k, 0 ≤ ((kept.take k).map Prod.snd).sum := fun k => List.sum_nonneg (by
    intro x hx
    obtain ⟨e, he, rfl⟩ := List.mem_map.mp hx
    exact hw e (List.mem_of_mem_take he))
  have hmono : ∀ i j, i ≤ j → ((kept.take i).map Prod.snd).sum ≤ ((kept.take j).map Prod.snd).sum := by
    intro i j hij
    have : kept.take j = kept.take i ++ (kept.drop i).take (j - i) := by
      rw [← List.take_add]; congr 1; omega
    rw [this, List.map_append, List.sum_append]
    refine le_add_of_nonneg_right (List.sum_nonneg ?_)
    intro x hx
    obtain ⟨e, he, rfl⟩ := List.mem_map.mp hx
    exact hw e (List.mem_of_mem_drop (List.mem_of_mem_take he))
  unfold levels
  rw [List.pairwise_cons]
  constructor
  · intro x hx
    obtain ⟨k, -, rfl⟩ := List.mem_map.mp hx
    exact add_nonneg h0 (mul_nonneg (div_nonneg (hnn _) hs.le) hm)
  · rw [List.pairwise_map]
    refine (List.pairwise_lt_range).imp ?_
    intro a b hab
    have := div_le_div_of_nonneg_right (hmono (a + 1) (b + 1) (by omega)) hs.le
    have := mul_le_mul_of_nonneg_right this hm
    linarith

theorem top_eq (kept : List (K × K)) : (fin (0 : K) :: kept.map fun e => fin e.1).getLastD (fin 0) = fin (top kept) := by
  unfold top
  rcases List.eq_nil_or_concat' kept with rfl | ⟨t, e, rfl⟩
  · rfl
  · rw [List.map_append, List.map_append, ← List.cons_append, List.map_singleton, List.map_singleton, List.getLastD_concat, List.getLastD_concat]

theorem le_top {kept : List (K × K)} (hs : kept.Pairwise fun a b => a.1 ≤ b.1) {e : K × K} (he : e ∈ kept) : e.1 ≤ top kept := by
  unfold top
  rcases List.eq_nil_or_concat' kept with rfl | ⟨t, f, rfl⟩
  · cases he
  · rw [List.pairwise_append] at hs
    rcases List.mem_append.mp he with h | h
    · have := hs.2.2 e h f (by simp)
      simpa [List.getLastD_eq_getLast?] using this
    · obtain rfl : e = f := by simpa using h
      simp [List.getLastD_eq_getLast?]

theorem _root_.Gridpp.Spec.Kept.sorted {l kept : List (K × K)} {mn mx : K} (h : Kept l mn mx kept) : kept.Pairwise fun a b => a.1 ≤ b.1 := by
  obtain ⟨l', -, h2, rfl⟩ := h
  exact h2.sublist ((List.drop_sublist _ _).trans (List.take_sublist _ _))

theorem _root_.Gridpp.Spec.Kept.subset {l kept : List (K × K)} {mn mx : K} (h : Kept l mn mx kept) : ∀ e ∈ kept, e ∈ l := by
  obtain ⟨l', h1, -, rfl⟩ := h
  intro e he
  exact h1.subset (((List.drop_sublist _ _).trans (List.take_sublist _ _)).subset he)

theorem ldcValue_spec [HasExp K] (b : K) (ko kf : List (K × K)) {mn mx S : K} (h0 : 0 ≤ mn) (h1 : mn ≤ mx)
    (so : ko.Pairwise fun a b => a.1 ≤ b.1) (sf : kf.Pairwise fun a b => a.1 ≤ b.1)
    (vo : ∀ e ∈ ko, 0 ≤ e.1) (vf : ∀ e ∈ kf, 0 ≤ e.1) (wo : ∀ e ∈ ko, 0 < e.2) (wf : ∀ e ∈ kf, 0 < e.2) :
    ∃ v, ldcValue (fin b) (fin S) (fin 0 :: ko.map fun e => fin e.1) (ldcQuantiles (ko.map fun e => fin e.2) (fin mn) (fin mx))
        (fin 0 :: kf.map fun e => fin e.1) (ldcQuantiles (kf.map fun e => fin e.2) (fin mn) (fin mx)) = ok (fin v) ∧
      (b < 1 / 100 → v = 0) ∧
      (1 / 100 ≤ b → top ko ≤ 0 → ((b < 3 * top kf ∨ b < 1 / 10) → v = 0) ∧ (¬ (b < 3 * top kf ∨ b < 1 / 10) → v = b)) ∧
      (1 / 100 ≤ b → 0 < top ko → top kf ≤ b → v = b + (top ko - top kf)) ∧
      (1 / 100 ≤ b → 0 < top ko → b < top kf → ∃ q m, ReadOff (0 :: kf.map Prod.fst) (levels kf mn mx) b q ∧
        ReadOff (levels ko mn mx) (0 :: ko.map Prod.fst) q m ∧ 0 ≤ m ∧ m ≤ top ko ∧
        v = (1 - HasExp.exp (-S / 100)) * m + HasExp.exp (-S / 100) * b) := by
  have hpos : ∀ k : List (K × K), (∀ e ∈ k, 0 < e.2) → k = [] ∨ 0 < (k.map Prod.snd).sum := by
    intro k hk
    rcases List.eq_nil_or_concat' k with rfl | ⟨t, f, rfl⟩
    · exact Or.inl rfl
    · right
      rw [List.map_append, List.sum_append]
      refine add_pos_of_nonneg_of_pos (List.sum_nonneg ?_) (by simpa using hk f (by simp))
      intro x hx
      obtain ⟨e, he, rfl⟩ := List.mem_map.mp hx
      exact (hk e (by simp [he])).le
  rw [ldcQuantiles_fin ko mn mx ((hpos ko wo).imp id ne_of_gt), ldcQuantiles_fin kf mn mx ((hpos kf wf).imp id ne_of_gt)]
  unfold ldcValue
  simp only [zero_def, top_eq, lt_fin, le_fin, ge_fin, fin_mul, decide_eq_true_eq]
  by_cases c1 : b < 1 / 100
  · rw [if_pos c1]
    exact ⟨0, rfl, fun _ => rfl, fun h => absurd c1 (not_lt.mpr h), fun h => absurd c1 (not_lt.mpr h), fun h => absurd c1 (not_lt.mpr h)⟩
  rw [if_neg c1]
  by_cases c2 : top ko ≤ 0
  · rw [if_pos c2]
    by_cases c3 : b < 3 * top kf
    · rw [if_pos c3]
      exact ⟨0, rfl, fun _ => rfl, fun _ _ => ⟨fun _ => rfl, fun h => absurd (Or.inl c3) h⟩, fun _ h => absurd c2 (not_le.mpr h),
        fun _ h => absurd c2 (not_le.mpr h)⟩
    rw [if_neg c3]
    by_cases c4 : b < 1 / 10
    · rw [if_pos c4]
      exact ⟨0, rfl, fun _ => rfl, fun _ _ => ⟨fun _ => rfl, fun h => absurd (Or.inr c4) h⟩, fun _ h => absurd c2 (not_le.mpr h),
        fun _ h => absurd c2 (not_le.mpr h)⟩
    rw [if_neg c4]
    exact ⟨b, rfl, fun h => absurd h c1, fun _ _ => ⟨fun h => (h.elim c3 c4).elim, fun _ => rfl⟩, fun _ h => absurd c2 (not_le.mpr h),
      fun _ h => absurd c2 (not_le.mpr h)⟩
  rw [if_neg c2]
  have c2' := not_le.mp c2
  by_cases c3 : top kf ≤ b
  · rw [if_pos c3]
    exact ⟨b + (top ko - top kf), by rw [fin_sub, fin_add], fun h => absurd h c1, fun _ h => absurd h c2, fun _ _ _ => rfl,
      fun _ _ h => absurd c3 (not_le.mpr h)⟩
  rw [if_neg c3]
  have hone : ∀ k : List (K × K), (fin (0 : K) :: k.map fun e => fin e.1) = (0 :: k.map Prod.fst).map fin := by
    intro k; simp [List.map_map, Function.comp_def]
  have hsorted : ∀ k : List (K × K), (k.Pairwise fun a b => a.1 ≤ b.1) → (∀ e ∈ k, 0 ≤ e.1) → (0 :: k.map Prod.fst).Pairwise (· ≤ ·) := by
    intro k h1 h2
    rw [List.pairwise_cons, List.pairwise_map]
    refine ⟨?_, h1⟩
    intro x hx
    obtain ⟨e, he, rfl⟩ := List.mem_map.mp hx
    exact h2 e he
  rw [hone, hone]
  obtain ⟨q, hq, rq⟩ := readOff_interpolate (0 :: kf.map Prod.fst) (levels kf mn mx) (by simp [levels_length]) (hsorted kf sf vf) (by simp) b
  have hko : 0 < (ko.map Prod.snd).sum := by
    rcases hpos ko wo with h | h
    · rw [h] at c2'; simp [top] at c2'
    · exact h
  obtain ⟨m, hm, rm⟩ := readOff_interpolate (levels ko mn mx) (0 :: ko.map Prod.fst) (by simp [levels_length])
    (levels_sorted ko h0 h1 (fun e he => (wo e he).le) hko) (by simp [levels_length]) q
  have hb := rm.2.2 0 (top ko) (by
    intro y hy
    rcases List.mem_cons.mp hy with rfl | hy
    · exact ⟨le_refl _, c2'.le⟩
    · obtain ⟨e, he, rfl⟩ := List.mem_map.mp hy
      exact ⟨vo e he, le_top so he⟩)
  rw [hq, ok_bind, hm, ok_bind]
  refine ⟨(1 - HasExp.exp (-S / 100)) * m + HasExp.exp (-S / 100) * b, ?_, fun h => absurd h c1, fun _ h => absurd h c2, fun _ _ h => absurd h c3,
    fun _ _ _ => ⟨q, m, rq, rm, hb.1, hb.2, rfl⟩⟩
  have e1 : -(1 / 100 : K) * S = -S / 100 := by ring
  simp only [fin_neg, fin_mul, Fl.exp, one_def, fin_sub, fin_add, e1]
  congr 2
  ring

end
end Gridpp
