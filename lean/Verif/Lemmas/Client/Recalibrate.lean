import Verif.Model.Client.Recalibrate
import Verif.Spec.Recalibrate
import Verif.Props.Client.Shuffle

/-! # Members that are replaced by quantiles: lemmas -/

set_option linter.unusedSectionVars false

namespace Gridpp.Client
open Fl hiding MV isValid
open Res Spec Props

section rank
variable {K : Type} [LinearOrder K]

theorem countP_sorted_le {l : List K} (hl : l.Pairwise (· ≤ ·)) {k : Nat} {x : K} (hk : k < l.length) (h : x < l[k]) :
    l.countP (fun v => decide (v ≤ x)) ≤ k := by
  have e : l = l.take k ++ l.drop k := (List.take_append_drop _ _).symm
  have h0 : (l.drop k).countP (fun v => decide (v ≤ x)) = 0 := by
    rw [List.countP_eq_zero]
    intro v hv
    obtain ⟨i, hi, rfl⟩ := List.mem_iff_getElem.mp hv
    rw [List.getElem_drop]
    simp only [decide_eq_true_eq, not_le]
    rcases Nat.eq_zero_or_pos i with rfl | hpos
    · simpa using h
    · exact lt_of_lt_of_le h (List.pairwise_iff_getElem.mp hl k (k + i) hk (by simp at hi; omega) (by omega))
  rw [e, List.countP_append, h0, Nat.add_zero]
  exact (List.countP_le_length).trans (by rw [List.length_take]; omega)

theorem countP_sorted_ge {l : List K} (hl : l.Pairwise (· ≤ ·)) {k : Nat} {x : K} (hk : k < l.length) (h : l[k] < x) :
    l.countP (fun v => decide (x ≤ v)) + k + 1 ≤ l.length := by
  have e : l = l.take (k + 1) ++ l.drop (k + 1) := (List.take_append_drop _ _).symm
  have h0 : (l.take (k + 1)).countP (fun v => decide (x ≤ v)) = 0 := by
    rw [List.countP_eq_zero]
    intro v hv
    obtain ⟨i, hi, rfl⟩ := List.mem_iff_getElem.mp hv
    rw [List.getElem_take]
    simp only [decide_eq_true_eq, not_le]
    rw [List.length_take] at hi
    rcases Nat.lt_or_ge i k with hik | hik
    · exact lt_of_le_of_lt (List.pairwise_iff_getElem.mp hl i k (by omega) hk hik) h
    · obtain rfl : i = k := by omega
      exact h
  have h1 : l.countP (fun v => decide (x ≤ v)) = (l.drop (k + 1)).countP (fun v => decide (x ≤ v)) := by
    conv_lhs => rw [e, List.countP_append, h0, Nat.zero_add]
  have h2 : (l.drop (k + 1)).countP (fun v => decide (x ≤ v)) ≤ l.length - (k + 1) := (List.countP_le_length).trans (by rw [List.length_drop])
  omega

/-- The value of a member is the one of its rank, if no two members were equal and the values are in increasing order. -/
theorem reordered_rank {E : Nat} {raw w out : Nat → K} (h : Reordered E raw w out) (hinj : ∀ i < E, ∀ j < E, raw i = raw j → i = j)
    (hw : ∀ i j, i ≤ j → j < E → w i ≤ w j) : ∀ e < E, rankOf E raw e < E ∧ out e = w (rankOf E raw e) := by
  intro e he
  have hcount : ∀ p : Nat → Bool, ((Finset.range E).filter fun i => p i = true).card = (List.range E).countP p := by
    intro p
    rw [← Nat.count_eq_card_filter_range]
    unfold Nat.count
    congr 1
    funext i
    simp
  have hcard : ∀ q : K → Bool, ((Finset.range E).filter fun i => q (out i) = true).card = ((List.range E).map w).countP q := by
    intro q
    rw [hcount (fun i => q (out i)), ← h.perm.countP_eq, List.countP_map]
    rfl
  have hmem : e ∈ Finset.range E := Finset.mem_range.mpr he
  have hnot : e ∉ (Finset.range E).filter fun i => raw i < raw e := by simp
  have hk : rankOf E raw e < E := by
    have : ((Finset.range E).filter fun i => raw i < raw e) ⊂ Finset.range E :=
      Finset.ssubset_iff_subset_ne.mpr ⟨Finset.filter_subset _ _, fun hc => hnot (by rw [hc]; exact hmem)⟩
    simpa [rankOf] using Finset.card_lt_card this
  refine ⟨hk, ?_⟩
  have hlow : rankOf E raw e + 1 ≤ ((List.range E).map w).countP fun v => decide (v ≤ out e) := by
    rw [← hcard, rankOf, ← Finset.card_insert_of_notMem hnot]
    apply Finset.card_le_card
    intro i hi
    rcases Finset.mem_insert.mp hi with rfl | hi
    · simp [he]
    · obtain ⟨h1, h2⟩ := Finset.mem_filter.mp hi
      exact Finset.mem_filter.mpr ⟨h1, by simpa using h.order i (Finset.mem_range.mp h1) e he h2⟩
  have hhigh : E ≤ (((List.range E).map w).countP fun v => decide (out e ≤ v)) + rankOf E raw e := by
    rw [← hcard, rankOf]
    have hsplit := Finset.card_filter_add_card_filter_not (s := Finset.range E) (fun i => raw i < raw e)
    rw [Finset.card_range] at hsplit
    have : ((Finset.range E).filter fun i => ¬ raw i < raw e).card ≤ ((Finset.range E).filter fun i => decide (out e ≤ out i) = true).card := by
      apply Finset.card_le_card
      intro i hi
      obtain ⟨h1, h2⟩ := Finset.mem_filter.mp hi
      refine Finset.mem_filter.mpr ⟨h1, ?_⟩
      have h1 := Finset.mem_range.mp h1
      rcases (not_lt.mp h2).eq_or_lt with h3 | h3
      · rw [hinj e he i h1 h3]; simp
      · simpa using h.order e he i h1 h3
    omega
  have hsorted : ((List.range E).map w).Pairwise (· ≤ ·) := by
    rw [List.pairwise_map]
    exact (List.pairwise_lt_range (n := E)).imp_of_mem fun {a b} _ hb hab => hw a b hab.le (List.mem_range.mp hb)
  have hlen : ((List.range E).map w).length = E := by simp
  have hval : ((List.range E).map w)[rankOf E raw e]'(by omega) = w (rankOf E raw e) := by simp
  rcases lt_trichotomy (out e) (w (rankOf E raw e)) with hc | hc | hc
  · have := countP_sorted_le hsorted (k := rankOf E raw e) (x := out e) (by omega) (by rw [hval]; exact hc)
    omega
  · exact hc
  · have := countP_sorted_ge hsorted (k := rankOf E raw e) (x := out e) (by omega) (by rw [hval]; exact hc)
    omega

end rank

variable {K : Type} [Field K] [LinearOrder K] [IsStrictOrderedRing K]

theorem putMembers_spec {Y X E y x : Nat} (hy : y < Y) (hx : x < X) {vals : List (Fl K)} (hv : vals.length = E) {f : FieldC K}
    (hf : Sized Y X E f) :
    ∃ g, putMembers E y x vals f = ok g ∧ Sized Y X E g ∧ (∀ e v, vals[e]? = some v → g.get y x e = ok v) ∧
      ∀ y' x', ¬ (y' = y ∧ x' = x) → g.get y' x' = f.get y' x' := by
  obtain ⟨g, h1, h2, h3, -, h4⟩ := forMembers_spec (Y := Y) (X := X) (E := E) y x E (fun f e => do
    let v ← vget vals (e : Nat)
    f.set y x e v) (fun e _ w => ∀ v, vals[e]? = some v → w = ok v) (by
      intro f hf e he
      obtain ⟨f', g1, g2, g3, g4⟩ := hf.set hy hx he (vals[e]'(by omega))
      refine ⟨f', by rw [vget_eq_ok_of_lt (by omega), ok_bind]; exact g1, g2, fun v hv => ?_, g4⟩
      rw [g3]
      rw [List.getElem?_eq_getElem (by omega), Option.some.injEq] at hv
      rw [hv]) f hf
  refine ⟨g, h1, h2, fun e v he => ?_, h4⟩
  have := (List.getElem?_eq_some_iff.mp he).1
  exact h3 e (by omega) v he

/-- The values that `putQuantiles` writes. -/
theorem putQuantiles_spec {Y X E y x : Nat} (hy : y < Y) (hx : x < X) {inv : Fl K → Res (Fl K)} {w : Nat → Fl K}
    (hw : ∀ e < E, inv (quantileLevel E e) = ok (w e)) {f : FieldC K} (hf : Sized Y X E f) :
    ∃ g, putQuantiles E y x inv f = ok (g, (List.range E).all fun e => isValid (w e)) ∧ Sized Y X E g ∧
      (∀ e < E, g.get y x e = ok (w e)) ∧ ∀ y' x', ¬ (y' = y ∧ x' = x) → g.get y' x' = f.get y' x' := by
  unfold putQuantiles
  have key : ∀ n ≤ E, ∃ g, foldM (fun s e => do
      let v ← inv (quantileLevel E e)
      let g ← FieldC.set s.1 y x e v
      ok (g, s.2 && isValid v)) (f, true) (List.range n) = ok (g, (List.range n).all fun e => isValid (w e)) ∧ Sized Y X E g ∧
      (∀ e < n, g.get y x e = ok (w e)) ∧ ∀ y' x', ¬ (y' = y ∧ x' = x) → g.get y' x' = f.get y' x' := by
    intro n
    induction n with
    | zero => exact fun _ => ⟨f, rfl, hf, by simp, fun _ _ _ => rfl⟩
    | succ n ih =>
      intro hn
      obtain ⟨g, h1, h2, h3, h4⟩ := ih (by omega)
      obtain ⟨g', g1, g2, g3, g4⟩ := h2.set hy hx (show n < E by omega) (w n)
      refine ⟨g', ?_, g2, fun e he => ?_, fun y' x' hne => ?_⟩
      · rw [List.range_succ, foldM_append, h1, ok_bind, foldM_cons, hw n (by omega), ok_bind]
        simp only
        rw [g1, ok_bind, List.all_append]
        simp [foldM]
      · by_cases hen : e = n
        · rw [hen]; exact g3
        · rw [g4 _ _ _ (by simp [hen]), h3 e (by omega)]
      · funext e
        rw [g4 _ _ _ (by rintro ⟨a, b, -⟩; exact hne ⟨a, b⟩), h4 y' x' hne]
  exact key E (le_refl _)

/-- What becomes of one grid point: the members `raw` are kept if a quantile `w` is missing; if only an old member is missing the
quantiles are put in order of the members; else they get the order of the old members. -/
inductive Recalibrated (E : Nat) (raw w out : Nat → Fl K) : Prop
  | kept (hw : ∃ e < E, ¬ Present (w e)) (h : ∀ e < E, out e = raw e)
  | plain (hw : ∀ e < E, Present (w e)) (hr : ∃ e < E, ¬ Present (raw e)) (h : ∀ e < E, out e = w e)
  | ordered (r v o : Nat → K) (hr : ∀ e < E, raw e = fin (r e) ∧ r e ≠ -999) (hw : ∀ e < E, w e = fin (v e) ∧ v e ≠ -999)
      (h : ∀ e < E, out e = fin (o e)) (hre : Reordered E r v o)

theorem getElem?_getD {l : List K} {e : Nat} (h : e < l.length) : l[e]? = some (l.getD e 0) := by
  rw [List.getD_eq_getElem?_getD, List.getElem?_eq_getElem h]; rfl

theorem map_range_getElem? {α : Type} {l : List α} {E : Nat} (hl : l.length = E) {g : Nat → α} (h : ∀ e < E, l[e]? = some (g e)) :
    l = (List.range E).map g := by
  apply List.ext_getElem
  · simp [hl]
  · intro i h1 h2
    have := h i (by omega)
    rw [List.getElem?_eq_getElem h1, Option.some.injEq] at this
    simp [this]

theorem recalibrate_spec (A : Arma K) (hA : Arma.Lawful A) {Y X E y x : Nat} (hy : y < Y) (hx : x < X) (hE : 0 < E)
    {inv : Fl K → Res (Fl K)} {raw w : Nat → Fl K} (hw : ∀ e < E, inv (quantileLevel E e) = ok (w e)) {f : FieldC K} (hf : Sized Y X E f) :
    ∃ g out, recalibrate A E y x ((List.range E).map raw) inv f = ok g ∧ Sized Y X E g ∧ (∀ e < E, g.get y x e = ok (out e)) ∧
      Recalibrated E raw w out ∧ ∀ y' x', ¬ (y' = y ∧ x' = x) → g.get y' x' = f.get y' x' := by
  obtain ⟨g, h1, h2, h3, h4⟩ := putQuantiles_spec hy hx hw hf
  unfold recalibrate
  rw [h1, ok_bind]
  simp only
  have hput : ∀ vals : Nat → Fl K, ∃ g', putMembers E y x ((List.range E).map vals) g = ok g' ∧ Sized Y X E g' ∧
      (∀ e < E, g'.get y x e = ok (vals e)) ∧ ∀ y' x', ¬ (y' = y ∧ x' = x) → g'.get y' x' = f.get y' x' := by
    intro vals
    obtain ⟨g', a1, a2, a3, a4⟩ := putMembers_spec hy hx (vals := (List.range E).map vals) (by simp) h2
    refine ⟨g', a1, a2, fun e he => a3 e _ (by simp [he]), fun y' x' hne => by rw [a4 y' x' hne, h4 y' x' hne]⟩
  by_cases hall : ((List.range E).all fun e => isValid (w e)) = true
  · rw [if_pos hall]
    have hall' : ∀ e < E, Present (w e) := fun e he => isValid_iff_present.mp (List.all_eq_true.mp hall e (List.mem_range.mpr he))
    obtain ⟨cal, c1, c2, c3⟩ := h2.ens hy hx hE
    have hcal : cal = (List.range E).map w := map_range_getElem? c2 fun e he => (c3 e _).mpr (h3 e he)
    subst hcal
    rw [c1, ok_bind]
    by_cases hr : ∃ e < E, ¬ Present (raw e)
    · rw [c86_unchanged A _ _ (Or.inr (Or.inl ?_)), ok_bind]
      · obtain ⟨g', a1, a2, a3, a4⟩ := hput w
        exact ⟨g', w, a1, a2, a3, .plain hall' hr fun _ _ => rfl, a4⟩
      · obtain ⟨e, he, hn⟩ := hr
        exact ⟨raw e, List.mem_map.mpr ⟨e, List.mem_range.mpr he, rfl⟩, hn⟩
    · have hr' : ∀ e, ∃ q, e < E → raw e = fin q ∧ q ≠ -999 := by
        intro e
        by_cases he : e < E
        · obtain ⟨q, h⟩ := not_not.mp fun hn => hr ⟨e, he, hn⟩
          exact ⟨q, fun _ => h⟩
        · exact ⟨0, fun h => absurd h he⟩
      have hw' : ∀ e, ∃ q, e < E → w e = fin q ∧ q ≠ -999 := by
        intro e
        by_cases he : e < E
        · obtain ⟨q, h⟩ := hall' e he
          exact ⟨q, fun _ => h⟩
        · exact ⟨0, fun h => absurd h he⟩
      choose r hr2 using hr'
      choose v hv2 using hw'
      have er : (List.range E).map raw = ((List.range E).map r).map fin := by
        rw [List.map_map]
        exact List.map_congr_left fun e he => (hr2 e (List.mem_range.mp he)).1
      have ew : (List.range E).map w = ((List.range E).map v).map fin := by
        rw [List.map_map]
        exact List.map_congr_left fun e he => (hv2 e (List.mem_range.mp he)).1
      obtain ⟨rs, s1, s2, s3⟩ := c86_shuffle A hA ((List.range E).map r) ((List.range E).map v) (by simp)
        (by
          intro b hb
          obtain ⟨e, he, rfl⟩ := List.mem_map.mp hb
          exact (hr2 e (List.mem_range.mp he)).2)
        (by
          intro b hb
          obtain ⟨e, he, rfl⟩ := List.mem_map.mp hb
          exact (hv2 e (List.mem_range.mp he)).2)
      have hl : rs.length = E := by rw [s2.length_eq]; simp
      have hrs : rs = (List.range E).map fun e => rs.getD e 0 := map_range_getElem? hl fun e he => by
        exact getElem?_getD (by omega)
      rw [er, ew, s1, ok_bind]
      have e1 : rs.map fin = (List.range E).map fun e => (fin (rs.getD e 0) : Fl K) := by
        conv_lhs => rw [hrs]
        rw [List.map_map]; rfl
      rw [e1]
      obtain ⟨g', a1, a2, a3, a4⟩ := hput fun e => fin (rs.getD e 0)
      refine ⟨g', _, a1, a2, a3, .ordered r v (fun e => rs.getD e 0) hr2 hv2 (fun _ _ => rfl) ⟨?_, ?_⟩, a4⟩
      · rw [← hrs]; exact s2
      · intro i hi j hj hlt
        refine s3 i j (r i) (r j) _ _ (by simp [hi]) (by simp [hj]) ?_ ?_ hlt
        · exact getElem?_getD (by omega)
        · exact getElem?_getD (by omega)
  · rw [if_neg hall]
    obtain ⟨g', a1, a2, a3, a4⟩ := hput raw
    refine ⟨g', raw, a1, a2, a3, .kept ?_ fun _ _ => rfl, a4⟩
    rw [Bool.not_eq_true, List.all_eq_false] at hall
    obtain ⟨e, he, hn⟩ := hall
    exact ⟨e, List.mem_range.mp he, isValid_false_iff.mp (by simpa using hn)⟩

theorem quantileLevel_eq {E e : Nat} (he : e < E) : ∃ q : K, quantileLevel E e = fin q ∧ q = ((e : K) + 1 / 2) / (E : K) ∧ 0 < q ∧ q < 1 := by
  have hE : (0 : K) < (E : K) := by exact_mod_cast (show 0 < E by omega)
  have h0 : (0 : K) ≤ (e : K) := Nat.cast_nonneg e
  have h1 : (e : K) + 1 ≤ (E : K) := by exact_mod_cast he
  refine ⟨((e : K) + 1 / 2) / (E : K), ?_, rfl, div_pos (by linarith) hE, ?_⟩
  · unfold quantileLevel
    rw [ofNat_def, ofNat_def, fin_add, fin_div_of_ne _ hE.ne']
  · rw [div_lt_one hE]
    linarith

end Gridpp.Client
