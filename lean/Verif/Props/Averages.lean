import Verif.Props.PointOrder
import Verif.Props.NeighbourhoodLaws

/-! C186: averages, extremes and quantiles keep the order and the range of the values. -/

set_option linter.unusedSectionVars false

namespace Gridpp.Spec

/-- `u` is not above `v`: both are missing, or both are numbers in this order. -/
def NotAbove {K : Type} [Field K] [LinearOrder K] (u v : Fl K) : Prop :=
  (u.isValid = false ∧ v.isValid = false) ∨ ∃ q r, u = Fl.fin q ∧ v = Fl.fin r ∧ q ≤ r

/-- `v` is missing or a number from `lo` to `hi`. -/
def MissingOrIn {K : Type} [Field K] [LinearOrder K] (lo hi : K) (v : Fl K) : Prop :=
  v.isValid = false ∨ ∃ q, v = Fl.fin q ∧ lo ≤ q ∧ q ≤ hi

/-- The statistics that are averages or extremes. -/
def IsAverage (s : Statistic) : Prop := s ∈ [Statistic.mean, .min, .median, .max]

end Gridpp.Spec

namespace Gridpp.Props
open Fl Res Spec

section
variable {K : Type} [Field K] [LinearOrder K] [IsStrictOrderedRing K]

theorem IsAverage.det {s : Statistic} (h : IsAverage s) : Deterministic s := by
  simp only [IsAverage, List.mem_cons, List.not_mem_nil, or_false] at h
  rcases h with rfl | rfl | rfl | rfl <;> simp [Deterministic]

theorem vals_notAbove {a b : List (Fl K)} (h : List.Forall₂ NotAbove a b) : List.Forall₂ (· ≤ ·) (vals a) (vals b) := by
  induction h with
  | nil => exact .nil
  | @cons u v a b huv _ ih =>
    rcases huv with ⟨h1, h2⟩ | ⟨q, r, rfl, rfl, hqr⟩
    · have e1 : vals (u :: a) = vals a := by cases u <;> first | rfl | cases h1
      have e2 : vals (v :: b) = vals b := by cases v <;> first | rfl | cases h2
      rw [e1, e2]; exact ih
    · exact .cons hqr ih

theorem sum_le_forall₂ {xs ys : List K} (h : List.Forall₂ (· ≤ ·) xs ys) : xs.sum ≤ ys.sum := by
  induction h with
  | nil => exact le_refl _
  | cons h1 _ ih => simpa using add_le_add h1 ih

theorem insert_sorted {a : K} {as : List K} (h : (a :: as).Pairwise (· ≤ ·)) : as.orderedInsert (· ≤ ·) a = a :: as := by
  cases as with
  | nil => rfl
  | cons b t => exact List.orderedInsert_cons_of_le _ t (List.rel_of_pairwise_cons h List.mem_cons_self)

theorem insert_forall₂ {xs ys : List K} (h : List.Forall₂ (· ≤ ·) xs ys) (hx : xs.Pairwise (· ≤ ·)) (hy : ys.Pairwise (· ≤ ·)) {x y : K} (hxy : x ≤ y) :
    List.Forall₂ (· ≤ ·) (xs.orderedInsert (· ≤ ·) x) (ys.orderedInsert (· ≤ ·) y) := by
  induction h generalizing x y with
  | nil => exact .cons hxy .nil
  | @cons a b as bs hab hr ih =>
    have ih := @ih (List.pairwise_cons.mp hx).2 (List.pairwise_cons.mp hy).2
    rw [List.orderedInsert_cons, List.orderedInsert_cons]
    by_cases h1 : x ≤ a <;> by_cases h2 : y ≤ b
    · rw [if_pos h1, if_pos h2]; exact .cons hxy (.cons hab hr)
    · rw [if_pos h1, if_neg h2]
      refine .cons (h1.trans hab) ?_
      have := ih (hab.trans (not_le.mp h2).le)
      rwa [insert_sorted hx] at this
    · rw [if_neg h1, if_pos h2]
      refine .cons ((not_le.mp h1).le.trans hxy) ?_
      have := ih (hxy.trans h2)
      rwa [insert_sorted hy] at this
    · rw [if_neg h1, if_neg h2]; exact .cons hab (ih hxy)

/-- The order statistics of larger values are larger. -/
theorem sorted_forall₂ {xs ys : List K} (h : List.Forall₂ (· ≤ ·) xs ys) : List.Forall₂ (· ≤ ·) (sorted xs) (sorted ys) := by
  induction h with
  | nil => exact .nil
  | @cons a b as bs hab _ ih => exact insert_forall₂ ih (pairwise_sorted as) (pairwise_sorted bs) hab

theorem polyline_forall₂ {s t : List K} (h : List.Forall₂ (· ≤ ·) s t) {p v w : K} (hv : OnPolyline s p v) (hw : OnPolyline t p w) : v ≤ w := by
  have hle : ∀ i (h1 : i < s.length) (h2 : i < t.length), s[i] ≤ t[i] := fun i h1 h2 => h.get h1 h2
  have hlen := h.length_eq
  rcases hv with ⟨i, hi, rfl, rfl⟩ | ⟨i, hi, a1, a2, rfl⟩
  · rcases hw with ⟨j, hj, e, rfl⟩ | ⟨j, hj, b1, b2, -⟩
    · have : i = j := by exact_mod_cast e
      subst this
      exact hle _ _ _
    · have c1 : j < i := by exact_mod_cast b1
      have c2 : i < j + 1 := by exact_mod_cast b2
      omega
  · rcases hw with ⟨j, hj, rfl, -⟩ | ⟨j, hj, b1, b2, rfl⟩
    · have c1 : i < j := by exact_mod_cast a1
      have c2 : j < i + 1 := by exact_mod_cast a2
      omega
    · have c1 : i < j + 1 := by exact_mod_cast a1.trans b2
      have c2 : j < i + 1 := by exact_mod_cast b1.trans a2
      obtain rfl : i = j := by omega
      have k1 := hle i (by omega) (by omega)
      have k2 := hle (i + 1) (by omega) (by omega)
      nlinarith

section
variable [FloorRing K]

theorem quantile_notAbove {a b : List (Fl K)} (h : List.Forall₂ NotAbove a b) {q : K} (h0 : 0 ≤ q) (h1 : q ≤ 1) :
    ∃ u v, calcQuantile a (fin q) = ok u ∧ calcQuantile b (fin q) = ok v ∧ NotAbove u v := by
  have hv := vals_notAbove h
  by_cases ha : vals a = []
  · have hb : vals b = [] := List.length_eq_zero_iff.mp (by rw [← hv.length_eq, ha]; rfl)
    exact ⟨_, _, calcQuantile_none a ha h0 h1, calcQuantile_none b hb h0 h1, Or.inl ⟨rfl, rfl⟩⟩
  · have hb : vals b ≠ [] := fun hb => ha (List.length_eq_zero_iff.mp (by rw [hv.length_eq, hb]; rfl))
    obtain ⟨u, u1, u2⟩ := calcQuantile_polyline a ha h0 h1
    obtain ⟨v, v1, v2⟩ := calcQuantile_polyline b hb h0 h1
    rw [← hv.length_eq] at v2
    exact ⟨_, _, u1, v1, Or.inr ⟨u, v, rfl, rfl, polyline_forall₂ (sorted_forall₂ hv) u2 v2⟩⟩

/-- **C186**, one array: a statistic of values that are not above others is not above theirs; also the sum and every quantile. -/
theorem c186_statistic [HasSqrt K] (rnd : Rnd K) {a b : List (Fl K)} (h : List.Forall₂ NotAbove a b) :
    (∀ s, IsAverage s ∨ s = .sum → ∃ u v, calcStatistic rnd a s = ok u ∧ calcStatistic rnd b s = ok v ∧ NotAbove u v) ∧
    (∀ q : K, 0 ≤ q → q ≤ 1 → ∃ u v, calcQuantile a (fin q) = ok u ∧ calcQuantile b (fin q) = ok v ∧ NotAbove u v) := by
  refine ⟨?_, fun q h0 h1 => quantile_notAbove h h0 h1⟩
  have hv := vals_notAbove h
  have hlen := hv.length_eq
  have hsum := sum_le_forall₂ hv
  intro s hs
  simp only [IsAverage, List.mem_cons, List.not_mem_nil, or_false] at hs
  rcases hs with (rfl | rfl | rfl | rfl) | rfl
  · simp only [calcStatistic, sumCount_eq]
    by_cases hp : 0 < (vals a).length
    · have hne : ((vals a).length : K) ≠ 0 := by exact_mod_cast hp.ne'
      have hpos : (0 : K) < (vals a).length := by exact_mod_cast hp
      rw [← hlen, if_pos hp, if_pos hp, ofNat_def, fin_div_of_ne _ hne, fin_div_of_ne _ hne]
      exact ⟨_, _, rfl, rfl, Or.inr ⟨_, _, rfl, rfl, by gcongr⟩⟩
    · rw [← hlen, if_neg hp, if_neg hp]
      exact ⟨_, _, rfl, rfl, Or.inl ⟨rfl, rfl⟩⟩
  · exact quantile_notAbove h (le_refl 0) zero_le_one
  · exact quantile_notAbove h (by norm_num) (by norm_num)
  · exact quantile_notAbove h zero_le_one (le_refl 1)
  · simp only [calcStatistic, sumCount_eq]
    by_cases hp : 0 < (vals a).length
    · rw [← hlen, if_pos hp, if_pos hp]
      exact ⟨_, _, rfl, rfl, Or.inr ⟨_, _, rfl, rfl, hsum⟩⟩
    · rw [← hlen, if_neg hp, if_neg hp]
      exact ⟨_, _, rfl, rfl, Or.inl ⟨rfl, rfl⟩⟩

/-- **C186**, one array: averages and extremes of values in a range are in this range, or missing. -/
theorem c186_statistic_range [HasSqrt K] (rnd : Rnd K) {a : List (Fl K)} {lo hi : K} (h : ∀ v ∈ a, MissingOrIn lo hi v) {s : Statistic} (hs : IsAverage s) :
    ∃ v, calcStatistic rnd a s = ok v ∧ MissingOrIn lo hi v := by
  by_cases hv : ∃ x ∈ a, x.isValid = true
  · obtain ⟨mean, mn, mx, med, -, -, e1, -, e2, m2, e3, m3, e4, o1, o2, o3, o4⟩ := c02_mean_sum_count_min_max rnd a hv
    have hr : ∀ q ∈ vals a, lo ≤ q ∧ q ≤ hi := by
      intro q hq
      rcases h _ (mem_vals.mp hq) with k | ⟨r, k1, k2⟩
      · cases k
      · cases k1; exact k2
    have l1 := (hr mn m2.1).1
    have l2 := (hr mx m3.1).2
    simp only [IsAverage, List.mem_cons, List.not_mem_nil, or_false] at hs
    rcases hs with rfl | rfl | rfl | rfl
    · exact ⟨_, e1, Or.inr ⟨_, rfl, l1.trans o3, o4.trans l2⟩⟩
    · exact ⟨_, e2, Or.inr ⟨_, rfl, l1, (hr mn m2.1).2⟩⟩
    · exact ⟨_, e4, Or.inr ⟨_, rfl, l1.trans o1, o2.trans l2⟩⟩
    · exact ⟨_, e3, Or.inr ⟨_, rfl, (hr mx m3.1).1, l2⟩⟩
  · obtain ⟨v, k1, k2, -⟩ := c01_missing_iff rnd a s (IsAverage.det hs)
    refine ⟨v, k1, Or.inl ((k2 ?_).mpr fun x hx => Bool.eq_false_iff.mpr fun e => hv ⟨x, hx, e⟩)⟩
    simp only [IsAverage, List.mem_cons, List.not_mem_nil, or_false] at hs
    rcases hs with rfl | rfl | rfl | rfl <;> simp

/-! ### Neighbourhoods -/

theorem square_forall₂ {a b : List (List (Fl K))} (h : List.Forall₂ (List.Forall₂ NotAbove) a b) (hw y x : Nat) :
    List.Forall₂ NotAbove (square a hw y x) (square b hw y x) := by
  unfold square slice
  refine List.rel_flatMap (List.forall₂_drop _ (List.forall₂_take _ h)) ?_
  intro r r' hr
  exact List.forall₂_drop _ (List.forall₂_take _ hr)

/-- **C186**, neighbourhoods: a field nowhere above another one has neighbourhood averages, extremes, sums and quantiles nowhere above those of
the other one. -/
theorem c186_neighbourhood [LawfulSqrt K] (rnd : Rnd K) {Y X : Nat} {a b : List (List (Fl K))} (ha : Rect Y X a) (hb : Rect Y X b) (hY : 0 < Y) (hX : 0 < X)
    (h : List.Forall₂ (List.Forall₂ NotAbove) a b) (hw : Nat) {s : Statistic} (hs : IsAverage s ∨ s = .sum) :
    ∃ out out', neighbourhood rnd a (hw : Int) s = ok out ∧ neighbourhood rnd b (hw : Int) s = ok out' ∧ Rect Y X out ∧ Rect Y X out' ∧
      ∀ y < Y, ∀ x < X, ∃ u v, cell? out y x = some u ∧ cell? out' y x = some v ∧ NotAbove u v := by
  have hd : Deterministic s := hs.elim IsAverage.det fun e => by subst e; simp [Deterministic]
  obtain ⟨f, hf, hop⟩ := fromSquares_neighbourhood rnd hd
  refine ⟨_, _, hop Y X a ha hY hX hw, hop Y X b hb hY hX hw, rect_tabulate _ _ _, rect_tabulate _ _ _, fun y hy x hx => ?_⟩
  refine ⟨_, _, cell?_tabulate _ hy hx, cell?_tabulate _ hy hx, ?_⟩
  obtain ⟨u, v, h1, h2, h3⟩ := (c186_statistic rnd (square_forall₂ h hw y x)).1 s hs
  rw [hf] at h1 h2
  cases h1; cases h2
  exact h3

/-- **C186**, neighbourhoods: the same for every quantile. -/
theorem c186_neighbourhood_quantile [LawfulSqrt K] (rnd : Rnd K) {Y X : Nat} {a b : List (List (Fl K))} (ha : Rect Y X a) (hb : Rect Y X b) (hY : 0 < Y) (hX : 0 < X)
    (h : List.Forall₂ (List.Forall₂ NotAbove) a b) (hw : Nat) {q : K} (h0 : 0 ≤ q) (h1 : q ≤ 1) :
    ∃ out out', neighbourhoodQuantile rnd a (fin q) (hw : Int) = ok out ∧ neighbourhoodQuantile rnd b (fin q) (hw : Int) = ok out' ∧ Rect Y X out ∧ Rect Y X out' ∧
      ∀ y < Y, ∀ x < X, ∃ u v, cell? out y x = some u ∧ cell? out' y x = some v ∧ NotAbove u v := by
  obtain ⟨f, hf, hop⟩ := fromSquares_quantile rnd h0 h1
  refine ⟨_, _, hop Y X a ha hY hX hw, hop Y X b hb hY hX hw, rect_tabulate _ _ _, rect_tabulate _ _ _, fun y hy x hx => ?_⟩
  refine ⟨_, _, cell?_tabulate _ hy hx, cell?_tabulate _ hy hx, ?_⟩
  obtain ⟨u, v, e1, e2, e3⟩ := quantile_notAbove (square_forall₂ h hw y x) h0 h1
  rw [hf] at e1 e2
  cases e1; cases e2
  exact e3

/-- **C186**, neighbourhoods: averages and extremes stay in the range of the field. -/
theorem c186_neighbourhood_range [LawfulSqrt K] (rnd : Rnd K) {Y X : Nat} {a : List (List (Fl K))} (ha : Rect Y X a) (hY : 0 < Y) (hX : 0 < X) {lo hi : K}
    (h : ∀ r ∈ a, ∀ v ∈ r, MissingOrIn lo hi v) (hw : Nat) {s : Statistic} (hs : IsAverage s) :
    ∃ out, neighbourhood rnd a (hw : Int) s = ok out ∧ Rect Y X out ∧ ∀ y < Y, ∀ x < X, ∃ v, cell? out y x = some v ∧ MissingOrIn lo hi v := by
  obtain ⟨f, hf, hop⟩ := fromSquares_neighbourhood rnd (IsAverage.det hs)
  refine ⟨_, hop Y X a ha hY hX hw, rect_tabulate _ _ _, fun y hy x hx => ⟨_, cell?_tabulate _ hy hx, ?_⟩⟩
  obtain ⟨v, h1, h2⟩ := c186_statistic_range rnd (a := square a hw y x) (lo := lo) (hi := hi) (fun v hv => by
    obtain ⟨i, j, -, -, -, -, hc⟩ := mem_square.mp hv
    simp only [cell?, Option.bind_eq_some_iff] at hc
    obtain ⟨r, hr, hv⟩ := hc
    exact h r (List.mem_of_getElem? hr) v (List.mem_of_getElem? hv)) hs
  rw [hf] at h1
  cases h1
  exact h2

end
end

/-! ### Gridding -/

section
variable {K : Type} [Field K] [LinearOrder K] [IsStrictOrderedRing K] [HasGeo K]
variable {T : RTree K} (hT : T.Lawful) [LawfulSqrt K] [FloorRing K]
include hT

omit hT [HasGeo K] [LawfulSqrt K] [FloorRing K] in
theorem pick_forall₂ {a b : List (Fl K)} (h : List.Forall₂ NotAbove a b) (l : List Nat) :
    List.Forall₂ NotAbove (l.filterMap fun i => a[i]?) (l.filterMap fun i => b[i]?) := by
  induction l with
  | nil => exact .nil
  | cons i t ih =>
    by_cases hi : i < a.length
    · have hi' : i < b.length := by rw [← h.length_eq]; exact hi
      rw [List.filterMap_cons_some (b := a[i]) (List.getElem?_eq_getElem hi), List.filterMap_cons_some (b := b[i]) (List.getElem?_eq_getElem hi')]
      exact .cons (h.get hi hi') ih
    · rw [List.filterMap_cons_none (List.getElem?_eq_none (by omega)), List.filterMap_cons_none (List.getElem?_eq_none (by rw [← h.length_eq]; omega))]
      exact ih

/-- **C186**, gridding: values nowhere above others give a result nowhere above the other one. -/
theorem c186_gridding {P O : Points K} {lats lons olats olons : List (Fl K)} {type otype : CoordType}
    (hP : BuiltPoints P lats lons type) (hO : BuiltPoints O olats olons otype)
    {g : Grid K} {Y X : Nat} {glats glons : List (List (Fl K))} {gtype : CoordType} (hg : BuiltGrid g Y X glats glons gtype)
    (hvg : GridValidIn type glats glons) (hvo : PointsValidIn type olats olons) {values values' : List (Fl K)} (hn : values.length = lats.length)
    (h : List.Forall₂ NotAbove values values') (rnd : Rnd K) (r : K) (hr : 0 ≤ r) (minNum : Int) (hm : 0 ≤ minNum) {s : Statistic} (hs : IsAverage s ∨ s = .sum) :
    (∃ out out', griddingG T rnd g P values (fin r) minNum s = ok out ∧ griddingG T rnd g P values' (fin r) minNum s = ok out' ∧ Rect Y X out ∧ Rect Y X out' ∧
      ∀ y < Y, ∀ x < X, ∃ u v, cell? out y x = some u ∧ cell? out' y x = some v ∧ NotAbove u v) ∧
    (∃ out out', griddingP T rnd O P values (fin r) minNum s = ok out ∧ griddingP T rnd O P values' (fin r) minNum s = ok out' ∧
      List.Forall₂ NotAbove out out') := by
  have hd : Deterministic s := hs.elim IsAverage.det fun e => by subst e; simp [Deterministic]
  have hn' : values'.length = lats.length := by rw [← h.length_eq, hn]
  have key : ∀ la lo u v, Aggregated rnd lats lons type values (fin r) minNum s la lo u → Aggregated rnd lats lons type values' (fin r) minNum s la lo v → NotAbove u v := by
    rintro la lo u v ⟨p, hp, ⟨l, hl⟩, hu⟩ ⟨p', hp', -, hv⟩
    rw [hp] at hp'
    cases hp'
    by_cases hml : minNum ≤ l.length
    · obtain ⟨u', v', e1, e2, e3⟩ := (c186_statistic rnd (pick_forall₂ h l)).1 s hs
      rw [(hu l hl).1 hml] at e1
      rw [(hv l hl).1 hml] at e2
      cases e1; cases e2
      exact e3
    · rw [(hu l hl).2 (by omega), (hv l hl).2 (by omega)]
      exact Or.inl ⟨rfl, rfl⟩
  obtain ⟨o1, a1, a2⟩ := c40_grid hT hg hP hvg rnd values hn r hr minNum hm s hd
  obtain ⟨o2, b1, b2⟩ := c40_grid hT hg hP hvg rnd values' hn' r hr minNum hm s hd
  obtain ⟨o3, a3, a4⟩ := c40_points hT hO hP hvo rnd values hn r hr minNum hm s hd
  obtain ⟨o4, b3, b4⟩ := c40_points hT hO hP hvo rnd values' hn' r hr minNum hm s hd
  refine ⟨⟨o1, o2, a1, b1, a2.1, b2.1, fun y hy x hx => ?_⟩, o3, o4, a3, b3, ?_⟩
  · obtain ⟨la, lo, u, k1, k2, k3, k4⟩ := a2.2 y hy x hx
    obtain ⟨la', lo', v, m1, m2, m3, m4⟩ := b2.2 y hy x hx
    rw [k1] at m1; rw [k2] at m2
    cases m1; cases m2
    exact ⟨u, v, k3, m3, key _ _ _ _ k4 m4⟩
  · refine List.forall₂_iff_get.mpr ⟨by rw [a4.1, b4.1], fun i h1 h2 => ?_⟩
    have hi : i < olats.length := by rw [← a4.1]; exact h1
    obtain ⟨la, lo, u, k1, k2, k3, k4⟩ := a4.2 i hi
    obtain ⟨la', lo', v, m1, m2, m3, m4⟩ := b4.2 i hi
    rw [k1] at m1; rw [k2] at m2
    cases m1; cases m2
    rw [List.getElem?_eq_getElem h1] at k3
    rw [List.getElem?_eq_getElem h2] at m3
    have := key _ _ _ _ k4 m4
    rw [← Option.some.inj k3, ← Option.some.inj m3] at this
    exact this

/-- **C186**, gridding: averages and extremes stay in the range of the values. -/
theorem c186_gridding_range {P O : Points K} {lats lons olats olons : List (Fl K)} {type otype : CoordType}
    (hP : BuiltPoints P lats lons type) (hO : BuiltPoints O olats olons otype)
    {g : Grid K} {Y X : Nat} {glats glons : List (List (Fl K))} {gtype : CoordType} (hg : BuiltGrid g Y X glats glons gtype)
    (hvg : GridValidIn type glats glons) (hvo : PointsValidIn type olats olons) {values : List (Fl K)} (hn : values.length = lats.length) {lo hi : K}
    (h : ∀ v ∈ values, MissingOrIn lo hi v) (rnd : Rnd K) (r : K) (hr : 0 ≤ r) (minNum : Int) (hm : 0 ≤ minNum) {s : Statistic} (hs : IsAverage s) :
    (∃ out, griddingG T rnd g P values (fin r) minNum s = ok out ∧ Rect Y X out ∧ ∀ y < Y, ∀ x < X, ∃ v, cell? out y x = some v ∧ MissingOrIn lo hi v) ∧
    (∃ out, griddingP T rnd O P values (fin r) minNum s = ok out ∧ out.length = olats.length ∧ ∀ v ∈ out, MissingOrIn lo hi v) := by
  have key : ∀ la lo' u, Aggregated rnd lats lons type values (fin r) minNum s la lo' u → MissingOrIn lo hi u := by
    rintro la lo' u ⟨p, hp, ⟨l, hl⟩, hu⟩
    by_cases hml : minNum ≤ l.length
    · obtain ⟨v, e1, e2⟩ := c186_statistic_range rnd (a := l.filterMap fun i => values[i]?) (lo := lo) (hi := hi) (fun v hv => by
        obtain ⟨i, -, e⟩ := List.mem_filterMap.mp hv
        exact h v (List.mem_of_getElem? e)) hs
      rw [(hu l hl).1 hml] at e1
      cases e1
      exact e2
    · rw [(hu l hl).2 (by omega)]
      exact Or.inl rfl
  obtain ⟨o1, a1, a2⟩ := c40_grid hT hg hP hvg rnd values hn r hr minNum hm s (IsAverage.det hs)
  obtain ⟨o3, a3, a4⟩ := c40_points hT hO hP hvo rnd values hn r hr minNum hm s (IsAverage.det hs)
  refine ⟨⟨o1, a1, a2.1, fun y hy x hx => ?_⟩, o3, a3, a4.1, fun v hv => ?_⟩
  · obtain ⟨la, lo, u, k1, k2, k3, k4⟩ := a2.2 y hy x hx
    exact ⟨u, k3, key _ _ _ k4⟩
  · obtain ⟨i, hi, rfl⟩ := List.mem_iff_getElem.mp hv
    obtain ⟨la, lo, u, k1, k2, k3, k4⟩ := a4.2 i (by rw [← a4.1]; exact hi)
    rw [List.getElem?_eq_getElem hi] at k3
    rw [Option.some.inj k3]
    exact key _ _ _ k4

end

/-! ### Concrete cases -/

/-- Values nowhere above others, with missing ones, and their means and medians. -/
theorem c186_case : List.Forall₂ NotAbove [fin (1 : ℚ), nan, fin 5, fin 2] [fin 3, pinf, fin 5, fin 8] ∧
    calcStatistic (fun _ => 0) [fin (1 : ℚ), nan, fin 5, fin 2] .median = ok (fin 2) ∧
    calcStatistic (fun _ => 0) [fin (3 : ℚ), pinf, fin 5, fin 8] .median = ok (fin 5) ∧
    (∀ v ∈ [fin (1 : ℚ), nan, fin 5, fin 2], MissingOrIn 1 5 v) ∧ IsAverage .median := by
  refine ⟨.cons (Or.inr ⟨1, 3, rfl, rfl, by norm_num⟩) (.cons (Or.inl ⟨rfl, rfl⟩) (.cons (Or.inr ⟨5, 5, rfl, rfl, le_refl _⟩)
    (.cons (Or.inr ⟨2, 8, rfl, rfl, by norm_num⟩) .nil))), by decide +kernel, by decide +kernel, ?_, by simp [IsAverage]⟩
  intro v hv
  simp only [List.mem_cons, List.not_mem_nil, or_false] at hv
  rcases hv with rfl | rfl | rfl | rfl
  · exact Or.inr ⟨1, rfl, by norm_num, by norm_num⟩
  · exact Or.inl rfl
  · exact Or.inr ⟨5, rfl, by norm_num, by norm_num⟩
  · exact Or.inr ⟨2, rfl, by norm_num, by norm_num⟩

/-- The sum leaves the range of the values, and the variance of larger values can be smaller: both are left out. -/
theorem c186_others_false :
    calcStatistic (fun _ => 0) [fin (2 : ℚ), fin 3] .sum = ok (fin 5) ∧
    calcStatistic (fun _ => 0) [fin (0 : ℚ), fin 4] .variance = ok (fin 4) ∧
    calcStatistic (fun _ => 0) [fin (5 : ℚ), fin 5] .variance = ok (fin 0) := by decide +kernel

end Gridpp.Props
