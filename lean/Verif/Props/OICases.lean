import Verif.Props.OIGrid

/-! Optimal interpolation (C47–C51): the assumptions can be met, and counterexamples to C49, C50 and C51. -/

set_option linter.unusedSectionVars false

namespace Gridpp.Props
open Fl Res Matrix

section
variable {K : Type} [Field K] [LinearOrder K] [IsStrictOrderedRing K]

theorem toRows_inj {m n : Nat} {M : Matrix (Fin m) (Fin m) K} {N : Matrix (Fin n) (Fin n) K} (h : toRows M = toRows N) :
    ∃ e : m = n, e ▸ M = N := by
  have hl := congrArg List.length h
  simp only [toRows, List.length_ofFn] at hl
  subst hl
  refine ⟨rfl, ?_⟩
  unfold toRows at h
  have h1 := List.ofFn_injective h
  funext i j
  have h2 := List.ofFn_injective (congrFun h1 i)
  exact Fl.fin.inj (congrFun h2 j)

/-- A key for sorting. -/
def sortKey : Fl K → WithBot (WithTop K)
  | nan => ⊥
  | ninf => ⊥
  | fin q => ((q : WithTop K) : WithBot (WithTop K))
  | pinf => ((⊤ : WithTop K) : WithBot (WithTop K))

open Classical in
/-- Libraries that do what is required. -/
noncomputable def Arma.exact : Arma K where
  inv rows := if h : ∃ (n : Nat) (M : Matrix (Fin n) (Fin n) K), rows = toRows M then
      if h.choose_spec.choose.det = 0 then .throw .runtimeError else ok (toRows h.choose_spec.choose⁻¹)
    else ok []
  sortFirst l := l.insertionSort fun a b => sortKey a.1 ≤ sortKey b.1

theorem Arma.exact_lawful : (Arma.exact : Arma K).Lawful := by
  have hinv : ∀ (n : Nat) (M : Matrix (Fin n) (Fin n) K), (Arma.exact : Arma K).inv (toRows M) =
      if M.det = 0 then .throw .runtimeError else ok (toRows M⁻¹) := by
    intro n M
    have h : ∃ (n' : Nat) (M' : Matrix (Fin n') (Fin n') K), toRows M = toRows M' := ⟨n, M, rfl⟩
    simp only [Arma.exact]
    rw [dif_pos h]
    have e := h.choose_spec.choose_spec
    generalize h.choose_spec.choose = M' at e ⊢
    generalize h.choose = n' at M' e ⊢
    obtain ⟨rfl, rfl⟩ := toRows_inj e
    rfl
  refine ⟨?_, ?_, ?_, ?_⟩
  · intro n M hd; rw [hinv, if_neg hd]
  · intro n M hd; rw [hinv, if_pos hd]
  · intro l _; exact List.perm_insertionSort _ _
  · intro l hl
    have : Std.Total fun a b : Fl K × Nat => sortKey a.1 ≤ sortKey b.1 := ⟨fun a b => le_total _ _⟩
    have : IsTrans (Fl K × Nat) fun a b => sortKey a.1 ≤ sortKey b.1 := ⟨fun _ _ _ h1 h2 => le_trans h1 h2⟩
    have hs : ((Arma.exact : Arma K).sortFirst l).Pairwise fun a b => sortKey a.1 ≤ sortKey b.1 := List.pairwise_insertionSort _ _
    have hm : ∀ e ∈ (Arma.exact : Arma K).sortFirst l, e.1 ≠ nan := fun e he => hl e ((List.perm_insertionSort _ _).subset he)
    refine hs.imp_of_mem ?_
    rintro ⟨a, i⟩ ⟨b, j⟩ ha hb hab
    have ha := hm _ ha
    have hb := hm _ hb
    cases a <;> cases b <;> simp_all [sortKey, Fl.lt, WithBot.coe_le_coe]
end

section
variable {K : Type} [Field K] [LinearOrder K] [IsStrictOrderedRing K] [HasGeo K] [LawfulSqrt K] [LawfulExp K]

theorem Regular.locDist {T : RTree K} {s : SF K} {p : Point K} (h : Regular T s p) : ∃ l, s.locDist T p = ok l := by
  induction s with
  | scaled s => obtain ⟨_, _, _, l, _, hl, _⟩ := h; exact ⟨l, hl⟩
  | cressman a b c => exact ⟨a, rfl⟩
  | multiple a b c ih _ _ => exact ih h.1
  | crossval s d ih => exact ih h

/-- The correlations exist for points as constructed, if the structure function has its scales there (see `c57_built`). -/
theorem c51_correlations (T : RTree K) (s : SF K) (bp points : Points K) (hb : bp.WF) (hp : points.WF)
    (h1 : ∀ (y : Nat) p, bp.getPoint (y : Int) = ok p → Regular T s p)
    (h2 : ∀ (i : Nat) p, points.getPoint (i : Int) = ok p → Regular T s p) :
    ∃ L G P, Correlations T s bp points L G P := by
  classical
  have lt : ∀ (Q : Points K) (i : Nat) p, Q.getPoint (i : Int) = ok p → i < Q.size := by
    intro Q i p h
    unfold Points.getPoint at h
    obtain ⟨la, h, -⟩ := bind_eq_ok.mp h
    exact (List.getElem?_eq_some_iff.mp (vget_nat_eq_ok.mp h)).1
  have lies : ∀ (Q : Points K), Q.WF → ∀ (i : Nat) p, Q.getPoint (i : Int) = ok p → ∃ q, Spec.LiesAt p q := by
    intro Q hQ i p h
    obtain ⟨p', q, e, -, -, -, -, -, -, -, hq⟩ := hQ.point (lt Q i p h)
    rw [h] at e; cases e
    exact ⟨q, hq⟩
  have hL : ∀ y : Nat, ∃ l, ∀ p, bp.getPoint (y : Int) = ok p → s.locDist T p = ok l := by
    intro y
    by_cases h : ∃ p, bp.getPoint (y : Int) = ok p
    · obtain ⟨p, hp⟩ := h
      obtain ⟨l, hl⟩ := (h1 y p hp).locDist
      exact ⟨l, fun p' hp' => by rw [hp] at hp'; cases hp'; exact hl⟩
    · exact ⟨nan, fun p hp => absurd ⟨p, hp⟩ h⟩
  have hG : ∀ y : Nat, ∃ c : Point K → K, ∀ p, bp.getPoint (y : Int) = ok p →
      (∀ p', (∃ q, Spec.LiesAt p' q) → s.corrBg T p p' = ok (fin (c p'))) ∧
      ∀ ps : List (Point K), (∀ p ∈ ps, ∃ q, Spec.LiesAt p q) → s.corrBgVec T p ps = ok (ps.map fun p => fin (c p)) := by
    intro y
    by_cases h : ∃ p, bp.getPoint (y : Int) = ok p
    · obtain ⟨p, hp⟩ := h
      obtain ⟨c, hc⟩ := c57_background_partial T s p (h1 y p hp) (lies bp hb y p hp)
      exact ⟨c, fun p' hp' => by rw [hp] at hp'; cases hp'; exact hc⟩
    · exact ⟨fun _ => 0, fun p hp => absurd ⟨p, hp⟩ h⟩
  have hP : ∀ i : Nat, ∃ c : Point K → K, ∀ p, points.getPoint (i : Int) = ok p →
      (∀ p', (∃ q, Spec.LiesAt p' q) → s.corr T p p' = ok (fin (c p'))) ∧
      ∀ ps : List (Point K), (∀ p ∈ ps, ∃ q, Spec.LiesAt p q) → s.corrVec T p ps = ok (ps.map fun p => fin (c p)) := by
    intro i
    by_cases h : ∃ p, points.getPoint (i : Int) = ok p
    · obtain ⟨p, hpp⟩ := h
      obtain ⟨c, hc⟩ := c57_vector_partial T s p (h2 i p hpp) (lies points hp i p hpp)
      exact ⟨c, fun p' hp' => by rw [hpp] at hp'; cases hp'; exact hc⟩
    · exact ⟨fun _ => 0, fun p hp => absurd ⟨p, hp⟩ h⟩
  have hpt : ∀ i : Nat, ∃ p0, ∀ p, points.getPoint (i : Int) = ok p → p = p0 := by
    intro i
    by_cases h : ∃ p, points.getPoint (i : Int) = ok p
    · obtain ⟨p, hp⟩ := h
      exact ⟨p, fun p' hp' => by rw [hp] at hp'; cases hp'; rfl⟩
    · exact ⟨⟨nan, nan, nan, nan, .geodetic, nan, nan, nan⟩, fun p hp => absurd ⟨p, hp⟩ h⟩
  choose L hL using hL
  choose g hG using hG
  choose c hP using hP
  choose pt hpt using hpt
  have hmap : ∀ (f : Point K → K) (is : List Nat) ps, mapM (fun i : Nat => points.getPoint (i : Int)) is = ok ps →
      (∀ p ∈ ps, ∃ q, Spec.LiesAt p q) ∧ (ps.map fun p => fin (f p)) = is.map fun i => fin (f (pt i)) := by
    intro f is ps h
    have hf := mapM_eq_ok h
    clear h
    induction hf with
    | nil => simp
    | cons hab _ ih =>
      refine ⟨fun p hp' => ?_, ?_⟩
      · rcases List.mem_cons.mp hp' with rfl | hp'
        · exact lies points hp _ _ hab
        · exact ih.1 p hp'
      · rw [List.map_cons, List.map_cons, ih.2, hpt _ _ hab]
  refine ⟨L, fun y i => g y (pt i), fun i j => c i (pt j), hL, ?_, ?_, ?_, ?_⟩
  · intro y p hy is ps hps
    obtain ⟨a, b⟩ := hmap (g y) is ps hps
    rw [(hG y p hy).2 ps a, b]
  · intro i p hi is ps hps
    obtain ⟨a, b⟩ := hmap (c i) is ps hps
    rw [(hP i p hi).2 ps a, b]
  · intro y p hy i p' hi
    rw [(hG y p hy).1 p' (lies points hp i p' hi), hpt i p' hi]
  · intro i p hi j p' hj
    rw [(hP i p hi).1 p' (lies points hp j p' hj), hpt j p' hj]

end

/-! ## Concrete cases -/

section examples

/-- One output point at (0, 0) and observations at (lat 0, lon 1) and (lat 0, lon 2), the second one missing: the
assumptions of C47–C51 are met. -/
example : ∃ (bp points : Points ℝ) (s : SF ℝ) (L : Nat → Fl ℝ) (G P : Nat → Nat → ℝ) (ratio d : Nat → ℝ),
    points.size ≠ 0 ∧
    Setting RTree.scan Arma.exact bp [fin 10] [fin 2] points [fin 12, nan] [fin 1, fin 1] [fin 11, fin 11] [fin 2, fin 2] s 5 L G P ratio d ∧
    d 0 = 1 ∧ ratio 0 = 1 / 2 := by
  obtain ⟨bp, hbp⟩ : ∃ bp : Points ℝ, Points.new [fin 0] [fin 0] [] [] .cartesian = ok bp := by
    simp [Points.new, KDTree.new, List.range_succ, mapM_cons, convertCoordinates, isValidLat, isValidLon, vget]
  obtain ⟨points, hpoints⟩ : ∃ points : Points ℝ, Points.new [fin 0, fin 0] [fin 1, fin 2] [] [] .cartesian = ok points := by
    simp [Points.new, KDTree.new, List.range_succ, mapM_cons, convertCoordinates, isValidLat, isValidLon, vget]
  have w1 := BuiltPoints.pointsWF ⟨_, _, hbp⟩
  have w2 := BuiltPoints.pointsWF ⟨_, _, hpoints⟩
  obtain ⟨e1, -, -, -, -, -, e3, -⟩ := Points.new_ok hbp
  obtain ⟨f1, -, -, -, -, -, f3, -⟩ := Points.new_ok hpoints
  obtain ⟨L, G, P, hc⟩ := c51_correlations RTree.scan (SF.cressman (fin 3) (fin 0) (fin 0)) bp points w1 w2 (fun _ _ _ => trivial) (fun _ _ _ => trivial)
  refine ⟨bp, points, _, L, G, P, fun _ => 1 / 2, fun _ => 1, ?_, ⟨RTree.scan_lawful, Arma.exact_lawful, w1, w2, ?_, ?_, ?_, ?_, ?_, ?_, ?_, by norm_num, hc, ?_, ?_⟩, rfl, rfl⟩
  · unfold Points.size; rw [f1]; simp
  · unfold Points.type; rw [e3, f3]
  all_goals (try (unfold Points.size; simp [e1, f1]))
  · intro i o b h1 h2
    match i, h1, h2 with
    | 0, h1, h2 => simp at h1 h2; rw [← h1, ← h2]; norm_num
    | 1, h1, h2 => simp at h1
    | i + 2, h1, h2 => simp at h1
  · intro i o b h1 h2
    match i, h1, h2 with
    | 0, h1, h2 => exact ⟨1, 2, rfl, rfl, by norm_num, by norm_num⟩
    | 1, h1, h2 => simp at h1
    | i + 2, h1, h2 => simp at h1

/-- Points on a line through (0, 0) and an output point there. -/
def lineOI (A : Arma ℚ) (h : Fl ℚ) (lons obs obsVar pbg : List (Fl ℚ)) (maxPoints : Int) (extrap : Bool) : Res (List (Fl ℚ) × List (Fl ℚ)) := do
  let bp ← Points.new [fin 0] [fin 0] [] [] .cartesian
  let points ← Points.new (lons.map fun _ => fin 0) lons [] [] .cartesian
  let s ← SF.newCressman h (fin 0) (fin 0)
  oiFullPoints RTree.scan A bp [fin 0] [fin 1] points obs obsVar pbg (lons.map fun _ => fin 1) s maxPoints [] extrap

/-- A partial table of inverses. -/
def tableArma (rows rows' : List (List (Fl ℚ))) : Arma ℚ := ⟨fun m => if m = rows then ok rows' else ub, id⟩

theorem mapM_mono {α β : Type} {f g : α → Res β} (h : ∀ a b, f a = ok b → g a = ok b) (l : List α) (r : List β) (hr : mapM f l = ok r) :
    mapM g l = ok r := by
  induction l generalizing r with
  | nil => exact hr
  | cons a t ih =>
    rw [mapM_cons] at hr ⊢
    obtain ⟨b, hb, hr⟩ := bind_eq_ok.mp hr
    obtain ⟨bs, hbs, hr⟩ := bind_eq_ok.mp hr
    rw [h a b hb, ok_bind, ih bs hbs, ok_bind]
    exact hr

/-- If all observations are used, the results only depend on the inverses that were needed. -/
theorem lineOI_mono (A A' : Arma ℚ) (hA : ∀ m n, A'.inv m = ok n → A.inv m = ok n) (h : Fl ℚ) (lons obs obsVar pbg : List (Fl ℚ)) (extrap : Bool)
    (r : List (Fl ℚ) × List (Fl ℚ)) (hr : lineOI A' h lons obs obsVar pbg 0 extrap = ok r) : lineOI A h lons obs obsVar pbg 0 extrap = ok r := by
  unfold lineOI at hr ⊢
  obtain ⟨bp, e1, hr⟩ := bind_eq_ok.mp hr
  obtain ⟨points, e2, hr⟩ := bind_eq_ok.mp hr
  obtain ⟨s, e3, hr⟩ := bind_eq_ok.mp hr
  rw [e1, ok_bind, e2, ok_bind, e3, ok_bind]
  unfold oiFullPoints at hr ⊢
  split_ifs at hr ⊢
  · exact hr
  · obtain ⟨pr, e4, hr⟩ := bind_eq_ok.mp hr
    obtain ⟨pts, e5, hr⟩ := bind_eq_ok.mp hr
    obtain ⟨cells, e6, hr⟩ := bind_eq_ok.mp hr
    rw [e4, ok_bind, e5, ok_bind]
    rw [mapM_mono (g := oiCell RTree.scan A bp [fin 0] [fin 1] points pts obs pr pbg s 0 extrap) ?_ _ _ (omp_eq_ok e6)]
    · exact hr
    · intro y c hc
      have hsel : ∀ (B : Arma ℚ) u, oiSelect B 0 u = u := fun B u => if_neg (by omega)
      unfold oiCell at hc ⊢
      simp only [hsel] at hc ⊢
      obtain ⟨b, f1, hc⟩ := bind_eq_ok.mp hc
      obtain ⟨bv, f2, hc⟩ := bind_eq_ok.mp hc
      rw [f1, ok_bind, f2, ok_bind]
      split_ifs at hc ⊢ with hv
      · obtain ⟨lat, f3, hc⟩ := bind_eq_ok.mp hc
        obtain ⟨lon, f4, hc⟩ := bind_eq_ok.mp hc
        obtain ⟨p1, f5, hc⟩ := bind_eq_ok.mp hc
        obtain ⟨rad, f6, hc⟩ := bind_eq_ok.mp hc
        obtain ⟨idx, f7, hc⟩ := bind_eq_ok.mp hc
        rw [f3, ok_bind, f4, ok_bind, f5, ok_bind, f6, ok_bind, f7, ok_bind]
        split_ifs at hc ⊢ with hi
        · exact hc
        · obtain ⟨p2, g1, hc⟩ := bind_eq_ok.mp hc
          obtain ⟨rhos, g2, hc⟩ := bind_eq_ok.mp hc
          obtain ⟨u, g3, hc⟩ := bind_eq_ok.mp hc
          rw [g1, ok_bind, g2, ok_bind, g3, ok_bind]
          split_ifs at hc ⊢ with hu
          · exact hc
          · obtain ⟨rows, g4, hc⟩ := bind_eq_ok.mp hc
            obtain ⟨x, g5, hc⟩ := bind_eq_ok.mp hc
            rw [g4, ok_bind]
            unfold oiSolve at g5 ⊢
            obtain ⟨N, g6, g5⟩ := bind_eq_ok.mp g5
            rw [hA _ _ g6, ok_bind, g5, ok_bind]
            exact hc
      · exact hc

theorem table_inverse {A : Arma ℚ} (hA : A.Lawful) {n : Nat} (M N : Matrix (Fin n) (Fin n) ℚ) (h : M * N = 1) {rows rows' : List (List (Fl ℚ))}
    (h1 : rows = toRows M) (h2 : rows' = toRows N) : ∀ m r, (tableArma rows rows').inv m = ok r → A.inv m = ok r := by
  have hu : IsUnit M := ⟨⟨M, N, h, mul_eq_one_comm.mp h⟩, rfl⟩
  have hd : M.det ≠ 0 := ((Matrix.isUnit_iff_isUnit_det M).mp hu).ne_zero
  have hi : M⁻¹ = N := Matrix.inv_eq_right_inv h
  intro m r hr
  simp only [tableArma] at hr
  split_ifs at hr with hm
  cases hr
  rw [hm, h1, h2, ← hi]
  exact hA.inv_ok n M hd

/-- **C49** is false: the innovations are 0 and -1, the increment is 83/117 > 0 although extrapolation is not allowed. -/
theorem c49_counterexample (A : Arma ℚ) (hA : A.Lawful) :
    ∃ v x, lineOI A (fin 3) [fin 1, fin 2] [fin 0, fin (-1)] [fin 0, fin 0] [fin 0, fin 0] 0 false = ok ([fin v], [fin x]) ∧ 0 < v := by
  refine ⟨83 / 117, 272 / 1521, ?_, by norm_num⟩
  refine lineOI_mono A (tableArma [[fin 1, fin (4 / 5)], [fin (4 / 5), fin 1]] [[fin (25 / 9), fin (-20 / 9)], [fin (-20 / 9), fin (25 / 9)]])
    (table_inverse hA !![1, 4 / 5; 4 / 5, 1] !![25 / 9, -20 / 9; -20 / 9, 25 / 9] ?_ ?_ ?_) _ _ _ _ _ _ _ ?_
  · ext i j; fin_cases i <;> fin_cases j <;> norm_num [Matrix.mul_apply, Fin.sum_univ_succ]
  · simp [toRows, List.ofFn_succ]
  · simp [toRows, List.ofFn_succ]
  · decide +kernel

/-- **C51** is false for the variance: three observations without error, at -3, -2 and 2, and a Cressman function of scale
4 give the analysis variance -9/10000 for the background variance 1. -/
theorem c51_variance_counterexample (A : Arma ℚ) (hA : A.Lawful) (extrap : Bool) :
    ∃ v x, lineOI A (fin 4) [fin (-3), fin (-2), fin 2] [fin 1, fin 1, fin 1] [fin 0, fin 0, fin 0] [fin 0, fin 0, fin 0] 0 extrap =
      ok ([fin v], [fin x]) ∧ x < 0 := by
  refine ⟨if extrap then 427 / 400 else 1, -9 / 10000, ?_, by norm_num⟩
  refine lineOI_mono A (tableArma [[fin 1, fin (15 / 17), fin 0], [fin (15 / 17), fin 1, fin 0], [fin 0, fin 0, fin 1]]
      [[fin (289 / 64), fin (-255 / 64), fin 0], [fin (-255 / 64), fin (289 / 64), fin 0], [fin 0, fin 0, fin 1]])
    (table_inverse hA !![1, 15 / 17, 0; 15 / 17, 1, 0; 0, 0, 1] !![289 / 64, -255 / 64, 0; -255 / 64, 289 / 64, 0; 0, 0, 1] ?_ ?_ ?_)
    _ _ _ _ _ _ _ ?_
  · ext i j; fin_cases i <;> fin_cases j <;> norm_num [Matrix.mul_apply, Fin.sum_univ_succ]
  · simp [toRows, List.ofFn_succ]
  · simp [toRows, List.ofFn_succ]
  · cases extrap <;> decide +kernel

/-- **C50** does not hold for points with too few background values at the observations: they are not checked. -/
theorem c50_points_reads_outside (A : Arma ℚ) :
    (do let bp ← Points.new [fin (0 : ℚ)] [fin 0] [] [] .cartesian
        let points ← Points.new [fin 0] [fin 1] [] [] .cartesian
        oiPoints RTree.scan A bp [fin 0] points [fin 1] [fin 1] [] (.cressman (fin 3) (fin 0) (fin 0)) 0 true) = ub := by
  with_unfolding_all rfl

end examples
end Gridpp.Props
