import Verif.Props.OICases
import Verif.Lemmas.Units

/-! C173: optimal interpolation in other units. Nothing is assumed about the libraries, the spatial index or the structure function. -/

set_option linter.unusedSectionVars false

namespace Gridpp.Props
open Fl Res Spec

section
variable {K : Type} [Field K] [LinearOrder K] [IsStrictOrderedRing K]

theorem vget_mapIdx {α β : Type} (f : Nat → α → β) (l : List α) (i : Nat) : vget (l.mapIdx f) (i : Int) = f i <$> vget l (i : Int) := by
  unfold vget
  rw [if_neg (by omega), if_neg (by omega)]
  rw [Int.toNat_natCast, List.getElem?_mapIdx]
  cases l[i]? <;> rfl

theorem vget_inUnitsEach (c : K) (d : Nat → K) (l : List (Fl K)) (i : Nat) : vget (inUnitsEach c d l) (i : Int) = inUnits c (d i) <$> vget l (i : Int) :=
  vget_mapIdx _ l i

theorem length_inUnitsEach (c : K) (d : Nat → K) (l : List (Fl K)) : (inUnitsEach c d l).length = l.length := List.length_mapIdx

theorem inUnitsEach_const (c d : K) (l : List (Fl K)) : inUnitsEach c (fun _ => d) l = l.map (inUnits c d) := by
  unfold inUnitsEach
  rw [List.mapIdx_eq_zipIdx_map]
  conv_rhs => rw [← List.zipIdx_map_fst 0 l, List.map_map]
  rfl

theorem foldl_add_scale {c : K} (hc : c ≠ 0) (l : List (Fl K)) (a : Fl K) : (l.map (fin c * ·)).foldl (· + ·) (fin c * a) = fin c * l.foldl (· + ·) a := by
  induction l generalizing a with
  | nil => rfl
  | cons x t ih => rw [List.map_cons, List.foldl_cons, List.foldl_cons, ← scale_add hc, ih]

theorem dot_scale {c : K} (hc : c ≠ 0) (w v : List (Fl K)) : dot w (v.map (fin c * ·)) = fin c * dot w v := by
  unfold dot
  conv_rhs => rw [← foldl_add_scale hc, scale_zero]
  congr 1
  rw [List.zipWith_map_right, List.map_zipWith]
  congr 1
  funext a b
  exact scale_mul_right hc a b

theorem armaMax_scale_pos {c : K} (hc : 0 < c) (v : List (Fl K)) : armaMax (v.map (fin c * ·)) = fin c * armaMax v ∧ armaMin (v.map (fin c * ·)) = fin c * armaMin v := by
  have key : ∀ (g : Fl K → Fl K → Bool), (∀ x y, g (fin c * x) (fin c * y) = g x y) → ∀ (l : List (Fl K)) (a : Fl K),
      (l.map (fin c * ·)).foldl (fun a x => if g x a then x else a) (fin c * a) = fin c * l.foldl (fun a x => if g x a then x else a) a := by
    intro g hg l
    induction l with
    | nil => intro a; rfl
    | cons x t ih =>
      intro a
      rw [List.map_cons, List.foldl_cons, List.foldl_cons, hg, ← ih]
      congr 1
      split <;> rfl
  obtain ⟨-, e1, e2⟩ | ⟨h', -⟩ := scale_cases hc.ne'
  · constructor
    · have := key Fl.gt (fun x y => scale_lt_pos hc y x) v ninf
      rwa [e2] at this
    · have := key Fl.lt (fun x y => scale_lt_pos hc x y) v pinf
      rwa [e1] at this
  · exact absurd h' (not_lt.mpr hc.le)

theorem armaMax_scale_neg {c : K} (hc : c < 0) (v : List (Fl K)) : armaMax (v.map (fin c * ·)) = fin c * armaMin v ∧ armaMin (v.map (fin c * ·)) = fin c * armaMax v := by
  have key : ∀ (g h : Fl K → Fl K → Bool), (∀ x y, g (fin c * x) (fin c * y) = h x y) → ∀ (l : List (Fl K)) (a : Fl K),
      (l.map (fin c * ·)).foldl (fun a x => if g x a then x else a) (fin c * a) = fin c * l.foldl (fun a x => if h x a then x else a) a := by
    intro g h hg l
    induction l with
    | nil => intro a; rfl
    | cons x t ih =>
      intro a
      rw [List.map_cons, List.foldl_cons, List.foldl_cons, hg, ← ih]
      congr 1
      split <;> rfl
  obtain ⟨h', -⟩ | ⟨-, e1, e2⟩ := scale_cases hc.ne
  · exact absurd h' (not_lt.mpr hc.le)
  · constructor
    · have := key Fl.gt Fl.lt (fun x y => scale_lt_neg hc y x) v pinf
      rwa [e1] at this
    · have := key Fl.lt Fl.gt (fun x y => scale_lt_neg hc x y) v ninf
      rwa [e2] at this

theorem fl_lt_trans {x y z : Fl K} (h1 : x.lt y = true) (h2 : y.lt z = true) : x.lt z = true := by
  cases x <;> cases y <;> cases z <;> simp_all [Fl.lt]
  exact h1.trans h2

theorem fl_lt_asymm {x y : Fl K} (h1 : x.lt y = true) : y.lt x = false := by
  cases x <;> cases y <;> simp_all [Fl.lt]
  exact h1.le

theorem limitIncrement_scale_pos {c : K} (hc : 0 < c) (i a b : Fl K) : limitIncrement (fin c * i) (fin c * a) (fin c * b) = fin c * limitIncrement i a b := by
  have h0 : ∀ x : Fl K, (fin c * x).lt 0 = x.lt 0 := fun x => by conv_lhs => rw [← scale_zero c, scale_lt_pos hc]
  have h1 : ∀ x : Fl K, (fin c * x).gt 0 = x.gt 0 := fun x => by
    show (0 : Fl K).lt _ = _
    conv_lhs => rw [← scale_zero c, scale_lt_pos hc]
    rfl
  have h2 : ∀ x y : Fl K, (fin c * x).gt (fin c * y) = x.gt y := fun x y => scale_lt_pos hc y x
  unfold limitIncrement
  simp only [h0, h1, h2, scale_lt_pos hc]
  split_ifs <;> rfl

theorem limitIncrement_scale_neg {c : K} (hc : c < 0) (i a b : Fl K) : limitIncrement (fin c * i) (fin c * b) (fin c * a) = fin c * limitIncrement i a b := by
  have h0 : ∀ x : Fl K, (fin c * x).lt 0 = x.gt 0 := fun x => by
    conv_lhs => rw [← scale_zero c, scale_lt_neg hc]
    rfl
  have h1 : ∀ x : Fl K, (fin c * x).gt 0 = x.lt 0 := fun x => by
    show (0 : Fl K).lt _ = _
    conv_lhs => rw [← scale_zero c, scale_lt_neg hc]
  have h2 : ∀ x y : Fl K, (fin c * x).gt (fin c * y) = x.lt y := fun x y => scale_lt_neg hc y x
  have h3 : ∀ x y : Fl K, (fin c * x).lt (fin c * y) = x.gt y := fun x y => scale_lt_neg hc x y
  unfold limitIncrement
  simp only [h0, h1, h2, h3]
  rcases Bool.eq_false_or_eq_true (i.gt 0) with hi | hi
  · have n1 : i.lt 0 = false := fl_lt_asymm hi
    have n2 : (a.lt 0 && i.lt a) = false := by
      rcases Bool.eq_false_or_eq_true (a.lt 0 && i.lt a) with h | h
      · obtain ⟨u, v⟩ := Bool.and_eq_true_iff.mp h
        rw [fl_lt_trans v u] at n1
        cases n1
      · exact h
    rw [n1, n2, hi]
    simp only [Bool.and_false, Bool.false_eq_true, if_false]
    split_ifs <;> rfl
  · have n2 : (b.gt 0 && i.gt b) = false := by
      rcases Bool.eq_false_or_eq_true (b.gt 0 && i.gt b) with h | h
      · obtain ⟨u, v⟩ := Bool.and_eq_true_iff.mp h
        have := fl_lt_trans u v
        rw [show Fl.gt i 0 = (0 : Fl K).lt i from rfl, this] at hi
        cases hi
      · exact h
    rw [n2, hi]
    simp only [Bool.and_false, Bool.false_eq_true, if_false]
    split_ifs <;> rfl

theorem limit_scale {c : K} (hc : c ≠ 0) (i : Fl K) (v : List (Fl K)) :
    limitIncrement (fin c * i) (armaMin (v.map (fin c * ·))) (armaMax (v.map (fin c * ·))) = fin c * limitIncrement i (armaMin v) (armaMax v) := by
  rcases lt_or_gt_of_ne hc with h | h
  · rw [(armaMax_scale_neg h v).1, (armaMax_scale_neg h v).2, limitIncrement_scale_neg h]
  · rw [(armaMax_scale_pos h v).1, (armaMax_scale_pos h v).2, limitIncrement_scale_pos h]

theorem oiUsable_units {c : K} (hc : c ≠ 0) (e : Nat → K) (idx : List Nat) (rhos pobs pbg : List (Fl K)) :
    oiUsable idx rhos (inUnitsEach c e pobs) (inUnitsEach c e pbg) = oiUsable idx rhos pobs pbg := by
  unfold oiUsable
  simp only [vget_inUnitsEach, map_bind_eq, inUnits_isValid hc]

theorem oiRow_units [HasGeo K] [HasSqrt K] [HasExp K] {c : K} (hc : c ≠ 0) (e : Nat → K) (T : RTree K) (s : SF K) (pts : List (Point K)) (pobs pratios pbg : List (Fl K))
    (sel : List (Fl K × Nat)) (f : Fl K × Nat) :
    oiRow T s pts (inUnitsEach c e pobs) pratios (inUnitsEach c e pbg) sel f = (fun r => (fin c * r.1, r.2)) <$> oiRow T s pts pobs pratios pbg sel f := by
  unfold oiRow
  simp only [vget_inUnitsEach, map_bind_eq, bind_map_eq, inUnits_sub hc]
  rfl

theorem oiSolve_units {c : K} (hc : c ≠ 0) (A : Arma K) (sel : List (Fl K × Nat)) (rows : List (Fl K × Fl K × List (Fl K))) (extrap : Bool) :
    oiSolve A sel (rows.map fun r => (fin c * r.1, r.2)) extrap = (fun r => (fin c * r.1, r.2)) <$> oiSolve A sel rows extrap := by
  have hm : oiMatrix (rows.map fun r => (fin c * r.1, r.2)) = oiMatrix rows := by
    unfold oiMatrix
    apply List.ext_getElem
    · simp only [List.length_mapIdx, List.length_map]
    · intro i h1 h2
      simp only [List.getElem_mapIdx, List.getElem_map]
  have hd : (rows.map fun r => (fin c * r.1, r.2)).map Prod.fst = (rows.map Prod.fst).map (fin c * ·) := by
    rw [List.map_map, List.map_map]
    rfl
  unfold oiSolve
  rw [hm, hd]
  simp only [bind_map_eq, dot_scale hc, limit_scale hc]
  congr 1
  funext N
  cases extrap <;> rfl

theorem oiCell_units [HasGeo K] [HasSqrt K] [HasExp K] {c k : K} (hc : c ≠ 0) (hk : 0 < k) (d e : Nat → K) (T : RTree K) (A : Arma K) (bp : Points K)
    (background bvar : List (Fl K)) (points : Points K) (pts : List (Point K)) (pobs pratios pbg : List (Fl K)) (s : SF K) (maxPoints : Int) (extrap : Bool) (y : Nat) :
    oiCell T A bp (inUnitsEach c d background) (bvar.map (fin k * ·)) points pts (inUnitsEach c e pobs) pratios (inUnitsEach c e pbg) s maxPoints extrap y =
      (fun r => (inUnits c (d y) r.1, fin k * r.2)) <$> oiCell T A bp background bvar points pts pobs pratios pbg s maxPoints extrap y := by
  have hrow : ∀ sel, mapM (oiRow T s pts (inUnitsEach c e pobs) pratios (inUnitsEach c e pbg) sel) sel =
      List.map (fun r => (fin c * r.1, r.2)) <$> mapM (oiRow T s pts pobs pratios pbg sel) sel := by
    intro sel
    rw [← mapM_map_eq]
    congr 1
    funext f
    exact oiRow_units hc e T s pts pobs pratios pbg sel f
  unfold oiCell
  simp only [vget_inUnitsEach, vget_map, map_bind_eq, bind_map_eq, inUnits_isValid hc, oiUsable_units hc, hrow, oiSolve_units hc]
  congr 1
  funext b
  congr 1
  funext bv
  split
  · rw [bind_map_eq]
    congr 1
    funext lat
    rw [bind_map_eq]
    congr 1
    funext lon
    rw [bind_map_eq]
    congr 1
    funext p1
    rw [bind_map_eq]
    congr 1
    funext radius
    rw [bind_map_eq]
    congr 1
    funext idx
    split
    · rfl
    · rw [bind_map_eq]
      congr 1
      funext p2
      rw [bind_map_eq]
      congr 1
      funext rhos
      rw [bind_map_eq]
      congr 1
      funext u
      split
      · rfl
      · rw [bind_map_eq]
        congr 1
        funext rows
        rw [bind_map_eq]
        congr 1
        funext r
        rw [map_ok, inUnits_add hc, scale_mul hk.ne']
  · rfl

theorem mapM_mapIdx {α β : Type} (f : Nat → Res α) (g : Nat → α → β) (n m : Nat) :
    mapM (fun i => g (i - m) <$> f i) (List.range' m n) = (fun l => l.mapIdx g) <$> mapM f (List.range' m n) := by
  have key : ∀ (n m j : Nat), j ≤ m → mapM (fun i => g (i - j) <$> f i) (List.range' m n) = (fun l => l.mapIdx fun i => g (i + (m - j))) <$> mapM f (List.range' m n) := by
    intro n
    induction n with
    | zero => intro m j _; rfl
    | succ n ih =>
      intro m j hj
      rw [List.range'_succ, mapM_cons, mapM_cons, ih (m + 1) j (by omega)]
      cases f m with
      | ok a =>
        rw [map_ok, ok_bind, ok_bind]
        cases mapM f (List.range' (m + 1) n) with
        | ok l =>
          simp only [map_ok, ok_bind, List.mapIdx_cons, Nat.zero_add]
          congr 3
          funext i
          congr 1
          omega
        | _ => rfl
      | _ => rfl
  have := key n m m le_rfl
  simpa only [Nat.sub_self, Nat.add_zero] using this

/-- **C173**: `optimal_interpolation_full` for points. If the values are in other units, with an offset of its own for every output point (`d`) and for every
observation (`e`, the same for the observation and the background there), and all variances are multiplied by `k`, then the analysis is in the other units with the
offsets of the output points, the analysis variance is multiplied by `k`, and the call ends in the same way otherwise. -/
theorem c173_points_full [HasGeo K] [HasSqrt K] [HasExp K] (c k : K) (hc : c ≠ 0) (hk : 0 < k) (d e : Nat → K) (T : RTree K) (A : Arma K) (bp : Points K)
    (background bvar : List (Fl K)) (points : Points K) (pobs obsVar pbg bvarAt : List (Fl K)) (s : SF K) (maxPoints : Int) (var0 : List (Fl K)) (extrap : Bool) :
    oiFullPoints T A bp (inUnitsEach c d background) (bvar.map (fin k * ·)) points (inUnitsEach c e pobs) (obsVar.map (fin k * ·)) (inUnitsEach c e pbg)
        (bvarAt.map (fin k * ·)) s maxPoints (var0.map (fin k * ·)) extrap =
      (fun r => (inUnitsEach c d r.1, r.2.map (fin k * ·))) <$> oiFullPoints T A bp background bvar points pobs obsVar pbg bvarAt s maxPoints var0 extrap := by
  have hcells : ∀ pts pratios : _, mapM (oiCell T A bp (inUnitsEach c d background) (bvar.map (fin k * ·)) points pts (inUnitsEach c e pobs) pratios (inUnitsEach c e pbg) s
      maxPoints extrap) (List.range background.length) = (fun l => l.mapIdx fun i r => (inUnits c (d i) r.1, fin k * r.2)) <$>
      mapM (oiCell T A bp background bvar points pts pobs pratios pbg s maxPoints extrap) (List.range background.length) := by
    intro pts pratios
    rw [List.range_eq_range', ← mapM_mapIdx _ _ _ 0]
    congr 1
    funext y
    exact oiCell_units hc hk d e T A bp background bvar points pts pobs pratios pbg s maxPoints extrap y
  unfold oiFullPoints
  simp only [length_inUnitsEach, List.length_map, vget_map, map_bind_eq, scale_div hk, hcells, omp_map]
  split_ifs <;> try rfl
  rw [bind_map_eq]
  congr 1
  funext pratios
  rw [bind_map_eq]
  congr 1
  funext pts
  rw [bind_map_eq]
  congr 1
  funext cells
  rw [map_ok]
  refine congrArg ok (Prod.ext ?_ ?_) <;> apply List.ext_getElem <;>
    simp only [inUnitsEach, List.length_map, List.length_mapIdx, List.getElem_map, List.getElem_mapIdx, implies_true]

/-- **C173**: `optimal_interpolation` for points (the ratios of the variances have no unit). -/
theorem c173_points [HasGeo K] [HasSqrt K] [HasExp K] (c : K) (hc : c ≠ 0) (d e : Nat → K) (T : RTree K) (A : Arma K) (bp : Points K) (background : List (Fl K))
    (points : Points K) (pobs pratios pbg : List (Fl K)) (s : SF K) (maxPoints : Int) (extrap : Bool) :
    oiPoints T A bp (inUnitsEach c d background) points (inUnitsEach c e pobs) pratios (inUnitsEach c e pbg) s maxPoints extrap =
      inUnitsEach c d <$> oiPoints T A bp background points pobs pratios pbg s maxPoints extrap := by
  have one : ∀ l : List (Fl K), l.map (fin 1 * ·) = l := fun l => by
    conv_rhs => rw [← List.map_id l]
    refine List.map_congr_left fun v _ => ?_
    rcases scale_cases (one_ne_zero (α := K)) with ⟨-, e1, e2⟩ | ⟨h, -⟩
    · cases v <;> simp only [e1, e2, mul_nan, fin_mul, one_mul, id]
    · exact absurd h (not_lt.mpr zero_le_one)
  have := c173_points_full c 1 hc one_pos d e T A bp background (List.replicate background.length 1) points pobs pratios pbg (List.replicate pratios.length 1) s maxPoints []
    extrap
  simp only [one] at this
  unfold oiPoints
  simp only [length_inUnitsEach, this, map_bind_eq]
  split_ifs <;> first | rfl | (rw [bind_map_eq]; rfl)

theorem vget2_map {α β : Type} (f : α → β) (a : List (List α)) (y x : Int) : vget2 (a.map (List.map f)) y x = f <$> vget2 a y x := by
  unfold vget2
  rw [vget_map, map_bind_eq, bind_map_eq]
  congr 1
  funext r
  exact vget_map f r x

theorem grid2_map_eq {α β : Type} (Y X : Nat) (f : Int → Int → Res α) (g : α → β) : grid2 Y X (fun y x => g <$> f y x) = List.map (List.map g) <$> grid2 Y X f := by
  unfold grid2
  rw [← mapM_map_eq]
  simp only [mapM_map_eq]

theorem oiCheckSize_map (g : Grid K) (f : Fl K → Fl K) (background : List (List (Fl K))) : oiCheckSize g (background.map (List.map f)) = oiCheckSize g background := by
  unfold oiCheckSize
  simp only [vget_map, map_bind_eq, List.length_map]

theorem unflatten_map (f : Fl K → Fl K) (Y X : Nat) (v : List (Fl K)) : unflatten Y X (v.map f) = List.map (List.map f) <$> unflatten Y X v := by
  unfold unflatten
  simp only [vget_map, grid2_map_eq]

/-- **C173**: `optimal_interpolation_full` for grids. -/
theorem c173_grid_full [HasGeo K] [HasSqrt K] [HasExp K] (c k d : K) (hc : c ≠ 0) (hk : 0 < k) (e : Nat → K) (T : RTree K) (A : Arma K) (g : Grid K)
    (background bvar : List (List (Fl K))) (points : Points K) (pobs obsVar pbg bvarAt : List (Fl K)) (s : SF K) (maxPoints : Int) (extrap : Bool) :
    oiFullGrid T A g (background.map (List.map (inUnits c d))) (bvar.map (List.map (fin k * ·))) points (inUnitsEach c e pobs) (obsVar.map (fin k * ·)) (inUnitsEach c e pbg)
        (bvarAt.map (fin k * ·)) s maxPoints extrap =
      (fun r => (r.1.map (List.map (inUnits c d)), r.2.map (List.map (fin k * ·)))) <$>
        oiFullGrid T A g background bvar points pobs obsVar pbg bvarAt s maxPoints extrap := by
  have key := fun bp b v => c173_points_full c k hc hk (fun _ => d) e T A bp b v points pobs obsVar pbg bvarAt s maxPoints [] extrap
  simp only [inUnitsEach_const, List.map_nil] at key
  unfold oiFullGrid
  simp only [length_inUnitsEach, List.length_map, oiCheckSize_map, vget2_map, grid2_map_eq, map_bind_eq, ← List.map_flatten, key, unflatten_map]
  split_ifs <;> first | rfl | (simp only [bind_map_eq]; rfl)

/-- **C173**: `optimal_interpolation` for grids. -/
theorem c173_grid [HasGeo K] [HasSqrt K] [HasExp K] (c d : K) (hc : c ≠ 0) (e : Nat → K) (T : RTree K) (A : Arma K) (g : Grid K) (background : List (List (Fl K)))
    (points : Points K) (pobs pratios pbg : List (Fl K)) (s : SF K) (maxPoints : Int) (extrap : Bool) :
    oiGrid T A g (background.map (List.map (inUnits c d))) points (inUnitsEach c e pobs) pratios (inUnitsEach c e pbg) s maxPoints extrap =
      List.map (List.map (inUnits c d)) <$> oiGrid T A g background points pobs pratios pbg s maxPoints extrap := by
  have key := fun bp b => c173_points c hc (fun _ => d) e T A bp b points pobs pratios pbg s maxPoints extrap
  have hu : (inUnitsEach c fun _ => d) = List.map (inUnits c d) := funext fun l => inUnitsEach_const c d l
  simp only [inUnitsEach_const, hu] at key
  unfold oiGrid
  simp only [length_inUnitsEach, oiCheckSize_map, vget2_map, grid2_map_eq, map_bind_eq, ← List.map_flatten, key, unflatten_map]
  split_ifs <;> first | rfl | (simp only [bind_map_eq]; done) | (simp only [bind_map_eq]; rfl)

end

/-- Two observations in degrees Celsius and in degrees Fahrenheit; the background at the output point is 0 in both cases (its offset is 0, that of the observations
32). The analysis 60/13 becomes 108/13, 9/5 times as much. -/
example : let A := tableArma [[fin 2, fin (4 / 5)], [fin (4 / 5), fin 2]] [[fin (25 / 42), fin (-5 / 21)], [fin (-5 / 21), fin (25 / 42)]]
    lineOI A (fin 3) [fin 1, fin 2] [fin 10, fin 20] [fin 1, fin 1] [fin 0, fin 0] 0 false = ok ([fin (60 / 13)], [fin (229 / 338)]) ∧
    lineOI A (fin 3) [fin 1, fin 2] [fin 50, fin 68] [fin 1, fin 1] [fin 32, fin 32] 0 false = ok ([fin (108 / 13)], [fin (229 / 338)]) ∧
    inUnitsEach (9 / 5) (fun _ => 32) [fin 10, fin 20] = ([fin 50, fin 68] : List (Fl ℚ)) := by
  decide +kernel

end Gridpp.Props
