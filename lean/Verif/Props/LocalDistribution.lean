import Verif.Lemmas.LocalDistribution

/-! C63: `local_distribution_correction`. -/

set_option linter.unusedSectionVars false

namespace Gridpp.Props
open Fl Res Spec

section
variable {K : Type} [Field K] [LinearOrder K] [IsStrictOrderedRing K]

/-- Time `t` at point `i` is used: observation and background there are numbers, and not negative. -/
def UsedPair (pobs pbg : List (List (Fl K))) (i t : Nat) : Prop :=
  ∃ o f, cell? pobs t i = some (fin o) ∧ cell? pbg t i = some (fin f) ∧ 0 ≤ o ∧ 0 ≤ f

/-- The number in a cell. -/
def numberAt (v : List (List (Fl K))) (e : Nat × Nat) : K :=
  match cell? v e.2 e.1 with
  | some (fin o) => o
  | _ => 0

theorem ldcPair_eq (pobs pbg : List (List (Fl K))) (rho : Fl K) (i t : Nat) {o f : Fl K} (h1 : cell? pobs t i = some o)
    (h2 : cell? pbg t i = some f) :
    (UsedPair pobs pbg i t → ldcPair pobs pbg rho i t = ok (some (fin (numberAt pobs (i, t)), fin (numberAt pbg (i, t)), rho))) ∧
    (¬ UsedPair pobs pbg i t → ldcPair pobs pbg rho i t = ok none) := by
  have hu : UsedPair pobs pbg i t ↔ ∃ o' f', o = fin o' ∧ f = fin f' ∧ 0 ≤ o' ∧ 0 ≤ f' := by
    unfold UsedPair
    rw [h1, h2]
    simp only [Option.some.injEq]
  unfold ldcPair
  rw [hu, vget2_of_cell? h1, ok_bind]
  cases ho : o.isValid with
  | false =>
    constructor
    · rintro ⟨o', f', rfl, -⟩; simp at ho
    · intro _; rw [if_neg (by simp)]
  | true =>
    obtain ⟨o', rfl⟩ := exists_fin_of_valid ho
    rw [if_pos rfl, vget2_of_cell? h2, ok_bind]
    cases hf : f.isValid with
    | false =>
      constructor
      · rintro ⟨o', f', -, rfl, -⟩; simp at hf
      · intro _; rw [if_neg (by simp)]
    | true =>
      obtain ⟨f', rfl⟩ := exists_fin_of_valid hf
      rw [if_pos rfl]
      simp only [zero_def, lt_fin, ge_fin, Bool.or_eq_true, decide_eq_true_eq, fin.injEq]
      by_cases hneg : o' < 0 ∨ f' < 0
      · rw [if_pos hneg]
        refine ⟨?_, fun _ => rfl⟩
        rintro ⟨a, b, rfl, rfl, ha, hb⟩
        rcases hneg with h | h
        · exact absurd ha (not_le.mpr h)
        · exact absurd hb (not_le.mpr h)
      · rw [if_neg hneg]
        push Not at hneg
        refine ⟨fun _ => ?_, fun h => absurd ⟨o', f', rfl, rfl, hneg⟩ h⟩
        simp only [hneg.1, hneg.2, decide_true, assert_true, ok_bind, numberAt, h1, h2]

section
variable [HasGeo K] [LawfulSqrt K] [HasExp K]

theorem ldcGather_eq {T : RTree K} {points : Points K} {pobs pbg : List (List (Fl K))} {nT n : Nat} (ho : Rect nT n pobs)
    (hb : Rect nT n pbg) {s : SF K} {p1 : Point K} {g : Nat → K} (idx : List Nat) (hnd : idx.Nodup) (hlt : ∀ i ∈ idx, i < n)
    (hp : ∀ i ∈ idx, ∃ p2, points.getPoint (i : Int) = ok p2 ∧ s.corrBg T p1 p2 = ok (fin (g i))) :
    ∃ l : List (Nat × Nat), l.Nodup ∧ (∀ i t, (i, t) ∈ l ↔ i ∈ idx ∧ UsedPair pobs pbg i t) ∧
      ldcGather T points pobs pbg s p1 idx = ok (l.map fun e => (fin (numberAt pobs e), fin (numberAt pbg e), fin (g e.1))) := by
  classical
  let tri : Nat × Nat → Fl K × Fl K × Fl K := fun e => (fin (numberAt pobs e), fin (numberAt pbg e), fin (g e.1))
  let F : Nat → List (Nat × Nat) := fun i => ((List.range nT).filter fun t => decide (UsedPair pobs pbg i t)).map fun t => (i, t)
  have hrow : ∀ i ∈ idx, (do
      let p2 ← points.getPoint (i : Int)
      let rho ← s.corrBg T p1 p2
      let row ← mapM (ldcPair pobs pbg rho i) (List.range pobs.length)
      ok (row.filterMap id)) = ok ((F i).map tri) := by
    intro i hi
    obtain ⟨p2, e1, e2⟩ := hp i hi
    have hm : mapM (ldcPair pobs pbg (fin (g i)) i) (List.range pobs.length) =
        ok ((List.range nT).map fun t => if UsedPair pobs pbg i t then some (tri (i, t)) else none) := by
      rw [ho.1]
      apply mapM_ok
      intro t ht
      have ht := List.mem_range.mp ht
      obtain ⟨o, h1, -⟩ := vget2_of_rect ho ht (hlt i hi)
      obtain ⟨f, h2, -⟩ := vget2_of_rect hb ht (hlt i hi)
      have := ldcPair_eq pobs pbg (fin (g i)) i t h1 h2
      by_cases hu : UsedPair pobs pbg i t
      · rw [this.1 hu, if_pos hu]
      · rw [this.2 hu, if_neg hu]
    rw [e1, ok_bind, e2, ok_bind, hm, ok_bind]
    congr 1
    simp only [F, List.map_map]
    induction List.range nT with
    | nil => rfl
    | cons t r ih =>
      by_cases hu : UsedPair pobs pbg i t
      · rw [List.map_cons, if_pos hu, List.filterMap_cons_some (f := id) rfl, List.filter_cons_of_pos (by simpa using hu), List.map_cons, ih]
        rfl
      · rw [List.map_cons, if_neg hu, List.filterMap_cons_none (f := id) rfl, List.filter_cons_of_neg (by simpa using hu), ih]
  refine ⟨idx.flatMap F, ?_, ?_, ?_⟩
  · rw [List.nodup_flatMap]
    constructor
    · intro i _
      refine (List.nodup_range.filter _).map ?_
      intro a b hab
      exact (Prod.mk.inj hab).2
    · refine hnd.imp ?_
      intro a b hab
      rw [Function.onFun, List.disjoint_left]
      intro e h1 h2
      obtain ⟨t, -, rfl⟩ := List.mem_map.mp h1
      obtain ⟨t', -, h⟩ := List.mem_map.mp h2
      exact hab (Prod.mk.inj h).1.symm
  · intro i t
    rw [List.mem_flatMap]
    constructor
    · rintro ⟨j, hj, hm⟩
      obtain ⟨t', ht', h⟩ := List.mem_map.mp hm
      obtain ⟨rfl, rfl⟩ := Prod.mk.inj h
      exact ⟨hj, by simpa using (List.mem_filter.mp ht').2⟩
    · rintro ⟨hi, hu⟩
      have ht : t < nT := by
        obtain ⟨o, f, h, -⟩ := hu
        exact (cell?_lt ho h).1
      exact ⟨i, hi, List.mem_map.mpr ⟨t, List.mem_filter.mpr ⟨List.mem_range.mpr ht, by simpa using hu⟩, rfl⟩⟩
  · unfold ldcGather
    rw [mapM_ok hrow, ok_bind]
    congr 1
    rw [← List.flatMap_def, List.map_flatMap]

/-- The structure function gives numbers: the localization distance `L c` at grid cell `c`, the (background) correlation
`G c i` of grid cell `c` and point `i`. -/
structure CellCorrelations (T : RTree K) (s : SF K) (g : Grid K) (points : Points K) (L : Nat × Nat → Fl K) (G : Nat × Nat → Nat → K) :
    Prop where
  radius : ∀ (c : Nat × Nat) p, g.getPoint (c.1 : Int) (c.2 : Int) = ok p → s.locDist T p = ok (L c)
  cell : ∀ (c : Nat × Nat) p (i : Nat) p2, g.getPoint (c.1 : Int) (c.2 : Int) = ok p → points.getPoint (i : Int) = ok p2 →
    s.corrBg T p p2 = ok (fin (G c i))

/-- Point `i` lies within the localization distance of grid cell `c`. -/
def NearPoint (lats lons : List (List (Fl K))) (points : Points K) (L : Nat × Nat → Fl K) (c : Nat × Nat) (i : Nat) : Prop :=
  ∃ p q, CellAt lats lons points.type c p ∧ Located points.lats points.lons points.type i q ∧ Within p q (L c)

/-- What happens to background value `b` of cell `c`. -/
def CellResult [FloorRing K] (lats lons : List (List (Fl K))) (points : Points K) (pobs pbg : List (List (Fl K))) (L : Nat × Nat → Fl K)
    (G : Nat × Nat → Nat → K) (mn mx : K) (minPoints : Int) (c : Nat × Nat) (b v : Fl K) : Prop :=
  (b.isValid = false → v = b) ∧
  ∀ b0, b = fin b0 → ∃ l : List (Nat × Nat), l.Nodup ∧ (∀ i t, (i, t) ∈ l ↔ NearPoint lats lons points L c i ∧ UsedPair pobs pbg i t) ∧
    ∃ obs fc : Nat × Nat → K, (∀ e ∈ l, cell? pobs e.2 e.1 = some (fin (obs e)) ∧ cell? pbg e.2 e.1 = some (fin (fc e))) ∧
      ∃ v0, v = fin v0 ∧ IsCorrected (l.map fun e => (obs e, G c e.1)) (l.map fun e => (fc e, G c e.1)) mn mx minPoints b0 v0

theorem ldcCell_spec [FloorRing K] {T : RTree K} (hT : T.Lawful) {A : Arma K} (hA : A.Lawful) {g : Grid K} {Y X : Nat}
    {lats lons : List (List (Fl K))} {type : CoordType} (hg : BuiltGrid g Y X lats lons type) {points : Points K} (hw : points.WF)
    (hv : GridValidIn points.type lats lons) {background : List (List (Fl K))} (hb : Rect Y X background)
    {nT : Nat} {pobs pbg : List (List (Fl K))} (ho : Rect nT points.size pobs) (hf : Rect nT points.size pbg)
    {s : SF K} {L : Nat × Nat → Fl K} {G : Nat × Nat → Nat → K} (hc : CellCorrelations T s g points L G)
    (hpos : ∀ c i, NearPoint lats lons points L c i → 0 < G c i) {mn mx : K} (h0 : 0 ≤ mn) (h1 : mn ≤ mx) (h2 : mx ≤ 1)
    (minPoints : Int) {y x : Nat} (hy : y < Y) (hx : x < X) :
    ∃ b v, cell? background y x = some b ∧
      ldcCell T A g background points pobs pbg s (fin mn) (fin mx) minPoints (y : Int) (x : Int) = ok v ∧
      CellResult lats lons points pobs pbg L G mn mx minPoints (y, x) b v := by
  obtain ⟨b, hb1, hb2⟩ := vget2_of_rect hb hy hx
  obtain ⟨hwg, e1, e2, e3⟩ := hg.wf
  obtain ⟨la, hla, hla'⟩ := vget2_of_rect hwg.lats hy hx
  obtain ⟨lo, hlo, hlo'⟩ := vget2_of_rect hwg.lons hy hx
  rw [e1] at hla
  rw [e2] at hlo
  obtain ⟨p1, hp1⟩ : ∃ p1, g.getPoint (y : Int) (x : Int) = ok p1 := by
    obtain ⟨k1, k2, k3, k4, el, lf, k5, k6, k7⟩ := hg
    obtain ⟨p, q, hp, -⟩ := c15_get_point Y X k1 k2 lats lons el lf type g k3 k4 k5 k6 k7 y x hy hx
    exact ⟨p, hp⟩
  obtain ⟨q1, hq1⟩ := hv y x la lo hla hlo
  obtain ⟨idx, hidx, hnd, hmem⟩ := tree_within hT hw.tree hq1 (L (y, x))
  rw [hw.tlats, hw.tlons] at hmem
  have hidx' : points.getNeighbours T la lo (L (y, x)) true = ok idx := hidx
  have hnear : ∀ i, NearPoint lats lons points L (y, x) i ↔ i ∈ idx := by
    intro i
    rw [hmem]
    constructor
    · rintro ⟨p, q, ⟨la', lo', c1, c2, c3⟩, c4, c5⟩
      have : p = q1 := by
        have h1 : la' = la := by rw [hla] at c1; exact (Option.some.inj c1).symm
        have h2 : lo' = lo := by rw [hlo] at c2; exact (Option.some.inj c2).symm
        rw [h1, h2, hq1] at c3
        exact (Res.ok.inj c3).symm
      subst this
      exact ⟨q, c4, c5⟩
    · rintro ⟨q, c4, c5⟩
      exact ⟨q1, q, ⟨la, lo, hla, hlo, hq1⟩, c4, c5⟩
  have hlt : ∀ i ∈ idx, i < points.size := fun i hi => by
    obtain ⟨q, hq, -⟩ := (hmem i).mp hi
    exact hq.lt
  obtain ⟨l, l1, l2, l3⟩ := ldcGather_eq (T := T) (points := points) (s := s) (p1 := p1) (g := G (y, x)) ho hf idx hnd hlt (fun i hi => by
    obtain ⟨p2, -, hp2, -⟩ := hw.point (hlt i hi)
    exact ⟨p2, hp2, hc.cell (y, x) p1 i p2 hp1 hp2⟩)
  have hused : ∀ e ∈ l, ∃ o f, cell? pobs e.2 e.1 = some (fin o) ∧ cell? pbg e.2 e.1 = some (fin f) ∧ 0 ≤ o ∧ 0 ≤ f ∧
      numberAt pobs e = o ∧ numberAt pbg e = f ∧ 0 < G (y, x) e.1 := by
    intro e he
    obtain ⟨hi, o, f, c1, c2, c3, c4⟩ := (l2 e.1 e.2).mp he
    exact ⟨o, f, c1, c2, c3, c4, by simp [numberAt, c1], by simp [numberAt, c2], hpos _ _ ((hnear e.1).mpr hi)⟩
  cases hval : b.isValid with
  | false =>
    refine ⟨b, b, hb1, ?_, fun _ => rfl, fun b0 h => by rw [h] at hval; simp at hval⟩
    unfold ldcCell
    rw [hb2, ok_bind, if_neg (by rw [hval]; simp)]
  | true =>
    obtain ⟨b0, rfl⟩ := exists_fin_of_valid hval
    have hstep : ldcCell T A g background points pobs pbg s (fin mn) (fin mx) minPoints (y : Int) (x : Int) =
        (if minPoints ≤ (l.length : Int) then do
          let ref ← ldcTrim A ((l.map fun e => (numberAt pobs e, G (y, x) e.1)).map fun e => fin e.1)
            ((l.map fun e => (numberAt pobs e, G (y, x) e.1)).map fun e => fin e.2) (fin mn) (fin mx)
          let fcst ← ldcTrim A ((l.map fun e => (numberAt pbg e, G (y, x) e.1)).map fun e => fin e.1)
            ((l.map fun e => (numberAt pbg e, G (y, x) e.1)).map fun e => fin e.2) (fin mn) (fin mx)
          Res.assert (decide (ref.length = fcst.length))
          ldcValue (fin b0) (fin ((l.map fun e => (numberAt pobs e, G (y, x) e.1)).map Prod.snd).sum) (0 :: ref.map Prod.fst)
            (ldcQuantiles (ref.map Prod.snd) (fin mn) (fin mx)) (0 :: fcst.map Prod.fst) (ldcQuantiles (fcst.map Prod.snd) (fin mn) (fin mx))
        else ok (fin b0)) := by
      have hsum : ((l.map fun e => (fin (numberAt pobs e), fin (numberAt pbg e), fin (G (y, x) e.1))).map fun e => e.2.2).foldl (· + ·) 0 =
          fin ((l.map fun e => (numberAt pobs e, G (y, x) e.1)).map Prod.snd).sum := by
        have : ((l.map fun e => (fin (numberAt pobs e), fin (numberAt pbg e), fin (G (y, x) e.1))).map fun e => e.2.2) =
            ((l.map fun e => (numberAt pobs e, G (y, x) e.1)).map Prod.snd).map fin := by simp [List.map_map, Function.comp_def]
        rw [this, zero_def, foldl_add_fin, zero_add]
      unfold ldcCell
      rw [hb2, ok_bind, if_pos (by rfl), hla', ok_bind, hlo', ok_bind, hp1, ok_bind, hc.radius (y, x) p1 hp1, ok_bind, hidx', ok_bind, l3, ok_bind]
      rw [List.length_map]
      simp only [hsum]
      simp only [List.map_map, Function.comp_def]
    have hobs : ∀ e ∈ l, cell? pobs e.2 e.1 = some (fin (numberAt pobs e)) ∧ cell? pbg e.2 e.1 = some (fin (numberAt pbg e)) := by
      intro e he
      obtain ⟨o, f, c1, c2, -, -, c5, c6, -⟩ := hused e he
      rw [c5, c6]
      exact ⟨c1, c2⟩
    have hl2 : ∀ i t, (i, t) ∈ l ↔ NearPoint lats lons points L (y, x) i ∧ UsedPair pobs pbg i t := by
      intro i t; rw [l2, hnear]
    by_cases hm : minPoints ≤ (l.length : Int)
    · obtain ⟨ko, t1, t2, t3⟩ := ldcTrim_eq hA (l.map fun e => (numberAt pobs e, G (y, x) e.1)) h0 h1 h2
      obtain ⟨kf, u1, u2, u3⟩ := ldcTrim_eq hA (l.map fun e => (numberAt pbg e, G (y, x) e.1)) h0 h1 h2
      have wo : ∀ e ∈ ko, 0 ≤ e.1 ∧ 0 < e.2 := by
        intro e he
        obtain ⟨e', he', rfl⟩ := List.mem_map.mp (t2.subset e he)
        obtain ⟨o, f, -, -, c3, -, c5, -, c7⟩ := hused e' he'
        exact ⟨by rw [c5]; exact c3, c7⟩
      have wf : ∀ e ∈ kf, 0 ≤ e.1 ∧ 0 < e.2 := by
        intro e he
        obtain ⟨e', he', rfl⟩ := List.mem_map.mp (u2.subset e he)
        obtain ⟨o, f, -, -, -, c4, -, c6, c7⟩ := hused e' he'
        exact ⟨by rw [c6]; exact c4, c7⟩
      obtain ⟨v, v1, v2, v3, v4, v5⟩ := ldcValue_spec b0 ko kf (S := ((l.map fun e => (numberAt pobs e, G (y, x) e.1)).map Prod.snd).sum)
        h0 h1 t2.sorted u2.sorted (fun e he => (wo e he).1) (fun e he => (wf e he).1) (fun e he => (wo e he).2) (fun e he => (wf e he).2)
      refine ⟨fin b0, fin v, hb1, ?_, fun h => by simp at h, ?_⟩
      · rw [hstep, if_pos hm, t1, ok_bind, u1, ok_bind]
        have hlen : ko.length = kf.length := by rw [t3, u3]; simp
        simp only [List.length_map, hlen, decide_true, assert_true, ok_bind, List.map_map, Function.comp_def, zero_def]
        simpa only [List.map_map, Function.comp_def] using v1
      · intro b1 hb1'
        cases hb1'
        refine ⟨l, l1, hl2, numberAt pobs, numberAt pbg, hobs, v, rfl, ?_, fun _ => ⟨ko, kf, t2, u2, v2, v3, v4, v5⟩⟩
        intro h
        rw [List.length_map] at h
        omega
    · refine ⟨fin b0, fin b0, hb1, ?_, fun h => by simp at h, ?_⟩
      · rw [hstep, if_neg hm]
      · intro b1 hb1'
        cases hb1'
        refine ⟨l, l1, hl2, numberAt pobs, numberAt pbg, hobs, b0, rfl, fun _ => rfl, fun h => ?_⟩
        rw [List.length_map] at h
        exact absurd h hm

/-- C63, for quantile limits 0 ≤ min ≤ max ≤ 1, fields of the right sizes and positive correlations: no invalid range is
formed, missing cells and cells with too few observations keep their value, and the others are as in `Spec.IsCorrected`. -/
theorem c63_correction_partial [FloorRing K] {T : RTree K} (hT : T.Lawful) {A : Arma K} (hA : A.Lawful) {g : Grid K} {Y X : Nat}
    {lats lons : List (List (Fl K))} {type : CoordType} (hg : BuiltGrid g Y X lats lons type) {points : Points K} (hw : points.WF)
    (hv : GridValidIn points.type lats lons) {background : List (List (Fl K))} (hb : Rect Y X background)
    {nT : Nat} {pobs pbg : List (List (Fl K))} (ho : Rect nT points.size pobs) (hf : Rect nT points.size pbg)
    {s : SF K} {L : Nat × Nat → Fl K} {G : Nat × Nat → Nat → K} (hc : CellCorrelations T s g points L G)
    (hpos : ∀ c i, NearPoint lats lons points L c i → 0 < G c i) {mn mx : K} (h0 : 0 ≤ mn) (h1 : mn ≤ mx) (h2 : mx ≤ 1)
    (minPoints : Int) :
    ∃ out, localDistributionCorrection T A g background points pobs pbg s (fin mn) (fin mx) minPoints = ok out ∧ Rect Y X out ∧
      ∀ y < Y, ∀ x < X, ∃ b v, cell? background y x = some b ∧ cell? out y x = some v ∧
        CellResult lats lons points pobs pbg L G mn mx minPoints (y, x) b v := by
  have hY : 0 < Y := hg.1
  obtain ⟨out, o1, o2, o3⟩ := grid2_exists (f := ldcCell T A g background points pobs pbg s (fin mn) (fin mx) minPoints)
    (P := fun y x v => ∃ b, cell? background y x = some b ∧ CellResult lats lons points pobs pbg L G mn mx minPoints (y, x) b v)
    (fun y hy x hx => by
      obtain ⟨b, v, a1, a2, a3⟩ := ldcCell_spec hT hA hg hw hv hb ho hf hc hpos h0 h1 h2 minPoints hy hx
      exact ⟨v, a2, b, a1, a3⟩)
  refine ⟨out, ?_, o2, fun y hy x hx => ?_⟩
  · unfold localDistributionCorrection
    have hlen : 0 < background.length := by rw [hb.1]; exact hY
    have h0' : vget background 0 = ok background[0] := vget_eq_ok_of_lt (n := 0) hlen
    rw [h0', ok_bind, if_neg (by rw [ho.1, hf.1]; simp), hb.1]
    have hrow : background[0].length = X := hb.2 _ (List.getElem_mem _)
    rw [hrow, o1]
    rfl
  · obtain ⟨v, a1, -, b, a2, a3⟩ := o3 y hy x hx
    exact ⟨b, v, a2, a1, a3⟩

/-- C63: the version with one time is the version with several times on one time. -/
theorem c63_one_time [FloorRing K] (T : RTree K) (A : Arma K) (g : Grid K) (background : List (List (Fl K))) (points : Points K)
    (pobs pbg : List (Fl K)) (s : SF K) (mn mx : Fl K) (minPoints : Int) :
    localDistributionCorrection1 T A g background points pobs pbg s mn mx minPoints =
      localDistributionCorrection T A g background points [pobs] [pbg] s mn mx minPoints := rfl

/-- C63: different numbers of times are reported, provided that neither is 0 and the background is not empty. -/
theorem c63_throws [FloorRing K] (T : RTree K) (A : Arma K) (g : Grid K) (background : List (List (Fl K))) (points : Points K)
    (pobs pbg : List (List (Fl K))) (s : SF K) (mn mx : Fl K) (minPoints : Int) (h : pobs.length ≠ pbg.length) (hb : background ≠ []) :
    localDistributionCorrection T A g background points pobs pbg s mn mx minPoints =
      if pobs = [] ∨ pbg = [] then ub else .throw .invalidArgument := by
  unfold localDistributionCorrection
  obtain ⟨r, bs, rfl⟩ := List.exists_cons_of_ne_nil hb
  rw [vget_zero_cons, ok_bind, if_pos h]
  cases pobs with
  | nil => rfl
  | cons o os =>
    cases pbg with
    | nil => simp [vget_zero_cons]
    | cons f fs => simp [vget_zero_cons]

end
end

section
variable {K : Type} [Field K] [LinearOrder K] [IsStrictOrderedRing K] [HasGeo K] [LawfulSqrt K] [LawfulExp K]

/-- The correlations exist for constructed grids and points, if the structure function has its scales at the cells. -/
theorem c63_correlations (T : RTree K) (s : SF K) {g : Grid K} {points : Points K} {Y X : Nat} {lats lons : List (List (Fl K))}
    {type : CoordType} (hg : BuiltGrid g Y X lats lons type) (hw : points.WF)
    (h : ∀ (c : Nat × Nat) p, g.getPoint (c.1 : Int) (c.2 : Int) = ok p → Regular T s p) : ∃ L G, CellCorrelations T s g points L G := by
  classical
  have lt : ∀ (c : Nat × Nat) p, g.getPoint (c.1 : Int) (c.2 : Int) = ok p → ∃ q, Spec.LiesAt p q := by
    intro c p hp
    obtain ⟨hw, -⟩ := hg.wf
    have hp' := hp
    unfold Grid.getPoint at hp'
    obtain ⟨la, hla, -⟩ := bind_eq_ok.mp hp'
    unfold vget2 at hla
    obtain ⟨row, h1, h2⟩ := bind_eq_ok.mp hla
    have h1 := vget_nat_eq_ok.mp h1
    have h2 := vget_nat_eq_ok.mp h2
    have hcell : cell? g.lats c.1 c.2 = some la := by unfold cell?; rw [h1, Option.bind_some, h2]
    obtain ⟨hy, hx⟩ := cell?_lt hw.lats hcell
    obtain ⟨k1, k2, k3, k4, el, lf, k5, k6, k7⟩ := hg
    obtain ⟨p', q, e, -, -, -, -, -, -, hq⟩ := c15_get_point Y X k1 k2 lats lons el lf type g k3 k4 k5 k6 k7 c.1 c.2 hy hx
    rw [hp] at e; cases e
    exact ⟨q, hq⟩
  have lp : ∀ (i : Nat) p, points.getPoint (i : Int) = ok p → ∃ q, Spec.LiesAt p q := by
    intro i p hp
    have hi : i < points.size := by
      have h := hp
      unfold Points.getPoint at h
      obtain ⟨la, h, -⟩ := bind_eq_ok.mp h
      exact (List.getElem?_eq_some_iff.mp (vget_nat_eq_ok.mp h)).1
    obtain ⟨p', q, e, -, -, -, -, -, -, -, hq⟩ := hw.point hi
    rw [hp] at e; cases e
    exact ⟨q, hq⟩
  have hL : ∀ c : Nat × Nat, ∃ l, ∀ p, g.getPoint (c.1 : Int) (c.2 : Int) = ok p → s.locDist T p = ok l := by
    intro c
    by_cases hx : ∃ p, g.getPoint (c.1 : Int) (c.2 : Int) = ok p
    · obtain ⟨p, hp⟩ := hx
      obtain ⟨l, hl⟩ := (h c p hp).locDist
      exact ⟨l, fun p' hp' => by rw [hp] at hp'; cases hp'; exact hl⟩
    · exact ⟨nan, fun p hp => absurd ⟨p, hp⟩ hx⟩
  have hG : ∀ (c : Nat × Nat) (i : Nat), ∃ r, ∀ p q, g.getPoint (c.1 : Int) (c.2 : Int) = ok p → points.getPoint (i : Int) = ok q →
      s.corrBg T p q = ok (fin r) := by
    intro c i
    by_cases hx : ∃ p, g.getPoint (c.1 : Int) (c.2 : Int) = ok p
    · by_cases hy : ∃ q, points.getPoint (i : Int) = ok q
      · obtain ⟨p, hp⟩ := hx
        obtain ⟨q, hq⟩ := hy
        obtain ⟨r, hr, -⟩ := c57_background_partial T s p (h c p hp) (lt c p hp)
        refine ⟨r q, fun p' q' hp' hq' => ?_⟩
        rw [hp] at hp'; cases hp'
        rw [hq] at hq'; cases hq'
        exact hr q (lp i q hq)
      · exact ⟨0, fun p q _ hq => absurd ⟨q, hq⟩ hy⟩
    · exact ⟨0, fun p q hp _ => absurd ⟨p, hp⟩ hx⟩
  choose L hL using hL
  choose G hG using hG
  exact ⟨L, G, hL, fun c p i q hp hq => hG c i p q hp hq⟩

end

/-! ## Concrete cases -/

section examples

/-- One cell with background `b`, one point at distance 1, the given structure function. -/
def oneCellLdc (s : SF ℚ) (b : Fl ℚ) (obs fc : List (List (Fl ℚ))) (mn mx : Fl ℚ) (minPoints : Int) : Res (List (List (Fl ℚ))) := do
  let g ← Grid.new [[fin 0]] [[fin 0]] [] [] .cartesian
  let points ← Points.new [fin 0] [fin 1] [] [] .cartesian
  localDistributionCorrection RTree.scan ⟨fun _ => ub, id⟩ g [[b]] points obs fc s mn mx minPoints

def cress : SF ℚ := .cressman (fin 5) (fin 0) (fin 0)

-- too few observations, missing background, no rain, and the four cases with observations
example : oneCellLdc cress (fin 3) [[fin 4]] [[fin 6]] (fin 0) (fin 1) 2 = ok [[fin 3]] := by decide +kernel
example : oneCellLdc cress nan [[fin 4]] [[fin 6]] (fin 0) (fin 1) 1 = ok [[nan]] := by decide +kernel
example : oneCellLdc cress (fin (1 / 200)) [[fin 4]] [[fin 6]] (fin 0) (fin 1) 1 = ok [[fin 0]] := by decide +kernel
example : oneCellLdc cress (fin 5) [[fin 0]] [[fin 2]] (fin 0) (fin 1) 1 = ok [[fin 0]] := by decide +kernel
example : oneCellLdc cress (fin 7) [[fin 0]] [[fin 2]] (fin 0) (fin 1) 1 = ok [[fin 7]] := by decide +kernel

/-- **C63** (clamping) is false: the corrected value is 10, the only observation 1. -/
theorem c63_not_clamped : oneCellLdc cress (fin 10) [[fin 1]] [[fin 1]] (fin 0) (fin 1) 1 = ok [[fin 10]] := by decide +kernel

/-- **C63** (iterator ranges) is false for a lower limit above the upper limit, and for limits outside [0, 1]. -/
theorem c63_range_reversed : oneCellLdc cress (fin 3) [[fin 4]] [[fin 6]] (fin 1) (fin 0) 1 = ub := by decide +kernel
theorem c63_range_above : oneCellLdc cress (fin 3) [[fin 4]] [[fin 6]] (fin 0) (fin 2) 1 = ub := by decide +kernel

/-- **C63** (keeping the background) is false: with cross validation the only observation has correlation 0, and the
background value 3 becomes missing. -/
theorem c63_value_lost : oneCellLdc (.crossval cress (fin 2)) (fin 3) [[fin 4]] [[fin 6]] (fin 0) (fin 1) 1 = ok [[nan]] := by
  decide +kernel

/-- An empty background is read outside. -/
theorem c63_empty_background (T : RTree ℚ) (A : Arma ℚ) (g : Grid ℚ) (points : Points ℚ) (pobs pbg : List (List (Fl ℚ))) (s : SF ℚ)
    (mn mx : Fl ℚ) (minPoints : Int) : localDistributionCorrection T A g [] points pobs pbg s mn mx minPoints = ub := rfl

/-- Values for fewer points than there are: the sizes are not checked. -/
theorem c63_unchecked : oneCellLdc cress (fin 3) [[]] [[]] (fin 0) (fin 1) 1 = ub := by decide +kernel

/-- The assumptions of `c63_correction_partial` are met. -/
example : ∃ (g : Grid ℝ) (points : Points ℝ) (L : Nat × Nat → Fl ℝ) (G : Nat × Nat → Nat → ℝ),
    BuiltGrid g 1 1 [[fin 0]] [[fin 0]] .cartesian ∧ points.WF ∧ points.size = 1 ∧ GridValidIn points.type [[fin (0 : ℝ)]] [[fin 0]] ∧
    CellCorrelations RTree.scan (.cressman (fin 5) (fin 0) (fin 0)) g points L G ∧
    (∀ c i, NearPoint [[fin 0]] [[fin 0]] points L c i → 0 < G c i) ∧ NearPoint [[fin 0]] [[fin 0]] points L (0, 0) 0 := by
  obtain ⟨g, hg⟩ : ∃ g : Grid ℝ, Grid.new [[fin 0]] [[fin 0]] [] [] .cartesian = ok g := ⟨_, by with_unfolding_all rfl⟩
  let P : Points ℝ := ⟨[fin 0], [fin 1], [nan], [nan], ⟨[fin 0], [fin 1], [⟨1, 0, 0⟩], .cartesian⟩⟩
  have hpoints : Points.new [fin (0 : ℝ)] [fin 1] [] [] .cartesian = ok P := by with_unfolding_all rfl
  have w2 := BuiltPoints.pointsWF ⟨_, _, hpoints⟩
  have ho : BuiltGrid g 1 1 [[fin 0]] [[fin 0]] .cartesian :=
    ⟨by norm_num, by norm_num, by simp [Rect], by simp [Rect], _, _, Or.inl rfl, Or.inl rfl, hg⟩
  obtain ⟨L, G, hLG⟩ := c63_correlations RTree.scan (.cressman (fin 5) (fin 0) (fin 0)) ho w2 (fun _ _ _ => trivial)
  obtain ⟨p, hp, px, py, pz, pe, pl⟩ : ∃ p, g.getPoint ((0, 0) : Nat × Nat).1 ((0, 0) : Nat × Nat).2 = ok p ∧ p.x = fin 0 ∧ p.y = fin 0 ∧ p.z = fin 0 ∧
      p.elev = nan ∧ p.laf = nan := by
    have : g = ⟨[[fin 0]], [[fin 0]], [[nan]], [[nan]], 1, ⟨[fin 0], [fin 0], [⟨0, 0, 0⟩], .cartesian⟩⟩ := by
      have : Grid.new [[fin (0 : ℝ)]] [[fin 0]] [] [] .cartesian =
        ok ⟨[[fin 0]], [[fin 0]], [[nan]], [[nan]], 1, ⟨[fin 0], [fin 0], [⟨0, 0, 0⟩], .cartesian⟩⟩ := by with_unfolding_all rfl
      rw [hg] at this
      exact Res.ok.inj this
    rw [this]
    exact ⟨_, rfl, rfl, rfl, rfl, rfl, rfl⟩
  have hL : L (0, 0) = fin 5 := by
    have := hLG.radius (0, 0) p hp
    simpa [SF.locDist] using this.symm
  have hq : P.getPoint ((0 : Nat) : Int) = ok ⟨fin 0, fin 1, nan, nan, .cartesian, fin 1, fin 0, fin 0⟩ := rfl
  have hG : 0 < G (0, 0) 0 := by
    have h1 := hLG.cell (0, 0) p 0 _ hp hq
    simp only [SF.corrBg, SF.corr] at h1
    have h1 := Res.ok.inj h1
    simp [cressmanCorr, pe, pl, cressmanRho, Point.distance, px, py, pz] at h1
    have h2 : (HasSqrt.sqrt (1 : ℝ)) = 1 := Real.sqrt_one
    rw [h2, if_neg (by norm_num), fin_div_of_ne _ (by norm_num)] at h1
    have h1 := Fl.fin.inj h1
    rw [← h1]
    norm_num
  refine ⟨g, P, L, G, ho, w2, rfl, ho.validIn, hLG, ?_, ?_⟩
  · rintro ⟨y, x⟩ i ⟨p', q', ⟨la, lo, c1, c2, -⟩, c4, -⟩
    have hy := cell?_lt (Y := 1) (X := 1) (by simp [Rect]) c1
    have hi := c4.lt
    simp [P] at hi hy
    obtain ⟨rfl, rfl⟩ := hy
    subst hi
    exact hG
  · refine ⟨⟨0, 0, 0⟩, ⟨1, 0, 0⟩, ⟨fin 0, fin 0, rfl, rfl, ?_⟩, ⟨fin 0, fin 1, rfl, rfl, ?_⟩, ?_⟩
    · with_unfolding_all rfl
    · with_unfolding_all rfl
    · rw [hL]
      refine ⟨?_, ?_⟩
      · unfold straightDistance sqDist
        show Real.sqrt _ ≤ 5
        norm_num
      · unfold OnAxis
        norm_num

end examples
end Gridpp.Props
