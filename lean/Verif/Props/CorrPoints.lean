import Verif.Model.CorrPoints
import Verif.Lemmas.Fill
import Verif.Props.OICases

/-! C69: `staticcorr_points`. -/

set_option linter.unusedSectionVars false

namespace Gridpp.Props
open Fl Res

section
variable {K : Type} [Field K] [LinearOrder K] [IsStrictOrderedRing K]

theorem positiveRhos_eq (idx : List Nat) (rho : Nat → K) :
    positiveRhos idx (idx.map fun i => fin (rho i)) = ok (rhoPairs rho (idx.filter fun i => decide (0 < rho i))) := by
  unfold positiveRhos
  rw [mapM_range_list idx _ (fun i => if 0 < rho i then some (fin (rho i), i) else none), ok_bind]
  · congr 1
    induction idx with
    | nil => rfl
    | cons a t ih =>
      by_cases h : 0 < rho a
      · rw [List.map_cons, if_pos h, List.filterMap_cons_some (f := id) rfl, List.filter_cons_of_pos (by simpa using h), ih]
        rfl
      · rw [List.map_cons, if_neg h, List.filterMap_cons_none (f := id) rfl, List.filter_cons_of_neg (by simpa using h), ih]
  · intro k hk
    have hr : (idx.map fun i => fin (rho i))[k]? = some (fin (rho idx[k])) := by simp [hk]
    rw [vget_some (List.getElem?_eq_getElem hk), ok_bind, vget_some hr, ok_bind, zero_def]
    simp only [gt_fin, decide_eq_true_eq]

theorem foldM_vset (rho : Nat → K) (r : List Nat) (row : List (Fl K)) (h : ∀ i ∈ r, i < row.length) :
    ∃ out, foldM (fun (row : List (Fl K)) (e : Fl K × Nat) => vset row (e.2 : Int) e.1) row (rhoPairs rho r) = ok out ∧ out.length = row.length ∧
      ∀ i, out[i]? = if i ∈ r then some (fin (rho i)) else row[i]? := by
  induction r generalizing row with
  | nil => exact ⟨row, rfl, rfl, by simp⟩
  | cons a t ih =>
    obtain ⟨out, h1, h2, h3⟩ := ih (row.set a (fin (rho a))) (fun i hi => by simpa using h i (List.mem_cons_of_mem _ hi))
    refine ⟨out, ?_, by simpa using h2, fun i => ?_⟩
    · show foldM _ _ ((fin (rho a), a) :: rhoPairs rho t) = _
      rw [foldM_cons, vset_nat _ (h a (by simp)), ok_bind, h1]
    · rw [h3 i]
      by_cases hi : i ∈ t
      · simp [hi]
      · rw [if_neg hi, List.getElem?_set]
        by_cases ha : a = i
        · subst ha
          simp [h a (by simp)]
        · rw [if_neg ha, if_neg]
          simp only [List.mem_cons, not_or]
          exact ⟨fun c => ha c.symm, hi⟩

end

section
variable {K : Type} [Field K] [LinearOrder K] [IsStrictOrderedRing K] [HasGeo K] [LawfulSqrt K] [HasExp K]

/-- Knot `i` lies within `L` of point `y`, and its correlation is positive. -/
def NearPositive (points knots : Points K) (L : Fl K) (g : Nat → K) (y i : Nat) : Prop :=
  (∃ p q, Located points.lats points.lons points.type y p ∧ Located knots.lats knots.lons knots.type i q ∧ Within p q L) ∧ 0 < g i

/-- C69: row `y` holds the correlation `G y i` at the selected knots and 0 elsewhere. The selected knots are different, lie
within the localization radius, have positive correlation, are at most `max_points` (unless that is 0), and whatever other such
knot is left out, is left out because there are `max_points` at least as well correlated ones. -/
theorem c69_staticcorr {T : RTree K} (hT : T.Lawful) {A : Arma K} (hA : A.Lawful) {points knots : Points K} (hpw : points.WF)
    (hw : knots.WF) (htype : points.type = knots.type) {s : SF K} {L : Nat → Fl K} {G P : Nat → Nat → K}
    (hc : Correlations T s points knots L G P) {maxPoints : Int} (hm : 0 ≤ maxPoints) :
    ∃ out, staticcorrPoints T A points knots s maxPoints = ok out ∧ Rect points.size knots.size out ∧
      ∀ y, y < points.size → ∃ (n : Nat) (sel : Fin n → Nat),
        Spec.Selection (NearPositive points knots (L y) (G y) y) (G y) maxPoints.toNat sel ∧
        ∀ i, i < knots.size →
          ((∃ a, sel a = i) → cell? out y i = some (fin (G y i))) ∧ ((¬ ∃ a, sel a = i) → cell? out y i = some (fin 0)) := by
  obtain ⟨pts, hpts⟩ : ∃ pts, mapM (fun i : Nat => knots.getPoint (i : Int)) (List.range knots.size) = ok pts :=
    mapM_exists _ fun i hi => by
      obtain ⟨p, -, hp, -⟩ := hw.point (List.mem_range.mp hi)
      exact ⟨p, hp⟩
  have hrow : ∀ y, y < points.size → ∃ row, staticcorrRow T A points knots pts s maxPoints y = ok row ∧ row.length = knots.size ∧
      ∃ (n : Nat) (sel : Fin n → Nat), Spec.Selection (NearPositive points knots (L y) (G y) y) (G y) maxPoints.toNat sel ∧
        ∀ i, i < knots.size → ((∃ a, sel a = i) → row[i]? = some (fin (G y i))) ∧ ((¬ ∃ a, sel a = i) → row[i]? = some (fin 0)) := by
    intro y hy
    obtain ⟨p1, q1, hp1, hla, hlo, -, -, -, hcv, hloc, -⟩ := hpw.point hy
    rw [htype] at hcv
    obtain ⟨idx, hidx, hnd, hmem⟩ := tree_within hT hw.tree hcv (L y)
    rw [hw.tlats, hw.tlons] at hmem
    have hidx' : knots.getNeighbours T p1.lat p1.lon (L y) true = ok idx := hidx
    have hlt : ∀ i ∈ idx, i < knots.size := fun i hi => by
      obtain ⟨q, hq, -⟩ := (hmem i).mp hi
      exact hq.lt
    have hm2 : mapM (fun i : Nat => vget pts (i : Int)) idx = mapM (fun j : Nat => knots.getPoint (j : Int)) idx :=
      mapM_congr fun i hi => Points.WF.mapM_point hpts (hlt i hi)
    obtain ⟨ps, hps⟩ : ∃ ps, mapM (fun j : Nat => knots.getPoint (j : Int)) idx = ok ps :=
      mapM_exists _ fun i hi => by
        obtain ⟨p, -, hp, -⟩ := hw.point (hlt i hi)
        exact ⟨p, hp⟩
    obtain ⟨r, hr1, hr2, hr3, hr4, hr5, hr6⟩ :=
      oiSelect_eq hA maxPoints hm (G y) (idx.filter fun i => decide (0 < G y i)) (hnd.filter _)
    have hnear : ∀ i, NearPositive points knots (L y) (G y) y i ↔ i ∈ idx.filter fun i => decide (0 < G y i) := by
      intro i
      rw [List.mem_filter, hmem, decide_eq_true_eq]
      unfold NearPositive
      constructor
      · rintro ⟨⟨p, q, c1, c2, c3⟩, h⟩
        have := c1.unique hloc
        subst this
        exact ⟨⟨q, c2, c3⟩, h⟩
      · rintro ⟨⟨q, c2, c3⟩, h⟩
        exact ⟨⟨q1, q, hloc, c2, c3⟩, h⟩
    obtain ⟨row, hrow, hlen, hval⟩ := foldM_vset (G y) r (List.replicate knots.size 0)
      (fun i hi => by rw [List.length_replicate]; exact hlt i (List.mem_filter.mp (hr3 i hi)).1)
    have hget : ∀ i, (∃ a : Fin r.length, r.get a = i) ↔ i ∈ r := fun i => by rw [List.mem_iff_get]
    refine ⟨row, ?_, by rw [hlen, List.length_replicate], r.length, r.get, ⟨?_, ?_, ?_, ?_⟩, ?_⟩
    · unfold staticcorrRow
      rw [vget_some hla, ok_bind, vget_some hlo, ok_bind, hp1, ok_bind, hc.radius y p1 hp1, ok_bind, hidx', ok_bind]
      split_ifs with h1
      · have h0 : idx = [] := List.length_eq_zero_iff.mp h1
        have hr0 : r = [] := List.eq_nil_iff_forall_not_mem.mpr fun i hi => by
          have := hr3 i hi
          rw [h0] at this
          simp at this
        rw [hr0] at hrow
        exact hrow
      · rw [hm2, hps, ok_bind, hc.cell y p1 hp1 idx ps hps, ok_bind, positiveRhos_eq, ok_bind, hr1, hrow]
    · exact List.nodup_iff_injective_get.mp hr2
    · intro a
      exact (hnear _).mpr (hr3 _ (List.get_mem _ _))
    · rcases hr4 with h | h
      · left; omega
      · right; omega
    · intro i hi
      rcases hr6 i ((hnear i).mp hi) with h | ⟨h1, h2, h3⟩
      · exact Or.inl ((hget i).mpr h)
      · exact Or.inr ⟨by omega, by omega, fun a => h3 _ (List.get_mem _ _)⟩
    · intro i hi
      rw [hget, hval]
      refine ⟨fun h => by rw [if_pos h], fun h => by rw [if_neg h]; simp [hi, zero_def]⟩
  obtain ⟨out, hout⟩ := mapM_exists (f := staticcorrRow T A points knots pts s maxPoints) (List.range points.size) fun y hy => by
    obtain ⟨row, h, -⟩ := hrow y (List.mem_range.mp hy)
    exact ⟨row, h⟩
  have hf := mapM_eq_ok hout
  have hl : points.size = out.length := by simpa using hf.length_eq
  have hat : ∀ y (hy : y < out.length), staticcorrRow T A points knots pts s maxPoints y = ok out[y] := by
    intro y hy
    have := (List.forall₂_iff_get.mp hf).2 y (by simpa [hl] using hy) hy
    simpa using this
  refine ⟨out, ?_, ⟨hl.symm, ?_⟩, ?_⟩
  · unfold staticcorrPoints
    rw [if_neg (by omega), if_neg (by simpa using htype), hpts, ok_bind, hout]
    rfl
  · intro row hr
    obtain ⟨y, hy, rfl⟩ := List.mem_iff_getElem.mp hr
    obtain ⟨row', h1, h2, -⟩ := hrow y (by omega)
    rw [hat y hy] at h1
    injection h1 with h1
    rw [h1, h2]
  · intro y hy
    obtain ⟨row', h1, h2, n, sel, h3, h4⟩ := hrow y hy
    rw [hat y (by omega)] at h1
    injection h1 with h1
    refine ⟨n, sel, h3, fun i hi => ?_⟩
    have : cell? out y i = row'[i]? := by
      unfold cell?
      rw [List.getElem?_eq_getElem (by omega), Option.bind_some, h1]
    rw [this]
    exact h4 i hi

/-- C69: no row has more than `max_points > 0` entries other than 0. -/
theorem c69_sparse {T : RTree K} (hT : T.Lawful) {A : Arma K} (hA : A.Lawful) {points knots : Points K} (hpw : points.WF)
    (hw : knots.WF) (htype : points.type = knots.type) {s : SF K} {L : Nat → Fl K} {G P : Nat → Nat → K}
    (hc : Correlations T s points knots L G P) {maxPoints : Int} (hm : 0 < maxPoints) :
    ∃ out, staticcorrPoints T A points knots s maxPoints = ok out ∧
      ∀ row ∈ out, ((row.filter fun v => v.fne (fin 0)).length : Int) ≤ maxPoints := by
  obtain ⟨out, h1, h2, h3⟩ := c69_staticcorr hT hA hpw hw htype hc hm.le
  refine ⟨out, h1, fun row hrow => ?_⟩
  obtain ⟨y, hy, rfl⟩ := List.mem_iff_getElem.mp hrow
  have hys : y < points.size := by rw [← h2.1]; exact hy
  obtain ⟨n, sel, hs, hv⟩ := h3 y hys
  have hlen : out[y].length = knots.size := h2.2 _ hrow
  have hcell : ∀ i, cell? out y i = out[y][i]? := fun i => by
    unfold cell?
    rw [List.getElem?_eq_getElem hy, Option.bind_some]
  have hn : n ≤ maxPoints.toNat := by
    rcases hs.atMost with h | h
    · omega
    · exact h
  classical
  -- the positions of entries other than 0 are among the selected ones
  have key : ∀ (l : List (Fl K)) (S : Finset Nat) (o : Nat), (∀ i (hi : i < l.length), l[i].fne (fin 0) = true → i + o ∈ S) →
      (l.filter fun v => v.fne (fin 0)).length ≤ (S.filter fun i => o ≤ i).card := by
    intro l
    induction l with
    | nil => intro S o _; simp
    | cons a t ih =>
      intro S o h
      have := ih S (o + 1) (fun i hi hne => by
        have := h (i + 1) (by simpa using hi) (by simpa using hne)
        rw [show i + (o + 1) = i + 1 + o by omega]; exact this)
      by_cases ha : a.fne (fin 0) = true
      · rw [List.filter_cons_of_pos (by simpa using ha), List.length_cons]
        have ho : o ∈ S := by have := h 0 (by simp) (by simpa using ha); simpa using this
        have hsub : insert o (S.filter fun i => o + 1 ≤ i) ⊆ S.filter fun i => o ≤ i := by
          intro i hi
          rw [Finset.mem_insert, Finset.mem_filter] at hi
          rw [Finset.mem_filter]
          rcases hi with rfl | ⟨h1, h2⟩
          · exact ⟨ho, le_refl _⟩
          · exact ⟨h1, by omega⟩
        have hc := Finset.card_le_card hsub
        rw [Finset.card_insert_of_notMem (by simp)] at hc
        omega
      · rw [List.filter_cons_of_neg (by simpa using ha)]
        refine this.trans (Finset.card_le_card ?_)
        intro i hi
        rw [Finset.mem_filter] at hi ⊢
        exact ⟨hi.1, by omega⟩
  have := key out[y] (Finset.univ.image sel) 0 (fun i hi hne => by
    rw [Nat.add_zero, Finset.mem_image]
    by_contra hno
    have h0 := (hv i (by omega)).2 (fun ⟨a, ha⟩ => hno ⟨a, Finset.mem_univ _, ha⟩)
    rw [hcell, List.getElem?_eq_getElem hi, Option.some.injEq] at h0
    rw [h0] at hne
    simp at hne)
  have hcard : (Finset.univ.image sel).card ≤ n := by
    refine Finset.card_image_le.trans ?_
    simp
  have hfl : ((Finset.univ.image sel).filter fun i => 0 ≤ i).card ≤ (Finset.univ.image sel).card := Finset.card_filter_le _ _
  omega

/-- C69: a negative `max_points` or different coordinate types are reported. -/
theorem c69_throws (T : RTree K) (A : Arma K) (points knots : Points K) (s : SF K) (maxPoints : Int)
    (h : maxPoints < 0 ∨ points.type ≠ knots.type) :
    staticcorrPoints T A points knots s maxPoints = .throw .invalidArgument := by
  unfold staticcorrPoints
  by_cases h1 : maxPoints < 0
  · rw [if_pos h1]
  · rw [if_neg h1, if_pos (h.resolve_left h1)]

/-- Four knots on a line, two of them kept: the assumptions of `c69_staticcorr` and `c69_sparse` are met. -/
example : ∃ (points knots : Points ℝ) (s : SF ℝ) (L : Nat → Fl ℝ) (G P : Nat → Nat → ℝ),
    points.WF ∧ knots.WF ∧ points.type = knots.type ∧ knots.size = 4 ∧ Correlations RTree.scan s points knots L G P := by
  obtain ⟨bp, hbp⟩ : ∃ bp : Points ℝ, Points.new [fin 0] [fin 0] [] [] .cartesian = ok bp := by
    simp [Points.new, KDTree.new, List.range_succ, mapM_cons, convertCoordinates, isValidLat, isValidLon, vget]
  obtain ⟨points, hpoints⟩ : ∃ points : Points ℝ, Points.new [fin 0, fin 0, fin 0, fin 0] [fin 1, fin 2, fin 3, fin 9] [] [] .cartesian = ok points := by
    simp [Points.new, KDTree.new, List.range_succ, mapM_cons, convertCoordinates, isValidLat, isValidLon, vget]
  have w1 := BuiltPoints.pointsWF ⟨_, _, hbp⟩
  have w2 := BuiltPoints.pointsWF ⟨_, _, hpoints⟩
  obtain ⟨e1, -, -, -, -, -, e3, -⟩ := Points.new_ok hbp
  obtain ⟨f1, -, -, -, -, -, f3, -⟩ := Points.new_ok hpoints
  obtain ⟨L, G, P, hc⟩ := c51_correlations RTree.scan (SF.cressman (fin 5) (fin 0) (fin 0)) bp points w1 w2 (fun _ _ _ => trivial) (fun _ _ _ => trivial)
  refine ⟨bp, points, _, L, G, P, w1, w2, ?_, ?_, hc⟩
  · unfold Points.type; rw [e3, f3]
  · unfold Points.size; rw [f1]; rfl

/-- The same on numbers: points at distance 1, 2, 3 and 9, with a scale of 5; the two nearest knots are kept. -/
example : (do let points ← Points.new [fin (0 : ℚ)] [fin 0] [] [] .cartesian
              let knots ← Points.new [fin 0, fin 0, fin 0, fin 0] [fin 1, fin 2, fin 3, fin 9] [] [] .cartesian
              staticcorrPoints RTree.scan ⟨fun _ => ub, fun l => l.reverse⟩ points knots (.cressman (fin 5) (fin 0) (fin 0)) 2) =
    ok [[fin (12 / 13), fin (21 / 29), fin 0, fin 0]] := by decide +kernel

end
end Gridpp.Props
