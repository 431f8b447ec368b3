import Verif.Props.Structure
import Mathlib.Analysis.Complex.ExponentialBounds

/-! # C57: scalar and vector correlations, clones, composite structure functions (and concrete cases for C55, C56) -/

set_option linter.unusedSectionVars false

namespace Gridpp.Props
open Fl Res

section
variable {K : Type} [Field K] [LinearOrder K] [IsStrictOrderedRing K] [HasGeo K] [LawfulSqrt K] [LawfulExp K]

/-- The value of a correlation: a product of factors within the localization distance. -/
theorem c55_value (T : RTree K) (s : Scaled K) (p1 p2 : Point K) (h v w l : Fl K) (hs : ScalesAt T s p1 h v w)
    (hl : (SF.scaled s).locDist T p1 = ok l) (q1 q2 : Pt3 K) (h1 : Spec.LiesAt p1 q1) (h2 : Spec.LiesAt p2 q2)
    (hd : (fin (straightDistance q1 q2)).le l = true) :
    (SF.scaled s).corr T p1 p2 = ok (fin (match s.kind with
      | .barnes => Spec.correlation (Spec.scaled Spec.barnes) p1 p2 (straightDistance q1 q2) h v w
      | .soar => Spec.correlation (Spec.scaled Spec.soar) p1 p2 (straightDistance q1 q2) h v w
      | .toar => Spec.correlation (Spec.scaled Spec.toar) p1 p2 (straightDistance q1 q2) h v w
      | .powerlaw => Spec.correlation (Spec.scaled Spec.powerlaw) p1 p2 (straightDistance q1 q2) h v w
      | .linear => Spec.correlation Spec.linear p1 p2 (straightDistance q1 q2) h v w)) := by
  have hl' : Scaled.locDist T s p1 = ok l := hl
  rw [locDist_eq hs] at hl'
  have hln : l ≠ nan := by rintro rfl; simp at hd
  show Scaled.corr T s p1 p2 = _
  rw [corr_fin hs (distance_fin h1 h2), Res.ok.inj hl', gt_eq_not_le hln, hd, if_neg (by simp)]
  cases s.kind <;> rfl

/-- **C57** (clones): what a structure function must be to be obtained from the constructors. -/
inductive Built : SF K → Prop
  | scaled (s : Scaled K) : BuiltScaled s → Built (.scaled s)
  | cressman (h v w : Fl K) (s : SF K) : SF.newCressman h v w = ok s → Built s
  | multiple (h v w s : SF K) : Built h → Built v → Built w → SF.newMultiple h v w = ok s → Built s
  | crossval (i : SF K) (d : Fl K) (s : SF K) : Built i → SF.newCrossval i d = ok s → Built s

/-- **C57** (clones): a clone equals the original, so it behaves like it. -/
theorem c57_clone (s : SF K) (hs : Built s) : s.clone = ok s := by
  induction hs with
  | scaled s hs =>
    rcases hs with ⟨k, h, v, w, hmax, hn⟩ | ⟨k, g, Y, X, lats, lons, type, h, v, w, m, hg, h1, h2, h3, hn⟩
    · obtain ⟨-, -, -, -, rfl⟩ := new_ok hn
      rfl
    · obtain ⟨b, rfl, hn', -⟩ := newSpatial_ok hn
      simp only [SF.clone, hn', ok_bind]
  | cressman h v w s hs =>
    obtain ⟨rfl, -⟩ := newCressman_ok hs
    exact hs
  | multiple h v w s _ _ _ hs ih iv iw =>
    have : SF.clone (.multiple h v w) = ok (.multiple h v w) := by simp only [SF.clone, ih, iv, iw, ok_bind]
    have e : SF.clone (.multiple h v w) = ok s := hs
    rw [this] at e
    cases e
    exact this
  | crossval i d s _ hs ih =>
    have e : SF.clone (.crossval i d) = ok s := hs
    have e' := e
    simp only [SF.clone] at e
    split at e
    · cases e
    · rw [ih] at e
      cases e
      exact e'

/-- The parts of a composite structure function are kept as they are; a negative or missing distance is refused. -/
theorem c57_composite (h v w : SF K) (hh : Built h) (hv : Built v) (hw : Built w) (d : Fl K) :
    SF.newMultiple h v w = ok (.multiple h v w) ∧
    (d.isValid = true → d.lt 0 = false → SF.newCrossval h d = ok (.crossval h d)) ∧
    (d.isValid = false ∨ d.lt 0 = true → SF.newCrossval h d = .throw .invalidArgument) := by
  refine ⟨?_, ?_, ?_⟩
  · simp only [SF.newMultiple, SF.clone, c57_clone h hh, c57_clone v hv, c57_clone w hw, ok_bind]
  · intro h1 h2
    have : badScale d = false := by unfold badScale; rw [h1, h2]; rfl
    simp only [SF.newCrossval, SF.clone, this, c57_clone h hh, ok_bind]
    rfl
  · intro h1
    have : badScale d = true := by
      unfold badScale
      rcases h1 with h1 | h1 <;> rw [h1] <;> simp only [Bool.not_false, Bool.true_or, Bool.or_true]
    simp only [SF.newCrossval, SF.clone, this]
    rfl

/-- Constructors refuse negative and missing parameters. -/
theorem c57_refuse (k : Kind) (h v w hmax : Fl K) :
    (Scaled.new k h v w hmax = .throw .invalidArgument ∨ ∃ s, Scaled.new k h v w hmax = ok s) ∧
    ((∃ s, Scaled.new k h v w hmax = ok s) ↔ (∃ a, h = fin a ∧ 0 ≤ a) ∧ (∃ a, v = fin a ∧ 0 ≤ a) ∧ (∃ a, w = fin a ∧ 0 ≤ a) ∧
      (∀ a, hmax = fin a → 0 ≤ a)) := by
  constructor
  · unfold Scaled.new
    repeat' split
    all_goals first | exact Or.inl rfl | exact Or.inr ⟨_, rfl⟩
  · constructor
    · rintro ⟨s, hs⟩
      obtain ⟨a, b, c, d, -⟩ := new_ok hs
      exact ⟨a, b, c, d⟩
    · rintro ⟨⟨a, rfl, ha⟩, ⟨b, rfl, hb⟩, ⟨c, rfl, hc⟩, hm⟩
      have h0 : ¬ (hmax.isValid && hmax.lt 0) = true := by
        cases hmax with
        | fin m => simpa using hm m rfl
        | _ => simp
      have aux : ∀ x : K, 0 ≤ x → ¬ badScale (fin x) = true := by
        intro x hx
        simpa [badScale] using hx
      unfold Scaled.new
      rw [if_neg h0, if_neg (aux a ha), if_neg (aux b hb), if_neg (aux c hc)]
      exact ⟨_, rfl⟩

/-- No localization distance of the structure function at `p` is NaN (those of the parts included; a function with constant
scales need not satisfy this). -/
def Regular (T : RTree K) : SF K → Point K → Prop
  | .scaled s, p => ∃ h v w l, ScalesAt T s p h v w ∧ s.locDist T p = ok l ∧ (s.spatial = true → l ≠ nan)
  | .cressman _ _ _, _ => True
  | .multiple h v w, p => Regular T h p ∧ Regular T v p ∧ Regular T w p
  | .crossval s _, p => Regular T s p

theorem mapM_range_list {α β : Type} (l : List α) (f : Nat → Res β) (g : α → β) (h : ∀ i (hi : i < l.length), f i = ok (g l[i])) :
    mapM f (List.range l.length) = ok (l.map g) := by
  induction l generalizing f with
  | nil => rfl
  | cons a t ih =>
    have h0 : f 0 = ok (g a) := h 0 (by simp)
    have ht := ih (fun i => f (i + 1)) (fun i hi => h (i + 1) (by simpa using hi))
    have hm : ∀ l : List Nat, mapM f (l.map Nat.succ) = mapM (fun i => f (i + 1)) l := by
      intro l
      induction l with
      | nil => rfl
      | cons b u ihu => rw [List.map_cons, mapM_cons, mapM_cons, ihu]
    rw [List.length_cons, List.range_succ_eq_map, mapM_cons, h0, hm, ht]
    rfl

/-- Scalar and vector agree: there is one function that both compute. -/
theorem c57_vector_partial (T : RTree K) (s : SF K) (p1 : Point K) (hr : Regular T s p1) (h1 : ∃ q, Spec.LiesAt p1 q) :
    ∃ c : Point K → K, (∀ p, (∃ q, Spec.LiesAt p q) → s.corr T p1 p = ok (fin (c p))) ∧
      ∀ ps : List (Point K), (∀ p ∈ ps, ∃ q, Spec.LiesAt p q) → s.corrVec T p1 ps = ok (ps.map fun p => fin (c p)) := by
  obtain ⟨q1, h1⟩ := h1
  induction s with
  | scaled s =>
    obtain ⟨h, v, w, l, hs, hl, hn⟩ := hr
    rw [locDist_eq hs] at hl
    have hl := Res.ok.inj hl
    have key : ∀ p, (∃ q, Spec.LiesAt p q) → ∃ c, s.corr T p1 p = ok (fin c) := by
      rintro p ⟨q, hq⟩
      rw [corr_fin hs (distance_fin h1 hq)]
      split
      · exact ⟨_, rfl⟩
      · exact ⟨_, rfl⟩
    classical
    refine ⟨fun p => if hp : ∃ q, Spec.LiesAt p q then (key p hp).choose else 0, fun p hp => ?_, fun ps hps => ?_⟩
    · show s.corr T p1 p = _
      simp only [dif_pos hp]
      exact (key p hp).choose_spec
    · show s.corrVec T p1 ps = _
      by_cases ht : s.spatial = true
      · rw [corrVec_eq hs ht]
        congr 1
        apply List.map_congr_left
        intro p hp
        have hp' := hps p hp
        simp only [dif_pos hp']
        have e := (key p hp').choose_spec
        generalize (key p hp').choose = z at e ⊢
        obtain ⟨q, hq⟩ := hp'
        rw [corr_eq hs, distance_fin h1 hq, hl, gt_eq_not_le (hn ht)] at e
        rw [distance_fin h1 hq, hl]
        by_cases hle : (fin (straightDistance q1 q)).le l = true
        · rw [if_pos hle]
          rw [hle, if_neg (by simp)] at e
          exact Res.ok.inj e
        · rw [if_neg hle]
          rw [if_pos (by simpa using hle)] at e
          exact Res.ok.inj e
      · unfold Scaled.corrVec
        rw [if_neg ht]
        refine mapM_ok fun p hp => ?_
        simp only [dif_pos (hps p hp)]
        exact (key p (hps p hp)).choose_spec
  | cressman h v w =>
    have key : ∀ p, (∃ q, Spec.LiesAt p q) → ∃ c, (SF.cressman h v w).corr T p1 p = ok (fin c) := by
      rintro p ⟨q, hq⟩
      exact ⟨_, congrArg ok (cressmanCorr_fin (distance_fin h1 hq))⟩
    classical
    have e : ∀ p, (∃ q, Spec.LiesAt p q) → (SF.cressman h v w).corr T p1 p = ok (fin (if hp : ∃ q, Spec.LiesAt p q then (key p hp).choose else 0)) := by
      intro p hp
      rw [dif_pos hp]
      exact (key p hp).choose_spec
    exact ⟨_, e, fun ps hps => mapM_ok fun p hp => e p (hps p hp)⟩
  | multiple h v w ih iv iw =>
    obtain ⟨r1, r2, r3⟩ := hr
    obtain ⟨a, a1, a2⟩ := ih r1
    obtain ⟨b, b1, b2⟩ := iv r2
    obtain ⟨c, c1, c2⟩ := iw r3
    refine ⟨fun p => a (p1.perturbH p) * b (p1.perturbV p) * c (p1.perturbW p), ?_, ?_⟩
    · rintro p ⟨q, hq⟩
      simp only [SF.corr, a1 (p1.perturbH p) ⟨q, hq⟩, b1 (p1.perturbV p) ⟨q1, h1⟩, c1 (p1.perturbW p) ⟨q1, h1⟩, ok_bind, fin_mul]
    · intro ps hps
      simp only [SF.corrVec]
      rw [a2 (ps.map p1.perturbH) (by
          intro p hp
          obtain ⟨p', hp', rfl⟩ := List.mem_map.mp hp
          exact hps p' hp'),
        b2 (ps.map p1.perturbV) (by
          intro p hp
          obtain ⟨p', hp', rfl⟩ := List.mem_map.mp hp
          exact ⟨q1, h1⟩),
        c2 (ps.map p1.perturbW) (by
          intro p hp
          obtain ⟨p', hp', rfl⟩ := List.mem_map.mp hp
          exact ⟨q1, h1⟩)]
      simp only [ok_bind, List.map_map]
      apply mapM_range_list
      intro i hi
      rw [vget_eq_ok_of_lt (by simpa using hi), vget_eq_ok_of_lt (by simpa using hi), vget_eq_ok_of_lt (by simpa using hi)]
      simp only [ok_bind, List.getElem_map, Function.comp, fin_mul]
  | crossval s d ih =>
    obtain ⟨c, c1, c2⟩ := ih hr
    exact ⟨c, c1, fun ps hps => mapM_ok fun p hp => c1 p (hps p hp)⟩

/-- **C57** (`corr_background`): scalar and vector agree. -/
theorem c57_background_partial (T : RTree K) (s : SF K) (p1 : Point K) (hr : Regular T s p1) (h1 : ∃ q, Spec.LiesAt p1 q) :
    ∃ c : Point K → K, (∀ p, (∃ q, Spec.LiesAt p q) → s.corrBg T p1 p = ok (fin (c p))) ∧
      ∀ ps : List (Point K), (∀ p ∈ ps, ∃ q, Spec.LiesAt p q) → s.corrBgVec T p1 ps = ok (ps.map fun p => fin (c p)) := by
  induction s with
  | scaled s => exact c57_vector_partial T _ p1 hr h1
  | cressman h v w => exact c57_vector_partial T _ p1 hr h1
  | multiple h v w _ _ _ => exact c57_vector_partial T _ p1 hr h1
  | crossval s d ih =>
    obtain ⟨c, c1, c2⟩ := ih hr
    refine ⟨fun p => if d.isValid && (p1.distance p).le d then 0 else c p, ?_, ?_⟩
    · intro p hp
      simp only [SF.corrBg]
      split
      · rfl
      · exact c1 p hp
    · intro ps hps
      simp only [SF.corrBgVec]
      rw [c2 ps hps]
      simp only [ok_bind, List.length_map]
      apply mapM_range_list
      intro i hi
      rw [vget_eq_ok_of_lt hi, vget_eq_ok_of_lt (by simpa using hi)]
      simp only [ok_bind, List.getElem_map]
      split
      · rfl
      · rfl

/-- **C57** (`CrossValidation`): 0 background correlation within the distance, the wrapped function's otherwise; correlations and
localization distance are those of the wrapped function. -/
theorem c57_crossval (T : RTree K) (i s : SF K) (d : K) (hi : Built i) (hs : SF.newCrossval i (fin d) = ok s) (p1 p2 : Point K)
    (q1 q2 : Pt3 K) (h1 : Spec.LiesAt p1 q1) (h2 : Spec.LiesAt p2 q2) :
    (straightDistance q1 q2 ≤ d → s.corrBg T p1 p2 = ok (fin 0)) ∧
    (d < straightDistance q1 q2 → s.corrBg T p1 p2 = i.corrBg T p1 p2) ∧
    s.corr T p1 p2 = i.corr T p1 p2 ∧ s.locDist T p1 = i.locDist T p1 := by
  have e : s = .crossval i (fin d) := by
    have h' : SF.clone (.crossval i (fin d)) = ok s := hs
    simp only [SF.clone] at h'
    split at h'
    · cases h'
    · rw [c57_clone i hi] at h'
      cases h'
      rfl
  subst e
  refine ⟨?_, ?_, rfl, rfl⟩
  · intro h
    simp only [SF.corrBg, distance_fin h1 h2, isValid_fin, le_fin, Bool.true_and, decide_eq_true_eq]
    rw [if_pos h]
    rfl
  · intro h
    simp only [SF.corrBg, distance_fin h1 h2, isValid_fin, le_fin, Bool.true_and, decide_eq_true_eq]
    rw [if_neg (not_le.mpr h)]

/-- **C57** (`MultipleStructure`): the product of the horizontal structure's correlation with only the location of `p1` changed to
that of `p2`, the vertical one's with only the elevation, the third one's with only the land fraction. -/
theorem c57_multiple (T : RTree K) (h v w s : SF K) (hh : Built h) (hv : Built v) (hw : Built w) (hs : SF.newMultiple h v w = ok s)
    (p1 p2 : Point K) (a b c : Fl K)
    (ha : h.corr T p1 { p1 with lat := p2.lat, lon := p2.lon, x := p2.x, y := p2.y, z := p2.z } = ok a)
    (hb : v.corr T p1 { p1 with elev := p2.elev } = ok b) (hc : w.corr T p1 { p1 with laf := p2.laf } = ok c) :
    s.corr T p1 p2 = ok (a * b * c) ∧ s.locDist T p1 = h.locDist T p1 := by
  rw [(c57_composite h v w hh hv hw nan).1] at hs
  cases hs
  refine ⟨?_, rfl⟩
  have ha' : h.corr T p1 (p1.perturbH p2) = ok a := ha
  have hb' : v.corr T p1 (p1.perturbV p2) = ok b := hb
  have hc' : w.corr T p1 (p1.perturbW p2) = ok c := hc
  simp only [SF.corr, ha', hb', hc', ok_bind]

/-- **C57** (`Regular` is met): a built structure function has scales wherever (lat, lon) is a location for its grid; with
constant scales everywhere. -/
theorem c57_built {T : RTree K} (hT : T.Lawful) (s : Scaled K) (hs : BuiltScaled s) (p : Point K) (hp : LocationOk s p) :
    ∃ h v w, ScalesAt T s p h v w ∧ (s.spatial = true → ∃ c, NearestCellTo s.grid.lats s.grid.lons s.grid.type p.lat p.lon c ∧
      cell? s.mH c.1 c.2 = some h ∧ cell? s.mV c.1 c.2 = some v ∧ cell? s.mW c.1 c.2 = some w) := by
  obtain ⟨h, v, w, hsc⟩ := hs.scales hT hp
  refine ⟨h, v, w, hsc, fun ht => ?_⟩
  rcases hs with ⟨k, h', v', w', hmax, hn⟩ | ⟨k, g, Y, X, lats, lons, type, h', v', w', m, hg, h1, h2, h3, hn⟩
  · obtain ⟨-, -, -, -, rfl⟩ := new_ok hn
    cases ht
  · obtain ⟨b, rfl, -, -⟩ := newSpatial_ok hn
    obtain ⟨hw, e1, e2, e3⟩ := hg.wf
    obtain ⟨q, hq⟩ := hp ht
    obtain ⟨c, f1, -, -, f4⟩ := grid_nearest_to hT hg (la := p.lat) (lo := p.lon) ⟨q, by rw [← e3]; exact hq⟩
    rcases hsc with ⟨-, c', g1, g2, g3, g4⟩ | ⟨g1, -⟩
    · simp only at g1
      rw [f1] at g1
      cases g1
      refine ⟨c, ?_, g2, g3, g4⟩
      show NearestCellTo g.lats g.lons g.tree.type p.lat p.lon c
      rw [e1, e2, e3]
      exact f4
    · rw [ht] at g1; cases g1

end

section
variable {K : Type} [Field K] [LinearOrder K] [HasGeo K] [HasSqrt K] [HasExp K]

/-- **C57 is false** where the horizontal scale is missing at the nearest gridpoint of a structure function that varies in space:
the scalar `corr` of a point with itself is 1, the vector one 0. (No property of `exp`, `log` or `sqrt` is used.) -/
theorem c57_counterexample (T : RTree K) (s : Scaled K) (hk : s.kind ≠ .linear) (ht : s.spatial = true) (p : Point K) (v w : Fl K)
    (hs : s.scales T p = ok (nan, v, w)) (he : p.elev = nan) (hl : p.laf = nan) :
    (SF.scaled s).corr T p p = ok (fin 1) ∧ (SF.scaled s).corrVec T p [p] = ok [fin 0] := by
  have hloc : s.kind.locDist s.minRho nan = nan := by
    cases hkk : s.kind with
    | linear => exact absurd hkk hk
    | _ => simp [Kind.locDist]
  have hp : ∀ d, s.kind.product p p d nan v w = fin 1 := by
    intro d
    unfold Kind.product
    rw [he, hl]
    cases hkk : s.kind with
    | linear => exact absurd hkk hk
    | _ => simp [Kind.rho, barnesRho, soarRho, toarRho, powerlawRho]
  constructor
  · show s.corr T p p = _
    unfold Scaled.corr
    simp only [ht, if_true, hs, ok_bind, hloc, gt_nan_right, hp]
    rfl
  · show s.corrVec T p [p] = _
    unfold Scaled.corrVec
    simp only [ht, if_true, hs, ok_bind, hloc, le_nan_right]
    rfl

end

/-! ## Concrete cases -/

section examples

/-- A structure function on a 1×2 grid, the first horizontal scale missing. -/
def exampleGrid : Res (Grid ℚ) := Grid.new [[fin 0, fin 0]] [[fin 0, fin 1]] [] [] .cartesian
def examplePoint : Point ℚ := ⟨fin 0, fin 0, nan, nan, .cartesian, fin 0, fin 0, fin 0⟩

/-- The hypotheses of `c57_counterexample` are met. -/
example : ∃ g s, exampleGrid = ok g ∧ Scaled.newSpatial .barnes g [[nan, fin 1]] [[fin 1, fin 1]] [[fin 1, fin 1]] (fin (1 / 10)) = ok s ∧
    s.spatial = true ∧ s.scales RTree.scan examplePoint = ok (nan, fin 1, fin 1) := by
  refine ⟨_, _, rfl, rfl, rfl, ?_⟩
  decide +kernel

/-- Two points 5 apart, at elevations 2 and 1: the hypotheses of the theorems on C55 and C56 are met. -/
def exampleA : Point ℝ := ⟨fin 0, fin 0, fin 2, nan, .cartesian, fin 0, fin 0, fin 0⟩
def exampleB : Point ℝ := ⟨fin 3, fin 4, fin 1, nan, .cartesian, fin 3, fin 4, fin 0⟩

example (k : Kind) : (∃ s : Scaled ℝ, Scaled.new k (fin 10) (fin 1) (fin 0) nan = ok s) ∧ Spec.LiesAt exampleA ⟨0, 0, 0⟩ ∧ Spec.LiesAt exampleB ⟨3, 4, 0⟩ ∧
    (∀ e, Spec.difference exampleA.elev exampleB.elev = some e → 0 ≤ e) ∧ (∀ e, Spec.difference exampleA.laf exampleB.laf = some e → 0 ≤ e) ∧
    Spec.difference exampleA.elev exampleB.elev ≠ none := by
  refine ⟨(c57_refuse k _ _ _ _).2.mpr ⟨⟨10, rfl, by norm_num⟩, ⟨1, rfl, by norm_num⟩, ⟨0, rfl, le_rfl⟩, by simp⟩, ⟨rfl, rfl, rfl⟩,
    ⟨rfl, rfl, rfl⟩, ?_, ?_, ?_⟩
  · intro e he
    simp only [Spec.difference, exampleA, exampleB, Option.some.injEq] at he
    rw [← he]; norm_num
  · intro e he
    simp [Spec.difference, exampleA, exampleB] at he
  · simp [Spec.difference, exampleA, exampleB]

/-- Without `hmax`, SOAR and TOAR have a localization distance that is not negative, so that the last part of
`c55_autoregressive_partial` applies. -/
theorem c55_default_self (T : RTree ℝ) (k : Kind) (hk : k = .soar ∨ k = .toar) (h v w hmax : Fl ℝ) (hm : hmax.isValid = false) (s : Scaled ℝ)
    (hs : Scaled.new k h v w hmax = ok s) (p : Point ℝ) (q : Pt3 ℝ) (hp : Spec.LiesAt p q) : (SF.scaled s).corr T p p = ok (fin 1) := by
  obtain ⟨⟨a, ha, ha0⟩, -, -, -, e⟩ := new_ok hs
  have hself : ∀ x, ∀ e, Spec.difference x x = some e → (0 : ℝ) ≤ e := by
    intro x e he
    rcases difference_self x with h | h
    · rw [h] at he; cases he
    · rw [h] at he; cases he; exact le_rfl
  obtain ⟨-, -, h3⟩ := c55_autoregressive_partial T k h v w hmax s hs hk p p q q hp hp (hself _) (hself _)
  have hsc : ScalesAt T s p h v w := by subst e; exact Or.inr ⟨rfl, rfl, rfl, rfl⟩
  refine h3 _ (locDist_eq hsc) ?_
  have hlog : Real.log (13 / 10000) ≤ -1 := by
    rw [Real.log_le_iff_le_exp (by norm_num), Real.exp_neg, ← one_div, le_div_iff₀ (Real.exp_pos 1)]
    have := Real.exp_one_lt_d9
    linarith
  have e1 : Fl.log (fin (13 / 10000 : ℝ)) = fin (Real.log (13 / 10000)) := by
    have h0 : (0 : ℝ) < 13 / 10000 := by norm_num
    simp only [Fl.log, if_pos h0]
    rfl
  have hpos : 0 < -Real.log (13 / 10000) := by linarith
  have e2 : Fl.log (fin (-(Real.log (13 / 10000)))) = fin (Real.log (-Real.log (13 / 10000))) := by
    simp only [Fl.log, if_pos hpos]
    rfl
  have hll : 0 ≤ Real.log (-Real.log (13 / 10000)) := Real.log_nonneg (by linarith)
  subst e
  subst ha
  simp only [Kind.minRho, hm, Bool.not_false, if_true, defaultMinRho]
  rcases hk with rfl | rfl
  · simp only [Kind.locDist, e1, e2, fin_neg, fin_add, fin_mul, zero_def, lt_fin, decide_eq_false_iff_not, not_lt]
    exact mul_nonneg (by linarith) ha0
  · simp only [Kind.locDist, e1, e2, fin_neg, fin_add, fin_mul, zero_def, lt_fin, decide_eq_false_iff_not, not_lt]
    exact mul_nonneg (by linarith) ha0

end examples
end Gridpp.Props
