import Verif.Lemmas.Structure3
import Verif.Base.Trig

/-! # C55, C56, C57: structure functions

`Spec.LiesAt p q`: the point `p` has coordinates `q` (every point made by `Points` or `Grid` has finite coordinates).
`ScalesAt T s p h v w`: the length scales of structure function `s` at `p`. -/

set_option linter.unusedSectionVars false

namespace Gridpp.Props
open Fl Res

section
variable {K : Type} [Field K] [LinearOrder K] [IsStrictOrderedRing K] [HasGeo K] [LawfulSqrt K] [LawfulExp K]

/-! ## C55 -/

/-- **C55** for Barnes, powerlaw and linear structure functions (linear: minimum correlations at most 1). Symmetric,
between 0 and 1, and 1 for a point with itself. -/
theorem c55_symmetric_partial (T : RTree K) (k : Kind) (h v w hmax : Fl K) (s : Scaled K) (hs : Scaled.new k h v w hmax = ok s)
    (hk : k = .barnes ∨ k = .powerlaw ∨ (k = .linear ∧ (∀ c, v = fin c → c ≤ 1) ∧ (∀ c, w = fin c → c ≤ 1)))
    (p1 p2 : Point K) (q1 q2 : Pt3 K) (h1 : Spec.LiesAt p1 q1) (h2 : Spec.LiesAt p2 q2) :
    (∃ c, (SF.scaled s).corr T p1 p2 = ok (fin c) ∧ (SF.scaled s).corr T p2 p1 = ok (fin c) ∧ 0 ≤ c ∧ c ≤ 1) ∧
    (SF.scaled s).corr T p1 p1 = ok (fin 1) := by
  obtain ⟨⟨a, rfl, ha⟩, ⟨b, rfl, hb⟩, ⟨c, rfl, hc⟩, -, rfl⟩ := new_ok hs
  have sc : ∀ p : Point K, ScalesAt T (⟨k, Grid.empty, [[fin a]], [[fin b]], [[fin c]], k.minRho (fin a) hmax, false⟩ : Scaled K) p
      (fin a) (fin b) (fin c) := fun p => Or.inr ⟨rfl, rfl, rfl, rfl⟩
  have hk' : k = .barnes ∨ k = .powerlaw ∨ k = .linear := by tauto
  have e0 : ∀ L : Fl K, k.factor 0 L = 1 := k.factor_zero
  constructor
  · show ∃ x, Scaled.corr T _ p1 p2 = _ ∧ Scaled.corr T _ p2 p1 = _ ∧ _
    rw [corr_fin (sc p1) (distance_fin h1 h2), corr_fin (sc p2) (distance_fin h2 h1), straightDistance_comm' q2 q1]
    simp only
    by_cases hg : (fin (straightDistance q1 q2)).gt (k.locDist (k.minRho (fin a) hmax) (fin a)) = true
    · rw [if_pos hg, if_pos hg]
      exact ⟨0, rfl, rfl, le_rfl, zero_le_one⟩
    · rw [if_neg hg, if_neg hg, correlation_even (Kind.factor_even hk')]
      refine ⟨_, rfl, rfl, mul3_range ⟨Kind.factor_nonneg hk' _ _, ?_⟩ (optional_range fun d _ => ⟨Kind.factor_nonneg hk' _ _, ?_⟩)
        (optional_range fun d _ => ⟨Kind.factor_nonneg hk' _ _, ?_⟩)⟩
      · rcases hk with rfl | rfl | ⟨rfl, h3, h4⟩
        · exact Kind.factor_le_one (Or.inl rfl)
        · exact Kind.factor_le_one (Or.inr (Or.inl rfl))
        · have : straightDistance q1 q2 = 0 := by
            refine le_antisymm ?_ (straightDistance_nonneg' q1 q2)
            have hg' : ¬ (fin (straightDistance q1 q2)).gt (fin 0) = true := hg
            simpa using hg'
          rw [this, e0]
      · rcases hk with rfl | rfl | ⟨rfl, h3, h4⟩
        · exact Kind.factor_le_one (Or.inl rfl)
        · exact Kind.factor_le_one (Or.inr (Or.inl rfl))
        · exact Kind.factor_le_one (Or.inr (Or.inr ⟨rfl, h3⟩))
      · rcases hk with rfl | rfl | ⟨rfl, h3, h4⟩
        · exact Kind.factor_le_one (Or.inl rfl)
        · exact Kind.factor_le_one (Or.inr (Or.inl rfl))
        · exact Kind.factor_le_one (Or.inr (Or.inr ⟨rfl, h4⟩))
  · show Scaled.corr T _ p1 p1 = _
    rw [corr_fin (sc p1) (distance_fin h1 h1), straightDistance_self']
    simp only
    have hl : (fin 0).gt (k.locDist (k.minRho (fin a) hmax) (fin a)) = false := by
      rcases hk' with rfl | rfl | rfl
      · exact sqrt_mul_not_neg _ ha
      · exact sqrt_mul_not_neg _ ha
      · show (fin 0).gt (fin 0) = false
        simp
    rw [hl, if_neg (by simp), correlation_self (e0 _) (e0 _) (e0 _)]

/-- **C55** for SOAR and TOAR, as far as it holds: between 0 and 1 if `p1` is not below `p2` (in elevation and land
fraction); symmetric if they have the same elevation and land fraction. `hloc` asks for a localization distance that is not
negative. -/
theorem c55_autoregressive_partial (T : RTree K) (k : Kind) (h v w hmax : Fl K) (s : Scaled K) (hs : Scaled.new k h v w hmax = ok s)
    (hk : k = .soar ∨ k = .toar) (p1 p2 : Point K) (q1 q2 : Pt3 K) (h1 : Spec.LiesAt p1 q1) (h2 : Spec.LiesAt p2 q2)
    (he : ∀ e, Spec.difference p1.elev p2.elev = some e → 0 ≤ e) (hl : ∀ e, Spec.difference p1.laf p2.laf = some e → 0 ≤ e) :
    (∃ c, (SF.scaled s).corr T p1 p2 = ok (fin c) ∧ 0 ≤ c ∧ c ≤ 1) ∧
    (p1.elev = p2.elev → p1.laf = p2.laf → (SF.scaled s).corr T p1 p2 = (SF.scaled s).corr T p2 p1) ∧
    (∀ l, (SF.scaled s).locDist T p1 = ok l → l.lt 0 = false → (SF.scaled s).corr T p1 p1 = ok (fin 1)) := by
  obtain ⟨⟨a, rfl, ha⟩, ⟨b, rfl, hb⟩, ⟨c, rfl, hc⟩, -, rfl⟩ := new_ok hs
  have sc : ∀ p : Point K, ScalesAt T (⟨k, Grid.empty, [[fin a]], [[fin b]], [[fin c]], k.minRho (fin a) hmax, false⟩ : Scaled K) p
      (fin a) (fin b) (fin c) := fun p => Or.inr ⟨rfl, rfl, rfl, rfl⟩
  have hk' : k ≠ .linear := by rcases hk with rfl | rfl <;> simp
  have e0 : ∀ L : Fl K, k.factor 0 L = 1 := k.factor_zero
  have sok : ∀ x : K, 0 ≤ x → Spec.ScaleOk (fin x) := by rintro x hx l ⟨⟩; exact hx
  refine ⟨?_, ?_, ?_⟩
  · show ∃ x, Scaled.corr T _ p1 p2 = _ ∧ _
    rw [corr_fin (sc p1) (distance_fin h1 h2)]
    split
    · exact ⟨0, rfl, le_rfl, zero_le_one⟩
    · exact ⟨_, rfl, mul3_range (Kind.factor_range_pos hk' (straightDistance_nonneg' q1 q2) (sok a ha))
        (optional_range fun d hd => Kind.factor_range_pos hk' (he d hd) (sok b hb))
        (optional_range fun d hd => Kind.factor_range_pos hk' (hl d hd) (sok c hc))⟩
  · intro e1 e2
    show Scaled.corr T _ p1 p2 = Scaled.corr T _ p2 p1
    rw [corr_fin (sc p1) (distance_fin h1 h2), corr_fin (sc p2) (distance_fin h2 h1), straightDistance_comm' q2 q1]
    unfold Spec.correlation
    rw [e1, e2]
  · intro l hl1 hl2
    have hloc : k.locDist (k.minRho (fin a) hmax) (fin a) = l := by
      have := locDist_eq (sc p1)
      have h' : Scaled.locDist T _ p1 = ok l := hl1
      rw [this] at h'
      exact Res.ok.inj h'
    show Scaled.corr T _ p1 p1 = _
    rw [corr_fin (sc p1) (distance_fin h1 h1), straightDistance_self']
    simp only [hloc]
    rw [if_neg (by unfold Fl.gt; rw [show (fin 0 : Fl K) = 0 from rfl, hl2]; simp), correlation_self (e0 _) (e0 _) (e0 _)]

/-- **C55** for Cressman, as far as it holds (see `c55_autoregressive_partial`). -/
theorem c55_cressman_partial (T : RTree K) (h v w : Fl K) (s : SF K) (hs : SF.newCressman h v w = ok s)
    (p1 p2 : Point K) (q1 q2 : Pt3 K) (h1 : Spec.LiesAt p1 q1) (h2 : Spec.LiesAt p2 q2)
    (he : ∀ e, Spec.difference p1.elev p2.elev = some e → 0 ≤ e) (hl : ∀ e, Spec.difference p1.laf p2.laf = some e → 0 ≤ e) :
    (∃ c, s.corr T p1 p2 = ok (fin c) ∧ 0 ≤ c ∧ c ≤ 1) ∧
    (p1.elev = p2.elev → p1.laf = p2.laf → s.corr T p1 p2 = s.corr T p2 p1) ∧
    s.corr T p1 p1 = ok (fin 1) := by
  obtain ⟨rfl, hh, hv, hw⟩ := newCressman_ok hs
  refine ⟨?_, ?_, ?_⟩
  · refine ⟨_, congrArg ok (cressmanCorr_fin (distance_fin h1 h2)), mul3_range (cressman_range (straightDistance_nonneg' q1 q2) hh)
      (optional_range fun d hd => cressman_range (he d hd) hv) (optional_range fun d hd => cressman_range (hl d hd) hw)⟩
  · intro e1 e2
    show ok (cressmanCorr h v w p1 p2) = ok (cressmanCorr h v w p2 p1)
    rw [cressmanCorr_fin (distance_fin h1 h2), cressmanCorr_fin (distance_fin h2 h1), straightDistance_comm' q2 q1]
    unfold Spec.correlation
    rw [e1, e2]
  · show ok (cressmanCorr h v w p1 p1) = _
    rw [cressmanCorr_fin (distance_fin h1 h1), straightDistance_self',
      correlation_self (cressman_zero _ hh) (cressman_zero _ hv) (cressman_zero _ hw)]

/-- Two points at the same place with different elevations. -/
def atElevation (e : K) : Point K := ⟨fin 0, fin 0, fin e, nan, .cartesian, fin 0, fin 0, fin 0⟩

theorem atElevation_lies (e : K) : Spec.LiesAt (atElevation e) (⟨0, 0, 0⟩ : Pt3 K) := ⟨rfl, rfl, rfl⟩

/-- **C55 is false** for SOAR: with vertical scale 1, the correlation of a point at elevation 0 with one 1 above is 0, but the
other way round positive; with one 2 above it is negative. -/
theorem c55_soar_counterexample (T : RTree K) : ∃ s : Scaled K, Scaled.new .soar (fin 0) (fin 1) (fin 0) nan = ok s ∧
    (SF.scaled s).corr T (atElevation 0) (atElevation 1) = ok (fin 0) ∧
    (∃ c : K, (SF.scaled s).corr T (atElevation 1) (atElevation 0) = ok (fin c) ∧ 0 < c) ∧
    (∃ c : K, (SF.scaled s).corr T (atElevation 0) (atElevation 2) = ok (fin c) ∧ c < 0) := by
  refine ⟨⟨.soar, Grid.empty, [[fin 0]], [[fin 1]], [[fin 0]], defaultMinRho, false⟩, by simp [Scaled.new, badScale, Kind.minRho], ?_⟩
  have key : ∀ a b : K, (SF.scaled (⟨.soar, Grid.empty, [[fin 0]], [[fin 1]], [[fin 0]], defaultMinRho, false⟩ : Scaled K)).corr T
      (atElevation a) (atElevation b) = ok (fin (Spec.soar (a - b))) := by
    intro a b
    show Scaled.corr T _ _ _ = _
    rw [corr_fin (Or.inr ⟨rfl, rfl, rfl, rfl⟩) (distance_fin (atElevation_lies a) (atElevation_lies b)), straightDistance_self',
      if_neg (by simp [gt_zero_mul_zero, Kind.locDist])]
    simp [Spec.correlation, Kind.factor, Spec.scaled, Spec.optional, Spec.difference, atElevation]
  refine ⟨?_, ⟨_, key 1 0, ?_⟩, ⟨_, key 0 2, ?_⟩⟩
  · rw [key]; simp [Spec.soar]
  · have := LawfulExp.exp_pos (-(1 : K))
    simp only [Spec.soar, sub_zero]
    nlinarith
  · have := LawfulExp.exp_pos (2 : K)
    simp only [Spec.soar, zero_sub, neg_neg]
    nlinarith

/-- **C55 is false** for TOAR: correlations above 1. -/
theorem c55_toar_counterexample (T : RTree K) : ∃ s : Scaled K, Scaled.new .toar (fin 0) (fin 1) (fin 0) nan = ok s ∧
    (∃ c : K, (SF.scaled s).corr T (atElevation 0) (atElevation 3) = ok (fin c) ∧ 1 < c) := by
  refine ⟨⟨.toar, Grid.empty, [[fin 0]], [[fin 1]], [[fin 0]], defaultMinRho, false⟩, by simp [Scaled.new, badScale, Kind.minRho],
    Spec.toar (-3), ?_, ?_⟩
  · show Scaled.corr T _ _ _ = _
    rw [corr_fin (Or.inr ⟨rfl, rfl, rfl, rfl⟩) (distance_fin (atElevation_lies 0) (atElevation_lies 3)), straightDistance_self',
      if_neg (by simp [gt_zero_mul_zero, Kind.locDist])]
    simp [Spec.correlation, Kind.factor, Spec.scaled, Spec.optional, Spec.difference, atElevation]
  · have := LawfulExp.add_one_le_exp (3 : K)
    simp only [Spec.toar, neg_neg]
    norm_num
    linarith

/-- **C55 is false** for Cressman: negative in one direction, 0 in the other. -/
theorem c55_cressman_counterexample (T : RTree K) : ∃ s : SF K, SF.newCressman (fin 0) (fin 1) (fin 0) = ok s ∧
    s.corr T (atElevation 0) (atElevation 2) = ok (fin (-(3 / 5))) ∧ s.corr T (atElevation 2) (atElevation 0) = ok (fin 0) := by
  refine ⟨.cressman (fin 0) (fin 1) (fin 0), by simp [SF.newCressman, badScale], ?_, ?_⟩
  · show ok (cressmanCorr _ _ _ _ _) = _
    rw [cressmanCorr_fin (distance_fin (atElevation_lies 0) (atElevation_lies 2)), straightDistance_self']
    simp only [Spec.correlation, Spec.cressman, Spec.optional, Spec.difference, atElevation, if_true, one_mul, mul_one]
    rw [if_neg one_ne_zero, if_neg (by norm_num)]
    norm_num
  · show ok (cressmanCorr _ _ _ _ _) = _
    rw [cressmanCorr_fin (distance_fin (atElevation_lies 2) (atElevation_lies 0)), straightDistance_self']
    simp only [Spec.correlation, Spec.cressman, Spec.optional, Spec.difference, atElevation, if_true, one_mul, mul_one]
    rw [if_neg one_ne_zero, if_pos (by norm_num)]

/-- **C55 is false** for the linear structure function: the constructor accepts a minimum correlation of 2. -/
theorem c55_linear_counterexample (T : RTree K) : ∃ s : Scaled K, Scaled.new .linear (fin 0) (fin 2) (fin 0) nan = ok s ∧
    (SF.scaled s).corr T (atElevation 0) (atElevation 1) = ok (fin 2) := by
  refine ⟨⟨.linear, Grid.empty, [[fin 0]], [[fin 2]], [[fin 0]], defaultMinRho, false⟩, ?_, ?_⟩
  · have : ¬ (2 : K) < 0 := by norm_num
    simp [Scaled.new, badScale, Kind.minRho]
  · show Scaled.corr T _ _ _ = _
    rw [corr_fin (Or.inr ⟨rfl, rfl, rfl, rfl⟩) (distance_fin (atElevation_lies 0) (atElevation_lies 1)), straightDistance_self',
      if_neg (by simp [Kind.locDist])]
    have : ¬ (2 : K) < 0 := by norm_num
    simp [Spec.correlation, Kind.factor, Spec.linear, Spec.optional, Spec.difference, atElevation]

/-- **C55 is false** for SOAR and TOAR with `hmax = 0`: the localization distance is minus infinity and the correlation of a
point with itself is 0. -/
theorem c55_hmax_counterexample (T : RTree K) (k : Kind) (hk : k = .soar ∨ k = .toar) (p : Point K) (q : Pt3 K) (hp : Spec.LiesAt p q) :
    ∃ s : Scaled K, Scaled.new k (fin 1) (fin 0) (fin 0) (fin 0) = ok s ∧
    (SF.scaled s).locDist T p = ok ninf ∧ (SF.scaled s).corr T p p = ok (fin 0) := by
  have hm : k.minRho (fin (1 : K)) (fin 0) = fin 1 := by
    rcases hk with rfl | rfl
    · simp [Kind.minRho, Fl.exp, LawfulExp.exp_zero]
    · simp [Kind.minRho, Fl.exp, LawfulExp.exp_zero]
  refine ⟨⟨k, Grid.empty, [[fin 1]], [[fin 0]], [[fin 0]], fin 1, false⟩, ?_⟩
  have hloc : k.locDist (fin (1 : K)) (fin 1) = ninf := by
    have hlog : Fl.log (fin (1 : K)) = fin 0 := by simp [Fl.log, log_one]
    have hlog0 : Fl.log (-(fin (0 : K))) = ninf := by simp [Fl.log]
    rcases hk with rfl | rfl
    · simp only [Kind.locDist, hlog, hlog0]
      show infOfSign (-(1 : K)) = ninf
      simp [infOfSign]
    · simp only [Kind.locDist, hlog, hlog0]
      have h2 : (fin (1 / 2) : Fl K) * ninf = ninf := by
        show infOfSign (-(1 / 2 : K)) = ninf
        have : ¬ (0 : K) < -(1 / 2) := by norm_num
        have h' : (-(1 / 2) : K) < 0 := by norm_num
        simp only [infOfSign, if_neg this, if_pos h']
      rw [h2]
      show infOfSign (-(1 : K)) = ninf
      simp [infOfSign]
  have sc : ScalesAt T (⟨k, Grid.empty, [[fin 1]], [[fin 0]], [[fin 0]], fin 1, false⟩ : Scaled K) p (fin 1) (fin 0) (fin 0) :=
    Or.inr ⟨rfl, rfl, rfl, rfl⟩
  refine ⟨by simp [Scaled.new, badScale, hm], ?_, ?_⟩
  · show Scaled.locDist T _ p = _
    rw [locDist_eq sc]
    exact congrArg ok hloc
  · show Scaled.corr T _ p p = _
    rw [corr_fin sc (distance_fin hp hp)]
    simp only [hloc]
    rfl

/-! ## C56 -/

/-- The horizontal part has a scale other than 0 if it is a Cressman function. -/
def Truncates : SF K → Prop
  | .scaled _ => True
  | .cressman h _ _ => ∃ a, h = fin a ∧ a ≠ 0
  | .multiple h _ _ => Truncates h
  | .crossval s _ => Truncates s

/-- The structure function has scales at `p` (which is so if it was built, see `c57_built`). -/
def Ready (T : RTree K) : SF K → Point K → Prop
  | .scaled s, p => ∃ h v w, ScalesAt T s p h v w
  | .cressman _ _ _, _ => True
  | .multiple h v w, p => Ready T h p ∧ Ready T v p ∧ Ready T w p
  | .crossval s _, p => Ready T s p

/-- Every correlation between points with known locations is a number. -/
theorem corr_number (T : RTree K) (s : SF K) (p1 p2 : Point K) (hr : Ready T s p1) (q1 q2 : Pt3 K) (h1 : Spec.LiesAt p1 q1)
    (h2 : Spec.LiesAt p2 q2) : ∃ c, s.corr T p1 p2 = ok (fin c) := by
  induction s generalizing p2 q2 with
  | scaled s =>
    obtain ⟨h, v, w, hs⟩ := hr
    show ∃ c, Scaled.corr T s p1 p2 = _
    rw [corr_fin hs (distance_fin h1 h2)]
    split
    · exact ⟨_, rfl⟩
    · exact ⟨_, rfl⟩
  | cressman h v w => exact ⟨_, congrArg ok (cressmanCorr_fin (distance_fin h1 h2))⟩
  | multiple h v w ih iv iw =>
    obtain ⟨r1, r2, r3⟩ := hr
    obtain ⟨a, ea⟩ := ih (p1.perturbH p2) r1 q2 h2
    obtain ⟨b, eb⟩ := iv (p1.perturbV p2) r2 q1 h1
    obtain ⟨c, ec⟩ := iw (p1.perturbW p2) r3 q1 h1
    refine ⟨a * b * c, ?_⟩
    simp only [SF.corr, ea, eb, ec, ok_bind]
    rfl
  | crossval s d ih => exact ih p2 hr q2 h2

/-- **C56** (first part): beyond the localization distance of `p1` the correlation is 0, for every structure function. -/
theorem c56_zero_partial (T : RTree K) (s : SF K) (p1 p2 : Point K) (hr : Ready T s p1) (ht : Truncates s) (q1 q2 : Pt3 K)
    (h1 : Spec.LiesAt p1 q1) (h2 : Spec.LiesAt p2 q2) (l : Fl K) (hl : s.locDist T p1 = ok l)
    (hd : l.lt (fin (straightDistance q1 q2)) = true) : s.corr T p1 p2 = ok (fin 0) := by
  induction s generalizing p2 q2 with
  | scaled s =>
    obtain ⟨h, v, w, hs⟩ := hr
    show Scaled.corr T s p1 p2 = _
    have hl' : Scaled.locDist T s p1 = ok l := hl
    rw [locDist_eq hs] at hl'
    rw [corr_fin hs (distance_fin h1 h2), Res.ok.inj hl']
    exact if_pos hd
  | cressman h v w =>
    obtain ⟨a, rfl, ha⟩ := ht
    have hl' : (fin a : Fl K) = l := Res.ok.inj hl
    subst hl'
    have hd' : a < straightDistance q1 q2 := by simpa using hd
    show ok (cressmanCorr _ _ _ _ _) = _
    rw [cressmanCorr_fin (distance_fin h1 h2)]
    simp only [Spec.correlation, Spec.cressman]
    rw [if_neg ha, if_pos hd'.le, zero_mul, zero_mul]
  | multiple h v w ih iv iw =>
    obtain ⟨r1, r2, r3⟩ := hr
    have e1 := ih (p1.perturbH p2) r1 ht q2 h2 hl hd
    obtain ⟨b, eb⟩ := corr_number T v p1 (p1.perturbV p2) r2 q1 q1 h1 h1
    obtain ⟨c, ec⟩ := corr_number T w p1 (p1.perturbW p2) r3 q1 q1 h1 h1
    simp only [SF.corr, e1, eb, ec, ok_bind, fin_mul, zero_mul]
  | crossval s d ih => exact ih p2 hr ht q2 h2 hl hd

/-- **C56 is false** for Cressman with scale 0: the localization distance is 0, but the correlation is 1 at any distance. -/
theorem c56_cressman_counterexample (T : RTree K) : ∃ s : SF K, SF.newCressman (fin 0) (fin 0) (fin 0) = ok s ∧
    ∀ (p1 p2 : Point K) (q1 q2 : Pt3 K), Spec.LiesAt p1 q1 → Spec.LiesAt p2 q2 →
      s.locDist T p1 = ok (fin 0) ∧ s.corr T p1 p2 = ok (fin 1) := by
  refine ⟨.cressman (fin 0) (fin 0) (fin 0), by simp [SF.newCressman, badScale], fun p1 p2 q1 q2 h1 h2 => ⟨rfl, ?_⟩⟩
  show ok (cressmanCorr _ _ _ _ _) = _
  rw [cressmanCorr_fin (distance_fin h1 h2)]
  have : ∀ o, Spec.optional Spec.cressman (fin (0 : K)) o = 1 := by
    intro o; cases o <;> simp [Spec.optional, Spec.cressman]
  simp only [Spec.correlation, this, mul_one, Spec.cressman, if_true]

/-- **C56** (second part): the correlation does not increase with horizontal distance. `p2` and `p3` have the same elevation and
land fraction and `p3` is not closer to `p1`. For SOAR and TOAR `p1` must not be below the other points. -/
theorem c56_monotone_partial (T : RTree K) (s : Scaled K) (p1 p2 p3 : Point K) (h v w : Fl K) (hs : ScalesAt T s p1 h v w)
    (hh : Spec.ScaleOk h)
    (hk : (s.kind = .barnes ∨ s.kind = .powerlaw ∨ s.kind = .linear) ∨ (Spec.ScaleOk v ∧ Spec.ScaleOk w ∧
      (∀ e, Spec.difference p1.elev p2.elev = some e → 0 ≤ e) ∧ (∀ e, Spec.difference p1.laf p2.laf = some e → 0 ≤ e)))
    (q1 q2 q3 : Pt3 K) (h1 : Spec.LiesAt p1 q1) (h2 : Spec.LiesAt p2 q2) (h3 : Spec.LiesAt p3 q3)
    (he : p3.elev = p2.elev) (hl : p3.laf = p2.laf) (hd : straightDistance q1 q2 ≤ straightDistance q1 q3) :
    ∃ c2 c3, (SF.scaled s).corr T p1 p2 = ok (fin c2) ∧ (SF.scaled s).corr T p1 p3 = ok (fin c3) ∧ c3 ≤ c2 := by
  have hn := straightDistance_nonneg' q1 q2
  show ∃ c2 c3, Scaled.corr T s p1 p2 = _ ∧ Scaled.corr T s p1 p3 = _ ∧ _
  have hv : 0 ≤ Spec.optional s.kind.factor v (Spec.difference p1.elev p2.elev) := by
    cases hdiff : Spec.difference p1.elev p2.elev with
    | none => exact zero_le_one
    | some e =>
      show 0 ≤ s.kind.factor e v
      by_cases hkk : s.kind = .barnes ∨ s.kind = .powerlaw ∨ s.kind = .linear
      · exact Kind.factor_nonneg hkk e v
      · rcases hk with hk | ⟨a, -, b, -⟩
        · exact absurd hk hkk
        · exact (Kind.factor_range_pos (by tauto) (b e hdiff) a).1
  have hw : 0 ≤ Spec.optional s.kind.factor w (Spec.difference p1.laf p2.laf) := by
    cases hdiff : Spec.difference p1.laf p2.laf with
    | none => exact zero_le_one
    | some e =>
      show 0 ≤ s.kind.factor e w
      by_cases hkk : s.kind = .barnes ∨ s.kind = .powerlaw ∨ s.kind = .linear
      · exact Kind.factor_nonneg hkk e w
      · rcases hk with hk | ⟨-, a, -, b⟩
        · exact absurd hk hkk
        · exact (Kind.factor_range_pos (by tauto) (b e hdiff) a).1
  have hf : ∀ d : K, 0 ≤ d → 0 ≤ s.kind.factor d h := by
    intro d hd0
    by_cases hkk : s.kind = .linear
    · exact Kind.factor_nonneg (by tauto) d h
    · exact (Kind.factor_range_pos hkk hd0 hh).1
  rw [corr_fin hs (distance_fin h1 h2), corr_fin hs (distance_fin h1 h3)]
  unfold Spec.correlation
  rw [he, hl]
  by_cases g2 : (fin (straightDistance q1 q2)).gt (s.kind.locDist s.minRho h) = true
  · have g3 : (fin (straightDistance q1 q3)).gt (s.kind.locDist s.minRho h) = true := gt_mono hd g2
    rw [if_pos g2, if_pos g3]
    exact ⟨0, 0, rfl, rfl, le_rfl⟩
  · rw [if_neg g2]
    by_cases g3 : (fin (straightDistance q1 q3)).gt (s.kind.locDist s.minRho h) = true
    · rw [if_pos g3]
      exact ⟨_, 0, rfl, rfl, mul_nonneg (mul_nonneg (hf _ hn) hv) hw⟩
    · rw [if_neg g3]
      refine ⟨_, _, rfl, rfl, mul_le_mul_of_nonneg_right (mul_le_mul_of_nonneg_right ?_ hv) hw⟩
      by_cases hkk : s.kind = .linear
      · have e2 : straightDistance q1 q3 = 0 := by
          refine le_antisymm ?_ (le_trans hn hd)
          rw [hkk] at g3
          have g3' : ¬ (fin (straightDistance q1 q3)).gt (fin 0) = true := g3
          simpa using g3'
        have e1 : straightDistance q1 q2 = 0 := le_antisymm (e2 ▸ hd) hn
        rw [e1, e2]
      · exact Kind.factor_anti hkk hn hd hh

/-- **C56** (second part) for Cressman. -/
theorem c56_cressman_monotone_partial (T : RTree K) (h v w : Fl K) (s : SF K) (hs : SF.newCressman h v w = ok s) (p1 p2 p3 : Point K)
    (he0 : ∀ e, Spec.difference p1.elev p2.elev = some e → 0 ≤ e) (hl0 : ∀ e, Spec.difference p1.laf p2.laf = some e → 0 ≤ e)
    (q1 q2 q3 : Pt3 K) (h1 : Spec.LiesAt p1 q1) (h2 : Spec.LiesAt p2 q2) (h3 : Spec.LiesAt p3 q3)
    (he : p3.elev = p2.elev) (hl : p3.laf = p2.laf) (hd : straightDistance q1 q2 ≤ straightDistance q1 q3) :
    ∃ c2 c3, s.corr T p1 p2 = ok (fin c2) ∧ s.corr T p1 p3 = ok (fin c3) ∧ c3 ≤ c2 := by
  obtain ⟨rfl, hh, hv, hw⟩ := newCressman_ok hs
  refine ⟨_, _, congrArg ok (cressmanCorr_fin (distance_fin h1 h2)), congrArg ok (cressmanCorr_fin (distance_fin h1 h3)), ?_⟩
  unfold Spec.correlation
  rw [he, hl]
  exact mul_le_mul_of_nonneg_right (mul_le_mul_of_nonneg_right (cressman_anti (straightDistance_nonneg' q1 q2) hd hh)
    (optional_range fun d hd => cressman_range (he0 d hd) hv).1) (optional_range fun d hd => cressman_range (hl0 d hd) hw).1

/-- **C56** (`hmax`): for Barnes and powerlaw the localization distance is the `hmax` of the constructor. -/
theorem c56_hmax (T : RTree K) (k : Kind) (hk : k = .barnes ∨ k = .powerlaw) (h m : K) (v w : Fl K) (hh : 0 < h) (s : Scaled K)
    (hs : Scaled.new k (fin h) v w (fin m) = ok s) (p : Point K) : (SF.scaled s).locDist T p = ok (fin m) := by
  obtain ⟨-, -, -, hm, rfl⟩ := new_ok hs
  have hm0 : 0 ≤ m := hm m rfl
  have hr : 0 ≤ m / h := div_nonneg hm0 hh.le
  show Scaled.locDist T _ p = _
  rw [locDist_eq (Or.inr ⟨rfl, rfl, rfl, rfl⟩)]
  congr 1
  have fin2 : ∀ x : K, x = m / h * (m / h) → sqrt (fin x) * fin h = fin m := by
    rintro x rfl
    rw [sqrt_fin (mul_self_nonneg _), fin_mul, sqrt_sq hr, div_mul_cancel₀ _ hh.ne']
  rcases hk with rfl | rfl
  · have e1 : Kind.barnes.minRho (fin h) (fin m) = fin (HasExp.exp (m / h * (m / h) / -2)) := by
      simp only [Kind.minRho, isValid_fin, Bool.not_true]
      rw [if_neg (by simp), fin_div_of_ne _ hh.ne', fin_mul, fin_div_of_ne _ (by norm_num)]
      rfl
    simp only [Kind.locDist, e1]
    simp only [Fl.log, if_pos (LawfulExp.exp_pos _), LawfulExp.log_exp, fin_mul]
    exact fin2 _ (by ring)
  · have hp : 0 < 1 + 1 / 2 * (m / h * (m / h)) := by
      have := mul_nonneg hr hr
      linarith
    have e1 : Kind.powerlaw.minRho (fin h) (fin m) = fin (1 / (1 + 1 / 2 * (m / h * (m / h)))) := by
      simp only [Kind.minRho, isValid_fin, Bool.not_true]
      rw [if_neg (by simp), fin_div_of_ne _ hh.ne', fin_mul, fin_mul, one_def, fin_add, fin_div_of_ne _ hp.ne']
    simp only [Kind.locDist, e1, one_def, fin_sub, fin_mul]
    rw [fin_div_of_ne _ (one_div_pos.mpr hp).ne']
    refine fin2 _ ?_
    rw [div_eq_iff (one_div_pos.mpr hp).ne']
    field_simp
    ring

end
end Gridpp.Props
