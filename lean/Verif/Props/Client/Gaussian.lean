import Verif.Lemmas.Client.Gaussian
import Verif.Lemmas.Client.Recalibrate
import Verif.Props.Client.ZagaCore

/-! # C124: the calibrator gaussian of the client -/

set_option linter.unusedSectionVars false

namespace Gridpp.Props
open Fl hiding MV isValid
open Res Client Spec

variable {K : Type} [Field K] [LinearOrder K] [IsStrictOrderedRing K] [LawfulSqrt K] [LawfulExp K]

/-- The parameters start with the two numbers and none is missing. -/
structure Pars2 (p : List (Fl K)) (a b : K) : Prop where
  present : ∀ v ∈ p, Present v
  fst : p[0]? = some (fin a)
  snd : p[1]? = some (fin b)

omit [LawfulSqrt K] [LawfulExp K] in
theorem Pars2.all {p : List (Fl K)} {a b : K} (h : Pars2 p a b) : p.all isValid = true := by
  rw [List.all_eq_true]
  exact fun v hv => isValid_iff_present.mpr (h.present v hv)

omit [IsStrictOrderedRing K] [LawfulSqrt K] [LawfulExp K] in
theorem parAt_of_get {p : List (Fl K)} {i : Nat} {v : Fl K} (h : p[i]? = some v) : parAt p i = ok v := by
  have h2 := (List.getElem?_eq_some_iff.mp h).1
  unfold Client.parAt
  rw [if_neg (by omega), vget_eq_ok_of_lt h2]
  rw [List.getElem?_eq_getElem h2, Option.some.injEq] at h
  rw [h]

omit [LawfulSqrt K] in
theorem gaussDist_eq (mk : Fl K → Fl K → Dist K) {p : List (Fl K)} {a b m s : K} (hp : Pars2 p a b) (hm : 0 < m) :
    gaussDist mk (fin m) (fin s) p = ok (some (mk (fin m) (fin (HasExp.exp (a + b * s))))) := by
  have he := LawfulExp.exp_pos (a + b * s)
  unfold gaussDist
  rw [parAt_of_get hp.fst, ok_bind, parAt_of_get hp.snd, ok_bind]
  simp only [fin_mul, fin_add, Fl.exp]
  simp [valid_nonneg hm.le, valid_nonneg he.le, zero_def, le_fin, not_le.mpr hm, not_le.mpr he]

omit [LawfulSqrt K] in
/-- **C124** (quantile). With a mean above 0 the quantile is that of the normal law with this mean and the standard deviation
exp(a + b * spread). -/
theorem c124_quantile {mk : Fl K → Fl K → Dist K} {Phi Q : K → K} (hmk : NormalFamily mk Phi Q) {p : List (Fl K)} {a b m s q : K}
    (hp : Pars2 p a b) (hm : 0 < m) (hs : 0 ≤ s) (hq0 : 0 < q) (hq1 : q < 1) :
    gaussInvCdf mk (fin q) (fin m) (fin s) p = ok (fin (m + HasExp.exp (a + b * s) * Q q)) := by
  unfold gaussInvCdf
  rw [valid_nonneg hm.le, valid_nonneg hs, hp.all, gaussDist_eq mk hp hm]
  simp only [zero_def, one_def, lt_fin, ge_fin, not_lt.mpr hq0.le, not_le.mpr hq1, not_lt.mpr hm.le, not_lt.mpr hs, decide_false, Bool.or_false,
    Bool.not_true, Bool.false_eq_true, if_false, ok_bind]
  rw [hmk.quantile _ _ _ (LawfulExp.exp_pos _) hq0 hq1, ok_bind]
  by_cases h : m + HasExp.exp (a + b * s) * Q q = -999
  · rw [h]
    have : isValid (fin (-999) : Fl K) = false := isValid_false_iff.mpr not_present_MV
    rw [this]
    rfl
  · rw [valid_fin h]
    simp

omit [LawfulSqrt K] in
/-- **C124** (distribution function). -/
theorem c124_cdf {mk : Fl K → Fl K → Dist K} {Phi Q : K → K} (hmk : NormalFamily mk Phi Q) {p : List (Fl K)} {a b m s x : K}
    (hp : Pars2 p a b) (hm : 0 < m) (hs : 0 ≤ s) (hx : x ≠ -999) :
    gaussCdf mk (fin x) (fin m) (fin s) p = ok (fin (Phi ((x - m) / HasExp.exp (a + b * s)))) := by
  obtain ⟨h0, h1⟩ := hmk.range ((x - m) / HasExp.exp (a + b * s))
  unfold gaussCdf
  rw [valid_fin hx, valid_nonneg hm.le, valid_nonneg hs, hp.all, gaussDist_eq mk hp hm]
  simp only [zero_def, one_def, lt_fin, not_lt.mpr hm.le, not_lt.mpr hs, decide_false, Bool.or_false, Bool.not_true, Bool.false_eq_true, if_false,
    ok_bind]
  rw [hmk.cdf _ _ _ (LawfulExp.exp_pos _), ok_bind, valid_nonneg h0.le]
  simp [Res.assert, le_fin, ge_fin, h0.le, h1.le]

omit [LawfulSqrt K] in
/-- **C124** (the two belong together). The quantile of a level has this level. -/
theorem c124_inverse {mk : Fl K → Fl K → Dist K} {Phi Q : K → K} (hmk : NormalFamily mk Phi Q) {p : List (Fl K)} {a b m s q v : K}
    (hp : Pars2 p a b) (hm : 0 < m) (hs : 0 ≤ s) (hq0 : 0 < q) (hq1 : q < 1) (hv : gaussInvCdf mk (fin q) (fin m) (fin s) p = ok (fin v))
    (hv' : v ≠ -999) : gaussCdf mk (fin v) (fin m) (fin s) p = ok (fin q) := by
  have he := LawfulExp.exp_pos (a + b * s)
  rw [c124_quantile hmk hp hm hs hq0 hq1, Res.ok.injEq, Fl.fin.injEq] at hv
  rw [c124_cdf hmk hp hm hs hv', ← hv]
  have : (m + HasExp.exp (a + b * s) * Q q - m) / HasExp.exp (a + b * s) = Q q := by
    rw [add_sub_cancel_left, mul_div_cancel_left₀ _ he.ne']
  rw [this, hmk.inverse q hq0 hq1]

/-- Parameters the calibrator can use: one is missing or there are two. -/
def GaussPars (p : List (Fl K)) : Prop := (∃ v ∈ p, ¬ Present v) ∨ ∃ a b, Pars2 p a b

omit [LawfulSqrt K] in
/-- **C124** (missing values). Missing or negative predictors, missing parameters and a level outside of [0, 1) give a missing value; so
does the mean 0. -/
theorem c124_missing (mk : Fl K → Fl K → Dist K) (q mean spread : Fl K) (p : List (Fl K)) (h : (∃ v ∈ p, ¬ Present v) ∨ ¬ Present mean ∨
    ¬ Present spread ∨ (∃ m, mean = fin m ∧ m < 0) ∨ (∃ s, spread = fin s ∧ s < 0) ∨ (∃ x, q = fin x ∧ (x < 0 ∨ 1 ≤ x)) ∨
    ((∃ a b, Pars2 p a b) ∧ mean = fin 0)) : gaussInvCdf mk q mean spread p = ok MV := by
  unfold gaussInvCdf
  by_cases c1 : (q.lt 0 || q.ge 1) = true
  · rw [if_pos c1]
  rw [if_neg c1]
  by_cases c2 : (!isValid mean || !isValid spread) = true
  · rw [if_pos c2]
  rw [if_neg c2]
  by_cases c3 : (mean.lt 0 || spread.lt 0) = true
  · rw [if_pos c3]
  rw [if_neg c3]
  by_cases c4 : (!p.all isValid) = true
  · rw [if_pos c4]
  rw [if_neg c4]
  simp only [Bool.or_eq_true, not_or, Bool.not_eq_true', Bool.not_eq_false] at c1 c2 c3 c4
  rcases h with ⟨v, hv, hn⟩ | hn | hn | ⟨m, rfl, hm⟩ | ⟨s, rfl, hs⟩ | ⟨x, rfl, hx⟩ | ⟨⟨a, b, hp⟩, rfl⟩
  · exact absurd (isValid_iff_present.mp (List.all_eq_true.mp c4 v hv)) hn
  · exact absurd (isValid_iff_present.mp c2.1) hn
  · exact absurd (isValid_iff_present.mp c2.2) hn
  · exact absurd (by simpa [zero_def, lt_fin] using hm) c3.1
  · exact absurd (by simpa [zero_def, lt_fin] using hs) c3.2
  · rcases hx with hx | hx
    · exact absurd (by simpa [zero_def, lt_fin] using hx) c1.1
    · exact absurd (by simpa [one_def, ge_fin] using hx) c1.2
  · unfold gaussDist
    rw [parAt_of_get hp.fst, ok_bind, parAt_of_get hp.snd, ok_bind]
    simp [zero_def, le_fin]

omit [LawfulSqrt K] in
/-- Fewer than two parameters, none of them missing, end the program. -/
theorem c124_few (mk : Fl K → Fl K → Dist K) {p : List (Fl K)} (hp : ∀ v ∈ p, Present v) (hl : p.length < 2) {m s q : K} (hm : 0 ≤ m)
    (hs : 0 ≤ s) (hq0 : 0 ≤ q) (hq1 : q < 1) : gaussInvCdf mk (fin q) (fin m) (fin s) p = .abort := by
  have hall : p.all isValid = true := by
    rw [List.all_eq_true]
    exact fun v hv => isValid_iff_present.mpr (hp v hv)
  have hbad : ∀ i, p.length ≤ i → parAt p i = .abort := fun i hi => by unfold parAt; rw [if_pos hi]; rfl
  have hd : gaussDist mk (fin m) (fin s) p = .abort := by
    unfold gaussDist
    by_cases h : 0 < p.length
    · rw [parAt_of_get (List.getElem?_eq_getElem h), ok_bind, hbad 1 (by omega)]; rfl
    · rw [hbad 0 (by omega)]; rfl
  unfold gaussInvCdf
  rw [valid_nonneg hm, valid_nonneg hs, hall, hd]
  simp [zero_def, one_def, lt_fin, ge_fin, not_lt.mpr hq0, not_le.mpr hq1, not_lt.mpr hm, not_lt.mpr hs]

omit [LawfulSqrt K] in
theorem gaussInvCdf_total {mk : Fl K → Fl K → Dist K} {Phi Q : K → K} (hmk : NormalFamily mk Phi Q) {p : List (Fl K)} (hp : GaussPars p)
    (m : K) {s : K} (hs : 0 ≤ s) {q : K} (hq0 : 0 < q) (hq1 : q < 1) : ∃ w, gaussInvCdf mk (fin q) (fin m) (fin s) p = ok w := by
  rcases hp with hp | ⟨a, b, hp⟩
  · exact ⟨MV, c124_missing mk _ _ _ _ (Or.inl hp)⟩
  rcases lt_trichotomy m 0 with hm | rfl | hm
  · exact ⟨MV, c124_missing mk _ _ _ _ (Or.inr (Or.inr (Or.inr (Or.inl ⟨m, rfl, hm⟩))))⟩
  · exact ⟨MV, c124_missing mk _ _ _ _ (Or.inr (Or.inr (Or.inr (Or.inr (Or.inr (Or.inr ⟨⟨a, b, hp⟩, rfl⟩))))))⟩
  · exact ⟨_, c124_quantile hmk hp hm hs hq0 hq1⟩

/-! ### The ensemble -/

/-- What becomes of the members `raw` of one grid point: nothing if all are missing. Else the predictors are the mean and the standard
deviation of those that are there; the quantiles `w` of the levels (e + 1/2) / E take the places of the members. -/
def GaussCellOut (mk : Fl K → Fl K → Dist K) (p : List (Fl K)) (E : Nat) (raw out : Nat → Fl K) : Prop :=
  ((∀ e < E, ¬ Present (raw e)) → ∀ e < E, out e = raw e) ∧
  ∀ (S : Finset Nat) (r : Nat → K) (m s : K), (∀ e, e ∈ S ↔ e < E ∧ Present (raw e)) → S.Nonempty → (∀ e ∈ S, raw e = fin (r e)) →
    MeanAndSpread S r m s → ∃ w, (∀ e < E, gaussInvCdf mk (fin (((e : K) + 1 / 2) / (E : K))) (fin m) (fin s) p = ok (w e)) ∧
      Recalibrated E raw w out

theorem gauss_cell {mk : Fl K → Fl K → Dist K} {Phi Q : K → K} (hmk : NormalFamily mk Phi Q) (A : Arma K) (hA : Arma.Lawful A)
    {Y X E : Nat} (hE : 0 < E) {p : List (Fl K)} (hp : GaussPars p) {f : FieldC K} (hf : Sized Y X E f) {i j : Nat} (hi : i < Y) (hj : j < X)
    {raw : Nat → Fl K} (hraw : ∀ e < E, f.get i j e = ok (raw e)) :
    ∃ g out, gaussCell mk A 0 Y X E p f i j = ok g ∧ Sized Y X E g ∧ (∀ e < E, g.get i j e = ok (out e)) ∧
      GaussCellOut mk p E raw out ∧ ∀ y' x', ¬ (y' = i ∧ x' = j) → g.get y' x' = f.get y' x' := by
  classical
  have hmem : ∀ q ∈ zagaSample Y X E 0 i j, q.1 < E ∧ q.2.1 = i ∧ q.2.2 = j := by
    intro q hq
    rw [zagaSample_zero hi hj, Finset.mem_image] at hq
    obtain ⟨e, he, rfl⟩ := hq
    exact ⟨Finset.mem_range.mp he, rfl, rfl⟩
  have hget : ∀ q ∈ zagaSample Y X E 0 i j, f.getInt (q.2.1 : Int) (q.2.2 : Int) q.1 = ok (raw q.1) := by
    intro q hq
    obtain ⟨h1, h2, h3⟩ := hmem q hq
    rw [h2, h3]
    obtain ⟨u, g1, g2⟩ := getInt_nat hf hi hj h1
    rw [g1, ← g2, hraw _ h1]
  have hval : ∀ e, ∃ q, Present (raw e) → raw e = fin q := by
    intro e
    by_cases h : Present (raw e)
    · obtain ⟨q, hq, -⟩ := h
      exact ⟨q, fun _ => hq⟩
    · exact ⟨0, fun h' => absurd h' h⟩
  choose r hr using hval
  set S := (Finset.range E).filter fun e => Present (raw e) with hSdef
  have hSmem : ∀ e, e ∈ S ↔ e < E ∧ Present (raw e) := fun e => by rw [hSdef, Finset.mem_filter, Finset.mem_range]
  have hinj : Function.Injective fun e : Nat => (e, i, j) := fun a b h => by simpa using h
  have hsums : gaussSums 0 Y X E f i j = ok ⟨fin (∑ e ∈ S, r e), fin (∑ e ∈ S, r e * r e), S.card⟩ := by
    rw [gaussSums_present hget (S := S.image fun e => (e, i, j)) (g := fun q => r q.1) (by
      intro q
      rw [zagaSample_zero hi hj, Finset.mem_image, Finset.mem_image]
      constructor
      · rintro ⟨e, he, rfl⟩
        exact ⟨⟨e, Finset.mem_range.mpr ((hSmem e).mp he).1, rfl⟩, ((hSmem e).mp he).2⟩
      · rintro ⟨⟨e, he, rfl⟩, h⟩
        exact ⟨e, (hSmem e).mpr ⟨Finset.mem_range.mp he, h⟩, rfl⟩) (by
      intro q hq
      obtain ⟨e, he, rfl⟩ := Finset.mem_image.mp hq
      exact hr e ((hSmem e).mp he).2), Finset.card_image_of_injective _ hinj, Finset.sum_image fun a _ b _ h => hinj h,
      Finset.sum_image fun a _ b _ h => hinj h]
  obtain ⟨l, l1, l2, l3⟩ := hf.ens hi hj hE
  have hl : l = (List.range E).map raw := map_range_getElem? l2 fun e he => (l3 e _).mpr (hraw e he)
  subst hl
  unfold gaussCell
  rw [hsums, ok_bind, l1, ok_bind]
  by_cases hS : 0 < S.card
  · obtain ⟨m, s, hms, hm, hs⟩ := gauss_predictors S hS r
    rw [if_pos hS, hm, hs]
    have hinv : ∀ e, ∃ w, e < E → gaussInvCdf mk (quantileLevel E e) (fin m) (fin s) p = ok w := by
      intro e
      by_cases he : e < E
      · obtain ⟨q, hq, -, h0, h1⟩ := quantileLevel_eq (K := K) he
        obtain ⟨w, hw⟩ := gaussInvCdf_total hmk hp m hms.nonneg h0 h1
        exact ⟨w, fun _ => by rw [hq]; exact hw⟩
      · exact ⟨MV, fun h => absurd h he⟩
    choose w hw using hinv
    obtain ⟨g, out, g1, g2, g3, g4, g5⟩ := recalibrate_spec A hA hi hj hE (raw := raw) (w := w)
      (inv := fun q => gaussInvCdf mk q (fin m) (fin s) p) hw hf
    refine ⟨g, out, g1, g2, g3, ⟨fun h => ?_, fun S' r' m' s' h1 h2 h3 h4 => ?_⟩, g5⟩
    · obtain ⟨e, he⟩ := Finset.card_pos.mp hS
      exact absurd ((hSmem e).mp he).2 (h e ((hSmem e).mp he).1)
    · have hSS : S' = S := by ext e; rw [h1, hSmem]
      rw [hSS] at h3 h4
      have hrr : ∀ e ∈ S, r' e = r e := by
        intro e he
        have := h3 e he
        rw [hr e ((hSmem e).mp he).2, Fl.fin.injEq] at this
        exact this.symm
      have h4' : MeanAndSpread S r m' s' :=
        ⟨by rw [h4.mean]; exact Finset.sum_congr rfl hrr, h4.nonneg, by
          rw [h4.spread]; exact Finset.sum_congr rfl fun e he => by rw [hrr e he]⟩
      obtain ⟨rfl, rfl⟩ := meanAndSpread_unique hS h4' hms
      refine ⟨w, fun e he => ?_, g4⟩
      rw [← hw e he]
      obtain ⟨q, hq, hq', -⟩ := quantileLevel_eq (K := K) he
      rw [hq, hq']
  · rw [if_neg hS]
    obtain ⟨g, g1, g2, g3, g4⟩ := putMembers_spec hi hj (vals := (List.range E).map raw) (by simp) hf
    refine ⟨g, raw, g1, g2, fun e he => g3 e _ (by simp [he]), ⟨fun _ _ _ => rfl, fun S' r' m' s' h1 h2 _ _ => ?_⟩, g4⟩
    obtain ⟨e, he⟩ := h2
    exact absurd (Finset.card_pos.mpr ⟨e, (hSmem e).mpr ((h1 e).mp he)⟩) hS

/-- **C124** (ensemble), without neighbours. Each grid point is calibrated by itself, from the mean and the standard deviation of its members
that are there. -/
theorem c124_ensemble_partial {mk : Fl K → Fl K → Dist K} {Phi Q : K → K} (hmk : NormalFamily mk Phi Q) (A : Arma K) (hA : Arma.Lawful A)
    {Y X E : Nat} (hE : 0 < E) {par : Nat → Nat → Nat → List (Fl K)} {fields : List (FieldC K)} (hs : Series Y X E fields)
    (hp : ∀ t < fields.length, ∀ y < Y, ∀ x < X, GaussPars (par t y x)) :
    ∃ out, gaussCore mk A 0 Y X E par fields = ok out ∧ out.length = fields.length ∧ Series Y X E out ∧
      ∀ t < fields.length, ∀ y < Y, ∀ x < X, ∃ raw new, (∀ e < E, At fields t y x e (raw e)) ∧ (∀ e < E, At out t y x e (new e)) ∧
        GaussCellOut mk (par t y x) E raw new := by
  obtain ⟨out, h1, h2, h3⟩ := eachTime_spec (fields := fields)
    (body := fun t f => Res.omp (FieldC.forCells Y X (fun f i j => gaussCell mk A 0 Y X E (par t i j) f i j) f))
    (P := fun t f g => Sized Y X E g ∧ ∀ y < Y, ∀ x < X, ∃ raw new, (∀ e < E, f.get y x e = ok (raw e)) ∧ (∀ e < E, g.get y x e = ok (new e)) ∧
      GaussCellOut mk (par t y x) E raw new) (by
      intro t f hf
      have ht := (List.getElem?_eq_some_iff.mp hf).1
      obtain ⟨out, h1, h2, h3⟩ := forCells_spec (Y := Y) (X := X) (E := E) (fun f i j => gaussCell mk A 0 Y X E (par t i j) f i j)
        (fun y x u v => ∃ raw new, (∀ e < E, u e = ok (raw e)) ∧ (∀ e < E, v e = ok (new e)) ∧ GaussCellOut mk (par t y x) E raw new) (by
          intro f hf i hi j hj
          have hex : ∀ e, ∃ v, e < E → f.get i j e = ok v := by
            intro e
            by_cases he : e < E
            · obtain ⟨v, hv⟩ := hf.exists_get hi hj he
              exact ⟨v, fun _ => hv⟩
            · exact ⟨MV, fun h => absurd h he⟩
          choose raw hraw using hex
          obtain ⟨g, new, g1, g2, g3, g4, g5⟩ := gauss_cell hmk A hA hE (hp t ht i hi j hj) hf hi hj hraw
          exact ⟨g, g1, g2, ⟨raw, new, hraw, g3, g4⟩, g5⟩) f (hs f (List.mem_of_getElem? hf))
      exact ⟨out, by rw [h1]; rfl, h2, h3⟩)
  refine ⟨out, h1, h2, ?_, ?_⟩
  · intro g hg
    obtain ⟨t, ht, rfl⟩ := List.mem_iff_getElem.mp hg
    obtain ⟨g', g1, g2, -⟩ := h3 t _ (List.getElem?_eq_getElem (by omega))
    rw [List.getElem?_eq_getElem ht, Option.some.injEq] at g1
    rw [g1]; exact g2
  · intro t ht y hy x hx
    obtain ⟨g, g1, g2, g3⟩ := h3 t _ (List.getElem?_eq_getElem ht)
    obtain ⟨raw, new, r1, r2, r3⟩ := g3 y hy x hx
    exact ⟨raw, new, fun e he => ⟨_, List.getElem?_eq_getElem ht, r1 e he⟩, fun e he => ⟨g, g1, r2 e he⟩, r3⟩

/-- The value for the level (e + 1/2) / E. -/
def gaussQuantile (Q : K → K) (a b m s : K) (E e : Nat) : K := m + HasExp.exp (a + b * s) * Q (((e : K) + 1 / 2) / (E : K))

omit [LawfulSqrt K] in
/-- The quantiles of a grid point, if its mean is above 0. -/
theorem gauss_quantiles {mk : Fl K → Fl K → Dist K} {Phi Q : K → K} (hmk : NormalFamily mk Phi Q) {p : List (Fl K)} {a b m s : K}
    (hp : Pars2 p a b) (hm : 0 < m) (hs : 0 ≤ s) {E : Nat} {w : Nat → Fl K}
    (hw : ∀ e < E, gaussInvCdf mk (fin (((e : K) + 1 / 2) / (E : K))) (fin m) (fin s) p = ok (w e)) :
    ∀ e < E, w e = fin (gaussQuantile Q a b m s E e) := by
  intro e he
  obtain ⟨q, -, hq, h0, h1⟩ := quantileLevel_eq (K := K) he
  have := hw e he
  rw [← hq, c124_quantile hmk hp hm hs h0 h1, Res.ok.injEq, hq] at this
  exact this.symm

omit [LawfulSqrt K] in
/-- **C124** (rank). If nothing is missing, no two members are equal, the mean is above 0 and no quantile is -999, the member with `k` members
below it gets the quantile of the level (k + 1/2) / E. -/
theorem c124_rank_partial {mk : Fl K → Fl K → Dist K} {Phi Q : K → K} (hmk : NormalFamily mk Phi Q) {p : List (Fl K)} {a b m s : K}
    (hp : Pars2 p a b) {E : Nat} {raw new : Nat → Fl K} (h : GaussCellOut mk p E raw new) {r : Nat → K}
    (hr : ∀ e < E, raw e = fin (r e) ∧ r e ≠ -999) (hd : ∀ i < E, ∀ j < E, r i = r j → i = j) (hms : MeanAndSpread (Finset.range E) r m s)
    (hm : 0 < m) (hne : ∀ e < E, gaussQuantile Q a b m s E e ≠ -999) :
    ∀ e < E, new e = fin (gaussQuantile Q a b m s E (rankOf E r e)) := by
  intro e0 he0
  obtain ⟨w, hw, hre⟩ := h.2 (Finset.range E) r m s (fun e => ⟨fun he => ⟨Finset.mem_range.mp he, ⟨r e, hr e (Finset.mem_range.mp he)⟩⟩,
    fun he => Finset.mem_range.mpr he.1⟩) ⟨e0, Finset.mem_range.mpr he0⟩ (fun e he => (hr e (Finset.mem_range.mp he)).1) hms
  have hwv := gauss_quantiles hmk hp hm hms.nonneg hw
  rcases hre with ⟨⟨e, he, hn⟩, -⟩ | ⟨-, ⟨e, he, hn⟩, -⟩ | ⟨r', v, out, hr', hv, ho, hreo⟩
  · exact absurd ⟨_, hwv e he, hne e he⟩ hn
  · exact absurd ⟨r e, hr e he⟩ hn
  · have hrr : ∀ e < E, r' e = r e := by
      intro e he
      have := (hr' e he).1
      rw [(hr e he).1, Fl.fin.injEq] at this
      exact this.symm
    have hvv : ∀ e < E, v e = gaussQuantile Q a b m s E e := by
      intro e he
      have := (hv e he).1
      rw [hwv e he, Fl.fin.injEq] at this
      exact this.symm
    have hreo' : Reordered E r v out := ⟨hreo.perm, fun i hi j hj hij => hreo.order i hi j hj (by rw [hrr i hi, hrr j hj]; exact hij)⟩
    have hE : (0 : K) < (E : K) := by exact_mod_cast (show 0 < E by omega)
    have hQ : ∀ i j, i ≤ j → j < E → Q (((i : K) + 1 / 2) / (E : K)) ≤ Q (((j : K) + 1 / 2) / (E : K)) := by
      intro i j hij hj
      by_contra hlt
      have hlt := hmk.mono _ _ (not_le.mp hlt)
      obtain ⟨q, -, rfl, h0, h1⟩ := quantileLevel_eq (K := K) hj
      obtain ⟨q', -, rfl, h0', h1'⟩ := quantileLevel_eq (K := K) (lt_of_le_of_lt hij hj)
      rw [hmk.inverse _ h0 h1, hmk.inverse _ h0' h1', div_lt_div_iff_of_pos_right hE] at hlt
      have : (i : K) ≤ (j : K) := by exact_mod_cast hij
      linarith
    have hmono : ∀ i j, i ≤ j → j < E → v i ≤ v j := by
      intro i j hij hj
      rw [hvv i (by omega), hvv j hj]
      unfold gaussQuantile
      have := mul_le_mul_of_nonneg_left (hQ i j hij hj) (LawfulExp.exp_pos (a + b * s)).le
      linarith
    obtain ⟨k1, k2⟩ := reordered_rank hreo' hd hmono e0 he0
    rw [ho e0 he0, k2, hvv _ k1]

omit [LawfulSqrt K] in
theorem gauss_symmetric {mk : Fl K → Fl K → Dist K} {Phi Q : K → K} (hmk : NormalFamily mk Phi Q) {q : K} (h0 : 0 < q) (h1 : q < 1) :
    Q (1 - q) = -Q q := by
  have hinj : ∀ x y, Phi x = Phi y → x = y := by
    intro x y h
    rcases lt_trichotomy x y with hxy | hxy | hxy
    · exact absurd h (hmk.mono _ _ hxy).ne
    · exact hxy
    · exact absurd h (hmk.mono _ _ hxy).ne'
  apply hinj
  rw [hmk.inverse _ (by linarith) (by linarith), hmk.symmetric, hmk.inverse _ h0 h1]

omit [LawfulSqrt K] in
/-- **C124** (mean). If nothing is missing, the mean is above 0 and no quantile is -999, the calibration does not change the mean of the
members. -/
theorem c124_mean_partial {mk : Fl K → Fl K → Dist K} {Phi Q : K → K} (hmk : NormalFamily mk Phi Q) {p : List (Fl K)} {a b m s : K}
    (hp : Pars2 p a b) {E : Nat} (hE : 0 < E) {raw new : Nat → Fl K} (h : GaussCellOut mk p E raw new) {r : Nat → K}
    (hr : ∀ e < E, raw e = fin (r e) ∧ r e ≠ -999) (hms : MeanAndSpread (Finset.range E) r m s)
    (hm : 0 < m) (hne : ∀ e < E, gaussQuantile Q a b m s E e ≠ -999) :
    ∃ o : Nat → K, (∀ e < E, new e = fin (o e)) ∧ ∑ e ∈ Finset.range E, o e = ∑ e ∈ Finset.range E, r e := by
  obtain ⟨w, hw, hre⟩ := h.2 (Finset.range E) r m s (fun e => ⟨fun he => ⟨Finset.mem_range.mp he, ⟨r e, hr e (Finset.mem_range.mp he)⟩⟩,
    fun he => Finset.mem_range.mpr he.1⟩) ⟨0, Finset.mem_range.mpr hE⟩ (fun e he => (hr e (Finset.mem_range.mp he)).1) hms
  have hwv := gauss_quantiles hmk hp hm hms.nonneg hw
  rcases hre with ⟨⟨e, he, hn⟩, -⟩ | ⟨-, ⟨e, he, hn⟩, -⟩ | ⟨r', v, out, hr', hv, ho, hreo⟩
  · exact absurd ⟨_, hwv e he, hne e he⟩ hn
  · exact absurd ⟨r e, hr e he⟩ hn
  · refine ⟨out, ho, ?_⟩
    have hvv : ∀ e < E, v e = gaussQuantile Q a b m s E e := by
      intro e he
      have := (hv e he).1
      rw [hwv e he, Fl.fin.injEq] at this
      exact this.symm
    have hE' : (0 : K) < (E : K) := by exact_mod_cast hE
    have h1 : ∑ e ∈ Finset.range E, out e = ∑ e ∈ Finset.range E, v e := by
      have := hreo.perm.sum_eq
      exact this
    have hQ : ∑ e ∈ Finset.range E, Q (((e : K) + 1 / 2) / (E : K)) = 0 := by
      have hrefl := Finset.sum_range_reflect (fun e : Nat => Q (((e : K) + 1 / 2) / (E : K))) E
      have hneg : ∑ e ∈ Finset.range E, Q ((((E - 1 - e : Nat) : K) + 1 / 2) / (E : K)) = -∑ e ∈ Finset.range E, Q (((e : K) + 1 / 2) / (E : K)) := by
        rw [← Finset.sum_neg_distrib]
        refine Finset.sum_congr rfl fun e he => ?_
        obtain ⟨q, -, hq, h0, h1⟩ := quantileLevel_eq (K := K) (Finset.mem_range.mp he)
        rw [← hq, ← gauss_symmetric hmk h0 h1, hq]
        congr 1
        have : ((E - 1 - e : Nat) : K) = (E : K) - 1 - (e : K) := by
          have := Finset.mem_range.mp he
          rw [Nat.cast_sub (by omega), Nat.cast_sub (by omega), Nat.cast_one]
        rw [this]
        field_simp
        ring
      rw [hneg] at hrefl
      linarith
    rw [h1, Finset.sum_congr rfl fun e he => hvv e (Finset.mem_range.mp he)]
    unfold gaussQuantile
    rw [Finset.sum_add_distrib, ← Finset.mul_sum, hQ, Finset.sum_const, nsmul_eq_mul, mul_zero, add_zero, hms.mean]

omit [LawfulSqrt K] in
/-- **C124** (missing members) is false: if some members are missing but not all, the mean of the others is above 0 and no quantile is -999,
then all members, the missing ones too, become the quantiles in increasing order, whatever the order of the others was. -/
theorem c124_some_missing_false {mk : Fl K → Fl K → Dist K} {Phi Q : K → K} (hmk : NormalFamily mk Phi Q) {p : List (Fl K)} {a b m s : K}
    (hp : Pars2 p a b) {E : Nat} {raw new : Nat → Fl K} (h : GaussCellOut mk p E raw new) {S : Finset Nat} {r : Nat → K}
    (hS : ∀ e, e ∈ S ↔ e < E ∧ Present (raw e)) (hSn : S.Nonempty) (hr : ∀ e ∈ S, raw e = fin (r e)) (hmiss : ∃ e < E, ¬ Present (raw e))
    (hms : MeanAndSpread S r m s) (hm : 0 < m) (hne : ∀ e < E, gaussQuantile Q a b m s E e ≠ -999) :
    ∀ e < E, new e = fin (gaussQuantile Q a b m s E e) := by
  obtain ⟨w, hw, hre⟩ := h.2 S r m s hS hSn hr hms
  have hwv := gauss_quantiles hmk hp hm hms.nonneg hw
  rcases hre with ⟨⟨e, he, hn⟩, -⟩ | ⟨-, -, ho⟩ | ⟨r', v, out, hr', hv, ho, hreo⟩
  · exact absurd ⟨_, hwv e he, hne e he⟩ hn
  · intro e he
    rw [ho e he, hwv e he]
  · obtain ⟨e, he, hn⟩ := hmiss
    exact absurd ⟨r' e, hr' e he⟩ hn

omit [LawfulSqrt K] in
/-- **C124** (mean up to 0) is false: the members are not changed then. -/
theorem c124_low_mean_false {mk : Fl K → Fl K → Dist K} {p : List (Fl K)} {a b m s : K} (hp : Pars2 p a b) {E : Nat} (hE : 0 < E)
    {raw new : Nat → Fl K} (h : GaussCellOut mk p E raw new) {r : Nat → K} (hr : ∀ e < E, raw e = fin (r e) ∧ r e ≠ -999)
    (hms : MeanAndSpread (Finset.range E) r m s) (hm : m ≤ 0) : ∀ e < E, new e = raw e := by
  obtain ⟨w, hw, hre⟩ := h.2 (Finset.range E) r m s (fun e => ⟨fun he => ⟨Finset.mem_range.mp he, ⟨r e, hr e (Finset.mem_range.mp he)⟩⟩,
    fun he => Finset.mem_range.mpr he.1⟩) ⟨0, Finset.mem_range.mpr hE⟩ (fun e he => (hr e (Finset.mem_range.mp he)).1) hms
  have hw0 : ¬ Present (w 0) := by
    have : gaussInvCdf mk (fin ((((0 : Nat) : K) + 1 / 2) / (E : K))) (fin m) (fin s) p = ok MV := by
      apply c124_missing
      rcases hm.lt_or_eq with h | rfl
      · exact Or.inr (Or.inr (Or.inr (Or.inl ⟨m, rfl, h⟩)))
      · exact Or.inr (Or.inr (Or.inr (Or.inr (Or.inr (Or.inr ⟨⟨a, b, hp⟩, rfl⟩)))))
    rw [hw 0 hE, Res.ok.injEq] at this
    rw [this]; exact not_present_MV
  rcases hre with ⟨-, ho⟩ | ⟨hn, -, -⟩ | ⟨r', v, out, hr', hv, ho, hreo⟩
  · exact ho
  · exact absurd (hn 0 hE) hw0
  · exact absurd ⟨v 0, hv 0 hE⟩ hw0

/-! ### Examples -/

/-- A family as assumed: `Phi x = (1 + x / (1 + |x|)) / 2` in place of the normal distribution function. -/
def exampleNormal (m s : Fl K) : Dist K :=
  ⟨fun x => match m, s, x with
    | fin m, fin s, fin x => ok (fin ((1 + (x - m) / s / (1 + |(x - m) / s|)) / 2))
    | _, _, _ => .ub,
  fun l => match m, s, l with
    | fin m, fin s, fin p => ok (fin (m + s * ((2 * p - 1) / (1 - |2 * p - 1|))))
    | _, _, _ => .ub⟩

omit [LawfulSqrt K] [LawfulExp K] in
theorem exampleNormal_family : NormalFamily (exampleNormal (K := K)) (fun x => (1 + x / (1 + |x|)) / 2) fun p => (2 * p - 1) / (1 - |2 * p - 1|) where
  cdf m s x _ := rfl
  quantile m s p _ _ _ := rfl
  range x := by
    have h0 : 0 < 1 + |x| := by positivity
    have h1 := le_abs_self x
    have h2 := neg_abs_le x
    have h3 : x / (1 + |x|) < 1 := by rw [div_lt_one h0]; linarith
    have h4 : -1 < x / (1 + |x|) := by rw [lt_div_iff₀ h0]; linarith
    constructor <;> linarith
  mono x y hxy := by
    have h0 : 0 < 1 + |x| := by positivity
    have h0' : 0 < 1 + |y| := by positivity
    have : x / (1 + |x|) < y / (1 + |y|) := by
      rw [div_lt_div_iff₀ h0 h0']
      rcases le_or_gt 0 x with hx | hx <;> rcases le_or_gt 0 y with hy | hy
      · rw [abs_of_nonneg hx, abs_of_nonneg hy]; nlinarith
      · linarith
      · rw [abs_of_neg hx, abs_of_nonneg hy]; nlinarith
      · rw [abs_of_neg hx, abs_of_neg hy]; nlinarith
    linarith
  symmetric x := by
    rw [abs_neg, neg_div]
    ring
  inverse p h0 h1 := by
    have ha : |2 * p - 1| < 1 := abs_lt.mpr ⟨by linarith, by linarith⟩
    have hb : 0 < 1 - |2 * p - 1| := by linarith
    rw [abs_div, abs_of_pos hb]
    have e1 : 1 + |2 * p - 1| / (1 - |2 * p - 1|) = 1 / (1 - |2 * p - 1|) := by field_simp; ring
    rw [e1]
    field_simp
    ring

/-- The calibrator of two examples: values of `E` members at one row of grid points, with the distribution `exampleNormal`. -/
def gaussLine (nb X E : Nat) (v : List (Fl ℚ)) : Res (List (List (Fl ℚ))) := do
  let out ← gaussCore exampleNormal ⟨fun _ => ub, id⟩ nb 1 X E (fun _ _ _ => [0, 0].map fin) [⟨v, 1, X, E⟩]
  ok (out.map fun f => f.values)

/-- **C124** (neighbours) is false: two grid points have the same neighbours and parameters and yet get different values, as the second one
is calibrated with the new value of the first one. -/
theorem c124_neighbour_false : gaussLine 1 2 1 [fin 2, fin 4] = ok [[fin 3, fin (7 / 2)]] := by decide +kernel

/-- A missing member becomes a number. -/
theorem c124_missing_filled : gaussLine 0 1 2 [fin 4, MV] = ok [[fin 3, fin 5]] := by decide +kernel

omit [LawfulSqrt K] [LawfulExp K] in
/-- The hypotheses hold for the members 3 and 5. -/
example : MeanAndSpread (K := K) (Finset.range 2) (fun e => if e = 0 then 3 else 5) 4 1 ∧ Pars2 (K := K) ([0, 1].map fin) 0 1 ∧
    (0 : K) < 4 := by
  refine ⟨⟨?_, by norm_num, ?_⟩, ⟨?_, rfl, rfl⟩, by norm_num⟩
  · simp [Finset.sum_range_succ]; norm_num
  · simp [Finset.sum_range_succ]; norm_num
  · intro v hv
    simp only [List.map_cons, List.map_nil, List.mem_cons, List.not_mem_nil, or_false] at hv
    rcases hv with rfl | rfl
    · exact ⟨_, rfl, by norm_num⟩
    · exact ⟨_, rfl, by norm_num⟩

end Gridpp.Props
