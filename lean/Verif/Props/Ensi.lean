import Verif.Lemmas.Ensi

/-! Property C52: ensemble-based optimal interpolation leaves incomplete members and unaffected points untouched. -/

set_option linter.unusedSectionVars false

namespace Gridpp.Props
open Fl Res

section
variable {K : Type} [Field K] [LinearOrder K] [IsStrictOrderedRing K] [HasGeo K] [LawfulSqrt K] [HasExp K]

/-- What is required of the libraries: `std::sort` sorts, `arma::inv` gives a matrix or throws `std::runtime_error`. Nothing is
required of the numbers that `arma::inv`, `arma::rcond` and `arma::eig_sym` give. -/
structure Libraries (A : Arma K) : Prop where
  sort_perm : ∀ l : List (Fl K × Nat), (∀ e ∈ l, e.1 ≠ nan) → (A.sortFirst l).Perm l
  sort_sorted : ∀ l : List (Fl K × Nat), (∀ e ∈ l, e.1 ≠ nan) → (A.sortFirst l).Pairwise fun a b => b.1.lt a.1 = false
  inv_total : ∀ M, (∃ N, A.inv M = ok N) ∨ A.inv M = .throw .runtimeError

/-- Points as constructed, of the same coordinate type, at least one output point and one observation, numbers for the
correlations. -/
structure EnsPoints (T : RTree K) (A : Arma K) (bp points : Points K) (s : SF K) (maxPoints : Int) (L : Nat → Fl K) (G : Nat → Nat → K) :
    Prop where
  htree : T.Lawful
  hlib : Libraries A
  hbp : bp.WF
  hpoints : points.WF
  htype : bp.type = points.type
  hcells : 0 < bp.size
  hobs : 0 < points.size
  hmax : 0 ≤ maxPoints
  hcorr : CellCorrelations T s bp points L G

/-- The result is the background except for members that are complete and output points with a usable observation; `raise`
holds for the exceptions that may be thrown instead. -/
def Untouched (r : Res (List (List (Fl K)))) (background : List (List (Fl K))) (Y E : Nat) (complete : Nat → Prop)
    (affected : Nat → Prop) (raise : Exc → Prop) : Prop :=
  (∃ out, r = ok out ∧ Rect Y E out ∧ (∀ y e, ¬ complete e → cell? out y e = cell? background y e) ∧
    (∀ y, ¬ affected y → out[y]? = background[y]?)) ∨ ∃ e, r = .throw e ∧ raise e

variable {T : RTree K} {bp points : Points K} {s : SF K} {maxPoints : Int} {L : Nat → Fl K} {G : Nat → Nat → K}

theorem EnsPoints.pts {A : Arma K} (h : EnsPoints T A bp points s maxPoints L G) :
    ∃ pts, mapM (fun i : Nat => points.getPoint (i : Int)) (List.range points.size) = ok pts :=
  mapM_exists (f := fun i : Nat => points.getPoint (i : Int)) (List.range points.size) fun i hi => by
    obtain ⟨p, -, hp, -⟩ := h.hpoints.point (List.mem_range.mp hi)
    exact ⟨p, hp⟩

/-- From the loop over the output points to the whole field. -/
theorem untouched_of_cells {f : Nat → Res (List (Fl K))} {background : List (List (Fl K))} {Y E : Nat} (hb : Rect Y E background)
    {complete affected : Nat → Prop} {raise : Exc → Prop}
    (h : ∀ y row, background[y]? = some row → (∃ out, f y = ok out ∧ out.length = E ∧
      (∀ e, ¬ complete e → out[e]? = row[e]?) ∧ (¬ affected y → out = row)) ∨ ∃ e, f y = .throw e ∧ raise e) :
    Untouched (mapM f (List.range background.length)) background Y E complete affected raise := by
  rcases mapM_range_cases f raise (fun y out => out.length = E ∧ ∀ row, background[y]? = some row →
      (∀ e, ¬ complete e → out[e]? = row[e]?) ∧ (¬ affected y → out = row)) background.length (fun y hy => by
    rcases h y _ (List.getElem?_eq_getElem hy) with ⟨out, h1, h2, h3, h4⟩ | h
    · left
      refine ⟨out, h1, h2, fun row hrow => ?_⟩
      rw [List.getElem?_eq_getElem hy] at hrow
      cases hrow
      exact ⟨h3, h4⟩
    · exact Or.inr h) with ⟨out, h1, h2, h3⟩ | h
  · left
    have hrow : ∀ (y : Nat) r, out[y]? = some r → ∃ row, background[y]? = some row ∧ r.length = E ∧
        (∀ e, ¬ complete e → r[e]? = row[e]?) ∧ (¬ affected y → r = row) := by
      intro y r hr
      have hy : y < background.length := by rw [← h2]; exact (List.getElem?_eq_some_iff.mp hr).1
      obtain ⟨b, hb1, hb2, hb3⟩ := h3 y hy
      rw [hr] at hb1
      cases hb1
      exact ⟨_, List.getElem?_eq_getElem hy, hb2, hb3 _ (List.getElem?_eq_getElem hy)⟩
    refine ⟨out, h1, ⟨h2.trans hb.1, fun r hr => ?_⟩, fun y e he => ?_, fun y hy => ?_⟩
    · obtain ⟨y, hy⟩ := List.mem_iff_getElem?.mp hr
      obtain ⟨-, -, h, -⟩ := hrow y r hy
      exact h
    · unfold cell?
      cases ho : out[y]? with
      | none =>
        rw [List.getElem?_eq_none_iff, h2] at ho
        rw [List.getElem?_eq_none_iff.mpr ho]
      | some r =>
        obtain ⟨row, hb1, -, hb3, -⟩ := hrow y r ho
        rw [hb1]
        exact hb3 e he
    · cases ho : out[y]? with
      | none =>
        rw [List.getElem?_eq_none_iff, h2] at ho
        rw [List.getElem?_eq_none_iff.mpr ho]
      | some r =>
        obtain ⟨row, hb1, -, -, hb4⟩ := hrow y r ho
        rw [hb1, hb4 hy]
  · exact Or.inr h

theorem EnsPoints.select {A : Arma K} (h : EnsPoints T A bp points s maxPoints L G) {pts : List (Point K)}
    (hpts : mapM (fun i : Nat => points.getPoint (i : Int)) (List.range points.size) = ok pts)
    {obs : Nat → Res (Fl K)} {o : Nat → Fl K} (hobs : ∀ i < points.size, obs i = ok (o i)) {y : Nat} (hy : y < bp.size) :
    ∃ r : List Nat, ensiSelect T A bp points pts s maxPoints obs y = ok (rhoPairs (G y) r) ∧ (∀ i ∈ r, i < points.size) ∧
      (r = [] ↔ ¬ ∃ i, UsableObs bp points (fun i => (o i).isValid = true) (L y) (G y) y i) := by
  obtain ⟨r, h1, h2, -, h3⟩ := ensiSelect_spec h.htree h.hlib.sort_perm h.hlib.sort_sorted h.hbp h.hpoints h.htype h.hcorr hpts h.hmax hobs hy
  exact ⟨r, h1, h2, by rw [h3, not_exists]⟩

theorem ensiTransform_cases {A : ArmaE K} (hA : Libraries A.toArma) (n : Nat) (rows : List (EnsiObs K)) (diag : Fl K) :
    (∃ t, ensiTransform A n rows diag = ok t) ∨
      (ensiTransform A n rows diag = .throw .runtimeError ∧ ∃ M, A.inv M = .throw .runtimeError) := by
  unfold ensiTransform
  by_cases hr : (A.rcond (ensiPinv n rows diag)).le 0 = true
  · simp only [hr, if_true]
    exact Or.inl ⟨_, rfl⟩
  · simp only [hr]
    rcases hA.inv_total (ensiPinv n rows diag) with ⟨N, hN⟩ | hN
    · left; rw [hN, ok_bind]; exact ⟨_, rfl⟩
    · right; rw [hN]; exact ⟨rfl, _, hN⟩

theorem ensiUpdate_ok (row : List (Fl K)) (members : List Nat) (hm : ∀ e ∈ members, e < row.length) (rows : List (EnsiObs K))
    (extrap : Bool) (t : Option (List (List (Fl K)) × List (Fl K))) :
    ∃ out, ensiUpdate row members rows extrap t = ok out ∧ out.length = row.length ∧ ∀ i, i ∉ members → out[i]? = row[i]? := by
  cases t with
  | none => exact ⟨row, rfl, rfl, fun _ _ => rfl⟩
  | some t =>
    obtain ⟨W, w⟩ := t
    obtain ⟨vals, hv, -⟩ := mapM_vget_some row members hm
    simp only [ensiUpdate, hv, ok_bind]
    obtain ⟨out, h1, h2, h3, -⟩ := writeMembers_eq row members ((List.range members.length).map (ensiMember rows extrap
      ((sumTo vals.length fun k => vals.getD k nan) / Fl.ofNat vals.length)
      (vals.map fun v => v - (sumTo vals.length fun k => vals.getD k nan) / Fl.ofNat vals.length)
      fun k e => ent W k e + w.getD k nan)) hm
    exact ⟨out, h1, h2, h3⟩

/-- `optimal_interpolation_ensi` for points: with fields of matching sizes and any missing values, members with a missing value
anywhere in the background keep it everywhere, points without a usable observation (valid, within the radius, positively
correlated) keep all members. There is no undefined behaviour, and the only possible exception is the one that `arma::inv`
throws. -/
theorem c52_ensi {A : ArmaE K} (h : EnsPoints T A.toArma bp points s maxPoints L G) {E : Nat} {background pbg : List (List (Fl K))}
    {pobs psigmas : List (Fl K)} (hb : Rect bp.size E background) (hpobs : pobs.length = points.size)
    (hsig : psigmas.length = points.size) (hpbg : Rect points.size E pbg) (extrap : Bool) :
    Untouched (ensiPoints T A bp background points pobs psigmas pbg s maxPoints extrap) background bp.size E (Complete background)
      (fun y => ∃ i, UsableObs bp points (fun i => ∃ o, pobs[i]? = some (fin o)) (L y) (G y) y i)
      (fun e => e = .runtimeError ∧ ∃ M, A.inv M = .throw .runtimeError) := by
  obtain ⟨pts, hpts⟩ := h.pts
  obtain ⟨members, hmem, hsub, hmi⟩ := validMembers_eq E background (fun r hr => (hb.2 r hr).ge)
  obtain ⟨r0, hr0⟩ := exists_getElem? (v := background) (n := 0) (by rw [hb.1]; exact h.hcells)
  have hl0 : r0.length = E := hb.2 r0 (List.mem_iff_getElem?.mpr ⟨0, hr0⟩)
  have hmE : ∀ e ∈ members, e < E := fun e he => ((hmi e).mp he).1
  obtain ⟨gY, hgY, hgl⟩ : ∃ gY, mapM (ensiPerturb E) pbg = ok gY ∧ List.Forall₂ (fun _ (g : List (Fl K) × Fl K) => g.1.length = E) pbg gY := by
    have hg := mapM_cases (ensiPerturb E) (fun _ => False) (fun _ g => g.1.length = E) pbg (fun r hr => by
      left
      exact ⟨_, ensiPerturb_eq E r (hpbg.2 r hr).ge, by simp⟩)
    rcases hg with hg | ⟨-, -, h⟩
    · exact hg
    · exact h.elim
  have hgE : ∀ i < points.size, ∃ g, gY[i]? = some g ∧ g.1.length = E := by
    intro i hi
    have hl : pbg.length = gY.length := hgl.length_eq
    have hi1 : i < pbg.length := by rw [hpbg.1]; exact hi
    exact ⟨_, List.getElem?_eq_getElem (by omega), (List.forall₂_iff_get.mp hgl).2 i hi1 (by omega)⟩
  have hrun : ensiPoints T A bp background points pobs psigmas pbg s maxPoints extrap =
      mapM (ensiCell T A bp points pts s maxPoints extrap background pobs psigmas gY members) (List.range background.length) := by
    unfold ensiPoints
    rw [if_neg (not_lt.mpr h.hmax), if_neg (not_not.mpr h.htype), if_neg (not_not.mpr hb.1), if_neg (not_not.mpr hpobs),
      if_neg (not_not.mpr hsig), if_neg (not_not.mpr hpbg.1), if_neg (by have := h.hobs; omega)]
    have : vget background 0 = ok r0 := vget_some hr0
    rw [this, ok_bind, hl0, hgY, ok_bind, hpts, ok_bind, hmem, ok_bind]
  rw [hrun]
  apply untouched_of_cells hb
  intro y row hrow
  have hy : y < bp.size := by rw [← hb.1]; exact (List.getElem?_eq_some_iff.mp hrow).1
  have hlen : row.length = E := hb.2 row (List.mem_iff_getElem?.mpr ⟨y, hrow⟩)
  obtain ⟨r, hr1, hr2, hr3⟩ := h.select hpts (obs := fun i => vget pobs (i : Int)) (o := fun i => pobs.getD i nan) (fun i hi => by
    have : i < pobs.length := by omega
    rw [vget_some (List.getElem?_eq_getElem this)]
    simp [List.getD, this]) hy
  have hus : (¬ ∃ i, UsableObs bp points (fun i => ∃ o, pobs[i]? = some (fin o)) (L y) (G y) y i) ↔ r = [] := by
    rw [hr3, not_iff_not]
    unfold UsableObs
    constructor
    · rintro ⟨i, h1, ⟨o, ho⟩, h3⟩
      exact ⟨i, h1, by simp [List.getD, ho], h3⟩
    · rintro ⟨i, h1, h2, h3⟩
      refine ⟨i, h1, ?_, h3⟩
      obtain ⟨q, hq⟩ := exists_fin_of_valid h2
      refine ⟨q, ?_⟩
      cases hp : pobs[i]? with
      | none => simp [List.getD, hp] at hq
      | some v => simp [List.getD, hp] at hq; rw [hq]
  unfold ensiCell
  rw [vget_some hrow, ok_bind, hr1, ok_bind]
  by_cases h0 : r = []
  · left
    rw [h0]
    exact ⟨row, rfl, hlen, fun _ _ => rfl, fun _ => rfl⟩
  · rw [if_neg (by simpa [rhoPairs] using h0)]
    obtain ⟨rows, hrows⟩ : ∃ rows, mapM (ensiRow members pobs psigmas gY) (rhoPairs (G y) r) = ok rows :=
      mapM_exists _ fun e he => by
        obtain ⟨i, hi, rfl⟩ := List.mem_map.mp he
        obtain ⟨o, ho⟩ := exists_getElem? (v := pobs) (n := i) (by rw [hpobs]; exact hr2 i hi)
        obtain ⟨sg, hsg⟩ := exists_getElem? (v := psigmas) (n := i) (by rw [hsig]; exact hr2 i hi)
        obtain ⟨g, hg, hgl⟩ := hgE i (hr2 i hi)
        obtain ⟨l, hl, -⟩ := mapM_vget_some g.1 members (fun e he => by rw [hgl]; exact hmE e he)
        refine ⟨⟨o, fin (G y i) / (sg * sg), g.2, l, l⟩, ?_⟩
        unfold ensiRow
        rw [vget_some ho, ok_bind, vget_some hg, ok_bind, hl, ok_bind, vget_some hsg, ok_bind]
    rw [hrows, ok_bind]
    rcases ensiTransform_cases h.hlib members.length rows (Fl.ofInt ((members.length : Int) - 1)) with ⟨t, ht⟩ | ⟨ht, hM⟩
    · left
      rw [ht, ok_bind]
      obtain ⟨out, h1, h2, h3⟩ := ensiUpdate_ok row members (fun e he => by rw [hlen]; exact hmE e he) rows extrap t
      refine ⟨out, h1, by rw [h2, hlen], fun e he => h3 e (fun c => he ((hmi e).mp c).2), fun hn => absurd (hus.mp hn) h0⟩
    · right
      exact ⟨.runtimeError, by rw [ht]; rfl, rfl, hM⟩

end
end Gridpp.Props
