import Verif.Model.Ensi
import Verif.Lemmas.OI2
import Verif.Lemmas.Fill

/-! Lemmas about the ensemble-based optimal interpolation: valid members, selection, writing. -/

set_option linter.unusedSectionVars false

namespace Gridpp
open Fl Res Matrix Props

section
variable {K : Type} [Field K] [LinearOrder K] [IsStrictOrderedRing K]

/-- Member `e` has a number in each of the rows. -/
def Complete (rows : List (List (Fl K))) (e : Nat) : Prop := ∀ r ∈ rows, ∃ v, r[e]? = some (fin v)

theorem mapM_cases {α β : Type} (f : α → Res β) (Q : Exc → Prop) (P : α → β → Prop) (l : List α)
    (h : ∀ a ∈ l, (∃ b, f a = ok b ∧ P a b) ∨ ∃ e, f a = .throw e ∧ Q e) :
    (∃ bs, mapM f l = ok bs ∧ List.Forall₂ P l bs) ∨ ∃ e, mapM f l = .throw e ∧ Q e := by
  induction l with
  | nil => exact Or.inl ⟨[], rfl, .nil⟩
  | cons a t ih =>
    rw [mapM_cons]
    rcases h a (by simp) with ⟨b, hb, hp⟩ | ⟨e, he, hq⟩
    · rw [hb, ok_bind]
      rcases ih fun a ha => h a (List.mem_cons_of_mem _ ha) with ⟨bs, hbs, hf⟩ | ⟨e, he, hq⟩
      · left; rw [hbs]; exact ⟨_, rfl, .cons hp hf⟩
      · right; rw [he]; exact ⟨e, rfl, hq⟩
    · right; rw [he]; exact ⟨e, rfl, hq⟩

theorem mapM_range_cases {β : Type} (f : Nat → Res β) (Q : Exc → Prop) (P : Nat → β → Prop) (n : Nat)
    (h : ∀ y < n, (∃ b, f y = ok b ∧ P y b) ∨ ∃ e, f y = .throw e ∧ Q e) :
    (∃ bs, mapM f (List.range n) = ok bs ∧ bs.length = n ∧ ∀ y < n, ∃ b, bs[y]? = some b ∧ P y b) ∨
      ∃ e, mapM f (List.range n) = .throw e ∧ Q e := by
  rcases mapM_cases f Q P (List.range n) (fun y hy => h y (List.mem_range.mp hy)) with ⟨bs, h1, h2⟩ | h1
  · left
    have hl : bs.length = n := by simpa using h2.length_eq.symm
    refine ⟨bs, h1, hl, fun y hy => ⟨bs[y], List.getElem?_eq_getElem _, ?_⟩⟩
    have := (List.forall₂_iff_get.mp h2).2 y (by simpa using hy) (by omega)
    simpa using this
  · exact Or.inr h1

theorem mapM_vget_some {α : Type} (v : List α) (is : List Nat) (h : ∀ i ∈ is, i < v.length) :
    ∃ l : List α, mapM (fun i : Nat => vget v (i : Int)) is = ok l ∧ l.length = is.length ∧
      ∀ k (hk : k < is.length), l[k]? = v[is[k]]? := by
  induction is with
  | nil => exact ⟨[], rfl, rfl, by simp⟩
  | cons i t ih =>
    obtain ⟨l, h1, h2, h3⟩ := ih fun i hi => h i (List.mem_cons_of_mem _ hi)
    obtain ⟨a, ha⟩ := exists_getElem? (h i (by simp))
    refine ⟨a :: l, by rw [mapM_cons, vget_some ha, ok_bind, h1, ok_bind], by simp [h2], fun k hk => ?_⟩
    cases k with
    | zero => simpa using ha.symm
    | succ k =>
      have := h3 k (by simpa using hk)
      simpa using this

theorem memberValid_eq (rows : List (List (Fl K))) (e : Nat) (h : ∀ r ∈ rows, e < r.length) :
    ∃ b, memberValid rows e = ok b ∧ (b = true ↔ Complete rows e) := by
  unfold memberValid Complete
  rw [mapM_ok (g := fun r => match r[e]? with | some v => v.isValid | none => false)]
  · refine ⟨_, by rw [ok_bind], ?_⟩
    simp only [List.all_map, List.all_eq_true, Function.comp, id]
    constructor
    · intro hh r hr
      have := hh r hr
      cases hv : r[e]? with
      | none => simp [hv] at this
      | some v =>
        simp only [hv] at this
        obtain ⟨q, rfl⟩ := exists_fin_of_valid this
        exact ⟨q, rfl⟩
    · intro hh r hr
      obtain ⟨v, hv⟩ := hh r hr
      simp [hv]
  · intro r hr
    obtain ⟨v, hv⟩ := exists_getElem? (h r hr)
    simp only [vget_some hv, ok_bind, hv]

theorem validMembers_eq (nEns : Nat) (rows : List (List (Fl K))) (h : ∀ r ∈ rows, nEns ≤ r.length) :
    ∃ l : List Nat, validMembers nEns rows = ok l ∧ l.Sublist (List.range nEns) ∧ ∀ e, e ∈ l ↔ e < nEns ∧ Complete rows e := by
  classical
  refine ⟨(List.range nEns).filter fun e => decide (Complete rows e), ?_, List.filter_sublist, by simp⟩
  unfold validMembers
  rw [mapM_ok (g := fun e => if Complete rows e then some e else none)]
  · rw [ok_bind]
    congr 1
    rw [← List.filterMap_eq_filter, List.filterMap_map]
    congr 1
    funext e
    simp [Option.guard]
  · intro e he
    obtain ⟨b, hb, hi⟩ := memberValid_eq rows e fun r hr => lt_of_lt_of_le (List.mem_range.mp he) (h r hr)
    rw [hb, ok_bind]
    by_cases hc : Complete rows e
    · rw [if_pos hc, if_pos (hi.mpr hc)]
    · rw [if_neg hc, if_neg (fun h => hc (hi.mp h))]

theorem writeMembers_eq (row : List (Fl K)) (members : List Nat) (vals : List (Fl K)) (h : ∀ e ∈ members, e < row.length) :
    ∃ out, writeMembers row members vals = ok out ∧ out.length = row.length ∧ (∀ i, i ∉ members → out[i]? = row[i]?) ∧
      (members.Nodup → ∀ (k : Nat) e v, members[k]? = some e → vals[k]? = some v → out[e]? = some v) := by
  unfold writeMembers
  induction members generalizing row vals with
  | nil => exact ⟨row, by simp, rfl, fun _ _ => rfl, by simp⟩
  | cons a t ih =>
    cases vals with
    | nil => exact ⟨row, by simp, rfl, fun _ _ => rfl, by simp⟩
    | cons v vs =>
      obtain ⟨out, h1, h2, h3, h4⟩ := ih (row.set a v) vs (fun e he => by simpa using h e (List.mem_cons_of_mem _ he))
      refine ⟨out, ?_, by simpa using h2, fun i hi => ?_, fun hnd k e w hk hw => ?_⟩
      · rw [List.zip_cons_cons, foldM_cons, vset_nat _ (h a (by simp)), ok_bind, h1]
      · simp only [List.mem_cons, not_or] at hi
        rw [h3 i hi.2, List.getElem?_set_ne (fun c => hi.1 c.symm)]
      · have hnd' := List.nodup_cons.mp hnd
        cases k with
        | zero =>
          simp only [List.getElem?_cons_zero, Option.some.injEq] at hk hw
          subst hk hw
          rw [h3 a hnd'.1, List.getElem?_set_self (h a (by simp))]
        | succ k =>
          simp only [List.getElem?_cons_succ] at hk hw
          exact h4 hnd'.2 k e w hk hw

theorem ensiPerturb_eq (E : Nat) (r : List (Fl K)) (h : E ≤ r.length) :
    ensiPerturb E r = ok ((List.range E).map fun e =>
      if (r.getD e nan).isValid && (meanStat r).isValid then r.getD e nan - meanStat r else r.getD e nan, meanStat r) := by
  have : mapM (fun e : Nat => do
      let v ← vget r (e : Int)
      ok (if v.isValid && (meanStat r).isValid then v - meanStat r else v)) (List.range E) = ok ((List.range E).map fun e =>
        if (r.getD e nan).isValid && (meanStat r).isValid then r.getD e nan - meanStat r else r.getD e nan) := by
    apply mapM_ok
    intro e he
    have he' : e < r.length := lt_of_lt_of_le (List.mem_range.mp he) h
    rw [vget_some (List.getElem?_eq_getElem he'), ok_bind]
    simp [List.getD, he']
  simp only [ensiPerturb, this, ok_bind]

theorem ensiUsable_eq (idx : List Nat) (rho : Nat → K) (obs : Nat → Res (Fl K)) (o : Nat → Fl K) (h1 : ∀ i ∈ idx, obs i = ok (o i)) :
    ∃ l : List Nat, ensiUsable idx (idx.map fun i => fin (rho i)) obs = ok (rhoPairs rho l) ∧ l.Sublist idx ∧
      ∀ i, i ∈ l ↔ i ∈ idx ∧ (o i).isValid = true ∧ 0 < rho i := by
  classical
  let P : Nat → Prop := fun i => (o i).isValid = true ∧ 0 < rho i
  refine ⟨idx.filter fun i => decide (P i), ?_, List.filter_sublist, fun i => by simp [P]⟩
  unfold ensiUsable
  rw [mapM_range_list idx _ (fun i => if P i then some (fin (rho i), i) else none), ok_bind]
  · congr 1
    induction idx with
    | nil => rfl
    | cons a t ih =>
      have := ih (fun i hi => h1 i (List.mem_cons_of_mem _ hi))
      by_cases h : P a
      · rw [List.map_cons, if_pos h, List.filterMap_cons_some (f := id) rfl, List.filter_cons_of_pos (by simpa using h), this]
        rfl
      · rw [List.map_cons, if_neg h, List.filterMap_cons_none (f := id) rfl, List.filter_cons_of_neg (by simpa using h), this]
  · intro k hk
    have hv : (idx.map fun i => fin (rho i))[k]? = some (fin (rho idx[k])) := by simp [hk]
    rw [vget_some (List.getElem?_eq_getElem hk), ok_bind, h1 _ (List.getElem_mem hk), ok_bind]
    simp only [vget_some hv, ok_bind]
    by_cases hvl : (o idx[k]).isValid = true
    · rw [if_pos hvl]
      by_cases hr : 0 < rho idx[k]
      · rw [if_pos (by simpa [zero_def] using hr), if_pos ⟨hvl, hr⟩]
      · rw [if_neg (by simpa [zero_def] using hr), if_neg (fun c => hr c.2)]
    · rw [if_neg hvl, if_neg (fun c => hvl c.1)]

end

section
variable {K : Type} [Field K] [LinearOrder K] [IsStrictOrderedRing K] [HasGeo K] [LawfulSqrt K] [HasExp K]

/-- The structure function gives numbers for output points and observations (see `Correlations`). -/
structure CellCorrelations (T : RTree K) (s : SF K) (bp points : Points K) (L : Nat → Fl K) (G : Nat → Nat → K) : Prop where
  radius : ∀ (y : Nat) p, bp.getPoint (y : Int) = ok p → s.locDist T p = ok (L y)
  cell : ∀ (y : Nat) p, bp.getPoint (y : Int) = ok p → ∀ (is : List Nat) ps, mapM (fun i : Nat => points.getPoint (i : Int)) is = ok ps →
    s.corrBgVec T p ps = ok (is.map fun i => fin (G y i))

theorem Correlations.toCell {T : RTree K} {s : SF K} {bp points : Points K} {L : Nat → Fl K} {G P : Nat → Nat → K}
    (h : Correlations T s bp points L G P) : CellCorrelations T s bp points L G := ⟨h.radius, h.cell⟩

/-- Observation `i` can be used at output point `y`: it lies within the radius `L`, is valid, and its correlation `g i` is
positive. -/
def UsableObs (bp points : Points K) (valid : Nat → Prop) (L : Fl K) (g : Nat → K) (y i : Nat) : Prop :=
  (∃ p q, Located bp.lats bp.lons bp.type y p ∧ Located points.lats points.lons points.type i q ∧ Within p q L) ∧ valid i ∧ 0 < g i

theorem ensiSelect_spec {T : RTree K} (hT : T.Lawful) {A : Arma K}
    (hperm : ∀ l : List (Fl K × Nat), (∀ e ∈ l, e.1 ≠ nan) → (A.sortFirst l).Perm l)
    (hsort : ∀ l : List (Fl K × Nat), (∀ e ∈ l, e.1 ≠ nan) → (A.sortFirst l).Pairwise fun a b => b.1.lt a.1 = false)
    {bp points : Points K} (hbp : bp.WF) (hw : points.WF) (htype : bp.type = points.type)
    {s : SF K} {L : Nat → Fl K} {G : Nat → Nat → K} (hc : CellCorrelations T s bp points L G)
    {pts : List (Point K)} (hpts : mapM (fun i : Nat => points.getPoint (i : Int)) (List.range points.size) = ok pts)
    {maxPoints : Int} (hm : 0 ≤ maxPoints) {obs : Nat → Res (Fl K)} {o : Nat → Fl K} (hobs : ∀ i < points.size, obs i = ok (o i))
    {y : Nat} (hys : y < bp.size) :
    ∃ r : List Nat, ensiSelect T A bp points pts s maxPoints obs y = ok (rhoPairs (G y) r) ∧ (∀ i ∈ r, i < points.size) ∧
      Spec.Selection (UsableObs bp points (fun i => (o i).isValid = true) (L y) (G y) y) (G y) maxPoints.toNat r.get ∧
      (r = [] ↔ ∀ i, ¬ UsableObs bp points (fun i => (o i).isValid = true) (L y) (G y) y i) := by
  obtain ⟨p1, q1, hp1, hla, hlo, -, -, -, hcv, hloc, -⟩ := hbp.point hys
  rw [htype] at hcv
  obtain ⟨idx, hidx, hnd, hmem⟩ := tree_within hT hw.tree hcv (L y)
  rw [hw.tlats, hw.tlons] at hmem
  have hidx' : points.getNeighbours T p1.lat p1.lon (L y) true = ok idx := hidx
  have hlt : ∀ i ∈ idx, i < points.size := fun i hi => by
    obtain ⟨q, hq, -⟩ := (hmem i).mp hi
    exact hq.lt
  have hm2 : mapM (fun i : Nat => vget pts (i : Int)) idx = mapM (fun j : Nat => points.getPoint (j : Int)) idx :=
    mapM_congr fun i hi => Points.WF.mapM_point hpts (hlt i hi)
  obtain ⟨ps, hps⟩ : ∃ ps, mapM (fun j : Nat => points.getPoint (j : Int)) idx = ok ps :=
    mapM_exists _ fun i hi => by
      obtain ⟨p, -, hp, -⟩ := hw.point (hlt i hi)
      exact ⟨p, hp⟩
  obtain ⟨l, hl1, hl2, hl3⟩ := ensiUsable_eq idx (G y) obs o (fun i hi => hobs i (hlt i hi))
  obtain ⟨r, hr1, hr2, hr3, hr4, hr5, hr6⟩ := oiSelect_eq_of_sort hperm hsort maxPoints hm (G y) l (hl2.nodup hnd)
  have husable : ∀ i, UsableObs bp points (fun i => (o i).isValid = true) (L y) (G y) y i ↔ i ∈ l := by
    intro i
    rw [hl3, hmem]
    unfold UsableObs
    constructor
    · rintro ⟨⟨p, q, c1, c2, c3⟩, h⟩
      have := c1.unique hloc
      subst this
      exact ⟨⟨q, c2, c3⟩, h⟩
    · rintro ⟨⟨q, c2, c3⟩, h⟩
      exact ⟨⟨q1, q, hloc, c2, c3⟩, h⟩
  refine ⟨r, ?_, fun i hi => hlt i (hl2.subset (hr3 i hi)), ⟨?_, ?_, ?_, ?_⟩, ?_⟩
  · unfold ensiSelect
    rw [vget_some hla, ok_bind, vget_some hlo, ok_bind, hp1, ok_bind, hc.radius y p1 hp1, ok_bind, hidx', ok_bind]
    by_cases h0 : idx.length = 0
    · rw [if_pos h0]
      have hi0 : idx = [] := List.length_eq_zero_iff.mp h0
      have hr0 : r = [] := List.eq_nil_iff_forall_not_mem.mpr fun i hi => by
        have := hl2.subset (hr3 i hi)
        rw [hi0] at this
        simp at this
      rw [hr0]
      rfl
    · rw [if_neg h0, hm2, hps, ok_bind, hc.cell y p1 hp1 idx ps hps, ok_bind, hl1, ok_bind, hr1]
  · exact List.nodup_iff_injective_get.mp hr2
  · intro a
    exact (husable _).mpr (hr3 _ (List.get_mem _ _))
  · rcases hr4 with h | h
    · left; omega
    · right; omega
  · intro i hi
    rcases hr6 i ((husable i).mp hi) with h | ⟨h1, h2, h3⟩
    · left
      obtain ⟨a, ha⟩ := List.get_of_mem h
      exact ⟨a, ha⟩
    · right
      exact ⟨by omega, by omega, fun a => h3 _ (List.get_mem r a)⟩
  · constructor
    · intro h i hi
      have hl0 : l ≠ [] := fun c => by have := (husable i).mp hi; rw [c] at this; simp at this
      exact hr5 hl0 h
    · intro h
      exact List.eq_nil_iff_forall_not_mem.mpr fun i hi => h i ((husable i).mpr (hr3 i hi))

end
end Gridpp
