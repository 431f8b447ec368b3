import Verif.Props.Ensi

/-! Lemmas about the variants of the ensemble-based optimal interpolation. -/

set_option linter.unusedSectionVars false

namespace Gridpp
open Fl Res Props

section
variable {K : Type} [Field K] [LinearOrder K] [IsStrictOrderedRing K]

/-- All numbers of the list are smaller than its length if and only if the list leaves out no smaller number. -/
theorem prefix_iff {l : List Nat} (hn : l.Nodup) : (∀ e ∈ l, e < l.length) ↔ ∀ e ∈ l, ∀ e' < e, e' ∈ l := by
  constructor
  · intro h e he e' he'
    have hsub : l.Subperm (List.range l.length) := hn.subperm fun x hx => List.mem_range.mpr (h x hx)
    have hp : l.Perm (List.range l.length) := hsub.perm_of_length_le (by simp)
    exact hp.symm.subset (List.mem_range.mpr (he'.trans (h e he)))
  · intro h e he
    have hsub : (List.range (e + 1)).Subperm l := List.nodup_range.subperm fun x hx => by
      rcases Nat.lt_succ_iff_lt_or_eq.mp (List.mem_range.mp hx) with h1 | h1
      · exact h e he x h1
      · rw [h1]; exact he
    simpa using hsub.length_le

theorem mapM_throw_of_mem {α β : Type} (f : α → Res β) (l : List α) (h : ∀ a ∈ l, (∃ b, f a = ok b) ∨ ∃ e, f a = .throw e)
    {a : α} (ha : a ∈ l) {e : Exc} (he : f a = .throw e) : ∃ e, mapM f l = .throw e := by
  rcases mapM_cases f (fun _ => True) (fun a b => f a = ok b) l (fun a ha => by
    rcases h a ha with ⟨b, hb⟩ | ⟨e, he⟩
    · exact Or.inl ⟨b, hb, hb⟩
    · exact Or.inr ⟨e, he, trivial⟩) with ⟨bs, -, hf⟩ | ⟨e, he, -⟩
  · obtain ⟨n, hn, rfl⟩ := List.getElem_of_mem ha
    have hb := (List.forall₂_iff_get.mp hf).2 n hn (by rw [← hf.length_eq]; exact hn)
    simp only [List.get_eq_getElem] at hb
    rw [he] at hb
    cases hb
  · exact ⟨e, he⟩

theorem mapM_ub_of_mem {α β : Type} (f : α → Res β) (l : List α) (h : ∀ a ∈ l, (∃ b, f a = ok b) ∨ f a = .ub)
    {a : α} (ha : a ∈ l) (he : f a = .ub) : mapM f l = .ub := by
  induction l with
  | nil => cases ha
  | cons x l ih =>
    rw [mapM_cons]
    rcases h x (by simp) with ⟨b, hb⟩ | hb
    · rcases List.mem_cons.mp ha with rfl | ha
      · rw [he] at hb; cases hb
      · rw [hb, ok_bind, ih (fun a ha => h a (by simp [ha])) ha]; rfl
    · rw [hb]; rfl

theorem multiInnov_fold (n : Nat) (obs pb : List (Fl K)) (l : List Nat) (ho : ∀ e ∈ l, e < obs.length) (hp : ∀ e ∈ l, e < pb.length)
    (row : List (Fl K)) (hr : row.length = n) :
    ((∀ e ∈ l, e < n) → ∃ out, foldM (fun (row : List (Fl K)) (ei : Nat) => do
      let o ← vget obs (ei : Int)
      let b ← vget pb (ei : Int)
      if ei < n then vset row (ei : Int) (o - b) else Res.throw .logicError) row l = ok out ∧ out.length = n ∧
        ∀ i, (i ∈ l → out[i]? = some (obs.getD i nan - pb.getD i nan)) ∧ (i ∉ l → out[i]? = row[i]?)) ∧
    ((∃ e ∈ l, n ≤ e) → foldM (fun (row : List (Fl K)) (ei : Nat) => do
      let o ← vget obs (ei : Int)
      let b ← vget pb (ei : Int)
      if ei < n then vset row (ei : Int) (o - b) else Res.throw .logicError) row l = .throw .logicError) := by
  induction l generalizing row with
  | nil => exact ⟨fun _ => ⟨row, rfl, hr, by simp⟩, by simp⟩
  | cons a t ih =>
    have hao := ho a (by simp)
    have hap := hp a (by simp)
    have ih' := ih (fun e he => ho e (List.mem_cons_of_mem _ he)) (fun e he => hp e (List.mem_cons_of_mem _ he))
    rw [foldM_cons, vget_some (List.getElem?_eq_getElem hao), ok_bind, vget_some (List.getElem?_eq_getElem hap), ok_bind]
    by_cases h : a < n
    · rw [if_pos h, vset_nat _ (by omega), ok_bind]
      obtain ⟨h1, h2⟩ := ih' (row.set a (obs[a] - pb[a])) (by simpa using hr)
      constructor
      · intro hl
        obtain ⟨out, c1, c2, c3⟩ := h1 fun e he => hl e (List.mem_cons_of_mem _ he)
        refine ⟨out, c1, c2, fun i => ⟨fun hi => ?_, fun hi => ?_⟩⟩
        · by_cases hit : i ∈ t
          · exact (c3 i).1 hit
          · have hia : i = a := by simpa [hit] using hi
            subst hia
            rw [(c3 i).2 hit, List.getElem?_set_self (by omega)]
            simp [List.getD, hao, hap]
        · simp only [List.mem_cons, not_or] at hi
          rw [(c3 i).2 hi.2, List.getElem?_set_ne (fun c => hi.1 c.symm)]
      · rintro ⟨e, he, hne⟩
        rcases List.mem_cons.mp he with rfl | he
        · omega
        · exact h2 ⟨e, he, hne⟩
    · rw [if_neg h]
      refine ⟨fun hl => absurd (hl a (by simp)) h, fun _ => rfl⟩

theorem multiInnov_cases (members : List Nat) (obs pb : List (Fl K)) (ho : ∀ e ∈ members, e < obs.length) (hp : ∀ e ∈ members, e < pb.length) :
    ((∀ e ∈ members, e < members.length) → ∃ out, multiInnov members obs pb = ok out ∧ out.length = members.length ∧
      ∀ i ∈ members, out[i]? = some (obs.getD i nan - pb.getD i nan)) ∧
    ((∃ e ∈ members, members.length ≤ e) → multiInnov members obs pb = .throw .logicError) := by
  obtain ⟨h1, h2⟩ := multiInnov_fold members.length obs pb members ho hp (List.replicate members.length 0) (by simp)
  refine ⟨fun h => ?_, h2⟩
  obtain ⟨out, c1, c2, c3⟩ := h1 h
  exact ⟨out, c1, c2, fun i hi => (c3 i).1 hi⟩

theorem multiIncrements_cases {A : Arma K} (hA : ∀ M, (∃ N, A.inv M = ok N) ∨ A.inv M = .throw .runtimeError) (n : Nat)
    (rows : List (MultiObs K)) (lr : List (Fl K)) (R : List (List (Fl K))) (bratio : Fl K) (extrap : Bool) :
    (∃ dx, multiIncrements A n rows lr R bratio extrap = ok dx) ∨
      (multiIncrements A n rows lr R bratio extrap = .throw .runtimeError ∧ ∃ M, A.inv M = .throw .runtimeError) := by
  unfold multiIncrements
  rcases hA (tab rows.length rows.length fun i j => ent R i j + (if i = j then (rows.map MultiObs.ratio).getD i nan else 0)) with ⟨N, hN⟩ | hN
  · left; simp only [hN, ok_bind]; exact ⟨_, rfl⟩
  · right; simp only [hN]; exact ⟨rfl, _, hN⟩

theorem multiWrite_ok (row : List (Fl K)) (members : List Nat) (hm : ∀ e ∈ members, e < row.length) (dx : List (Fl K)) :
    ∃ out, multiWrite row members dx = ok out ∧ out.length = row.length ∧ ∀ i, i ∉ members → out[i]? = row[i]? := by
  obtain ⟨vals, hv, -⟩ := mapM_vget_some row members hm
  obtain ⟨out, h1, h2, h3, -⟩ := writeMembers_eq row members (List.zipWith (· + ·) vals dx) hm
  refine ⟨out, ?_, h2, h3⟩
  unfold multiWrite
  rw [hv, ok_bind, h1]

theorem utemUpdate_ok [HasSqrt K] (row rowc : List (Fl K)) (members : List Nat) (hm : ∀ e ∈ members, e < row.length)
    (hc : ∀ e ∈ members, e < rowc.length) (rows : List (EnsiObs K)) (br : Fl K)
    (extrap : Bool) (t : Option (List (List (Fl K)) × List (Fl K))) :
    ∃ out, utemUpdate row rowc members rows br extrap t = ok out ∧ out.length = row.length ∧ ∀ i, i ∉ members → out[i]? = row[i]? := by
  cases t with
  | none => exact ⟨row, rfl, rfl, fun _ _ => rfl⟩
  | some t =>
    obtain ⟨W, w⟩ := t
    obtain ⟨vals, hv, -⟩ := mapM_vget_some row members hm
    obtain ⟨valsc, hvc, -⟩ := mapM_vget_some rowc members hc
    simp only [utemUpdate, hv, hvc, ok_bind]
    obtain ⟨out, h1, h2, h3, -⟩ := writeMembers_eq row members ((List.range members.length).map (utemMember rows extrap
      ((sumTo vals.length fun k => vals.getD k nan) / Fl.ofNat vals.length)
      (vals.map fun v => v - (sumTo vals.length fun k => vals.getD k nan) / Fl.ofNat vals.length) (utemX valsc)
      fun k e => stdStat vals * ent W k e + br * w.getD k nan)) hm
    exact ⟨out, h1, h2, h3⟩

end

section
variable {K : Type} [Field K] [LinearOrder K] [IsStrictOrderedRing K] [HasGeo K] [LawfulSqrt K] [HasExp K]

theorem multiRow_cases {T : RTree K} {s : SF K} {bp points : Points K} {L : Nat → Fl K} {G P : Nat → Nat → K} (hw : points.WF)
    (hc : Correlations T s bp points L G P)
    {pts : List (Point K)} (hpts : mapM (fun i : Nat => points.getPoint (i : Int)) (List.range points.size) = ok pts)
    {pobs : List (List (Fl K))} {pratios : List (Fl K)} {pbg : List (List (Fl K))} {E : Nat} (hpobs : Rect points.size E pobs)
    (hrat : pratios.length = points.size) (hpbg : Rect points.size E pbg) {members : List Nat} (hm : ∀ e ∈ members, e < E)
    (hnd : members.Nodup) (z : Nat → Res (List (Fl K))) (hz : ∀ i < points.size, ∃ l, z i = ok l)
    (r : List Nat) (hr : ∀ i ∈ r, i < points.size) (rho : Nat → K) (i : Nat) (hi : i < points.size) :
    ((∀ e ∈ members, ∀ e' < e, e' ∈ members) → ∃ x, multiRow T s pts members pobs pratios pbg z (rhoPairs rho r) (fin (rho i), i) = ok x) ∧
    ((∃ e ∈ members, ∃ e' < e, e' ∉ members) →
      multiRow T s pts members pobs pratios pbg z (rhoPairs rho r) (fin (rho i), i) = .throw .logicError) := by
  obtain ⟨p, q, hp, -⟩ := hw.point hi
  have hm2 : mapM (fun f : Fl K × Nat => vget pts (f.2 : Int)) (rhoPairs rho r) = mapM (fun j : Nat => points.getPoint (j : Int)) r := by
    unfold rhoPairs
    clear hi hp
    induction r with
    | nil => rfl
    | cons a t ih =>
      rw [List.map_cons, mapM_cons, mapM_cons, ih fun i hi => hr i (List.mem_cons_of_mem _ hi),
        Points.WF.mapM_point hpts (hr a (by simp))]
  obtain ⟨ps, hps⟩ : ∃ ps, mapM (fun j : Nat => points.getPoint (j : Int)) r = ok ps :=
    mapM_exists _ fun j hj => by
      obtain ⟨p, -, hp, -⟩ := hw.point (hr j hj)
      exact ⟨p, hp⟩
  have hrow : mapM (fun j : Nat => vget (r.map fun j => fin (P i j)) (j : Int)) (List.range (rhoPairs rho r).length) =
      ok (r.map fun j => fin (P i j)) := by
    have : (rhoPairs rho r).length = r.length := by simp
    rw [this]
    apply mapM_range_list r
    intro k hk
    exact vget_some (by simp [hk])
  obtain ⟨rt, hrt⟩ := exists_getElem? (v := pratios) (n := i) (by omega)
  obtain ⟨zr, hzr⟩ := hz i hi
  obtain ⟨o, ho⟩ := exists_getElem? (v := pobs) (n := i) (by rw [hpobs.1]; exact hi)
  obtain ⟨b, hb⟩ := exists_getElem? (v := pbg) (n := i) (by rw [hpbg.1]; exact hi)
  have hol : o.length = E := hpobs.2 o (List.mem_iff_getElem?.mpr ⟨i, ho⟩)
  have hbl : b.length = E := hpbg.2 b (List.mem_iff_getElem?.mpr ⟨i, hb⟩)
  obtain ⟨c1, c2⟩ := multiInnov_cases members o b (fun e he => by rw [hol]; exact hm e he) (fun e he => by rw [hbl]; exact hm e he)
  constructor
  · intro h
    obtain ⟨inn, hinn, -⟩ := c1 ((prefix_iff hnd).mpr h)
    refine ⟨⟨fin (rho i), rt, zr, inn, r.map fun j => fin (P i j)⟩, ?_⟩
    unfold multiRow
    simp only [vget_some hrt, hzr, vget_some ho, vget_some hb, hinn, Points.WF.mapM_point hpts hi, hp, hm2, hps, hc.obs i p hp r ps hps,
      ok_bind, hrow]
  · rintro ⟨e, he, e', he', hne⟩
    have : ∃ e ∈ members, members.length ≤ e := by
      by_contra hcon
      push Not at hcon
      exact hne ((prefix_iff hnd).mp hcon e he e' he')
    unfold multiRow
    simp only [vget_some hrt, hzr, vget_some ho, vget_some hb, c2 this, ok_bind]
    rfl

/-- The rows of all selected observations. -/
theorem multiRows_cases {T : RTree K} {s : SF K} {bp points : Points K} {L : Nat → Fl K} {G P : Nat → Nat → K} (hw : points.WF)
    (hc : Correlations T s bp points L G P)
    {pts : List (Point K)} (hpts : mapM (fun i : Nat => points.getPoint (i : Int)) (List.range points.size) = ok pts)
    {pobs : List (List (Fl K))} {pratios : List (Fl K)} {pbg : List (List (Fl K))} {E : Nat} (hpobs : Rect points.size E pobs)
    (hrat : pratios.length = points.size) (hpbg : Rect points.size E pbg) {members : List Nat} (hm : ∀ e ∈ members, e < E)
    (hnd : members.Nodup) (z : Nat → Res (List (Fl K))) (hz : ∀ i < points.size, ∃ l, z i = ok l)
    (r : List Nat) (hr : ∀ i ∈ r, i < points.size) (hr0 : r ≠ []) (rho : Nat → K) :
    ((∀ e ∈ members, ∀ e' < e, e' ∈ members) →
      ∃ x, mapM (multiRow T s pts members pobs pratios pbg z (rhoPairs rho r)) (rhoPairs rho r) = ok x) ∧
    ((∃ e ∈ members, ∃ e' < e, e' ∉ members) →
      mapM (multiRow T s pts members pobs pratios pbg z (rhoPairs rho r)) (rhoPairs rho r) = .throw .logicError) := by
  constructor
  · intro h
    apply mapM_exists
    intro e he
    obtain ⟨i, hi, rfl⟩ := List.mem_map.mp he
    exact (multiRow_cases hw hc hpts hpobs hrat hpbg hm hnd z hz r hr rho i (hr i hi)).1 h
  · intro h
    obtain ⟨a, t, rfl⟩ := List.exists_cons_of_ne_nil hr0
    show mapM _ ((fin (rho a), a) :: rhoPairs rho t) = _
    rw [mapM_cons, (multiRow_cases hw hc hpts hpobs hrat hpbg hm hnd z hz (a :: t) hr rho a (hr a (by simp))).2 h]
    rfl

end
end Gridpp
