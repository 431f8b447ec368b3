import Verif.Lemmas.Client.FileNetcdfCore

/-! # C155: a NetCDF file with forecasts is written -/

set_option linter.unusedSectionVars false

namespace Gridpp.Props
open Fl hiding MV isValid
open Res Client Spec

variable {K : Type} [Field K] [LinearOrder K] [IsStrictOrderedRing K]

theorem different_time {L : NcLayout} (h : DifferentDims L) (ht : L.time = none) {n : Nat} (hk : ∀ d, some d ∈ [L.time, L.ens, L.y, L.x] → d < n) :
    DifferentDims { L with time := some n } := by
  unfold DifferentDims at h ⊢
  simp only
  rw [ht] at h hk
  rw [List.reduceOption_cons_of_none] at h
  rw [List.reduceOption_cons_of_some, List.nodup_cons]
  refine ⟨fun hc => ?_, h⟩
  rw [List.reduceOption_mem_iff] at hc
  exact absurd (hk n (List.mem_cons_of_mem _ hc)) (lt_irrefl n)

theorem different_ens {L : NcLayout} (h : DifferentDims L) (he : L.ens = none) {n : Nat} (hk : ∀ d, some d ∈ [L.time, L.ens, L.y, L.x] → d < n) :
    DifferentDims { L with ens := some n } := by
  unfold DifferentDims at h ⊢
  simp only
  have hne : ∀ d, some d ∈ [L.time, L.ens, L.y, L.x] → d ≠ n := fun d hd => (hk d hd).ne
  rw [he] at h hne
  cases ht : L.time with
  | none =>
    rw [ht] at h hne
    rw [List.reduceOption_cons_of_none, List.reduceOption_cons_of_none] at h
    rw [List.reduceOption_cons_of_none, List.reduceOption_cons_of_some, List.nodup_cons]
    refine ⟨fun hc => ?_, h⟩
    rw [List.reduceOption_mem_iff] at hc
    exact hne n (List.mem_cons_of_mem _ (List.mem_cons_of_mem _ hc)) rfl
  | some t =>
    rw [ht] at h hne
    rw [List.reduceOption_cons_of_some, List.reduceOption_cons_of_none, List.nodup_cons] at h
    rw [List.reduceOption_cons_of_some, List.reduceOption_cons_of_some, List.nodup_cons, List.nodup_cons]
    refine ⟨fun hc => ?_, fun hc => ?_, h.2⟩
    · rcases List.mem_cons.mp hc with hc | hc
      · exact hne t (by simp) hc
      · exact h.1 hc
    · rw [List.reduceOption_mem_iff] at hc
      exact hne n (List.mem_cons_of_mem _ (List.mem_cons_of_mem _ hc)) rfl

theorem dimLength_last (f : NcFile K) (n : Str) (s : Nat) : dimLength ({ f with dims := f.dims ++ [(n, s)] } : NcFile K) f.dims.length = s := by
  unfold dimLength
  simp

/-- The definition of the times. -/
theorem defineTimes_ok {f : NcFile K} (hf : FineFile f) {L : NcLayout} (hd : DifferentDims L) (hk : ∀ d, some d ∈ [L.time, L.ens, L.y, L.x] → d < f.dims.length)
    {nT : Nat} (ht : (∃ d, L.time = some d ∧ dimLength f d = nT ∧ ∀ v ∈ f.vars, v.name = "time".toList → v.dims = [d]) ∨
      L.time = none ∧ "time".toList ∉ f.dims.map Prod.fst ∧ "time".toList ∉ f.vars.map NcVar.name) :
    ∃ g d, defineTimes f L nT = ok (g, { L with time := some d }) ∧ FineFile g ∧ OnlyChanges ["time".toList] f g ∧ DifferentDims { L with time := some d } ∧
      d < g.dims.length ∧ dimLength g d = nT ∧ (∃ v ∈ g.vars, v.name = "time".toList ∧ v.dims = [d]) ∧
      (L.time = some d ∧ g.dims = f.dims ∨ L.time = none ∧ d = f.dims.length ∧ g.dims = f.dims ++ [("time".toList, nT)]) := by
  rcases ht with ⟨d, h1, h2, h3⟩ | ⟨h1, h2, h3⟩
  · have hL : ({ L with time := some d } : NcLayout) = L := by rw [← h1]
    have hdl : d < f.dims.length := hk d (by simp [h1])
    unfold defineTimes
    by_cases hn : "time".toList ∈ f.vars.map NcVar.name
    · obtain ⟨v, hv, hvn, he⟩ := var_of_name hf hn
      rw [he]
      exact ⟨f, d, by rw [hL], hf, onlyChanges_refl _ _, by rw [hL]; exact hd, hdl, h2, ⟨v, hv, hvn, h3 v hv hvn⟩, .inl ⟨h1, rfl⟩⟩
    · rw [var_none hn, h1]
      simp only
      rw [ncDefVar_ok hn (by simpa using hdl), ok_bind]
      have hd' : ∀ e ∈ [d], e < f.dims.length := by simpa using hdl
      obtain ⟨a, b, c⟩ := addVar_fine hf (freshVar_fine hd' "time".toList) hn
      exact ⟨_, d, by rw [hL], a, b, by rw [hL]; exact hd, hdl, h2, ⟨_, c, rfl, rfl⟩, .inl ⟨rfl, rfl⟩⟩
  · unfold defineTimes
    rw [var_none h3, h1]
    simp only
    rw [ncDefDim_ok h2, ok_bind]
    obtain ⟨p1, p2⟩ := addDim_fine hf h2 nT ["time".toList]
    have hd' : ∀ e ∈ [f.dims.length], e < ({ f with dims := f.dims ++ [("time".toList, nT)] } : NcFile K).dims.length := by simp
    obtain ⟨a, b, c⟩ := addVar_fine p1 (freshVar_fine hd' "time".toList) h3
    simp only
    rw [ncDefVar_ok (f := { f with dims := f.dims ++ [("time".toList, nT)] }) h3 hd', ok_bind]
    exact ⟨_, f.dims.length, rfl, a, onlyChanges_trans p2 b, different_time hd h1 hk, by simp [NcFile.addVar],
      dimLength_last f _ _, ⟨_, c, rfl, rfl⟩, .inr ⟨trivial, rfl, rfl⟩⟩

/-- The definition of the members. -/
theorem defineEns_ok {f : NcFile K} (hf : FineFile f) {L : NcLayout} (hd : DifferentDims L) (hk : ∀ d, some d ∈ [L.time, L.ens, L.y, L.x] → d < f.dims.length)
    {name : Str} {nE : Nat} (he : (∃ d, L.ens = some d ∧ dimLength f d = nE) ∨ L.ens = none ∧ (nE = 1 ∨ 1 < nE ∧ name ∉ f.dims.map Prod.fst)) :
    ∃ g e, defineEns f L name nE = ok (g, { L with ens := e }) ∧ FineFile g ∧ (∃ more, g.dims = f.dims ++ more) ∧ g.vars = f.vars ∧
      DifferentDims { L with ens := e } ∧ (∀ d, e = some d → d < g.dims.length) ∧ dimCount g e = nE ∧
      (L.ens = e ∧ g.dims = f.dims ∨ L.ens = none ∧ 1 < nE ∧ e = some f.dims.length ∧ g.dims = f.dims ++ [(name, nE)]) := by
  unfold defineEns
  rcases he with ⟨d, h1, h2⟩ | ⟨h1, h2⟩
  · rw [if_neg (by rw [h1]; simp)]
    refine ⟨f, L.ens, rfl, hf, ⟨[], by simp⟩, rfl, hd, fun d hd' => hk d (by simp [hd']), by rw [h1]; exact h2, .inl ⟨rfl, rfl⟩⟩
  · rcases h2 with h2 | ⟨h2, h3⟩
    · rw [if_neg (by omega)]
      refine ⟨f, L.ens, rfl, hf, ⟨[], by simp⟩, rfl, hd, fun d hd' => hk d (by simp [hd']), by rw [h1, h2]; rfl, .inl ⟨rfl, rfl⟩⟩
    · rw [if_pos ⟨h1, h2⟩, ncDefDim_ok h3, ok_bind]
      obtain ⟨p1, p2⟩ := addDim_fine hf h3 nE []
      refine ⟨_, some f.dims.length, rfl, p1, ⟨_, rfl⟩, rfl, different_ens hd h1 hk, ?_, dimLength_last f _ _, .inr ⟨h1, h2, rfl, rfl⟩⟩
      rintro d ⟨⟩
      simp

/-- The definition of the reference time. -/
theorem defineReference_ok {f : NcFile K} (hf : FineFile f) (hr : ∀ v ∈ f.vars, v.name = "forecast_reference_time".toList → v.dims = []) :
    ∃ g, defineReference f = ok g ∧ FineFile g ∧ g.dims = f.dims ∧ OnlyChanges ["forecast_reference_time".toList] f g ∧
      ∃ v ∈ g.vars, v.name = "forecast_reference_time".toList ∧ v.dims = [] := by
  unfold defineReference
  by_cases hn : "forecast_reference_time".toList ∈ f.vars.map NcVar.name
  · obtain ⟨v, hv, hvn, he⟩ := var_of_name hf hn
    rw [he]
    exact ⟨f, rfl, hf, rfl, onlyChanges_refl _ _, v, hv, hvn, hr v hv hvn⟩
  · rw [var_none hn]
    simp only
    have hd' : ∀ e ∈ ([] : List Nat), e < f.dims.length := by simp
    rw [ncDefVar_ok hn hd']
    obtain ⟨a, b, c⟩ := addVar_fine hf (freshVar_fine hd' "forecast_reference_time".toList) hn
    exact ⟨_, rfl, a, rfl, b, _, c, rfl, rfl⟩

theorem someElevation_iff (elevs : List (List (Fl K))) : someElevation elevs = true ↔ SomeElevation elevs := by
  unfold someElevation SomeElevation
  simp only [List.any_eq_true]
  constructor
  · rintro ⟨r, hr, x, hx, h⟩
    cases x with
    | fin q => exact ⟨r, hr, q, hx, by simpa [Client.isValid] using h⟩
    | _ => simp [Client.isValid] at h
  · rintro ⟨r, hr, q, hx, h⟩
    exact ⟨r, hr, _, hx, by simpa [Client.isValid] using h⟩

/-- The definition of the altitude. -/
theorem defineElevations_ok {f : NcFile K} (hf : FineFile f) {L : NcLayout} (hd : DifferentDims L) (hk : ∀ d, some d ∈ [L.time, L.ens, L.y, L.x] → d < f.dims.length)
    {elevs : List (List (Fl K))} (ha : SomeElevation elevs →
      (∀ v ∈ f.vars, v.name = "altitude".toList → HorizontalVar L v ∧ ∃ q, v.fill.getD (.fin (15 * 2 ^ 119)) = .fin q ∧ q ≠ -999) ∧
      ("altitude".toList ∉ f.vars.map NcVar.name → L.y ≠ none ∧ L.x ≠ none)) (latVar : NcVar K) :
    ∃ g, defineElevations f L latVar elevs = ok g ∧ FineFile g ∧ g.dims = f.dims ∧ OnlyChanges ["altitude".toList] f g ∧
      (SomeElevation elevs → ∃ v ∈ g.vars, v.name = "altitude".toList ∧ HorizontalVar L v ∧ (∃ q, v.fill.getD (.fin (15 * 2 ^ 119)) = .fin q ∧ q ≠ -999) ∧
        FillOf f "altitude".toList v.fill) := by
  unfold defineElevations
  by_cases hs : SomeElevation elevs
  · obtain ⟨h1, h2⟩ := ha hs
    rw [(someElevation_iff elevs).mpr hs]
    by_cases hn : "altitude".toList ∈ f.vars.map NcVar.name
    · obtain ⟨v, hv, hvn, he⟩ := var_of_name hf hn
      rw [he, if_neg (by simp)]
      exact ⟨f, rfl, hf, rfl, onlyChanges_refl _ _, fun _ => ⟨v, hv, hvn, (h1 v hv hvn).1, (h1 v hv hvn).2, .inl ⟨v, hv, hvn, rfl⟩⟩⟩
    · rw [var_none hn, if_pos (by simp)]
      obtain ⟨hy, hx⟩ := h2 hn
      obtain ⟨y, hy⟩ := Option.ne_none_iff_exists'.mp hy
      obtain ⟨x, hx⟩ := Option.ne_none_iff_exists'.mp hx
      have hyl := hk y (by simp [hy])
      have hxl := hk x (by simp [hx])
      have hne : y ≠ x := by
        rintro rfl
        unfold DifferentDims at hd
        rw [hy, hx] at hd
        cases ht : L.time <;> cases he : L.ens <;> simp [ht, he, List.reduceOption] at hd
      unfold defineAltitude
      rw [hy, hx]
      simp only
      rw [dimSize_ok hyl, ok_bind, dimSize_ok hxl, ok_bind, ok_bind]
      have hfv : ∀ ds : List Nat, ds = [y, x] ∨ ds = [x, y] →
          FineVar f ⟨"altitude".toList, ds, List.replicate (dimLength f y * dimLength f x) ncFillFloat, none⟩ := by
        rintro ds (rfl | rfl)
        · exact ⟨by simp [hyl, hxl], by simp⟩
        · exact ⟨by simp [hyl, hxl], by simp [mul_comm]⟩
      have hor : ∀ b : Bool, (if b then [y, x] else [x, y]) = [y, x] ∨ (if b then [y, x] else [x, y]) = [x, y] := by
        intro b
        cases b <;> simp
      obtain ⟨a, b, c⟩ := addVar_fine hf (hfv _ (hor (altitudeRowsFirst f L latVar))) hn
      refine ⟨_, rfl, a, rfl, b, fun _ => ⟨_, c, rfl, .inl ⟨y, x, hy, hx, hne, hor _⟩, ⟨15 * 2 ^ 119, rfl, ?_⟩, .inr ⟨hn, rfl⟩⟩⟩
      have : (0 : K) < 15 * 2 ^ 119 := by positivity
      intro hc
      rw [hc] at this
      linarith
  · have : someElevation elevs = false := by
      rw [Bool.eq_false_iff]
      exact fun hc => hs ((someElevation_iff elevs).mp hc)
    rw [this, if_neg (by simp)]
    exact ⟨f, rfl, hf, rfl, onlyChanges_refl _ _, fun h => absurd h hs⟩

theorem extent_more {f g : NcFile K} (h : ∃ more, g.dims = f.dims ++ more) {v : NcVar K} (hf : FineVar f v) (d : Option Nat) : extent g v d = extent f v d := by
  cases d with
  | none => rfl
  | some d =>
    unfold extent
    simp only
    split_ifs with hd
    · exact dimLength_more h (hf.1 d hd)
    · rfl

/-- A variable that was there still has room. -/
theorem room_more {f g : NcFile K} {L L' : NcLayout} {out : NcOutput K} {v : NcVar K} (hr : HasRoom f L out v) (hf : FineVar f v)
    (h : ∃ more, g.dims = f.dims ++ more) (hy : L'.y = L.y) (hx : L'.x = L.x) (ht : L'.time = L.time ∨ L.time = none)
    (he : L'.ens = L.ens ∨ L.ens = none ∧ 1 < out.nE) : HasRoom g L' out v := by
  have he' : L'.ens = L.ens := by
    rcases he with he | ⟨he, h1⟩
    · exact he
    · exfalso
      have := hr.members
      rw [he] at this
      unfold extent at this
      simp only at this
      omega
  refine ⟨hr.nodup, fun d hd ho => ?_, ?_, ?_, ?_, ?_, hr.fill⟩
  · rw [dimLength_more h (hf.1 d hd)]
    refine hr.others d hd ?_
    unfold OtherDim at ho ⊢
    rw [hy, hx, he'] at ho
    rcases ht with ht | ht
    · rw [ht] at ho
      exact ho
    · rw [ht]
      simp only [List.mem_cons, not_or] at ho ⊢
      exact ⟨by simp, ho.2⟩
  · rw [extent_more h hf, hy, hr.rows]
  · rw [extent_more h hf, hx, hr.columns]
  · rw [extent_more h hf, he', hr.members]
  · refine hr.times.imp_left ?_
    rintro ⟨d, hd, hd'⟩
    refine ⟨d, hd, ?_⟩
    rcases ht with ht | ht
    · rw [ht, hd']
    · rw [ht] at hd'
      cases hd'

theorem fresh_extent {f : NcFile K} {L : NcLayout} (n : Str) {d : Option Nat} (h : d ∈ [L.time, L.ens, L.y, L.x]) :
    extent f (freshVar f n [L.time, L.ens, L.y, L.x].reduceOption) d = dimCount f d := by
  cases d with
  | none => rfl
  | some d =>
    unfold extent dimCount
    simp only
    rw [if_pos]
    exact List.reduceOption_mem_iff.mpr h

/-- A new variable has room. -/
theorem room_fresh {f : NcFile K} {L : NcLayout} {out : NcOutput K} (hd : DifferentDims L) (hy : dimCount f L.y = out.nY) (hx : dimCount f L.x = out.nX)
    (he : dimCount f L.ens = out.nE) (ht : L.time ≠ none) (n : Str) : HasRoom f L out (freshVar f n [L.time, L.ens, L.y, L.x].reduceOption) := by
  refine ⟨hd, fun d hdd ho => absurd (List.reduceOption_mem_iff.mp hdd) ho, ?_, ?_, ?_, ?_, 15 * 2 ^ 119, rfl, ?_⟩
  · rw [fresh_extent n (by simp), hy]
  · rw [fresh_extent n (by simp), hx]
  · rw [fresh_extent n (by simp), he]
  · obtain ⟨t, ht⟩ := Option.ne_none_iff_exists'.mp ht
    exact .inl ⟨t, List.reduceOption_mem_iff.mpr (by simp [ht]), ht.symm⟩
  · have : (0 : K) < 15 * 2 ^ 119 := by positivity
    intro hc
    rw [hc] at this
    linarith

/-- Everything is defined. -/
theorem defineAll_ok {ensName : Str} {f : NcFile K} {L : NcLayout} {out : NcOutput K} {names : List Str} (h : OutputFits ensName f L out names) (latVar : NcVar K) :
    ∃ g dT e, defineAll ensName latVar L out names f = ok (g, ⟨some dT, e, L.y, L.x⟩) ∧ FineFile g ∧ OnlyChanges (otherNames ++ names) f g ∧
      DifferentDims ⟨some dT, e, L.y, L.x⟩ ∧ (∀ d, some d ∈ [some dT, e, L.y, L.x] → d < g.dims.length) ∧
      dimLength g dT = out.times.length ∧ dimCount g e = out.nE ∧
      (∃ more, g.dims = f.dims ++ more ∧
        (L.time = some dT ∧ L.ens = e ∧ more = [] ∨
         L.time = none ∧ L.ens = e ∧ dT = f.dims.length ∧ more = [("time".toList, out.times.length)] ∨
         L.time = some dT ∧ L.ens = none ∧ 1 < out.nE ∧ e = some f.dims.length ∧ more = [(ensName, out.nE)] ∨
         L.time = none ∧ L.ens = none ∧ 1 < out.nE ∧ dT = f.dims.length ∧ e = some (f.dims.length + 1) ∧ more = [("time".toList, out.times.length), (ensName, out.nE)])) ∧
      (∃ v ∈ g.vars, v.name = "time".toList ∧ v.dims = [dT]) ∧ (∃ v ∈ g.vars, v.name = "forecast_reference_time".toList ∧ v.dims = []) ∧
      (SomeElevation out.elevs → ∃ v ∈ g.vars, v.name = "altitude".toList ∧ HorizontalVar L v ∧ (∃ q, v.fill.getD (.fin (15 * 2 ^ 119)) = .fin q ∧ q ≠ -999) ∧
        FillOf f "altitude".toList v.fill) ∧
      (¬ SomeElevation out.elevs → ∀ v, v.name = "altitude".toList → (v ∈ g.vars ↔ v ∈ f.vars)) ∧
      ∀ n ∈ names, ∃ v ∈ g.vars, v.name = n ∧ HasRoom g ⟨some dT, e, L.y, L.x⟩ out v ∧ (v ∈ f.vars ∨ n ∉ f.vars.map NcVar.name ∧ v.fill = none) := by
  -- altitude
  obtain ⟨f1, a1, a2, a3, a4, a5⟩ := defineElevations_ok h.fine h.different h.known h.altitude latVar
  have a6 : ¬ SomeElevation out.elevs → f1 = f := by
    intro hs
    have : someElevation out.elevs = false := by
      rw [Bool.eq_false_iff]
      exact fun hc => hs ((someElevation_iff out.elevs).mp hc)
    unfold defineElevations at a1
    rw [this, if_neg (by simp)] at a1
    exact (Res.ok.inj a1).symm
  have k1 : ∀ d, some d ∈ [L.time, L.ens, L.y, L.x] → d < f1.dims.length := by rw [a3]; exact h.known
  have l1 : ∀ d, dimLength f1 d = dimLength f d := by
    intro d
    unfold dimLength
    rw [a3]
  -- times
  obtain ⟨f2, dT, b1, b2, b3, b4, b5, b6, ⟨tv, tv1, tv2, tv3⟩, b8⟩ := defineTimes_ok (nT := out.times.length) a2 h.different k1 (by
    rcases h.times with ⟨d, t1, t2, t3⟩ | ⟨t1, t2, t3⟩
    · refine .inl ⟨d, t1, by rw [l1]; exact t2, fun v hv hn => t3 v ((a4.2 v ?_).mp hv) hn⟩
      rw [hn]
      decide
    · exact .inr ⟨t1, by rw [a3]; exact t2, fun hc => t3 ((name_mem_iff a4 (by decide)).mp hc)⟩)
  have m2 : ∃ more, f2.dims = f1.dims ++ more := b3.1
  have k2 : ∀ d, some d ∈ [some dT, L.ens, L.y, L.x] → d < f2.dims.length := by
    intro d hd
    rcases List.mem_cons.mp hd with hd | hd
    · rw [Option.some.inj hd]
      exact b5
    · exact lt_of_lt_of_le (k1 d (List.mem_cons_of_mem _ hd)) (dims_le m2)
  -- members
  obtain ⟨f3, e, c1, c2, c3, c4, c5, c6, c7, c8⟩ := defineEns_ok (name := ensName) (nE := out.nE) b2 b4 k2 (by
    rcases h.members with ⟨d, t1, t2⟩ | ⟨t1, t2⟩
    · refine .inl ⟨d, t1, ?_⟩
      rw [dimLength_more m2 (k1 d (by simp [t1])), l1]
      exact t2
    · refine .inr ⟨t1, t2.imp_right ?_⟩
      rintro ⟨p1, p2, p3⟩
      refine ⟨p1, ?_⟩
      rcases b8 with ⟨-, q⟩ | ⟨-, -, q⟩
      · rw [q, a3]
        exact p2
      · rw [q, a3]
        simp only [List.map_append, List.map_cons, List.map_nil, List.mem_append, List.mem_singleton, not_or]
        exact ⟨p2, p3⟩)
  -- reference
  obtain ⟨f4, d1, d2, d3, d4, rv, rv1, rv2, rv3⟩ := defineReference_ok c2 (by
    intro v hv hn
    rw [c4] at hv
    exact h.reference v ((a4.2 v (by rw [hn]; decide)).mp ((b3.2 v (by rw [hn]; decide)).mp hv)) hn)
  have k4 : ∀ d, some d ∈ [some dT, e, L.y, L.x] → d < f4.dims.length := by
    intro d hd
    rw [d3]
    have hle := dims_le c3
    simp only [List.mem_cons, List.not_mem_nil, or_false] at hd
    rcases hd with hd | hd | hd | hd
    · exact lt_of_lt_of_le (k2 d (by simp [hd])) hle
    · exact c6 d hd.symm
    · exact lt_of_lt_of_le (k2 d (by simp [hd])) hle
    · exact lt_of_lt_of_le (k2 d (by simp [hd])) hle
  -- forecasts
  obtain ⟨f5, e1, e2, e3, e4, e5⟩ := defineFields_ok (L := ⟨some dT, e, L.y, L.x⟩) names d2 (fun d hd => k4 d (List.reduceOption_mem_iff.mp hd))
  have c3' : OnlyChanges ([] : List Str) f2 f3 := ⟨c3, fun w _ => by rw [c4]⟩
  have ho : ∀ n ∈ names, n ≠ "altitude".toList ∧ n ≠ "time".toList ∧ n ≠ "forecast_reference_time".toList := by
    intro n hn
    have := h.nodup.2 n hn
    unfold otherNames at this
    simp only [List.mem_cons, List.not_mem_nil, or_false, not_or] at this
    exact this
  have hm5 : ∃ more, f5.dims = f.dims ++ more := by
    obtain ⟨m, hm⟩ := (onlyChanges_trans (onlyChanges_mono b3 (T := ["time".toList]) (by simp)) (onlyChanges_mono c3' (by simp))).1
    exact ⟨m, by rw [e3, d3, hm, a3]⟩
  have l5 : ∀ d, dimLength f5 d = dimLength f3 d := by
    intro d
    unfold dimLength
    rw [e3, d3]
  have cnt5 : ∀ o : Option Nat, dimCount f5 o = dimCount f3 o := by
    intro o
    cases o with
    | none => rfl
    | some d => exact l5 d
  have cntg : ∀ o : Option Nat, o ∈ [L.time, L.ens, L.y, L.x] → dimCount f5 o = dimCount f o := by
    intro o ho
    cases o with
    | none => rfl
    | some d => exact dimLength_more hm5 (h.known d ho)
  have hchg : OnlyChanges (otherNames ++ names) f f5 := by
    refine onlyChanges_trans (onlyChanges_mono a4 ?_) (onlyChanges_trans (onlyChanges_mono b3 ?_) (onlyChanges_trans (onlyChanges_mono c3' ?_)
      (onlyChanges_trans (onlyChanges_mono d4 ?_) (onlyChanges_mono e4 ?_))))
    · simp [otherNames]
    · simp [otherNames]
    · simp
    · simp [otherNames]
    · intro n hn
      simp [hn]
  refine ⟨f5, dT, e, ?_, e2, hchg, c5, ?_, ?_, ?_, ?_, ?_, ?_, ?_, ?_, ?_⟩
  · unfold defineAll
    rw [a1, ok_bind, b1, ok_bind]
    simp only
    rw [c1, ok_bind]
    simp only
    rw [d1, ok_bind, e1, ok_bind]
  · rw [e3]
    exact k4
  · rw [l5, dimLength_more c3 b5, b6]
  · rw [cnt5, c7]
  · rcases b8 with ⟨t1, t2⟩ | ⟨t1, t2, t3⟩
    · rcases c8 with ⟨s1, s2⟩ | ⟨s1, s2, s3, s4⟩
      · exact ⟨[], by rw [e3, d3, s2, t2, a3]; simp, .inl ⟨t1, s1, rfl⟩⟩
      · exact ⟨_, by rw [e3, d3, s4, t2, a3], .inr (.inr (.inl ⟨t1, s1, s2, by rw [s3, t2, a3], rfl⟩))⟩
    · rcases c8 with ⟨s1, s2⟩ | ⟨s1, s2, s3, s4⟩
      · exact ⟨_, by rw [e3, d3, s2, t3, a3], .inr (.inl ⟨t1, s1, by rw [t2, a3], rfl⟩)⟩
      · refine ⟨[("time".toList, out.times.length), (ensName, out.nE)], by rw [e3, d3, s4, t3, a3, List.append_assoc]; rfl, .inr (.inr (.inr ⟨t1, s1, s2, by rw [t2, a3], ?_, rfl⟩))⟩
        rw [s3, t3, a3]
        simp
  · refine ⟨tv, (e4.2 tv ?_).mpr ((d4.2 tv (by rw [tv2]; decide)).mpr (by rw [c4]; exact tv1)), tv2, tv3⟩
    rw [tv2]
    exact fun hc => (ho _ hc).2.1 rfl
  · refine ⟨rv, (e4.2 rv ?_).mpr rv1, rv2, rv3⟩
    rw [rv2]
    exact fun hc => (ho _ hc).2.2 rfl
  · intro hs
    obtain ⟨v, v1, v2, v3⟩ := a5 hs
    refine ⟨v, (e4.2 v ?_).mpr ((d4.2 v (by rw [v2]; decide)).mpr (by rw [c4]; exact (b3.2 v (by rw [v2]; decide)).mpr v1)), v2, v3⟩
    rw [v2]
    exact fun hc => (ho _ hc).1 rfl
  · intro hs v v2
    have hne : v.name ∉ names := by
      rw [v2]
      exact fun hc => (ho _ hc).1 rfl
    rw [e4.2 v hne, d4.2 v (by rw [v2]; decide), c4, b3.2 v (by rw [v2]; decide), a6 hs]
  · intro n hn
    obtain ⟨v, v1, v2, v3⟩ := e5 n hn
    refine ⟨v, v1, v2, ?_⟩
    obtain ⟨n1, n2, n3⟩ := ho n hn
    have hiff : ∀ w : NcVar K, w.name = n → (w ∈ f4.vars ↔ w ∈ f.vars) := by
      intro w hw
      rw [d4.2 w (by rw [hw]; simpa using n3), c4, b3.2 w (by rw [hw]; simpa using n2), a4.2 w (by rw [hw]; simpa using n1)]
    rcases v3 with v3 | ⟨v3, v4⟩
    · have hvf := (hiff v v2).mp v3
      refine ⟨room_more (h.room v hvf (by rw [v2]; exact hn)) (h.fine.2 v hvf) hm5 rfl rfl ?_ ?_, .inl hvf⟩
      · rcases b8 with ⟨t1, -⟩ | ⟨t1, -⟩
        · exact .inl t1.symm
        · exact .inr t1
      · rcases c8 with ⟨s1, -⟩ | ⟨s1, s2, -⟩
        · exact .inl s1.symm
        · exact .inr ⟨s1, s2⟩
    · refine ⟨?_, .inr ⟨fun hc => v3 ?_, by rw [v4]; rfl⟩⟩
      · have hfr : freshVar f4 n [some dT, e, L.y, L.x].reduceOption = freshVar f5 n [some dT, e, L.y, L.x].reduceOption := by
          unfold freshVar dimLength
          rw [e3]
        rw [v4]
        simp only
        rw [hfr]
        exact room_fresh (L := ⟨some dT, e, L.y, L.x⟩) c5 (by rw [cntg L.y (by simp), h.rows]) (by rw [cntg L.x (by simp), h.columns])
          (by rw [cnt5, c7]) (by simp) n
      · obtain ⟨w, w1, w2⟩ := List.mem_map.mp hc
        exact List.mem_map.mpr ⟨w, (hiff w w2).mpr w1, w2⟩

theorem timeForm_eq (t : Fl K) : timeForm t = timeValue t := by
  unfold timeForm timeValue elevationForm ncFillFloat
  cases t with
  | fin q => by_cases h : q = -999 <;> simp [Client.isValid, h]
  | _ => simp [Client.isValid]

theorem ncPutVara_all {l values : List (Fl K)} : ncPutVara [l.length] [0] [l.length] (l.map some) values = ok l := by
  unfold ncPutVara
  rw [if_pos (by simp [ncFits])]
  have ht : ncTuples [l.length] = (List.range l.length).map fun i => [i] := by
    simp only [ncTuples, List.map_cons, List.map_nil]
    generalize List.range l.length = r
    induction r with
    | nil => rfl
    | cons i r ih => rw [List.flatMap_cons, ih]; rfl
  rw [ht, mapM_ok (g := fun c => l.getD (c.headD 0) .nan)]
  · congr 1
    apply List.ext_getElem
    · simp
    · intro i h1 h2
      simp [List.getElem?_eq_getElem h2]
  · intro c hc
    obtain ⟨i, hi, rfl⟩ := List.mem_map.mp hc
    have hi' := List.mem_range.mp hi
    unfold ncPutEntry
    rw [if_pos (by simpa using hi')]
    simp [ncNumber, List.getElem?_eq_getElem hi']

theorem writeTimes_ok {f : NcFile K} (hf : FineFile f) {v : NcVar K} (hv : v ∈ f.vars) (hn : v.name = "time".toList) {d : Nat} (hd : v.dims = [d])
    {times : List (Fl K)} (hl : dimLength f d = times.length) :
    ∃ g, writeTimes f times = ok g ∧ FineFile g ∧ g.dims = f.dims ∧ OnlyChanges ["time".toList] f g ∧
      ∃ w ∈ g.vars, w.name = "time".toList ∧ w.dims = [d] ∧ w.values = times.map timeValue := by
  obtain ⟨vn, vd, vv, vf⟩ := v
  simp only at hn hd
  subst hn hd
  have hfv := hf.2 _ hv
  have he := var_some hf.1.2 hv
  have hw : FineVar f (⟨"time".toList, [d], times.map timeValue, vf⟩ : NcVar K) := ⟨hfv.1, by simp [hl]⟩
  have hput : ncPutVara [dimLength f d] [0] [times.length] (times.map fun t => some (timeForm t)) vv = ok (times.map timeValue) := by
    have h1 : (times.map fun t => some (timeForm t)) = (times.map timeValue).map some := by
      rw [List.map_map]
      exact List.map_congr_left fun t _ => by rw [timeForm_eq]; rfl
    have h2 : times.length = (times.map timeValue).length := by simp
    rw [h1, hl, h2]
    exact ncPutVara_all
  obtain ⟨a, b, c⟩ := setVar_fine hf hw (List.mem_map.mpr ⟨_, hv, rfl⟩)
  unfold writeTimes NcFile.getVar
  rw [he]
  simp only [Option.elim_some, ok_bind]
  rw [dimSize_ok (hfv.1 d (by simp)), ok_bind, hput, ok_bind]
  exact ⟨_, rfl, a, rfl, b, _, c, rfl, rfl, rfl⟩

theorem writeReference_ok {f : NcFile K} (hf : FineFile f) {v : NcVar K} (hv : v ∈ f.vars) (hn : v.name = "forecast_reference_time".toList) (hd : v.dims = [])
    (r : Fl K) :
    ∃ g, writeReference f r = ok g ∧ FineFile g ∧ g.dims = f.dims ∧ OnlyChanges ["forecast_reference_time".toList] f g ∧
      ∃ w ∈ g.vars, w.name = "forecast_reference_time".toList ∧ w.dims = [] ∧ w.values = [timeValue r] := by
  unfold writeReference
  generalize "forecast_reference_time".toList = nm at hn ⊢
  obtain ⟨vn, vd, vv, vf⟩ := v
  simp only at hn hd
  subst hd
  rw [hn] at hv
  have hfv := hf.2 _ hv
  have he := var_some hf.1.2 hv
  have hl : vv.length = 1 := hfv.2
  obtain ⟨x, hx⟩ := List.length_eq_one_iff.mp hl
  have hw : FineVar f (⟨nm, [], [timeValue r], vf⟩ : NcVar K) := ⟨hfv.1, by simp⟩
  obtain ⟨a, b, c⟩ := setVar_fine hf hw (List.mem_map.mpr ⟨_, hv, rfl⟩)
  unfold NcFile.getVar
  rw [he]
  simp only [Option.elim_some, ok_bind]
  rw [if_pos hl.le, hx, List.map_cons, List.map_nil, timeForm_eq]
  exact ⟨_, rfl, a, rfl, b, _, c, rfl, rfl, rfl⟩

theorem writeElevations_ok {P : Option (Fl K) → Prop} {f : NcFile K} (hf : FineFile f) {L : NcLayout} {out : NcOutput K} (hy : dimCount f L.y = out.nY) (hx : dimCount f L.x = out.nX)
    (hr : Rect out.nY out.nX out.elevs)
    (ha : SomeElevation out.elevs → ∃ v ∈ f.vars, v.name = "altitude".toList ∧ HorizontalVar L v ∧ (∃ q, v.fill.getD (.fin (15 * 2 ^ 119)) = .fin q ∧ q ≠ -999) ∧
      P v.fill) :
    ∃ g, writeElevations L out f = ok g ∧ FineFile g ∧ g.dims = f.dims ∧ OnlyChanges ["altitude".toList] f g ∧ (¬ SomeElevation out.elevs → g = f) ∧
      (SomeElevation out.elevs → ∃ v ∈ g.vars, v.name = "altitude".toList ∧ HorizontalVar L v ∧ (∃ q, v.fill.getD (.fin (15 * 2 ^ 119)) = .fin q ∧ q ≠ -999) ∧
        P v.fill ∧ ∀ i < out.nY, ∀ j < out.nX, ∃ e, cell? out.elevs i j = some e ∧ ValueAt f v (cellPos L i j) (elevationForm (v.fill.getD (.fin (15 * 2 ^ 119))) e)) := by
  unfold writeElevations
  by_cases hs : SomeElevation out.elevs
  · obtain ⟨v, v1, v2, v3, ⟨q, v4, v5⟩, v6⟩ := ha hs
    rw [if_pos ((someElevation_iff _).mpr hs)]
    obtain ⟨w, w1, w2, w3, w4, w5, w6⟩ := c153_write_partial (hf.2 v v1) v3 (by rw [hy, hx]; exact hr) ⟨q, v4, .inl v5⟩
    rw [hy, hx] at w1 w6
    have he := var_some hf.1.2 v1
    rw [v2] at he
    obtain ⟨a, b, c⟩ := setVar_fine hf w5 (List.mem_map.mpr ⟨v, v1, w2.symm⟩)
    rw [w2, v2] at b
    unfold NcFile.getVar
    rw [he]
    simp only [Option.elim_some, ok_bind]
    rw [w1, ok_bind]
    refine ⟨_, rfl, a, rfl, b, fun h => absurd hs h, fun _ => ⟨w, c, by rw [w2, v2], ?_, ⟨q, by rw [w4, v4], v5⟩, by rw [w4]; exact v6, ?_⟩⟩
    · unfold HorizontalVar at v3 ⊢
      rw [w3]
      exact v3
    · rw [w4]
      exact w6
  · rw [if_neg (fun hc => hs ((someElevation_iff _).mp hc))]
    exact ⟨f, rfl, hf, rfl, onlyChanges_refl _ _, fun _ => rfl, fun h => absurd h hs⟩

/-- Everything is written. -/
theorem writeCore_ok {ensName : Str} {f : NcFile K} {L : NcLayout} {out : NcOutput K} {names : List Str} (h : OutputFits ensName f L out names) (latVar : NcVar K) :
    ∃ g dT e, writeNetcdfCore ensName latVar L out names f = ok (g, ⟨some dT, e, L.y, L.x⟩) ∧ FineFile g ∧ OnlyChanges (otherNames ++ names) f g ∧
      DifferentDims ⟨some dT, e, L.y, L.x⟩ ∧ NewLayout ensName f L out g dT e ∧ dimLength g dT = out.times.length ∧ dimCount g e = out.nE ∧
      (∃ v ∈ g.vars, v.name = "time".toList ∧ v.dims = [dT] ∧ v.values = out.times.map timeValue) ∧
      (∃ v ∈ g.vars, v.name = "forecast_reference_time".toList ∧ v.dims = [] ∧ v.values = [timeValue out.reference]) ∧
      (SomeElevation out.elevs → ∃ v ∈ g.vars, v.name = "altitude".toList ∧ HorizontalVar L v ∧ (∃ q, v.fill.getD (.fin (15 * 2 ^ 119)) = .fin q ∧ q ≠ -999) ∧
        FillOf f "altitude".toList v.fill ∧ ∀ i < out.nY, ∀ j < out.nX, ∃ e, cell? out.elevs i j = some e ∧ ValueAt g v (cellPos L i j) (elevationForm (v.fill.getD (.fin (15 * 2 ^ 119))) e)) ∧
      (¬ SomeElevation out.elevs → ∀ v, v.name = "altitude".toList → (v ∈ g.vars ↔ v ∈ f.vars)) ∧
      ∀ n ∈ names, ∃ v v', v.name = n ∧ FineVar g v ∧ HasRoom g ⟨some dT, e, L.y, L.x⟩ out v ∧ (v ∈ f.vars ∨ n ∉ f.vars.map NcVar.name ∧ v.fill = none) ∧
        ncWriteVar g ⟨some dT, e, L.y, L.x⟩ out.nY out.nX out.nE out.times.length (out.scale n) (out.offset n) (out.field n) v = ok v' ∧ v'.name = n ∧ v' ∈ g.vars := by
  obtain ⟨g, dT, e, a1, a2, a3, a4, a5, a6, a7, a8, ⟨tv, tv1, tv2, tv3⟩, ⟨rv, rv1, rv2, rv3⟩, a11, a12, a13⟩ := defineAll_ok h latVar
  obtain ⟨g1, b1, b2, b3, b4, tw, tw1, tw2, tw3, tw4⟩ := writeTimes_ok a2 tv1 tv2 tv3 (times := out.times) a6
  obtain ⟨g2, c1, c2, c3, c4, rw, rw1, rw2, rw3, rw4⟩ := writeReference_ok b2 ((b4.2 rv (by rw [rv2]; decide)).mpr rv1) rv2 rv3 out.reference
  have d23 : g2.dims = g.dims := by rw [c3, b3]
  have hm : ∃ more, g.dims = f.dims ++ more := a3.1
  have cnt : ∀ o : Option Nat, o ∈ [L.time, L.ens, L.y, L.x] → dimCount g2 o = dimCount f o := by
    intro o ho
    cases o with
    | none => rfl
    | some d =>
      have := dimLength_more hm (h.known d ho)
      unfold dimCount
      simp only
      rw [← this]
      unfold dimLength
      rw [d23]
  obtain ⟨g3, e1, e2, e3, e4, e5, e6⟩ := writeElevations_ok (P := FillOf f "altitude".toList) (L := ⟨some dT, e, L.y, L.x⟩) c2 (by rw [cnt L.y (by simp), h.rows]) (by rw [cnt L.x (by simp), h.columns]) h.elevs
    (by
      intro hs
      obtain ⟨v, v1, v2, v3⟩ := a11 hs
      exact ⟨v, (c4.2 v (by rw [v2]; decide)).mpr ((b4.2 v (by rw [v2]; decide)).mpr v1), v2, v3⟩)
  have ho : ∀ n ∈ names, n ≠ "altitude".toList ∧ n ≠ "time".toList ∧ n ≠ "forecast_reference_time".toList := by
    intro n hn
    have := h.nodup.2 n hn
    unfold otherNames at this
    simp only [List.mem_cons, List.not_mem_nil, or_false, not_or] at this
    exact this
  have hiff : ∀ n ∈ names, ∀ w : NcVar K, w.name = n → (w ∈ g3.vars ↔ w ∈ g.vars) := by
    intro n hn w hw
    obtain ⟨n1, n2, n3⟩ := ho n hn
    rw [e4.2 w (by rw [hw]; simpa using n1), c4.2 w (by rw [hw]; simpa using n3), b4.2 w (by rw [hw]; simpa using n2)]
  have d3 : g3.dims = g.dims := by rw [e3, d23]
  have hsame : ∀ (p q : NcFile K), p.dims = q.dims → (∀ v : NcVar K, FineVar p v ↔ FineVar q v) ∧ (∀ L v, HasRoom p L out v ↔ HasRoom q L out v) ∧
      (∀ L a b c d s o fl v, ncWriteVar p L a b c d s o fl v = ncWriteVar q L a b c d s o fl v) ∧ (∀ v pos x, ValueAt p v pos x ↔ ValueAt q v pos x) := by
    rintro ⟨pd, pv⟩ ⟨qd, qv⟩ hpq
    simp only at hpq
    subst hpq
    refine ⟨fun _ => Iff.rfl, fun _ _ => ⟨fun h => ⟨h.1, h.2, h.3, h.4, h.5, h.6, h.7⟩, fun h => ⟨h.1, h.2, h.3, h.4, h.5, h.6, h.7⟩⟩,
      fun _ _ _ _ _ _ _ _ _ => rfl, fun _ _ _ => Iff.rfl⟩
  -- the variables with forecasts
  have hnew : ∀ n, ∃ v v' : NcVar K, n ∈ names → v ∈ g.vars ∧ v.name = n ∧ HasRoom g ⟨some dT, e, L.y, L.x⟩ out v ∧
      (v ∈ f.vars ∨ n ∉ f.vars.map NcVar.name ∧ v.fill = none) ∧
      ncWriteVar g ⟨some dT, e, L.y, L.x⟩ out.nY out.nX out.nE out.times.length (out.scale n) (out.offset n) (out.field n) v = ok v' ∧ v'.name = n ∧ FineVar g v' := by
    intro n
    by_cases hn : n ∈ names
    · obtain ⟨v, v1, v2, v3, v4⟩ := a13 n hn
      have hfv := a2.2 v v1
      obtain ⟨values, p1, p2, -⟩ := ncWriteVar_ok hfv v3.nodup a4 v3.others v3.rows.le v3.columns.le v3.members.le (out.scale n) (out.offset n) (out.field n)
        out.times.length (fun t ht d _ hdt => by rw [Option.some.inj hdt, a6]; exact ht) (h.fields n hn)
      exact ⟨v, _, fun _ => ⟨v1, v2, v3, v4, p1, v2, p2⟩⟩
    · exact ⟨⟨[], [], [], none⟩, ⟨[], [], [], none⟩, fun hc => absurd hc hn⟩
  choose old new hnew using hnew
  obtain ⟨g4, f1, f2, f3, f4, f5⟩ := setAll_ok (body := writeField ⟨some dT, e, L.y, L.x⟩ out) (new := new) names h.nodup.1 e2 (by
      intro n hn
      obtain ⟨k1, k2, k3, k4, k5, k6, k7⟩ := hnew n hn
      exact ⟨k6, ((hsame g3 g d3).1 _).mpr k7, List.mem_map.mpr ⟨old n, (hiff n hn _ k2).mpr k1, k2⟩⟩) (by
      intro n hn p hp hpd hpv
      obtain ⟨k1, k2, k3, k4, k5, k6, k7⟩ := hnew n hn
      have hin : old n ∈ p.vars := (hpv _ k2).mpr ((hiff n hn _ k2).mpr k1)
      have he := var_some hp.1.2 hin
      rw [k2] at he
      unfold writeField NcFile.getVar
      rw [he]
      simp only [Option.elim_some, ok_bind]
      rw [(hsame p g (by rw [hpd, d3])).2.2.1, k5, ok_bind])
  have d4 : g4.dims = g.dims := by rw [f3, d3]
  obtain ⟨s1, s2, s3, s4⟩ := hsame g4 g d4
  refine ⟨g4, dT, e, ?_, f2, ?_, a4, ?_, ?_, ?_, ?_, ?_, ?_, ?_, ?_⟩
  · unfold writeNetcdfCore
    rw [a1, ok_bind]
    simp only
    rw [b1, ok_bind, c1, ok_bind, e1, ok_bind, f1, ok_bind]
  · refine onlyChanges_trans a3 (onlyChanges_trans (onlyChanges_mono b4 ?_) (onlyChanges_trans (onlyChanges_mono c4 ?_)
      (onlyChanges_trans (onlyChanges_mono e4 ?_) (onlyChanges_mono f4 ?_))))
    · simp [otherNames]
    · simp [otherNames]
    · simp [otherNames]
    · intro n hn
      simp [hn]
  · obtain ⟨more, m1, m2⟩ := a8
    exact ⟨more, by rw [d4, m1], m2⟩
  · unfold dimLength at a6 ⊢
    rw [d4]
    exact a6
  · rw [← a7]
    cases e with
    | none => rfl
    | some d =>
      unfold dimCount dimLength
      simp only
      rw [d4]
  · refine ⟨tw, (f4.2 tw ?_).mpr ((e4.2 tw (by rw [tw2]; decide)).mpr ((c4.2 tw (by rw [tw2]; decide)).mpr tw1)), tw2, tw3, tw4⟩
    rw [tw2]
    exact fun hc => (ho _ hc).2.1 rfl
  · refine ⟨rw, (f4.2 rw ?_).mpr ((e4.2 rw (by rw [rw2]; decide)).mpr rw1), rw2, rw3, rw4⟩
    rw [rw2]
    exact fun hc => (ho _ hc).2.2 rfl
  · intro hs
    obtain ⟨v, v1, v2, v3, v4, v5', v5⟩ := e6 hs
    refine ⟨v, (f4.2 v ?_).mpr v1, v2, v3, v4, v5', fun i hi j hj => ?_⟩
    · rw [v2]
      exact fun hc => (ho _ hc).1 rfl
    · obtain ⟨x, x1, x2⟩ := v5 i hi j hj
      exact ⟨x, x1, ((hsame g4 g2 (by rw [d4, d23])).2.2.2 _ _ _).mpr x2⟩
  · intro hs v v2
    have hne : v.name ∉ names := by
      rw [v2]
      exact fun hc => (ho _ hc).1 rfl
    rw [f4.2 v hne, e5 hs, c4.2 v (by rw [v2]; decide), b4.2 v (by rw [v2]; decide), a12 hs v v2]
  · intro n hn
    obtain ⟨k1, k2, k3, k4, k5, k6, k7⟩ := hnew n hn
    exact ⟨old n, new n, k2, (s1 _).mpr (a2.2 _ k1), (s2 _ _).mpr k3, k4, by rw [s3, k5], k6, f5 n hn⟩

/-- C155, writing: only the variables with forecasts, the times, the reference time and the altitude change, and dimensions are only added at the end. The
times, the reference time and the elevations are those that are written, and every forecast is where the dimensions of its variable say. -/
theorem c155_write_partial {ensName : Str} {f : NcFile K} {L : NcLayout} {out : NcOutput K} {names : List Str} (h : OutputFits ensName f L out names) (latVar : NcVar K) :
    ∃ g dT e, writeNetcdfCore ensName latVar L out names f = ok (g, ⟨some dT, e, L.y, L.x⟩) ∧ FineFile g ∧ OnlyChanges (otherNames ++ names) f g ∧
      NewLayout ensName f L out g dT e ∧ dimLength g dT = out.times.length ∧ dimCount g e = out.nE ∧
      (∃ v ∈ g.vars, v.name = "time".toList ∧ v.dims = [dT] ∧ v.values = out.times.map timeValue) ∧
      (∃ v ∈ g.vars, v.name = "forecast_reference_time".toList ∧ v.dims = [] ∧ v.values = [timeValue out.reference]) ∧
      (SomeElevation out.elevs → ∃ v ∈ g.vars, v.name = "altitude".toList ∧ HorizontalVar L v ∧
        ∀ i < out.nY, ∀ j < out.nX, ∃ e, cell? out.elevs i j = some e ∧ ValueAt g v (cellPos L i j) (elevationForm (v.fill.getD (.fin (15 * 2 ^ 119))) e)) ∧
      (¬ SomeElevation out.elevs → ∀ v, v.name = "altitude".toList → (v ∈ g.vars ↔ v ∈ f.vars)) ∧
      ∀ n ∈ names, ∃ v ∈ g.vars, v.name = n ∧ HasRoom g ⟨some dT, e, L.y, L.x⟩ out v ∧
        ∀ t < out.times.length, ∀ y < out.nY, ∀ x < out.nX, ∀ m < out.nE, ∃ value, (out.field n t).get y x m = ok value ∧
          ValueAt g v (fieldPos ⟨some dT, e, L.y, L.x⟩ (fun _ => 0) t y x m)
            (packedForm (v.fill.getD (.fin (15 * 2 ^ 119))) (out.scale n) (out.offset n) value) := by
  obtain ⟨g, dT, e, a1, a2, a3, a4, a5, a6, a7, a8, a9, a10, a11, a12⟩ := writeCore_ok h latVar
  refine ⟨g, dT, e, a1, a2, a3, a5, a6, a7, a8, a9, ?_, a11, fun n hn => ?_⟩
  · intro hs
    obtain ⟨v, v1, v2, v3, -, -, v5⟩ := a10 hs
    exact ⟨v, v1, v2, v3, v5⟩
  · obtain ⟨v, v', v1, v2, v3, -, v5, v6, v7⟩ := a12 n hn
    obtain ⟨q, hq, hq'⟩ := v3.fill
    obtain ⟨values, p1, p2, p3, -⟩ := c150_write_partial v2 v3.nodup a4 v3.others v3.rows.le v3.columns.le v3.members.le (out.scale n) (out.offset n) (out.field n)
      out.times.length (fun t ht d _ hdt => by rw [Option.some.inj hdt, a6]; exact ht) (h.fields n hn) v3.times (by rw [hq]; simpa [Client.isValid] using hq')
    rw [v5] at p1
    have p1 := Res.ok.inj p1
    refine ⟨v', v7, v6, ?_, ?_⟩
    · rw [p1]
      exact ⟨v3.nodup, v3.others, v3.rows, v3.columns, v3.members, v3.times, v3.fill⟩
    · rw [p1]
      intro t ht y hy x hx m hm
      exact p3 t ht y (by rw [v3.rows]; exact hy) x (by rw [v3.columns]; exact hx) m (by rw [v3.members]; exact hm)

/-- C155, round trip: all fields are the same when they are read again. -/
theorem c155_round_partial {ensName : Str} {f : NcFile K} {L : NcLayout} {out : NcOutput K} {names : List Str} (h : OutputFits ensName f L out names)
    (hp : ∀ n ∈ names, PackedFree f out n) (latVar : NcVar K) :
    ∃ g L', writeNetcdfCore ensName latVar L out names f = ok (g, L') ∧ ∀ n ∈ names, ∃ v, g.var n = some v ∧ ∀ t < out.times.length, ∃ field,
      ncField g L' out.nY out.nX out.nE v (out.scale n) (out.offset n) (-999) t = ok field ∧ Sized out.nY out.nX out.nE field ∧
      ∀ y < out.nY, ∀ x < out.nX, ∀ m < out.nE, ∃ value, (out.field n t).get y x m = ok value ∧ field.get y x m = ok (numberOrMissing value) := by
  obtain ⟨g, dT, e, a1, a2, -, a4, -, a6, -, -, -, -, -, a12⟩ := writeCore_ok h latVar
  refine ⟨g, _, a1, fun n hn => ?_⟩
  obtain ⟨v, v', v1, v2, v3, v4, v5, v6, v7⟩ := a12 n hn
  obtain ⟨q, hq, hq'⟩ := v3.fill
  obtain ⟨s, o, s1, s2, s3, s4⟩ := hp n hn
  have hv := var_some a2.1.2 v7
  rw [v6] at hv
  refine ⟨v', hv, ?_⟩
  rw [s1, s2] at v5 ⊢
  obtain ⟨w, p1, p2⟩ := c150_round_partial v2 v3.nodup a4 v3.others v3.rows v3.columns v3.members s3 (out.field n)
    out.times.length (fun t ht d _ hdt => by rw [Option.some.inj hdt, a6]; exact ht) (h.fields n hn) v3.times (by rw [hq]; simpa [Client.isValid] using hq')
    (s4 v.fill (by
      rcases v4 with v4 | ⟨v4, v4'⟩
      · exact .inl ⟨v, v4, v1, rfl⟩
      · exact .inr ⟨v4, v4'⟩))
  rw [v5] at p1
  rw [Res.ok.inj p1]
  exact p2

/-- C155, a dimension with fewer times than there are: the program stops. -/
theorem c155_times {f : NcFile K} (hf : FineFile f) {v : NcVar K} (hv : v ∈ f.vars) (hn : v.name = "time".toList) {d : Nat} (hd : v.dims = [d])
    {times : List (Fl K)} (hl : dimLength f d < times.length) : writeTimes f times = .abort := by
  obtain ⟨vn, vd, vv, vf⟩ := v
  simp only at hn hd
  subst hn hd
  have he := var_some hf.1.2 hv
  unfold writeTimes NcFile.getVar
  rw [he]
  simp only [Option.elim_some, ok_bind]
  rw [dimSize_ok ((hf.2 _ hv).1 d (by simp)), ok_bind]
  unfold ncPutVara
  rw [if_neg]
  · rfl
  · simp only [ncFits]
    simp
    omega

/-- A file with a grid of one row and two columns, and a variable with the dimensions x, time, y. -/
def writeExampleFile : NcFile ℚ :=
  ⟨[("time".toList, 1), ("y".toList, 1), ("x".toList, 2)],
    [⟨"lat".toList, [1], [.fin 60], none⟩, ⟨"lon".toList, [2], [.fin 10, .fin 11], none⟩, ⟨"old".toList, [2, 0, 1], [.fin 1, .fin 2], some (.fin 7)⟩]⟩

/-- Forecasts for it: two members, which the file has no dimension for. -/
def writeExampleOutput : NcOutput ℚ :=
  ⟨1, 2, 2, [.fin 3600], .fin 0, [[.fin 100, MV]], fun _ _ => ⟨[.fin 1, .fin 2, .fin 3, MV], 1, 2, 2⟩, fun _ => .fin 1, fun _ => .fin 0⟩

theorem writeExample_fits : OutputFits "ens".toList writeExampleFile ⟨some 0, none, some 1, some 2⟩ writeExampleOutput ["new".toList] where
  fine := by
    unfold FineFile FineNames FineVar
    decide +kernel
  different := by
    unfold DifferentDims
    decide
  known := by
    intro d hd
    simp only [List.mem_cons, List.not_mem_nil, or_false, Option.some.injEq, reduceCtorEq, false_or] at hd
    rcases hd with rfl | rfl | rfl <;> decide
  rows := by decide +kernel
  columns := by decide +kernel
  times := .inl ⟨0, rfl, by decide +kernel, by decide +kernel⟩
  members := .inr ⟨rfl, .inr (by decide +kernel)⟩
  reference := by decide +kernel
  elevs := ⟨rfl, by decide +kernel⟩
  altitude := fun _ => ⟨by
    intro v hv hn
    exact absurd hn (by revert hv v; decide +kernel), fun _ => by simp⟩
  nodup := by decide +kernel
  room := by
    intro v hv hn
    exact absurd hn (by revert hv v; decide +kernel)
  fields := by
    intro n _ t _
    exact ⟨rfl, rfl, rfl, rfl⟩

theorem writeExample_packed : PackedFree writeExampleFile writeExampleOutput "new".toList := by
  refine ⟨1, 0, rfl, rfl, by norm_num, ?_⟩
  rintro fill (⟨v, hv, hn, -⟩ | ⟨-, rfl⟩) t _ y x e q hq _ hc
  · exact absurd hn (by revert hv v; decide +kernel)
  · have hq' : q = 15 * 2 ^ 119 := by
      have := Fl.fin.inj hc
      simpa using this.symm
    have hmem : ∀ (l : List (Fl ℚ)) (nY nX nE : Nat) (y x e : Nat) (w : Fl ℚ), FieldC.get ⟨l, nY, nX, nE⟩ y x e = ok w → w ∈ l := by
      intro l nY nX nE y x e w hw
      unfold FieldC.get at hw
      obtain ⟨i, -, hi⟩ := bind_eq_ok.mp hw
      unfold vget at hi
      split_ifs at hi with hlt
      split at hi
      · next a ha => exact (Res.ok.inj hi) ▸ List.mem_of_getElem? ha
      · cases hi
    have := hmem _ _ _ _ _ _ _ _ hq
    rw [hq'] at this
    revert this
    decide +kernel

/-- The whole file, and the new variable when it is read again. -/
example : ∃ g L', writeNetcdfCore "ens".toList ⟨"lat".toList, [1], [.fin 60], none⟩ ⟨some 0, none, some 1, some 2⟩ writeExampleOutput ["new".toList] writeExampleFile = ok (g, L') ∧
    g.dims = [("time".toList, 1), ("y".toList, 1), ("x".toList, 2), ("ens".toList, 2)] ∧ L' = ⟨some 0, some 3, some 1, some 2⟩ ∧
    g.var "time".toList = some ⟨"time".toList, [0], [.fin 3600], none⟩ ∧ g.var "altitude".toList = some ⟨"altitude".toList, [1, 2], [.fin 100, .fin (15 * 2 ^ 119)], none⟩ ∧
    g.var "new".toList = some ⟨"new".toList, [0, 3, 1, 2], [.fin 1, .fin 3, .fin 2, .fin (15 * 2 ^ 119)], none⟩ :=
  ⟨_, _, rfl, by decide +kernel, by decide +kernel, by decide +kernel, by decide +kernel, by decide +kernel⟩

/-- C155 is false of the code for missing times: they are numbers when the file is opened again. -/
theorem c155_missing_false : ∃ g L', writeNetcdfCore "ens".toList ⟨"lat".toList, [1], [.fin 60], none⟩ ⟨some 0, none, some 1, some 2⟩
      { writeExampleOutput with times := [MV], reference := MV } [] writeExampleFile = ok (g, L') ∧
    fileReferenceTime g = ok (.fin (15 * 2 ^ 119)) ∧ fileTimes g (g.var "time".toList) L'.time (.fin (15 * 2 ^ 119)) = ok ([.fin (15 * 2 ^ 119)], .fin (15 * 2 ^ 119)) :=
  ⟨_, _, rfl, by decide +kernel, by decide +kernel⟩

/-- C155 is false of the code for a file in which the times are to be read from another variable: it keeps its values. -/
theorem c155_variable_false : ∃ g L', writeNetcdfCore "ens".toList ⟨"lat".toList, [1], [.fin 60], none⟩ ⟨some 0, none, some 1, some 2⟩ writeExampleOutput []
      { writeExampleFile with vars := ⟨"valid".toList, [0], [.fin 5], none⟩ :: writeExampleFile.vars } = ok (g, L') ∧
    writeExampleOutput.times = [.fin 3600] ∧ fileTimes g (g.var "valid".toList) L'.time (.fin 0) = ok ([.fin 5], .fin 0) :=
  ⟨_, _, rfl, rfl, by decide +kernel⟩

/-- C155 is false of the code for a reference time with several values: memory that is not there is read. -/
theorem c155_reference_false : writeNetcdfCore "ens".toList ⟨"lat".toList, [1], [.fin 60], none⟩ ⟨some 0, none, some 1, some 2⟩ writeExampleOutput []
    { writeExampleFile with vars := ⟨"forecast_reference_time".toList, [2], [.fin 5, .fin 6], none⟩ :: writeExampleFile.vars } = .ub := by decide +kernel

/-- C155 is false of the code for elevations of a single point without dimensions: the program stops. -/
theorem c155_point_false : writeNetcdfCore "ens".toList ⟨"lat".toList, [], [.fin 60], none⟩ ⟨none, none, none, none⟩
    { writeExampleOutput with nY := 1, nX := 1, nE := 1, elevs := [[.fin 5]] } [] ⟨[], [⟨"lat".toList, [], [.fin 60], none⟩]⟩ = .abort := by decide +kernel

end Gridpp.Props
