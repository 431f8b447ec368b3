import Verif.Props.Client.FileNetcdfCore

/-! # C156: a NetCDF file that has been written is opened again -/

set_option linter.unusedSectionVars false

namespace Gridpp.Props
open Fl hiding MV isValid
open Res Client Spec

variable {K : Type} [Field K] [LinearOrder K] [IsStrictOrderedRing K]

theorem valueAt_more {f g : NcFile K} (h : ∃ more, g.dims = f.dims ++ more) {v : NcVar K} (hf : FineVar f v) (pos : Nat → Nat) (x : Fl K) :
    ValueAt g v pos x ↔ ValueAt f v pos x := by
  unfold ValueAt
  rw [List.map_congr_left (g := fun d => (dimLength f d, pos d))]
  intro d hd
  rw [dimLength_more h (hf.1 d hd)]

theorem dimCount_more {f g : NcFile K} (h : ∃ more, g.dims = f.dims ++ more) {o : Option Nat} (ho : ∀ d, o = some d → d < f.dims.length) :
    dimCount g o = dimCount f o := by
  cases o with
  | none => rfl
  | some d => exact dimLength_more h (ho d rfl)

/-- What a variable says about the grid does not change if dimensions are added. -/
theorem gridValues_more {f g : NcFile K} (h : ∃ more, g.dims = f.dims ++ more) {L L' : NcLayout} (hy : L'.y = L.y) (hx : L'.x = L.x)
    (ky : ∀ d, L.y = some d → d < f.dims.length) (kx : ∀ d, L.x = some d → d < f.dims.length) {v : NcVar K} {x : Nat → Nat → Fl K}
    (hv : GridValues f L v x) : GridValues g L' v x := by
  obtain ⟨h1, h2⟩ := hv
  refine ⟨fineVar_more h h1, ?_⟩
  rw [hy, hx]
  rcases h2 with ⟨dY, dX, a1, a2, a3, a4, a5, a6, a7, a8⟩ | ⟨d, b1, b2, b3, b4⟩
  · refine .inl ⟨dY, dX, a1, a2, a3, a4, a5, a6, fun d hd => ?_, ?_⟩
    · rw [dimLength_more h (h1.1 d hd)]
      exact a7 d hd
    · rw [dimLength_more h (h1.1 dY a5), dimLength_more h (h1.1 dX a6)]
      intro i hi j hj
      obtain ⟨raw, r1, r2⟩ := a8 i hi j hj
      exact ⟨raw, (valueAt_more h h1 _ _).mpr r1, r2⟩
  · refine .inr ⟨d, b1, b2, b3, ?_⟩
    rw [dimCount_more h ky, dimCount_more h kx]
    intro i hi j hj
    exact (valueAt_more h h1 _ _).mpr (b4 i hi j hj)

theorem firstDim_more {f g : NcFile K} {more : List (Str × Nat)} (h : g.dims = f.dims ++ more) {names : List Str} (hn : ∀ m ∈ names, m ∉ more.map Prod.fst) {d : Nat}
    (hd : FirstDim f names d) : FirstDim g names d := by
  obtain ⟨before, n, after, size, h1, h2, h3⟩ := hd
  refine ⟨before, n, after, size, h1, fun m hm => ?_, ?_⟩
  · rw [h, List.map_append, List.mem_append, not_or]
    exact ⟨h2 m hm, hn m (by rw [h1]; simp [hm])⟩
  · rw [h, List.getElem?_append_left (List.getElem?_eq_some_iff.mp h3).1]
    exact h3

theorem firstDim_single {f g : NcFile K} {more : List (Str × Nat)} (h : g.dims = f.dims ++ more) {n : Str} {d : Nat} (hd : FirstDim f [n] d) : FirstDim g [n] d := by
  obtain ⟨before, m, after, size, h1, h2, h3⟩ := hd
  have hb : before = [] := by
    cases before with
    | nil => rfl
    | cons a t => simp at h1
  subst hb
  refine ⟨[], m, after, size, h1, by simp, ?_⟩
  rw [h, List.getElem?_append_left (List.getElem?_eq_some_iff.mp h3).1]
  exact h3

theorem dimChoice_more {f g : NcFile K} {more : List (Str × Nat)} (h : g.dims = f.dims ++ more) {given : Option Str} {usual : List Str}
    (hn : ∀ m ∈ usual, m ∉ more.map Prod.fst) {d : Option Nat} (hd : DimChoice f given usual d) : DimChoice g given usual d := by
  cases d with
  | none =>
    refine ⟨hd.1, fun m hm => ?_⟩
    rw [h, List.map_append, List.mem_append, not_or]
    exact ⟨hd.2 m hm, hn m hm⟩
  | some d =>
    cases given with
    | none => exact firstDim_more h hn hd
    | some n => exact firstDim_single h hd

theorem firstVar_keeps {S : List Str} {f g : NcFile K} (h : OnlyChanges S f g) {names : List Str} (hn : ∀ n ∈ S, n ∉ names) {v : NcVar K} (hv : FirstVar f names v) :
    FirstVar g names v := by
  obtain ⟨before, n, after, h1, h2, h3, h4⟩ := hv
  refine ⟨before, n, after, h1, fun m hm hc => h2 m hm ?_, (h.2 v ?_).mpr h3, h4⟩
  · exact (name_mem_iff h (fun hs => hn m hs (by rw [h1]; simp [hm]))).mp hc
  · intro hs
    exact hn _ hs (by rw [h1, h4]; simp)

theorem newLayout_dims {ensName : Str} {f g : NcFile K} {o : NcFileOptions} {L : NcLayout} {out : NcOutput K} {dT : Nat} {e : Option Nat}
    (hens : ensName = o.ensDim.getD "ensemble_member".toList) (hL : LayoutOf f o L) (h : NewLayout ensName f L out g dT e)
    (hne : ensName ∉ ["time".toList, "y".toList, "latitude".toList, "lat".toList, "x".toList, "longitude".toList, "lon".toList]) :
    LayoutOf g o ⟨some dT, e, L.y, L.x⟩ := by
  obtain ⟨more, m1, m2⟩ := h
  have hmore : ∀ m ∈ more.map Prod.fst, m = "time".toList ∨ m = ensName := by
    rcases m2 with ⟨-, -, r⟩ | ⟨-, -, -, r⟩ | ⟨-, -, -, -, r⟩ | ⟨-, -, -, -, -, r⟩ <;> rw [r] <;> simp
  simp only [List.mem_cons, List.not_mem_nil, or_false, not_or] at hne
  obtain ⟨n1, n2, n3, n4, n5, n6, n7⟩ := hne
  refine ⟨?_, ?_, dimChoice_more m1 ?_ hL.y, dimChoice_more m1 ?_ hL.x⟩
  · have htn : L.time = none → dT = f.dims.length → (∃ r, more = ("time".toList, out.times.length) :: r) → DimChoice g o.timeDim ["time".toList] (some dT) := by
      rintro h1 h2 ⟨r, h3⟩
      have := hL.time
      rw [h1] at this
      rw [this.1]
      refine ⟨[], _, [], out.times.length, rfl, by simp, ?_⟩
      rw [m1, h2, h3, List.getElem?_append_right (le_refl _)]
      simp
    have hts : L.time = some dT → DimChoice g o.timeDim ["time".toList] (some dT) := by
      intro h1
      have := hL.time
      rw [h1] at this
      cases ho : o.timeDim with
      | none =>
        rw [ho] at this
        exact firstDim_single m1 this
      | some n =>
        rw [ho] at this
        exact firstDim_single m1 this
    rcases m2 with ⟨r1, -, r⟩ | ⟨r1, -, r2, r⟩ | ⟨r1, -, -, -, r⟩ | ⟨r1, -, -, r2, -, r⟩
    · exact hts r1
    · exact htn r1 r2 ⟨_, r⟩
    · exact hts r1
    · exact htn r1 r2 ⟨_, r⟩
  · have hsing : namesOr o.ensDim ["ensemble_member".toList] = [ensName] := by
      rw [hens]
      cases o.ensDim <;> rfl
    have hold : L.ens = e → (∀ m ∈ more.map Prod.fst, m ≠ ensName) →
        (∃ d, e = some d ∧ FirstDim g (namesOr o.ensDim ["ensemble_member".toList]) d) ∨ e = none ∧ o.ensDim.getD "ensemble_member".toList ∉ g.dims.map Prod.fst := by
      intro h1 h2
      rcases hL.ens with ⟨d, h3, h4⟩ | ⟨h3, h4⟩
      · rw [hsing] at h4 ⊢
        exact .inl ⟨d, by rw [← h1, h3], firstDim_single m1 h4⟩
      · refine .inr ⟨by rw [← h1, h3], ?_⟩
        rw [m1, List.map_append, List.mem_append, not_or]
        exact ⟨h4, fun hc => h2 _ hc hens.symm⟩
    have hnew : ∀ k, e = some (f.dims.length + k) → more[k]? = some (ensName, out.nE) →
        (∃ d, e = some d ∧ FirstDim g (namesOr o.ensDim ["ensemble_member".toList]) d) := by
      intro k h1 h2
      refine ⟨_, h1, ?_⟩
      rw [hsing]
      refine ⟨[], _, [], out.nE, rfl, by simp, ?_⟩
      rw [m1, List.getElem?_append_right (by omega)]
      simpa using h2
    rcases m2 with ⟨-, r1, r⟩ | ⟨-, r1, -, r⟩ | ⟨-, -, -, r1, r⟩ | ⟨-, -, -, -, r1, r⟩
    · exact hold r1 (by rw [r]; simp)
    · exact hold r1 (by rw [r]; simpa using fun hc => n1 hc.symm)
    · exact .inl (hnew 0 r1 (by rw [r]; rfl))
    · exact .inl (hnew 1 r1 (by rw [r]; rfl))
  · intro m hm hc
    simp only [List.mem_cons, List.not_mem_nil, or_false] at hm
    rcases hmore m hc with rfl | rfl
    · revert hm
      decide
    · rcases hm with hm | hm | hm
      · exact n2 hm
      · exact n3 hm
      · exact n4 hm
  · intro m hm hc
    simp only [List.mem_cons, List.not_mem_nil, or_false] at hm
    rcases hmore m hc with rfl | rfl
    · revert hm
      decide
    · rcases hm with hm | hm | hm
      · exact n5 hm
      · exact n6 hm
      · exact n7 hm

theorem meaning_elevationForm {fill : Option (Fl K)} {q : K} (hq : fill.getD (.fin (15 * 2 ^ 119)) = .fin q) {e : Fl K}
    (he : e ≠ .fin q) : meaning fill (elevationForm (fill.getD (.fin (15 * 2 ^ 119))) e) = numberOrMissing e := by
  unfold meaning
  rw [hq]
  cases e with
  | fin s =>
    have hs : s ≠ q := fun h => he (by rw [h])
    by_cases h4 : s = -999 <;> simp [elevationForm, numberOrMissing, h4, hs]
  | _ => simp [elevationForm, numberOrMissing]

/-- The grid of the file after writing. -/
theorem grid_after {g0 : ForecastGrid K} {f : NcFile K} {o : NcFileOptions} (hg : g0.Of f o) {out : NcOutput K} {names : List Str}
    (h : OutputFits (o.ensDim.getD "ensemble_member".toList) f g0.layout out names) (hk : KeepsGrid o names)
    (hd : SomeElevation out.elevs → g0.layout.y ≠ none ∧ g0.layout.x ≠ none) (hfree : ElevationsFree f out.elevs) {g : NcFile K} {dT : Nat} {e : Option Nat}
    (hfine : FineFile g) (hc : OnlyChanges (otherNames ++ names) f g) (hn : NewLayout (o.ensDim.getD "ensemble_member".toList) f g0.layout out g dT e)
    (ha : SomeElevation out.elevs → ∃ v ∈ g.vars, v.name = "altitude".toList ∧ HorizontalVar g0.layout v ∧ (∃ q, v.fill.getD (.fin (15 * 2 ^ 119)) = .fin q ∧ q ≠ -999) ∧
        FillOf f "altitude".toList v.fill ∧ ∀ i < out.nY, ∀ j < out.nX, ∃ e, cell? out.elevs i j = some e ∧
          ValueAt g v (cellPos g0.layout i j) (elevationForm (v.fill.getD (.fin (15 * 2 ^ 119))) e))
    (ha' : ¬ SomeElevation out.elevs → ∀ v, v.name = "altitude".toList → (v ∈ g.vars ↔ v ∈ f.vars)) :
    ∃ elev : Option (Nat → Nat → Fl K), ForecastGrid.Of ⟨⟨some dT, e, g0.layout.y, g0.layout.x⟩, g0.lat, g0.lon, elev, g0.part⟩ g o ∧
      (¬ SomeElevation out.elevs → elev = g0.elev) ∧
      (SomeElevation out.elevs → ∃ z, elev = some z ∧ ∀ i < out.nY, ∀ j < out.nX, ∃ x, cell? out.elevs i j = some x ∧ z i j = numberOrMissing x) := by
  have hm : ∃ more, g.dims = f.dims ++ more := hc.1
  have ky : ∀ d, g0.layout.y = some d → d < f.dims.length := fun d hd => h.known d (by simp [hd])
  have kx : ∀ d, g0.layout.x = some d → d < f.dims.length := fun d hd => h.known d (by simp [hd])
  have cy := dimCount_more hm ky
  have cx := dimCount_more hm kx
  have hrest : ∀ elev, ElevationsOf g o ⟨some dT, e, g0.layout.y, g0.layout.x⟩ elev →
      ForecastGrid.Of ⟨⟨some dT, e, g0.layout.y, g0.layout.x⟩, g0.lat, g0.lon, elev, g0.part⟩ g o := by
    intro elev helev
    refine ⟨hfine.1, newLayout_dims rfl hg.dims hn hk.ens, by rw [cy]; exact hg.rows, ?_, ?_, by rw [cy, cx]; exact hg.latRange, by rw [cy, cx]; exact hg.lonRange, helev, ?_⟩
    · obtain ⟨v, v1, v2⟩ := hg.lats
      exact ⟨v, firstVar_keeps hc hk.lat v1, gridValues_more hm rfl rfl ky kx v2⟩
    · obtain ⟨v, v1, v2⟩ := hg.lons
      exact ⟨v, firstVar_keeps hc hk.lon v1, gridValues_more hm rfl rfl ky kx v2⟩
    · rcases hg.fractions with ⟨v, v1, v2, v3⟩ | ⟨v1, v2⟩
      · exact .inl ⟨v, (hc.2 v (by rw [v2]; exact hk.land)).mpr v1, v2, gridValues_more hm rfl rfl ky kx v3⟩
      · exact .inr ⟨fun hx => v1 ((name_mem_iff hc hk.land).mp hx), v2⟩
  by_cases hs : SomeElevation out.elevs
  · obtain ⟨v, v1, v2, v3, ⟨q, v4, v5⟩, v6, v7⟩ := ha hs
    have hz : ∀ i j, ∃ x, i < out.nY → j < out.nX → cell? out.elevs i j = some x ∧
        ValueAt g v (cellPos g0.layout i j) (elevationForm (v.fill.getD (.fin (15 * 2 ^ 119))) x) := by
      intro i j
      by_cases hi : i < out.nY
      · by_cases hj : j < out.nX
        · obtain ⟨x, x1, x2⟩ := v7 i hi j hj
          exact ⟨x, fun _ _ => ⟨x1, x2⟩⟩
        · exact ⟨.nan, fun _ h => absurd h hj⟩
      · exact ⟨.nan, fun h => absurd h hi⟩
    choose z hz using hz
    refine ⟨some fun i j => numberOrMissing (z i j), hrest _ ?_, fun hno => absurd hs hno, fun _ => ⟨_, rfl, fun i hi j hj => ⟨z i j, (hz i j hi hj).1, rfl⟩⟩⟩
    refine .inl ⟨v, _, v1, by rw [v2, hk.elev], ⟨hfine.2 v v1, ?_⟩, rfl⟩
    rcases v3 with ⟨dY, dX, y1, y2, y3, y4⟩ | ⟨d, -, ⟨-, y2⟩ | ⟨y1, -⟩⟩
    · have lY : dimLength g dY = out.nY := by
        have := h.rows
        rw [← cy, y1] at this
        exact this
      have lX : dimLength g dX = out.nX := by
        have := h.columns
        rw [← cx, y2] at this
        exact this
      have hdims : v.dims.Nodup ∧ dY ∈ v.dims ∧ dX ∈ v.dims ∧ ∀ d ∈ v.dims, d = dY ∨ d = dX := by
        rcases y4 with y4 | y4 <;> rw [y4] <;> simp [y3, Ne.symm y3]
      refine .inl ⟨dY, dX, y1, y2, y3, hdims.1, hdims.2.1, hdims.2.2.1, fun d hdd => .inr (hdims.2.2.2 d hdd), ?_⟩
      rw [lY, lX]
      intro i hi j hj
      obtain ⟨x1, x2⟩ := hz i j hi hj
      refine ⟨_, ?_, (meaning_elevationForm v4 ?_).symm⟩
      · have hpos : gridPos dY dX i j = cellPos g0.layout i j := by
          funext d
          unfold cellPos gridPos
          rw [y1, y2]
          simp
        rw [hpos]
        exact x2
      · intro hx
        rw [hx] at x1
        unfold cell? at x1
        obtain ⟨row, r1, r2⟩ := Option.bind_eq_some_iff.mp x1
        have := hfree v.fill v6 row (List.mem_of_getElem? r1)
        rw [v4] at this
        exact this (List.mem_of_getElem? r2)
    · exact absurd y2 (hd hs).2
    · exact absurd y1 (hd hs).1
  · refine ⟨g0.elev, hrest _ ?_, fun _ => rfl, fun h => absurd h hs⟩
    have hiff := ha' hs
    have halt : "altitude".toList ∈ g.vars.map NcVar.name ↔ "altitude".toList ∈ f.vars.map NcVar.name := by
      simp only [List.mem_map]
      exact ⟨fun ⟨v, a, b⟩ => ⟨v, (hiff v b).mp a, b⟩, fun ⟨v, a, b⟩ => ⟨v, (hiff v b).mpr a, b⟩⟩
    have hgeo : "surface_geopotential".toList ∉ otherNames ++ names := by
      rw [List.mem_append, not_or]
      exact ⟨by decide, hk.geopotential⟩
    unfold ElevationsOf
    rw [hk.elev]
    have he := hg.elevs
    unfold ElevationsOf at he
    rw [hk.elev] at he
    rcases he with ⟨v, z, v1, v2, v3, v4⟩ | ⟨v1, ⟨v2, v, z, v3, v4, v5, v6⟩ | ⟨v2, v3⟩⟩
    · exact .inl ⟨v, z, (hiff v v2).mpr v1, v2, gridValues_more hm rfl rfl ky kx v3, v4⟩
    · exact .inr ⟨fun hx => v1 (halt.mp hx), .inl ⟨v2, v, z, (hc.2 v (by rw [v4]; exact hgeo)).mpr v3, v4, gridValues_more hm rfl rfl ky kx v5, v6⟩⟩
    · exact .inr ⟨fun hx => v1 (halt.mp hx), .inr ⟨fun hx hy => v2 hx ((name_mem_iff hc hgeo).mp hy), v3⟩⟩

theorem timeValue_known (t : Fl K) : KnownTime (timeValue t) := by
  have h0 : (15 * 2 ^ 119 : K) ≠ -999 := by
    have : (0 : K) < 15 * 2 ^ 119 := by positivity
    intro hc
    rw [hc] at this
    linarith
  unfold timeValue elevationForm
  cases t with
  | fin q =>
    by_cases h : q = -999
    · exact ⟨_, by simp [h], h0⟩
    · exact ⟨q, by simp [h], h⟩
  | _ => exact ⟨_, rfl, h0⟩

/-- C156: a file that has been written can be opened again, and has the same grid, the elevations, the times, the reference time and the fields that were
written. -/
theorem c156_reopen_partial [FloorRing K] {g0 : ForecastGrid K} {f : NcFile K} {o : NcFileOptions} (hg : g0.Of f o) {out : NcOutput K} {names : List Str}
    (h : OutputFits (o.ensDim.getD "ensemble_member".toList) f g0.layout out names) (hk : KeepsGrid o names)
    (hd : SomeElevation out.elevs → g0.layout.y ≠ none ∧ g0.layout.x ≠ none) (hfree : ElevationsFree f out.elevs) (hp : ∀ n ∈ names, PackedFree f out n)
    (h0 : ∀ i < out.nY, ∀ j < out.nX, g0.lon i j ≠ 0) (latVar : NcVar K) (tag next : Nat) :
    ∃ g F elev L', writeNetcdfCore (o.ensDim.getD "ensemble_member".toList) latVar g0.layout out names f = ok (g, L') ∧ openNetcdf tag next o g = ok F ∧
      HasGrid F ⟨L', g0.lat, g0.lon, elev, g0.part⟩ g ∧ F.layout = L' ∧ F.nEns = out.nE ∧ dimCount g L'.y = out.nY ∧ dimCount g L'.x = out.nX ∧
      (¬ SomeElevation out.elevs → elev = g0.elev) ∧
      (SomeElevation out.elevs → ∃ z, elev = some z ∧ ∀ i < out.nY, ∀ j < out.nX, ∃ x, cell? out.elevs i j = some x ∧ z i j = numberOrMissing x) ∧
      F.times = out.times.map timeValue ∧ F.reference = timeValue out.reference ∧
      ∀ n ∈ names, ∃ v, g.var n = some v ∧ ∀ t < out.times.length, ∃ field,
        ncField g F.layout out.nY out.nX F.nEns v (out.scale n) (out.offset n) (-999) t = ok field ∧ Sized out.nY out.nX out.nE field ∧
        ∀ y < out.nY, ∀ x < out.nX, ∀ m < out.nE, ∃ value, (out.field n t).get y x m = ok value ∧ field.get y x m = ok (numberOrMissing value) := by
  obtain ⟨g, dT, e, a1, a2, a3, a4, a5, a6, a7, ⟨tv, t1, t2, t3, t4⟩, ⟨rv, r1, r2, r3, r4⟩, a10, a11, a12⟩ := writeCore_ok h latVar
  obtain ⟨elev, b1, b2, b3⟩ := grid_after hg h hk hd hfree a2 a3 a5 a10 a11
  obtain ⟨g', L', w1, w2⟩ := c155_round_partial h hp latVar
  rw [a1] at w1
  obtain ⟨rfl, rfl⟩ := Prod.mk.inj (Res.ok.inj w1)
  have cy : dimCount g g0.layout.y = out.nY := by rw [dimCount_more a3.1 (fun d hd => h.known d (by simp [hd])), h.rows]
  have cx : dimCount g g0.layout.x = out.nX := by rw [dimCount_more a3.1 (fun d hd => h.known d (by simp [hd])), h.columns]
  obtain ⟨F, c1, c2, c3, c4, -⟩ := c152_times_partial b1 (by
    intro i hi j hj
    exact h0 i (cy ▸ hi) j (cx ▸ hj)) (v := tv) ⟨t1, by rw [t2, hk.time]⟩ (d := dT) rfl (a2.2 tv t1) t3 (ref := timeValue out.reference)
    (.inl ⟨rv, r1, r2, r3, r4⟩) tag next
  refine ⟨g, F, elev, _, a1, c1, c2, c2.1, ?_, cy, cx, b2, b3, by rw [c3, t4], c4 (timeValue_known _), ?_⟩
  · rw [c2.2.1]
    exact a7
  · intro n hn
    obtain ⟨v, v1, v2⟩ := w2 n hn
    refine ⟨v, v1, fun t ht => ?_⟩
    obtain ⟨field, f1, f2⟩ := v2 t ht
    refine ⟨field, ?_, f2⟩
    have hne : F.nEns = out.nE := by
      rw [c2.2.1]
      exact a7
    rw [c2.1, hne]
    exact f1

def writeExampleOptions : NcFileOptions := { noOptions with ensDim := some "ens".toList }

def writeExampleGrid : ForecastGrid ℚ :=
  ⟨⟨some 0, none, some 1, some 2⟩, fun _ _ => 60, fun _ j => if j = 0 then 10 else 11, none, fun _ _ => .fin (-999)⟩

theorem writeExample_of : writeExampleGrid.Of writeExampleFile writeExampleOptions := by
  refine ⟨⟨by decide, by decide⟩, ⟨⟨[], _, [], 1, rfl, by simp, rfl⟩, .inr ⟨rfl, by decide⟩, ⟨[], _, ["latitude".toList, "lat".toList], 1, rfl, by decide, rfl⟩,
    ⟨[], _, ["longitude".toList, "lon".toList], 2, rfl, by decide, rfl⟩⟩, by decide, ?_, ?_, ?_, ?_, ?_, ?_⟩
  · refine ⟨⟨"lat".toList, [1], [.fin 60], none⟩, ⟨["latitude".toList], _, [], rfl, by decide, by decide +kernel, rfl⟩, ⟨by decide, by decide⟩,
      .inr ⟨1, rfl, .inr rfl, by decide +kernel, ?_⟩⟩
    show ∀ i < 1, ∀ j < 2, _ = _
    decide +kernel
  · refine ⟨⟨"lon".toList, [2], [.fin 10, .fin 11], none⟩, ⟨["longitude".toList], _, [], rfl, by decide, by decide +kernel, rfl⟩, ⟨by decide, by decide⟩,
      .inr ⟨2, rfl, .inl rfl, by decide +kernel, ?_⟩⟩
    show ∀ i < 1, ∀ j < 2, _ = _
    decide +kernel
  · show ∀ i < 1, ∀ j < 2, _ ≤ _ ∧ _ ≤ _
    decide +kernel
  · show ∀ i < 1, ∀ j < 2, _ ≤ _ ∧ _ ≤ _
    decide +kernel
  · exact .inr ⟨by decide, .inr ⟨fun _ => by decide, rfl⟩⟩
  · exact .inr ⟨by decide, fun _ _ => rfl⟩

theorem writeExample_keeps : KeepsGrid writeExampleOptions ["new".toList] := by
  refine ⟨?_, ?_, ?_, rfl, ?_, rfl, ?_⟩
  · decide
  · decide
  · decide
  · decide
  · decide

theorem writeExample_free : ElevationsFree writeExampleFile writeExampleOutput.elevs := by
  rintro fill (⟨v, hv, hn, -⟩ | ⟨-, rfl⟩)
  · exact absurd hn (by revert hv v; decide +kernel)
  · decide +kernel

/-- The hypotheses of C156 hold of the example of C155. -/
example (latVar : NcVar ℚ) : ∃ g F L', writeNetcdfCore "ens".toList latVar ⟨some 0, none, some 1, some 2⟩ writeExampleOutput ["new".toList] writeExampleFile = ok (g, L') ∧
    openNetcdf 0 1 writeExampleOptions g = ok F ∧ F.times = [.fin 3600] ∧ F.nEns = 2 := by
  obtain ⟨g, F, elev, L', h1, h2, -, -, h5, -, -, -, -, h10, -⟩ := c156_reopen_partial writeExample_of writeExample_fits writeExample_keeps
    (fun _ => ⟨by decide, by decide⟩) writeExample_free (by
      intro n hn
      rw [List.mem_singleton] at hn
      rw [hn]
      exact writeExample_packed) (by show ∀ i < 1, ∀ j < 2, _ ≠ _; decide +kernel) latVar 0 1
  exact ⟨g, F, L', h1, h2, h10.trans (by decide +kernel), h5⟩

/-- The file that was written and opened again: the missing elevation is missing again. -/
example : ∃ g L', writeNetcdfCore "ens".toList ⟨"lat".toList, [1], [.fin 60], none⟩ ⟨some 0, none, some 1, some 2⟩ writeExampleOutput ["new".toList] writeExampleFile = ok (g, L') ∧
    openNetcdf 0 1 writeExampleOptions g = ok ⟨⟨some 0, some 3, some 1, some 2⟩, 2, ⟨[[.fin 60, .fin 60]], [[.fin 10, .fin 11]], 2⟩,
      [[.fin 100, MV]], [[MV, MV]], [.fin 3600], .fin 0⟩ :=
  ⟨_, _, rfl, by decide +kernel⟩

/-- C156 is false of the code if the elevations are to be read from another variable: they are written to the variable altitude. -/
theorem c156_variable_false : ∃ g L', writeNetcdfCore "ens".toList ⟨"lat".toList, [1], [.fin 60], none⟩ ⟨some 0, none, some 1, some 2⟩
      { writeExampleOutput with elevs := [[.fin 100, .fin 200]] } [] { writeExampleFile with vars := ⟨"height".toList, [1, 2], [.fin 1, .fin 2], none⟩ :: writeExampleFile.vars } = ok (g, L') ∧
    openNetcdf 0 1 { writeExampleOptions with elevVar := some "height".toList } g =
      ok ⟨⟨some 0, some 3, some 1, some 2⟩, 2, ⟨[[.fin 60, .fin 60]], [[.fin 10, .fin 11]], 2⟩, [[.fin 1, .fin 2]], [[MV, MV]], [.fin 3600], .fin 0⟩ :=
  ⟨_, _, rfl, by decide +kernel⟩

/-- C156 is false of the code if an elevation is the value for missing of the variable: it is missing when the file is opened again. -/
theorem c156_fill_false : ∃ g L', writeNetcdfCore "ens".toList ⟨"lat".toList, [1], [.fin 60], none⟩ ⟨some 0, none, some 1, some 2⟩
      { writeExampleOutput with elevs := [[.fin 100, .fin 200]] } [] { writeExampleFile with vars := ⟨"altitude".toList, [1, 2], [.fin 1, .fin 2], some (.fin 100)⟩ :: writeExampleFile.vars } = ok (g, L') ∧
    openNetcdf 0 1 writeExampleOptions g =
      ok ⟨⟨some 0, some 3, some 1, some 2⟩, 2, ⟨[[.fin 60, .fin 60]], [[.fin 10, .fin 11]], 2⟩, [[MV, .fin 200]], [[MV, MV]], [.fin 3600], .fin 0⟩ :=
  ⟨_, _, rfl, by decide +kernel⟩

/-- C156 is false of the code if no elevation is known: those of the file remain. -/
theorem c156_unknown_false : ∃ g L', writeNetcdfCore "ens".toList ⟨"lat".toList, [1], [.fin 60], none⟩ ⟨some 0, none, some 1, some 2⟩
      { writeExampleOutput with elevs := [[MV, MV]] } [] { writeExampleFile with vars := ⟨"altitude".toList, [1, 2], [.fin 1, .fin 2], none⟩ :: writeExampleFile.vars } = ok (g, L') ∧
    openNetcdf 0 1 writeExampleOptions g =
      ok ⟨⟨some 0, some 3, some 1, some 2⟩, 2, ⟨[[.fin 60, .fin 60]], [[.fin 10, .fin 11]], 2⟩, [[.fin 1, .fin 2]], [[MV, MV]], [.fin 3600], .fin 0⟩ :=
  ⟨_, _, rfl, by decide +kernel⟩

end Gridpp.Props
