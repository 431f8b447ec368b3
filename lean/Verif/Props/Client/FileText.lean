import Verif.Lemmas.Client.FileText
import Verif.Props.Client.Grid
import Verif.Props.Client.ParameterText

/-! # C141: forecasts read from a text file -/

set_option linter.unusedSectionVars false

namespace Gridpp.Props
open Fl hiding MV isValid
open Res Client Spec

variable {K : Type} [Field K] [LinearOrder K] [IsStrictOrderedRing K] [FloorRing K]

theorem reportLine_plain (s : ReportState K) (lines : List Str) : foldM reportLine s lines = foldM reportLine s (plainLines lines) := by
  induction lines generalizing s with
  | nil => rfl
  | cons l lines ih =>
    unfold plainLines at ih ⊢
    by_cases h : l.head? = some '#'
    · rw [List.filter_cons_of_neg (by simp [h]), foldM_cons, reportLine, if_pos h, ok_bind, ih]
    · rw [List.filter_cons_of_pos (by simp [h]), foldM_cons, foldM_cons]
      cases reportLine s l with
      | ok s' => rw [ok_bind, ok_bind, ih]
      | _ => rfl

theorem readForecast_fold (tag next : Nat) {content : Str} {lines : List Str} (h : TextOf content lines) :
    (readForecast tag next content : Res (TextForecast K)) = (do
      let s ← foldM reportLine ⟨none, [], [], []⟩ (plainLines lines)
      finishReports ⟨[], [], tag⟩ next s) := by
  unfold readForecast
  rw [textLines_of h, reportLine_plain]

/-- The state of the reader after these reports. -/
abbrev afterReports (rs : List (Report K)) : ReportState K := reportState ⟨none, [], [], []⟩ rs

theorem lastReport_some {rs : List (Report K)} {t : Int} {p : Place3 K} {v : List (Fl K)} (h : findReport (afterReports rs).values t p = some v) :
    (∃ r ∈ rs, r.values = v) ∧ ∀ e, lastReport rs t p.triple e = v[e]? := by
  rw [findReport_eq] at h
  obtain ⟨r, h1, h2⟩ := Option.map_eq_some_iff.mp h
  refine ⟨⟨r, ?_, h2⟩, fun e => ?_⟩
  · exact List.mem_of_mem_filter (List.mem_of_mem_getLast? h1)
  · unfold lastReport
    rw [h1, Option.bind_some, h2]

theorem lastReport_none {rs : List (Report K)} {t : Int} {p : Place3 K} (h : findReport (afterReports rs).values t p = none) (e : Nat) :
    lastReport rs t p.triple e = none := by
  rw [findReport_eq] at h
  unfold lastReport
  rw [Option.map_eq_none_iff.mp h, Option.bind_none]

/-- The field for a time. -/
theorem reportField_spec {rs : List (Report K)} {n : Nat} (hn : ∀ r ∈ rs, r.values.length = n) {lats : List (List (Fl K))}
    (hl : Rect (afterReports rs).places.length 1 lats) (h0 : (afterReports rs).places ≠ []) (t : Int) :
    ∃ f, reportField lats (n : Int) (afterReports rs) t = ok f ∧ Sized (afterReports rs).places.length 1 n f ∧
      ∀ i p, (afterReports rs).places[i]? = some p → ∀ e < n, f.get i 0 e = ok ((lastReport rs t p.triple e).getD (fin (-999))) := by
  have hpos := List.length_pos_iff.mpr h0
  obtain ⟨f0, g1, g2, g3⟩ := FieldC.new_sized (K := K) (afterReports rs).places.length 1 n Client.MV
  obtain ⟨f, h1, h2, h3, -⟩ := foldM_cells (Sized (afterReports rs).places.length 1 n) (fun s i => s.get i)
    (fun f (i : Nat) => do
      let p ← vget (afterReports rs).places i
      match findReport (afterReports rs).values t p with
      | none => ok f
      | some v => putReport n f i v)
    (fun i u w => ∀ p, (afterReports rs).places[i]? = some p →
      (findReport (afterReports rs).values t p = none → w = u) ∧
      ∀ v, findReport (afterReports rs).values t p = some v → ∀ e x, v[e]? = some x → w 0 e = ok x)
    (List.range (afterReports rs).places.length) List.nodup_range (by
      intro s hs i hi
      have hi := List.mem_range.mp hi
      rw [vget_eq_ok_of_lt hi, ok_bind]
      cases hf : findReport (afterReports rs).values t (afterReports rs).places[i] with
      | none =>
        refine ⟨s, rfl, hs, fun p hp => ?_, fun _ _ => rfl⟩
        rw [List.getElem?_eq_getElem hi] at hp
        cases hp
        exact ⟨fun _ => rfl, fun v hv => by rw [hf] at hv; cases hv⟩
      | some v =>
        obtain ⟨⟨r, hr, hv⟩, -⟩ := lastReport_some hf
        obtain ⟨s', k1, k2, k3, k4⟩ := putReport_spec hs hi (v := v) (by rw [← hv]; exact hn r hr)
        refine ⟨s', k1, k2, fun p hp => ?_, k4⟩
        rw [List.getElem?_eq_getElem hi] at hp
        cases hp
        refine ⟨fun h => Option.noConfusion rfl (heq_of_eq (hf.symm.trans h)), fun w hw => ?_⟩
        rw [hf] at hw
        cases hw
        exact k3) f0 g2
  refine ⟨f, ?_, h2, fun i p hp e he => ?_⟩
  · unfold reportField
    rw [numX_rect hl hpos, ok_bind, hl.1, g1, ok_bind]
    exact h1
  · have hi := (List.getElem?_eq_some_iff.mp hp).1
    obtain ⟨k1, k2⟩ := h3 i (List.mem_range.mpr hi) p hp
    cases hf : findReport (afterReports rs).values t p with
    | none => rw [k1 hf, lastReport_none hf, g3 i hi 0 (by omega) e he]; rfl
    | some v =>
      obtain ⟨⟨r, hr, hv⟩, h5⟩ := lastReport_some hf
      have hev : e < v.length := by rw [← hv, hn r hr]; exact he
      rw [k2 v hf e _ (List.getElem?_eq_getElem hev), h5, List.getElem?_eq_getElem hev]
      rfl

theorem column_rect {α : Type} (l : List (Place3 K)) (g : Place3 K → α) : Rect l.length 1 (l.map fun p => [g p]) :=
  ⟨by simp, fun r hr => by obtain ⟨p, -, rfl⟩ := List.mem_map.mp hr; rfl⟩

theorem column_cell {α : Type} (l : List (Place3 K)) (g : Place3 K → α) {i : Nat} {p : Place3 K} (h : l[i]? = some p) :
    cell? (l.map fun p => [g p]) i 0 = some (g p) := by
  unfold cell?
  rw [List.getElem?_map, h]
  rfl

theorem column_mem {P : Fl K → Prop} (l : List (Place3 K)) (g : Place3 K → Fl K) (h : ∀ p ∈ l, P (g p)) :
    ∀ r ∈ l.map fun p => [g p], ∀ v ∈ r, P v := by
  intro r hr v hv
  obtain ⟨p, hp, rfl⟩ := List.mem_map.mp hr
  rw [List.mem_singleton.mp hv]
  exact h p hp

/-- **C141**: a table of forecasts, at least one, is read as it is. Each line that is no comment gives a time, a place and members, as many on
each line; the latitudes are from -90 to 90, the longitudes from -360 to 360 and not zero. The grid then is the column of the places, from
south to north, from west to east and from low to high, each of them once; the times are those of the lines in increasing order; the longitudes
are the same up to multiples of 360; and the value of a member is that of the last line for the time and the place, or missing if there is
none. -/
theorem c141_read_partial (tag next : Nat) {content : Str} {lines : List Str} {rs : List (Report K)} {n : Nat} (ht : TextOf content lines)
    (hr : List.Forall₂ ReportIn (plainLines lines) rs) (hne : rs ≠ []) (hn : ∀ r ∈ rs, r.values.length = n)
    (hlat : ∀ r ∈ rs, -90 ≤ r.lat ∧ r.lat ≤ 90) (hlon : ∀ r ∈ rs, -360 ≤ r.lon ∧ r.lon ≤ 360 ∧ r.lon ≠ 0) :
    ∃ (f : TextForecast K) (places : List (K × K × K)), readForecast tag next content = ok f ∧
      places.Pairwise PlaceBefore ∧ (∀ p, p ∈ places ↔ ∃ r ∈ rs, (r.lat, r.lon, r.elev) = p) ∧
      f.times.Pairwise (· < ·) ∧ (∀ t, t ∈ f.times ↔ ∃ r ∈ rs, r.time = t) ∧ f.nEns = n ∧
      f.grid.lats = places.map (fun p => [fin p.1]) ∧ f.elevs = places.map (fun p => [fin p.2.2]) ∧ Rect places.length 1 f.grid.lons ∧
      (∀ (i : Nat) p, places[i]? = some p →
        ∃ (a : K) (k : Int), cell? f.grid.lons i 0 = some (fin a) ∧ -180 ≤ a ∧ a ≤ 180 ∧ a = p.2.1 + 360 * k) ∧
      f.fields.length = f.times.length ∧
      ∀ (j : Nat) t, f.times[j]? = some t → ∃ d, f.getFieldCore j = ok d ∧ d.nY = places.length ∧ d.nX = 1 ∧ d.nE = n ∧
        ∀ (i : Nat) p, places[i]? = some p → ∀ e < n, d.get i 0 e = ok ((lastReport rs t p e).getD (fin (-999))) := by
  have hplain : ∀ l ∈ plainLines lines, l.head? ≠ some '#' := fun l h => mem_plain h
  have e1 := reportLines_eq hr hplain hn (⟨none, [], [], []⟩ : ReportState K) (.inl rfl)
  have e2 : (afterReports rs).nEns = some n := reportState_nEns _ hn hne
  obtain ⟨t1, t2⟩ := reportState_times (⟨none, [], [], []⟩ : ReportState K) rs .nil
  obtain ⟨p1, p2⟩ := reportState_places (⟨none, [], [], []⟩ : ReportState K) rs .nil
  simp only [List.not_mem_nil, false_or] at t2 p2
  have hmem : ∀ p ∈ (afterReports rs).places, ∃ r ∈ rs, r.lat = p.lat ∧ r.lon = p.lon := by
    intro p hp
    obtain ⟨r, hr, rfl⟩ := (p2 p).mp hp
    exact ⟨r, hr, rfl, rfl⟩
  have h0 : (afterReports rs).places ≠ [] := by
    obtain ⟨r, hr⟩ := List.exists_mem_of_ne_nil _ hne
    exact List.ne_nil_of_mem ((p2 (reportPlace r)).mpr ⟨r, hr, rfl⟩)
  obtain ⟨g1, n1, h1, h2, h3⟩ := c94_lats (f := (⟨[], [], tag⟩ : GridFile K)) next (.inl rfl)
    (column_rect (afterReports rs).places fun p => (fin p.lat : Fl K)) (column_mem _ _ fun p hp => by
      obtain ⟨r, hr, h, -⟩ := hmem p hp
      exact ⟨p.lat, rfl, by rw [← h]; exact hlat r hr⟩)
  obtain ⟨g2, n2, h4, h5, h6, h7⟩ := c94_lons_partial (f := g1) n1 (.inl h3)
    (column_rect (afterReports rs).places fun p => (fin p.lon : Fl K)) (column_mem _ _ fun p hp => by
      obtain ⟨r, hr, -, h⟩ := hmem p hp
      exact ⟨p.lon, rfl, by rw [← h]; exact hlon r hr⟩)
  have hlats : g2.lats = (afterReports rs).places.map fun p => [fin p.lat] := h5.trans h2
  have hrl : Rect (afterReports rs).places.length 1 g2.lats := by
    rw [hlats]
    exact column_rect _ _
  have hpos := List.length_pos_iff.mpr h0
  have hel : setElevs g2.lats ((afterReports rs).places.map fun p => [fin p.elev]) = ok (some ((afterReports rs).places.map fun p => [fin p.elev])) := by
    have hre := column_rect (afterReports rs).places fun p => (fin p.elev : Fl K)
    have hl : 0 < ((afterReports rs).places.map fun p => [(fin p.elev : Fl K)]).length := by rw [hre.1]; exact hpos
    unfold setElevs
    rw [if_neg (by rw [hre.1, hrl.1]; simp), numX_rect hrl hpos]
    have hv0 : vget ((afterReports rs).places.map fun p => [(fin p.elev : Fl K)]) 0 = ok _ := vget_eq_ok_of_lt (n := 0) hl
    rw [hv0, ok_bind, ok_bind, if_neg (by rw [hre.2 _ (List.getElem_mem hl)]; simp)]
  choose d hd using fun t => reportField_spec hn hrl h0 t
  have hfields : mapM (reportField g2.lats n (afterReports rs)) (afterReports rs).times = ok ((afterReports rs).times.map d) :=
    mapM_ok fun t _ => (hd t).1
  refine ⟨⟨g2, (afterReports rs).places.map fun p => [fin p.elev], (afterReports rs).times, n, (afterReports rs).times.map d⟩,
    (afterReports rs).places.map Place3.triple, ?_, ?_, ?_, t1, t2, rfl, ?_, ?_, ?_, ?_, ?_, ?_⟩
  · rw [readForecast_fold tag next ht, e1, ok_bind]
    unfold finishReports
    rw [h1, ok_bind]
    simp only
    rw [h4, ok_bind]
    simp only
    rw [hel, ok_bind, e2]
    simp only
    rw [hfields]
    rfl
  · exact List.pairwise_map.mpr p1
  · intro p
    rw [List.mem_map]
    constructor
    · rintro ⟨q, hq, rfl⟩
      obtain ⟨r, hr, rfl⟩ := (p2 q).mp hq
      exact ⟨r, hr, rfl⟩
    · rintro ⟨r, hr, rfl⟩
      exact ⟨reportPlace r, (p2 _).mpr ⟨r, hr, rfl⟩, rfl⟩
  · rw [List.map_map]
    exact hlats
  · rw [List.map_map]
    rfl
  · rw [List.length_map]
    exact h6
  · intro i p hp
    rw [List.getElem?_map] at hp
    obtain ⟨q, hq, rfl⟩ := Option.map_eq_some_iff.mp hp
    exact h7 i 0 q.lon (column_cell _ _ hq)
  · simp
  · intro j t hj
    have hjl := (List.getElem?_eq_some_iff.mp hj).1
    refine ⟨d t, ?_, by rw [(hd t).2.1.1, List.length_map], (hd t).2.1.2, (hd t).2.1.3, fun i p hp e he => ?_⟩
    · unfold TextForecast.getFieldCore
      rw [vget_eq_ok_of_lt (by simpa using hjl)]
      simp only [List.getElem_map]
      rw [(List.getElem?_eq_some_iff.mp hj).2]
    · rw [List.getElem?_map] at hp
      obtain ⟨q, hq, rfl⟩ := Option.map_eq_some_iff.mp hp
      exact (hd t).2.2 i q hq e he

/-! ### What is refused -/

theorem places_mem (rs : List (Report K)) (p : Place3 K) : p ∈ (afterReports rs).places ↔ ∃ r ∈ rs, reportPlace r = p := by
  rw [(reportState_places (⟨none, [], [], []⟩ : ReportState K) rs .nil).2 p]
  simp

/-- **C141**: a latitude below -90 or above 90 is refused, and so is then a longitude below -360 or above 360. -/
theorem c141_range (tag next : Nat) {content : Str} {lines : List Str} {rs : List (Report K)} {n : Nat} (ht : TextOf content lines)
    (hr : List.Forall₂ ReportIn (plainLines lines) rs) (hn : ∀ r ∈ rs, r.values.length = n)
    (h : (∃ r ∈ rs, r.lat < -90 ∨ 90 < r.lat) ∨ (∃ r ∈ rs, r.lon < -360 ∨ 360 < r.lon)) :
    (readForecast tag next content : Res (TextForecast K)) = .abort := by
  rw [readForecast_fold tag next ht, reportLines_eq hr (fun l h => mem_plain h) hn (⟨none, [], [], []⟩ : ReportState K) (.inl rfl), ok_bind]
  unfold finishReports
  have hmem : ∀ (g : Place3 K → K) r, r ∈ rs → ∃ row ∈ (afterReports rs).places.map (fun p => [(fin (g p) : Fl K)]), fin (g (reportPlace r)) ∈ row :=
    fun g r hr => ⟨_, List.mem_map.mpr ⟨reportPlace r, (places_mem rs _).mpr ⟨r, hr, rfl⟩, rfl⟩, by simp⟩
  by_cases h1 : ∃ r ∈ rs, r.lat < -90 ∨ 90 < r.lat
  · obtain ⟨r, hr, h1⟩ := h1
    obtain ⟨row, h2, h3⟩ := hmem Place3.lat r hr
    rw [c94_lats_range (f := (⟨[], [], tag⟩ : GridFile K)) next (.inl rfl) (column_rect (afterReports rs).places fun p => (fin p.lat : Fl K))
      ⟨row, h2, r.lat, h3, h1⟩]
    rfl
  · push Not at h1
    obtain ⟨g1, n1, k1, k2, k3⟩ := c94_lats (f := (⟨[], [], tag⟩ : GridFile K)) next (.inl rfl)
      (column_rect (afterReports rs).places fun p => (fin p.lat : Fl K)) (column_mem _ _ fun p hp => by
        obtain ⟨r, hr, rfl⟩ := (places_mem rs p).mp hp
        exact ⟨_, rfl, h1 r hr⟩)
    rcases h with ⟨r, hr, h⟩ | ⟨r, hr, h⟩
    · have := h1 r hr
      rcases h with h | h
      · exact absurd this.1 (not_le.mpr h)
      · exact absurd this.2 (not_le.mpr h)
    · obtain ⟨row, h2, h3⟩ := hmem Place3.lon r hr
      rw [k1, ok_bind]
      simp only
      rw [c94_lons_range (f := g1) n1 (.inl k3) (column_rect (afterReports rs).places fun p => (fin p.lon : Fl K)) ⟨row, h2, r.lon, h3, h⟩]
      rfl

theorem reportLines_number {rows : List Str} {rs : List (Report K)} (h : List.Forall₂ ReportIn rows rs) (hp : ∀ l ∈ rows, l.head? ≠ some '#')
    {m : Nat} (s : ReportState K) (hs : s.nEns = some m) (hd : ∃ r ∈ rs, r.values.length ≠ m) : foldM reportLine s rows = .abort := by
  induction h generalizing s with
  | nil => simp at hd
  | @cons l r rows rs h1 _ ih =>
    rw [foldM_cons, reportLine_eq h1 (hp l (by simp)), hs]
    by_cases e : r.values.length = m
    · rw [if_pos (.inr (by rw [e])), ok_bind]
      refine ih (fun x hx => hp x (by simp [hx])) _ (by show some r.values.length = _; rw [e]) ?_
      obtain ⟨r', hr', hne⟩ := hd
      rcases List.mem_cons.mp hr' with rfl | hr'
      · exact absurd e hne
      · exact ⟨r', hr', hne⟩
    · rw [if_neg]
      · rfl
      · rintro (h | h)
        · cases h
        · exact e (Option.some.inj h).symm

/-- **C141**: lines with different numbers of members are refused. -/
theorem c141_number (tag next : Nat) {content : Str} {lines : List Str} {rs : List (Report K)} (ht : TextOf content lines)
    (hr : List.Forall₂ ReportIn (plainLines lines) rs) {r r' : Report K} (h : r ∈ rs) (h' : r' ∈ rs) (hne : r.values.length ≠ r'.values.length) :
    (readForecast tag next content : Res (TextForecast K)) = .abort := by
  have hplain : ∀ l ∈ plainLines lines, l.head? ≠ some '#' := fun l h => mem_plain h
  rw [readForecast_fold tag next ht]
  generalize plainLines lines = rows at hr hplain
  cases hr with
  | nil => simp at h
  | @cons l x rows rs h1 h2 =>
    rw [foldM_cons, reportLine_eq h1 (hplain l (by simp)), if_pos (.inl rfl), ok_bind,
      reportLines_number h2 (fun l hl => hplain l (by simp [hl])) (m := x.values.length) _ rfl]
    · rfl
    · by_contra hc
      push Not at hc
      have e : ∀ y ∈ x :: rs, y.values.length = x.values.length := by
        intro y hy
        rcases List.mem_cons.mp hy with rfl | hy
        · rfl
        · exact hc y hy
      exact hne ((e r h).trans (e r' h').symm)

theorem white_rest {s rest : Str} (hs : EndsWhite s) (he : Eats (skipSpace s) rest) (hl : rest.length < (skipSpace s).length) :
    rest ≠ [] ∧ EndsWhite rest ∧ rest.length < s.length := by
  obtain ⟨h1, h2⟩ := skipSpace_endsWhite hs
  obtain ⟨h3, h4⟩ := he.endsWhite h1 (by intro h; rw [h] at hl; simp at hl)
  exact ⟨h3, h4, by omega⟩

theorem readMembers_white (n : Nat) (s : Str) (hn : s.length < n) (h0 : s ≠ []) (hs : EndsWhite s) :
    (readMembers n s : Res (List (Fl K))) = .abort := by
  induction n generalizing s with
  | zero => omega
  | succ n ih =>
    rw [readMembers, if_neg h0]
    cases hv : scanFloat (K := K) (skipSpace s) with
    | none => rfl
    | some v =>
      obtain ⟨e1, e2, e3⟩ := white_rest hs (eats_float hv).1 (eats_float hv).2
      simp only
      rw [ih v.2 (by omega) e1 e2]
      rfl

theorem readReport_white {line : Str} (hs : EndsWhite line) : (readReport line : Res (TextRow K)) = .abort := by
  unfold readReport
  cases hv : scanInt (skipSpace line) with
  | none => rfl
  | some v =>
    obtain ⟨e1, e2, e3⟩ := white_rest hs (eats_int hv).1 (eats_int hv).2
    simp only
    cases hv : scanFloat (K := K) (skipSpace v.2) with
    | none => rfl
    | some a =>
      obtain ⟨f1, f2, f3⟩ := white_rest e2 (eats_float hv).1 (eats_float hv).2
      simp only
      cases hv : scanFloat (K := K) (skipSpace a.2) with
      | none => rfl
      | some b =>
        obtain ⟨g1, g2, g3⟩ := white_rest f2 (eats_float hv).1 (eats_float hv).2
        simp only
        cases hv : scanFloat (K := K) (skipSpace b.2) with
        | none => rfl
        | some h =>
          obtain ⟨h1, h2, h3⟩ := white_rest g2 (eats_float hv).1 (eats_float hv).2
          simp only
          rw [readMembers_white _ _ (by omega) h1 h2]
          rfl

/-- What is got from the members of a line. -/
theorem readMembers_outcome (n : Nat) (s : Str) (hn : s.length < n) :
    (readMembers n s : Res (List (Fl K))) = .abort ∨ ∃ l, (readMembers n s : Res (List (Fl K))) = ok l := by
  induction n generalizing s with
  | zero => omega
  | succ n ih =>
    rw [readMembers]
    split_ifs with h
    · exact .inr ⟨_, rfl⟩
    · cases hv : scanFloat (K := K) (skipSpace s) with
      | none => exact .inl rfl
      | some v =>
        simp only
        have : (skipSpace s).length ≤ s.length := (List.dropWhile_sublist _).length_le
        have := (eats_float hv).2
        rcases ih v.2 (by omega) with e | ⟨l, e⟩
        · exact .inl (by rw [e]; rfl)
        · exact .inr ⟨_, by rw [e]; rfl⟩

theorem readReport_outcome (line : Str) : (readReport line : Res (TextRow K)) = .abort ∨ ∃ r, (readReport line : Res (TextRow K)) = ok r := by
  have hskip : ∀ s, (skipSpace s).length ≤ s.length := fun s => (List.dropWhile_sublist _).length_le
  unfold readReport
  cases hv : scanInt (skipSpace line) with
  | none => exact .inl rfl
  | some v =>
    have := (eats_int hv).2
    have := hskip line
    simp only
    cases hv : scanFloat (K := K) (skipSpace v.2) with
    | none => exact .inl rfl
    | some a =>
      have := (eats_float hv).2
      have := hskip v.2
      simp only
      cases hv : scanFloat (K := K) (skipSpace a.2) with
      | none => exact .inl rfl
      | some b =>
        have := (eats_float hv).2
        have := hskip a.2
        simp only
        cases hv : scanFloat (K := K) (skipSpace b.2) with
        | none => exact .inl rfl
        | some h =>
          have := (eats_float hv).2
          have := hskip b.2
          simp only
          rcases readMembers_outcome (K := K) (line.length + 1) h.2 (by omega) with e | ⟨l, e⟩
          · exact .inl (by rw [e]; rfl)
          · exact .inr ⟨_, by rw [e]; rfl⟩

/-- A line is refused or read. -/
theorem reportLine_outcome (s : ReportState K) (l : Str) : reportLine s l = .abort ∨ ∃ s', reportLine s l = ok s' := by
  unfold reportLine
  split_ifs with h
  · exact .inr ⟨s, rfl⟩
  · rcases readReport_outcome (K := K) l with e | ⟨r, e⟩
    · exact .inl (by rw [e]; rfl)
    · rw [e, ok_bind]
      unfold addReport
      split_ifs
      · exact .inr ⟨_, rfl⟩
      · exact .inl rfl

/-- **C141**: a line that is empty or ends with white space is refused, unless it is a comment. -/
theorem c141_white (tag next : Nat) {content l : Str} {lines : List Str} (ht : TextOf content lines) (hl : l ∈ lines) (hc : l.head? ≠ some '#')
    (hw : ∀ c ∈ l.getLast?, White c) : (readForecast tag next content : Res (TextForecast K)) = .abort := by
  have key : ∀ (ls : List Str) (s : ReportState K), l ∈ ls → foldM reportLine s ls = .abort := by
    intro ls
    induction ls with
    | nil => intro s h; simp at h
    | cons x ls ih =>
      intro s h
      rw [foldM_cons]
      rcases List.mem_cons.mp h with rfl | h
      · rw [reportLine, if_neg hc, readReport_white hw]
        rfl
      · rcases reportLine_outcome s x with e | ⟨s', e⟩
        · rw [e]; rfl
        · rw [e, ok_bind]
          exact ih s' h
  unfold readForecast
  rw [textLines_of ht, key lines _ hl]
  rfl

/-- **C141** is false for a file without forecasts: an element of an empty vector is used. -/
theorem c141_empty_false (tag next : Nat) {content : Str} {lines : List Str} (ht : TextOf content lines) (h : plainLines lines = []) :
    (readForecast tag next content : Res (TextForecast K)) = .ub := by
  rw [readForecast_fold tag next ht, h]
  rfl

/-- **C141** is false for a longitude of zero. -/
theorem c141_zero_false (tag next : Nat) {content : Str} {lines : List Str} {rs : List (Report K)} {n : Nat} (ht : TextOf content lines)
    (hr : List.Forall₂ ReportIn (plainLines lines) rs) (hn : ∀ r ∈ rs, r.values.length = n)
    (hlat : ∀ r ∈ rs, -90 ≤ r.lat ∧ r.lat ≤ 90) (hlon : ∀ r ∈ rs, -360 ≤ r.lon ∧ r.lon ≤ 360) (h0 : ∃ r ∈ rs, r.lon = 0) :
    (readForecast tag next content : Res (TextForecast K)) = .ub := by
  rw [readForecast_fold tag next ht, reportLines_eq hr (fun l h => mem_plain h) hn (⟨none, [], [], []⟩ : ReportState K) (.inl rfl), ok_bind]
  unfold finishReports
  obtain ⟨g1, n1, k1, k2, k3⟩ := c94_lats (f := (⟨[], [], tag⟩ : GridFile K)) next (.inl rfl)
    (column_rect (afterReports rs).places fun p => (fin p.lat : Fl K)) (column_mem _ _ fun p hp => by
      obtain ⟨r, hr, rfl⟩ := (places_mem rs p).mp hp
      exact ⟨_, rfl, hlat r hr⟩)
  obtain ⟨r, hr, h0⟩ := h0
  rw [k1, ok_bind]
  simp only
  rw [c94_zero_false (f := g1) n1 (.inl k3) (column_rect (afterReports rs).places fun p => (fin p.lon : Fl K)) (column_mem _ _ fun p hp => by
      obtain ⟨r, hr, rfl⟩ := (places_mem rs p).mp hp
      exact ⟨_, rfl, hlon r hr⟩)
    ⟨_, List.mem_map.mpr ⟨reportPlace r, (places_mem rs _).mpr ⟨r, hr, rfl⟩, rfl⟩, by rw [← h0]; simp [reportPlace]⟩]
  rfl

/-! ### An example and counterexamples -/

section
local instance (c : Char) : Decidable (Digit c) := by unfold Digit; infer_instance
local instance (c : Char) : Decidable (White c) := by unfold White; infer_instance

/-- The example: a comment, three lines for two places and two times, one of them given twice. -/
def forecastText : Str := "# x\n3 60 10 100 1 -2.5\n 3\t-61 190 0 3e2 +4\n-3 60 10 100 5 6\n3 60 10 100 7 8\n3 4".toList

set_option synthInstance.maxSize 1024 in
/-- What is read: times, coordinates and values. -/
example : (do
    let f : TextForecast ℚ ← readForecast 0 1 forecastText
    ok (f.times, f.grid.lats, f.grid.lons, f.elevs, f.nEns, f.fields.map FieldC.values)) =
      ok ([-3, 3], [[fin (-61)], [fin 60]], [[fin (-170)], [fin 10]], [[fin 0], [fin 100]], 2,
        [[fin (-999), fin (-999), fin 5, fin 6], [fin 300, fin 4, fin 7, fin 8]]) := by decide +kernel

/-- A line of the example is a report. -/
example : ReportIn "2 3e2 -2.5 3e2 -2.5".toList (⟨2, 300, -5 / 2, 300, [fin (-5 / 2)]⟩ : Report ℚ) := by
  refine ⟨"2".toList, "3e2".toList, "-2.5".toList, "3e2".toList, ["-2.5".toList], ?_, exampleNumeral.2.2, by norm_num, by norm_num,
    exampleNumeral.2.1, exampleNumeral.1, exampleNumeral.2.1, .cons ⟨_, exampleNumeral.1, rfl⟩ .nil⟩
  rw [show "2 3e2 -2.5 3e2 -2.5".toList = [] ++ "2".toList ++ ["3e2".toList, "-2.5".toList, "3e2".toList, "-2.5".toList].flatMap fun x => ' ' :: x from by decide]
  exact wordLine_of [] _ _ (by simp) (by decide)

set_option synthInstance.maxSize 1024 in
/-- **C141**: a table that is not well formed is not always refused. A time that is no whole number moves its fraction into the latitude, what
looks like one value may be two, and lines may have no members at all. -/
theorem c141_malformed_false :
    (do let f : TextForecast ℚ ← readForecast 0 1 "1.5 60 10 7\n".toList; ok (f.times, f.grid.lats, f.grid.lons, f.elevs, f.fields.map FieldC.values)) =
      ok ([1], [[fin (1 / 2)]], [[fin 60]], [[fin 10]], [[fin 7]]) ∧
    (do let f : TextForecast ℚ ← readForecast 0 1 "1 60 10 0 7-8\n".toList; ok (f.nEns, f.fields.map FieldC.values)) = ok (2, [[fin 7, fin (-8)]]) ∧
    (do let f : TextForecast ℚ ← readForecast 0 1 "1 60 10 0\n".toList; ok (f.nEns, f.fields.map FieldC.values)) = ok (0, [[]]) := by decide +kernel

/-- **C141**: the last line is left out if it does not end with a line break. -/
theorem c141_last_false :
    (do let f : TextForecast ℚ ← readForecast 0 1 "1 60 10 0 7\n2 60 10 0 8".toList; ok f.times) = ok [1] := by decide +kernel

/-- **C141**: a place given with two longitudes that differ by 360 is two grid points, with the same coordinates. -/
theorem c141_same_place_false :
    (do let f : TextForecast ℚ ← readForecast 0 1 "1 60 190 0 7\n2 60 -170 0 8\n".toList; ok (f.grid.lons, f.fields.map FieldC.values)) =
      ok ([[fin (-170)], [fin (-170)]], [[fin (-999), fin 7], [fin 8, fin (-999)]]) := by decide +kernel

end

end Gridpp.Props
