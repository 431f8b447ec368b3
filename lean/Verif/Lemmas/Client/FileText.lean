import Verif.Model.Client.FileText
import Verif.Spec.FileText
import Verif.Lemmas.Client.ParameterTextWrite
import Verif.Lemmas.Client.Field

/-! # Text files with forecasts: lemmas -/

set_option linter.unusedSectionVars false

namespace Gridpp.Client
open Fl hiding MV isValid
open Res Spec

variable {K : Type} [Field K] [LinearOrder K] [IsStrictOrderedRing K]

/-! ### Lines -/

/-- What follows the first word of a line. -/
def RestOf (rest : Str) (ws : List Str) : Prop := (rest = [] ∧ ws = []) ∨ WordLine rest ws

theorem wordLine_step {line w : Str} {ws : List Str} (h : WordLine line (w :: ws)) :
    ∃ b rest, line = b ++ (w ++ rest) ∧ (∀ c ∈ b, White c) ∧ w ≠ [] ∧ (∀ c ∈ w, ¬ White c) ∧ Ends rest ∧ RestOf rest ws := by
  cases h with
  | last hb hne hw => exact ⟨_, [], by rw [List.append_nil], hb, hne, hw, ends_nil, .inl ⟨rfl, rfl⟩⟩
  | cons hb hne hw hc hs => exact ⟨_, _, List.append_assoc _ _ _, hb, hne, hw, by intro x hx; cases hx; exact hc, .inr hs⟩

theorem scan_float {line w : Str} {ws : List Str} {q : K} (h : WordLine line (w :: ws)) (hq : Numeral w q) :
    ∃ rest, scanFloat (skipSpace line) = some (q, rest) ∧ RestOf rest ws ∧ rest.length < line.length := by
  obtain ⟨b, rest, rfl, hb, hne, hw, he, hr⟩ := wordLine_step h
  refine ⟨rest, by rw [skipSpace_eq hb (head_word hne hw)]; exact scanFloat_eq hq he, hr, ?_⟩
  have := List.length_pos_iff.mpr hne
  simp only [List.length_append]
  omega

theorem scan_int {line w : Str} {ws : List Str} {v : Int} (h : WordLine line (w :: ws)) (hq : IntNumeral w v) (h1 : -2147483648 ≤ v)
    (h2 : v ≤ 2147483647) : ∃ rest, scanInt (skipSpace line) = some (v, rest) ∧ RestOf rest ws ∧ rest.length < line.length := by
  obtain ⟨b, rest, rfl, hb, hne, hw, he, hr⟩ := wordLine_step h
  refine ⟨rest, by rw [skipSpace_eq hb (head_word hne hw)]; exact scanInt_eq hq h1 h2 he, hr, ?_⟩
  have := List.length_pos_iff.mpr hne
  simp only [List.length_append]
  omega

theorem RestOf.line {rest w : Str} {ws : List Str} (h : RestOf rest (w :: ws)) : WordLine rest (w :: ws) := by
  rcases h with ⟨-, h⟩ | h
  · cases h
  · exact h

theorem RestOf.nil {rest : Str} (h : RestOf rest []) : rest = [] := by
  rcases h with ⟨h, -⟩ | h
  · exact h
  · exact absurd rfl (wordLine_ne h).2.1

theorem readMembers_eq {ws : List Str} {vs : List (Fl K)} (hv : List.Forall₂ (fun w v => ∃ q : K, Numeral w q ∧ v = fin q) ws vs) :
    ∀ (n : Nat) {rest : Str}, RestOf rest ws → rest.length < n → readMembers n rest = ok vs := by
  induction hv with
  | nil =>
    intro n rest hr hn
    cases n with
    | zero => omega
    | succ n => rw [hr.nil, readMembers, if_pos rfl]
  | @cons w v ws vs h1 _ ih =>
    intro n rest hr hn
    cases n with
    | zero => omega
    | succ n =>
      obtain ⟨q, hq, rfl⟩ := h1
      obtain ⟨rest', e1, e2, e3⟩ := scan_float hr.line hq
      rw [readMembers, if_neg (wordLine_ne hr.line).1, e1]
      simp only
      rw [ih n e2 (by omega)]
      rfl

/-- A report as it is in the model. -/
def reportRow (r : Report K) : TextRow K := ⟨r.time, r.lat, r.lon, r.elev, r.values⟩

theorem readReport_eq {line : Str} {r : Report K} (h : ReportIn line r) : readReport line = ok (reportRow r) := by
  obtain ⟨wt, wa, wb, wh, ws, hl, ht, h1, h2, ha, hb, hh, hv⟩ := h
  obtain ⟨r1, e1, k1, l1⟩ := scan_int hl ht h1 h2
  obtain ⟨r2, e2, k2, l2⟩ := scan_float k1.line ha
  obtain ⟨r3, e3, k3, l3⟩ := scan_float k2.line hb
  obtain ⟨r4, e4, k4, l4⟩ := scan_float k3.line hh
  unfold readReport
  rw [e1]
  simp only [e2, e3, e4]
  rw [readMembers_eq hv _ k4 (by omega)]
  rfl

/-! ### The set of places -/

/-- The place as a triple. -/
def Place3.triple (p : Place3 K) : K × K × K := (p.lat, p.lon, p.elev)

theorem before_iff (a b : Place3 K) : a.before b = true ↔ PlaceBefore a.triple b.triple := by
  unfold Place3.before PlaceBefore Place3.triple
  by_cases h1 : a.lat = b.lat
  · by_cases h2 : a.lon = b.lon
    · simp [h1, h2]
    · simp [h1, h2]
  · simp [h1]

theorem placeBefore_trans {a b c : K × K × K} (h : PlaceBefore a b) (h' : PlaceBefore b c) : PlaceBefore a c := by
  unfold PlaceBefore at *
  rcases h with h | ⟨h, h1 | ⟨h1, h2⟩⟩ <;> rcases h' with g | ⟨g, g1 | ⟨g1, g2⟩⟩
  · exact .inl (h.trans g)
  · exact .inl (g ▸ h)
  · exact .inl (g ▸ h)
  · exact .inl (h ▸ g)
  · exact .inr ⟨h.trans g, .inl (h1.trans g1)⟩
  · exact .inr ⟨h.trans g, .inl (g1 ▸ h1)⟩
  · exact .inl (h ▸ g)
  · exact .inr ⟨h.trans g, .inl (h1 ▸ g1)⟩
  · exact .inr ⟨h.trans g, .inr ⟨h1.trans g1, h2.trans g2⟩⟩

theorem placeBefore_total (a b : K × K × K) : PlaceBefore a b ∨ a = b ∨ PlaceBefore b a := by
  obtain ⟨a1, a2, a3⟩ := a
  obtain ⟨b1, b2, b3⟩ := b
  unfold PlaceBefore
  simp only [Prod.mk.injEq]
  rcases lt_trichotomy a1 b1 with h | h | h
  · exact .inl (.inl h)
  · rcases lt_trichotomy a2 b2 with g | g | g
    · exact .inl (.inr ⟨h, .inl g⟩)
    · rcases lt_trichotomy a3 b3 with k | k | k
      · exact .inl (.inr ⟨h, .inr ⟨g, k⟩⟩)
      · exact .inr (.inl ⟨h, g, k⟩)
      · exact .inr (.inr (.inr ⟨h.symm, .inr ⟨g.symm, k⟩⟩))
    · exact .inr (.inr (.inr ⟨h.symm, .inl g⟩))
  · exact .inr (.inr (.inl h))

theorem triple_inj {a b : Place3 K} (h : a.triple = b.triple) : a = b := by
  obtain ⟨a1, a2, a3⟩ := a
  obtain ⟨b1, b2, b3⟩ := b
  simp only [Place3.triple, Prod.mk.injEq] at h
  obtain ⟨rfl, rfl, rfl⟩ := h
  rfl

theorem placeInsert_mem (p x : Place3 K) (l : List (Place3 K)) : x ∈ placeInsert p l ↔ x = p ∨ x ∈ l := by
  induction l with
  | nil => simp [placeInsert]
  | cons a l ih =>
    rw [placeInsert]
    split_ifs with h1 h2
    · simp
    · rw [List.mem_cons, ih, List.mem_cons]; tauto
    · have : p = a := by
        rcases placeBefore_total p.triple a.triple with h | h | h
        · exact absurd ((before_iff _ _).mpr h) h1
        · exact triple_inj h
        · exact absurd ((before_iff _ _).mpr h) h2
      subst this; simp

theorem placeInsert_sorted {p : Place3 K} {l : List (Place3 K)} (h : l.Pairwise fun a b => PlaceBefore a.triple b.triple) :
    (placeInsert p l).Pairwise fun a b => PlaceBefore a.triple b.triple := by
  induction l with
  | nil => simp [placeInsert]
  | cons a l ih =>
    obtain ⟨h1, h2⟩ := List.pairwise_cons.mp h
    rw [placeInsert]
    split_ifs with h3 h4
    · refine List.pairwise_cons.mpr ⟨?_, h⟩
      intro x hx
      rcases List.mem_cons.mp hx with rfl | hx
      · exact (before_iff _ _).mp h3
      · exact placeBefore_trans ((before_iff _ _).mp h3) (h1 x hx)
    · refine List.pairwise_cons.mpr ⟨?_, ih h2⟩
      intro x hx
      rcases (placeInsert_mem p x l).mp hx with rfl | hx
      · exact (before_iff _ _).mp h4
      · exact h1 x hx
    · exact h

/-! ### The loop over the lines -/

/-- The place of a report. -/
def reportPlace (r : Report K) : Place3 K := ⟨r.lat, r.lon, r.elev⟩

/-- The state after these reports. -/
def reportState (s : ReportState K) (rs : List (Report K)) : ReportState K :=
  rs.foldl (fun s r => ⟨some r.values.length, setInsert r.time s.times, placeInsert (reportPlace r) s.places, ((r.time, (reportPlace r)), r.values) :: s.values⟩) s

theorem reportLine_eq {line : Str} {r : Report K} (h : ReportIn line r) (hp : line.head? ≠ some '#') (s : ReportState K) :
    reportLine s line = if s.nEns = none ∨ s.nEns = some r.values.length then ok (reportState s [r]) else .abort := by
  unfold reportLine
  rw [if_neg hp, readReport_eq h]
  rfl

theorem reportLines_eq {rows : List Str} {rs : List (Report K)} {n : Nat} (h : List.Forall₂ ReportIn rows rs)
    (hp : ∀ l ∈ rows, l.head? ≠ some '#') (hn : ∀ r ∈ rs, r.values.length = n) (s : ReportState K) (hs : s.nEns = none ∨ s.nEns = some n) :
    foldM reportLine s rows = ok (reportState s rs) := by
  induction h generalizing s with
  | nil => rfl
  | @cons l r rows rs h1 _ ih =>
    have e := hn r (by simp)
    rw [foldM_cons, reportLine_eq h1 (hp l (by simp)), if_pos (by rw [e]; exact hs), ok_bind,
      ih (fun x hx => hp x (by simp [hx])) (fun x hx => hn x (by simp [hx])) _ (.inr (by rw [← e]; rfl))]
    rfl

theorem reportState_nEns {rs : List (Report K)} {n : Nat} (s : ReportState K) (hn : ∀ r ∈ rs, r.values.length = n) (hne : rs ≠ []) :
    (reportState s rs).nEns = some n := by
  induction rs generalizing s with
  | nil => exact absurd rfl hne
  | cons r rs ih =>
    by_cases h0 : rs = []
    · subst h0
      show some r.values.length = _
      rw [hn r (by simp)]
    · exact ih _ (fun x hx => hn x (by simp [hx])) h0

theorem reportState_times (s : ReportState K) (rs : List (Report K)) (h : s.times.Pairwise (· < ·)) :
    (reportState s rs).times.Pairwise (· < ·) ∧ ∀ t, t ∈ (reportState s rs).times ↔ t ∈ s.times ∨ ∃ r ∈ rs, r.time = t := by
  induction rs generalizing s with
  | nil => exact ⟨h, fun t => by simp [reportState]⟩
  | cons r rs ih =>
    obtain ⟨h1, h2⟩ := ih (reportState s [r]) (setInsert_sorted h)
    refine ⟨h1, fun t => ?_⟩
    rw [show reportState s (r :: rs) = reportState (reportState s [r]) rs from rfl, h2,
      show (reportState s [r]).times = setInsert r.time s.times from rfl, setInsert_mem]
    simp only [List.mem_cons, exists_eq_or_imp]
    constructor
    · rintro ((h | h) | h)
      · exact .inr (.inl h.symm)
      · exact .inl h
      · exact .inr (.inr h)
    · rintro (h | h | h)
      · exact .inl (.inr h)
      · exact .inl (.inl h.symm)
      · exact .inr h

theorem reportState_places (s : ReportState K) (rs : List (Report K)) (h : s.places.Pairwise fun a b => PlaceBefore a.triple b.triple) :
    ((reportState s rs).places.Pairwise fun a b => PlaceBefore a.triple b.triple) ∧
      ∀ p, p ∈ (reportState s rs).places ↔ p ∈ s.places ∨ ∃ r ∈ rs, (reportPlace r) = p := by
  induction rs generalizing s with
  | nil => exact ⟨h, fun t => by simp [reportState]⟩
  | cons r rs ih =>
    obtain ⟨h1, h2⟩ := ih (reportState s [r]) (placeInsert_sorted h)
    refine ⟨h1, fun p => ?_⟩
    rw [show reportState s (r :: rs) = reportState (reportState s [r]) rs from rfl, h2,
      show (reportState s [r]).places = placeInsert (reportPlace r) s.places from rfl, placeInsert_mem]
    simp only [List.mem_cons, exists_eq_or_imp]
    constructor
    · rintro ((h | h) | h)
      · exact .inr (.inl h.symm)
      · exact .inl h
      · exact .inr (.inr h)
    · rintro (h | h | h)
      · exact .inl (.inr h)
      · exact .inl (.inl h.symm)
      · exact .inr h

theorem reportState_values (s : ReportState K) (rs : List (Report K)) :
    (reportState s rs).values = (rs.map fun r => ((r.time, (reportPlace r)), r.values)).reverse ++ s.values := by
  induction rs generalizing s with
  | nil => rfl
  | cons r rs ih =>
    rw [show reportState s (r :: rs) = reportState (reportState s [r]) rs from rfl, ih,
      show (reportState s [r]).values = ((r.time, (reportPlace r)), r.values) :: s.values from rfl]
    simp

theorem findReport_eq (rs : List (Report K)) (t : Int) (p : Place3 K) :
    findReport (reportState ⟨none, [], [], []⟩ rs).values t p = (reportsFor rs t p.triple).getLast?.map (·.values) := by
  rw [reportState_values, List.append_nil]
  unfold findReport reportsFor
  rw [← List.head?_filter, List.filter_reverse, List.head?_reverse, List.filter_map, List.getLast?_map, Option.map_map]
  have e : (fun r : Report K => decide (((r.time, (reportPlace r)), r.values).1 = (t, p))) =
      fun r => decide (r.time = t ∧ (r.lat, r.lon, r.elev) = p.triple) := by
    funext r
    congr 1
    simp only [Prod.mk.injEq, eq_iff_iff, and_congr_right_iff]
    intro _
    obtain ⟨a, b, c⟩ := p
    simp [reportPlace, Place3.triple]
  rw [show ((fun e : (Int × Place3 K) × List (Fl K) => decide (e.1 = (t, p))) ∘ fun r : Report K => ((r.time, (reportPlace r)), r.values)) = _ from e]
  rfl

/-! ### The fields -/

theorem putReport_spec {Y n : Nat} {f : FieldC K} (hf : Sized Y 1 n f) {i : Nat} (hi : i < Y) {v : List (Fl K)} (hv : v.length = n) :
    ∃ out, putReport (n : Int) f i v = ok out ∧ Sized Y 1 n out ∧ (∀ e x, v[e]? = some x → out.get i 0 e = ok x) ∧
      ∀ y, y ≠ i → out.get y = f.get y := by
  obtain ⟨out, h1, h2, h3, -, h4⟩ := forMembers_spec (Y := Y) (X := 1) (E := n) i 0 n
    (fun f e => do let x ← vget v e; f.set i 0 e x) (fun e _ u => ∀ x, v[e]? = some x → u = ok x) (by
      intro s hs e he
      have hev : e < v.length := by omega
      obtain ⟨s', g1, g2, g3, g4⟩ := hs.set hi (by omega : 0 < 1) he v[e]
      refine ⟨s', by rw [vget_eq_ok_of_lt hev, ok_bind, g1], g2, fun x hx => ?_, fun y' x' e' hne => ?_⟩
      · rw [List.getElem?_eq_getElem hev] at hx
        cases hx
        exact g3
      · exact g4 y' x' e' hne) f hf
  refine ⟨out, by rw [putReport, Int.toNat_natCast]; exact h1, h2, fun e x hx => ?_, fun y hy => ?_⟩
  · exact h3 e (by rw [← hv]; exact (List.getElem?_eq_some_iff.mp hx).1) x hx
  · funext x'
    exact h4 y x' (fun hc => hy hc.1)

end Gridpp.Client
