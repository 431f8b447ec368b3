import Verif.Lemmas.Client.ParameterText
import Verif.Props.Client.ParameterFile

/-! # C126: parameters read from a text file -/

set_option linter.unusedSectionVars false

namespace Gridpp.Props
open Fl hiding MV isValid
open Res Client Spec

variable {K : Type} [Field K] [LinearOrder K] [IsStrictOrderedRing K]

/-- The times of the settings in a set. -/
def timeSet (ws : List (Setting K)) (l : List Int) : List Int := ws.foldl (fun l s => setInsert (s.time : Int) l) l

theorem timeSet_spec (ws : List (Setting K)) (l : List Int) (hl : l.Pairwise (· < ·)) :
    (timeSet ws l).Pairwise (· < ·) ∧ ∀ t, t ∈ timeSet ws l ↔ t ∈ l ∨ ∃ w ∈ ws, (w.time : Int) = t := by
  induction ws generalizing l with
  | nil => simp [timeSet, hl]
  | cons w ws ih =>
    obtain ⟨h1, h2⟩ := ih (setInsert w.time l) (setInsert_sorted hl)
    refine ⟨h1, fun t => ?_⟩
    rw [show timeSet (w :: ws) l = timeSet ws (setInsert w.time l) from rfl, h2, setInsert_mem]
    simp only [List.mem_cons, exists_eq_or_imp]
    constructor
    · rintro ((h | h) | h)
      · exact .inr (.inl h.symm)
      · exact .inl h
      · exact .inr (.inr h)
    · rintro (h | h | h)
      · exact .inl (.inr h)
      · exact .inl (.inl h.symm)
      · exact .inr h

theorem setParameters_nat (f : ParFile K) (p : Pars K) (t : Nat) (l : Loc K) : ∃ f', f.setParameters p t l = ok f' := by
  unfold ParFile.setParameters
  rw [if_neg (by omega)]
  exact ⟨_, rfl⟩

/-- One line of the table. -/
theorem readRow_ok {c : Columns} {names : List Str} (hc : c.Of names) {line : Str} {w : Setting K} (h : RowMeans names line w)
    {n : Nat} (hn : w.pars.length = n) {np : Option Nat} (hnp : np = none ∨ np = some n) (cnt : Nat) (ts : List Int) (f : ParFile K) :
    ∃ f', f.setParameters w.pars w.time (settingLoc w) = ok f' ∧
      readRow c line ⟨some c, np, cnt, ts, f⟩ = ok ⟨some c, some n, cnt + 1, setInsert w.time ts, f'⟩ := by
  obtain ⟨f', hf⟩ := setParameters_nat f w.pars w.time (settingLoc w)
  refine ⟨f', hf, ?_⟩
  obtain ⟨r, h1, h2, h3, h4⟩ := readRow_values hc h
  unfold readRow
  rw [h1, ok_bind]
  rcases hnp with rfl | rfl
  · simp only [h2, h3, h4, hf, ok_bind, hn]
  · simp only [h2, h3, h4, hf, ok_bind, hn, ne_eq, not_true_eq_false, if_false]

theorem tableRows_ok {c : Columns} {names : List Str} (hc : c.Of names) {n : Nat} {rows : List Str} {ws : List (Setting K)}
    (h : List.Forall₂ (RowMeans names) rows ws) (hplain : ∀ l ∈ rows, l.head? ≠ some '#') (hn : ∀ w ∈ ws, w.pars.length = n) :
    ∀ {np : Option Nat} (_ : np = none ∨ np = some n) (cnt : Nat) (ts : List Int) (f : ParFile K),
      ∃ f' np', foldM (fun f w => f.setParameters w.pars w.time (settingLoc w)) f ws = ok f' ∧
        foldM textLine ⟨some c, np, cnt, ts, f⟩ rows = ok ⟨some c, np', cnt + ws.length, timeSet ws ts, f'⟩ := by
  induction h with
  | nil => intro np _ cnt ts f; exact ⟨f, np, rfl, rfl⟩
  | @cons l w rows ws h1 h2 ih =>
    intro np hnp cnt ts f
    obtain ⟨f1, g1, g2⟩ := readRow_ok hc h1 (hn w (by simp)) hnp cnt ts f
    obtain ⟨f2, np', g3, g4⟩ := ih (fun x hx => hplain x (by simp [hx])) (fun x hx => hn x (by simp [hx])) (.inr rfl) (cnt + 1)
      (setInsert w.time ts) f1
    refine ⟨f2, np', ?_, ?_⟩
    · rw [foldM_cons, g1]; exact g3
    · rw [foldM_cons, textLine, if_neg (hplain l (by simp))]
      simp only [g2, ok_bind]
      rw [g4, List.length_cons, Nat.add_assoc, Nat.add_comm 1]
      rfl

theorem mem_plain {lines : List Str} {l : Str} (h : l ∈ plainLines lines) : l.head? ≠ some '#' := by
  simpa using (List.mem_filter.mp h).2

theorem readText_fold (sort : Bool → List (Site K) → List (Site K)) (cycling : Bool) {content : Str} {lines : List Str} (h : TextOf content lines) :
    readText sort cycling (some content) = (do
      let st ← foldM textLine ⟨none, none, 0, [], ParFile.empty cycling⟩ (plainLines lines)
      finishText sort st) := by
  unfold readText
  simp only
  rw [textLines_of h, foldM_plain]

theorem textLine_header {names : List Str} {header : Str} (hh : header.head? ≠ some '#') (hw : WordLine header names) (hp : PlaceColumns names)
    (cycling : Bool) : ∃ c, c.Of names ∧ textLine (⟨none, none, 0, [], ParFile.empty cycling⟩ : TextState K) header =
      ok ⟨some c, none, 0, [], ParFile.empty cycling⟩ := by
  obtain ⟨c, h1, h2⟩ := readHeader_eq hw hp
  refine ⟨c, h2, ?_⟩
  rw [textLine, if_neg hh]
  simp only [h1, ok_bind]

/-- **C126**: every text consists of lines, up to the last line break or the first line with more than 9999 characters, and something that
is left and not looked at. -/
theorem c126_lines (content : Str) : (∃ lines, TextOf content lines) ∧ ∀ lines, TextOf content lines → textLines content = lines :=
  ⟨textOf_exists content, fun _ h => textLines_of h⟩

/-- **C126**: a table that is well formed is read as it is. The first line that is no comment has the names of the columns, every other one
has values for a time and a place; with more than one of them there is a column for the time or the place. The file then holds the settings
of the lines, written one after the other, and the times are those of the lines in increasing order. -/
theorem c126_read (sort : Bool → List (Site K) → List (Site K)) (cycling : Bool) {content header : Str} {lines rows names : List Str}
    {ws : List (Setting K)} {n : Nat} (ht : TextOf content lines) (hl : plainLines lines = header :: rows) (hw : WordLine header names)
    (hp : PlaceColumns names) (hr : List.Forall₂ (RowMeans names) rows ws) (hne : ws ≠ []) (hn : ∀ w ∈ ws, w.pars.length = n)
    (hcol : 1 < ws.length → "time".toList ∈ names ∨ "lat".toList ∈ names) :
    ∃ f times, written cycling ws = ok f ∧ times.Pairwise (· < ·) ∧ (∀ t, t ∈ times ↔ ∃ w ∈ ws, (w.time : Int) = t) ∧
      readText sort cycling (some content) = (do let f' ← f.recomputeTree sort; ok ⟨f', times⟩) := by
  have hplain : ∀ l ∈ header :: rows, l.head? ≠ some '#' := fun l h => mem_plain (hl ▸ h)
  obtain ⟨c, hc, h1⟩ := textLine_header (K := K) (hplain header (by simp)) hw hp cycling
  obtain ⟨f, np, h2, h3⟩ := tableRows_ok hc hr (fun l h => hplain l (by simp [h])) hn (.inl rfl) 0 [] (ParFile.empty cycling)
  obtain ⟨s1, s2⟩ := timeSet_spec ws [] .nil
  refine ⟨f, timeSet ws [], h2, s1, fun t => by rw [s2 t]; simp, ?_⟩
  rw [readText_fold sort cycling ht, hl, foldM_cons, h1, ok_bind, h3, ok_bind]
  unfold finishText
  have hlen := List.length_pos_iff.mpr hne
  rw [if_neg (by simp only; omega), if_neg]
  rintro ⟨g1, g2, g3⟩
  simp only [Option.bind_some] at g2 g3
  rcases hcol (by simpa using g1) with h | h
  · exact hc.noTime.mp g2 h
  · exact hc.noLat.mp g3 h

/-! ### What is refused -/

theorem not_ok_of_line {l : Str} {ls : List Str} (hmem : l ∈ ls) (h : ∀ s : TextState K, textLine s l = .abort) (s s' : TextState K) :
    foldM textLine s ls ≠ ok s' := by
  induction ls generalizing s with
  | nil => simp at hmem
  | cons x ls ih =>
    intro hok
    rw [foldM_cons] at hok
    obtain ⟨s1, h1, h2⟩ := bind_eq_ok.mp hok
    rcases List.mem_cons.mp hmem with rfl | hm
    · rw [h s] at h1
      cases h1
    · exact ih hm s1 h2

theorem readText_not_ok (sort : Bool → List (Site K) → List (Site K)) (cycling : Bool) {content : Str} {lines : List Str} (ht : TextOf content lines)
    (h : ∀ s', foldM textLine (⟨none, none, 0, [], ParFile.empty cycling⟩ : TextState K) (plainLines lines) = ok s' → ∀ p, finishText sort s' ≠ ok p)
    (p : ParText K) : readText sort cycling (some content) ≠ ok p := by
  intro hok
  rw [readText_fold sort cycling ht] at hok
  obtain ⟨s', h1, h2⟩ := bind_eq_ok.mp hok
  exact h s' h1 p h2

/-- **C126**: a file with an empty line, or a line that ends with white space, is refused, unless the line is a comment. -/
theorem c126_white (sort : Bool → List (Site K) → List (Site K)) (cycling : Bool) {content l : Str} {lines : List Str} (ht : TextOf content lines)
    (hl : l ∈ lines) (hc : l.head? ≠ some '#') (hw : ∀ c ∈ l.getLast?, White c) (p : ParText K) : readText sort cycling (some content) ≠ ok p := by
  refine readText_not_ok sort cycling ht (fun s' h => ?_) p
  refine absurd h (not_ok_of_line (l := l) (List.mem_filter.mpr ⟨hl, by simpa using hc⟩) (fun s => ?_) _ _)
  rw [textLine, if_neg hc]
  cases s.columns with
  | none => simp only [readHeader, headerLoop_white _ _ _ _ (Nat.lt_succ_self _) hw]; rfl
  | some c => simp only [readRow, rowLoop_white _ _ _ _ _ (Nat.lt_succ_self _) hw]; rfl

/-- **C126**: some but not all of the columns for a place are refused. -/
theorem c126_columns (sort : Bool → List (Site K) → List (Site K)) (cycling : Bool) {content header : Str} {lines rows names : List Str}
    (ht : TextOf content lines) (hl : plainLines lines = header :: rows) (hw : WordLine header names) (hp : ¬ PlaceColumns names) :
    readText sort cycling (some content) = .abort := by
  have hh : header.head? ≠ some '#' := mem_plain (lines := lines) (by rw [hl]; simp)
  rw [readText_fold sort cycling ht, hl, foldM_cons, textLine, if_neg hh]
  simp only [readHeader_refused hw hp]
  rfl

/-- The state of a loop over lines with values. -/
theorem row_state {c : Columns} {s s' : TextState K} {l : Str} (hs : s.columns = some c) (h : textLine s l = ok s') :
    s'.columns = some c ∧ (∀ n, s.numParameters = some n → s'.numParameters = some n) := by
  rw [textLine] at h
  split_ifs at h with h1
  · cases h
    exact ⟨hs, fun n hn => hn⟩
  · rw [hs] at h
    simp only [readRow] at h
    obtain ⟨r, -, h3⟩ := bind_eq_ok.mp h
    cases hn : s.numParameters with
    | none =>
      rw [hn] at h3
      obtain ⟨f, -, h4⟩ := bind_eq_ok.mp h3
      cases h4
      exact ⟨hs, by simp⟩
    | some m =>
      rw [hn] at h3
      simp only at h3
      split_ifs at h3
      · cases h3
      · obtain ⟨f, -, h4⟩ := bind_eq_ok.mp h3
        cases h4
        exact ⟨hs, fun n hn' => hn'⟩

theorem row_number {c : Columns} {names : List Str} (hc : c.Of names) {s s' : TextState K} {l : Str} {w : Setting K} (hs : s.columns = some c)
    (hp : l.head? ≠ some '#') (hw : RowMeans names l w) (h : textLine s l = ok s') : s'.numParameters = some w.pars.length := by
  obtain ⟨r, h1, h2, -, -⟩ := readRow_values hc hw
  rw [textLine, if_neg hp, hs] at h
  simp only [readRow, h1, ok_bind] at h
  cases hn : s.numParameters with
  | none =>
    rw [hn] at h
    obtain ⟨f, -, h4⟩ := bind_eq_ok.mp h
    cases h4
    simp only [h2]
  | some m =>
    rw [hn] at h
    simp only at h
    split_ifs at h with hm
    · cases h
    · obtain ⟨f, -, h4⟩ := bind_eq_ok.mp h
      cases h4
      push Not at hm
      simp only [← hm, h2]

theorem rows_number {c : Columns} {names : List Str} (hc : c.Of names) {rows : List Str} (hplain : ∀ l ∈ rows, l.head? ≠ some '#')
    {s s' : TextState K} (hs : s.columns = some c) (h : foldM textLine s rows = ok s') :
    s'.columns = some c ∧ (∀ n, s.numParameters = some n → s'.numParameters = some n) ∧
      ∀ l ∈ rows, ∀ w : Setting K, RowMeans names l w → s'.numParameters = some w.pars.length := by
  induction rows generalizing s with
  | nil => cases h; exact ⟨hs, fun n hn => hn, by simp⟩
  | cons x rows ih =>
    rw [foldM_cons] at h
    obtain ⟨s1, h1, h2⟩ := bind_eq_ok.mp h
    obtain ⟨g1, g2⟩ := row_state hs h1
    obtain ⟨g3, g4, g5⟩ := ih (fun l hl => hplain l (by simp [hl])) g1 h2
    refine ⟨g3, fun n hn => g4 n (g2 n hn), ?_⟩
    intro l hl w hw
    rcases List.mem_cons.mp hl with rfl | hl
    · exact g4 _ (row_number hc hs (hplain l (by simp)) hw h1)
    · exact g5 l hl w hw

/-- **C126**: two lines with different numbers of parameters are refused. -/
theorem c126_number (sort : Bool → List (Site K) → List (Site K)) (cycling : Bool) {content header l l' : Str} {lines rows names : List Str}
    {w w' : Setting K} (ht : TextOf content lines) (hl : plainLines lines = header :: rows) (hw : WordLine header names) (hp : PlaceColumns names)
    (h : l ∈ rows) (h' : l' ∈ rows) (hm : RowMeans names l w) (hm' : RowMeans names l' w') (hne : w.pars.length ≠ w'.pars.length)
    (p : ParText K) : readText sort cycling (some content) ≠ ok p := by
  have hplain : ∀ l ∈ header :: rows, l.head? ≠ some '#' := fun l h => mem_plain (hl ▸ h)
  obtain ⟨c, hc, h1⟩ := textLine_header (K := K) (hplain header (by simp)) hw hp cycling
  refine readText_not_ok sort cycling ht (fun s' hs => ?_) p
  rw [hl, foldM_cons, h1, ok_bind] at hs
  obtain ⟨-, -, h3⟩ := rows_number hc (fun l h => hplain l (by simp [h])) rfl hs
  have e := (h3 l h w hm).symm.trans (h3 l' h' w' hm')
  exact absurd (Option.some.inj e) hne

theorem textLine_counter {s s' : TextState K} {l : Str} {c : Columns} (hs : s.columns = some c) (hp : l.head? ≠ some '#') (h : textLine s l = ok s') :
    s'.counter = s.counter + 1 := by
  rw [textLine, if_neg hp, hs] at h
  simp only [readRow] at h
  obtain ⟨r, -, h3⟩ := bind_eq_ok.mp h
  cases hn : s.numParameters with
  | none =>
    rw [hn] at h3
    obtain ⟨f, -, h4⟩ := bind_eq_ok.mp h3
    cases h4
    rfl
  | some m =>
    rw [hn] at h3
    simp only at h3
    split_ifs at h3
    · cases h3
    · obtain ⟨f, -, h4⟩ := bind_eq_ok.mp h3
      cases h4
      rfl

theorem rows_counter {rows : List Str} (hplain : ∀ l ∈ rows, l.head? ≠ some '#') {s s' : TextState K} {c : Columns} (hs : s.columns = some c)
    (h : foldM textLine s rows = ok s') : s'.counter = s.counter + rows.length := by
  induction rows generalizing s with
  | nil => cases h; rfl
  | cons x rows ih =>
    rw [foldM_cons] at h
    obtain ⟨s1, h1, h2⟩ := bind_eq_ok.mp h
    rw [ih (fun l hl => hplain l (by simp [hl])) (row_state hs h1).1 h2, textLine_counter hs (hplain x (by simp)) h1, List.length_cons]
    omega

/-- **C126**: a file without a line of values is refused, and so are several such lines if there is no column for the time or the place. -/
theorem c126_refused (sort : Bool → List (Site K) → List (Site K)) (cycling : Bool) {content : Str} {lines : List Str} (ht : TextOf content lines) :
    ((plainLines lines).length ≤ 1 → ∀ p : ParText K, readText sort cycling (some content) ≠ ok p) ∧
    (∀ header rows names, plainLines lines = header :: rows → WordLine header names → 1 < rows.length → "time".toList ∉ names →
      "lat".toList ∉ names → ∀ p : ParText K, readText sort cycling (some content) ≠ ok p) := by
  constructor
  · intro hlen p
    refine readText_not_ok sort cycling ht (fun s' hs p hok => ?_) p
    have hcnt : s'.counter = 0 := by
      cases hl : plainLines lines with
      | nil => rw [hl] at hs; cases hs; rfl
      | cons x t =>
        rw [hl] at hlen hs
        cases t with
        | cons => simp at hlen
        | nil =>
          rw [foldM_cons] at hs
          obtain ⟨s1, h1, h2⟩ := bind_eq_ok.mp hs
          cases h2
          rw [textLine, if_neg (mem_plain (lines := lines) (by rw [hl]; simp))] at h1
          obtain ⟨c, -, h4⟩ := bind_eq_ok.mp h1
          cases h4
          rfl
    unfold finishText at hok
    rw [if_pos hcnt] at hok
    cases hok
  · intro header rows names hl hw hrows ht1 ht2 p
    have hplain : ∀ l ∈ header :: rows, l.head? ≠ some '#' := fun l h => mem_plain (hl ▸ h)
    by_cases hp : PlaceColumns names
    · obtain ⟨c, hc, h1⟩ := textLine_header (K := K) (hplain header (by simp)) hw hp cycling
      refine readText_not_ok sort cycling ht (fun s' hs p hok => ?_) p
      rw [hl, foldM_cons, h1, ok_bind] at hs
      have hcnt := rows_counter (fun l h => hplain l (by simp [h])) rfl hs
      obtain ⟨hcol, -, -⟩ := rows_number hc (fun l h => hplain l (by simp [h])) rfl hs
      unfold finishText at hok
      rw [if_neg (by rw [hcnt]; simp only; omega), if_pos] at hok
      · cases hok
      · rw [hcol, hcnt]
        exact ⟨by simp only; omega, hc.noTime.mpr ht1, hc.noLat.mpr ht2⟩
    · rw [c126_columns sort cycling ht hl hw hp]
      simp

/-! ### What is got from the file -/

theorem holds_get [HasArcC K] {f : ParFile K} {cycling : Bool} {ws : List (Setting K)} (h2 : f.Holds cycling ws) (l : Loc K) (n : Nat) :
    (latest ws < usedTime ws cycling n → f.getParameters n l false = .abort) ∧
    (usedTime ws cycling n ≤ latest ws → f.getParameters n l false = ok (lastSetting ws l.lat l.lon (usedTime ws cycling n))) := by
  refine ⟨fun hn => ?_, fun hn => ?_⟩
  · rw [ParFile.getParameters, ((ParFile.timeIndex_spec h2 n).2 n rfl).1 hn]; rfl
  · rw [ParFile.getParameters, ((ParFile.timeIndex_spec h2 n).2 n rfl).2 hn, ok_bind]
    by_cases h0 : f.pars.length = 0
    · rw [if_pos h0]
      have : f.pars = [] := List.length_eq_zero_iff.mp h0
      have hf : f.pars.find l = none := by rw [this]; rfl
      have := holds_find h2 l (usedTime ws cycling n)
      rw [hf] at this
      exact this
    · rw [if_neg h0]
      simp only [ParFile.place, Bool.false_eq_true, if_false, ok_bind]
      exact holds_find h2 l _

theorem recompute_holds {sort : Bool → List (Site K) → List (Site K)} (hsort : KD.Sorts sort) {f : ParFile K} {cycling : Bool} {ws : List (Setting K)}
    (h : f.Holds cycling ws) (hne : ws ≠ [])
    (hplaces : (∀ w ∈ ws, OnGlobe w.lat w.lon) ∨ (∀ w ∈ ws, w.lat = -999 ∧ w.lon = -999)) :
    ∃ f', f.recomputeTree sort = ok f' ∧ f'.Holds cycling ws := by
  have hpne : f.pars ≠ [] := by
    obtain ⟨w, hw⟩ := List.exists_mem_of_ne_nil _ hne
    obtain ⟨e, he, -⟩ := (h.keys _ _).mpr ⟨w, hw, rfl, rfl⟩
    exact List.ne_nil_of_mem he
  rcases hplaces with hg | hg
  · have hm : ∀ e ∈ f.pars, OnGlobe e.1.lat e.1.lon := by
      intro e he
      obtain ⟨w, hw, h4, h5⟩ := (h.keys _ _).mp ⟨e, he, rfl, rfl⟩
      rw [← h4, ← h5]
      exact hg w hw
    have hr1 : Rect f.pars.length 1 (f.pars.map fun e => [(fin e.1.lat : Fl K)]) := ⟨by simp, fun r hr => by obtain ⟨e, -, rfl⟩ := List.mem_map.mp hr; rfl⟩
    have hr2 : Rect f.pars.length 1 (f.pars.map fun e => [(fin e.1.lon : Fl K)]) := ⟨by simp, fun r hr => by obtain ⟨e, -, rfl⟩ := List.mem_map.mp hr; rfl⟩
    have hval : ∀ e ∈ f.pars, e.1.lat ≠ -999 ∧ e.1.lon ≠ -999 := by
      intro e he
      obtain ⟨h1, h2⟩ := hm e he
      constructor
      · intro h0
        rw [h0] at h1
        norm_num at h1
      · intro h0
        rw [h0] at h2
        norm_num at h2
    obtain ⟨root, hb, -⟩ := build_ok hsort hr1 hr2 (by
        intro i j c d hpl
        obtain ⟨h1, h2, -, -⟩ := hpl
        rw [ParFile.cell?_column] at h1 h2
        obtain ⟨-, e, he, h3⟩ := h1
        obtain ⟨-, e', he', h4⟩ := h2
        rw [he] at he'
        cases he'
        cases h3
        cases h4
        exact hm e (List.mem_of_getElem? he)) (by
        obtain ⟨e, he⟩ := List.exists_mem_of_ne_nil _ hpne
        obtain ⟨i, hi⟩ := List.mem_iff_getElem?.mp he
        refine ⟨i, 0, e.1.lat, e.1.lon, ?_, ?_, hval e he⟩
        · rw [ParFile.cell?_column]
          exact ⟨rfl, e, hi, rfl⟩
        · rw [ParFile.cell?_column]
          exact ⟨rfl, e, hi, rfl⟩)
    have hdep : ∃ d, f.isLocationDependent = ok d := by
      unfold ParFile.isLocationDependent
      cases hp : f.pars with
      | nil => exact absurd hp hpne
      | cons e m => cases m <;> exact ⟨_, rfl⟩
    obtain ⟨d, hd⟩ := hdep
    unfold ParFile.recomputeTree
    rw [hd, ok_bind]
    cases d with
    | true =>
      rw [if_pos rfl, hb, ok_bind]
      exact ⟨_, rfl, ⟨h.sorted, h.keys, h.short, h.long, h.value, h.elev, h.maxTime, h.timeDependent, h.cycling⟩⟩
    | false =>
      rw [if_neg (by simp)]
      exact ⟨f, rfl, h⟩
  · refine ⟨f, ?_, h⟩
    have hplace : ∀ x ∈ f.pars, x.1.lat = -999 ∧ x.1.lon = -999 := by
      intro x hx
      obtain ⟨w', hw', h3, h4⟩ := (h.keys _ _).mp ⟨x, hx, rfl, rfl⟩
      rw [← h3, ← h4]
      exact hg w' hw'
    have hdep : f.isLocationDependent = ok false := by
      unfold ParFile.isLocationDependent
      cases hp : f.pars with
      | nil => exact absurd hp hpne
      | cons e m =>
        have he : e ∈ f.pars := by rw [hp]; simp
        cases m with
        | nil =>
          have v1 : Client.isValid (fin e.1.lat : Fl K) = false := by
            rw [(hplace e he).1]
            exact isValid_false_iff.mpr not_present_MV
          simp only [v1, Bool.false_and]
        | cons x m =>
          have hx : x ∈ f.pars := by rw [hp]; simp
          have hs := h.sorted
          unfold ParMap.SortedKeys at hs
          rw [hp] at hs
          have := (List.pairwise_cons.mp hs).1 x (by simp)
          exact absurd ⟨(hplace e he).1.trans (hplace x hx).1.symm, (hplace e he).2.trans (hplace x hx).2.symm⟩ (Loc.not_same_of_before this)
    unfold ParFile.recomputeTree
    rw [hdep, ok_bind, if_neg (by simp)]

/-- **C126**: what is got from a file that is well formed, with all lines for places on the globe or all for no place: for a place and a time
the parameters of the last line for them. -/
theorem c126_get [HasArcC K] {sort : Bool → List (Site K) → List (Site K)} (hsort : KD.Sorts sort) (cycling : Bool) {content header : Str}
    {lines rows names : List Str} {ws : List (Setting K)} {n : Nat} (ht : TextOf content lines) (hl : plainLines lines = header :: rows)
    (hw : WordLine header names) (hp : PlaceColumns names) (hr : List.Forall₂ (RowMeans names) rows ws) (hne : ws ≠ [])
    (hn : ∀ w ∈ ws, w.pars.length = n) (hcol : 1 < ws.length → "time".toList ∈ names ∨ "lat".toList ∈ names)
    (hplaces : (∀ w ∈ ws, OnGlobe w.lat w.lon) ∨ (∀ w ∈ ws, w.lat = -999 ∧ w.lon = -999)) :
    ∃ p, readText sort cycling (some content) = ok p ∧ ∀ (l : Loc K) (t : Nat),
      (latest ws < usedTime ws cycling t → p.file.getParameters t l false = .abort) ∧
      (usedTime ws cycling t ≤ latest ws → p.file.getParameters t l false = ok (lastSetting ws l.lat l.lon (usedTime ws cycling t))) := by
  obtain ⟨f, times, h1, -, -, h2⟩ := c126_read sort cycling ht hl hw hp hr hne hn hcol
  obtain ⟨f0, h3, h4, -, -⟩ := ParFile.written_holds cycling ws
  rw [h1] at h3
  cases h3
  obtain ⟨f', h5, h6⟩ := recompute_holds hsort h4 hne hplaces
  refine ⟨⟨f', times⟩, by rw [h2, h5]; rfl, fun l t => holds_get h6 l t⟩

/-- **C126**: a file that cannot be opened is not refused; there are no parameters in it. -/
theorem c126_unreadable_false [HasArcC K] (sort : Bool → List (Site K) → List (Site K)) (cycling : Bool) (l : Loc K) :
    ∃ p : ParText K, readText sort cycling none = ok p ∧ p.times = [] ∧ p.file.getParameters 0 l true = ok [] :=
  ⟨_, rfl, rfl, rfl⟩

/-! ### An example and counterexamples -/

section
local instance flatText : HasArcC ℚ := ⟨fun a b c d => |a - c| + |b - d|⟩

local instance (c : Char) : Decidable (Digit c) := by unfold Digit; infer_instance
local instance (c : Char) : Decidable (White c) := by unfold White; infer_instance

/-- The parameters got from a text for a place and a time. -/
def gotFrom (content : String) (t : Int) (l : Loc ℚ) : Res (Pars ℚ) := do
  let p ← readText insertSort false (some content.toList)
  p.file.getParameters t l false

/-- The hypotheses of `c126_read` and `c126_get` hold for a file with a comment, two lines and a last line without a line break. -/
example :
    let ws : List (Setting ℚ) := [⟨60, 10, fin 100, 0, [fin 1, fin (-5 / 2)]⟩, ⟨61, 10, fin 0, 2, [fin 300, fin 4]⟩]
    let names := ["time".toList, "lat".toList, "lon".toList, "elev".toList, "a".toList, "b".toList]
    let rows := ["0 60 10 100 1 -2.5".toList, " 2\t61 10 0 3e2 +4".toList]
    TextOf "# x\ntime lat lon elev a b\n0 60 10 100 1 -2.5\n 2\t61 10 0 3e2 +4\n3 4".toList
      ("# x".toList :: "time lat lon elev a b".toList :: rows) ∧
    plainLines ("# x".toList :: "time lat lon elev a b".toList :: rows) = "time lat lon elev a b".toList :: rows ∧ PlaceColumns names ∧
    ws ≠ [] ∧ (∀ w ∈ ws, w.pars.length = 2) ∧ (∀ w ∈ ws, OnGlobe w.lat w.lon) ∧ KD.Sorts (insertSort (K := ℚ)) ∧
    gotFrom "# x\ntime lat lon elev a b\n0 60 10 100 1 -2.5\n 2\t61 10 0 3e2 +4\n3 4" 2 ⟨61, 10, fin 5⟩ = ok [fin 300, fin 4] := by
  refine ⟨⟨by decide, "3 4".toList, .inl (by decide), by decide⟩, by decide, by unfold PlaceColumns; decide, by simp, by simp, ?_, insertSort_sorts,
    by decide +kernel⟩
  intro w hw
  simp only [List.mem_cons, List.not_mem_nil, or_false] at hw
  rcases hw with rfl | rfl <;> (constructor <;> norm_num)

/-- The numbers of the example, and a line of it. -/
theorem exampleNumeral : Numeral "-2.5".toList (-5 / 2 : ℚ) ∧ Numeral "3e2".toList (300 : ℚ) ∧ IntNumeral "2".toList 2 := by
  refine ⟨⟨['-'], ['2'], ['.', '5'], ['5'], [], -1, 0, .minus, by decide, .point (by decide), .none, by decide, by decide, ?_⟩,
    ⟨[], ['3'], [], [], ['e', '2'], 1, 2, .none, by decide, .none, .some (.inl rfl) ⟨[], ['2'], 1, .none, by decide, by decide, rfl, ?_⟩, by decide,
      by decide, ?_⟩, ⟨[], ['2'], 1, .none, by decide, by decide, rfl, ?_⟩⟩
  · rw [show decimal ['2'] = 2 from by decide, show decimal ['5'] = 5 from by decide]; norm_num
  · rw [show decimal ['2'] = 2 from by decide]; norm_num
  · rw [show decimal ['3'] = 3 from by decide, show decimal [] = 0 from by decide]; norm_num
  · rw [show decimal ['2'] = 2 from by decide]; norm_num

/-- A line with a time and one parameter. -/
example : RowMeans ["time".toList, "a".toList] "2 3e2".toList (⟨-999, -999, fin (-999), 2, [fin 300]⟩ : Setting ℚ) := by
  refine ⟨["2".toList, "3e2".toList], -999, -999, -999, ?_, ?_, by simp, by simp⟩
  · exact WordLine.cons (b := []) (w := ['2']) (c := ' ') (s := "3e2".toList) (by decide) (by decide) (by decide) (by decide)
      (WordLine.last (b := [' ']) (by decide) (by decide) (by decide))
  · have e1 : wordsOf ["time".toList, "a".toList] .time 0 ["2".toList, "3e2".toList] = ["2".toList] := by decide
    have e2 : wordsOf ["time".toList, "a".toList] .lat 0 ["2".toList, "3e2".toList] = [] := by decide
    have e3 : wordsOf ["time".toList, "a".toList] .lon 0 ["2".toList, "3e2".toList] = [] := by decide
    have e4 : wordsOf ["time".toList, "a".toList] .elev 0 ["2".toList, "3e2".toList] = [] := by decide
    have e5 : wordsOf ["time".toList, "a".toList] .parameter 0 ["2".toList, "3e2".toList] = ["3e2".toList] := by decide
    constructor
    · rw [CellIs, e1]
      exact ⟨fun w hw => by rw [List.mem_singleton.mp hw]; exact exampleNumeral.2.2, by simp⟩
    · decide
    · rw [CellIs, e2]; simp
    · rw [CellIs, e3]; simp
    · rw [CellIs, e4]; simp
    · rw [e5]
      exact .cons ⟨300, exampleNumeral.2.1, rfl⟩ .nil

/-- **C126**: a table that is not well formed is not always refused. The lines may have fewer values than there are names; what looks like
one value may be two; and a time that is no whole number moves its fraction into the next column. -/
theorem c126_malformed_false :
    gotFrom "time a b\n0 1\n" 0 ⟨0, 0, fin 0⟩ = ok [] ∧ gotFrom "time a b\n0 1\n" 0 ⟨-999, -999, fin 0⟩ = ok [fin 1] ∧
    gotFrom "time a\n0 1-2\n" 0 ⟨-999, -999, fin 0⟩ = ok [fin 1, fin (-2)] ∧
    gotFrom "time a\n1.5 7\n" 1 ⟨-999, -999, fin 0⟩ = ok [fin (1 / 2), fin 7] := by decide +kernel

/-- **C126**: a line for a place without a known elevation, and one that is too short, is taken as one for all places. -/
theorem c126_place_false :
    gotFrom "lat lon elev a\n60 10 -999 5\n" 0 ⟨60, 10, fin 0⟩ = ok [] ∧
    gotFrom "lat lon elev a\n60 10 -999 5\n" 0 ⟨-999, -999, fin 0⟩ = ok [fin 5] ∧
    gotFrom "a lat lon elev\n5 60 10\n" 0 ⟨-999, -999, fin 0⟩ = ok [fin 5] := by decide +kernel

/-- **C126**: a negative time makes an index out of range. -/
theorem c126_negative_false : gotFrom "time a\n-1 5\n" 0 ⟨0, 0, fin 0⟩ = .ub := by decide +kernel

/-- **C126**: the last line is left out if it does not end with a line break. -/
theorem c126_last_false : gotFrom "time a\n0 5\n1 6" 1 ⟨-999, -999, fin 0⟩ = ok [fin 5] := by decide +kernel

end

end Gridpp.Props
