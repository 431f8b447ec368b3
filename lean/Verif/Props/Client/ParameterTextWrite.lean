import Verif.Lemmas.Client.ParameterTextWrite
import Verif.Props.Client.ParameterText

/-! # C127: parameters written to a text file -/

set_option linter.unusedSectionVars false

namespace Gridpp.Props
open Fl hiding MV isValid
open Res Client Spec

variable {K : Type} [Field K] [LinearOrder K] [IsStrictOrderedRing K]

/-! ### What is written cannot be read -/

theorem go_prefix (acc s : Str) : textLines.go acc s = [] ∨ ∃ l ls, textLines.go acc s = (acc ++ l) :: ls := by
  induction s generalizing acc with
  | nil => exact .inl rfl
  | cons c s ih =>
    rw [textLines.go]
    split_ifs with h1 h2
    · exact .inr ⟨[], _, by rw [List.append_nil]⟩
    · exact .inl rfl
    · rcases ih (acc ++ [c]) with h | ⟨l, ls, h⟩
      · exact .inl h
      · exact .inr ⟨c :: l, ls, by rw [h, List.append_assoc]; rfl⟩

theorem header_line (dependent : Bool) (rest : Str) :
    ∃ c : Columns, c.time = some 0 ∧ textLines ((if dependent then "time lat lon elev\n".toList else "time\n".toList) ++ rest) =
        (if dependent then "time lat lon elev".toList else "time".toList) :: textLines rest ∧
      readHeader (if dependent then "time lat lon elev".toList else "time".toList) = ok c := by
  cases dependent with
  | true =>
    refine ⟨⟨some 0, some 1, some 2, some 3⟩, rfl, ?_, by decide +kernel⟩
    have := textLines_go [] "time lat lon elev".toList rest (by decide)
    rw [List.nil_append, if_pos (by decide)] at this
    exact this
  | false =>
    refine ⟨⟨some 0, none, none, none⟩, rfl, ?_, by decide +kernel⟩
    have := textLines_go [] "time".toList rest (by decide)
    rw [List.nil_append, if_pos (by decide)] at this
    exact this

/-- **C127**: a file in which all times and places have parameters cannot be read again, however the numbers are written: there is no line
break after the names of the parameters, so these are taken as the first line of values. -/
theorem c127_unreadable_false (display : Fl K → Str) (sort : Bool → List (Site K) → List (Site K)) (cycling : Bool) (f : ParFile K)
    (hn : 0 < f.getNumParameters) {s : Str} (hs : writeText display f = ok s) (p : ParText K) : readText sort cycling (some s) ≠ ok p := by
  unfold writeText at hs
  obtain ⟨d, -, hs⟩ := bind_eq_ok.mp hs
  cases hs
  obtain ⟨m, hm⟩ : ∃ m, f.getNumParameters.toNat = m + 1 := ⟨f.getNumParameters.toNat - 1, by omega⟩
  rw [hm, List.range_succ_eq_map, List.flatMap_cons, List.append_assoc]
  generalize hrest : (" param".toList ++ showNat (0 + 1) 0 ++ ((List.map Nat.succ (List.range m)).flatMap fun i => " param".toList ++ showNat (i + 1) i)) ++
    f.pars.flatMap (writePlace display d) = rest
  obtain ⟨rest', hr⟩ : ∃ rest', rest = " param".toList ++ rest' := ⟨_, by rw [← hrest, List.append_assoc, List.append_assoc]⟩
  obtain ⟨c, h1, h2, h3⟩ := header_line d rest
  intro hok
  unfold readText at hok
  simp only [h2] at hok
  obtain ⟨st, h4, h5⟩ := bind_eq_ok.mp hok
  have hplain : (if d = true then "time lat lon elev".toList else "time".toList).head? ≠ some '#' := by cases d <;> decide
  rw [foldM_cons, textLine, if_neg hplain] at h4
  simp only [h3, ok_bind] at h4
  have hgo : textLines rest = textLines.go " param".toList rest' := by rw [hr]; rfl
  rw [hgo] at h4
  rcases go_prefix " param".toList rest' with h | ⟨l, ls, h⟩
  · rw [h] at h4
    cases h4
    unfold finishText at h5
    rw [if_pos rfl] at h5
    cases h5
  · rw [h, foldM_cons] at h4
    have hl : textLine (⟨some c, none, 0, [], ParFile.empty cycling⟩ : TextState K) (" param".toList ++ l) = .abort := by
      have hcell : readCell c 0 (" param".toList ++ l) (⟨0, -999, -999, -999, []⟩ : TextRow K) = .abort := by
        unfold readCell
        rw [if_pos h1]
        rfl
      rw [textLine, if_neg (by simp)]
      simp only [readRow, rowLoop, hcell]
      rfl
    rw [hl] at h4
    cases h4

/-- **C127**: an empty map makes the end of it be dereferenced. -/
theorem c127_empty (display : Fl K → Str) (cycling : Bool) : writeText display (ParFile.empty cycling : ParFile K) = .ub := rfl

/-! ### What can be read again -/

/-- The header that is written. -/
def headerText (dependent : Bool) : Str := if dependent then "time lat lon elev".toList else "time".toList

/-- The settings that are written. -/
def rowsOf (dependent : Bool) (f : ParFile K) : List (Setting K) := f.pars.flatMap (rowsAt dependent)

theorem le_latest {ws : List (Setting K)} {w : Setting K} (h : w ∈ ws) : w.time ≤ latest ws := by
  induction ws with
  | nil => simp at h
  | cons x ws ih =>
    have e : latest (x :: ws) = max x.time (latest ws) := rfl
    rw [e]
    rcases List.mem_cons.mp h with rfl | h
    · exact le_max_left _ _
    · exact (ih h).trans (le_max_right _ _)

theorem latest_mem {ws : List (Setting K)} (h : ws ≠ []) : ∃ w ∈ ws, w.time = latest ws := by
  induction ws with
  | nil => exact absurd rfl h
  | cons x ws ih =>
    have e : latest (x :: ws) = max x.time (latest ws) := rfl
    by_cases h0 : ws = []
    · subst h0
      exact ⟨x, by simp, by rw [e]; simp [latest]⟩
    · obtain ⟨w, hw, hw'⟩ := ih h0
      rcases le_total x.time (latest ws) with hle | hle
      · exact ⟨w, by simp [hw], by rw [e, max_eq_right hle, hw']⟩
      · exact ⟨x, by simp, by rw [e, max_eq_left hle]⟩

theorem lastSetting_mem (ws : List (Setting K)) (a b : K) (t : Nat) :
    (lastSetting ws a b t = [] ∧ ∀ w ∈ ws, ¬ (w.lat = a ∧ w.lon = b ∧ w.time = t)) ∨
      ∃ w ∈ ws, (w.lat = a ∧ w.lon = b ∧ w.time = t) ∧ lastSetting ws a b t = w.pars := by
  unfold lastSetting
  cases h : (settingsFor ws a b t).getLast? with
  | none =>
    left
    refine ⟨rfl, ?_⟩
    rw [List.getLast?_eq_none_iff, settingsFor, List.filter_eq_nil_iff] at h
    intro w hw h'
    exact h w hw (by simpa using h')
  | some w =>
    right
    have hw := List.mem_of_getLast? h
    rw [settingsFor, List.mem_filter] at hw
    exact ⟨w, hw.1, by simpa using hw.2, rfl⟩

theorem rowsOf_last {f : ParFile K} {cycling : Bool} {ws : List (Setting K)} (h : f.Holds cycling ws) (d : Bool) (a b : K) (t : Nat) :
    lastSetting (rowsOf d f) a b t = lastSetting ws a b t := by
  have hmem : ∀ w ∈ rowsOf d f, w.pars = lastSetting ws w.lat w.lon w.time := by
    intro w hw
    obtain ⟨e, he, hw⟩ := List.mem_flatMap.mp hw
    obtain ⟨h1, h2, -, -, h5, -⟩ := mem_rowsAt.mp hw
    rw [h5, h.value e he, h1, h2]
  rcases lastSetting_mem (rowsOf d f) a b t with ⟨h1, h2⟩ | ⟨w, hw, ⟨rfl, rfl, rfl⟩, h1⟩
  · rw [h1]
    by_contra hne
    rcases lastSetting_mem ws a b t with ⟨h3, -⟩ | ⟨w, hw, ⟨h4, h5, h6⟩, h7⟩
    · exact hne h3.symm
    · obtain ⟨e, he, e1, e2⟩ := (h.keys a b).mpr ⟨w, hw, h4, h5⟩
      have hval := h.value e he t
      rw [e1, e2] at hval
      have hlt : t < e.2.length := by
        by_contra hge
        rw [List.getD_eq_getElem?_getD, List.getElem?_eq_none (by omega)] at hval
        exact hne hval
      refine h2 ⟨e.1.lat, e.1.lon, if d then e.1.elev else fin (-999), t, e.2.getD t []⟩ (List.mem_flatMap.mpr ⟨e, he, mem_rowsAt.mpr
        ⟨rfl, rfl, rfl, hlt, rfl, ?_⟩⟩) ⟨e1, e2, rfl⟩
      rw [hval]
      exact fun h0 => hne h0.symm
  · rw [h1, hmem w hw]

theorem rowsOf_latest {f : ParFile K} {cycling : Bool} {ws : List (Setting K)} (h : f.Holds cycling ws) (d : Bool) (hne : ws ≠ [])
    (hp : ∀ w ∈ ws, w.pars ≠ []) : rowsOf d f ≠ [] ∧ latest (rowsOf d f) = latest ws := by
  obtain ⟨w, hw, ht⟩ := latest_mem hne
  obtain ⟨x, hx, hxt⟩ : ∃ x ∈ rowsOf d f, x.time = latest ws := by
    rcases lastSetting_mem (rowsOf d f) w.lat w.lon w.time with ⟨h1, -⟩ | ⟨x, hx, ⟨-, -, h2⟩, -⟩
    · rw [rowsOf_last h] at h1
      rcases lastSetting_mem ws w.lat w.lon w.time with ⟨-, h3⟩ | ⟨y, hy, -, h4⟩
      · exact absurd ⟨rfl, rfl, rfl⟩ (h3 w hw)
      · exact absurd (h4.symm.trans h1) (hp y hy)
    · exact ⟨x, hx, h2.trans ht⟩
  refine ⟨List.ne_nil_of_mem hx, le_antisymm ?_ (hxt ▸ le_latest hx)⟩
  obtain ⟨y, hy, hyt⟩ := latest_mem (List.ne_nil_of_mem hx)
  obtain ⟨e, he, hy⟩ := List.mem_flatMap.mp hy
  obtain ⟨-, -, -, h4, -, -⟩ := mem_rowsAt.mp hy
  have := h.short e he
  omega

theorem writeText_eq {display : Fl K → Str} {f : ParFile K} {d : Bool} (hd : f.isLocationDependent = ok d) (hn : f.getNumParameters ≤ 0) :
    writeText display f = ok ((headerText d :: (rowsOf d f).map (rowText display d)).flatMap
      fun l => l ++ ['\n']) := by
  have h0 : f.getNumParameters.toNat = 0 := by omega
  have h1 : f.pars.flatMap (writePlace display d) = ((rowsOf d f).map (rowText display d)).flatMap fun l => l ++ ['\n'] := by
    rw [List.flatMap_map, rowsOf, List.flatMap_assoc]
    exact congrArg (fun g => f.pars.flatMap g) (funext fun e => writePlace_eq display d e)
  unfold writeText
  rw [hd, ok_bind]
  simp only [h0, h1, List.range_zero, List.flatMap_nil, List.append_nil, List.flatMap_cons]
  cases d <;> rfl

theorem headerText_spec (d : Bool) : WordLine (headerText d) (headerNames d) ∧ PlaceColumns (headerNames d) ∧
    '\n' ∉ headerText d ∧ (headerText d).length ≤ 9999 ∧
    (headerText d).head? ≠ some '#' ∧ "time".toList ∈ headerNames d := by
  cases d with
  | true =>
    refine ⟨wordLine_of [] "time".toList ["lat".toList, "lon".toList, "elev".toList] (by simp) ?_, by unfold PlaceColumns; decide, by decide, by decide,
      by decide, by decide⟩
    unfold White
    decide
  | false =>
    refine ⟨wordLine_of [] "time".toList [] (by simp) ?_, by unfold PlaceColumns; decide, by decide, by decide, by decide, by decide⟩
    unfold White
    decide

/-- **C127**, as far as it holds: what is written can be read again and gives the same parameters if there is a time and place without
parameters. All settings have the same positive number of parameters and are for places on the globe with known elevations, or all for no
place; the numbers are written exactly, with at most `L` characters, and the lines are not too long. Missing: without such a gap the file
cannot be read (`c127_unreadable_false`); numbers with more than six digits are rounded when they are written. -/
theorem c127_round_trip_partial [HasArcC K] {sort : Bool → List (Site K) → List (Site K)} (hsort : KD.Sorts sort) (display : Fl K → Str)
    (cycling : Bool) (ws : List (Setting K)) (m L : Nat) (hne : ws ≠ []) (hm : 0 < m) (hlen : ∀ w ∈ ws, w.pars.length = m)
    (hlong : 10 + (m + 3) * (L + 1) ≤ 9999) (htime : latest ws < 2147483648) (hpars : ∀ w ∈ ws, ∀ v ∈ w.pars, Exact display L v)
    (hplaces : (∀ w ∈ ws, OnGlobe w.lat w.lon ∧ Exact display L (fin w.lat) ∧ Exact display L (fin w.lon) ∧ Exact display L w.elev ∧
      w.elev ≠ fin (-999)) ∨ (∀ w ∈ ws, w.lat = -999 ∧ w.lon = -999)) :
    ∃ f, written cycling ws = ok f ∧ (f.getNumParameters ≤ 0 → ∃ s p, writeText display f = ok s ∧ readText sort cycling (some s) = ok p ∧
      ∀ (l : Loc K) (t : Int), p.file.getParameters t l false = f.getParameters t l false) := by
  obtain ⟨f, h1, h2, -, -⟩ := ParFile.written_holds cycling ws
  refine ⟨f, h1, fun hn => ?_⟩
  have hp0 : ∀ w ∈ ws, w.pars ≠ [] := fun w hw h0 => by
    have := hlen w hw
    rw [h0] at this
    simp at this
    omega
  have hpne : f.pars ≠ [] := by
    obtain ⟨w, hw⟩ := List.exists_mem_of_ne_nil _ hne
    obtain ⟨e, he, -⟩ := (h2.keys _ _).mpr ⟨w, hw, rfl, rfl⟩
    exact List.ne_nil_of_mem he
  have hkey : ∀ e ∈ f.pars, ∃ w ∈ ws, w.lat = e.1.lat ∧ w.lon = e.1.lon ∧ w.elev = e.1.elev := by
    intro e he
    obtain ⟨w, hw, hw'⟩ := h2.elev e he
    have := List.find?_some hw
    simp only [decide_eq_true_eq] at this
    exact ⟨w, List.mem_of_find?_eq_some hw, this.1, this.2, hw'.symm⟩
  obtain ⟨d, hd, hdep⟩ : ∃ d, f.isLocationDependent = ok d ∧ ((d = true ∧ ∀ w ∈ ws, OnGlobe w.lat w.lon ∧ Exact display L (fin w.lat) ∧
      Exact display L (fin w.lon) ∧ Exact display L w.elev ∧ w.elev ≠ fin (-999)) ∨ (d = false ∧ ∀ w ∈ ws, w.lat = -999 ∧ w.lon = -999)) := by
    unfold ParFile.isLocationDependent
    rcases hplaces with hg | hg
    · refine ⟨true, ?_, .inl ⟨rfl, hg⟩⟩
      cases hp : f.pars with
      | nil => exact absurd hp hpne
      | cons e rest =>
        cases rest with
        | cons => rfl
        | nil =>
          obtain ⟨w, hw, e1, e2, -⟩ := hkey e (by rw [hp]; simp)
          obtain ⟨g1, g2⟩ := (hg w hw).1
          rw [e1] at g1
          rw [e2] at g2
          have v1 : Client.isValid (fin e.1.lat : Fl K) = true := isValid_iff_present.mpr ⟨_, rfl, fun h0 => by rw [h0] at g1; norm_num at g1⟩
          have v2 : Client.isValid (fin e.1.lon : Fl K) = true := isValid_iff_present.mpr ⟨_, rfl, fun h0 => by rw [h0] at g2; norm_num at g2⟩
          simp only [v1, v2, Bool.and_self]
    · refine ⟨false, ?_, .inr ⟨rfl, hg⟩⟩
      have hplace : ∀ x ∈ f.pars, x.1.lat = -999 ∧ x.1.lon = -999 := by
        intro x hx
        obtain ⟨w, hw, e1, e2, -⟩ := hkey x hx
        rw [← e1, ← e2]
        exact hg w hw
      cases hp : f.pars with
      | nil => exact absurd hp hpne
      | cons e rest =>
        have he : e ∈ f.pars := by rw [hp]; simp
        cases rest with
        | nil =>
          have v1 : Client.isValid (fin e.1.lat : Fl K) = false := by
            rw [(hplace e he).1]
            exact isValid_false_iff.mpr not_present_MV
          simp only [v1, Bool.false_and]
        | cons x rest =>
          have hx : x ∈ f.pars := by rw [hp]; simp
          have hs := h2.sorted
          unfold ParMap.SortedKeys at hs
          rw [hp] at hs
          have := (List.pairwise_cons.mp hs).1 x (by simp)
          exact absurd ⟨(hplace e he).1.trans (hplace x hx).1.symm, (hplace e he).2.trans (hplace x hx).2.symm⟩ (Loc.not_same_of_before this)
  obtain ⟨hr1, hr2⟩ := rowsOf_latest h2 d hne hp0
  have hrow : ∀ x ∈ rowsOf d f, x.time < 2147483648 ∧ x.pars.length = m ∧ (∀ v ∈ x.pars, Exact display L v) ∧
      ∃ w ∈ ws, x.lat = w.lat ∧ x.lon = w.lon ∧ x.elev = if d then w.elev else fin (-999) := by
    intro x hx
    have ht := le_latest hx
    obtain ⟨e, he, hx'⟩ := List.mem_flatMap.mp hx
    obtain ⟨g1, g2, g3, g4, g5, g6⟩ := mem_rowsAt.mp hx'
    rw [h2.value e he] at g5
    obtain ⟨w, hw, e1, e2, e3⟩ := hkey e he
    refine ⟨by omega, ?_⟩
    rcases lastSetting_mem ws e.1.lat e.1.lon x.time with ⟨h3, -⟩ | ⟨y, hy, -, h4⟩
    · exact absurd (g5.trans h3) g6
    · rw [g5, h4]
      exact ⟨hlen y hy, hpars y hy, w, hw, by rw [g1, e1], by rw [g2, e2], by rw [g3, e3]⟩
  have hmeans : ∀ x ∈ rowsOf d f, RowMeans (headerNames d) (rowText display d x) x ∧ '\n' ∉ rowText display d x ∧
      (rowText display d x).head? ≠ some '#' ∧ (rowText display d x).length ≤ 9999 := by
    intro x hx
    obtain ⟨g1, g2, g3, w, hw, g4, g5, g6⟩ := hrow x hx
    rcases hdep with ⟨rfl, hg⟩ | ⟨rfl, hg⟩
    · obtain ⟨⟨o1, o2⟩, x1, x2, x3, x4⟩ := hg w hw
      rw [if_pos rfl] at g6
      rw [← g4] at o1 x1
      rw [← g5] at o2 x2
      rw [← g6] at x3 x4
      obtain ⟨t1, t2, t3⟩ := rowText_line (dependent := true) g1 g3 fun _ => ⟨x1, x2, x3⟩
      obtain ⟨q, hq, -, -⟩ := id x3
      refine ⟨rowMeans_place g1 g3 x1 x2 x3 hq ⟨?_, ?_, ?_⟩, t1, t2, by rw [g2] at t3; omega⟩
      · intro h0; rw [h0] at o1; norm_num at o1
      · intro h0; rw [h0] at o2; norm_num at o2
      · intro h0; exact x4 (by rw [hq, h0])
    · obtain ⟨t1, t2, t3⟩ := rowText_line (dependent := false) g1 g3 fun h => by cases h
      refine ⟨rowMeans_nowhere g1 g3 ⟨by rw [g4]; exact (hg w hw).1, by rw [g5]; exact (hg w hw).2, by rw [g6]; rfl⟩, t1, t2, by rw [g2] at t3; omega⟩
  obtain ⟨a1, a2, a3, a4, a5, a6⟩ := headerText_spec d
  have hplain : plainLines (headerText d :: (rowsOf d f).map (rowText display d)) =
      headerText d :: (rowsOf d f).map (rowText display d) := by
    unfold plainLines
    rw [List.filter_eq_self]
    intro l hl
    rcases List.mem_cons.mp hl with rfl | hl
    · exact decide_eq_true a5
    · obtain ⟨x, hx, rfl⟩ := List.mem_map.mp hl
      exact decide_eq_true (hmeans x hx).2.2.1
  have htext : TextOf ((headerText d :: (rowsOf d f).map (rowText display d)).flatMap fun l => l ++ ['\n'])
      (headerText d :: (rowsOf d f).map (rowText display d)) := by
    refine ⟨?_, [], .inl (by simp), by rw [List.append_nil]⟩
    intro l hl
    rcases List.mem_cons.mp hl with rfl | hl
    · exact ⟨a3, a4⟩
    · obtain ⟨x, hx, rfl⟩ := List.mem_map.mp hl
      exact ⟨(hmeans x hx).2.1, (hmeans x hx).2.2.2⟩
  have hall : List.Forall₂ (RowMeans (headerNames d)) ((rowsOf d f).map (rowText display d)) (rowsOf d f) := by
    rw [List.forall₂_map_left_iff, List.forall₂_same]
    exact fun x hx => (hmeans x hx).1
  have hglobe : (∀ x ∈ rowsOf d f, OnGlobe x.lat x.lon) ∨ (∀ x ∈ rowsOf d f, x.lat = -999 ∧ x.lon = -999) := by
    rcases hdep with ⟨-, hg⟩ | ⟨-, hg⟩
    · left
      intro x hx
      obtain ⟨-, -, -, w, hw, g4, g5, -⟩ := hrow x hx
      rw [g4, g5]
      exact (hg w hw).1
    · right
      intro x hx
      obtain ⟨-, -, -, w, hw, g4, g5, -⟩ := hrow x hx
      rw [g4, g5]
      exact hg w hw
  obtain ⟨f2, times, b1, -, -, b2⟩ := c126_read sort cycling htext hplain a1 a2 hall hr1 (fun x hx => (hrow x hx).2.1) fun _ => .inl a6
  obtain ⟨f0, b3, b4, -, -⟩ := ParFile.written_holds cycling (rowsOf d f)
  rw [b1] at b3
  cases b3
  obtain ⟨f', b5, b6⟩ := recompute_holds hsort b4 hr1 hglobe
  refine ⟨_, ⟨f', times⟩, writeText_eq hd hn, by rw [b2, b5]; rfl, fun l t => ?_⟩
  have hused : ∀ n, usedTime (rowsOf d f) cycling n = usedTime ws cycling n := fun n => by unfold usedTime; rw [hr2]
  rcases lt_or_ge t 0 with ht | ht
  · have e1 : f'.getParameters t l false = .abort := by rw [ParFile.getParameters, (ParFile.timeIndex_spec b6 t).1 ht]; rfl
    have e2 : f.getParameters t l false = .abort := by rw [ParFile.getParameters, (ParFile.timeIndex_spec h2 t).1 ht]; rfl
    rw [e1, e2]
  · obtain ⟨n, rfl⟩ := Int.eq_ofNat_of_zero_le ht
    by_cases hle : usedTime ws cycling n ≤ latest ws
    · rw [(holds_get h2 l n).2 hle, (holds_get b6 l n).2 (by rw [hused, hr2]; exact hle), hused, rowsOf_last h2]
    · rw [(holds_get h2 l n).1 (by omega), (holds_get b6 l n).1 (by rw [hused, hr2]; omega)]

/-! ### Examples -/

section
local instance flatWrite : HasArcC ℚ := ⟨fun a b c d => |a - c| + |b - d|⟩

/-- A way of writing whole numbers that are not negative. -/
def exampleDisplay : Fl ℚ → Str
  | fin q => showNat (q.num.toNat + 1) q.num.toNat
  | _ => "nan".toList

theorem exampleDisplay_exact (n : Nat) (hn : n < 2147483648) : Exact exampleDisplay 10 (fin (n : ℚ)) := by
  obtain ⟨h1, h2, ⟨sg, ds, g, hg, hne, hd, e1, e2⟩, h4⟩ := showTime_spec n
  have e : exampleDisplay (fin (n : ℚ)) = showNat (n + 1) n := by simp [exampleDisplay]
  refine ⟨n, rfl, ?_, by rw [e]; exact h4 hn⟩
  rw [e]
  refine ⟨sg, ds, [], [], [], g, 0, hg, hd, .none, .none, fun h => hne h.1, by rw [e1]; simp, ?_⟩
  have : (n : ℚ) = ((n : Int) : ℚ) := by simp
  rw [this, e2]
  simp [decimal]

/-- The hypotheses of `c127_round_trip_partial` hold: there are two places with parameters at different times. -/
example :
    let ws : List (Setting ℚ) := [⟨60, 10, fin 100, 0, [fin 1, fin 2]⟩, ⟨61, 10, fin 0, 1, [fin 3, fin 4]⟩]
    (∀ w ∈ ws, w.pars.length = 2) ∧ 10 + (2 + 3) * (10 + 1) ≤ 9999 ∧ latest ws < 2147483648 ∧
    (∀ w ∈ ws, ∀ v ∈ w.pars, Exact exampleDisplay 10 v) ∧
    (∀ w ∈ ws, OnGlobe w.lat w.lon ∧ Exact exampleDisplay 10 (fin w.lat) ∧ Exact exampleDisplay 10 (fin w.lon) ∧ Exact exampleDisplay 10 w.elev ∧
      w.elev ≠ fin (-999)) ∧
    ((do
      let f ← written false ws
      let s ← writeText exampleDisplay f
      ok (f.getNumParameters, s)) : Res (Int × Str)) = ok (0, "time lat lon elev\n0 60 10 100 1 2\n1 61 10 0 3 4\n".toList) := by
  have x := fun n hn => exampleDisplay_exact n hn
  refine ⟨by decide, by decide, by decide, ?_, ?_, by decide +kernel⟩
  · intro w hw v hv
    simp only [List.mem_cons, List.not_mem_nil, or_false] at hw
    rcases hw with rfl | rfl <;> simp only [List.mem_cons, List.not_mem_nil, or_false] at hv <;> rcases hv with rfl | rfl
    · exact_mod_cast x 1 (by decide)
    · exact_mod_cast x 2 (by decide)
    · exact_mod_cast x 3 (by decide)
    · exact_mod_cast x 4 (by decide)
  · intro w hw
    simp only [List.mem_cons, List.not_mem_nil, or_false] at hw
    rcases hw with rfl | rfl
    · exact ⟨⟨by norm_num, by norm_num⟩, by exact_mod_cast x 60 (by decide), by exact_mod_cast x 10 (by decide), by exact_mod_cast x 100 (by decide),
        by decide +kernel⟩
    · exact ⟨⟨by norm_num, by norm_num⟩, by exact_mod_cast x 61 (by decide), by exact_mod_cast x 10 (by decide), by exact_mod_cast x 0 (by decide),
        by decide +kernel⟩

/-- The hypotheses of `c127_unreadable_false` hold for one setting. -/
example :
    ((do
      let f ← written false [(⟨60, 10, fin 100, 0, [fin 7, fin 8]⟩ : Setting ℚ)]
      let s ← writeText exampleDisplay f
      ok (f.getNumParameters, s)) : Res (Int × Str)) = ok (2, "time lat lon elev\n param0 param10 60 10 100 7 8\n".toList) := by
  decide +kernel

end

end Gridpp.Props
