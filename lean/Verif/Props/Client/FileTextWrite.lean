import Verif.Props.Client.FileText

/-! # C142: forecasts written to a text file -/

set_option linter.unusedSectionVars false

namespace Gridpp.Props
open Fl hiding MV isValid
open Res Client Spec

variable {K : Type} [Field K] [LinearOrder K] [IsStrictOrderedRing K] [FloorRing K]

theorem truncInt_int (t : Int) : Fl.truncInt (fin (t : K)) = ok t := by
  simp [Fl.truncInt]

theorem showInt_spec (t : Int) : IntNumeral (showInt t) t ∧ showInt t ≠ [] ∧ ∀ c ∈ showInt t, ¬ White c := by
  have hd : ∀ c, Digit c → ¬ White c := fun c h => (digit_facts h).1
  unfold showInt
  split_ifs with h
  · obtain ⟨h1, h2, ⟨sg, ds, g, h3, h4, h5, h6, h7⟩, -⟩ := showTime_spec t.natAbs
    have hs : sg = [] := by
      cases h3 with
      | none => rfl
      | plus => exact absurd (h2 '+' (by rw [h6]; simp)) (by simp [Digit])
      | minus => exact absurd (h2 '-' (by rw [h6]; simp)) (by simp [Digit])
    subst hs
    cases h3
    refine ⟨⟨['-'], ds, -1, .minus, h4, h5, by rw [h6]; rfl, ?_⟩, by simp, fun c hc => ?_⟩
    · omega
    · rcases List.mem_cons.mp hc with rfl | hc
      · simp [White]
      · exact hd c (h2 c hc)
  · obtain ⟨h1, h2, h3, -⟩ := showTime_spec t.toNat
    refine ⟨?_, h1, fun c hc => hd c (h2 c hc)⟩
    have e : ((t.toNat : Nat) : Int) = t := by omega
    rw [e] at h3
    exact h3

theorem showMembers_eq (display : Fl K → Str) {n Y X : Nat} {f : FieldC K} (hf : Sized Y X n f) (hY : 0 < Y) (hX : 0 < X) :
    ∃ vs : List (Fl K), vs.length = n ∧ (∀ e < n, ∃ v, vs[e]? = some v ∧ f.get 0 0 e = ok v) ∧
      showMembers display n f = ok (vs.flatMap fun v => ' ' :: display v) := by
  choose g hg using fun (e : Nat) (he : e < n) => hf.exists_get hY hX he
  have h : mapM (fun e : Nat => f.get 0 0 e) (List.range n) = ok ((List.range n).map fun e => if h : e < n then g e h else nan) :=
    mapM_ok fun e he => by rw [hg e (List.mem_range.mp he), dif_pos (List.mem_range.mp he)]
  refine ⟨(List.range n).map fun e => if h : e < n then g e h else nan, by simp, fun e he => ?_, by unfold showMembers; rw [h, ok_bind]⟩
  · refine ⟨g e he, ?_, hg e he⟩
    rw [List.getElem?_map, List.getElem?_range he]
    simp [he]

/-- The text of one line. -/
theorem writeForecast_lines (display : Fl K → Str) {times : List Int} {n Y X : Nat} {fs : List (FieldC K)} (rest : List (List (Option (FieldC K))))
    (hY : 0 < Y) (hX : 0 < X) (hlen : times.length ≤ fs.length) (hf : ∀ f ∈ fs, Sized Y X n f) :
    ∃ lines : List Str, writeForecast display (times.map fun t : Int => fin (t : K)) n (fs.map some :: rest) =
        ok (lines.flatMap fun l => l ++ ['\n']) ∧ lines.length = times.length ∧
      ∀ (j : Nat) t f, times[j]? = some t → fs[j]? = some f → ∃ vs : List (Fl K), vs.length = n ∧
        (∀ e < n, ∃ v, vs[e]? = some v ∧ f.get 0 0 e = ok v) ∧ lines[j]? = some (showInt t ++ (vs.map display).flatMap fun x => ' ' :: x) := by
  have hj : ∀ j < times.length, ∃ (l : Str) (vs : List (Fl K)), vs.length = n ∧ (∀ f, fs[j]? = some f → ∀ e < n, ∃ v, vs[e]? = some v ∧ f.get 0 0 e = ok v) ∧
      (∀ t, times[j]? = some t → l = showInt t ++ (vs.map display).flatMap fun x => ' ' :: x) ∧
      forecastLine display (times.map fun t : Int => fin (t : K)) n (fs.map some) j = ok (l ++ ['\n']) := by
    intro j hj
    have hjf : j < fs.length := by omega
    obtain ⟨vs, h1, h2, h3⟩ := showMembers_eq display (hf fs[j] (List.getElem_mem hjf)) hY hX
    refine ⟨showInt times[j] ++ (vs.map display).flatMap fun x => ' ' :: x, vs, h1, fun f hf' => ?_, fun t ht => ?_, ?_⟩
    · rw [List.getElem?_eq_getElem hjf] at hf'
      cases hf'
      exact h2
    · rw [List.getElem?_eq_getElem hj] at ht
      cases ht
      rfl
    · have e1 : vget (fs.map some) (j : Int) = ok (some fs[j]) := by
        rw [vget_eq_ok_of_lt (by simpa using hjf)]
        simp
      have e2 : vget (times.map fun t : Int => (fin (t : K) : Fl K)) (j : Int) = ok (fin (times[j] : K)) := by
        rw [vget_eq_ok_of_lt (by simpa using hj)]
        simp
      unfold forecastLine
      rw [e1, ok_bind]
      simp only
      rw [e2, ok_bind, truncInt_int, ok_bind, h3, ok_bind, List.flatMap_map]
  choose l vs a1 a2 a3 a4 using hj
  have hm : mapM (forecastLine display (times.map fun t : Int => fin (t : K)) n (fs.map some)) (List.range times.length) =
      ok ((List.range times.length).map fun j => if h : j < times.length then l j h ++ ['\n'] else []) :=
    mapM_ok fun j hj => by rw [dif_pos (List.mem_range.mp hj)]; exact a4 j (List.mem_range.mp hj)
  refine ⟨(List.range times.length).map fun j => if h : j < times.length then l j h else [], ?_, by simp, ?_⟩
  · unfold writeForecast
    simp only [List.length_map]
    rw [hm, ok_bind, List.flatMap_map, List.flatMap_map]
    congr 1
    refine List.flatMap_congr fun j hj => ?_
    rw [dif_pos (List.mem_range.mp hj), dif_pos (List.mem_range.mp hj)]
    rfl
  · intro j t f ht hf'
    have hjl := (List.getElem?_eq_some_iff.mp ht).1
    refine ⟨vs j hjl, a1 j hjl, a2 j hjl f hf', ?_⟩
    rw [List.getElem?_map, List.getElem?_range hjl]
    simp only [Option.map_some, dif_pos hjl]
    rw [a3 j hjl t ht]

/-- Numbers are written as numerals, with at most `L` characters; `shown` is the number that is written. -/
def Shows (display : Fl K → Str) (shown : K → K) (L : Nat) : Prop := ∀ q, Numeral (display (fin q)) (shown q) ∧ (display (fin q)).length ≤ L

theorem flatMap_length {L : Nat} (ws : List Str) (h : ∀ w ∈ ws, w.length ≤ L) : (ws.flatMap fun x => ' ' :: x).length ≤ ws.length * (L + 1) := by
  induction ws with
  | nil => simp
  | cons w ws ih =>
    have h1 := h w (by simp)
    have h2 := ih fun x hx => h x (by simp [hx])
    simp only [List.flatMap_cons, List.length_append, List.length_cons]
    rw [Nat.succ_mul]
    omega

theorem showInt_length {t : Int} (h1 : -2147483648 < t) (h2 : t ≤ 2147483647) : (showInt t).length ≤ 11 := by
  unfold showInt
  split_ifs with h
  · have := (showTime_spec t.natAbs).2.2.2 (by omega)
    simp only [List.length_cons]
    omega
  · have := (showTime_spec t.toNat).2.2.2 (by omega)
    omega

theorem showInt_head (t : Int) (s : Str) : (showInt t ++ s).head? ≠ some '#' := by
  intro h
  obtain ⟨⟨sg, ds, g, h3, h4, h5, h6, -⟩, -⟩ := showInt_spec t
  rw [h6] at h
  cases h3 with
  | none =>
    cases ds with
    | nil => exact h4 rfl
    | cons c ds =>
      simp only [List.nil_append, List.cons_append, List.head?_cons, Option.some.injEq] at h
      have := h5 c (by simp)
      rw [h] at this
      simp [Digit] at this
  | plus => simp at h
  | minus => simp at h

/-- The members of the first grid point as numbers. -/
def FirstMembers (f : FieldC K) (qs : List K) : Prop := ∀ e < qs.length, ∃ q, qs[e]? = some q ∧ f.get 0 0 e = ok (fin q)

theorem members_unique {f : FieldC K} {qs : List K} {vs : List (Fl K)} (hq : FirstMembers f qs) (hlen : vs.length = qs.length)
    (hv : ∀ e < qs.length, ∃ v, vs[e]? = some v ∧ f.get 0 0 e = ok v) : vs = qs.map fin := by
  apply List.ext_getElem?
  intro e
  by_cases he : e < qs.length
  · obtain ⟨v, h1, h2⟩ := hv e he
    obtain ⟨q, h3, h4⟩ := hq e he
    rw [h2] at h4
    cases h4
    rw [h1, List.getElem?_map, h3]
    rfl
  · rw [List.getElem?_eq_none (by omega), List.getElem?_eq_none (by simp; omega)]

/-- **C142**: what is written for a variable whose fields have a first grid point: a line for each time, with the time and the members of the
first grid point, each of them as it is shown. Missing from the full claim: the place, the other grid points and the other variables. -/
theorem c142_write_partial {display : Fl K → Str} {shown : K → K} {L : Nat} (hs : Shows display shown L) {times : List Int} {n Y X : Nat}
    {fs : List (FieldC K)} (rest : List (List (Option (FieldC K)))) (hY : 0 < Y) (hX : 0 < X) (hlen : times.length ≤ fs.length)
    (hf : ∀ f ∈ fs, Sized Y X n f) (ms : List (List K)) (hms : List.Forall₂ (fun f qs => qs.length = n ∧ FirstMembers f qs) fs ms)
    (hsmall : ∀ t ∈ times, -2147483648 < t ∧ t ≤ 2147483647) (hL : n * (L + 1) ≤ 9988) :
    ∃ content lines, writeForecast display (times.map fun t : Int => fin (t : K)) n (fs.map some :: rest) = ok content ∧
      TextOf content lines ∧ plainLines lines = lines ∧ lines.length = times.length ∧
      ∀ (j : Nat) t qs, times[j]? = some t → ms[j]? = some qs → ∃ l wt ws, lines[j]? = some l ∧ WordLine l (wt :: ws) ∧ IntNumeral wt t ∧
        List.Forall₂ (fun w q => Numeral w (shown q)) ws qs := by
  obtain ⟨lines, h1, h2, h3⟩ := writeForecast_lines display rest hY hX hlen hf
  have hline : ∀ (j : Nat) t qs, times[j]? = some t → ms[j]? = some qs →
      lines[j]? = some (showInt t ++ ((qs.map fun q => display (fin q)).flatMap fun x => ' ' :: x)) ∧ qs.length = n := by
    intro j t qs ht hq
    have hjq := (List.getElem?_eq_some_iff.mp hq).1
    have hjf : j < fs.length := by rw [hms.length_eq]; exact hjq
    obtain ⟨k1, k2⟩ := (List.forall₂_iff_get.mp hms).2 j hjf hjq
    have e : ms.get ⟨j, hjq⟩ = qs := (List.getElem?_eq_some_iff.mp hq).2
    rw [e] at k1 k2
    obtain ⟨vs, g1, g2, g3⟩ := h3 j t fs[j] ht (List.getElem?_eq_getElem hjf)
    have := members_unique (f := fs[j]) k2 (by rw [g1, k1]) (by rw [k1]; exact g2)
    rw [this, List.map_map] at g3
    exact ⟨g3, k1⟩
  have hwords : ∀ (t : Int) (qs : List K), WordLine (showInt t ++ ((qs.map fun q => display (fin q)).flatMap fun x => ' ' :: x))
      (showInt t :: qs.map fun q => display (fin q)) := by
    intro t qs
    have := wordLine_of [] (showInt t) (qs.map fun q => display (fin q)) (by simp) (by
      intro x hx
      rcases List.mem_cons.mp hx with rfl | hx
      · exact (showInt_spec t).2
      · obtain ⟨q, -, rfl⟩ := List.mem_map.mp hx
        exact numeral_word (hs q).1)
    simpa using this
  have hall : ∀ l ∈ lines, ∃ t ∈ times, ∃ qs : List K, qs.length = n ∧ l = showInt t ++ ((qs.map fun q => display (fin q)).flatMap fun x => ' ' :: x) := by
    intro l hl
    obtain ⟨j, hj⟩ := List.mem_iff_getElem?.mp hl
    have hjl : j < times.length := by rw [← h2]; exact (List.getElem?_eq_some_iff.mp hj).1
    have hjm : j < ms.length := by rw [← hms.length_eq]; omega
    obtain ⟨k1, k2⟩ := hline j times[j] ms[j] (List.getElem?_eq_getElem hjl) (List.getElem?_eq_getElem hjm)
    rw [hj] at k1
    exact ⟨_, List.getElem_mem hjl, _, k2, Option.some.inj k1⟩
  have hwhite : ∀ w : Str, (∀ c ∈ w, ¬ White c) → '\n' ∉ w := fun w h hc => h _ hc (by simp [White])
  refine ⟨_, lines, h1, ⟨fun l hl => ?_, [], .inl (by simp), by simp⟩, ?_, h2, fun j t qs ht hq => ?_⟩
  · obtain ⟨t, ht, qs, hq, rfl⟩ := hall l hl
    constructor
    · rw [List.mem_append, not_or]
      refine ⟨hwhite _ (showInt_spec t).2.2, ?_⟩
      simp only [List.mem_flatMap, List.mem_map, not_exists, not_and]
      rintro w ⟨q, -, rfl⟩ hc
      rcases List.mem_cons.mp hc with h | h
      · simp at h
      · exact hwhite _ (numeral_word (hs q).1).2 h
    · have h5 := showInt_length (hsmall t ht).1 (hsmall t ht).2
      have h6 := flatMap_length (L := L) (qs.map fun q => display (fin q)) (by
        intro w hw
        obtain ⟨q, -, rfl⟩ := List.mem_map.mp hw
        exact (hs q).2)
      rw [List.length_map, hq] at h6
      rw [List.length_append]
      omega
  · unfold plainLines
    rw [List.filter_eq_self]
    intro l hl
    obtain ⟨t, ht, qs, hq, rfl⟩ := hall l hl
    exact decide_eq_true (showInt_head t _)
  · refine ⟨_, _, _, (hline j t qs ht hq).1, hwords t qs, (showInt_spec t).1, ?_⟩
    rw [List.forall₂_map_left_iff]
    exact List.forall₂_same.mpr fun q _ => (hs q).1

/-- **C142**: nothing is written if there is no variable. -/
theorem c142_none (display : Fl K → Str) (times : List (Fl K)) (n : Nat) : writeForecast display times n [] = ok [] := rfl

/-- **C142** is false: a text with less than three members cannot be read again. -/
theorem c142_read_false {display : Fl K → Str} {shown : K → K} {L : Nat} (hs : Shows display shown L) {times : List Int} {n Y X : Nat}
    {fs : List (FieldC K)} (rest : List (List (Option (FieldC K)))) (hY : 0 < Y) (hX : 0 < X) (hlen : times.length ≤ fs.length)
    (hf : ∀ f ∈ fs, Sized Y X n f) (ms : List (List K)) (hms : List.Forall₂ (fun f qs => qs.length = n ∧ FirstMembers f qs) fs ms)
    (hsmall : ∀ t ∈ times, -2147483648 < t ∧ t ≤ 2147483647) (hL : n * (L + 1) ≤ 9988) (hn : n < 3) (h0 : times ≠ []) (tag next : Nat) :
    ∃ content, writeForecast display (times.map fun t : Int => fin (t : K)) n (fs.map some :: rest) = ok content ∧
      (readForecast tag next content : Res (TextForecast K)) = .abort := by
  obtain ⟨content, lines, h1, h2, h3, h4, h5⟩ := c142_write_partial hs rest hY hX hlen hf ms hms hsmall hL
  refine ⟨content, h1, ?_⟩
  cases times with
  | nil => exact absurd rfl h0
  | cons t times =>
    cases ms with
    | nil => cases hms; simp at hlen
    | cons qs ms =>
      obtain ⟨l, wt, ws, g1, g2, g3, g4⟩ := h5 0 t qs rfl rfl
      cases hms with
      | cons hm _ =>
        cases lines with
        | nil => simp at g1
        | cons x lines =>
          simp only [List.getElem?_cons_zero, Option.some.injEq] at g1
          subst g1
          have hl : x ∈ plainLines (x :: lines) := by rw [h3]; simp
          rw [readForecast_fold tag next h2, h3, foldM_cons, reportLine, if_neg (mem_plain hl)]
          have key : (readReport x : Res (TextRow K)) = .abort := by
            have none_nil : scanFloat (K := K) (skipSpace []) = none := rfl
            obtain ⟨ht1, ht2⟩ := hsmall t (by simp)
            obtain ⟨r1, e1, k1, -⟩ := scan_int g2 g3 ht1.le ht2
            unfold readReport
            rw [e1]
            simp only
            cases g4 with
            | nil => rw [k1.nil, none_nil]; rfl
            | cons n1 g4 =>
              obtain ⟨r2, e2, k2, -⟩ := scan_float k1.line n1
              rw [e2]
              simp only
              cases g4 with
              | nil => rw [k2.nil, none_nil]; rfl
              | cons n2 g4 =>
                obtain ⟨r3, e3, k3, -⟩ := scan_float k2.line n2
                rw [e3]
                simp only
                cases g4 with
                | nil => rw [k3.nil, none_nil]; rfl
                | cons n3 g4 =>
                  have := hm.1
                  simp only [List.length_cons] at this
                  omega
          rw [key]
          rfl

/-- **C142** is false: with three members or more the first three of them are read as latitude, longitude and elevation. -/
theorem c142_place_false {display : Fl K → Str} {shown : K → K} {L : Nat} (hs : Shows display shown L) {times : List Int} {n Y X : Nat}
    {fs : List (FieldC K)} (rest : List (List (Option (FieldC K)))) (hY : 0 < Y) (hX : 0 < X) (hlen : times.length ≤ fs.length)
    (hf : ∀ f ∈ fs, Sized Y X n f) (ms : List (List K)) (hms : List.Forall₂ (fun f qs => qs.length = n ∧ FirstMembers f qs) fs ms)
    (hsmall : ∀ t ∈ times, -2147483648 < t ∧ t ≤ 2147483647) (hL : n * (L + 1) ≤ 9988) :
    ∃ content lines, writeForecast display (times.map fun t : Int => fin (t : K)) n (fs.map some :: rest) = ok content ∧
      TextOf content lines ∧ plainLines lines = lines ∧ lines.length = times.length ∧
      ∀ (j : Nat) t a b h qs, times[j]? = some t → ms[j]? = some (a :: b :: h :: qs) → ∃ l, lines[j]? = some l ∧
        ReportIn l ⟨t, shown a, shown b, shown h, qs.map fun q => fin (shown q)⟩ := by
  obtain ⟨content, lines, h1, h2, h3, h4, h5⟩ := c142_write_partial hs rest hY hX hlen hf ms hms hsmall hL
  refine ⟨content, lines, h1, h2, h3, h4, fun j t a b h qs ht hq => ?_⟩
  obtain ⟨l, wt, ws, g1, g2, g3, g4⟩ := h5 j t _ ht hq
  cases g4 with
  | cons n1 g4 =>
    cases g4 with
    | cons n2 g4 =>
      cases g4 with
      | cons n3 g4 =>
        obtain ⟨k1, k2⟩ := hsmall t (List.mem_of_getElem? ht)
        refine ⟨l, g1, wt, _, _, _, _, g2, g3, k1.le, k2, n1, n2, n3, ?_⟩
        rw [List.forall₂_map_right_iff]
        exact g4.imp fun w q hw => ⟨_, hw, rfl⟩

/-- **C142** is false: the text does not depend on anything but the members of the first grid point of the first variable. -/
theorem c142_rest_false (display : Fl K → Str) (times : List (Fl K)) (n : Nat) {fs gs : List (FieldC K)} (r r' : List (List (Option (FieldC K))))
    (h : List.Forall₂ (fun f g : FieldC K => ∀ e < n, f.get 0 0 e = g.get 0 0 e) fs gs) :
    writeForecast display times n (fs.map some :: r) = writeForecast display times n (gs.map some :: r') := by
  unfold writeForecast
  simp only
  congr 1
  refine mapM_congr fun i _ => ?_
  by_cases hi : i < fs.length
  · have hg : i < gs.length := by rw [← h.length_eq]; exact hi
    have e1 : vget (fs.map some) (i : Int) = ok (some fs[i]) := by
      rw [vget_eq_ok_of_lt (by simpa using hi)]
      simp
    have e2 : vget (gs.map some) (i : Int) = ok (some gs[i]) := by
      rw [vget_eq_ok_of_lt (by simpa using hg)]
      simp
    have e3 : showMembers display n fs[i] = showMembers display n gs[i] := by
      unfold showMembers
      congr 1
      exact mapM_congr fun e he => (List.forall₂_iff_get.mp h).2 i hi hg e (List.mem_range.mp he)
    unfold forecastLine
    rw [e1, e2, ok_bind, ok_bind]
    simp only [e3]
  · unfold forecastLine
    have e1 : vget (fs.map some) (i : Int) = ub := vget_ub_of_le (by simpa using hi)
    have e2 : vget (gs.map some) (i : Int) = ub := vget_ub_of_le (by rw [List.length_map, ← h.length_eq]; omega)
    rw [e1, e2]

/-! ### Examples -/

/-- Whole numbers, written without decimals. -/
def showWhole (v : Fl ℚ) : Str :=
  match v with
  | fin q => showInt q.floor
  | _ => "nan".toList

/-- Three members for two times; what is written, and what is read from it. -/
example : writeForecast showWhole [fin 0, fin (7 / 2)] 3
      [[some ⟨[fin 1, fin 2, fin (-3), fin 9, fin 9, fin 9], 2, 1, 3⟩, some ⟨[fin 14, fin 5, fin (-999), fin 9, fin 9, fin 9], 2, 1, 3⟩], []] =
      ok "0 1 2 -3\n3 14 5 -999\n".toList ∧
    (do let f : TextForecast ℚ ← readForecast 0 1 "0 1 2 -3\n3 14 5 -999\n".toList; ok (f.times, f.grid.lats, f.nEns)) =
      ok ([0, 3], [[fin 1], [fin 14]], 0) := by decide +kernel

/-- The hypotheses of the theorems hold for the first of these fields. -/
example : Sized 2 1 3 (⟨[fin 1, fin 2, fin (-3), fin 9, fin 9, fin 9], 2, 1, 3⟩ : FieldC ℚ) ∧
    FirstMembers (⟨[fin 1, fin 2, fin (-3), fin 9, fin 9, fin 9], 2, 1, 3⟩ : FieldC ℚ) [1, 2, -3] ∧
    ∀ z : Int, Numeral (showWhole (fin (z : ℚ))) (z : ℚ) := by
  refine ⟨⟨rfl, rfl, rfl, rfl⟩, ?_, fun z => ?_⟩
  · intro e he
    simp only [List.length_cons, List.length_nil] at he
    match e, he with
    | 0, _ => exact ⟨1, rfl, rfl⟩
    | 1, _ => exact ⟨2, rfl, rfl⟩
    | 2, _ => exact ⟨-3, rfl, rfl⟩
  · have e : showWhole (fin (z : ℚ)) = showInt z := by simp [showWhole, Rat.floor_intCast]
    rw [e]
    obtain ⟨⟨sg, ds, g, h1, h2, h3, h4, h5⟩, -⟩ := showInt_spec z
    refine ⟨sg, ds, [], [], [], g, 0, h1, h3, .none, .none, by simp [h2], by simp [h4], ?_⟩
    rw [h5, show decimal [] = 0 from by decide]
    push_cast
    simp

end Gridpp.Props
