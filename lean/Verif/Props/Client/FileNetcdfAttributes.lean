import Verif.Model.Client.FileNetcdfAttributes
import Verif.Spec.Attributes
import Mathlib.Data.List.Induction

/-! # C154: global attributes of a NetCDF file -/

namespace Gridpp.Props
open Res Client Spec

theorem att_get_put (a : Atts) (n m v : Str) : (a.put n v).get m = if m = n then some v else a.get m := by
  unfold Atts.put
  split_ifs with hany hm hm
  · subst hm
    unfold Atts.get
    induction a with
    | nil => simp at hany
    | cons p t ih =>
      by_cases hp : p.1 = m
      · simp [hp]
      · rw [List.map_cons, if_neg hp, List.find?_cons_of_neg (by simpa using hp)]
        exact ih (by simpa [hp] using hany)
  · unfold Atts.get
    induction a with
    | nil => rfl
    | cons p t ih =>
      have ih' : ((t.map fun p : Str × Str => if p.1 = n then (n, v) else p).find? fun p => decide (p.1 = m)).map Prod.snd =
          (t.find? fun p => decide (p.1 = m)).map Prod.snd := by
        clear ih hany
        induction t with
        | nil => rfl
        | cons q t ih =>
          by_cases hq : q.1 = n
          · rw [List.map_cons, if_pos hq, List.find?_cons_of_neg (by simpa using Ne.symm hm), List.find?_cons_of_neg (by rw [hq]; simpa using Ne.symm hm), ih]
          · rw [List.map_cons, if_neg hq]
            by_cases hq' : q.1 = m
            · rw [List.find?_cons_of_pos (by simpa using hq'), List.find?_cons_of_pos (by simpa using hq')]
            · rw [List.find?_cons_of_neg (by simpa using hq'), List.find?_cons_of_neg (by simpa using hq'), ih]
      by_cases hq : p.1 = n
      · rw [List.map_cons, if_pos hq, List.find?_cons_of_neg (by simpa using Ne.symm hm), List.find?_cons_of_neg (by rw [hq]; simpa using Ne.symm hm), ih']
      · rw [List.map_cons, if_neg hq]
        by_cases hq' : p.1 = m
        · rw [List.find?_cons_of_pos (by simpa using hq'), List.find?_cons_of_pos (by simpa using hq')]
        · rw [List.find?_cons_of_neg (by simpa using hq'), List.find?_cons_of_neg (by simpa using hq'), ih']
  · subst hm
    unfold Atts.get
    have : a.find? (fun p => decide (p.1 = m)) = none := by
      rw [List.find?_eq_none]
      intro p hp hc
      exact hany (List.any_eq_true.mpr ⟨p, hp, hc⟩)
    rw [List.find?_append, this]
    simp
  · unfold Atts.get
    rw [List.find?_append]
    cases a.find? fun p => decide (p.1 = m) with
    | some x => rfl
    | none => simp [Ne.symm hm]

theorem cString_plain {s : Str} (h : PlainText s) : cString s = s := by
  unfold cString
  induction s with
  | nil => rfl
  | cons c t ih =>
    have hc : c ≠ Char.ofNat 0 := fun hc => h (by rw [hc]; exact List.mem_cons_self)
    rw [List.takeWhile_cons_of_pos (by simpa using hc), ih (fun hm => h (List.mem_cons_of_mem _ hm))]

/-- C154: a text is put before, or after, what is there, with a line break between them. -/
theorem c154_prepend {a : Atts} {n v old : Str} (h : a.get n = some old) (hp : PlainText old) (hl : old.length ≤ 100000000) :
    (prependGlobalAttribute a n v).get n = some (v ++ '\n' :: old) ∧ (appendGlobalAttribute a n v).get n = some (old ++ '\n' :: v) := by
  have hl' : ¬ maxAttributeLength < old.length := by unfold maxAttributeLength; omega
  unfold prependGlobalAttribute appendGlobalAttribute
  rw [h]
  simp only
  rw [if_neg hl', if_neg hl', cString_plain hp, att_get_put, att_get_put, if_pos rfl, if_pos rfl]
  exact ⟨rfl, rfl⟩

/-- C154: a text that is new, and one in place of a text that is too long. -/
theorem c154_new {a : Atts} {n v : Str} (h : ∀ old, a.get n = some old → 100000000 < old.length) :
    (prependGlobalAttribute a n v).get n = some v ∧ (appendGlobalAttribute a n v).get n = some v := by
  unfold prependGlobalAttribute appendGlobalAttribute
  cases ho : a.get n with
  | none =>
    simp only
    rw [att_get_put, if_pos rfl]
    exact ⟨rfl, rfl⟩
  | some old =>
    have hl : maxAttributeLength < old.length := h old ho
    simp only
    rw [if_pos hl, if_pos hl, att_get_put, if_pos rfl]
    exact ⟨rfl, rfl⟩

/-- C154: other attributes are as before. -/
theorem c154_others {a : Atts} {n m v : Str} (h : m ≠ n) : (prependGlobalAttribute a n v).get m = a.get m ∧ (appendGlobalAttribute a n v).get m = a.get m := by
  unfold prependGlobalAttribute appendGlobalAttribute
  cases a.get n with
  | none => simp only; rw [att_get_put, if_neg h]; exact ⟨rfl, rfl⟩
  | some old => simp only; rw [att_get_put, att_get_put, if_neg h, if_neg h]; exact ⟨rfl, rfl⟩

theorem conventions_get (a : Atts) (m : Str) (h : m ≠ "Conventions".toList) :
    Atts.get (if getGlobalAttribute a "Conventions".toList ≠ [] then a.put "Conventions".toList "CF-1.0".toList else a) m = a.get m := by
  split_ifs
  · rw [att_get_put, if_neg h]
  · rfl

/-- One run of the program, for the history. -/
theorem history_step {a : Atts} {old : Option Str} (h : a.get "history".toList = old) (hp : ∀ s, old = some s → PlainText s ∧ s.length ≤ 100000000) (run : Str × Str) :
    (defineGlobalAttributes a run.1 run.2).get "history".toList = some (joinLines (historyLine run :: old.toList)) := by
  have h1 := conventions_get a "history".toList (by decide)
  unfold defineGlobalAttributes
  simp only
  cases ho : old with
  | none =>
    rw [(c154_new (by intro s hs; rw [h1, h, ho] at hs; cases hs)).1]
    rfl
  | some s =>
    obtain ⟨p1, p2⟩ := hp s ho
    rw [(c154_prepend (by rw [h1, h, ho]) p1 p2).1]
    rfl

theorem joinLines_cons (l : Str) {t : List Str} (h : t ≠ []) : joinLines (l :: t) = l ++ '\n' :: joinLines t := by
  cases t with
  | nil => exact absurd rfl h
  | cons m t => rfl

theorem joinLines_plain {t : List Str} (h : ∀ l ∈ t, PlainText l) : PlainText (joinLines t) := by
  induction t with
  | nil => simp [joinLines, PlainText]
  | cons l t ih =>
    by_cases ht : t = []
    · rw [ht]
      exact h l (by simp)
    · rw [joinLines_cons l ht]
      intro hc
      rcases List.mem_append.mp hc with hc | hc
      · exact h l (by simp) hc
      · rcases List.mem_cons.mp hc with hc | hc
        · exact absurd hc (by decide)
        · exact ih (fun m hm => h m (by simp [hm])) hc

/-- C154: after any number of runs of the program the history has a line for each of them, the last one first, and then what it had before. -/
theorem c154_history_partial {a : Atts} {runs : List (Str × Str)} (hne : runs ≠ []) (hold : ∀ s, a.get "history".toList = some s → PlainText s)
    (hruns : ∀ r ∈ runs, PlainText r.1 ∧ PlainText r.2)
    (hlen : (joinLines ((runs.reverse.map historyLine) ++ (a.get "history".toList).toList)).length ≤ 100000000) :
    (runs.foldl (fun a r => defineGlobalAttributes a r.1 r.2) a).get "history".toList =
      some (joinLines ((runs.reverse.map historyLine) ++ (a.get "history".toList).toList)) := by
  induction runs using List.reverseRecOn with
  | nil => exact absurd rfl hne
  | append_singleton runs r ih =>
    rw [List.foldl_append, List.foldl_cons, List.foldl_nil]
    rw [List.reverse_append, List.reverse_singleton, List.singleton_append, List.map_cons, List.cons_append] at hlen ⊢
    by_cases hr : runs = []
    · subst hr
      refine history_step rfl (fun s hs => ⟨hold s hs, ?_⟩) r
      rw [hs] at hlen
      simp only [List.reverse_nil, List.map_nil, List.nil_append, Option.toList_some] at hlen
      rw [joinLines_cons _ (by simp)] at hlen
      simp only [joinLines, List.length_append, List.length_cons] at hlen
      omega
    · have hne' : (runs.reverse.map historyLine) ++ (a.get "history".toList).toList ≠ [] := by simp [hr]
      rw [joinLines_cons _ hne', List.length_append, List.length_cons] at hlen
      have h1 := ih hr (fun x hx => hruns x (by simp [hx])) (by omega)
      rw [history_step h1 (by
        intro s hs
        obtain rfl := Option.some.inj hs
        refine ⟨joinLines_plain ?_, by omega⟩
        intro l hl
        rcases List.mem_append.mp hl with hl | hl
        · obtain ⟨x, hx, rfl⟩ := List.mem_map.mp hl
          obtain ⟨p1, p2⟩ := hruns x (by simp at hx; simp [hx])
          unfold historyLine
          intro hc
          rcases List.mem_append.mp hc with hc | hc
          · rcases List.mem_append.mp hc with hc | hc
            · exact p1 hc
            · exact absurd hc (by decide)
          · exact p2 hc
        · cases ho : a.get "history".toList with
          | none => rw [ho] at hl; simp at hl
          | some s =>
            rw [ho] at hl
            simp only [Option.toList_some, List.mem_singleton] at hl
            rw [hl]
            exact hold s ho) r]
      rw [joinLines_cons _ hne']
      rfl

/-- C154: all other attributes, apart from the conventions, are as before. -/
theorem c154_run_others {a : Atts} (runs : List (Str × Str)) {m : Str} (h1 : m ≠ "history".toList) (h2 : m ≠ "Conventions".toList) :
    (runs.foldl (fun a r => defineGlobalAttributes a r.1 r.2) a).get m = a.get m := by
  induction runs generalizing a with
  | nil => rfl
  | cons r t ih =>
    rw [List.foldl_cons, ih]
    unfold defineGlobalAttributes
    simp only
    rw [(c154_others h1).1, conventions_get a m h2]

/-- C154, conventions that are there become those of the program. -/
theorem c154_conventions {a : Atts} {c : Str} (h : a.get "Conventions".toList = some c) (hp : PlainText c) (hc : c ≠ []) (hl : c.length ≤ 100000000) (stamp message : Str) :
    (defineGlobalAttributes a stamp message).get "Conventions".toList = some "CF-1.0".toList := by
  unfold defineGlobalAttributes
  simp only
  rw [(c154_others (by decide)).1]
  have : getGlobalAttribute a "Conventions".toList = c := by
    unfold getGlobalAttribute
    rw [h]
    simp only
    rw [if_neg (by unfold maxAttributeLength; omega), cString_plain hp]
  rw [this, if_pos hc, att_get_put, if_pos rfl]

/-- C154 is false of the code for a file without conventions: it never gets any. -/
theorem c154_conventions_false {a : Atts} (h : a.get "Conventions".toList = none) (runs : List (Str × Str)) :
    (runs.foldl (fun a r => defineGlobalAttributes a r.1 r.2) a).get "Conventions".toList = none := by
  induction runs generalizing a with
  | nil => exact h
  | cons r t ih =>
    rw [List.foldl_cons]
    apply ih
    unfold defineGlobalAttributes
    simp only
    rw [(c154_others (by decide)).1]
    have : getGlobalAttribute a "Conventions".toList = [] := by
      unfold getGlobalAttribute
      rw [h]
    rw [this, if_neg (by simp), h]

/-- C154 is false of the code for a history with the character 0: the rest is lost. -/
theorem c154_zero_false : (prependGlobalAttribute [("history".toList, ['a', Char.ofNat 0, 'b'])] "history".toList ['c']).get "history".toList =
    some ['c', '\n', 'a'] := by decide

example : (([("t1".toList, "x".toList), ("t2".toList, "y".toList)].foldl (fun a r => defineGlobalAttributes a r.1 r.2)
    [("title".toList, "T".toList), ("history".toList, "old".toList)]).get "history".toList) =
    some "t2: gridpp y\nt1: gridpp x\nold".toList := by decide +kernel

example : (defineGlobalAttributes [("Conventions".toList, "CF-1.6".toList)] "t".toList "m".toList).get "Conventions".toList = some "CF-1.0".toList :=
  c154_conventions (c := "CF-1.6".toList) (by decide) (by unfold PlainText; decide) (by decide) (by decide) _ _

end Gridpp.Props
