import Verif.Lemmas.Client.Options

/-! # C102: splitting a text into words; C103: options of the client -/

namespace Gridpp.Props
open Res Spec Client

/-! ### C102 -/

/-- **C102**. `Util::split` returns for every text and every set of delimiters the words of the text, that is the longest
stretches without a delimiter in their order; it never loops for ever or reads outside of the text. -/
theorem c102_split (s delims : Str) : ∃ ws, split s delims = ok ws ∧ Words (fun c => delims.contains c) s ws ∧
    ∀ ws', Words (fun c => delims.contains c) s ws' → ws' = ws := by
  obtain ⟨ws, h, hw⟩ := splitLoop_words s delims (s.length + 1) 0 (by omega) (by omega)
  rw [List.drop_zero] at hw
  exact ⟨ws, h, hw, fun ws' h' => words_unique h' hw⟩

/-- **C102** (no character is lost). The words put together are the text without its delimiters, and no word is empty. -/
theorem c102_content (s delims : Str) : ∃ ws, split s delims = ok ws ∧ ws.flatten = s.filter (fun c => !delims.contains c) ∧
    ∀ w ∈ ws, w ≠ [] ∧ ∀ c ∈ w, c ∉ delims := by
  obtain ⟨ws, h, hw, hu⟩ := c102_split s delims
  refine ⟨ws, h, words_flatten hw, ?_⟩
  clear h hu
  induction hw with
  | nil => simp
  | skip _ _ ih => exact ih
  | word h1 h2 _ _ ih =>
    intro w hw
    rcases List.mem_cons.1 hw with rfl | hw
    · exact ⟨h1, fun c hc => by simpa using h2 c hc⟩
    · exact ih w hw

example : split "  a=1   b  ".toList [' '] = ok ["a=1".toList, "b".toList] := by decide +kernel

/-! ### C103 -/

/-- **C103** (adding). After adding a key with a value the object is again a map from keys to values; the key has the new value
and every other key has its value of before. An empty key or an empty value is ignored. -/
theorem c103_add {o : Options} {k v : Str} (ho : OptionMap o.pairs) :
    OptionMap (addOption o k v).pairs ∧ (k ≠ [] → v ≠ [] → ∀ q, q ∈ (addOption o k v).pairs ↔ q = (k, v) ∨ q.1 ≠ k ∧ q ∈ o.pairs) ∧
      (k = [] ∨ v = [] → addOption o k v = o) :=
  ⟨addOption_map k v ho, fun hk hv => (addOption_spec ho hk hv).2.2, addOption_ignored⟩

/-- The value `v` is the last one given to the key `k` in a list of entries. -/
def LastEntry (kvs : List (Str × Str)) (q : Str × Str) : Prop :=
  ∃ pre post, kvs = pre ++ q :: post ∧ q.1 ≠ [] ∧ q.2 ≠ [] ∧ ∀ r ∈ post, r.2 ≠ [] → r.1 ≠ q.1

/-- **C103** (parsing). The constructor accepts every text. It has one entry per word of the text, `key=value` or only `key` for
the value 1, and each key has the last value given to it. -/
theorem c103_parse (s : Str) : ∃ o ws kvs, newOptions s = ok o ∧ Words (fun c => [' '].contains c) s ws ∧
    List.Forall₂ (fun w kv => OneOption w kv.1 kv.2) ws kvs ∧ OptionMap o.pairs ∧ o.accessed = [] ∧
    ∀ q, q ∈ o.pairs ↔ LastEntry kvs q := by
  obtain ⟨ws, h, hw, hu⟩ := c102_split s [' ']
  have hx : ∃ kvs : List (Str × Str), List.Forall₂ (fun w kv => OneOption w kv.1 kv.2) ws kvs := by
    clear h hw hu
    induction ws with
    | nil => exact ⟨[], .nil⟩
    | cons w ws ih =>
      obtain ⟨kvs, hk⟩ := ih
      obtain ⟨k, v, h⟩ := oneOption_exists w
      exact ⟨(k, v) :: kvs, .cons h hk⟩
  obtain ⟨kvs, hk⟩ := hx
  have he : OptionMap Options.empty.pairs := ⟨by simp [Options.empty], by simp [Options.empty]⟩
  obtain ⟨h1, h2, h3⟩ := foldOptions_spec kvs he
  refine ⟨_, ws, kvs, ?_, hw, hk, h1, h2, fun q => ?_⟩
  · unfold newOptions addOptions
    rw [h, ok_bind, foldl_strings hk]
  · rw [h3]
    simp only [Options.empty, List.not_mem_nil, false_and, or_false, LastEntry]

/-- **C103** (reading). `getValue` finds exactly the keys of the object. It gives the first word of the value, which is the value
if that has no white space, and marks the key as read; a key that is not there leaves the variable and the object as they are. -/
theorem c103_get {o : Options} (ho : OptionMap o.pairs) (k old : Str) :
    (∀ v, (k, v) ∈ o.pairs → ∃ x, getValue o k old = (⟨o.pairs, k :: o.accessed⟩, true, x) ∧ hasValue o k = true ∧
        getRequiredValue o k old = ok (⟨o.pairs, k :: o.accessed⟩, x) ∧
        (∀ space : Char → Bool, (∀ c, space c = true ↔ White c) → ∀ w ws, Words space v (w :: ws) → x = w) ∧ ((∀ c ∈ v, ¬ White c) → x = v)) ∧
      ((∀ v, (k, v) ∉ o.pairs) → getValue o k old = (o, false, old) ∧ hasValue o k = false ∧ getRequiredValue o k old = .abort) := by
  constructor
  · intro v hv
    have hg : getValue o k old = (⟨o.pairs, k :: o.accessed⟩, true, readWord v old) := by
      unfold getValue
      rw [find?_pair ho.keys hv]
    refine ⟨_, hg, ?_, ?_, fun space hs w ws h => ?_, fun h => readWord_plain old (ho.filled _ hv).2 h⟩
    · unfold hasValue
      rw [List.any_eq_true]
      exact ⟨_, hv, by simp⟩
    · unfold getRequiredValue
      rw [hg]
      rfl
    · have : space = isSpace := funext fun c => by
        rw [Bool.eq_iff_iff, hs, isSpace_iff]
      rw [this] at h
      exact readWord_first old h
  · intro h
    have hg : getValue o k old = (o, false, old) := by
      unfold getValue
      rw [find?_pair_none h]
    refine ⟨hg, ?_, ?_⟩
    · unfold hasValue
      rw [List.any_eq_false]
      intro q hq
      simp only [decide_eq_true_eq]
      rintro rfl
      exact h q.2 hq
    · unfold getRequiredValue
      rw [hg]
      rfl

/-- **C103** (lists). `getValues` gives the parts of the value between the commas, each without white space around it; a comma at
the end starts no further part. -/
theorem c103_values {o : Options} (ho : OptionMap o.pairs) {k : Str} {parts : List Str} {last : Str} (hp : ∀ p ∈ parts, ',' ∉ p)
    (hl : ',' ∉ last) (hw : ∀ p ∈ parts ++ [last], ∀ c ∈ p, ¬ White c)
    (h : (k, parts.flatMap (· ++ [',']) ++ last) ∈ o.pairs) :
    getValues o k = (⟨o.pairs, k :: o.accessed⟩, true, parts ++ if last = [] then [] else [last]) := by
  unfold getValues
  rw [find?_pair ho.keys h]
  simp only [commaParts_spec hp hl]
  congr 2
  have : ∀ l : List Str, (∀ p ∈ l, ∀ c ∈ p, ¬ White c) → l.map (fun w => readWord w []) = l := by
    intro l hl
    refine (List.map_congr_left (g := id) fun p hp => ?_).trans (List.map_id l)
    by_cases h0 : p = []
    · rw [h0]; rfl
    · exact readWord_plain [] h0 (hl p hp)
  apply this
  intro p hp
  apply hw
  rw [List.mem_append] at hp ⊢
  rcases hp with hp | hp
  · exact Or.inl hp
  · split_ifs at hp
    · simp at hp
    · exact Or.inr hp

theorem c103_values_none {o : Options} {k : Str} (h : ∀ v, (k, v) ∉ o.pairs) : getValues o k = (o, false, []) := by
  unfold getValues
  rw [find?_pair_none h]

/-- **C103** (text), partial: only if no key or value has a space in it and no key has a `=` in it. The text of an object makes an
object with the same pairs. -/
theorem c103_text_partial {o : Options} (ho : OptionMap o.pairs) (hs : ∀ p ∈ o.pairs, ' ' ∉ p.1 ∧ ' ' ∉ p.2) (he : ∀ p ∈ o.pairs, '=' ∉ p.1) :
    newOptions (optionsToString o) = ok ⟨o.pairs, []⟩ := by
  obtain ⟨ws, h, _, hu⟩ := c102_split (optionsToString o) [' ']
  have hw := hu _ (words_toString hs)
  unfold newOptions addOptions
  rw [h, ok_bind, ← hw]
  have hk : List.Forall₂ (fun (w : Str) (kv : Str × Str) => OneOption w kv.1 kv.2) (o.pairs.map fun p => p.1 ++ '=' :: p.2) o.pairs := by
    rw [List.forall₂_map_left_iff, List.forall₂_same]
    exact fun p hp => .value (he p hp)
  rw [foldl_strings hk, foldOptions_fresh]
  · rfl
  · exact ho

/-- **C103** (comparison), partial: only if no value has white space in it. Two objects are equal if and only if they have the
same pairs, in any order. -/
theorem c103_equal_partial {a b : Options} (ha : OptionMap a.pairs) (hb : OptionMap b.pairs) (hwa : ∀ q ∈ a.pairs, ∀ c ∈ q.2, ¬ White c)
    (hwb : ∀ q ∈ b.pairs, ∀ c ∈ q.2, ¬ White c) : (sameOptions a b).1 = true ↔ ∀ q, q ∈ a.pairs ↔ q ∈ b.pairs := by
  unfold sameOptions
  obtain ⟨h1, _⟩ := sameLoop_spec (ps := a.pairs) hb hwb
  obtain ⟨h2, _⟩ := sameLoop_spec (ps := b.pairs) ha hwa
  by_cases h : (sameLoop a.pairs b).1 = true
  · simp only [h, if_true]
    rw [h2]
    exact ⟨fun hh q => ⟨h1.1 h q, hh q⟩, fun hh q => (hh q).2⟩
  · simp only [h, if_false, Bool.false_eq_true, false_iff]
    exact fun hh => h (h1.2 fun q => (hh q).1)

/-- **C103** (unused keys). `check` holds if and only if every key has been read. -/
theorem c103_check (o : Options) : checkOptions o = true ↔ ∀ p ∈ o.pairs, p.1 ∈ o.accessed := by
  unfold checkOptions
  simp only [decide_eq_true_eq, List.length_eq_zero_iff, List.filter_eq_nil_iff, Bool.not_eq_true', Bool.not_eq_false, List.contains_iff_mem]

/-- Two options, one of them with a space in its value, as `addOption("k", "a b")` makes it. -/
def spacedOptions : Options := ⟨[("k".toList, "a b".toList), ("n".toList, "1".toList)], []⟩

theorem spacedOptions_map : OptionMap spacedOptions.pairs := ⟨by decide, by decide⟩

/-- C103 is false in general: the text of an object does not make the same object ("Can be used to reconstruct the object by
passing into the constructor", src/client/Options.h:41). -/
theorem c103_text_false : ∃ o : Options, OptionMap o.pairs ∧ ∃ o', newOptions (optionsToString o) = ok o' ∧ o'.pairs ≠ o.pairs :=
  ⟨spacedOptions, spacedOptions_map, ⟨[("k".toList, "a".toList), ("b".toList, "1".toList), ("n".toList, "1".toList)], []⟩, by decide +kernel, by decide⟩

/-- C103 is false in general: an object is not equal to itself. -/
theorem c103_equal_false : ∃ o : Options, OptionMap o.pairs ∧ (sameOptions o o).1 = false :=
  ⟨spacedOptions, spacedOptions_map, by decide +kernel⟩

/-- A comparison marks the keys as read: afterwards `check` does not see any more that nothing has used them. -/
theorem c103_check_false : ∃ a b : Options, OptionMap a.pairs ∧ checkOptions a = false ∧ checkOptions (sameOptions a b).2.1 = true ∧
    (sameOptions a b).1 = true :=
  ⟨⟨[("n".toList, "1".toList)], []⟩, ⟨[("n".toList, "1".toList)], []⟩, ⟨by decide, by decide⟩, by decide +kernel, by decide +kernel, by decide +kernel⟩

/-! Cases that meet the hypotheses. -/

example : newOptions "a=1 b a=2,3 c=".toList = ok ⟨[("a".toList, "2,3".toList), ("b".toList, "1".toList)], []⟩ := by decide +kernel
example : (getValues ⟨[("a".toList, "2,3".toList)], []⟩ "a".toList).2 = (true, ["2".toList, "3".toList]) := by decide +kernel
example : getValue spacedOptions "k".toList [] = (⟨spacedOptions.pairs, ["k".toList]⟩, true, "a".toList) := by decide +kernel
example : OptionMap [("a".toList, "2,3".toList), ("b".toList, "1".toList)] := ⟨by decide, by decide⟩
example : (sameOptions ⟨[("a".toList, "2,3".toList), ("b".toList, "1".toList)], []⟩ ⟨[("b".toList, "1".toList), ("a".toList, "2,3".toList)], []⟩).1 = true := by
  decide +kernel

end Gridpp.Props
