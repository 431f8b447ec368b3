import Verif.Model.Client.Options
import Verif.Spec.ClientOptions

/-! # Lemmas about split and the options of the client -/

namespace Gridpp.Client
open Res Spec

theorem words_all {sep : Char → Bool} {t : Str} (h : ∀ c ∈ t, sep c = true) : Words sep t [] := by
  induction t with
  | nil => exact .nil
  | cons c t ih => exact .skip (h c (by simp)) (ih fun x hx => h x (by simp [hx]))

theorem words_skips {sep : Char → Bool} {p t : Str} {ws : List Str} (h : ∀ c ∈ p, sep c = true) (hw : Words sep t ws) :
    Words sep (p ++ t) ws := by
  induction p with
  | nil => exact hw
  | cons c p ih => exact .skip (h c (by simp)) (ih fun x hx => h x (by simp [hx]))

theorem findIdx?_some_split {p : Char → Bool} {l : Str} {n : Nat} (h : l.findIdx? p = some n) :
    n < l.length ∧ (∀ c ∈ l.take n, p c = false) ∧ ∀ c ∈ (l.drop n).head?, p c = true := by
  rw [List.findIdx?_eq_some_iff_getElem] at h
  obtain ⟨hn, hp, hlt⟩ := h
  refine ⟨hn, ?_, ?_⟩
  · intro c hc
    rw [List.mem_iff_getElem] at hc
    obtain ⟨i, hi, rfl⟩ := hc
    rw [List.length_take] at hi
    have := hlt i (by omega)
    simpa using this
  · intro c hc
    rw [List.head?_drop, List.getElem?_eq_getElem hn] at hc
    simp only [Option.mem_def, Option.some.injEq] at hc
    rw [← hc]; exact hp

theorem words_unique {sep : Char → Bool} {s : Str} {ws ws' : List Str} (h : Words sep s ws) (h' : Words sep s ws') : ws = ws' := by
  induction h generalizing ws' with
  | nil =>
    generalize hs : ([] : Str) = s at h'
    cases h' with
    | nil => rfl
    | skip => simp at hs
    | word h1 => simp at hs; exact absurd hs.1 h1
  | @skip c s ws hc _ ih =>
    generalize hs : c :: s = s' at h'
    cases h' with
    | nil => simp at hs
    | skip _ h2 => simp only [List.cons.injEq] at hs; rw [hs.2] at ih; exact ih h2
    | @word w t us h1 h2 =>
      cases w with
      | nil => exact absurd rfl h1
      | cons x w =>
        simp only [List.cons_append, List.cons.injEq] at hs
        rw [← hs.1] at h2
        simp [h2 c (by simp)] at hc
  | @word w s ws hw hn hh _ ih =>
    generalize hs : w ++ s = s' at h'
    cases h' with
    | nil => simp at hs; exact absurd hs.1 hw
    | skip hc =>
      cases w with
      | nil => exact absurd rfl hw
      | cons x w =>
        simp only [List.cons_append, List.cons.injEq] at hs
        rw [← hs.1] at hc
        simp [hn x (by simp)] at hc
    | @word w' s' us h1 h2 h3 h4 =>
      have key : ∀ (a b : Str), (∀ c ∈ a, sep c = false) → (∀ c ∈ b.head?, sep c = true) → (a ++ b).takeWhile (fun c => !sep c) = a := by
        intro a b ha hb
        rw [List.takeWhile_append_of_pos (by intro c hc; simp [ha c hc])]
        cases b with
        | nil => simp
        | cons c b => simp [hb c (by simp)]
      have hww : w = w' := by rw [← key w s hn hh, hs, key w' s' h2 h3]
      subst hww
      rw [List.append_cancel_left_eq] at hs
      subst hs
      rw [ih h4]

theorem splitLoop_words (s d : Str) : ∀ (n p : Nat), p ≤ s.length → s.length - p + 1 ≤ n → ∃ ws,
    splitLoop s d n (findFirstNotOf s d (some p)) (findFirstOf s d (findFirstNotOf s d (some p))) = ok ws ∧
      Words (fun c => d.contains c) (s.drop p) ws := by
  intro n
  induction n with
  | zero => intro p _ h; omega
  | succ n ih =>
    intro p hp hn
    cases hk : (s.drop p).findIdx? (fun c => !d.contains c) with
    | none =>
      rw [List.findIdx?_eq_none_iff] at hk
      refine ⟨[], ?_, words_all fun c hc => by simpa using hk c hc⟩
      have : (s.drop p).findIdx? (fun c => !d.contains c) = none := by rw [List.findIdx?_eq_none_iff]; exact hk
      simp only [findFirstNotOf, this, Option.map_none, findFirstOf, splitLoop, Option.isSome_none, Bool.or_self, Bool.false_eq_true, if_false]
    | some k =>
      obtain ⟨hk1, hk2, hk3⟩ := findIdx?_some_split hk
      rw [List.length_drop] at hk1
      have hnext : findFirstNotOf s d (some p) = some (k + p) := by simp only [findFirstNotOf, hk, Option.map_some]
      rw [hnext]
      have hsplit : s.drop p = (s.drop p).take k ++ s.drop (k + p) := by
        rw [Nat.add_comm k p, ← List.drop_drop, List.take_append_drop]
      have hpre : ∀ c ∈ (s.drop p).take k, d.contains c = true := fun c hc => by simpa using hk2 c hc
      have hhead : ∀ c ∈ (s.drop (k + p)).head?, d.contains c = false := by
        rw [Nat.add_comm k p, ← List.drop_drop]; intro c hc; simpa using hk3 c hc
      have hne : s.drop (k + p) ≠ [] := by
        intro h; rw [List.drop_eq_nil_iff] at h; omega
      cases hm : (s.drop (k + p)).findIdx? (fun c => d.contains c) with
      | none =>
        have hpos : findFirstOf s d (some (k + p)) = none := by simp only [findFirstOf, hm, Option.map_none]
        rw [hpos]
        rw [List.findIdx?_eq_none_iff] at hm
        refine ⟨[s.drop (k + p)], ?_, ?_⟩
        · obtain ⟨n, rfl⟩ : ∃ m, n = m + 1 := ⟨n - 1, by omega⟩
          simp only [splitLoop, Option.isSome_none, Option.isSome_some, Bool.or_true, if_true, substr, findFirstNotOf, findFirstOf, Bool.or_self,
            Bool.false_eq_true, if_false]
          rw [if_neg (by omega)]
          rfl
        · rw [hsplit]
          have := Words.word (sep := fun c => d.contains c) (s := []) hne (fun c hc => by simpa using hm c hc) (by simp) Words.nil
          rw [List.append_nil] at this
          exact words_skips hpre this
      | some m =>
        obtain ⟨hm1, hm2, hm3⟩ := findIdx?_some_split hm
        rw [List.length_drop] at hm1
        have hm0 : 0 < m := by
          rcases Nat.eq_zero_or_pos m with h0 | h0
          · subst h0
            exfalso
            obtain ⟨c, t, hct⟩ := List.exists_cons_of_ne_nil hne
            have h1 := hm3 c (by simp [hct])
            have h2 := hhead c (by simp [hct])
            rw [h1] at h2; simp at h2
          · exact h0
        have hpos : findFirstOf s d (some (k + p)) = some (m + (k + p)) := by simp only [findFirstOf, hm, Option.map_some]
        obtain ⟨ws, hws, hW⟩ := ih (m + (k + p)) (by omega) (by omega)
        rw [hpos]
        refine ⟨(s.drop (k + p)).take m :: ws, ?_, ?_⟩
        · simp only [splitLoop, Option.isSome_some, Bool.or_true, if_true, substr]
          rw [if_neg (by omega), if_neg (by omega)]
          simp only [ok_bind, hws, Nat.add_sub_cancel]
        · rw [hsplit]
          apply words_skips hpre
          have h1 : s.drop (k + p) = (s.drop (k + p)).take m ++ s.drop (m + (k + p)) := by
            rw [Nat.add_comm m (k + p), ← List.drop_drop (i := m), List.take_append_drop]
          have h2 : (∀ c ∈ (s.drop (m + (k + p))).head?, d.contains c = true) := by
            rw [Nat.add_comm m (k + p), ← List.drop_drop (i := m)]; exact hm3
          have h3 := Words.word (w := (s.drop (k + p)).take m) (sep := fun c => d.contains c) (by
            intro h
            have : ((s.drop (k + p)).take m).length = 0 := by rw [h]; rfl
            rw [List.length_take, List.length_drop] at this
            omega) hm2 h2 hW
          rw [← h1] at h3
          exact h3

theorem words_flatten {sep : Char → Bool} {s : Str} {ws : List Str} (h : Words sep s ws) : ws.flatten = s.filter (fun c => !sep c) := by
  induction h with
  | nil => rfl
  | skip hc _ ih => simp [hc, ih]
  | @word w _ _ _ hn _ _ ih =>
    rw [List.flatten_cons, ih, List.filter_append, List.filter_eq_self (l := w) |>.2 (fun c hc => by simp [hn c hc])]

/-! ### Pairs -/

theorem overwrite_none {k v : Str} {ps : List (Str × Str)} : overwrite k v ps = none ↔ k ∉ ps.map Prod.fst := by
  induction ps with
  | nil => simp [overwrite]
  | cons p t ih =>
    unfold overwrite
    by_cases h : p.1 = k
    · simp [h]
    · rw [if_neg h, Option.map_eq_none_iff, ih, List.map_cons, List.mem_cons, not_or]
      exact ⟨fun hh => ⟨fun e => h e.symm, hh⟩, fun hh => hh.2⟩

theorem overwrite_some {k v : Str} {ps qs : List (Str × Str)} (h : overwrite k v ps = some qs) (hn : (ps.map Prod.fst).Nodup) :
    qs.map Prod.fst = ps.map Prod.fst ∧ ∀ q, q ∈ qs ↔ q = (k, v) ∨ q.1 ≠ k ∧ q ∈ ps := by
  induction ps generalizing qs with
  | nil => simp [overwrite] at h
  | cons p t ih =>
    rw [List.map_cons, List.nodup_cons] at hn
    unfold overwrite at h
    by_cases hp : p.1 = k
    · rw [if_pos hp, Option.some.injEq] at h
      subst h
      refine ⟨rfl, fun q => ?_⟩
      rw [List.mem_cons, List.mem_cons, hp]
      constructor
      · rintro (h | h)
        · exact Or.inl h
        · refine Or.inr ⟨fun e => hn.1 ?_, Or.inr h⟩
          rw [hp, ← e]; exact List.mem_map_of_mem h
      · rintro (h | ⟨h1, h | h⟩)
        · exact Or.inl h
        · rw [h] at h1; exact absurd hp h1
        · exact Or.inr h
    · rw [if_neg hp, Option.map_eq_some_iff] at h
      obtain ⟨rs, hr, rfl⟩ := h
      obtain ⟨h1, h2⟩ := ih hr hn.2
      refine ⟨by rw [List.map_cons, List.map_cons, h1], fun q => ?_⟩
      rw [List.mem_cons, List.mem_cons, h2]
      constructor
      · rintro (h | h | ⟨h, h'⟩)
        · subst h; exact Or.inr ⟨hp, Or.inl rfl⟩
        · exact Or.inl h
        · exact Or.inr ⟨h, Or.inr h'⟩
      · rintro (h | ⟨h, h' | h'⟩)
        · exact Or.inr (Or.inl h)
        · exact Or.inl h'
        · exact Or.inr (Or.inr ⟨h, h'⟩)

theorem addOption_ignored {o : Options} {k v : Str} (h : k = [] ∨ v = []) : addOption o k v = o := by
  unfold addOption; rw [if_pos h]

theorem addOption_spec {o : Options} {k v : Str} (ho : OptionMap o.pairs) (hk : k ≠ []) (hv : v ≠ []) :
    OptionMap (addOption o k v).pairs ∧ (addOption o k v).accessed = o.accessed ∧
      ∀ q, q ∈ (addOption o k v).pairs ↔ q = (k, v) ∨ q.1 ≠ k ∧ q ∈ o.pairs := by
  unfold addOption
  rw [if_neg (by simp [hk, hv])]
  cases h : overwrite k v o.pairs with
  | some ps =>
    obtain ⟨h1, h2⟩ := overwrite_some h ho.keys
    refine ⟨⟨by rw [h1]; exact ho.keys, fun p hp => ?_⟩, rfl, h2⟩
    rcases (h2 p).1 hp with rfl | ⟨_, hp⟩
    · exact ⟨hk, hv⟩
    · exact ho.filled p hp
  | none =>
    rw [overwrite_none] at h
    refine ⟨⟨?_, fun p hp => ?_⟩, rfl, fun q => ?_⟩
    · rw [List.map_append, List.nodup_append]
      refine ⟨ho.keys, by simp, ?_⟩
      intro a ha b hb e
      simp only [List.map_cons, List.map_nil, List.mem_singleton] at hb
      rw [e, hb] at ha
      exact h ha
    · rw [List.mem_append, List.mem_singleton] at hp
      rcases hp with hp | rfl
      · exact ho.filled p hp
      · exact ⟨hk, hv⟩
    · rw [List.mem_append, List.mem_singleton]
      constructor
      · rintro (hq | hq)
        · refine Or.inr ⟨fun e => h ?_, hq⟩
          rw [← e]; exact List.mem_map_of_mem hq
        · exact Or.inl hq
      · rintro (hq | ⟨_, hq⟩)
        · exact Or.inr hq
        · exact Or.inl hq

theorem addOption_fresh {o : Options} {k v : Str} (hk : k ≠ []) (hv : v ≠ []) (h : k ∉ o.pairs.map Prod.fst) :
    addOption o k v = { o with pairs := o.pairs ++ [(k, v)] } := by
  unfold addOption
  rw [if_neg (by simp [hk, hv]), overwrite_none.2 h]

theorem addOption_map {o : Options} (k v : Str) (ho : OptionMap o.pairs) : OptionMap (addOption o k v).pairs := by
  by_cases h : k = [] ∨ v = []
  · rw [addOption_ignored h]; exact ho
  · rw [not_or] at h
    exact (addOption_spec ho h.1 h.2).1

theorem findIdx?_eq_none_of {k : Str} (h : '=' ∉ k) : k.findIdx? (· == '=') = none := by
  rw [List.findIdx?_eq_none_iff]
  intro c hc
  simp only [beq_eq_false_iff_ne, ne_eq]
  rintro rfl
  exact h hc

theorem findIdx?_first {k v : Str} (h : '=' ∉ k) : (k ++ '=' :: v).findIdx? (· == '=') = some k.length := by
  rw [List.findIdx?_append, findIdx?_eq_none_of h]
  simp [List.findIdx?_cons]

theorem addOptionString_spec {o : Options} {s k v : Str} (h : OneOption s k v) : addOptionString o s = addOption o k v := by
  unfold addOptionString
  cases h with
  | flag h => rw [findIdx?_eq_none_of h]
  | @value k v h =>
    rw [findIdx?_first h]
    simp

theorem oneOption_exists (s : Str) : ∃ k v, OneOption s k v := by
  induction s with
  | nil => exact ⟨[], ['1'], .flag (by simp)⟩
  | cons c t ih =>
    by_cases hc : c = '='
    · subst hc; exact ⟨[], t, .value (k := []) (by simp)⟩
    · obtain ⟨k, v, h⟩ := ih
      cases h with
      | flag h => exact ⟨c :: t, ['1'], .flag (by simp [h, Ne.symm hc])⟩
      | value h => exact ⟨c :: k, v, .value (k := c :: k) (by simp [h, Ne.symm hc])⟩

/-- The last of the entries with this key, leaving out entries without key or value. -/
theorem foldOptions_spec (kvs : List (Str × Str)) {o : Options} (ho : OptionMap o.pairs) :
    let o' := kvs.foldl (fun o kv => addOption o kv.1 kv.2) o
    OptionMap o'.pairs ∧ o'.accessed = o.accessed ∧ ∀ q, q ∈ o'.pairs ↔
      (∃ pre post, kvs = pre ++ q :: post ∧ q.1 ≠ [] ∧ q.2 ≠ [] ∧ ∀ r ∈ post, r.2 ≠ [] → r.1 ≠ q.1) ∨
        (q ∈ o.pairs ∧ ∀ r ∈ kvs, r.2 ≠ [] → r.1 ≠ q.1) := by
  induction kvs generalizing o with
  | nil => simp [ho]
  | cons kv t ih =>
    simp only [List.foldl_cons]
    obtain ⟨h1, h2, h3⟩ := ih (addOption_map kv.1 kv.2 ho)
    have hacc : (addOption o kv.1 kv.2).accessed = o.accessed := by
      by_cases h : kv.1 = [] ∨ kv.2 = []
      · rw [addOption_ignored h]
      · rw [not_or] at h; exact (addOption_spec ho h.1 h.2).2.1
    refine ⟨h1, h2.trans hacc, fun q => ?_⟩
    rw [h3]
    have hfirst : (∃ pre post, kv :: t = pre ++ q :: post ∧ q.1 ≠ [] ∧ q.2 ≠ [] ∧ ∀ r ∈ post, r.2 ≠ [] → r.1 ≠ q.1) ↔
        (kv = q ∧ q.1 ≠ [] ∧ q.2 ≠ [] ∧ ∀ r ∈ t, r.2 ≠ [] → r.1 ≠ q.1) ∨
          ∃ pre post, t = pre ++ q :: post ∧ q.1 ≠ [] ∧ q.2 ≠ [] ∧ ∀ r ∈ post, r.2 ≠ [] → r.1 ≠ q.1 := by
      constructor
      · rintro ⟨pre, post, he, hq⟩
        cases pre with
        | nil =>
          simp only [List.nil_append, List.cons.injEq] at he
          left; rw [he.1, he.2]; exact ⟨rfl, hq⟩
        | cons a pre =>
          simp only [List.cons_append, List.cons.injEq] at he
          right; exact ⟨pre, post, he.2, hq⟩
      · rintro (⟨he, hq⟩ | ⟨pre, post, he, hq⟩)
        · exact ⟨[], t, by rw [he]; rfl, hq⟩
        · exact ⟨kv :: pre, post, by rw [he]; rfl, hq⟩
    rw [hfirst]
    by_cases h : kv.1 = [] ∨ kv.2 = []
    · rw [addOption_ignored h]
      constructor
      · rintro (hq | ⟨hq, hr⟩)
        · exact Or.inl (Or.inr hq)
        · refine Or.inr ⟨hq, fun r hmem hne => ?_⟩
          rcases List.mem_cons.1 hmem with rfl | hmem
          · rcases h with h | h
            · rw [h]; exact fun e => (ho.filled q hq).1 e.symm
            · exact absurd h hne
          · exact hr r hmem hne
      · rintro ((⟨rfl, h1, h2, _⟩ | hq) | ⟨hq, hr⟩)
        · rcases h with h | h
          · exact absurd h h1
          · exact absurd h h2
        · exact Or.inl hq
        · exact Or.inr ⟨hq, fun r hmem => hr r (List.mem_cons_of_mem _ hmem)⟩
    · rw [not_or] at h
      have hs := (addOption_spec ho h.1 h.2).2.2 q
      rw [hs]
      constructor
      · rintro (hq | ⟨hq | ⟨hne, hq⟩, hr⟩)
        · exact Or.inl (Or.inr hq)
        · refine Or.inl (Or.inl ⟨hq.symm, ?_, ?_, hr⟩)
          · rw [hq]; exact h.1
          · rw [hq]; exact h.2
        · refine Or.inr ⟨hq, fun r hmem hv => ?_⟩
          rcases List.mem_cons.1 hmem with rfl | hmem
          · exact fun e => hne e.symm
          · exact hr r hmem hv
      · rintro ((⟨rfl, _, _, hr⟩ | hq) | ⟨hq, hr⟩)
        · exact Or.inr ⟨Or.inl rfl, hr⟩
        · exact Or.inl hq
        · exact Or.inr ⟨Or.inr ⟨fun e => hr kv (by simp) h.2 e.symm, hq⟩, fun r hmem => hr r (List.mem_cons_of_mem _ hmem)⟩

theorem foldOptions_fresh (kvs : List (Str × Str)) {o : Options} (h : OptionMap (o.pairs ++ kvs)) :
    kvs.foldl (fun o kv => addOption o kv.1 kv.2) o = { o with pairs := o.pairs ++ kvs } := by
  induction kvs generalizing o with
  | nil => simp
  | cons kv t ih =>
    have hf := h.filled kv (by simp)
    have hk : kv.1 ∉ o.pairs.map Prod.fst := by
      have := h.keys
      rw [List.map_append, List.map_cons, List.nodup_append] at this
      intro hm
      exact this.2.2 _ hm kv.1 (by simp) rfl
    rw [List.foldl_cons, addOption_fresh hf.1 hf.2 hk, ih]
    · simp
    · simpa using h

theorem foldl_strings {ws : List Str} {kvs : List (Str × Str)} (h : List.Forall₂ (fun w kv => OneOption w kv.1 kv.2) ws kvs) (o : Options) :
    ws.foldl addOptionString o = kvs.foldl (fun o kv => addOption o kv.1 kv.2) o := by
  induction h generalizing o with
  | nil => rfl
  | cons h _ ih => rw [List.foldl_cons, List.foldl_cons, addOptionString_spec h, ih]

/-! ### Reading -/

theorem find?_pair {ps : List (Str × Str)} (hn : (ps.map Prod.fst).Nodup) {k v : Str} (h : (k, v) ∈ ps) :
    ps.find? (fun p => p.1 = k) = some (k, v) := by
  induction ps with
  | nil => simp at h
  | cons p t ih =>
    rw [List.map_cons, List.nodup_cons] at hn
    rcases List.mem_cons.1 h with rfl | h
    · simp
    · have : p.1 ≠ k := by
        intro e; rw [e] at hn
        exact hn.1 (List.mem_map_of_mem (f := Prod.fst) h)
      rw [List.find?_cons_of_neg (by simpa using this), ih hn.2 h]

theorem find?_pair_none {ps : List (Str × Str)} {k : Str} (h : ∀ v, (k, v) ∉ ps) : ps.find? (fun p => p.1 = k) = none := by
  rw [List.find?_eq_none]
  intro p hp
  simp only [decide_eq_true_eq]
  rintro rfl
  exact h p.2 hp

theorem isSpace_iff (c : Char) : isSpace c = true ↔ White c := by
  unfold isSpace White
  simp only [Bool.or_eq_true, decide_eq_true_eq, Bool.and_eq_true, List.mem_cons, List.not_mem_nil, or_false]
  constructor
  · rintro (h | ⟨h1, h2⟩)
    · exact Or.inl h
    · right
      rw [← Char.ofNat_toNat c]
      have : c.toNat = 9 ∨ c.toNat = 10 ∨ c.toNat = 11 ∨ c.toNat = 12 ∨ c.toNat = 13 := by omega
      rcases this with h | h | h | h | h <;> rw [h] <;> decide
  · rintro (h | h | h | h | h | h)
    · exact Or.inl h
    all_goals subst h; right; decide

theorem readWord_first {s w : Str} {ws : List Str} (old : Str) (h : Words isSpace s (w :: ws)) : readWord s old = w := by
  generalize hu : w :: ws = us at h
  induction h with
  | nil => simp at hu
  | skip hc _ ih =>
    have := ih hu
    unfold readWord at this ⊢
    rw [List.dropWhile_cons_of_pos hc]
    exact this
  | @word w' s ws' hw hn hh _ _ =>
    simp only [List.cons.injEq] at hu
    rw [hu.1]
    unfold readWord
    obtain ⟨c, t, rfl⟩ := List.exists_cons_of_ne_nil hw
    have hd : ((c :: t) ++ s).dropWhile isSpace = (c :: t) ++ s := by
      rw [List.cons_append, List.dropWhile_cons_of_neg (by simp [hn c (by simp)])]
    simp only [hd]
    rw [if_neg (by simp), List.takeWhile_append_of_pos (by intro x hx; simp [hn x hx])]
    cases s with
    | nil => simp
    | cons x s => simp [hh x (by simp)]

theorem readWord_empty {s : Str} (old : Str) (h : Words isSpace s []) : readWord s old = old := by
  generalize hu : ([] : List Str) = us at h
  induction h with
  | nil => rfl
  | skip hc _ ih =>
    have := ih hu
    unfold readWord at this ⊢
    rw [List.dropWhile_cons_of_pos hc]
    exact this
  | word => simp at hu

theorem readWord_plain {s : Str} (old : Str) (hs : s ≠ []) (h : ∀ c ∈ s, ¬ White c) : readWord s old = s := by
  have := Words.word (sep := isSpace) (s := []) hs (fun c hc => by rw [Bool.eq_false_iff]; exact fun e => h c hc ((isSpace_iff c).1 e)) (by simp) .nil
  rw [List.append_nil] at this
  exact readWord_first old this

theorem commaParts_free (acc last : Str) (h : ',' ∉ last) : commaParts acc last = if acc ++ last = [] then [] else [acc ++ last] := by
  induction last generalizing acc with
  | nil => rw [List.append_nil]; rfl
  | cons c t ih =>
    simp only [List.mem_cons, not_or] at h
    unfold commaParts
    rw [if_neg (fun e => h.1 e.symm), ih _ h.2]
    simp

theorem commaParts_part (acc p rest : Str) (h : ',' ∉ p) : commaParts acc (p ++ ',' :: rest) = (acc ++ p) :: commaParts [] rest := by
  induction p generalizing acc with
  | nil => rw [List.append_nil, List.nil_append]; rw [commaParts]; rw [if_pos rfl]
  | cons c t ih =>
    simp only [List.mem_cons, not_or] at h
    rw [List.cons_append, commaParts, if_neg (fun e => h.1 e.symm), ih _ h.2]
    simp

theorem commaParts_spec {parts : List Str} {last : Str} (hp : ∀ p ∈ parts, ',' ∉ p) (hl : ',' ∉ last) :
    commaParts [] (parts.flatMap (· ++ [',']) ++ last) = parts ++ if last = [] then [] else [last] := by
  induction parts with
  | nil => rw [List.flatMap_nil, List.nil_append, List.nil_append, commaParts_free _ _ hl, List.nil_append]
  | cons p t ih =>
    have : (p :: t).flatMap (· ++ [',']) ++ last = p ++ ',' :: (t.flatMap (· ++ [',']) ++ last) := by simp
    rw [this, commaParts_part _ _ _ (hp p (by simp)), ih fun q hq => hp q (by simp [hq])]
    rfl

/-! ### Text of the options -/

theorem words_toString {o : Options} (ho : ∀ p ∈ o.pairs, ' ' ∉ p.1 ∧ ' ' ∉ p.2) :
    Words (fun c => [' '].contains c) (optionsToString o) (o.pairs.map fun p => p.1 ++ '=' :: p.2) := by
  have key : ∀ ps : List (Str × Str), (∀ p ∈ ps, ' ' ∉ p.1 ∧ ' ' ∉ p.2) →
      Words (fun c => [' '].contains c) (ps.flatMap (fun q => ' ' :: (q.1 ++ '=' :: q.2))) (ps.map fun p => p.1 ++ '=' :: p.2) ∧
      ∀ c ∈ (ps.flatMap (fun q => ' ' :: (q.1 ++ '=' :: q.2))).head?, [' '].contains c = true := by
    intro ps hps
    induction ps with
    | nil => exact ⟨.nil, by simp⟩
    | cons p t ih =>
      obtain ⟨h1, h2⟩ := ih fun q hq => hps q (by simp [hq])
      refine ⟨?_, by simp⟩
      rw [List.flatMap_cons, List.map_cons, List.cons_append]
      refine .skip (by simp) (.word (by simp) ?_ h2 h1)
      intro c hc
      obtain ⟨ha, hb⟩ := hps p (by simp)
      rw [List.mem_append, List.mem_cons] at hc
      simp only [List.contains_cons, List.contains_nil, Bool.or_false, beq_eq_false_iff_ne, ne_eq]
      rintro rfl
      rcases hc with hc | hc | hc
      · exact ha hc
      · exact absurd hc (by decide)
      · exact hb hc
  unfold optionsToString
  cases hp : o.pairs with
  | nil => exact .nil
  | cons p t =>
    rw [hp] at ho
    have h := (key (p :: t) ho).1
    rw [List.flatMap_cons, List.cons_append] at h
    generalize hs : ' ' :: (p.1 ++ '=' :: p.2 ++ List.flatMap (fun q => ' ' :: (q.1 ++ '=' :: q.2)) t) = s at h
    generalize List.map (fun p : Str × Str => p.1 ++ '=' :: p.2) (p :: t) = us at h
    cases h with
    | nil => simp at hs
    | skip _ h => simp only [List.cons.injEq] at hs; simp only [hs.2]; exact h
    | @word w s ws h1 h2 =>
      cases w with
      | nil => exact absurd rfl h1
      | cons c w =>
        simp only [List.cons_append, List.cons.injEq] at hs
        have := h2 c (by simp)
        rw [← hs.1] at this
        simp at this

/-! ### Comparison -/

theorem sameLoop_spec {ps : List (Str × Str)} {right : Options} (hr : OptionMap right.pairs) (hw : ∀ q ∈ right.pairs, ∀ c ∈ q.2, ¬ White c) :
    ((sameLoop ps right).1 = true ↔ ∀ p ∈ ps, p ∈ right.pairs) ∧ (sameLoop ps right).2.pairs = right.pairs := by
  induction ps generalizing right with
  | nil => simp [sameLoop]
  | cons p t ih =>
    by_cases hx : ∃ v, (p.1, v) ∈ right.pairs
    · obtain ⟨v, hv⟩ := hx
      have hhas : hasValue right p.1 = true := by
        unfold hasValue
        rw [List.any_eq_true]
        exact ⟨_, hv, by simp⟩
      have hget : getValue right p.1 [] = ({ right with accessed := p.1 :: right.accessed }, true, v) := by
        unfold getValue
        rw [find?_pair hr.keys hv]
        simp only [readWord_plain [] (hr.filled _ hv).2 (hw _ hv)]
      unfold sameLoop
      rw [hhas, hget]
      simp only [Bool.not_true, Bool.false_eq_true, if_false]
      by_cases he : p.2 = v
      · rw [if_neg (by simp [he])]
        obtain ⟨h1, h2⟩ := ih (right := { right with accessed := p.1 :: right.accessed }) hr hw
        refine ⟨?_, h2⟩
        rw [h1]
        constructor
        · intro h q hq
          rcases List.mem_cons.1 hq with rfl | hq
          · rw [← he] at hv; exact hv
          · exact h q hq
        · exact fun h q hq => h q (List.mem_cons_of_mem _ hq)
      · rw [if_pos he]
        refine ⟨⟨by simp, fun h => ?_⟩, rfl⟩
        have h1 := h p (by simp)
        have h2 := find?_pair hr.keys h1
        rw [find?_pair hr.keys hv] at h2
        simp only [Option.some.injEq, Prod.mk.injEq, true_and] at h2
        exact absurd h2.symm he
    · have hhas : hasValue right p.1 = false := by
        unfold hasValue
        rw [List.any_eq_false]
        intro q hq
        simp only [decide_eq_true_eq]
        intro e
        exact hx ⟨q.2, by rw [← e]; exact hq⟩
      unfold sameLoop
      rw [hhas]
      simp only [Bool.not_false, if_true]
      exact ⟨⟨by simp, fun h => absurd ⟨p.2, h p (by simp)⟩ hx⟩, trivial⟩

end Gridpp.Client
