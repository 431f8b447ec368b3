import Verif.Model.Client.ParameterText
import Verif.Spec.ParameterText
import Verif.Lemmas.Client.Options
import Verif.Lemmas.Client.ParameterFile
import Mathlib.Tactic.FieldSimp
import Mathlib.Tactic.Ring

/-! # Text files with parameters: lemmas -/

set_option linter.unusedSectionVars false

namespace Gridpp.Client
open Fl hiding MV isValid
open Res Spec

/-! ### Numbers -/

theorem isDigit_iff (c : Char) : isDigit c = true ↔ Digit c := by
  constructor
  · intro h
    unfold isDigit at h
    rw [Bool.and_eq_true, decide_eq_true_eq, decide_eq_true_eq] at h
    have hc : c = Char.ofNat c.toNat := (Char.ofNat_toNat c).symm
    unfold Digit
    obtain ⟨h1, h2⟩ := h
    have : c.toNat = 48 ∨ c.toNat = 49 ∨ c.toNat = 50 ∨ c.toNat = 51 ∨ c.toNat = 52 ∨ c.toNat = 53 ∨ c.toNat = 54 ∨ c.toNat = 55 ∨ c.toNat = 56 ∨
      c.toNat = 57 := by omega
    rcases this with h | h | h | h | h | h | h | h | h | h <;> rw [hc, h] <;> decide
  · intro h
    unfold Digit at h
    simp only [List.mem_cons, List.not_mem_nil, or_false] at h
    rcases h with h | h | h | h | h | h | h | h | h | h <;> rw [h] <;> decide

theorem digitsVal_append (a b : Str) : digitsVal (a ++ b) = digitsVal a * 10 ^ b.length + digitsVal b := by
  induction b using List.reverseRecOn with
  | nil => simp [digitsVal]
  | append_singleton b c ih =>
    have e : ∀ l : Str, digitsVal (l ++ [c]) = 10 * digitsVal l + (c.toNat - 48) := fun l => by simp [digitsVal]
    rw [← List.append_assoc, e, e, ih, List.length_append, List.length_singleton, pow_succ]
    ring

theorem digitsVal_eq (ds : Str) : digitsVal ds = decimal ds := by
  induction ds using List.reverseRecOn with
  | nil => rfl
  | append_singleton b c ih =>
    have e : digitsVal (b ++ [c]) = 10 * digitsVal b + (c.toNat - 48) := by simp [digitsVal]
    rw [e, ih]
    unfold decimal
    rw [List.reverse_append, List.reverse_singleton, List.singleton_append, List.map_cons, Nat.ofDigits_cons]
    have : '0'.toNat = 48 := rfl
    rw [this, add_comm]

theorem span_of {p : Char → Bool} {ds rest : Str} (h : ∀ c ∈ ds, p c = true) (h' : ∀ c ∈ rest.head?, p c = false) :
    (ds ++ rest).takeWhile p = ds ∧ (ds ++ rest).dropWhile p = rest := by
  induction ds with
  | nil =>
    cases rest with
    | nil => exact ⟨rfl, rfl⟩
    | cons c t =>
      have := h' c (by simp)
      simp [this]
  | cons d ds ih =>
    obtain ⟨h1, h2⟩ := ih fun c hc => h c (by simp [hc])
    have := h d (by simp)
    simp only [List.cons_append, List.takeWhile_cons, List.dropWhile_cons, this, if_true, h1, h2, and_self]

theorem white_facts {c : Char} (h : White c) : isDigit c = false ∧ c ≠ '.' ∧ c ≠ 'e' ∧ c ≠ 'E' ∧ c ≠ '+' ∧ c ≠ '-' := by
  unfold White at h
  simp only [List.mem_cons, List.not_mem_nil, or_false] at h
  rcases h with h | h | h | h | h | h <;> rw [h] <;> decide

theorem digit_facts {c : Char} (h : Digit c) : ¬ White c ∧ c ≠ '.' ∧ c ≠ 'e' ∧ c ≠ 'E' ∧ c ≠ '+' ∧ c ≠ '-' := by
  unfold Digit at h
  unfold White
  simp only [List.mem_cons, List.not_mem_nil, or_false] at h
  rcases h with h | h | h | h | h | h | h | h | h | h <;> rw [h] <;> decide

theorem takeSign_plain {s : Str} (h : ∀ c ∈ s.head?, c ≠ '+' ∧ c ≠ '-') : takeSign s = (false, s) := by
  unfold takeSign
  split
  · rename_i t; exact absurd rfl (h '-' (by simp)).2
  · rename_i t; exact absurd rfl (h '+' (by simp)).1
  · rfl

theorem takeSign_eq {sg : Str} {g : Int} (h : Sign sg g) {s : Str} (hs : ∀ c ∈ s.head?, c ≠ '+' ∧ c ≠ '-') :
    takeSign (sg ++ s) = (decide (g = -1), s) := by
  cases h with
  | none => rw [List.nil_append, takeSign_plain hs]; rfl
  | plus => rfl
  | minus => rfl

theorem sign_factor {sg : Str} {g : Int} (h : Sign sg g) : g = if decide (g = -1) then -1 else 1 := by
  cases h <;> rfl

theorem signed_eq {sg : Str} {g : Int} (h : Sign sg g) (n : Nat) : (if decide (g = -1) = true then -(n : Int) else (n : Int)) = g * n := by
  cases h <;> simp

/-- What may follow a number. -/
def Ends (rest : Str) : Prop := ∀ c ∈ rest.head?, White c

theorem ends_nil : Ends [] := by intro c hc; simp at hc

theorem head_digits {ds rest : Str} (hd : ∀ c ∈ ds, Digit c) (hr : ∀ c ∈ rest.head?, c ≠ '+' ∧ c ≠ '-') :
    ∀ c ∈ (ds ++ rest).head?, c ≠ '+' ∧ c ≠ '-' := by
  cases ds with
  | nil => exact hr
  | cons d ds =>
    intro c hc
    simp only [List.cons_append, List.head?_cons, Option.mem_some_iff] at hc
    subst hc
    exact (digit_facts (hd d (by simp))).2.2.2.2

theorem scanInt_eq {w rest : Str} {v : Int} (h : IntNumeral w v) (h1 : -2147483648 ≤ v) (h2 : v ≤ 2147483647) (hr : Ends rest) :
    scanInt (w ++ rest) = some (v, rest) := by
  obtain ⟨sg, ds, g, hg, hne, hd, rfl, rfl⟩ := h
  have hs : ∀ c ∈ (ds ++ rest).head?, c ≠ '+' ∧ c ≠ '-' := head_digits hd fun c hc => (white_facts (hr c hc)).2.2.2.2
  obtain ⟨s1, s2⟩ := span_of (p := isDigit) (fun c hc => (isDigit_iff c).mpr (hd c hc)) (rest := rest) fun c hc => (white_facts (hr c hc)).1
  unfold scanInt
  rw [List.append_assoc, takeSign_eq hg hs]
  simp only [s1, s2]
  rw [if_neg hne, signed_eq hg, digitsVal_eq, if_neg (by omega)]

variable {K : Type} [Field K] [LinearOrder K]

theorem scanExponent_eq {w rest : Str} {e : Int} (h : Exponent w e) (hr : Ends rest) : scanExponent (w ++ rest) = some (e, rest) := by
  cases h with
  | none =>
    cases rest with
    | nil => rfl
    | cons c t =>
      have hw := white_facts (hr c (by simp))
      rw [List.nil_append, scanExponent, if_neg]
      rintro (h | h)
      · exact hw.2.2.1 h
      · exact hw.2.2.2.1 h
  | some hc hn =>
    obtain ⟨sg, ds, g, hg, hne, hd, rfl, rfl⟩ := hn
    have hs : ∀ c ∈ (ds ++ rest).head?, c ≠ '+' ∧ c ≠ '-' := head_digits hd fun c hc => (white_facts (hr c hc)).2.2.2.2
    obtain ⟨s1, s2⟩ := span_of (p := isDigit) (fun c hc => (isDigit_iff c).mpr (hd c hc)) (rest := rest) fun c hc => (white_facts (hr c hc)).1
    rw [List.cons_append, scanExponent, if_pos hc, List.append_assoc, takeSign_eq hg hs]
    simp only [s1, s2]
    rw [if_neg hne, signed_eq hg, digitsVal_eq]

/-- What follows the fraction is no digit and no point. -/
theorem exponent_head {w rest : Str} {e : Int} (h : Exponent w e) (hr : Ends rest) :
    ∀ c ∈ (w ++ rest).head?, isDigit c = false ∧ c ≠ '.' ∧ c ≠ '+' ∧ c ≠ '-' := by
  cases h with
  | none =>
    intro c hc
    have := white_facts (hr c hc)
    exact ⟨this.1, this.2.1, this.2.2.2.2⟩
  | some hc hn =>
    intro c' hc'
    simp only [List.cons_append, List.head?_cons, Option.mem_some_iff] at hc'
    subst hc'
    rcases hc with h | h <;> rw [h] <;> decide

theorem takeFraction_eq {pt frac rest : Str} (h : Fraction pt frac) (hr : ∀ c ∈ rest.head?, isDigit c = false ∧ c ≠ '.') :
    takeFraction (pt ++ rest) = (frac, rest) := by
  cases h with
  | none =>
    rw [List.nil_append]
    unfold takeFraction
    split
    · rename_i t; exact absurd rfl (hr '.' (by simp)).2
    · rfl
  | point hd =>
    obtain ⟨s1, s2⟩ := span_of (p := isDigit) (fun c hc => (isDigit_iff c).mpr (hd c hc)) (rest := rest) fun c hc => (hr c hc).1
    rw [List.cons_append, takeFraction, s1, s2]

theorem scanFloat_eq [IsStrictOrderedRing K] {w rest : Str} {q : K} (h : Numeral w q) (hr : Ends rest) : scanFloat (w ++ rest) = some (q, rest) := by
  obtain ⟨sg, whole, pt, frac, ex, g, e, hg, hw, hf, he, hne, rfl, rfl⟩ := h
  have hex := exponent_head he hr
  have hpt : ∀ c ∈ (pt ++ (ex ++ rest)).head?, isDigit c = false ∧ c ≠ '+' ∧ c ≠ '-' := by
    cases hf with
    | none => intro c hc; exact ⟨(hex c hc).1, (hex c hc).2.2⟩
    | point _ =>
      intro c hc
      simp only [List.cons_append, List.head?_cons, Option.mem_some_iff] at hc
      subst hc
      decide
  have hs := head_digits hw fun c hc => (hpt c hc).2
  obtain ⟨s1, s2⟩ := span_of (p := isDigit) (fun c hc => (isDigit_iff c).mpr (hw c hc)) (rest := pt ++ (ex ++ rest)) fun c hc => (hpt c hc).1
  have happ : sg ++ whole ++ pt ++ ex ++ rest = sg ++ (whole ++ (pt ++ (ex ++ rest))) := by simp only [List.append_assoc]
  unfold scanFloat
  rw [happ, takeSign_eq hg hs]
  simp only [s1, s2, takeFraction_eq hf fun c hc => ⟨(hex c hc).1, (hex c hc).2.1⟩, scanExponent_eq he hr]
  rw [if_neg hne, digitsVal_append, digitsVal_eq, digitsVal_eq]
  have h10 : (10 : K) ≠ 0 := by norm_num
  have hgK : (g : K) = if decide (g = -1) = true then (-1 : K) else 1 := by cases hg <;> simp
  have : ((decimal whole * 10 ^ frac.length + decimal frac : Nat) : K) * 10 ^ (e - (frac.length : Int)) =
      ((decimal whole : K) + (decimal frac : K) / 10 ^ frac.length) * 10 ^ e := by
    rw [zpow_sub₀ h10, zpow_natCast]
    push_cast
    field_simp
  rw [Option.some.injEq, Prod.mk.injEq]
  refine ⟨?_, rfl⟩
  rw [hgK, mul_assoc, this, ← mul_assoc]

/-! ### Words -/

theorem skipSpace_eq {b s : Str} (hb : ∀ c ∈ b, White c) (hs : ∀ c ∈ s.head?, ¬ White c) : skipSpace (b ++ s) = s :=
  (span_of (p := isSpace) (fun c hc => (isSpace_iff c).mpr (hb c hc)) fun c hc => by
    rw [← Bool.not_eq_true, isSpace_iff]; exact hs c hc).2

theorem head_word {w s : Str} (hne : w ≠ []) (hw : ∀ c ∈ w, ¬ White c) : ∀ c ∈ (w ++ s).head?, ¬ White c := by
  cases w with
  | nil => exact absurd rfl hne
  | cons d w =>
    intro c hc
    simp only [List.cons_append, List.head?_cons, Option.mem_some_iff] at hc
    subst hc
    exact hw d (by simp)

theorem word_span {w rest : Str} (hw : ∀ c ∈ w, ¬ White c) (hr : Ends rest) :
    ((w ++ rest).takeWhile fun x => !isSpace x) = w ∧ ((w ++ rest).dropWhile fun x => !isSpace x) = rest :=
  span_of (p := fun x => !isSpace x) (fun c hc => by
    rw [Bool.not_eq_true', ← Bool.not_eq_true, isSpace_iff]; exact hw c hc) fun c hc => by
    rw [Bool.not_eq_false', isSpace_iff]; exact hr c hc

theorem wordLine_ne {l : Str} {ws : List Str} (h : WordLine l ws) : l ≠ [] ∧ ws ≠ [] ∧ ws.length ≤ l.length := by
  induction h with
  | last hb hne hw =>
    refine ⟨by simp [hne], by simp, ?_⟩
    have := List.length_pos_iff.mpr hne
    rw [List.length_append, List.length_singleton]
    omega
  | cons hb hne hw hc hs ih =>
    refine ⟨by simp, by simp, ?_⟩
    have := List.length_pos_iff.mpr hne
    simp only [List.length_append, List.length_cons] at ih ⊢
    omega

/-- The positions after some more names. -/
def Columns.addAll (c : Columns) (k : Nat) : List Str → Columns
  | [] => c
  | w :: ws => (c.add k w).addAll (k + 1) ws

theorem headerLoop_eq {line : Str} {names : List Str} (h : WordLine line names) : ∀ (n k : Nat) (c : Columns), names.length ≤ n →
    headerLoop n line k c = ok (c.addAll k names) := by
  induction h with
  | @last b w hb hne hw =>
    intro n k c hn
    cases n with
    | zero => simp at hn
    | succ n =>
      have e := skipSpace_eq hb (s := w) (by simpa using head_word (s := []) hne hw)
      obtain ⟨s1, s2⟩ := word_span hw ends_nil
      rw [List.append_nil] at s1 s2
      simp only [headerLoop, e, s1, s2, if_neg hne, if_true]
      rfl
  | @cons b w s c' ws hb hne hw hc hs ih =>
    intro n k c hn
    cases n with
    | zero => simp at hn
    | succ n =>
      have e := skipSpace_eq hb (s := w ++ c' :: s) (head_word hne hw)
      obtain ⟨s1, s2⟩ := word_span hw (rest := c' :: s) (by intro x hx; simp at hx; rw [← hx]; exact hc)
      rw [List.append_assoc]
      have hne' : w ++ c' :: s ≠ [] := by simp
      simp only [headerLoop, e, s1, s2, if_neg hne', if_neg (List.cons_ne_nil c' s)]
      rw [ih n (k + 1) _ (by simpa using hn)]
      rfl

/-! ### The columns -/

theorem addAll_append (c : Columns) (k : Nat) (a : List Str) (w : Str) : c.addAll k (a ++ [w]) = (c.addAll k a).add (k + a.length) w := by
  induction a generalizing c k with
  | nil => rfl
  | cons x a ih =>
    rw [List.cons_append, Columns.addAll, ih, Columns.addAll, List.length_cons]
    congr 1
    omega

theorem add_time (c : Columns) (k : Nat) (w : Str) : (c.add k w).time = if w = "time".toList then some k else c.time := by
  unfold Columns.add
  split_ifs <;> rfl

theorem add_lat (c : Columns) (k : Nat) (w : Str) : (c.add k w).lat = if w = "lat".toList then some k else c.lat := by
  unfold Columns.add
  split_ifs <;> first | rfl | simp_all

theorem add_lon (c : Columns) (k : Nat) (w : Str) : (c.add k w).lon = if w = "lon".toList then some k else c.lon := by
  unfold Columns.add
  split_ifs <;> first | rfl | simp_all

theorem add_elev (c : Columns) (k : Nat) (w : Str) : (c.add k w).elev = if w = "elev".toList then some k else c.elev := by
  unfold Columns.add
  split_ifs <;> simp_all

theorem lastWith_append (a : List Str) (w : Str) (name : String) (k : Nat) :
    LastWith (a ++ [w]) name k ↔ if w = name.toList then k = a.length else LastWith a name k := by
  unfold LastWith
  by_cases hk : k < a.length
  · rw [List.getElem?_append_left hk, List.drop_append_of_le_length (by omega)]
    split_ifs with h
    · constructor
      · rintro ⟨-, h'⟩
        exact absurd (by simp [h]) h'
      · intro h'; omega
    · have h' : ¬ name.toList = w := fun h' => h h'.symm
      simp only [List.mem_append, List.mem_singleton, not_or, h', not_false_eq_true, and_true]
  · have hnone : a[k]? = none := List.getElem?_eq_none (by omega)
    rw [hnone, List.getElem?_append_right (by omega), List.drop_eq_nil_of_le (as := a ++ [w]) (by simp; omega)]
    by_cases hk' : k = a.length
    · subst hk'
      simp
    · have : [w][k - a.length]? = none := List.getElem?_eq_none (by simp; omega)
      rw [this]
      simp [hk']

/-- The positions are those of the names. -/
structure Columns.Of (c : Columns) (names : List Str) : Prop where
  time : ∀ k, c.time = some k ↔ LastWith names "time" k
  lat : ∀ k, c.lat = some k ↔ LastWith names "lat" k
  lon : ∀ k, c.lon = some k ↔ LastWith names "lon" k
  elev : ∀ k, c.elev = some k ↔ LastWith names "elev" k
  noTime : c.time = none ↔ "time".toList ∉ names
  noLat : c.lat = none ↔ "lat".toList ∉ names
  noLon : c.lon = none ↔ "lon".toList ∉ names
  noElev : c.elev = none ↔ "elev".toList ∉ names

theorem pos_step {p p' : Option Nat} {a : List Str} {w : Str} {name : String} (hp' : p' = if w = name.toList then some a.length else p)
    (h : ∀ k, p = some k ↔ LastWith a name k) (h0 : p = none ↔ name.toList ∉ a) :
    (∀ k, p' = some k ↔ LastWith (a ++ [w]) name k) ∧ (p' = none ↔ name.toList ∉ a ++ [w]) := by
  constructor
  · intro k
    rw [lastWith_append, hp']
    split_ifs with hw
    · rw [Option.some.injEq, eq_comm]
    · exact h k
  · rw [hp', List.mem_append, List.mem_singleton]
    split_ifs with hw
    · simp [hw]
    · rw [h0]
      have h' : ¬ name.toList = w := fun h' => hw h'.symm
      simp only [not_or, h', not_false_eq_true, and_true]

theorem addAll_of (names : List Str) : ((⟨none, none, none, none⟩ : Columns).addAll 0 names).Of names := by
  induction names using List.reverseRecOn with
  | nil => constructor <;> simp [Columns.addAll, LastWith]
  | append_singleton a w ih =>
    rw [addAll_append, Nat.zero_add]
    obtain ⟨t1, t2⟩ := pos_step (add_time _ a.length w) ih.time ih.noTime
    obtain ⟨a1, a2⟩ := pos_step (add_lat _ a.length w) ih.lat ih.noLat
    obtain ⟨o1, o2⟩ := pos_step (add_lon _ a.length w) ih.lon ih.noLon
    obtain ⟨e1, e2⟩ := pos_step (add_elev _ a.length w) ih.elev ih.noElev
    exact ⟨t1, a1, o1, e1, t2, a2, o2, e2⟩

theorem isSome_iff {p : Option Nat} {P : Prop} (h : p = none ↔ ¬ P) : p.isSome = true ↔ P := by
  cases p with
  | none => simp only [Option.isSome_none, Bool.false_eq_true, false_iff]; exact h.mp rfl
  | some v => simp only [Option.isSome_some, true_iff]; by_contra hP; exact absurd (h.mpr hP) (by simp)

theorem readHeader_eq {line : Str} {names : List Str} (h : WordLine line names) (hp : PlaceColumns names) :
    ∃ c, readHeader line = ok c ∧ c.Of names := by
  refine ⟨_, ?_, addAll_of names⟩
  have hof := addAll_of names
  have hlen := (wordLine_ne h).2.2
  unfold readHeader
  rw [headerLoop_eq h _ _ _ (by omega), ok_bind]
  have h1 := isSome_iff hof.noLat
  have h2 := isSome_iff hof.noLon
  have h3 := isSome_iff hof.noElev
  rcases hp with ⟨p1, p2, p3⟩ | ⟨p1, p2, p3⟩
  · simp only [h1.mpr p1, h2.mpr p2, h3.mpr p3, if_true]
    rfl
  · simp only [mt h1.mp p1, mt h2.mp p2, mt h3.mp p3]
    rfl

theorem readHeader_refused {line : Str} {names : List Str} (h : WordLine line names) (hp : ¬ PlaceColumns names) :
    readHeader line = .abort := by
  have hof := addAll_of names
  have hlen := (wordLine_ne h).2.2
  unfold readHeader
  rw [headerLoop_eq h _ _ _ (by omega), ok_bind]
  have h1 := isSome_iff hof.noLat
  have h2 := isSome_iff hof.noLon
  have h3 := isSome_iff hof.noElev
  simp only [h1, h2, h3]
  unfold PlaceColumns at hp
  rw [if_pos]
  · rfl
  · by_cases p1 : "lat".toList ∈ names <;> by_cases p2 : "lon".toList ∈ names <;> by_cases p3 : "elev".toList ∈ names <;>
      simp only [p1, p2, p3, if_true, if_false] at hp ⊢ <;> first | omega | exact absurd (by simp) hp

/-! ### The values -/

variable [IsStrictOrderedRing K]

/-- The row after the words from column `k` on. -/
def filled (names : List Str) (k : Nat) (ws : List Str) (t : Int) (a b h : K) (ps : List (Fl K)) (r : TextRow K) : TextRow K :=
  ⟨if wordsOf names .time k ws = [] then r.time else t, if wordsOf names .lat k ws = [] then r.lat else a,
    if wordsOf names .lon k ws = [] then r.lon else b, if wordsOf names .elev k ws = [] then r.elev else h, r.values ++ ps⟩

/-- What the words from column `k` on mean. -/
structure Cells (names : List Str) (k : Nat) (ws : List Str) (t : Int) (a b h : K) (ps : List (Fl K)) : Prop where
  low : -2147483648 ≤ t
  high : t ≤ 2147483647
  time : ∀ w ∈ wordsOf names .time k ws, IntNumeral w t
  lat : ∀ w ∈ wordsOf names .lat k ws, Numeral w a
  lon : ∀ w ∈ wordsOf names .lon k ws, Numeral w b
  elev : ∀ w ∈ wordsOf names .elev k ws, Numeral w h
  pars : List.Forall₂ (fun w v => ∃ q : K, Numeral w q ∧ v = fin q) (wordsOf names .parameter k ws) ps

theorem wordsOf_cons (names : List Str) (kind : ColumnKind) (k : Nat) (w : Str) (ws : List Str) :
    wordsOf names kind k (w :: ws) = wordsOf names kind k [w] ++ wordsOf names kind (k + 1) ws := by
  simp only [wordsOf]
  split_ifs <;> rfl

theorem forall₂_split {α β : Type} {R : α → β → Prop} {l l' : List α} {m : List β} (h : List.Forall₂ R (l ++ l') m) :
    ∃ m1 m2, m = m1 ++ m2 ∧ List.Forall₂ R l m1 ∧ List.Forall₂ R l' m2 := by
  induction l generalizing m with
  | nil => exact ⟨[], m, rfl, .nil, h⟩
  | cons x l ih =>
    cases h with
    | cons h1 h2 =>
      obtain ⟨m1, m2, rfl, h3, h4⟩ := ih h2
      exact ⟨_ :: m1, m2, rfl, .cons h1 h3, h4⟩

theorem Cells.split {names : List Str} {k : Nat} {w : Str} {ws : List Str} {t : Int} {a b h : K} {ps : List (Fl K)}
    (hc : Cells names k (w :: ws) t a b h ps) :
    ∃ p1 p2, ps = p1 ++ p2 ∧ Cells names k [w] t a b h p1 ∧ Cells names (k + 1) ws t a b h p2 := by
  obtain ⟨h0, h1, h2, h3, h4, h5, h6⟩ := hc
  rw [wordsOf_cons] at h2 h3 h4 h5 h6
  obtain ⟨p1, p2, rfl, h7, h8⟩ := forall₂_split h6
  refine ⟨p1, p2, rfl, ⟨h0, h1, ?_, ?_, ?_, ?_, h7⟩, ⟨h0, h1, ?_, ?_, ?_, ?_, h8⟩⟩ <;> intro x hx
  · exact h2 x (by simp [hx])
  · exact h3 x (by simp [hx])
  · exact h4 x (by simp [hx])
  · exact h5 x (by simp [hx])
  · exact h2 x (by simp [hx])
  · exact h3 x (by simp [hx])
  · exact h4 x (by simp [hx])
  · exact h5 x (by simp [hx])

theorem filled_cons (names : List Str) (k : Nat) (w : Str) (ws : List Str) (t : Int) (a b h : K) (p1 p2 : List (Fl K)) (r : TextRow K) :
    filled names (k + 1) ws t a b h p2 (filled names k [w] t a b h p1 r) = filled names k (w :: ws) t a b h (p1 ++ p2) r := by
  have key : ∀ {V : Type} (kind : ColumnKind) (x y : V), (if wordsOf names kind (k + 1) ws = [] then (if wordsOf names kind k [w] = [] then x else y)
      else y) = if wordsOf names kind k (w :: ws) = [] then x else y := by
    intro V kind x y
    rw [wordsOf_cons names kind k w ws]
    simp only [List.append_eq_nil_iff]
    by_cases h1 : wordsOf names kind k [w] = [] <;> by_cases h2 : wordsOf names kind (k + 1) ws = [] <;> simp [h1, h2]
  unfold filled
  simp only [key, List.append_assoc]

theorem columnKind_eq {c : Columns} {names : List Str} (hc : c.Of names) (k : Nat) :
    columnKind names k = if c.time = some k then .time else if c.lat = some k then .lat else if c.lon = some k then .lon
      else if c.elev = some k then .elev else .parameter := by
  unfold columnKind
  simp only [hc.time k, hc.lat k, hc.lon k, hc.elev k]

theorem readCell_eq {c : Columns} {names : List Str} (hc : c.Of names) {k : Nat} {b0 w rest : Str} (hb : ∀ x ∈ b0, White x) (hne : w ≠ [])
    (hw : ∀ x ∈ w, ¬ White x) (hr : Ends rest) {t : Int} {a b h : K} {ps : List (Fl K)} (hcell : Cells names k [w] t a b h ps) (r : TextRow K) :
    readCell c k (b0 ++ w ++ rest) r = ok (filled names k [w] t a b h ps r, rest) := by
  have hskip : skipSpace (b0 ++ w ++ rest) = w ++ rest := by
    rw [List.append_assoc]
    exact skipSpace_eq hb (head_word hne hw)
  have hk := columnKind_eq hc k
  obtain ⟨h0, h1, h2, h3, h4, h5, h6⟩ := hcell
  simp only [wordsOf] at h2 h3 h4 h5 h6
  unfold readCell filled
  simp only [hskip, wordsOf]
  by_cases e1 : c.time = some k
  · rw [if_pos e1] at hk
    simp only [hk, if_true, reduceCtorEq, if_false] at h2 h6
    cases h6
    rw [if_pos e1, scanInt_eq (h2 w (by simp)) h0 h1 hr]
    simp [hk]
  · rw [if_neg e1] at hk
    rw [if_neg e1]
    by_cases e2 : c.lat = some k
    · rw [if_pos e2] at hk
      simp only [hk, if_true, reduceCtorEq, if_false] at h3 h6
      cases h6
      rw [scanFloat_eq (h3 w (by simp)) hr]
      simp [hk, e2]
    · rw [if_neg e2] at hk
      by_cases e3 : c.lon = some k
      · rw [if_pos e3] at hk
        simp only [hk, if_true, reduceCtorEq, if_false] at h4 h6
        cases h6
        rw [scanFloat_eq (h4 w (by simp)) hr]
        simp [hk, e2, e3]
      · rw [if_neg e3] at hk
        by_cases e4 : c.elev = some k
        · rw [if_pos e4] at hk
          simp only [hk, if_true, reduceCtorEq, if_false] at h5 h6
          cases h6
          rw [scanFloat_eq (h5 w (by simp)) hr]
          simp [hk, e2, e3, e4]
        · rw [if_neg e4] at hk
          simp only [hk, if_true] at h6
          cases h6 with
          | cons h7 h8 =>
            cases h8
            obtain ⟨q, hq, rfl⟩ := h7
            rw [scanFloat_eq hq hr]
            simp [hk, e2, e3, e4]

theorem rowLoop_eq {c : Columns} {names : List Str} (hc : c.Of names) {line : Str} {ws : List Str} (h : WordLine line ws) :
    ∀ (n k : Nat) (r : TextRow K) (t : Int) (a b e : K) (ps : List (Fl K)), ws.length ≤ n → Cells names k ws t a b e ps →
      rowLoop c n line k r = ok (filled names k ws t a b e ps r) := by
  induction h with
  | @last b0 w hb hne hw =>
    intro n k r t a b e ps hn hcell
    cases n with
    | zero => simp at hn
    | succ n =>
      have := readCell_eq hc hb hne hw ends_nil hcell r
      rw [List.append_nil] at this
      rw [rowLoop, this, ok_bind]
      rfl
  | @cons b0 w s x ws hb hne hw hx hs ih =>
    intro n k r t a b e ps hn hcell
    cases n with
    | zero => simp at hn
    | succ n =>
      obtain ⟨p1, p2, rfl, h1, h2⟩ := hcell.split
      rw [rowLoop, readCell_eq hc hb hne hw (rest := x :: s) (by intro y hy; simp at hy; rw [← hy]; exact hx) h1 r, ok_bind]
      simp only [if_neg (List.cons_ne_nil x s)]
      rw [ih n (k + 1) _ t a b e p2 (by simpa using hn) h2, filled_cons]

theorem readRow_values {c : Columns} {names : List Str} (hc : c.Of names) {line : Str} {s : Setting K} (h : RowMeans names line s) :
    ∃ r : TextRow K, rowLoop c (line.length + 1) line 0 ⟨0, -999, -999, -999, []⟩ = ok r ∧ r.values = s.pars ∧ r.time = s.time ∧
      r.place = settingLoc s := by
  obtain ⟨ws, a, b, e, hl, ht, hp1, hp2⟩ := h
  have hlen := (wordLine_ne hl).2.2
  have hs := ht.small
  have hcells : Cells names 0 ws (s.time : Int) a b e s.pars :=
    ⟨by omega, by omega, ht.timeCell.1, ht.latCell.1, ht.lonCell.1, ht.elevCell.1, ht.parCells⟩
  refine ⟨_, rowLoop_eq hc hl _ 0 _ _ _ _ _ _ (by omega) hcells, by simp [filled], ?_, ?_⟩
  · simp only [filled]
    split_ifs with h0
    · exact (ht.timeCell.2 h0).symm
    · rfl
  · have f1 : (filled names 0 ws (s.time : Int) a b e s.pars ⟨0, -999, -999, -999, []⟩).lat = a := by
      simp only [filled]
      split_ifs with h0
      · exact (ht.latCell.2 h0).symm
      · rfl
    have f2 : (filled names 0 ws (s.time : Int) a b e s.pars ⟨0, -999, -999, -999, []⟩).lon = b := by
      simp only [filled]
      split_ifs with h0
      · exact (ht.lonCell.2 h0).symm
      · rfl
    have f3 : (filled names 0 ws (s.time : Int) a b e s.pars ⟨0, -999, -999, -999, []⟩).elev = e := by
      simp only [filled]
      split_ifs with h0
      · exact (ht.elevCell.2 h0).symm
      · rfl
    have hv : ∀ x : K, Client.isValid (fin x : Fl K) = true ↔ x ≠ -999 := by
      intro x
      rw [isValid_iff_present]
      constructor
      · rintro ⟨q, hq, hne⟩
        cases hq
        exact hne
      · intro hne
        exact ⟨x, rfl, hne⟩
    unfold TextRow.place
    rw [f1, f2, f3]
    by_cases hall : a ≠ -999 ∧ b ≠ -999 ∧ e ≠ -999
    · obtain ⟨g1, g2, g3⟩ := hp1 hall
      rw [if_pos (by simp only [Bool.and_eq_true, hv]; exact ⟨⟨hall.1, hall.2.1⟩, hall.2.2⟩)]
      unfold settingLoc
      rw [g1, g2, g3]
    · obtain ⟨g1, g2, g3⟩ := hp2 (by by_contra hno; push Not at hno; exact hall hno)
      rw [if_neg (by simp only [Bool.and_eq_true, hv]; exact fun hh => hall ⟨hh.1.1, hh.1.2, hh.2⟩)]
      unfold settingLoc ParFile.nowhere
      rw [g1, g2, g3]
      rfl

/-! ### The lines -/

theorem textLines_go (acc l t : Str) (h : '\n' ∉ l) :
    textLines.go acc (l ++ '\n' :: t) = if (acc ++ l).length ≤ 9999 then (acc ++ l) :: textLines t else [] := by
  induction l generalizing acc with
  | nil =>
    rw [List.nil_append, textLines.go, if_pos rfl, List.append_nil]
    rfl
  | cons c l ih =>
    have hc : c ≠ '\n' := fun h' => h (by simp [h'])
    rw [List.cons_append, textLines.go, if_neg hc, ih _ fun h' => h (by simp [h']), List.append_assoc]
    rfl

theorem textLines_go_none (acc l : Str) (h : '\n' ∉ l) : textLines.go acc l = [] := by
  induction l generalizing acc with
  | nil => rfl
  | cons c l ih =>
    have hc : c ≠ '\n' := fun h' => h (by simp [h'])
    rw [textLines.go, if_neg hc, ih _ fun h' => h (by simp [h'])]

theorem textLines_of {content : Str} {lines : List Str} (h : TextOf content lines) : textLines content = lines := by
  obtain ⟨h1, tail, h2, rfl⟩ := h
  induction lines with
  | nil =>
    rw [List.flatMap_nil, List.nil_append]
    rcases h2 with h2 | ⟨l, t, rfl, h3, h4⟩
    · exact textLines_go_none [] tail h2
    · rw [textLines, textLines_go [] l t h3, List.nil_append, if_neg (by omega)]
  | cons l lines ih =>
    obtain ⟨h3, h4⟩ := h1 l (by simp)
    rw [List.flatMap_cons, List.append_assoc, List.append_assoc, List.singleton_append, textLines, textLines_go [] l _ h3, List.nil_append, if_pos h4,
      ih fun x hx => h1 x (by simp [hx])]

/-- Every text consists of lines and something that is left. -/
theorem textOf_exists (content : Str) : ∃ lines, TextOf content lines := by
  induction hn : content.length using Nat.strong_induction_on generalizing content with
  | _ n ih =>
    by_cases h : '\n' ∈ content
    · obtain ⟨l, t, rfl, hl⟩ := List.eq_append_cons_of_mem h
      by_cases hlen : l.length ≤ 9999
      · obtain ⟨lines, h1, tail, h2, h3⟩ := ih t.length (by rw [← hn]; simp; omega) t rfl
        refine ⟨l :: lines, ?_, tail, h2, ?_⟩
        · intro x hx
          rcases List.mem_cons.mp hx with rfl | hx
          · exact ⟨hl, hlen⟩
          · exact h1 x hx
        · rw [h3]
          simp
      · exact ⟨[], by simp, _, .inr ⟨l, t, rfl, hl, by omega⟩, by simp⟩
    · exact ⟨[], by simp, content, .inl h, by simp⟩

theorem foldM_plain (s : TextState K) (lines : List Str) : foldM textLine s lines = foldM textLine s (plainLines lines) := by
  induction lines generalizing s with
  | nil => rfl
  | cons l lines ih =>
    unfold plainLines at ih ⊢
    rw [foldM_cons]
    by_cases h : l.head? = some '#'
    · rw [List.filter_cons_of_neg (by simp [h]), textLine, if_pos h, ok_bind, ih]
    · rw [List.filter_cons_of_pos (by simp [h]), foldM_cons]
      exact bind_congr fun s => ih s

theorem setInsert_mem (t x : Int) (l : List Int) : x ∈ setInsert t l ↔ x = t ∨ x ∈ l := by
  induction l with
  | nil => simp [setInsert]
  | cons a l ih =>
    rw [setInsert]
    split_ifs with h1 h2
    · simp
    · subst h2; simp
    · rw [List.mem_cons, ih, List.mem_cons]
      tauto

theorem setInsert_sorted {t : Int} {l : List Int} (h : l.Pairwise (· < ·)) : (setInsert t l).Pairwise (· < ·) := by
  induction l with
  | nil => simp [setInsert]
  | cons a l ih =>
    obtain ⟨h1, h2⟩ := List.pairwise_cons.mp h
    rw [setInsert]
    split_ifs with h3 h4
    · refine List.pairwise_cons.mpr ⟨?_, h⟩
      intro x hx
      rcases List.mem_cons.mp hx with rfl | hx
      · exact h3
      · exact h3.trans (h1 x hx)
    · exact h
    · refine List.pairwise_cons.mpr ⟨?_, ih h2⟩
      intro x hx
      rcases (setInsert_mem t x l).mp hx with rfl | hx
      · omega
      · exact h1 x hx

/-! ### White space at the end of a line -/

/-- What is left after some characters that are no white space. -/
def Eats (s rest : Str) : Prop := ∃ pre, s = pre ++ rest ∧ ∀ c ∈ pre, ¬ White c

theorem Eats.refl (s : Str) : Eats s s := ⟨[], rfl, by simp⟩

theorem Eats.trans {s t u : Str} (h : Eats s t) (h' : Eats t u) : Eats s u := by
  obtain ⟨p, rfl, h1⟩ := h
  obtain ⟨q, rfl, h2⟩ := h'
  exact ⟨p ++ q, by simp, fun c hc => (List.mem_append.mp hc).elim (h1 c) (h2 c)⟩

theorem takeWhile_all {p : Char → Bool} {s : Str} {c : Char} (h : c ∈ s.takeWhile p) : p c = true := by
  induction s with
  | nil => simp at h
  | cons x s ih =>
    rw [List.takeWhile_cons] at h
    split_ifs at h with hx
    · rcases List.mem_cons.mp h with rfl | h
      · exact hx
      · exact ih h
    · simp at h

theorem eats_digits (s : Str) : Eats s (s.dropWhile isDigit) :=
  ⟨s.takeWhile isDigit, List.takeWhile_append_dropWhile.symm, fun _ hc => (digit_facts ((isDigit_iff _).mp (takeWhile_all hc))).1⟩

theorem eats_sign (s : Str) : Eats s (takeSign s).2 := by
  unfold takeSign
  split
  · exact ⟨['-'], rfl, by simp [White]⟩
  · exact ⟨['+'], rfl, by simp [White]⟩
  · exact .refl s

theorem eats_fraction (s : Str) : Eats s (takeFraction s).2 := by
  unfold takeFraction
  split
  · rename_i t
    exact Eats.trans ⟨['.'], rfl, by simp [White]⟩ (eats_digits t)
  · exact .refl s

theorem eats_exponent {s rest : Str} {e : Int} (h : scanExponent s = some (e, rest)) : Eats s rest := by
  cases s with
  | nil =>
    rw [scanExponent] at h
    cases h
    exact .refl _
  | cons c s =>
    rw [scanExponent] at h
    split_ifs at h with h1
    · simp only at h
      have hc : Eats (c :: s) s := ⟨[c], rfl, by rcases h1 with rfl | rfl <;> simp [White]⟩
      split_ifs at h with h2
      all_goals
        cases h
        exact (hc.trans (eats_sign s)).trans (eats_digits _)
    · cases h
      exact .refl _

theorem Eats.length {s rest : Str} (h : Eats s rest) : rest.length ≤ s.length := by
  obtain ⟨p, rfl, -⟩ := h
  simp

theorem digits_length {s : Str} (h : s.takeWhile isDigit ≠ []) : (s.dropWhile isDigit).length < s.length := by
  have h1 := congrArg List.length (List.takeWhile_append_dropWhile (p := isDigit) (l := s))
  have h2 := List.length_pos_iff.mpr h
  rw [List.length_append] at h1
  omega

theorem eats_int {s rest : Str} {v : Int} (h : scanInt s = some (v, rest)) : Eats s rest ∧ rest.length < s.length := by
  unfold scanInt at h
  simp only at h
  split_ifs at h with h1 h2 h3 h4
  all_goals
    cases h
    exact ⟨(eats_sign s).trans (eats_digits _), lt_of_lt_of_le (digits_length h1) (eats_sign s).length⟩

theorem eats_float {s rest : Str} {q : K} (h : scanFloat s = some (q, rest)) : Eats s rest ∧ rest.length < s.length := by
  unfold scanFloat at h
  simp only at h
  by_cases h1 : (takeSign s).2.takeWhile isDigit = [] ∧ (takeFraction ((takeSign s).2.dropWhile isDigit)).1 = []
  · rw [if_pos h1] at h
    cases h
  · rw [if_neg h1] at h
    cases h2 : scanExponent (takeFraction ((takeSign s).2.dropWhile isDigit)).2 with
    | none => rw [h2] at h; cases h
    | some e =>
      rw [h2] at h
      cases h
      have e1 := eats_sign s
      have e2 := eats_digits (takeSign s).2
      have e3 := eats_fraction ((takeSign s).2.dropWhile isDigit)
      have e4 : Eats _ e.2 := eats_exponent h2
      refine ⟨((e1.trans e2).trans e3).trans e4, ?_⟩
      have l1 := e1.length
      have l2 := e2.length
      have l3 := e3.length
      have l4 := e4.length
      by_cases hw : (takeSign s).2.takeWhile isDigit = []
      · have hf : (takeFraction ((takeSign s).2.dropWhile isDigit)).1 ≠ [] := fun hf => h1 ⟨hw, hf⟩
        have : (takeFraction ((takeSign s).2.dropWhile isDigit)).2.length < ((takeSign s).2.dropWhile isDigit).length := by
          revert hf
          generalize (takeSign s).2.dropWhile isDigit = u
          unfold takeFraction
          split
          · rename_i t
            intro hf
            have := digits_length hf
            simp only [List.length_cons]
            omega
          · intro hf
            exact absurd rfl hf
        omega
      · have := digits_length hw
        omega

/-- The line is empty or ends with white space. -/
def EndsWhite (s : Str) : Prop := ∀ c ∈ s.getLast?, White c

theorem Eats.endsWhite {s rest : Str} (h : Eats s rest) (hs : EndsWhite s) (hne : s ≠ []) : rest ≠ [] ∧ EndsWhite rest := by
  obtain ⟨p, rfl, hp⟩ := h
  have hr : rest ≠ [] := by
    rintro rfl
    rw [List.append_nil] at hs hne
    exact hp _ (List.getLast_mem hne) (hs _ (by rw [List.getLast?_eq_some_getLast hne]; rfl))
  refine ⟨hr, fun c hc => hs c ?_⟩
  rw [List.getLast?_append_of_ne_nil _ hr]
  exact hc

theorem skipSpace_endsWhite {s : Str} (hs : EndsWhite s) : EndsWhite (skipSpace s) ∧ (skipSpace s).length ≤ s.length := by
  have h1 : s.takeWhile isSpace ++ skipSpace s = s := List.takeWhile_append_dropWhile
  constructor
  · by_cases hne : skipSpace s = []
    · rw [hne]
      intro c hc
      simp at hc
    · intro c hc
      refine hs c ?_
      rw [← h1, List.getLast?_append_of_ne_nil _ hne]
      exact hc
  · have := congrArg List.length h1
    rw [List.length_append] at this
    omega

theorem headerLoop_white (n : Nat) (s : Str) (k : Nat) (c : Columns) (hn : s.length < n) (hs : EndsWhite s) : headerLoop n s k c = .abort := by
  induction n generalizing s k c with
  | zero => omega
  | succ n ih =>
    obtain ⟨h1, h2⟩ := skipSpace_endsWhite hs
    simp only [headerLoop]
    by_cases hne : skipSpace s = []
    · rw [if_pos hne]; rfl
    · rw [if_neg hne]
      have he : Eats (skipSpace s) ((skipSpace s).dropWhile fun x => !isSpace x) :=
        ⟨(skipSpace s).takeWhile fun x => !isSpace x, List.takeWhile_append_dropWhile.symm, fun x hx => by
          have := takeWhile_all hx
          rw [Bool.not_eq_true', ← Bool.not_eq_true, isSpace_iff] at this
          exact this⟩
      obtain ⟨h3, h4⟩ := he.endsWhite h1 hne
      rw [if_neg h3]
      refine ih _ _ _ ?_ h4
      have hlt : ((skipSpace s).dropWhile fun x => !isSpace x).length < (skipSpace s).length := by
        cases hsk : skipSpace s with
        | nil => exact absurd hsk hne
        | cons x t =>
          have hx : isSpace x = false := by
            have := List.head_dropWhile_not isSpace (l := s) (by unfold skipSpace at hsk; rw [hsk]; simp)
            unfold skipSpace at hsk
            simpa [hsk] using this
          rw [List.dropWhile_cons_of_pos (by simp [hx]), List.length_cons]
          exact Nat.lt_succ_of_le (List.dropWhile_sublist _).length_le
      omega

theorem readCell_white {c : Columns} {k : Nat} {s : Str} {r : TextRow K} (hs : EndsWhite s) :
    readCell c k s r = .abort ∨ ∃ r' rest, readCell c k s r = ok (r', rest) ∧ rest ≠ [] ∧ EndsWhite rest ∧ rest.length < s.length := by
  obtain ⟨h1, h2⟩ := skipSpace_endsWhite hs
  have key : ∀ rest, Eats (skipSpace s) rest → rest.length < (skipSpace s).length → rest ≠ [] ∧ EndsWhite rest ∧ rest.length < s.length := by
    intro rest he hl
    obtain ⟨h3, h4⟩ := he.endsWhite h1 (by intro h; rw [h] at hl; simp at hl)
    exact ⟨h3, h4, by omega⟩
  unfold readCell
  split_ifs with e1 e2 e3 e4
  · cases hv : scanInt (skipSpace s) with
    | none => exact .inl rfl
    | some v => exact .inr ⟨_, _, rfl, key v.2 (eats_int hv).1 (eats_int hv).2⟩
  all_goals
    cases hv : scanFloat (K := K) (skipSpace s) with
    | none => exact .inl rfl
    | some v => exact .inr ⟨_, _, rfl, key v.2 (eats_float hv).1 (eats_float hv).2⟩

theorem rowLoop_white (c : Columns) (n : Nat) (s : Str) (k : Nat) (r : TextRow K) (hn : s.length < n) (hs : EndsWhite s) :
    rowLoop c n s k r = .abort := by
  induction n generalizing s k r with
  | zero => omega
  | succ n ih =>
    rw [rowLoop]
    rcases readCell_white (c := c) (k := k) (r := r) hs with h | ⟨r', rest, h, h1, h2, h3⟩
    · rw [h]; rfl
    · rw [h, ok_bind, if_neg h1]
      exact ih _ _ _ (by show rest.length < n; omega) h2

end Gridpp.Client
