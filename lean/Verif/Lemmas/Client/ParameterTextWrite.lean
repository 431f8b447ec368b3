import Verif.Lemmas.Client.ParameterText

/-! # Text files with parameters: lemmas for writing -/

set_option linter.unusedSectionVars false

namespace Gridpp.Client
open Fl hiding MV isValid
open Res Spec

/-! ### The words that are written -/

theorem showNat_digit (r : Nat) (hr : r < 10) : Digit (Char.ofNat (48 + r)) ∧ (Char.ofNat (48 + r)).toNat - 48 = r := by
  have : r = 0 ∨ r = 1 ∨ r = 2 ∨ r = 3 ∨ r = 4 ∨ r = 5 ∨ r = 6 ∨ r = 7 ∨ r = 8 ∨ r = 9 := by omega
  unfold Digit
  rcases this with rfl | rfl | rfl | rfl | rfl | rfl | rfl | rfl | rfl | rfl <;> decide

theorem showNat_spec (d n : Nat) (h : n < 10 ^ d) (hd : 0 < d) :
    showNat d n ≠ [] ∧ (∀ c ∈ showNat d n, Digit c) ∧ digitsVal (showNat d n) = n ∧ (showNat d n).length ≤ d := by
  induction d generalizing n with
  | zero => omega
  | succ d ih =>
    obtain ⟨g1, g2⟩ := showNat_digit (n % 10) (Nat.mod_lt _ (by omega))
    rw [showNat]
    by_cases hn : n < 10
    · rw [if_pos hn, List.nil_append]
      refine ⟨by simp, ?_, ?_, by simp⟩
      · intro c hc
        rw [List.mem_singleton.mp hc]
        exact g1
      · simp only [digitsVal, List.foldl_cons, List.foldl_nil, g2]
        omega
    · rw [if_neg hn]
      have hd0 : 0 < d := by
        rcases Nat.eq_zero_or_pos d with rfl | h'
        · simp at h; omega
        · exact h'
      obtain ⟨h1, h2, h3, h4⟩ := ih (n / 10) (by rw [pow_succ] at h; omega) hd0
      refine ⟨by simp, ?_, ?_, by simp; omega⟩
      · intro c hc
        rcases List.mem_append.mp hc with hc | hc
        · exact h2 c hc
        · rw [List.mem_singleton.mp hc]
          exact g1
      · have e : digitsVal (showNat d (n / 10) ++ [Char.ofNat (48 + n % 10)]) =
            10 * digitsVal (showNat d (n / 10)) + ((Char.ofNat (48 + n % 10)).toNat - 48) := by simp [digitsVal]
        rw [e, h3, g2]
        omega

theorem showNat_more (d n : Nat) (h : n < 10 ^ d) (hd : 0 < d) (k : Nat) : showNat (d + k) n = showNat d n := by
  induction d generalizing n with
  | zero => omega
  | succ d ih =>
    rw [Nat.succ_add, showNat, showNat]
    by_cases hn : n < 10
    · rw [if_pos hn, if_pos hn]
    · have hd0 : 0 < d := by
        rcases Nat.eq_zero_or_pos d with rfl | h'
        · simp at h; omega
        · exact h'
      rw [if_neg hn, if_neg hn, ih (n / 10) (by rw [pow_succ] at h; omega) hd0]

/-- The time as it is written. -/
theorem showTime_spec (n : Nat) : showNat (n + 1) n ≠ [] ∧ (∀ c ∈ showNat (n + 1) n, Digit c) ∧ IntNumeral (showNat (n + 1) n) n ∧
    (n < 2147483648 → (showNat (n + 1) n).length ≤ 10) := by
  have hlt : n < 10 ^ (n + 1) := lt_of_lt_of_le (Nat.lt_pow_self (by omega : 1 < 10)) (Nat.pow_le_pow_right (by omega) (by omega))
  obtain ⟨h1, h2, h3, h4⟩ := showNat_spec (n + 1) n hlt (by omega)
  refine ⟨h1, h2, ⟨[], _, 1, .none, h1, h2, rfl, by rw [← digitsVal_eq, h3]; simp⟩, fun hn => ?_⟩
  by_cases hd : n + 1 ≤ 10
  · omega
  · have hn10 : n < 10 ^ 10 := by norm_num; omega
    have e : n + 1 = 10 + (n + 1 - 10) := by omega
    rw [e, showNat_more 10 n hn10 (by omega)]
    exact (showNat_spec 10 n hn10 (by omega)).2.2.2

variable {K : Type} [Field K] [LinearOrder K] [IsStrictOrderedRing K]

theorem numeral_word {w : Str} {q : K} (h : Numeral w q) : w ≠ [] ∧ ∀ c ∈ w, ¬ White c := by
  obtain ⟨sg, whole, pt, frac, ex, g, e, hg, hw, hf, he, hne, rfl, -⟩ := h
  constructor
  · intro h0
    simp only [List.append_eq_nil_iff] at h0
    obtain ⟨⟨⟨-, h1⟩, h2⟩, -⟩ := h0
    refine hne ⟨h1, ?_⟩
    cases hf with
    | none => rfl
    | point _ => cases h2
  · have hs : ∀ {sg : Str} {g : Int}, Sign sg g → ∀ c ∈ sg, ¬ White c := by
      intro sg g h c hc
      cases h with
      | none => simp at hc
      | plus => rw [List.mem_singleton.mp hc]; simp [White]
      | minus => rw [List.mem_singleton.mp hc]; simp [White]
    intro c hc
    simp only [List.mem_append] at hc
    rcases hc with ((hc | hc) | hc) | hc
    · exact hs hg c hc
    · exact (digit_facts (hw c hc)).1
    · cases hf with
      | none => simp at hc
      | point hd =>
        rcases List.mem_cons.mp hc with rfl | hc
        · simp [White]
        · exact (digit_facts (hd c hc)).1
    · cases he with
      | none => simp at hc
      | some hx hn =>
        obtain ⟨sg', ds, g', hg', -, hd, rfl, -⟩ := hn
        rcases List.mem_cons.mp hc with rfl | hc
        · rcases hx with rfl | rfl <;> simp [White]
        · rcases List.mem_append.mp hc with hc | hc
          · exact hs hg' c hc
          · exact (digit_facts (hd c hc)).1

theorem wordLine_of (b w : Str) (ws : List Str) (hb : ∀ c ∈ b, White c) (hw : ∀ x ∈ w :: ws, x ≠ [] ∧ ∀ c ∈ x, ¬ White c) :
    WordLine (b ++ w ++ ws.flatMap fun x => ' ' :: x) (w :: ws) := by
  induction ws generalizing b w with
  | nil =>
    rw [List.flatMap_nil, List.append_nil]
    exact .last hb (hw w (by simp)).1 (hw w (by simp)).2
  | cons x ws ih =>
    have h := ih [' '] x (by simp [White]) fun y hy => hw y (by simp at hy ⊢; right; exact hy)
    exact .cons hb (hw w (by simp)).1 (hw w (by simp)).2 (by simp [White]) h

/-! ### The lines that are written -/

/-- The settings that are written for one place. -/
def rowsAt (dependent : Bool) (e : Loc K × List (Pars K)) : List (Setting K) :=
  (List.range e.2.length).filterMap fun i =>
    if (e.2.getD i []).length ≠ 0 then some ⟨e.1.lat, e.1.lon, if dependent then e.1.elev else fin (-999), i, e.2.getD i []⟩ else none

/-- The line for a setting, without the line break. -/
def rowText (display : Fl K → Str) (dependent : Bool) (w : Setting K) : Str :=
  showNat (w.time + 1) w.time ++ (if dependent then ' ' :: display (fin w.lat) ++ ' ' :: display (fin w.lon) ++ ' ' :: display w.elev else []) ++
    w.pars.flatMap fun v => ' ' :: display v

theorem flatMap_filterMap' {α β γ : Type} (l : List α) (g : α → Option β) (f : β → List γ) (h : α → List γ)
    (hh : ∀ a ∈ l, h a = match g a with | some b => f b | none => []) : l.flatMap h = (l.filterMap g).flatMap f := by
  induction l with
  | nil => rfl
  | cons a l ih =>
    rw [List.flatMap_cons, hh a (by simp), ih fun x hx => hh x (by simp [hx]), List.filterMap_cons]
    cases g a <;> rfl

theorem writePlace_eq (display : Fl K → Str) (dependent : Bool) (e : Loc K × List (Pars K)) :
    writePlace display dependent e = (rowsAt dependent e).flatMap fun w => rowText display dependent w ++ ['\n'] := by
  unfold writePlace rowsAt
  refine flatMap_filterMap' _ _ _ _ fun i _ => ?_
  by_cases h : (e.2.getD i []).length ≠ 0
  · rw [if_pos h]
    simp only [if_pos h, rowText]
    cases dependent <;> rfl
  · rw [if_neg h]
    simp only [if_neg h]

theorem mem_rowsAt {dependent : Bool} {e : Loc K × List (Pars K)} {w : Setting K} : w ∈ rowsAt dependent e ↔
    w.lat = e.1.lat ∧ w.lon = e.1.lon ∧ (w.elev = if dependent then e.1.elev else fin (-999)) ∧ w.time < e.2.length ∧
      w.pars = e.2.getD w.time [] ∧ w.pars ≠ [] := by
  unfold rowsAt
  rw [List.mem_filterMap]
  constructor
  · rintro ⟨i, hi, h⟩
    split_ifs at h with h1 h2
    all_goals
      cases h
      refine ⟨rfl, rfl, ?_, List.mem_range.mp hi, rfl, fun h' => h1 (List.length_eq_zero_iff.mpr h')⟩
      simp_all
  · rintro ⟨h1, h2, h3, h4, h5, h6⟩
    refine ⟨w.time, List.mem_range.mpr h4, ?_⟩
    rw [← h5, if_pos (by simpa using h6), ← h1, ← h2, ← h3]

/-- The number is written so that it is read again. -/
def Exact (display : Fl K → Str) (L : Nat) (v : Fl K) : Prop := ∃ q, v = fin q ∧ Numeral (display v) q ∧ (display v).length ≤ L

/-- The words of a line. -/
def rowWords (display : Fl K → Str) (dependent : Bool) (w : Setting K) : List Str :=
  (if dependent then [display (fin w.lat), display (fin w.lon), display w.elev] else []) ++ w.pars.map display

theorem rowText_words (display : Fl K → Str) (dependent : Bool) (w : Setting K) :
    rowText display dependent w = [] ++ showNat (w.time + 1) w.time ++ (rowWords display dependent w).flatMap fun x => ' ' :: x := by
  unfold rowText rowWords
  cases dependent <;> simp [List.flatMap_map]

theorem rowText_wordLine {display : Fl K → Str} {dependent : Bool} {w : Setting K}
    (hx : ∀ x ∈ rowWords display dependent w, ∃ q : K, Numeral x q) :
    WordLine (rowText display dependent w) (showNat (w.time + 1) w.time :: rowWords display dependent w) := by
  rw [rowText_words]
  refine wordLine_of _ _ _ (by simp) fun x h => ?_
  rcases List.mem_cons.mp h with rfl | h
  · obtain ⟨h1, h2, -⟩ := showTime_spec w.time
    exact ⟨h1, fun c hc => (digit_facts (h2 c hc)).1⟩
  · obtain ⟨q, hq⟩ := hx x h
    exact numeral_word hq

/-- The names of the header. -/
def headerNames (dependent : Bool) : List Str :=
  if dependent then ["time".toList, "lat".toList, "lon".toList, "elev".toList] else ["time".toList]

theorem kind_late (dependent : Bool) (k : Nat) (hk : (headerNames dependent).length ≤ k) : columnKind (headerNames dependent) k = .parameter := by
  have h : ∀ name, ¬ LastWith (headerNames dependent) name k := by
    rintro name ⟨h, -⟩
    rw [List.getElem?_eq_none hk] at h
    cases h
  unfold columnKind
  rw [if_neg (h _), if_neg (h _), if_neg (h _), if_neg (h _)]

theorem wordsOf_late (dependent : Bool) (kind : ColumnKind) (k : Nat) (hk : (headerNames dependent).length ≤ k) (ws : List Str) :
    wordsOf (headerNames dependent) kind k ws = if kind = .parameter then ws else [] := by
  induction ws generalizing k with
  | nil => simp [wordsOf]
  | cons w ws ih =>
    rw [wordsOf, kind_late dependent k hk, ih (k + 1) (by omega)]
    by_cases h : kind = .parameter
    · subst h; simp
    · rw [if_neg (fun h' => h h'.symm), if_neg h, if_neg h]

theorem forall₂_exact {display : Fl K → Str} {L : Nat} {ps : List (Fl K)} (h : ∀ v ∈ ps, Exact display L v) :
    List.Forall₂ (fun w v => ∃ q : K, Numeral w q ∧ v = fin q) (ps.map display) ps := by
  induction ps with
  | nil => exact .nil
  | cons v ps ih =>
    obtain ⟨q, h1, h2, -⟩ := h v (by simp)
    exact .cons ⟨q, h2, h1⟩ (ih fun x hx => h x (by simp [hx]))

/-- What a line for a place says. -/
theorem rowMeans_place {display : Fl K → Str} {L : Nat} {w : Setting K} {h : K} (ht : w.time < 2147483648) (hp : ∀ v ∈ w.pars, Exact display L v)
    (h1 : Exact display L (fin w.lat)) (h2 : Exact display L (fin w.lon)) (h3 : Exact display L w.elev) (he : w.elev = fin h)
    (hv : w.lat ≠ -999 ∧ w.lon ≠ -999 ∧ h ≠ -999) : RowMeans (headerNames true) (rowText display true w) w := by
  obtain ⟨q1, e1, n1, -⟩ := h1
  obtain ⟨q2, e2, n2, -⟩ := h2
  obtain ⟨q3, e3, n3, -⟩ := h3
  cases e1
  cases e2
  rw [he] at e3
  cases e3
  have k0 : columnKind (headerNames true) 0 = .time := by decide
  have k1 : columnKind (headerNames true) 1 = .lat := by decide
  have k2 : columnKind (headerNames true) 2 = .lon := by decide
  have k3 : columnKind (headerNames true) 3 = .elev := by decide
  have hw : ∀ kind, wordsOf (headerNames true) kind 0 (showNat (w.time + 1) w.time :: rowWords display true w) =
      (if kind = .time then [showNat (w.time + 1) w.time] else if kind = .lat then [display (fin w.lat)] else if kind = .lon then
        [display (fin w.lon)] else if kind = .elev then [display w.elev] else w.pars.map display) := by
    intro kind
    have hr : rowWords display true w = display (fin w.lat) :: display (fin w.lon) :: display w.elev :: w.pars.map display := rfl
    rw [hr]
    simp only [wordsOf, k0, k1, k2, k3, Nat.zero_add, Nat.reduceAdd]
    rw [wordsOf_late true kind 4 (by decide)]
    cases kind <;> rfl
  refine ⟨_, w.lat, w.lon, h, rowText_wordLine ?_, ⟨?_, ht, ?_, ?_, ?_, ?_⟩, fun _ => ⟨rfl, rfl, he⟩, ?_⟩
  · intro x hx
    simp only [rowWords, if_true, List.cons_append, List.nil_append, List.mem_cons, List.mem_map] at hx
    rcases hx with rfl | rfl | rfl | ⟨v, hv, rfl⟩
    · exact ⟨_, n1⟩
    · exact ⟨_, n2⟩
    · exact ⟨_, n3⟩
    · obtain ⟨q, -, hq, -⟩ := hp v hv
      exact ⟨q, hq⟩
  · rw [CellIs, hw]
    exact ⟨fun x hx => by rw [List.mem_singleton.mp hx]; exact (showTime_spec w.time).2.2.1, by simp⟩
  · rw [CellIs, hw]
    exact ⟨fun x hx => by rw [List.mem_singleton.mp hx]; exact n1, by simp⟩
  · rw [CellIs, hw]
    exact ⟨fun x hx => by rw [List.mem_singleton.mp hx]; exact n2, by simp⟩
  · rw [CellIs, hw]
    exact ⟨fun x hx => by rw [List.mem_singleton.mp hx]; exact n3, by simp⟩
  · rw [hw]
    exact forall₂_exact hp
  · rintro (h' | h' | h')
    · exact absurd h' hv.1
    · exact absurd h' hv.2.1
    · exact absurd h' hv.2.2

/-- What a line for no place says. -/
theorem rowMeans_nowhere {display : Fl K → Str} {L : Nat} {w : Setting K} (ht : w.time < 2147483648) (hp : ∀ v ∈ w.pars, Exact display L v)
    (hv : w.lat = -999 ∧ w.lon = -999 ∧ w.elev = fin (-999)) : RowMeans (headerNames false) (rowText display false w) w := by
  have k0 : columnKind (headerNames false) 0 = .time := by decide
  have hw : ∀ kind, wordsOf (headerNames false) kind 0 (showNat (w.time + 1) w.time :: rowWords display false w) =
      (if kind = .time then [showNat (w.time + 1) w.time] else if kind = .parameter then w.pars.map display else []) := by
    intro kind
    have hr : rowWords display false w = w.pars.map display := rfl
    rw [hr]
    simp only [wordsOf, k0, Nat.zero_add]
    rw [wordsOf_late false kind 1 (by decide)]
    cases kind <;> rfl
  refine ⟨_, -999, -999, -999, rowText_wordLine ?_, ⟨?_, ht, ?_, ?_, ?_, ?_⟩, fun h => absurd rfl h.1, fun _ => hv⟩
  · intro x hx
    simp only [rowWords, Bool.false_eq_true, if_false, List.nil_append, List.mem_map] at hx
    obtain ⟨v, hv, rfl⟩ := hx
    obtain ⟨q, -, hq, -⟩ := hp v hv
    exact ⟨q, hq⟩
  · rw [CellIs, hw]
    exact ⟨fun x hx => by rw [List.mem_singleton.mp hx]; exact (showTime_spec w.time).2.2.1, by simp⟩
  · rw [CellIs, hw]; simp
  · rw [CellIs, hw]; simp
  · rw [CellIs, hw]; simp
  · rw [hw]
    exact forall₂_exact hp

/-- The lines are no comments, have no line break, and are not too long. -/
theorem rowText_line {display : Fl K → Str} {L : Nat} {dependent : Bool} {w : Setting K} (ht : w.time < 2147483648)
    (hp : ∀ v ∈ w.pars, Exact display L v)
    (hd : dependent = true → Exact display L (fin w.lat) ∧ Exact display L (fin w.lon) ∧ Exact display L w.elev) :
    '\n' ∉ rowText display dependent w ∧ (rowText display dependent w).head? ≠ some '#' ∧
      (rowText display dependent w).length ≤ 10 + (w.pars.length + 3) * (L + 1) := by
  obtain ⟨t1, t2, -, t4⟩ := showTime_spec w.time
  have hwords : ∀ x ∈ rowWords display dependent w, ∃ v, Exact display L v ∧ x = display v := by
    intro x hx
    unfold rowWords at hx
    rcases List.mem_append.mp hx with hx | hx
    · cases dependent with
      | false => simp at hx
      | true =>
        obtain ⟨h1, h2, h3⟩ := hd rfl
        simp only [if_true, List.mem_cons, List.not_mem_nil, or_false] at hx
        rcases hx with rfl | rfl | rfl
        · exact ⟨_, h1, rfl⟩
        · exact ⟨_, h2, rfl⟩
        · exact ⟨_, h3, rfl⟩
    · obtain ⟨v, hv, rfl⟩ := List.mem_map.mp hx
      exact ⟨v, hp v hv, rfl⟩
  have hlen : ∀ ws : List Str, (∀ x ∈ ws, x.length ≤ L) → (ws.flatMap fun x => ' ' :: x).length ≤ ws.length * (L + 1) := by
    intro ws h
    induction ws with
    | nil => simp
    | cons x ws ih =>
      have h1 := h x (by simp)
      have h2 := ih fun y hy => h y (by simp [hy])
      rw [List.flatMap_cons, List.length_append, List.length_cons, List.length_cons, Nat.succ_mul]
      omega
  rw [rowText_words, List.nil_append]
  refine ⟨?_, ?_, ?_⟩
  · intro h
    rcases List.mem_append.mp h with h | h
    · exact (digit_facts (t2 _ h)).1 (by simp [White])
    · obtain ⟨x, hx, h⟩ := List.mem_flatMap.mp h
      obtain ⟨v, ⟨q, -, hq, -⟩, rfl⟩ := hwords x hx
      rcases List.mem_cons.mp h with h | h
      · exact absurd h (by decide)
      · exact (numeral_word hq).2 _ h (by simp [White])
  · cases hs : showNat (w.time + 1) w.time with
    | nil => exact absurd hs t1
    | cons c s =>
      have hc := t2 c (by rw [hs]; simp)
      rw [List.cons_append, List.head?_cons]
      intro h
      cases h
      simp [Digit] at hc
  · rw [List.length_append]
    have h1 := t4 ht
    have h2 := hlen (rowWords display dependent w) fun x hx => by
      obtain ⟨v, ⟨q, -, -, hl⟩, rfl⟩ := hwords x hx
      exact hl
    have h3 : (rowWords display dependent w).length ≤ w.pars.length + 3 := by
      unfold rowWords
      cases dependent <;> simp
    have h4 := Nat.mul_le_mul_right (L + 1) h3
    omega

end Gridpp.Client
