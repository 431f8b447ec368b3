import Verif.Model.Client.Descriptions
import Verif.Spec.Descriptions
import Verif.Lemmas.Client.Setup

/-! # C157: descriptions in two columns -/

namespace Gridpp.Props
open Gridpp.Client Gridpp.Spec Res

theorem joinWords_snoc (w : Str) : ∀ g : List Str, joinWords (g ++ [w]) = if g = [] then w else joinWords g ++ [' '] ++ w
  | [] => rfl
  | [x] => by simp [joinWords]
  | x :: y :: t => by
    have := joinWords_snoc w (y :: t)
    simp only [List.cons_append, joinWords, reduceCtorEq, if_false] at this ⊢
    rw [this]
    simp

theorem descriptionLines_cons (l : Str) {m : List Str} (h : m ≠ []) : joinLines (l :: m) = l ++ '\n' :: joinLines m := by
  cases m with
  | nil => exact absurd rfl h
  | cons a t => rfl

/-- A line is not longer than one more than the limit, or has no word, or is one of the later ones and has one word. -/
def LineFits (width maxLength : Nat) (l : Str × List Str) : Prop :=
  (lineText l).length ≤ maxLength + 1 ∨ l.2 = [] ∨ l.1 = List.replicate width ' ' ∧ ∃ w, l.2 = [w]

theorem formatLoop_ok (width maxLength : Nat) : ∀ (words : List Str) (ss start : Str) (g : List Str), LineFits width maxLength (start, g) →
    ∃ more lines, formatLoop width maxLength words (decide (g = [])) ss (lineText (start, g)) = ss ++ joinLines (((start, g ++ more) :: lines).map lineText) ∧
      more ++ (lines.map Prod.snd).flatten = words ∧ (∀ l ∈ lines, l.1 = List.replicate width ' ' ∧ l.2 ≠ []) ∧
      ((start, g ++ more) :: lines).IsChain (fun a b => ∃ w, b.2.head? = some w ∧ maxLength < (lineText a).length + w.length) ∧
      ∀ l ∈ (start, g ++ more) :: lines, LineFits width maxLength l
  | [], ss, start, g, hf => ⟨[], [], by simp [formatLoop, joinLines], rfl, by simp, by simp, by simpa using hf⟩
  | w :: words, ss, start, g, hf => by
    unfold formatLoop
    by_cases hb : maxLength < (lineText (start, g)).length + w.length
    · rw [if_pos (by unfold tooLong; simp; omega)]
      obtain ⟨more, lines, h1, h2, h3, h4, h5⟩ := formatLoop_ok width maxLength words (ss ++ lineText (start, g) ++ ['\n']) (List.replicate width ' ') [w]
        (.inr (.inr ⟨rfl, w, rfl⟩))
      refine ⟨[], (List.replicate width ' ', [w] ++ more) :: lines, ?_, ?_, ?_, ?_, ?_⟩
      · have : formatLoop (width : Int) maxLength words false (ss ++ lineText (start, g) ++ ['\n']) (spaces width ++ w) =
            formatLoop (width : Int) maxLength words (decide ([w] = [])) (ss ++ lineText (start, g) ++ ['\n']) (lineText (List.replicate width ' ', [w])) := by
          simp [spaces, lineText, joinWords]
        rw [this, h1, List.append_nil]
        rw [show ((start, g) :: (List.replicate width ' ', [w] ++ more) :: lines).map lineText =
            lineText (start, g) :: ((List.replicate width ' ', [w] ++ more) :: lines).map lineText from rfl, descriptionLines_cons _ (by simp)]
        simp
      · simp [h2]
      · intro l hl
        rcases List.mem_cons.mp hl with rfl | hl
        · exact ⟨rfl, by simp⟩
        · exact h3 l hl
      · rw [List.append_nil]
        exact List.isChain_cons_cons.mpr ⟨⟨w, rfl, hb⟩, h4⟩
      · rw [List.append_nil]
        intro l hl
        rcases List.mem_cons.mp hl with rfl | hl
        · exact hf
        · exact h5 l hl
    · rw [if_neg (by unfold tooLong; simp; omega)]
      have hline : lineText (start, g ++ [w]) = if g = [] then lineText (start, g) ++ w else lineText (start, g) ++ [' '] ++ w := by
        unfold lineText
        simp only
        rw [joinWords_snoc]
        by_cases hg : g = []
        · simp [hg, joinWords]
        · simp [hg]
      obtain ⟨more, lines, h1, h2, h3, h4, h5⟩ := formatLoop_ok width maxLength words ss start (g ++ [w]) (by
        left
        rw [hline]
        split_ifs <;> simp <;> omega)
      refine ⟨w :: more, lines, ?_, by simp [← h2], h3, ?_, ?_⟩
      · rw [show g ++ w :: more = g ++ [w] ++ more by simp, ← h1, hline]
        by_cases hg : g = [] <;> simp [hg]
      · rw [show g ++ w :: more = g ++ [w] ++ more by simp]
        exact h4
      · rw [show g ++ w :: more = g ++ [w] ++ more by simp]
        exact h5

theorem titlePart_eq (title : Str) (width indent : Nat) : titlePart title width indent = titleColumn title width indent := by
  unfold titlePart titleColumn spaces
  simp only [List.length_append, List.length_replicate, Int.toNat_natCast]
  congr 2
  omega

/-- C157: the title is in the first column, the words of the message are in the second one, each of them once and in order, and a line
is ended only if the next word does not fit. If the title and all words are short enough, no line has more than one character too many. -/
theorem c157_columns_partial (title message : Str) {width maxLength : Nat} (indent : Nat) (h : width < maxLength) :
    ∃ words lines, Words (fun c => c == ' ') message words ∧ TwoColumns title width maxLength indent words lines ∧
      formatDescription title message width maxLength indent = ok (joinLines (lines.map lineText)) ∧
      ((titleColumn title width indent).length ≤ maxLength → (∀ w ∈ words, width + w.length ≤ maxLength) → ∀ l ∈ lines, (lineText l).length ≤ maxLength + 1) := by
  obtain ⟨words, h1, h2⟩ := split_ok message [' ']
  obtain ⟨more, lines, f1, f2, f3, f4, f5⟩ := formatLoop_ok width maxLength words [] (titleColumn title width indent) [] (.inr (.inl rfl))
  refine ⟨words, (titleColumn title width indent, more) :: lines, ?_, ⟨rfl, f3, f2, f4⟩, ?_, ?_⟩
  · have : (fun c => [' '].contains c) = fun c => c == ' ' := by
      funext c
      by_cases hc : c = ' ' <;> simp [hc]
    rw [this] at h2
    exact h2
  · unfold formatDescription
    rw [if_neg (by omega), h1, ok_bind, titlePart_eq]
    have : titleColumn title width indent = lineText (titleColumn title width indent, []) := by simp [lineText, joinWords]
    conv_lhs => rw [this]
    have hd : true = decide (([] : List Str) = []) := rfl
    rw [hd, f1]
    rfl
  · intro ht hw l hl
    rcases f5 l hl with h' | h' | ⟨h', w, h''⟩
    · exact h'
    · obtain ⟨a, b⟩ := l
      subst h'
      rcases List.mem_cons.mp hl with hl | hl
      · obtain ⟨rfl, -⟩ := Prod.mk.inj hl
        simp [lineText, joinWords]
        omega
      · exact absurd rfl (f3 _ hl).2
    · have hm : w ∈ words := by
        rw [← f2, show more ++ (lines.map Prod.snd).flatten = (((titleColumn title width indent, more) :: lines).map Prod.snd).flatten from rfl]
        exact List.mem_flatten.mpr ⟨l.2, List.mem_map_of_mem hl, by rw [h'']; simp⟩
      have := hw w hm
      unfold lineText
      rw [h', h'']
      simp [joinWords]
      omega

/-- C157, no room for the second column: title and message with a space between them. -/
theorem c157_narrow (title message : Str) {width maxLength : Int} (indent : Int) (h : maxLength ≤ width) :
    formatDescription title message width maxLength indent = ok (title ++ ' ' :: message) := by
  unfold formatDescription
  rw [if_pos h]
  simp

/-- C157 is false of the code for the length of a line: the space before the last word is not counted. -/
theorem c157_length_false : formatDescription "-c oi".toList "ab cd".toList 7 11 1 = ok " -c oi ab cd".toList ∧ " -c oi ab cd".toList.length = 12 := by decide +kernel

/-- C157 is false of the code for a title that fills the first column: the first word of the message follows without a space. -/
theorem c157_title_false : formatDescription "variables=".toList "Use these".toList 10 30 0 = ok "variables=Use these".toList := by decide +kernel

/-- The example in the tests of the program (src/client/Testing/Util.cpp:341). -/
example : formatDescription "test".toList "ad qwi qwio wqio dwqion qdwion".toList 10 22 2 =
    ok "  test    ad qwi qwio\n          wqio dwqion\n          qdwion".toList := by decide +kernel

/-- The hypotheses hold, and there are three lines. -/
example : ∃ words lines, TwoColumns "test".toList 10 22 2 words lines ∧ lines.length = 3 ∧ ∀ l ∈ lines, (lineText l).length ≤ 23 := by
  refine ⟨_, [(titleColumn "test".toList 10 2, ["ad".toList, "qwi".toList, "qwio".toList]), (List.replicate 10 ' ', ["wqio".toList, "dwqion".toList]),
    (List.replicate 10 ' ', ["qdwion".toList])], ⟨rfl, by decide +kernel, rfl, ?_⟩, rfl, by decide +kernel⟩
  simp only [List.isChain_cons_cons, List.isChain_singleton, and_true, List.head?_cons, Option.some.injEq, exists_eq_left']
  decide +kernel

end Gridpp.Props
