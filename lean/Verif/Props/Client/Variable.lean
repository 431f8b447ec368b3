import Verif.Model.Client.Variable
import Verif.Lemmas.Client.Options
import Verif.Base.Inst

/-! # C121: variables made from options -/

set_option linter.unusedSectionVars false

namespace Gridpp.Props
open Fl hiding MV isValid
open Res Client Spec

variable {K : Type} [Field K] [LinearOrder K] [IsStrictOrderedRing K] [NumReader K]

/-- The specification of a text option: its value if there is one, otherwise what was there. -/
def TextOption (o : Options) (key : String) (old new : Str) : Prop :=
  (∀ w, (key.toList, w) ∈ o.pairs → new = w) ∧ ((∀ w, (key.toList, w) ∉ o.pairs) → new = old)

/-- The specification of a number. -/
def FloatOption (o : Options) (key : String) (old new : Fl K) : Prop :=
  (∀ w, (key.toList, w) ∈ o.pairs → ∃ junk, new = NumReader.readFloat w junk) ∧ ((∀ w, (key.toList, w) ∉ o.pairs) → new = old)

theorem getValue_pairs (o : Options) (k old : Str) : (getValue o k old).1.pairs = o.pairs := by
  unfold getValue; cases o.pairs.find? fun p => p.1 = k <;> rfl

theorem getFloat_pairs (o : Options) (k : Str) (old : Fl K) : (getFloat o k old).1.pairs = o.pairs := by
  unfold getFloat; cases o.pairs.find? fun p => p.1 = k <;> rfl

theorem getText {o : Options} (ho : OptionMap o.pairs) (hw : ∀ p ∈ o.pairs, ∀ c ∈ p.2, ¬ White c) (o' : Options) (he : o'.pairs = o.pairs)
    (key : String) (old : Str) :
    (∀ w, (key.toList, w) ∈ o.pairs → (getValue o' key.toList old).2 = (true, w)) ∧
    ((∀ w, (key.toList, w) ∉ o.pairs) → (getValue o' key.toList old).2 = (false, old)) := by
  constructor
  · intro w h
    unfold getValue
    rw [he, find?_pair ho.1 h]
    simp only
    rw [readWord_plain old (ho.2 _ h).2 (hw _ h)]
  · intro h
    unfold getValue
    rw [he, find?_pair_none h]

theorem getNumber {o : Options} (ho : OptionMap o.pairs) (o' : Options) (he : o'.pairs = o.pairs) (key : String) (old : Fl K) :
    (∀ w, (key.toList, w) ∈ o.pairs → (getFloat o' key.toList old).2 = (true, NumReader.readFloat w old)) ∧
    ((∀ w, (key.toList, w) ∉ o.pairs) → (getFloat o' key.toList old).2 = (false, old)) := by
  constructor
  · intro w h
    unfold getFloat
    rw [he, find?_pair ho.1 h]
  · intro h
    unfold getFloat
    rw [he, find?_pair_none h]

/-- **C121** (new). A variable made from options (with values that are one word) has the name, units, standard name, smallest and largest value
given there, otherwise empty texts and missing numbers; without a name the program ends. -/
theorem c121_new {o : Options} (ho : OptionMap o.pairs) (hw : ∀ p ∈ o.pairs, ∀ c ∈ p.2, ¬ White c) :
    ((∀ w, ("name".toList, w) ∉ o.pairs) → Variable.ofOptions (K := K) o = .abort) ∧
    ∀ n, ("name".toList, n) ∈ o.pairs → ∃ (v : Variable K) (o' : Options) (c : Bool), Variable.ofOptions o = ok (v, o', c) ∧ v.name = n ∧
      TextOption o "units" [] v.units ∧ TextOption o "standardName" [] v.standardName ∧
      FloatOption o "min" (fin (-999)) v.min ∧ FloatOption o "max" (fin (-999)) v.max ∧
      ((∀ w, ("level".toList, w) ∉ o.pairs) → v.level = -999) := by
  constructor
  · intro h
    unfold Variable.ofOptions getRequiredValue
    simp only
    rw [((getText ho hw o rfl "name" []).2 h)]
    rfl
  · intro n h
    have h1 := (getText ho hw o rfl "name" []).1 n h
    unfold Variable.ofOptions getRequiredValue
    simp only
    rw [h1]
    simp only [if_true]
    rw [ok_bind]
    refine ⟨_, _, _, rfl, rfl, ?_, ?_, ?_, ?_, ?_⟩
    · have := getText ho hw (getValue (getValue o "name".toList []).1 "standardName".toList []).1
        (by rw [getValue_pairs, getValue_pairs]) "units" []
      exact ⟨fun w hm => by rw [this.1 w hm], fun hm => by rw [this.2 hm]⟩
    · have := getText ho hw (getValue o "name".toList []).1 (by rw [getValue_pairs]) "standardName" []
      exact ⟨fun w hm => by rw [this.1 w hm], fun hm => by rw [this.2 hm]⟩
    · have := getNumber ho (getValue (getValue (getValue o "name".toList []).1 "standardName".toList []).1 "units".toList []).1
        (by rw [getValue_pairs, getValue_pairs, getValue_pairs]) "min" (Client.MV : Fl K)
      exact ⟨fun w hm => ⟨_, by rw [this.1 w hm]⟩, fun hm => by rw [this.2 hm]; rfl⟩
    · have := getNumber ho (getFloat (getValue (getValue (getValue o "name".toList []).1 "standardName".toList []).1 "units".toList []).1
        "min".toList (Client.MV : Fl K)).1
        (by rw [getFloat_pairs, getValue_pairs, getValue_pairs, getValue_pairs]) "max" (Client.MV : Fl K)
      exact ⟨fun w hm => ⟨_, by rw [this.1 w hm]⟩, fun hm => by rw [this.2 hm]; rfl⟩
    · intro hm
      unfold getInt
      simp only
      rw [getFloat_pairs, getFloat_pairs, getValue_pairs, getValue_pairs, getValue_pairs, find?_pair_none hm]

/-- **C121** (add). Adding options overrides the units, the standard name and the smallest value that are given, and keeps everything else,
apart from the largest value: see `c121_max_false`. -/
theorem c121_add_partial {o : Options} (ho : OptionMap o.pairs) (hw : ∀ p ∈ o.pairs, ∀ c ∈ p.2, ¬ White c) (v : Variable K) (j j' : Fl K) :
    (v.add o j j').1.name = v.name ∧ (v.add o j j').1.level = v.level ∧
    TextOption o "units" v.units (v.add o j j').1.units ∧ TextOption o "standardName" v.standardName (v.add o j j').1.standardName ∧
    FloatOption o "min" v.min (v.add o j j').1.min := by
  have hu := getText ho hw o rfl "units" []
  have hs := getText ho hw (getValue o "units".toList []).1 (by rw [getValue_pairs]) "standardName" (getValue o "units".toList []).2.2
  have ha := getNumber ho (getValue (getValue o "units".toList []).1 "standardName".toList (getValue o "units".toList []).2.2).1
    (by rw [getValue_pairs, getValue_pairs]) "min" j
  unfold Variable.add
  simp only
  refine ⟨?_, ?_, ⟨fun w hm => ?_, fun hm => ?_⟩, ⟨fun w hm => ?_, fun hm => ?_⟩, ⟨fun w hm => ⟨j, ?_⟩, fun hm => ?_⟩⟩
  · split_ifs <;> rfl
  · split_ifs <;> rfl
  · have := hu.1 w hm
    rw [this] at *
    simp only [if_true]
    split_ifs <;> rfl
  · have := hu.2 hm
    rw [this] at *
    simp only [Bool.false_eq_true, if_false]
    split_ifs <;> rfl
  · rw [hs.1 w hm]
    simp only [if_true]
    split_ifs <;> rfl
  · rw [hs.2 hm]
    simp only [Bool.false_eq_true, if_false]
    split_ifs <;> rfl
  · rw [ha.1 w hm]
    simp only [if_true]
    split_ifs <;> rfl
  · rw [ha.2 hm]
    simp only [Bool.false_eq_true, if_false]
    split_ifs <;> rfl

/-- **C121** is false for the largest value: whatever is given for it is ignored, and the smallest value is taken. -/
theorem c121_max_false {o : Options} (ho : OptionMap o.pairs) (v : Variable K) (j j' : Fl K) :
    (∀ w, ("min".toList, w) ∈ o.pairs → (v.add o j j').1.max = NumReader.readFloat w j') ∧
    ((∀ w, ("min".toList, w) ∉ o.pairs) → (v.add o j j').1.max = v.max) := by
  have hb := getNumber ho (getFloat (getValue (getValue o "units".toList []).1 "standardName".toList (getValue o "units".toList []).2.2).1
    "min".toList j).1 (by rw [getFloat_pairs, getValue_pairs, getValue_pairs]) "min" j'
  unfold Variable.add
  simp only
  constructor
  · intro w hm
    rw [hb.1 w hm]
    simp only [if_true]
  · intro hm
    rw [hb.2 hm]
    simp only [Bool.false_eq_true, if_false]
    split_ifs <;> rfl

/-- A reader of the two texts used below. -/
@[instance_reducible] def twoTexts : NumReader ℚ := ⟨fun s _ => if s = "0".toList then fin 0 else fin 100, fun _ _ => 0⟩

/-- With `min=0 max=100` the variable is left with 0 as its smallest and its largest value, and the key `max` has not been used. -/
theorem c121_zero_false :
    let _ := twoTexts
    let r := (⟨[], [], [], fin (-999), fin (-999), -999⟩ : Variable ℚ).add ⟨[("min".toList, "0".toList), ("max".toList, "100".toList)], []⟩ 0 0
    r.1.min = fin 0 ∧ r.1.max = fin 0 ∧ checkOptions r.2 = false := by decide +kernel

/-- **C121** (equal). Variables are equal when their names are. -/
theorem c121_same (a b : Variable K) : a.same b = true ↔ a.name = b.name := by
  unfold Variable.same; rw [decide_eq_true_eq]

/-- Options for which the hypotheses hold. -/
example : OptionMap [("name".toList, "t".toList), ("min".toList, "0".toList)] ∧
    ∀ p ∈ [("name".toList, "t".toList), ("min".toList, "0".toList)], ∀ c ∈ p.2, ¬ White c := by
  refine ⟨⟨by decide, by decide⟩, ?_⟩
  intro p hp c hc
  simp only [List.mem_cons, List.not_mem_nil, or_false] at hp
  rcases hp with rfl | rfl
  all_goals
    rw [← isSpace_iff]
    revert c
    decide

end Gridpp.Props
