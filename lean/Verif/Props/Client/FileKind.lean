import Verif.Spec.FileKind
import Verif.Lemmas.Client.FileNetcdfCore
import Mathlib.Data.Rat.Floor
import Mathlib.Algebra.Order.Ring.Rat
import Mathlib.Algebra.Field.Rat

/-! # C163: kinds of files of the client -/

set_option linter.unusedSectionVars false

namespace Gridpp.Props
open Fl hiding MV isValid
open Res Client Spec

variable {K : Type}

theorem getValue_given {o : Options} {key : String} (h : Given o key) : (getValue o key.toList []).2.1 = true := by
  obtain ⟨v, hv⟩ := h
  unfold getValue
  cases hf : o.pairs.find? fun p => p.1 = key.toList with
  | some p => rfl
  | none => exact absurd (List.find?_eq_none.mp hf _ hv) (by simp)

theorem getValue_not_given {o : Options} {key : String} (h : ¬ Given o key) : getValue o key.toList [] = (o, false, []) := by
  unfold getValue
  cases hf : o.pairs.find? fun p => p.1 = key.toList with
  | none => rfl
  | some p =>
    refine absurd ⟨p.2, ?_⟩ h
    have h1 : p.1 = key.toList := by simpa using List.find?_some hf
    rw [← h1]
    exact List.mem_of_find?_eq_some hf

theorem hasValue_iff {o : Options} {key : String} : hasValue o key.toList = true ↔ Given o key := by
  unfold hasValue Given
  rw [List.any_eq_true]
  constructor
  · rintro ⟨p, hp, h⟩
    have h1 : p.1 = key.toList := by simpa using h
    exact ⟨p.2, by rw [← h1]; exact hp⟩
  · rintro ⟨v, hv⟩
    exact ⟨_, hv, by simp⟩

theorem var_isSome_iff {f : NcFile K} {n : Str} : (f.var n).isSome = true ↔ ∃ v ∈ f.vars, v.name = n := by
  unfold NcFile.var
  rw [List.find?_isSome]
  simp

theorem netcdfIsValid_iff {o : Options} {f : NcFile K} : netcdfIsValid o (.netcdf f) = true ↔
    (HasVariable f ["lat", "latitude"] ∨ Given o "latVar") ∧ (HasVariable f ["lon", "longitude"] ∨ Given o "lonVar") := by
  have key : ∀ a b : String, HasVariable f [a, b] ↔ (∃ v ∈ f.vars, v.name = a.toList) ∨ ∃ v ∈ f.vars, v.name = b.toList := by
    intro a b
    unfold HasVariable
    constructor
    · rintro ⟨v, hv, n, hn, h⟩
      simp only [List.mem_cons, List.not_mem_nil, or_false] at hn
      rcases hn with rfl | rfl
      · exact .inl ⟨v, hv, h⟩
      · exact .inr ⟨v, hv, h⟩
    · rintro (⟨v, hv, h⟩ | ⟨v, hv, h⟩)
      · exact ⟨v, hv, a, by simp, h⟩
      · exact ⟨v, hv, b, by simp, h⟩
  rw [key, key]
  unfold netcdfIsValid
  simp only [Bool.and_eq_true, Bool.or_eq_true, var_isSome_iff, hasValue_iff]

/-- **C163** (type given). The types of the help text, and only these, give a file; any other word ends the program, whatever is on disk. -/
theorem c163_named {o : Options} (h : Given o "type") (d : DiskContent K) {w : Str} (hw : (getValue o "type".toList []).2.2 = w) (hne : w ≠ []) :
    (∀ t ∈ documentedTypes, w = t.1.toList → fileKind o d = ok (some t.2)) ∧
    ((∀ t ∈ documentedTypes, w ≠ t.1.toList) → fileKind o d = .abort) := by
  have e : fileType o d = w := by
    unfold fileType
    simp only [getValue_given h, Bool.not_true, Bool.false_eq_true, if_false, hw]
  constructor
  · intro t ht hwt
    unfold fileKind
    simp only [e]
    rw [if_neg hne, hwt]
    simp only [documentedTypes, List.mem_cons, List.not_mem_nil, or_false] at ht
    rcases ht with rfl | rfl | rfl | rfl <;> decide
  · intro hn
    unfold fileKind
    simp only [e]
    rw [if_neg hne, if_neg (hn ("netcdf", .netcdf) (by simp [documentedTypes])), if_neg (hn ("point", .point) (by simp [documentedTypes])),
      if_neg (hn ("text", .text) (by simp [documentedTypes])), if_neg (hn ("norcomQnh", .norcomQnh) (by simp [documentedTypes]))]
    rfl

theorem fileKind_auto {o : Options} (h : ¬ Given o "type") (d : DiskContent K) : fileKind o d = ok (if netcdfIsValid o d then some .netcdf else none) := by
  have e : fileType o d = if netcdfIsValid o d then "netcdf".toList else [] := by
    unfold fileType
    rw [getValue_not_given h]
    rfl
  unfold fileKind
  simp only [e]
  cases netcdfIsValid o d
  · rfl
  · rfl

/-- **C163** (detection). Without a type the program does not end, and there is a file exactly for a NetCDF file with latitudes and longitudes, or where
the options name them. -/
theorem c163_detect {o : Options} (h : ¬ Given o "type") (d : DiskContent K) :
    (fileKind o d = ok (some .netcdf) ↔ ∃ f, d = .netcdf f ∧ (HasVariable f ["lat", "latitude"] ∨ Given o "latVar") ∧
      (HasVariable f ["lon", "longitude"] ∨ Given o "lonVar")) ∧ (fileKind o d = ok (some .netcdf) ∨ fileKind o d = ok none) := by
  rw [fileKind_auto h]
  constructor
  · cases d with
    | nothing => simp [netcdfIsValid]
    | other => simp [netcdfIsValid]
    | netcdf f =>
      constructor
      · intro hv
        refine ⟨f, rfl, netcdfIsValid_iff.mp ?_⟩
        by_contra hc
        rw [if_neg hc] at hv
        cases hv
      · rintro ⟨_, h1, h2⟩
        cases h1
        rw [if_pos (netcdfIsValid_iff.mpr h2)]
  · split
    · exact .inl rfl
    · exact .inr rfl

theorem ncOption_none {o : Options} {key : String} (h : ¬ Given o key) : ncOption o key.toList = none := by
  unfold ncOption
  rw [getValue_not_given h]
  rfl

section field
variable [Field K] [LinearOrder K]

theorem chooseVar_usual {f : NcFile K} {a b : String} {v : NcVar K} (h : chooseVar f none [a.toList, b.toList] = ok v) : HasVariable f [b, a] := by
  unfold chooseVar at h
  simp only at h
  cases hf : [a.toList, b.toList].findSome? f.var with
  | none => rw [hf] at h; cases h
  | some w =>
    obtain ⟨n, hn, hw⟩ := List.exists_of_findSome?_eq_some hf
    obtain ⟨u, hu, hname⟩ := var_isSome_iff.mp (Option.isSome_of_eq_some hw)
    simp only [List.mem_cons, List.not_mem_nil, or_false] at hn
    rcases hn with rfl | rfl
    · exact ⟨u, hu, a, by simp, hname⟩
    · exact ⟨u, hu, b, by simp, hname⟩

theorem usual_chooseVar {f : NcFile K} {a b : String} (h : HasVariable f [b, a]) : ∃ v, chooseVar f none [a.toList, b.toList] = ok v := by
  unfold chooseVar
  simp only
  cases hf : [a.toList, b.toList].findSome? f.var with
  | some w => exact ⟨w, rfl⟩
  | none =>
    exfalso
    obtain ⟨v, hv, n, hn, h⟩ := h
    rw [List.findSome?_eq_none_iff] at hf
    have : f.var n.toList = none := hf _ (by
      simp only [List.mem_cons, List.not_mem_nil, or_false] at hn
      rcases hn with rfl | rfl <;> simp)
    have h2 := var_isSome_iff.mpr ⟨v, hv, h⟩
    rw [this] at h2
    cases h2

/-- **C163** (complete). The type is never needed for a NetCDF file: one that can be opened is found without it. -/
theorem c163_complete [FloorRing K] {o : Options} (h : ¬ Given o "type") {f : NcFile K} {tag next : Nat} {F : NcForecast K}
    (hF : openNetcdf tag next (ncOptions o) f = ok F) : fileKind o (.netcdf f) = ok (some .netcdf) := by
  refine (c163_detect h _).1.mpr ⟨f, rfl, ?_⟩
  unfold openNetcdf at hF
  obtain ⟨lat, h1, hF⟩ := bind_eq_ok.mp hF
  obtain ⟨lon, h2, -⟩ := bind_eq_ok.mp hF
  constructor
  · by_cases hg : Given o "latVar"
    · exact .inr hg
    · simp only [ncOptions, ncOption_none hg] at h1
      exact .inl (chooseVar_usual h1)
  · by_cases hg : Given o "lonVar"
    · exact .inr hg
    · simp only [ncOptions, ncOption_none hg] at h2
      exact .inl (chooseVar_usual h2)

/-- **C163** (sound), without the options latVar and lonVar. For a file that is found the constructor finds latitudes and longitudes. -/
theorem c163_sound_partial {o : Options} (h : ¬ Given o "type") (ha : ¬ Given o "latVar") (ho : ¬ Given o "lonVar") {f : NcFile K}
    (hk : fileKind o (.netcdf f) = ok (some .netcdf)) :
    (∃ v, chooseVar f (ncOptions o).latVar ["latitude".toList, "lat".toList] = ok v) ∧
    ∃ v, chooseVar f (ncOptions o).lonVar ["longitude".toList, "lon".toList] = ok v := by
  obtain ⟨g, e, h1, h2⟩ := (c163_detect h _).1.mp hk
  cases e
  simp only [ncOptions, ncOption_none ha, ncOption_none ho]
  exact ⟨usual_chooseVar (h1.resolve_right ha), usual_chooseVar (h2.resolve_right ho)⟩

/-- **C163** is false with these options: any NetCDF file is taken to be valid, also if the variables named are not there, and then the program ends. -/
theorem c163_option_false [FloorRing K] {o : Options} (h : ¬ Given o "type") (ha : Given o "latVar") (ho : Given o "lonVar") {f : NcFile K}
    (hn : f.var (getValue o "latVar".toList []).2.2 = none) (tag next : Nat) :
    fileKind o (.netcdf f) = ok (some .netcdf) ∧ openNetcdf tag next (ncOptions o) f = .abort := by
  refine ⟨(c163_detect h _).1.mpr ⟨f, rfl, .inr ha, .inr ho⟩, ?_⟩
  unfold openNetcdf
  simp only [ncOptions, ncOption, getValue_given ha, if_true, chooseVar, hn]
  rfl

end field

/-- **C163** is false of the help text ("I/O types are autodetected"): files of the other types are never found. -/
theorem c163_text_false {o : Options} (h : ¬ Given o "type") : fileKind o (.other : DiskContent K) = ok none := fileKind_auto h _

/-- Without a file on disk there is no file, but if a type is given the constructor is run. -/
theorem c163_nothing {o : Options} (h : ¬ Given o "type") : fileKind o (.nothing : DiskContent K) = ok none := fileKind_auto h _

/-- A type that is only white space is like no type for which nothing is found, even for a NetCDF file. -/
theorem c163_blank {o : Options} (h : Given o "type") (hb : (getValue o "type".toList []).2.2 = []) (d : DiskContent K) : fileKind o d = ok none := by
  have e : fileType o d = [] := by
    unfold fileType
    simp only [getValue_given h, Bool.not_true, Bool.false_eq_true, if_false, hb]
  unfold fileKind
  simp only [e, if_true]

/-! ### The hypotheses can be met -/

/-- A file with latitudes and longitudes. -/
def exampleLatLon : NcFile ℚ := ⟨[("time".toList, 1), ("y".toList, 1), ("x".toList, 1)], [⟨"lat".toList, [1, 2], [fin 60], none⟩,
  ⟨"lon".toList, [1, 2], [fin 10], none⟩, ⟨"time".toList, [0], [fin 0], none⟩]⟩

theorem c163_case_detect : fileKind Options.empty (.netcdf exampleLatLon) = ok (some .netcdf) ∧
    (openNetcdf 0 1 (ncOptions Options.empty) exampleLatLon).isOk = true ∧ Options.empty.pairs = [] := by decide +kernel

theorem c163_case_named : fileKind ⟨[("type".toList, "text".toList)], []⟩ (.netcdf exampleLatLon) = ok (some .text) ∧
    fileKind ⟨[("type".toList, "fake".toList)], []⟩ (.netcdf exampleLatLon) = .abort := by decide +kernel

theorem c163_case_option : fileKind ⟨[("latVar".toList, "a".toList), ("lonVar".toList, "b".toList)], []⟩ (.netcdf exampleLatLon) = ok (some .netcdf) ∧
    exampleLatLon.var "a".toList = none := by decide +kernel

theorem c163_case_blank : Given ⟨[("type".toList, "\t".toList)], []⟩ "type" ∧
    (getValue ⟨[("type".toList, "\t".toList)], []⟩ "type".toList []).2.2 = [] := ⟨⟨_, List.mem_cons_self⟩, by decide +kernel⟩

end Gridpp.Props
