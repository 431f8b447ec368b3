import Verif.Model.Client.Schemes
import Verif.Lemmas.Client.Options

/-! # Lemmas about the constructors of schemes -/

namespace Gridpp.Client
open Res

/-- Both end the program, or both give a scheme with the same members. -/
def SameScheme : Res MadeScheme → Res MadeScheme → Prop
  | .ok a, .ok b => a.members = b.members
  | .abort, .abort => True
  | _, _ => False

/-- The default does not change when the option is given with the text `d`. -/
def OptKind.sameAt (d : Str) : OptKind → Bool
  | .num q => readNum d q = q
  | .int n => readWhole d n = n
  | .flag b => readBool d b = b
  | .text t => readWord d t = t
  | _ => false

theorem sameAt_spec {d : Str} {k : OptKind} (h : k.sameAt d = true) (v : Members) : k.present v d = k.absent v := by
  cases k <;> simp_all [OptKind.sameAt, OptKind.present, OptKind.absent]

/-- The condition does not become true with the option. -/
def OptCond.freeOf (key d : Str) : OptCond → Bool
  | .always => true
  | .given k => k ≠ key
  | .optionIs k w => k ≠ key || readWord d [] ≠ w

theorem find?_append_other {ps : List (Str × Str)} {key d k : Str} (h : k ≠ key) :
    (ps ++ [(key, d)]).find? (fun p => p.1 = k) = ps.find? (fun p => p.1 = k) := by
  rw [List.find?_append]
  cases ps.find? (fun p => p.1 = k) with
  | some a => rfl
  | none => simp [Ne.symm h]

theorem find?_append_own {ps : List (Str × Str)} {key d : Str} (h : key ∉ ps.map Prod.fst) :
    (ps ++ [(key, d)]).find? (fun p => p.1 = key) = some (key, d) := by
  rw [List.find?_append, show ps.find? (fun p => p.1 = key) = none from find?_pair_none fun v hv => h (List.mem_map_of_mem hv)]
  simp

theorem find?_own_none {ps : List (Str × Str)} {key : Str} (h : key ∉ ps.map Prod.fst) : ps.find? (fun p => p.1 = key) = none :=
  find?_pair_none fun _ hv => h (List.mem_map_of_mem hv)

theorem freeOf_spec {ps : List (Str × Str)} {key d : Str} (hn : key ∉ ps.map Prod.fst) {c : OptCond} (h : c.freeOf key d = true) :
    c.holds (ps ++ [(key, d)]) = c.holds ps := by
  cases c with
  | always => rfl
  | given k => simp only [OptCond.freeOf, decide_eq_true_eq] at h; simp [OptCond.holds, Ne.symm h]
  | optionIs k w =>
    simp only [OptCond.freeOf, Bool.or_eq_true, decide_eq_true_eq] at h
    by_cases hk : k = key
    · subst hk
      have hw : readWord d [] ≠ w := by tauto
      simp only [OptCond.holds]
      rw [find?_append_own hn, find?_own_none hn]
      simp [hw]
    · simp only [OptCond.holds]
      rw [find?_append_other hk]

/-- The step does the same if the option is given with the text `d`. -/
def SchemeStep.fits (key d : Str) : SchemeStep → Bool
  | .read k kind required cond => (k ≠ key || (kind.sameAt d && !required)) && cond.freeOf key d
  | .test cond _ => cond.freeOf key d
  | .check => true

theorem schemeStep_same {ps : List (Str × Str)} {key d : Str} (hn : key ∉ ps.map Prod.fst) {s : SchemeStep} (h : s.fits key d = true)
    {m m' : MadeScheme} (hm : m.members = m'.members) : SameScheme (schemeStep (ps ++ [(key, d)]) m s) (schemeStep ps m' s) := by
  cases s with
  | check => simpa [schemeStep, SameScheme] using hm
  | test c p =>
    simp only [SchemeStep.fits] at h
    simp only [schemeStep, freeOf_spec hn h, hm]
    split <;> simp [SameScheme, hm]
  | read k kind required c =>
    simp only [SchemeStep.fits, Bool.and_eq_true, Bool.or_eq_true, decide_eq_true_eq] at h
    simp only [schemeStep, freeOf_spec hn h.2, hm]
    split
    · simp [SameScheme]
    · by_cases hk : k = key
      · subst hk
        rw [find?_append_own hn, find?_own_none hn]
        have h1 : kind.sameAt d = true ∧ (!required) = true := by tauto
        have h2 : required = false := by simpa using h1.2
        simp [SameScheme, h2, sameAt_spec h1.1]
      · rw [find?_append_other hk]
        cases ps.find? (fun p => p.1 = k) with
        | some p => simp [SameScheme]
        | none => by_cases hr : required = true <;> simp [hr, SameScheme]

theorem foldSteps_same {ps : List (Str × Str)} {key d : Str} (hn : key ∉ ps.map Prod.fst) : ∀ {ss : List SchemeStep},
    (ss.all (fun s => s.fits key d)) = true → ∀ {m m' : MadeScheme}, m.members = m'.members →
    SameScheme (foldM (schemeStep (ps ++ [(key, d)])) m ss) (foldM (schemeStep ps) m' ss)
  | [], _, _, _, hm => hm
  | s :: ss, h, m, m', hm => by
    simp only [List.all_cons, Bool.and_eq_true] at h
    have h1 := schemeStep_same hn h.1 hm
    rw [foldM_cons, foldM_cons]
    generalize schemeStep (ps ++ [(key, d)]) m s = r at h1 ⊢
    generalize schemeStep ps m' s = r' at h1 ⊢
    cases r <;> cases r' <;> simp only [SameScheme] at h1 ⊢
    · exact foldSteps_same hn h.2 h1
    · trivial

/-! ### Which keys are read -/

/-- The step is no check. -/
def SchemeStep.quiet : SchemeStep → Bool
  | .check => false
  | _ => true

/-- The key and condition of a step that reads. -/
def SchemeStep.reads : SchemeStep → Option (Str × OptCond)
  | .read k _ _ c => some (k, c)
  | _ => none

theorem schemeStep_quiet {ps : List (Str × Str)} {m m' : MadeScheme} {s : SchemeStep} (hq : s.quiet = true) (h : schemeStep ps m s = ok m') :
    m'.warned = m.warned ∧ ∀ k, k ∈ m'.accessed ↔ k ∈ m.accessed ∨ k ∈ ps.map Prod.fst ∧ ∃ c, s.reads = some (k, c) ∧ c.holds ps = true := by
  cases s with
  | check => simp [SchemeStep.quiet] at hq
  | test c p =>
    simp only [schemeStep] at h
    split at h
    · simp only [Res.ok.injEq] at h; subst h; simp [SchemeStep.reads]
    · simp at h
  | read key kind required c =>
    simp only [schemeStep] at h
    by_cases hc : c.holds ps = true
    · simp only [hc, Bool.not_true, Bool.false_eq_true, if_false] at h
      cases hf : ps.find? (fun p => p.1 = key) with
      | some p =>
        rw [hf] at h
        simp only [Res.ok.injEq] at h; subst h
        refine ⟨rfl, fun k => ?_⟩
        have hp : key ∈ ps.map Prod.fst := by
          have h1 := List.mem_of_find?_eq_some hf
          have h2 := List.find?_some hf
          simp only [decide_eq_true_eq] at h2
          exact h2 ▸ List.mem_map_of_mem h1
        simp only [List.mem_cons, SchemeStep.reads, Option.some.injEq, Prod.mk.injEq]
        constructor
        · rintro (rfl | h)
          · exact Or.inr ⟨hp, c, ⟨rfl, rfl⟩, hc⟩
          · exact Or.inl h
        · rintro (h | ⟨-, c', ⟨rfl, -⟩, -⟩)
          · exact Or.inr h
          · exact Or.inl rfl
      | none =>
        rw [hf] at h
        have hp : key ∉ ps.map Prod.fst := by
          intro hk
          obtain ⟨p, hp, e⟩ := List.mem_map.1 hk
          have := List.find?_eq_none.1 hf p hp
          simp [e] at this
        cases required with
        | true => simp at h
        | false =>
          simp only [Bool.false_eq_true, if_false, Res.ok.injEq] at h; subst h
          refine ⟨rfl, fun k => ?_⟩
          simp only [SchemeStep.reads, Option.some.injEq, Prod.mk.injEq]
          constructor
          · exact Or.inl
          · rintro (h | ⟨hk, c', ⟨rfl, -⟩, -⟩)
            · exact h
            · exact absurd hk hp
    · have hc' : c.holds ps = false := by simpa using hc
      simp only [hc', Bool.not_false, if_true, Res.ok.injEq] at h; subst h
      refine ⟨rfl, fun k => ?_⟩
      simp only [SchemeStep.reads, Option.some.injEq, Prod.mk.injEq]
      constructor
      · exact Or.inl
      · rintro (h | ⟨-, c', ⟨-, rfl⟩, h2⟩)
        · exact h
        · rw [hc'] at h2; simp at h2

theorem foldSteps_quiet {ps : List (Str × Str)} : ∀ {ss : List SchemeStep}, (ss.all SchemeStep.quiet) = true → ∀ {m m' : MadeScheme},
    foldM (schemeStep ps) m ss = ok m' → m'.warned = m.warned ∧
    ∀ k, k ∈ m'.accessed ↔ k ∈ m.accessed ∨ k ∈ ps.map Prod.fst ∧ ∃ c, (k, c) ∈ ss.filterMap SchemeStep.reads ∧ c.holds ps = true
  | [], _, m, m', h => by
    simp only [foldM_nil, Res.ok.injEq] at h; subst h; simp
  | s :: ss, hq, m, m', h => by
    simp only [List.all_cons, Bool.and_eq_true] at hq
    rw [foldM_cons] at h
    obtain ⟨m1, h1, h2⟩ := bind_eq_ok.1 h
    obtain ⟨a1, a2⟩ := schemeStep_quiet hq.1 h1
    obtain ⟨b1, b2⟩ := foldSteps_quiet hq.2 h2
    refine ⟨b1.trans a1, fun k => ?_⟩
    rw [b2, a2]
    cases hs : s.reads with
    | none => rw [List.filterMap_cons_none hs]; simp
    | some r =>
      rw [List.filterMap_cons_some hs]
      simp only [Option.some.injEq, List.mem_cons]
      constructor
      · rintro ((h | ⟨h, c, rfl, hc⟩) | ⟨h, c, hc⟩)
        · exact Or.inl h
        · exact Or.inr ⟨h, c, Or.inl rfl, hc⟩
        · exact Or.inr ⟨h, c, Or.inr hc.1, hc.2⟩
      · rintro (h | ⟨h, c, hr | hr, hc⟩)
        · exact Or.inl (Or.inl h)
        · exact Or.inl (Or.inr ⟨h, c, hr.symm, hc⟩)
        · exact Or.inr ⟨h, c, hr, hc⟩

/-! ### The outcome -/

theorem schemeStep_outcome (ps : List (Str × Str)) (m : MadeScheme) (s : SchemeStep) : schemeStep ps m s = abort ∨ ∃ m', schemeStep ps m s = ok m' := by
  cases s with
  | check => exact Or.inr ⟨_, rfl⟩
  | test c p => simp only [schemeStep]; split <;> simp
  | read k kind required c =>
    simp only [schemeStep]
    split
    · simp
    · split
      · simp
      · split <;> simp

theorem foldSteps_outcome (ps : List (Str × Str)) : ∀ (ss : List SchemeStep) (m : MadeScheme),
    foldM (schemeStep ps) m ss = abort ∨ ∃ m', foldM (schemeStep ps) m ss = ok m'
  | [], m => Or.inr ⟨m, rfl⟩
  | s :: ss, m => by
    rw [foldM_cons]
    obtain h | ⟨m1, h⟩ := schemeStep_outcome ps m s <;> rw [h]
    · exact Or.inl rfl
    · exact foldSteps_outcome ps ss m1

theorem foldSteps_required {ps : List (Str × Str)} {key : Str} (hn : key ∉ ps.map Prod.fst) {kind : OptKind} : ∀ {ss : List SchemeStep},
    SchemeStep.read key kind true .always ∈ ss → ∀ m : MadeScheme, foldM (schemeStep ps) m ss = abort
  | s :: ss, h, m => by
    rw [foldM_cons]
    obtain h1 | h1 := List.mem_cons.1 h
    · subst h1
      simp only [schemeStep, OptCond.holds, Bool.not_true, Bool.false_eq_true, if_false, find?_own_none hn]
      rfl
    · obtain h2 | ⟨m1, h2⟩ := schemeStep_outcome ps m s <;> rw [h2]
      · rfl
      · exact foldSteps_required hn h1 m1

end Gridpp.Client
