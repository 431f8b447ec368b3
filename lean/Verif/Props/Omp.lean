import Verif.Props.QuantileFast

/-! # C66: schedule independence of parallel loops -/

set_option linter.unusedSectionVars false

namespace Gridpp.Props
open Fl Res Omp

/-- **C66** (general form). If each iteration writes only its own cells (cells of different iterations are different)
and its results depend only on its own cells and on cells no iteration writes, then all interleaved runs end in the
same store, the one obtained by running each iteration alone on the initial store. -/
theorem c66_disjoint_partial {ι Loc V : Type} [DecidableEq ι] (own : ι → Set Loc) (hd : ∀ i j l, l ∈ own i → l ∈ own j → i = j)
    (p : ι → List (Step Loc V))
    (hframe : ∀ i, ∀ f ∈ p i, ∀ s l, l ∉ own i → f s l = s l)
    (hreads : ∀ i, ∀ f ∈ p i, ∀ s s', (∀ l, (l ∈ own i ∨ ∀ j, l ∉ own j) → s l = s' l) → ∀ l ∈ own i, f s l = f s' l)
    (s s1 : Store Loc V) (h1 : Exec p s s1) :
    (∀ i, ∀ l ∈ own i, s1 l = runSeq (p i) s l) ∧ (∀ l, (∀ j, l ∉ own j) → s1 l = s l) ∧
    ∀ s2, Exec p s s2 → s2 = s1 := by
  have hl : ∀ i, ∀ f ∈ p i, Local (fun _ => True) own i f := fun i f hf =>
    ⟨fun _ _ => trivial, fun s _ l hl => hframe i f hf s l hl, fun s s' _ _ h l hl => hreads i f hf s s' h l hl⟩
  obtain ⟨a, b, -⟩ := exec_eq hd h1 hl trivial
  exact ⟨a, b, fun s2 h2 => exec_unique hd h2 h1 hl trivial⟩

/-- Two iterations, each incrementing its own cell by the value of a shared cell that is only read. -/
example : ∃ (own : Bool → Set (Option Bool)) (p : Bool → List (Step (Option Bool) Nat)),
    (∀ i j l, l ∈ own i → l ∈ own j → i = j) ∧ (∀ i, ∀ f ∈ p i, ∀ s l, l ∉ own i → f s l = s l) ∧
    (∀ i, ∀ f ∈ p i, ∀ s s', (∀ l, (l ∈ own i ∨ ∀ j, l ∉ own j) → s l = s' l) → ∀ l ∈ own i, f s l = f s' l) ∧
    ∀ i, p i ≠ [] := by
  refine ⟨fun i => {some i}, fun i => [fun s => Function.update s (some i) (s (some i) + s none)], ?_, ?_, ?_, by simp⟩
  · intro i j l hi hj
    simp only [Set.mem_singleton_iff] at hi hj
    subst hi; simpa using hj
  · intro i f hf s l hl
    simp only [List.mem_singleton] at hf; subst hf
    exact Function.update_of_ne (by simpa using hl) _ _
  · intro i f hf s s' h l hl
    simp only [List.mem_singleton] at hf; subst hf
    simp only [Set.mem_singleton_iff] at hl; subst hl
    simp [h (some i) (.inl rfl), h none (.inr (by simp))]

/-- **C66** (work-sharing loops). `out[k] = f(k)` for `k < n`, where `f` reads nothing written in the loop: a run
exists for every initial store, and each one gives `f k` at `k < n` and leaves all else alone. -/
theorem c66_for_loop {V : Type} (n : Nat) (f : Nat → V) (s : Store Nat V) :
    (∃ s', Exec (forLoop n f) s s') ∧ ∀ s', Exec (forLoop n f) s s' → ∀ k, s' k = if k < n then f k else s k :=
  ⟨exec_exists n _ (fun k hk => by unfold forLoop; rw [if_neg (by omega)]) s, fun _ h => forLoop_exec h⟩

/-- **C66** (`#pragma omp parallel` without `for`, gridding.cpp:49, 123). Every thread executes all iterations on the
same output; any interleaving of any positive number of threads gives the same values. -/
theorem c66_replicated_loop {V : Type} (T n : Nat) (hT : 0 < T) (f : Nat → V) (s : Store Nat V) :
    (∃ s', Exec (replicatedLoop T n f) s s') ∧
    ∀ s', Exec (replicatedLoop T n f) s s' → ∀ k, s' k = if k < n then f k else s k :=
  ⟨exec_exists T _ (fun k hk => by unfold replicatedLoop; rw [if_neg (by omega)]) s, fun _ h => replicatedLoop_exec hT h⟩

/-- **C66** is false of `neighbourhood_quantile_fast` (both overloads share `curr_quantile`): two runs of the same
loop end with different outputs. -/
theorem c66_quantile_fast_counterexample :
    ∃ (stats : List (List (List (Fl ℚ)))) (level : Nat → Nat → Fl ℚ) (s' s'' : Store QLoc (Res (Fl ℚ))),
      fastStats (fun _ => 0) (fun y x => do let v ← vget2 [[fin 0], [fin (10 : ℚ)]] y x; ok [v]) 2 1 1 [fin 0, fin 10] = ok stats ∧
      Exec (fastLoop 1 2 1 [fin 0, fin 10] stats level) (fun _ => ok nan) s' ∧
      Exec (fastLoop 1 2 1 [fin 0, fin 10] stats level) (fun _ => ok nan) s'' ∧ s' (.out 0 0) ≠ s'' (.out 0 0) := by
  obtain ⟨-, stats, h1, s', h2, h3⟩ := c26_schedule_dependent
  refine ⟨stats, _, s', _, h1, h2, .step 0 _ _ rfl (.step 0 _ _ rfl (.step 0 _ _ rfl (.step 0 _ _ rfl (.step 1 _ _ rfl (.step 1 _ _ rfl
    (.step 1 _ _ rfl (.step 1 _ _ rfl (.done ?_)))))))), ?_⟩
  · intro i
    match i with
    | 0 => rfl
    | 1 => rfl
    | i + 2 => simp [Function.update, quantileLoop]
  · rw [h3]
    have : stats = [[[fin (1/2)], [fin (1/2)]], [[fin 1], [fin 1]]] := by
      have : fastStats (fun _ => 0) (fun y x => do let v ← vget2 [[fin 0], [fin (10 : ℚ)]] y x; ok [v]) 2 1 1 [fin 0, fin 10]
        = ok [[[fin (1/2)], [fin (1/2)]], [[fin 1], [fin 1]]] := by decide +kernel
      have h4 := h1.symm.trans this
      simpa using h4
    subst this
    decide +kernel

end Gridpp.Props
