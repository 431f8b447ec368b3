import Verif.Model.Omp

/-! Interleavings of programs that own disjoint parts of the store. -/

set_option linter.unusedSectionVars false

namespace Gridpp.Omp

variable {ι Loc V : Type} [DecidableEq ι]

/-- On stores satisfying the (preserved) invariant `Inv`, the step of program `i` changes only cells owned by `i`, and
what it writes there depends only on cells owned by `i` or by nobody. -/
structure Local (Inv : Store Loc V → Prop) (own : ι → Set Loc) (i : ι) (f : Step Loc V) : Prop where
  inv : ∀ s, Inv s → Inv (f s)
  frame : ∀ s, Inv s → ∀ l, l ∉ own i → f s l = s l
  reads : ∀ s s', Inv s → Inv s' → (∀ l, (l ∈ own i ∨ ∀ j, l ∉ own j) → s l = s' l) → ∀ l ∈ own i, f s l = f s' l

theorem runSeq_inv {Inv : Store Loc V → Prop} {own : ι → Set Loc} {i : ι} {p : List (Step Loc V)}
    (h : ∀ f ∈ p, Local Inv own i f) {s : Store Loc V} (hs : Inv s) : Inv (runSeq p s) := by
  induction p generalizing s with
  | nil => exact hs
  | cons f t ih => exact ih (fun g hg => h g (by simp [hg])) ((h f (by simp)).inv s hs)

theorem runSeq_congr {Inv : Store Loc V → Prop} {own : ι → Set Loc} {i : ι} {p : List (Step Loc V)}
    (h : ∀ f ∈ p, Local Inv own i f) {s s' : Store Loc V} (hs : Inv s) (hs' : Inv s')
    (ha : ∀ l, (l ∈ own i ∨ ∀ j, l ∉ own j) → s l = s' l) : ∀ l ∈ own i, runSeq p s l = runSeq p s' l := by
  induction p generalizing s s' with
  | nil => intro l hl; exact ha l (Or.inl hl)
  | cons f t ih =>
    have hf := h f (by simp)
    apply ih (fun g hg => h g (by simp [hg])) (hf.inv s hs) (hf.inv s' hs')
    intro l hl
    by_cases hi : l ∈ own i
    · exact hf.reads s s' hs hs' ha l hi
    · rw [hf.frame s hs l hi, hf.frame s' hs' l hi]; exact ha l hl

/-- Every interleaving ends with each program's own cells as if it had run alone, and the rest unchanged. -/
theorem exec_eq {Inv : Store Loc V → Prop} {own : ι → Set Loc} (hd : ∀ i j l, l ∈ own i → l ∈ own j → i = j)
    {p : ι → List (Step Loc V)} {s s' : Store Loc V} (h : Exec p s s')
    (hl : ∀ i, ∀ f ∈ p i, Local Inv own i f) (hs : Inv s) :
    (∀ i, ∀ l ∈ own i, s' l = runSeq (p i) s l) ∧ (∀ l, (∀ j, l ∉ own j) → s' l = s l) ∧ Inv s' := by
  induction h with
  | done h => exact ⟨fun i l _ => by rw [h i]; rfl, fun l _ => rfl, hs⟩
  | @step p s s' i f t hp _ ih =>
    have hf : Local Inv own i f := hl i f (by rw [hp]; simp)
    have hl' : ∀ j, ∀ g ∈ Function.update p i t j, Local Inv own j g := by
      intro j g hg
      by_cases hj : j = i
      · subst hj
        rw [Function.update_self] at hg
        exact hl j g (by rw [hp]; simp [hg])
      · rw [Function.update_of_ne hj] at hg
        exact hl j g hg
    obtain ⟨h1, h2, h3⟩ := ih hl' (hf.inv s hs)
    refine ⟨fun j l hlj => ?_, fun l hlj => ?_, h3⟩
    · rw [h1 j l hlj]
      by_cases hj : j = i
      · subst hj
        rw [Function.update_self, hp]; rfl
      · rw [Function.update_of_ne hj]
        apply runSeq_congr (hl j) (hf.inv s hs) hs _ l hlj
        intro l' hl'
        apply hf.frame s hs
        intro hi
        rcases hl' with h' | h'
        · exact hj (hd j i l' h' hi)
        · exact h' i hi
    · rw [h2 l hlj, hf.frame s hs l (hlj i)]

/-- Hence the final store does not depend on the interleaving. -/
theorem exec_unique {Inv : Store Loc V → Prop} {own : ι → Set Loc} (hd : ∀ i j l, l ∈ own i → l ∈ own j → i = j)
    {p : ι → List (Step Loc V)} {s s1 s2 : Store Loc V} (h1 : Exec p s s1) (h2 : Exec p s s2)
    (hl : ∀ i, ∀ f ∈ p i, Local Inv own i f) (hs : Inv s) : s1 = s2 := by
  funext l
  obtain ⟨a1, b1, -⟩ := exec_eq hd h1 hl hs
  obtain ⟨a2, b2, -⟩ := exec_eq hd h2 hl hs
  by_cases h : ∃ i, l ∈ own i
  · obtain ⟨i, hi⟩ := h
    rw [a1 i l hi, a2 i l hi]
  · have h' : ∀ j, l ∉ own j := fun j hj => h ⟨j, hj⟩
    rw [b1 l h', b2 l h']

theorem runSeq_append (p q : List (Step Loc V)) (s : Store Loc V) : runSeq (p ++ q) s = runSeq q (runSeq p s) := by
  unfold runSeq; rw [List.foldl_append]

/-- Some interleaving exists when finitely many programs are non-empty: run them one after the other. -/
theorem exec_exists (n : Nat) (p : Nat → List (Step Loc V)) (hp : ∀ k, n ≤ k → p k = []) (s : Store Loc V) : ∃ s', Exec p s s' := by
  induction n generalizing p s with
  | zero => exact ⟨s, .done fun k => hp k (Nat.zero_le k)⟩
  | succ n ih =>
    have : ∀ (l : List (Step Loc V)) (p : Nat → List (Step Loc V)) (s : Store Loc V), p n = l → (∀ k, n + 1 ≤ k → p k = []) →
        ∃ s', Exec p s s' := by
      intro l
      induction l with
      | nil =>
        intro p s h1 h2
        exact ih p (fun k hk => by rcases Nat.eq_or_lt_of_le hk with rfl | hk; exact h1; exact h2 k hk) s
      | cons f t iht =>
        intro p s h1 h2
        obtain ⟨s', hs'⟩ := iht (Function.update p n t) (f s) (Function.update_self ..) (fun k hk => by
          rw [Function.update_of_ne (by omega)]; exact h2 k hk)
        exact ⟨s', .step n f t h1 hs'⟩
    exact this _ p s rfl hp

/-- A work-sharing loop: every interleaving produces `out[k] = f k`. -/
theorem forLoop_exec {n : Nat} {f : Nat → V} {s s' : Store Nat V} (h : Exec (forLoop n f) s s') :
    ∀ k, s' k = if k < n then f k else s k := by
  have hl : ∀ i, ∀ g ∈ forLoop n f i, Local (fun _ => True) (fun i : Nat => ({i} : Set Nat)) i g := by
    intro i g hg
    unfold forLoop at hg
    split at hg
    · rw [List.mem_singleton] at hg; subst hg
      refine ⟨fun _ _ => trivial, fun s _ l hl => ?_, fun s s' _ _ _ l hl => ?_⟩
      · exact Function.update_of_ne (by simpa using hl) _ _
      · simp only [Set.mem_singleton_iff] at hl; subst hl; simp
    · simp at hg
  obtain ⟨h1, -, -⟩ := exec_eq (fun i j l hi hj => by simp only [Set.mem_singleton_iff] at hi hj; omega) h hl trivial
  intro k
  rw [h1 k k (by simp)]
  unfold forLoop runSeq
  split <;> simp

/-- A region without work sharing: every thread runs the whole loop. With at least one thread, every interleaving
still produces `out[k] = f k`, since all threads write the same values. -/
theorem replicatedLoop_exec {T n : Nat} (hT : 0 < T) {f : Nat → V} {s s' : Store Nat V} (h : Exec (replicatedLoop T n f) s s') :
    ∀ k, s' k = if k < n then f k else s k := by
  -- invariant: a cell has its initial value or its final one, and is final once some thread has passed it
  have hgen : ∀ (p : Nat → List (Step Nat V)) (s1 s2 : Store Nat V), Exec p s1 s2 →
      (∀ i, T ≤ i → p i = []) →
      (∀ i < T, ∃ m, p i = ((List.range n).drop m).map (fun k => fun s => Function.update s k (f k)) ∧ ∀ k < m, k < n → s1 k = f k) →
      (∀ k, n ≤ k → s2 k = s1 k) ∧ (∀ k < n, s2 k = f k) := by
    intro p s1 s2 h
    induction h with
    | done h0 =>
      intro _ hp
      refine ⟨fun _ _ => rfl, fun k hk => ?_⟩
      obtain ⟨m, hm, hm2⟩ := hp 0 hT
      rw [h0 0] at hm
      have : ((List.range n).drop m).length = 0 := by
        have := congrArg List.length hm
        rw [List.length_map] at this; simpa using this.symm
      rw [List.length_drop, List.length_range] at this
      exact hm2 k (by omega) hk
    | @step p s1 s2 i g t hp0 _ ih =>
      intro hT' hp
      have hiT : i < T := by
        by_contra hc
        rw [hT' i (by omega)] at hp0; cases hp0
      obtain ⟨m, hm, hm2⟩ := hp i hiT
      have hmn : m < n := by
        by_contra hc
        rw [List.drop_eq_nil_of_le (by simp; omega), hp0] at hm; cases hm
      rw [hp0, List.drop_eq_getElem_cons (by simpa using hmn), List.map_cons] at hm
      obtain ⟨hg, ht⟩ := List.cons.inj hm
      have hgs : g s1 = Function.update s1 m (f m) := by rw [hg]; simp
      obtain ⟨a, b⟩ := ih (fun j hj => by rw [Function.update_of_ne (by omega)]; exact hT' j hj) (by
        intro j hjT
        rw [hgs]
        by_cases hj : j = i
        · subst hj
          refine ⟨m + 1, by rw [Function.update_self, ht], fun k hk hkn => ?_⟩
          by_cases hkm : k = m
          · subst hkm; simp
          · rw [Function.update_of_ne hkm]; exact hm2 k (by omega) hkn
        · obtain ⟨m', h1, h2⟩ := hp j hjT
          refine ⟨m', by rw [Function.update_of_ne hj, h1], fun k hk hkn => ?_⟩
          by_cases hkm : k = m
          · subst hkm; simp
          · rw [Function.update_of_ne hkm]; exact h2 k hk hkn)
      refine ⟨fun k hk => ?_, b⟩
      rw [a k hk, hgs, Function.update_of_ne (by omega)]
  obtain ⟨a, b⟩ := hgen _ _ _ h (fun i hi => by unfold replicatedLoop; rw [if_neg (by omega)]) (fun i hi => ⟨0, by
    unfold replicatedLoop; rw [if_pos hi, List.drop_zero], fun k hk => absurd hk (by omega)⟩)
  intro k
  split
  · next hk => exact b k hk
  · next hk => exact a k (by omega)

/-! ### The racy loop with one fixed level -/

section quantile
variable (q : V) (F : Nat → Nat → V → V → V → V)

/-- The store with `curr_quantile` already written. -/
def setCurr (s : Store QLoc V) : Store QLoc V := Function.update s .curr q

/-- A step that only reads `curr_quantile`, i.e. leaves it alone. -/
def KeepsCurr (f : Step QLoc V) : Prop := ∀ s, f s .curr = s .curr

/-- A program that writes `q` to `curr_quantile` before anything else (or is empty). -/
def StartsWithWrite (p : List (Step QLoc V)) : Prop := p = [] ∨ ∃ t, p = (fun s => setCurr q s) :: t

/-- Each step writes `q` to `curr_quantile`, or leaves it alone. -/
def Good (p : List (Step QLoc V)) : Prop := ∀ f ∈ p, f = (fun s => setCurr q s) ∨ KeepsCurr f

theorem setCurr_self {s : Store QLoc V} (h : s .curr = q) : setCurr q s = s := by
  unfold setCurr; rw [← h]; exact Function.update_eq_self _ _

theorem setCurr_setCurr (s : Store QLoc V) : setCurr q (setCurr q s) = setCurr q s := by
  unfold setCurr; simp

/-- Starting with `curr_quantile = q` makes no difference when every program writes it first. -/
theorem exec_setCurr {ι : Type} [DecidableEq ι] {p : ι → List (Step QLoc V)} {s s' : Store QLoc V} (h : Exec p s s')
    (hg : ∀ i, Good q (p i)) (hw : (∀ i, StartsWithWrite q (p i)) ∨ s .curr = q) : Exec p (setCurr q s) (setCurr q s') := by
  induction h with
  | done h => exact .done h
  | @step p s s' i f t hp _ ih =>
    have hf := hg i f (by rw [hp]; simp)
    have hg' : ∀ j, Good q (Function.update p i t j) := by
      intro j g hgj
      by_cases hj : j = i
      · subst hj; rw [Function.update_self] at hgj; exact hg j g (by rw [hp]; simp [hgj])
      · rw [Function.update_of_ne hj] at hgj; exact hg j g hgj
    -- after the step, curr_quantile is q, and the step maps the modified store to the modified store
    have hstep : f s .curr = q ∧ f (setCurr q s) = setCurr q (f s) := by
      by_cases hc : s .curr = q
      · rcases hf with rfl | hk
        · exact ⟨by simp [setCurr], rfl⟩
        · refine ⟨by rw [hk, hc], ?_⟩
          rw [setCurr_self q hc, setCurr_self q (by rw [hk, hc])]
      · rcases hw with hw | hw
        · rcases hw i with h0 | ⟨t', h0⟩
          · rw [h0] at hp; cases hp
          · rw [h0] at hp; cases hp
            exact ⟨by simp [setCurr], rfl⟩
        · exact absurd hw hc
    refine .step i f t hp ?_
    rw [hstep.2]
    exact ih hg' (Or.inr hstep.1)

/-- Cells owned by row `y`. -/
def rowOwn (y : Nat) : Set QLoc := {l | ∃ x, l = .read1 y x ∨ l = .read2 y x ∨ l = .out y x}

theorem rowOwn_disjoint : ∀ i j l, l ∈ rowOwn i → l ∈ rowOwn j → i = j := by
  rintro i j l ⟨x, h⟩ ⟨x', h'⟩
  rcases h with rfl | rfl | rfl <;> simp at h' <;> exact h'.1

theorem curr_not_own (j : Nat) : QLoc.curr ∉ rowOwn j := by
  rintro ⟨x, h⟩; simp at h

theorem quantileCell_local (y x : Nat) : ∀ f ∈ quantileCell (fun _ _ => q) F y x,
    Local (fun s => s .curr = q) rowOwn y f := by
  intro f hf
  have o1 : QLoc.read1 y x ∈ rowOwn y := ⟨x, by simp⟩
  have o2 : QLoc.read2 y x ∈ rowOwn y := ⟨x, by simp⟩
  have o3 : QLoc.out y x ∈ rowOwn y := ⟨x, by simp⟩
  simp only [quantileCell, List.mem_cons, List.not_mem_nil, or_false] at hf
  rcases hf with rfl | rfl | rfl | rfl
  · refine ⟨fun s _ => by simp, fun s hs l hl => ?_, fun s s' hs hs' ha l hl => ?_⟩
    · by_cases h : l = .curr
      · subst h; simp [hs]
      · rw [Function.update_of_ne h]
    · have : l ≠ .curr := fun h => curr_not_own y (h ▸ hl)
      rw [Function.update_of_ne this, Function.update_of_ne this]; exact ha l (Or.inl hl)
  all_goals
    refine ⟨fun s hs => ?_, fun s hs l hl => ?_, fun s s' hs hs' ha l hl => ?_⟩
    · rw [Function.update_of_ne (by simp)]; exact hs
    · exact Function.update_of_ne (fun h => hl (by rw [h]; assumption)) _ _
    · simp only [Function.update_apply]
      split
      · simp only [hs, hs', ha _ (Or.inl o1), ha _ (Or.inl o2)]
      · exact ha l (Or.inl hl)

theorem runSeq_quantileCell (y x : Nat) (s : Store QLoc V) :
    runSeq (quantileCell (fun _ _ => q) F y x) s (.out y x) = F y x q q q := by
  simp [runSeq, quantileCell]

theorem runSeq_quantileCell_other (y x x' : Nat) (hx : x' ≠ x) (s : Store QLoc V) :
    runSeq (quantileCell (fun _ _ => q) F y x) s (.out y x') = s (.out y x') := by
  simp [runSeq, quantileCell, hx]

theorem runSeq_quantileRow (nX y x : Nat) (hx : x < nX) (s : Store QLoc V) :
    runSeq (quantileRow nX (fun _ _ => q) F y) s (.out y x) = F y x q q q := by
  unfold quantileRow
  induction nX with
  | zero => omega
  | succ n ih =>
    rw [List.range_succ, List.flatMap_append, runSeq_append, List.flatMap_singleton]
    by_cases h : x = n
    · subst h; exact runSeq_quantileCell q F y x _
    · rw [runSeq_quantileCell_other q F y n x h]
      exact ih (by omega)

theorem quantileLoop_fixed {nY nX : Nat} {s s' : Store QLoc V} (h : Exec (quantileLoop nY nX (fun _ _ => q) F) s s')
    {y x : Nat} (hy : y < nY) (hx : x < nX) : s' (.out y x) = F y x q q q := by
  have hmem : ∀ i f, f ∈ quantileLoop nY nX (fun _ _ => q) F i → ∃ x, f ∈ quantileCell (fun _ _ => q) F i x := by
    intro i f hf
    unfold quantileLoop at hf
    split at hf
    · unfold quantileRow at hf
      obtain ⟨x, _, hx⟩ := List.mem_flatMap.mp hf
      exact ⟨x, hx⟩
    · simp at hf
  have hgood : ∀ i, Good q (quantileLoop nY nX (fun _ _ => q) F i) := by
    intro i f hf
    obtain ⟨x, hx⟩ := hmem i f hf
    simp only [quantileCell, List.mem_cons, List.not_mem_nil, or_false] at hx
    rcases hx with rfl | rfl | rfl | rfl
    · exact Or.inl rfl
    all_goals exact Or.inr fun s => Function.update_of_ne (by simp) _ _
  have hsw : ∀ i, StartsWithWrite q (quantileLoop nY nX (fun _ _ => q) F i) := by
    intro i
    unfold quantileLoop
    split
    · unfold quantileRow
      cases nX with
      | zero => exact Or.inl rfl
      | succ n =>
        rw [List.range_succ_eq_map, List.flatMap_cons]
        exact Or.inr ⟨_, rfl⟩
    · exact Or.inl rfl
  have hx2 := exec_setCurr q h hgood (Or.inl hsw)
  obtain ⟨h1, -, -⟩ := exec_eq (Inv := fun s => s .curr = q) rowOwn_disjoint hx2 (fun i f hf => by
    obtain ⟨x, hx⟩ := hmem i f hf
    exact quantileCell_local q F i x f hx) (by simp [setCurr])
  have h2 := h1 y (.out y x) ⟨x, by simp⟩
  unfold setCurr at h2
  rw [Function.update_of_ne (by simp)] at h2
  rw [h2]
  unfold quantileLoop
  rw [if_pos hy]
  exact runSeq_quantileRow q F nX y x hx _

end quantile
end Gridpp.Omp
