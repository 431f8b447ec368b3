import Verif.Model.Client.ParameterNetcdf
import Verif.Spec.Netcdf
import Verif.Lemmas.Client.ParameterFile
import Mathlib.Algebra.BigOperators.Group.List.Basic
import Mathlib.Tactic.Ring

/-! # Lemmas for C146 to C148: positions in a NetCDF variable, and maps that are filled place by place -/

set_option linter.unusedSectionVars false

namespace Gridpp.Client
open Fl hiding MV isValid
open Res Spec

/-! ### Positions -/

theorem rowMajor_append (l : List (Nat × Nat)) (p : Nat × Nat) : rowMajor (l ++ [p]) = rowMajor l * p.1 + p.2 := by
  unfold rowMajor
  rw [List.foldl_append]
  rfl

theorem rowMajor_lt {l : List (Nat × Nat)} (h : ∀ p ∈ l, p.2 < p.1) : rowMajor l < (l.map Prod.fst).prod := by
  induction l using List.reverseRecOn with
  | nil => decide
  | append_singleton l p ih =>
    have h1 := ih fun q hq => h q (by simp [hq])
    have h2 := h p (by simp)
    rw [rowMajor_append, List.map_append, List.prod_append]
    simp only [List.map_cons, List.map_nil, List.prod_singleton]
    calc rowMajor l * p.1 + p.2 < rowMajor l * p.1 + p.1 := by omega
      _ = (rowMajor l + 1) * p.1 := by ring
      _ ≤ _ := Nat.mul_le_mul_right _ h1

/-- `getIndex`. -/
theorem ncIndex_eq (indices sizes : List Nat) (h : sizes.length ≤ indices.length) : ncIndex indices sizes = ok (rowMajor (sizes.zip indices)) := by
  have key : ∀ n, n ≤ sizes.length → ∀ a p : Nat, foldM (fun (s : Nat × Nat) (k : Nat) => do
      let c ← vget indices k
      let n ← vget sizes k
      ok (s.1 + c * s.2, s.2 * n)) (a, p) (List.range n).reverse =
      ok (a + p * rowMajor ((sizes.zip indices).take n), p * (sizes.take n).prod) := by
    intro n
    induction n with
    | zero => intro _ a p; simp [rowMajor]
    | succ n ih =>
      intro hn a p
      have h1 : n < indices.length := by omega
      have h2 : n < sizes.length := by omega
      rw [List.range_succ, List.reverse_append]
      simp only [List.reverse_cons, List.reverse_nil, List.nil_append, List.cons_append]
      rw [foldM_cons, vget_eq_ok_of_lt h1, vget_eq_ok_of_lt h2]
      simp only [ok_bind]
      rw [ih (by omega)]
      have hz : n < (sizes.zip indices).length := by rw [List.length_zip]; omega
      rw [List.take_succ_eq_append_getElem hz, List.take_succ_eq_append_getElem h2, rowMajor_append, List.prod_append, List.prod_singleton,
        List.getElem_zip]
      congr 2
      · ring
      · ring
  unfold ncIndex
  rw [key _ le_rfl, ok_bind]
  simp only [Nat.zero_add, one_mul]
  rw [List.take_of_length_le (by rw [List.length_zip]; omega)]

/-- `getIndices` is its inverse. -/
theorem ncIndices_eq {l : List (Nat × Nat)} (h : ∀ p ∈ l, p.2 < p.1) : ncIndices (rowMajor l) (l.map Prod.fst) = ok (l.map Prod.snd) := by
  have key : ∀ (l : List (Nat × Nat)), (∀ p ∈ l, p.2 < p.1) → ∀ (i p r : Nat) (acc : List Nat), r < p → i = rowMajor l * p + r →
      foldM (fun (s : List Nat × Nat) (n : Nat) =>
        if s.2 = 0 ∨ n = 0 then .ub else ok (i / s.2 % n :: s.1, s.2 * n)) (acc, p) (l.map Prod.fst).reverse =
      ok (l.map Prod.snd ++ acc, p * (l.map Prod.fst).prod) := by
    intro l
    induction l using List.reverseRecOn with
    | nil => intro _ i p r acc _ _; simp
    | append_singleton l q ih =>
      intro hl i p r acc hr hi
      have hq := hl q (by simp)
      rw [List.map_append, List.reverse_append]
      simp only [List.map_cons, List.map_nil, List.reverse_cons, List.reverse_nil, List.nil_append, List.cons_append]
      rw [foldM_cons]
      simp only
      rw [if_neg (by omega), ok_bind]
      rw [rowMajor_append] at hi
      have e1 : i / p = rowMajor l * q.1 + q.2 := by
        rw [hi, Nat.add_comm, Nat.add_mul_div_right _ _ (by omega), Nat.div_eq_of_lt hr, Nat.zero_add]
      have e2 : i / p % q.1 = q.2 := by
        rw [e1, Nat.add_comm, Nat.add_mul_mod_self_right, Nat.mod_eq_of_lt hq]
      rw [e2, ih (fun p hp => hl p (by simp [hp])) i (p * q.1) (q.2 * p + r) (q.2 :: acc) ?_ ?_]
      · simp only [List.map_append, List.map_cons, List.map_nil, List.prod_append, List.prod_singleton, List.append_assoc, List.cons_append, List.nil_append]
        congr 2
        ring
      · calc q.2 * p + r < q.2 * p + p := by omega
          _ = (q.2 + 1) * p := by ring
          _ ≤ q.1 * p := Nat.mul_le_mul_right _ hq
          _ = p * q.1 := by ring
      · rw [hi]; ring
  unfold ncIndices
  rw [key l h (rowMajor l) 1 0 [] (by omega) (by simp), ok_bind]
  simp

theorem rowMajor_surj (sizes : List Nat) : ∀ n < sizes.prod, ∃ ps : List (Nat × Nat), ps.map Prod.fst = sizes ∧ (∀ p ∈ ps, p.2 < p.1) ∧ rowMajor ps = n := by
  induction sizes using List.reverseRecOn with
  | nil =>
    intro n hn
    rw [List.prod_nil] at hn
    exact ⟨[], rfl, by simp, by simp [rowMajor]; omega⟩
  | append_singleton sizes s ih =>
    intro n hn
    rw [List.prod_append, List.prod_singleton] at hn
    have hs : 0 < s := by
      rcases Nat.eq_zero_or_pos s with h | h
      · rw [h] at hn; simp at hn
      · exact h
    obtain ⟨ps, h1, h2, h3⟩ := ih (n / s) (Nat.div_lt_of_lt_mul (by rw [Nat.mul_comm]; exact hn))
    refine ⟨ps ++ [(s, n % s)], by simp [h1], ?_, ?_⟩
    · intro p hp
      rcases List.mem_append.mp hp with hp | hp
      · exact h2 p hp
      · rw [List.mem_singleton.mp hp]
        exact Nat.mod_lt _ hs
    · rw [rowMajor_append, h3, Nat.mul_comm]
      exact Nat.div_add_mod n s

theorem rowMajor_ones (l : List (Nat × Nat)) (c : Nat) (h : ∀ p ∈ l, p = (1, 0)) : l.foldl (fun n p => n * p.1 + p.2) c = c := by
  induction l generalizing c with
  | nil => rfl
  | cons p l ih =>
    rw [List.foldl_cons, h p (by simp)]
    simp only [mul_one, add_zero]
    exact ih c fun q hq => h q (by simp [hq])

/-! ### Dimensions -/

section
variable {K : Type}

theorem dimId_some {f : NcFile K} (hn : (f.dims.map Prod.fst).Nodup) {d : Nat} {n : Str} {s : Nat} (h : f.dims[d]? = some (n, s)) : f.dimId n = some d := by
  unfold NcFile.dimId
  obtain ⟨hd, he⟩ := List.getElem?_eq_some_iff.mp h
  rw [List.findIdx?_eq_some_iff_getElem]
  refine ⟨hd, by rw [he]; simp, fun j hj hh => ?_⟩
  have hj2 : j < f.dims.length := by omega
  have h1 : (f.dims.map Prod.fst)[j]'(by simpa using hj2) = (f.dims.map Prod.fst)[d]'(by simpa using hd) := by
    rw [List.getElem_map, List.getElem_map, he]
    simpa using hh
  have := (List.Nodup.getElem_inj_iff hn).mp h1
  omega

theorem dimId_none {f : NcFile K} {n : Str} (h : n ∉ f.dims.map Prod.fst) : f.dimId n = none := by
  unfold NcFile.dimId
  rw [List.findIdx?_eq_none_iff]
  intro x hx
  have : x.1 ≠ n := fun he => h (List.mem_map.mpr ⟨x, hx, he⟩)
  simpa using this

theorem findSome_dimId {f : NcFile K} (hn : (f.dims.map Prod.fst).Nodup) {names : List Str} {d : Nat} (h : FirstDim f names d) :
    names.findSome? f.dimId = some d := by
  obtain ⟨before, n, after, size, rfl, h1, h2⟩ := h
  have h3 : before.findSome? f.dimId = none := by
    rw [List.findSome?_eq_none_iff]
    intro m hm
    exact dimId_none (h1 m hm)
  rw [List.findSome?_append, h3, List.findSome?_cons, dimId_some hn h2]
  rfl

theorem findDim_ok {f : NcFile K} (hn : (f.dims.map Prod.fst).Nodup) {given : Str} {names : List Str} {d : Nat}
    (h : FirstDim f (dimNames given names) d) : findDim f given names = ok d := by
  unfold findDim
  have := findSome_dimId hn h
  unfold dimNames at this
  by_cases hg : given = []
  · rw [if_neg (by simp [hg])]
    rw [if_pos hg] at this
    rw [this]
    rfl
  · rw [if_pos hg]
    rw [if_neg hg, List.findSome?_singleton] at this
    rw [this]
    rfl

theorem findDim_abort {f : NcFile K} {given : Str} {names : List Str} (h : ∀ n ∈ dimNames given names, n ∉ f.dims.map Prod.fst) :
    findDim f given names = .abort := by
  unfold findDim
  have h3 : (dimNames given names).findSome? f.dimId = none := by
    rw [List.findSome?_eq_none_iff]
    intro m hm
    exact dimId_none (h m hm)
  unfold dimNames at h3
  by_cases hg : given = []
  · rw [if_neg (by simp [hg])]
    rw [if_pos hg] at h3
    rw [h3]
    rfl
  · rw [if_pos hg]
    rw [if_neg hg, List.findSome?_singleton] at h3
    rw [h3]
    rfl

theorem firstDim_lt {f : NcFile K} {names : List Str} {d : Nat} (h : FirstDim f names d) : d < f.dims.length := by
  obtain ⟨_, _, _, _, _, _, h⟩ := h
  exact (List.getElem?_eq_some_iff.mp h).1

theorem dimSize_ok {f : NcFile K} {d : Nat} (h : d < f.dims.length) : f.dimSize d = ok (dimLength f d) := by
  unfold NcFile.dimSize dimLength
  rw [List.getElem?_eq_getElem h]
  rfl

theorem totalSize_ok {f : NcFile K} {v : NcVar K} (hv : ∀ d ∈ v.dims, d < f.dims.length) : f.totalSize v = ok (v.dims.map (dimLength f)).prod := by
  unfold NcFile.totalSize
  rw [foldM_ok (g := fun total d => total * dimLength f d) (fun b a ha => by rw [dimSize_ok (hv a ha), ok_bind])]
  rw [List.prod_eq_foldl, List.foldl_map]

end

theorem gridDims_other (dLat dLon nLat nLon : Nat) (k : Nat) (ds : List Nat) (s : Option Nat × Option Nat × Nat) (h1 : dLat ∉ ds) (h2 : dLon ∉ ds) :
    gridDims dLat dLon nLat nLon k ds s = s := by
  induction ds generalizing k with
  | nil => rfl
  | cons d ds ih =>
    rw [gridDims, if_neg (fun h => h1 (by simp [h])), if_neg (fun h => h2 (by simp [h]))]
    exact ih _ (fun h => h1 (by simp [h])) (fun h => h2 (by simp [h]))

theorem gridDims_append (dLat dLon nLat nLon : Nat) (k : Nat) (ds ds' : List Nat) (s : Option Nat × Option Nat × Nat) :
    gridDims dLat dLon nLat nLon k (ds ++ ds') s = gridDims dLat dLon nLat nLon (k + ds.length) ds' (gridDims dLat dLon nLat nLon k ds s) := by
  induction ds generalizing k s with
  | nil => rfl
  | cons d ds ih =>
    rw [List.cons_append, gridDims, gridDims, ih, List.length_cons]
    congr 1
    omega

/-- Neither of the two is there twice. -/
theorem gridDims_none (dLat dLon nLat nLon : Nat) (k : Nat) (ds : List Nat) (s : Option Nat × Option Nat × Nat) :
    (dLat ∉ ds → (gridDims dLat dLon nLat nLon k ds s).1 = s.1) ∧ ((dLon ∉ ds ∨ dLon = dLat) → (gridDims dLat dLon nLat nLon k ds s).2.1 = s.2.1) := by
  induction ds generalizing k s with
  | nil => exact ⟨fun _ => rfl, fun _ => rfl⟩
  | cons d ds ih =>
    rw [gridDims]
    constructor
    · intro h
      rw [(ih _ _).1 fun h' => h (by simp [h'])]
      have : ¬ d = dLat := fun he => h (by simp [he])
      rw [if_neg this]
      split_ifs <;> rfl
    · intro h
      rw [(ih _ _).2 (h.imp (fun h h' => h (by simp [h'])) id)]
      split_ifs with h1 h2
      · rfl
      · rcases h with h | h
        · exact absurd (by simp [h2]) h
        · exact absurd (h2.trans h) h1
      · rfl

theorem two_split {l : List Nat} (hd : l.Nodup) {a b : Nat} (ha : a ∈ l) (hb : b ∈ l) (hne : a ≠ b) :
    ∃ A B C, (l = A ++ a :: (B ++ b :: C) ∨ l = A ++ b :: (B ++ a :: C)) ∧ a ∉ A ∧ a ∉ B ∧ a ∉ C ∧ b ∉ A ∧ b ∉ B ∧ b ∉ C := by
  obtain ⟨A, R, rfl⟩ := List.append_of_mem ha
  rcases List.mem_append.mp hb with h | h
  · obtain ⟨A, B, rfl⟩ := List.append_of_mem h
    refine ⟨A, B, R, .inr (by simp), ?_⟩
    simp only [List.append_assoc, List.cons_append, List.nodup_append, List.nodup_cons, List.mem_append, List.mem_cons] at hd
    grind
  · rcases List.mem_cons.mp h with h | h
    · exact absurd h.symm hne
    · obtain ⟨B, C, rfl⟩ := List.append_of_mem h
      refine ⟨A, B, C, .inl rfl, ?_⟩
      simp only [List.nodup_append, List.nodup_cons, List.mem_append, List.mem_cons] at hd
      grind

/-! ### Maps -/

variable {K : Type} [Field K] [LinearOrder K] [IsStrictOrderedRing K]

namespace ParMap

theorem find_update {m : ParMap K} (hs : m.SortedKeys) (l l' : Loc K) (g : List (Pars K) → List (Pars K)) :
    find l' (update l g m) = if l.lat = l'.lat ∧ l.lon = l'.lon then some (((find l m).elim (l, g []) fun e => (e.1, g e.2))) else find l' m := by
  have hu := sorted_update hs l g
  split_ifs with h
  · have h : l.Same l' := h
    cases hf : find l m with
    | none =>
      refine find_mem hu ?_ h
      exact (mem_update hs l g _).mpr (.inr (.inr ⟨find_none.mp hf, rfl⟩))
    | some e =>
      obtain ⟨h1, h2⟩ := find_some hf
      exact find_mem hu ((mem_update hs l g _).mpr (.inr (.inl ⟨e, h1, h2, rfl⟩))) (h2.trans h)
  · have h : ¬ l.Same l' := h
    cases hf : find l' m with
    | none =>
      rw [find_none]
      intro e he hsame
      rcases (mem_update hs l g e).mp he with ⟨h1, -⟩ | ⟨x, -, h2, rfl⟩ | ⟨-, rfl⟩
      · exact find_none.mp hf e h1 hsame
      · exact h (h2.symm.trans hsame)
      · exact h hsame
    | some e =>
      obtain ⟨h1, h2⟩ := find_some hf
      exact find_mem hu ((mem_update hs l g e).mpr (.inl ⟨h1, fun hc => h (hc.symm.trans h2)⟩)) h2

theorem update_update {m : ParMap K} (l : Loc K) (g g' : List (Pars K) → List (Pars K)) :
    update l g' (update l g m) = update l (fun v => g' (g v)) m := by
  have irr : l.before l = false := by
    rw [← Bool.not_eq_true, Loc.before_iff]
    rintro (h | ⟨-, h⟩) <;> exact lt_irrefl _ h
  induction m with
  | nil => simp [update, irr]
  | cons z m ih =>
    rw [update, update]
    split_ifs with h1 h2
    · simp [update, irr]
    · rw [update, if_neg h1, if_pos h2, ih]
    · rw [update, if_neg h1, if_neg h2]

/-- Every cell is put into the map, one after another. -/
def assigned (m : ParMap K) (cells : List (Loc K × List (Pars K))) : ParMap K := cells.foldl (fun m c => update c.1 (fun _ => c.2) m) m

/-- The cells at a place. -/
def cellsAt (cells : List (Loc K × List (Pars K))) (a b : K) : List (Loc K × List (Pars K)) :=
  cells.filter fun c => c.1.lat = a ∧ c.1.lon = b

theorem assigned_spec (cells : List (Loc K × List (Pars K))) : (assigned [] cells).SortedKeys ∧ ∀ l : Loc K,
    find l (assigned [] cells) = (cellsAt cells l.lat l.lon).head?.bind fun c => (cellsAt cells l.lat l.lon).getLast?.map fun d => (c.1, d.2) := by
  induction cells using List.reverseRecOn with
  | nil => exact ⟨by simp [assigned, SortedKeys], fun l => by simp [assigned, cellsAt, find]⟩
  | append_singleton cells c ih =>
    have e : assigned [] (cells ++ [c]) = update c.1 (fun _ => c.2) (assigned [] cells) := by
      unfold assigned
      rw [List.foldl_append]
      rfl
    rw [e]
    refine ⟨sorted_update ih.1 _ _, fun l => ?_⟩
    rw [find_update ih.1]
    have ef : cellsAt (cells ++ [c]) l.lat l.lon = cellsAt cells l.lat l.lon ++ if c.1.lat = l.lat ∧ c.1.lon = l.lon then [c] else [] := by
      unfold cellsAt
      rw [List.filter_append, List.filter_singleton]
      by_cases h : c.1.lat = l.lat ∧ c.1.lon = l.lon <;> simp [h]
    rw [ef]
    split_ifs with h
    · rw [ih.2 c.1, h.1, h.2]
      cases hh : cellsAt cells l.lat l.lon with
      | nil => rfl
      | cons x t => simp [List.getLast?_cons]
    · rw [List.append_nil, ih.2 l]

end ParMap

/-- What is set if each cell is set for the times 0 … `n` - 1. -/
def cellSettings (n : Nat) (cells : List (Loc K × (Nat → Pars K))) : List (Setting K) :=
  cells.flatMap fun c => (List.range n).map fun t => ⟨c.1.lat, c.1.lon, c.1.elev, t, c.2 t⟩

/-- The array of a cell. -/
def cellArray (n : Nat) (c : Loc K × (Nat → Pars K)) : Loc K × List (Pars K) := (c.1, (List.range n).map c.2)

theorem settingsFor_cells (n : Nat) (cells : List (Loc K × (Nat → Pars K))) (a b : K) (t : Nat) :
    settingsFor (cellSettings n cells) a b t = if t < n then (cells.filter fun c => c.1.lat = a ∧ c.1.lon = b).map fun c =>
      ⟨c.1.lat, c.1.lon, c.1.elev, t, c.2 t⟩ else [] := by
  induction cells with
  | nil => simp [settingsFor, cellSettings]
  | cons c cells ih =>
    have e : cellSettings n (c :: cells) = ((List.range n).map fun t => (⟨c.1.lat, c.1.lon, c.1.elev, t, c.2 t⟩ : Setting K)) ++ cellSettings n cells := rfl
    have e1 : settingsFor (((List.range n).map fun t => (⟨c.1.lat, c.1.lon, c.1.elev, t, c.2 t⟩ : Setting K)) ++ cellSettings n cells) a b t =
        settingsFor ((List.range n).map fun t => (⟨c.1.lat, c.1.lon, c.1.elev, t, c.2 t⟩ : Setting K)) a b t ++ settingsFor (cellSettings n cells) a b t := by
      unfold settingsFor
      rw [List.filter_append]
    have e2 : settingsFor ((List.range n).map fun t => (⟨c.1.lat, c.1.lon, c.1.elev, t, c.2 t⟩ : Setting K)) a b t =
        if (c.1.lat = a ∧ c.1.lon = b) ∧ t < n then [⟨c.1.lat, c.1.lon, c.1.elev, t, c.2 t⟩] else [] := by
      unfold settingsFor
      rw [List.filter_map]
      have hc : ((fun w : Setting K => decide (w.lat = a ∧ w.lon = b ∧ w.time = t)) ∘ fun t => (⟨c.1.lat, c.1.lon, c.1.elev, t, c.2 t⟩ : Setting K)) =
          fun s => decide (c.1.lat = a ∧ c.1.lon = b ∧ s = t) := rfl
      rw [hc]
      have hr : (List.range n).filter (fun s => decide (c.1.lat = a ∧ c.1.lon = b ∧ s = t)) = if (c.1.lat = a ∧ c.1.lon = b) ∧ t < n then [t] else [] := by
        by_cases h : c.1.lat = a ∧ c.1.lon = b
        · simp only [h, true_and]
          clear ih e e1
          induction n with
          | zero => simp
          | succ n ihn =>
            rw [List.range_succ, List.filter_append, ihn, List.filter_singleton]
            by_cases h1 : t < n
            · have : n ≠ t := by omega
              rw [if_pos h1, if_pos (by omega)]
              simp [this]
            · by_cases h2 : n = t
              · subst h2
                simp
              · rw [if_neg h1, if_neg (by omega)]
                simp [h2]
        · have : ∀ s, ¬ (c.1.lat = a ∧ c.1.lon = b ∧ s = t) := fun s hs => h ⟨hs.1, hs.2.1⟩
          simp only [this, decide_false, List.filter_false]
          rw [if_neg (fun hh => h hh.1)]
      rw [hr]
      split_ifs <;> rfl
    rw [e, e1, e2, ih]
    by_cases h : c.1.lat = a ∧ c.1.lon = b
    · by_cases ht : t < n
      · simp [h, ht]
      · simp [ht]
    · by_cases ht : t < n
      · simp [h, ht]
      · simp [ht]

theorem latest_cells {n : Nat} (hn : 0 < n) {cells : List (Loc K × (Nat → Pars K))} (hne : cells ≠ []) : latest (cellSettings n cells) + 1 = n := by
  have le : ∀ cells : List (Loc K × (Nat → Pars K)), latest (cellSettings n cells) ≤ n - 1 := by
    intro cells
    have : ∀ l : List Nat, (∀ t ∈ l, t < n) → l.foldr max 0 ≤ n - 1 := by
      intro l
      induction l with
      | nil => intro _; simp
      | cons x l ih =>
        intro hl
        have h1 := ih fun t ht => hl t (by simp [ht])
        have h2 := hl x (by simp)
        simp only [List.foldr_cons]
        omega
    apply this
    intro t ht
    obtain ⟨w, hw, rfl⟩ := List.mem_map.mp ht
    obtain ⟨c, -, hc⟩ := List.mem_flatMap.mp hw
    obtain ⟨t, ht', rfl⟩ := List.mem_map.mp hc
    exact List.mem_range.mp ht'
  have mem : ∀ (l : List Nat) (t : Nat), t ∈ l → t ≤ l.foldr max 0 := by
    intro l
    induction l with
    | nil => simp
    | cons x l ih =>
      intro t ht
      simp only [List.foldr_cons]
      rcases List.mem_cons.mp ht with rfl | ht
      · omega
      · have := ih t ht
        omega
  obtain ⟨c, hc⟩ := List.exists_mem_of_ne_nil _ hne
  have := mem ((cellSettings n cells).map Setting.time) (n - 1) (List.mem_map.mpr ⟨⟨c.1.lat, c.1.lon, c.1.elev, n - 1, c.2 (n - 1)⟩,
    List.mem_flatMap.mpr ⟨c, hc, List.mem_map.mpr ⟨n - 1, by rw [List.mem_range]; omega, rfl⟩⟩, rfl⟩)
  have := le cells
  unfold latest at *
  omega

/-- A file whose map was filled with the cells holds these settings. -/
theorem holds_cells {n : Nat} (hn : 0 < n) {cells : List (Loc K × (Nat → Pars K))} (hne : cells ≠ []) (blank : List (Pars K)) {f : ParFile K}
    (hp : f.pars = ParMap.assigned [] ((cells.map fun c => (c.1, blank)) ++ cells.map (cellArray n)))
    (hm : f.maxTime = (n : Int) - 1) (ht : f.timeDependent = decide (1 < n)) :
    f.Holds f.cycling (cellSettings n cells) ∧ f.pars ≠ [] ∧ ∀ e ∈ f.pars, ∃ c ∈ cells, ∃ d ∈ cells, e = (c.1, (List.range n).map d.2) := by
  obtain ⟨hs, hfind⟩ := ParMap.assigned_spec ((cells.map fun c => (c.1, blank)) ++ cells.map (cellArray n))
  rw [← hp] at hs hfind
  have hl := latest_cells hn hne
  let fs := fun a b => cells.filter fun c => c.1.lat = a ∧ c.1.lon = b
  have hat : ∀ a b, ParMap.cellsAt ((cells.map fun c => (c.1, blank)) ++ cells.map (cellArray n)) a b =
      ((fs a b).map fun c => (c.1, blank)) ++ (fs a b).map (cellArray n) := by
    intro a b
    unfold ParMap.cellsAt
    rw [List.filter_append, List.filter_map, List.filter_map]
    rfl
  have hfind' : ∀ l : Loc K, f.pars.find l = (fs l.lat l.lon).head?.bind fun c => (fs l.lat l.lon).getLast?.map fun d => (c.1, (List.range n).map d.2) := by
    intro l
    rw [hfind, hat]
    cases hf : fs l.lat l.lon with
    | nil => rfl
    | cons x t =>
      simp [List.getLast?_append, List.getLast?_cons, cellArray]
      cases t.getLast? <;> rfl
  have hmem : ∀ e ∈ f.pars, ∃ c d, (fs e.1.lat e.1.lon).head? = some c ∧ (fs e.1.lat e.1.lon).getLast? = some d ∧ e = (c.1, (List.range n).map d.2) := by
    intro e he
    have h := ParMap.find_mem hs he ⟨rfl, rfl⟩
    rw [hfind'] at h
    obtain ⟨c, h1, h2⟩ := Option.bind_eq_some_iff.mp h
    obtain ⟨d, h3, h4⟩ := Option.map_eq_some_iff.mp h2
    exact ⟨c, d, h1, h3, h4.symm⟩
  have hlen : ∀ e ∈ f.pars, e.2.length = n := by
    intro e he
    obtain ⟨c, d, -, -, h⟩ := hmem e he
    rw [h]
    simp
  have hex : ∀ c ∈ cells, ∃ e ∈ f.pars, e.1.lat = c.1.lat ∧ e.1.lon = c.1.lon := by
    intro c hc
    cases hf : f.pars.find c.1 with
    | none =>
      rw [hfind'] at hf
      have hcf : c ∈ fs c.1.lat c.1.lon := List.mem_filter.mpr ⟨hc, by simp⟩
      cases hq : fs c.1.lat c.1.lon with
      | nil => rw [hq] at hcf; simp at hcf
      | cons x t => rw [hq] at hf; simp [List.getLast?_cons] at hf
    | some e =>
      obtain ⟨h1, h2⟩ := ParMap.find_some hf
      exact ⟨e, h1, h2⟩
  refine ⟨?_, by
    obtain ⟨c, hc⟩ := List.exists_mem_of_ne_nil _ hne
    obtain ⟨e, he, -⟩ := hex c hc
    exact List.ne_nil_of_mem he, fun e he => by
    obtain ⟨c, d, h1, h2, h3⟩ := hmem e he
    exact ⟨c, (List.mem_filter.mp (List.mem_of_mem_head? h1)).1, d, (List.mem_filter.mp (List.mem_of_getLast? h2)).1, h3⟩⟩
  refine ⟨hs, fun a b => ⟨?_, ?_⟩, fun e he => by rw [hlen e he]; omega, fun _ => ?_, fun e he t => ?_, fun e he => ?_, by rw [hm]; omega, ?_, rfl⟩
  · rintro ⟨e, he, rfl, rfl⟩
    obtain ⟨c, d, h1, -, -⟩ := hmem e he
    have hc := List.mem_filter.mp (List.mem_of_mem_head? h1)
    have hc2 := of_decide_eq_true hc.2
    exact ⟨⟨c.1.lat, c.1.lon, c.1.elev, 0, c.2 0⟩, List.mem_flatMap.mpr ⟨c, hc.1, List.mem_map.mpr ⟨0, by rw [List.mem_range]; exact hn, rfl⟩⟩, hc2⟩
  · rintro ⟨w, hw, rfl, rfl⟩
    obtain ⟨c, hc, hw⟩ := List.mem_flatMap.mp hw
    obtain ⟨t, -, rfl⟩ := List.mem_map.mp hw
    exact hex c hc
  · obtain ⟨c, hc⟩ := List.exists_mem_of_ne_nil _ hne
    obtain ⟨e, he, -⟩ := hex c hc
    exact ⟨e, he, by rw [hlen e he]; omega⟩
  · obtain ⟨c, d, h1, h2, h3⟩ := hmem e he
    unfold lastSetting
    rw [settingsFor_cells]
    have he2 : e.2 = (List.range n).map d.2 := by rw [h3]
    rw [he2]
    by_cases ht : t < n
    · rw [if_pos ht, List.getLast?_map]
      have h2' : (cells.filter fun c => decide (c.1.lat = e.1.lat ∧ c.1.lon = e.1.lon)).getLast? = some d := h2
      rw [h2']
      simp [List.getD_eq_getElem?_getD, ht]
    · rw [if_neg ht]
      simp [List.getD_eq_getElem?_getD, ht]
  · obtain ⟨c, d, h1, h2, h3⟩ := hmem e he
    have h1' : cells.find? (fun c => decide (c.1.lat = e.1.lat ∧ c.1.lon = e.1.lon)) = some c := by
      rw [← List.head?_filter]
      exact h1
    have hg : ∀ cells : List (Loc K × (Nat → Pars K)), ∀ c, cells.find? (fun c => decide (c.1.lat = e.1.lat ∧ c.1.lon = e.1.lon)) = some c →
        (cellSettings n cells).find? (fun w => decide (w.lat = e.1.lat ∧ w.lon = e.1.lon)) = some ⟨c.1.lat, c.1.lon, c.1.elev, 0, c.2 0⟩ := by
      intro cells
      induction cells with
      | nil => intro c h; simp at h
      | cons x cells ih =>
        intro c h
        have hr : List.range n = 0 :: (List.range (n - 1)).map Nat.succ := by
          conv_lhs => rw [show n = (n - 1) + 1 by omega]
          exact List.range_succ_eq_map
        have ex : cellSettings n (x :: cells) = ((List.range n).map fun t => (⟨x.1.lat, x.1.lon, x.1.elev, t, x.2 t⟩ : Setting K)) ++ cellSettings n cells :=
          rfl
        rw [ex, List.find?_append]
        by_cases hx : x.1.lat = e.1.lat ∧ x.1.lon = e.1.lon
        · rw [List.find?_cons_of_pos (by simpa using hx)] at h
          cases h
          rw [hr, List.map_cons, List.find?_cons_of_pos (by simpa using hx)]
          rfl
        · rw [List.find?_cons_of_neg (by simpa using hx)] at h
          rw [List.find?_eq_none.mpr, ih c h]
          · rfl
          · intro w hw
            obtain ⟨t, -, rfl⟩ := List.mem_map.mp hw
            simpa using hx
    exact ⟨_, hg cells c h1', by rw [h3]⟩
  · rw [ht]
    congr 1
    rw [eq_iff_iff]
    omega

theorem setAt_ok {m : ParMap K} {l : Loc K} {e : Loc K × List (Pars K)} (hf : m.find l = some e) {t : Nat} (ht : t < e.2.length) (p : Pars K) :
    setAt m l t p = ok (ParMap.update l (fun v => v.set t p) m) := by
  unfold setAt
  rw [hf]
  exact if_pos ht

theorem ParMap.update_congr {m : ParMap K} {l : Loc K} {e : Loc K × List (Pars K)} (hs : m.SortedKeys) (hf : m.find l = some e)
    {g g' : List (Pars K) → List (Pars K)} (hg : g e.2 = g' e.2) : ParMap.update l g m = ParMap.update l g' m := by
  induction m with
  | nil => simp [ParMap.find] at hf
  | cons z m ih =>
    rw [ParMap.find] at hf
    rw [ParMap.update, ParMap.update]
    obtain ⟨g1, g2⟩ := List.pairwise_cons.mp hs
    by_cases hc : (!z.1.before l && !l.before z.1) = true
    · have hh := hc
      rw [if_pos hc] at hf
      cases hf
      rw [Bool.and_eq_true, Bool.not_eq_true', Bool.not_eq_true'] at hh
      rw [hh.1, hh.2]
      simp [hg]
    · rw [if_neg hc] at hf
      rcases Loc.trichotomy l z.1 with h | h | h
      · obtain ⟨h3, h4⟩ := ParMap.find_some hf
        exact absurd h4.symm (Loc.not_same_of_before (Loc.before_trans h (g1 e h3)))
      · exact absurd ((Loc.same_iff _ _).mpr h.symm) hc
      · have h5 : l.before z.1 = false := by
          rw [← Bool.not_eq_true]
          intro h6
          exact Loc.not_same_of_before (Loc.before_trans h h6) ⟨rfl, rfl⟩
        rw [h5, h]
        simp only [Bool.false_eq_true, if_false, if_true]
        rw [ih g2 hf]

theorem ParMap.update_id {m : ParMap K} {l : Loc K} {e : Loc K × List (Pars K)} (hs : m.SortedKeys) (hf : m.find l = some e) :
    ParMap.update l (fun v => v) m = m := by
  induction m with
  | nil => simp [ParMap.find] at hf
  | cons z m ih =>
    rw [ParMap.find] at hf
    rw [ParMap.update]
    obtain ⟨g1, g2⟩ := List.pairwise_cons.mp hs
    by_cases hc : (!z.1.before l && !l.before z.1) = true
    · have hh := hc
      rw [Bool.and_eq_true, Bool.not_eq_true', Bool.not_eq_true'] at hh
      rw [hh.1, hh.2]
      simp
    · rw [if_neg hc] at hf
      rcases Loc.trichotomy l z.1 with h | h | h
      · obtain ⟨h3, h4⟩ := ParMap.find_some hf
        exact absurd h4.symm (Loc.not_same_of_before (Loc.before_trans h (g1 e h3)))
      · exact absurd ((Loc.same_iff _ _).mpr h.symm) hc
      · have h5 : l.before z.1 = false := by
          rw [← Bool.not_eq_true]
          intro h6
          exact Loc.not_same_of_before (Loc.before_trans h h6) ⟨rfl, rfl⟩
        rw [h5, h]
        simp only [Bool.false_eq_true, if_false, if_true]
        rw [ih g2 hf]

/-- The loop over the times of a cell. -/
theorem setAt_loop {m : ParMap K} {l : Loc K} {e : Loc K × List (Pars K)} (hs : m.SortedKeys) (hf : m.find l = some e) {n : Nat} (hn : e.2.length = n)
    {step : ParMap K → Nat → Res (ParMap K)} {p : Nat → Pars K} (hstep : ∀ m, ∀ t < n, step m t = setAt m l t (p t)) :
    foldM step m (List.range n) = ok (ParMap.update l (fun _ => (List.range n).map p) m) := by
  have key : ∀ k, k ≤ n → foldM step m (List.range k) = ok (ParMap.update l (fun v => (List.range k).map p ++ v.drop k) m) := by
    intro k
    induction k with
    | zero =>
      intro _
      simp only [List.range_zero, List.map_nil, List.nil_append, List.drop_zero]
      rw [ParMap.update_id hs hf]
      rfl
    | succ k ih =>
      intro hk
      rw [List.range_succ, foldM_append, ih (by omega), ok_bind, foldM_cons, hstep _ k (by omega)]
      have hf' : ParMap.find l (ParMap.update l (fun v => (List.range k).map p ++ v.drop k) m) = some (e.1, (List.range k).map p ++ e.2.drop k) := by
        rw [ParMap.find_update hs, if_pos ⟨rfl, rfl⟩, hf]
        rfl
      rw [setAt_ok hf' (by simp; omega), ok_bind, foldM_nil, ParMap.update_update]
      congr 1
      apply ParMap.update_congr hs hf
      rw [List.set_append_right _ _ (by simp)]
      simp only [List.length_map, List.length_range, Nat.sub_self, List.map_append, List.map_cons, List.map_nil, List.append_assoc, List.cons_append,
        List.nil_append]
      rw [List.drop_eq_getElem_cons (by omega : k < e.2.length), List.set_cons_zero]
  rw [key n le_rfl]
  congr 1
  apply ParMap.update_congr hs hf
  simp [hn]

theorem assigned_append (a b : List (Loc K × List (Pars K))) : ParMap.assigned [] (a ++ b) = ParMap.assigned (ParMap.assigned [] a) b := by
  unfold ParMap.assigned
  rw [List.foldl_append]

theorem initializeEmpty_eq (locations : List (Loc K)) (nTime nCoeff : Nat) :
    initializeEmpty [] locations nTime nCoeff = ParMap.assigned [] (locations.map fun l => (l, List.replicate nTime (List.replicate nCoeff Client.MV))) := by
  unfold initializeEmpty ParMap.assigned
  rw [List.foldl_map]

/-- The loop over the cells. -/
theorem cells_loop {α : Type} (cells : List α) (loc : α → Loc K) (par : α → Nat → Pars K) (n : Nat) (blank : List (Pars K)) (hb : blank.length = n)
    {step : ParMap K → α → Res (ParMap K)}
    (hstep : ∀ c ∈ cells, ∀ m : ParMap K, ∀ e, m.SortedKeys → m.find (loc c) = some e → e.2.length = n →
      step m c = ok (ParMap.update (loc c) (fun _ => (List.range n).map (par c)) m)) :
    foldM step (ParMap.assigned [] (cells.map fun c => (loc c, blank))) cells =
      ok (ParMap.assigned [] ((cells.map fun c => (loc c, blank)) ++ cells.map fun c => (loc c, (List.range n).map (par c)))) := by
  have key : ∀ P : List α, (∀ c ∈ P, c ∈ cells) → foldM step (ParMap.assigned [] (cells.map fun c => (loc c, blank))) P =
      ok (ParMap.assigned [] ((cells.map fun c => (loc c, blank)) ++ P.map fun c => (loc c, (List.range n).map (par c)))) := by
    intro P
    induction P using List.reverseRecOn with
    | nil => intro _; simp
    | append_singleton P c ih =>
      intro hP
      have hc := hP c (by simp)
      rw [foldM_append, ih fun x hx => hP x (by simp [hx]), ok_bind, foldM_cons]
      obtain ⟨hs, hfind⟩ := ParMap.assigned_spec ((cells.map fun c => (loc c, blank)) ++ P.map fun c => (loc c, (List.range n).map (par c)))
      have hne : ParMap.cellsAt ((cells.map fun c => (loc c, blank)) ++ P.map fun c => (loc c, (List.range n).map (par c))) (loc c).lat (loc c).lon ≠ [] := by
        apply List.ne_nil_of_mem (a := (loc c, blank))
        unfold ParMap.cellsAt
        rw [List.mem_filter]
        exact ⟨List.mem_append.mpr (.inl (List.mem_map.mpr ⟨c, hc, rfl⟩)), by simp⟩
      have h1 := hfind (loc c)
      rw [List.head?_eq_some_head hne, List.getLast?_eq_some_getLast hne] at h1
      have hmem := List.getLast_mem hne
      have hlen : ((ParMap.cellsAt ((cells.map fun c => (loc c, blank)) ++ P.map fun c => (loc c, (List.range n).map (par c))) (loc c).lat (loc c).lon).getLast
          hne).2.length = n := by
        unfold ParMap.cellsAt at hmem
        rcases List.mem_append.mp (List.mem_filter.mp hmem).1 with h | h
        · obtain ⟨x, -, hx⟩ := List.mem_map.mp h
          exact (congrArg (fun y => y.2.length) hx).symm.trans hb
        · obtain ⟨x, -, hx⟩ := List.mem_map.mp h
          exact (congrArg (fun y : Loc K × List (Pars K) => y.2.length) hx).symm.trans (by
            show ((List.range n).map (par x)).length = n
            simp)
      rw [hstep c hc _ _ hs h1 hlen, ok_bind, foldM_nil]
      congr 1
      rw [List.map_append, ← List.append_assoc, assigned_append _ (List.map _ [c])]
      rfl
  exact key cells fun c hc => hc

/-! ### The dimensions of the parameters -/

theorem coeffDims_spec {dLat dLon : Nat} {dTime : Option Nat} {dCoeff : Nat} (h1 : dLat ≠ dLon) (h2 : dCoeff ≠ dLat) (h3 : dCoeff ≠ dLon)
    (h4 : dTime ≠ some dLat) (h5 : dTime ≠ some dLon) (h6 : dTime ≠ some dCoeff) (k : Nat) (ds : List Nat) (hd : ds.Nodup) (s : CoeffDims) :
    coeffDims dLat dLon dTime dCoeff k ds s =
      ⟨if dLat ∈ ds then some (k + ds.idxOf dLat) else s.lat, if dLon ∈ ds then some (k + ds.idxOf dLon) else s.lon,
        (dTime.bind fun d => if d ∈ ds then some (k + ds.idxOf d) else none).or s.time, if dCoeff ∈ ds then some (k + ds.idxOf dCoeff) else s.coeff⟩ := by
  induction ds generalizing k s with
  | nil => cases dTime <;> rfl
  | cons d ds ih =>
    obtain ⟨hn, hd⟩ := List.nodup_cons.mp hd
    have hi : ∀ (x : Nat) (y : Option Nat), (if x ∈ d :: ds then some (k + (d :: ds).idxOf x) else y) =
        if x = d then some k else if x ∈ ds then some (k + 1 + ds.idxOf x) else y := by
      intro x y
      by_cases h : x = d
      · subst h
        simp
      · rw [if_neg h, List.idxOf_cons_ne _ (Ne.symm h)]
        simp only [List.mem_cons, h, false_or]
        congr 2
        omega
    rw [coeffDims, ih _ hd]
    simp only [hi]
    cases dTime with
    | none =>
      simp only [Option.bind_none, Option.none_or, reduceCtorEq, if_false]
      by_cases e1 : d = dLat
      · subst e1
        simp [h2, hn, Ne.symm h1]
      · by_cases e2 : d = dLon
        · subst e2
          simp [h1, h3, hn, Ne.symm h1]
        · by_cases e3 : d = dCoeff
          · subst e3
            simp [h2, h3, hn, Ne.symm h2, Ne.symm h3]
          · simp [e1, e2, e3, Ne.symm e1, Ne.symm e2, Ne.symm e3]
    | some dt =>
      have g4 : dt ≠ dLat := fun h => h4 (by rw [h])
      have g5 : dt ≠ dLon := fun h => h5 (by rw [h])
      have g6 : dt ≠ dCoeff := fun h => h6 (by rw [h])
      simp only [Option.bind_some, Option.some.injEq]
      by_cases e1 : d = dLat
      · subst e1
        simp [h2, hn, Ne.symm h1, g4]
      · by_cases e2 : d = dLon
        · subst e2
          simp [h1, h3, hn, Ne.symm h1, g5]
        · by_cases e4 : d = dt
          · subst e4
            simp [hn, g4, g5, Ne.symm g4, Ne.symm g5, Ne.symm g6]
          · by_cases e3 : d = dCoeff
            · subst e3
              simp [h2, h3, hn, Ne.symm h2, Ne.symm h3, g6, Ne.symm g6]
            · simp [e1, e2, e3, e4, Ne.symm e1, Ne.symm e2, Ne.symm e3, Ne.symm e4]

/-- The array of indices has the index of every dimension at its place. -/
theorem coeffIndices_spec {dLat dLon : Nat} {dTime : Option Nat} {dCoeff : Nat} (h1 : dLat ≠ dLon) (h2 : dCoeff ≠ dLat) (h3 : dCoeff ≠ dLon)
    (h4 : dTime ≠ some dLat) (h5 : dTime ≠ some dLon) (h6 : dTime ≠ some dCoeff) {ds : List Nat} (hd : ds.Nodup) (hl : ds.length ≤ 4)
    (m1 : dLat ∈ ds) (m2 : dLon ∈ ds) (m3 : dCoeff ∈ ds) (i j t k : Nat) :
    ∃ v, coeffIndices (ds.idxOf dLat) (ds.idxOf dLon) (dTime.bind fun d => if d ∈ ds then some (ds.idxOf d) else none) (ds.idxOf dCoeff) i j t k = ok v ∧
      v.length = 4 ∧ ∀ n, (hn : n < ds.length) → v[n]? = some (coeffPos dLat dLon dTime dCoeff i j t k ds[n]) := by
  have l1 := List.idxOf_lt_length_iff.mpr m1
  have l2 := List.idxOf_lt_length_iff.mpr m2
  have l3 := List.idxOf_lt_length_iff.mpr m3
  have b1 : ds.idxOf dLat < 4 := by omega
  have b2 : ds.idxOf dLon < 4 := by omega
  have b3 : ds.idxOf dCoeff < 4 := by omega
  have hput : ∀ (v : List Nat) (n x : Nat), v.length = 4 → n < ds.length → putIndex v n x = ok (v.set n x) := by
    intro v n x hv hn
    unfold putIndex
    rw [if_pos (by omega)]
  have hidx : ∀ d ∈ ds, ∀ n, (hn : n < ds.length) → (ds.idxOf d = n ↔ ds[n] = d) := by
    intro d hd' n hn
    constructor
    · rintro rfl
      exact List.getElem_idxOf hn
    · rintro rfl
      exact hd.idxOf_getElem n hn
  have hzero : ∀ n, n < ds.length → ([0, 0, 0, 0] : List Nat)[n]? = some 0 := by
    intro n hn
    have : n < 4 := by omega
    match n, this with
    | 0, _ => rfl
    | 1, _ => rfl
    | 2, _ => rfl
    | 3, _ => rfl
  unfold coeffIndices
  rw [hput _ _ _ rfl l1, ok_bind, hput _ _ _ (by simp) l2, ok_bind]
  cases dTime with
  | none =>
    rw [show putTime _ ((none : Option Nat).bind _) t = ok _ from rfl, ok_bind]
    refine ⟨_, hput _ _ _ (by simp) l3, by simp, fun n hn => ?_⟩
    have q1 := hidx _ m1 n hn
    have q2 := hidx _ m2 n hn
    have q3 := hidx _ m3 n hn
    unfold coeffPos
    rw [List.getElem?_set, List.getElem?_set, List.getElem?_set, hzero n hn]
    simp only [q1, q2, q3, List.length_set, List.length_cons, List.length_nil, reduceCtorEq, if_false]
    by_cases e1 : ds[n] = dLat
    · simp [e1, h1, Ne.symm h2, b1]
    · by_cases e2 : ds[n] = dLon
      · simp [e2, Ne.symm h1, Ne.symm h3, b2]
      · by_cases e3 : ds[n] = dCoeff
        · simp [e3, h2, h3, b3]
        · simp [e1, e2, e3]
  | some dt =>
    have g4 : dt ≠ dLat := fun h => h4 (by rw [h])
    have g5 : dt ≠ dLon := fun h => h5 (by rw [h])
    have g6 : dt ≠ dCoeff := fun h => h6 (by rw [h])
    rw [Option.bind_some]
    by_cases hm : dt ∈ ds
    · rw [if_pos hm]
      have hp := hput ((([0, 0, 0, 0] : List Nat).set (ds.idxOf dLat) i).set (ds.idxOf dLon) j) (ds.idxOf dt) t (by simp) (List.idxOf_lt_length_iff.mpr hm)
      unfold putTime
      simp only
      rw [hp, ok_bind]
      refine ⟨_, hput _ _ _ (by simp) l3, by simp, fun n hn => ?_⟩
      have q1 := hidx _ m1 n hn
      have q2 := hidx _ m2 n hn
      have q3 := hidx _ m3 n hn
      have q4 := hidx _ hm n hn
      have l4 := List.idxOf_lt_length_iff.mpr hm
      have b4 : ds.idxOf dt < 4 := by omega
      unfold coeffPos
      rw [List.getElem?_set, List.getElem?_set, List.getElem?_set, List.getElem?_set, hzero n hn]
      simp only [q1, q2, q3, q4, List.length_set, List.length_cons, List.length_nil, Option.some.injEq]
      by_cases e1 : ds[n] = dLat
      · simp [e1, h1, Ne.symm h2, Ne.symm g4, b1]
      · by_cases e2 : ds[n] = dLon
        · simp [e2, Ne.symm h1, Ne.symm h3, Ne.symm g5, b2]
        · by_cases e4 : ds[n] = dt
          · simp [e4, g4, g5, g6, b4]
          · by_cases e3 : ds[n] = dCoeff
            · simp [e3, h2, h3, Ne.symm g6, b3]
            · simp [e1, e2, e3, e4]
    · rw [if_neg hm, show putTime _ none t = ok _ from rfl, ok_bind]
      refine ⟨_, hput _ _ _ (by simp) l3, by simp, fun n hn => ?_⟩
      have q1 := hidx _ m1 n hn
      have q2 := hidx _ m2 n hn
      have q3 := hidx _ m3 n hn
      unfold coeffPos
      rw [List.getElem?_set, List.getElem?_set, List.getElem?_set, hzero n hn]
      have e4 : ds[n] ≠ dt := fun h => hm (h ▸ List.getElem_mem hn)
      simp only [q1, q2, q3, List.length_set, List.length_cons, List.length_nil, Option.some.injEq, e4, if_false]
      by_cases e1 : ds[n] = dLat
      · simp [e1, h1, Ne.symm h2, b1]
      · by_cases e2 : ds[n] = dLon
        · simp [e2, Ne.symm h1, Ne.symm h3, b2]
        · by_cases e3 : ds[n] = dCoeff
          · simp [e3, h2, h3, b3]
          · simp [e1, e2, e3]

theorem var_some {f : NcFile K} (hn : (f.vars.map NcVar.name).Nodup) {v : NcVar K} (hv : v ∈ f.vars) : f.var v.name = some v := by
  unfold NcFile.var
  cases h : f.vars.find? fun w => w.name = v.name with
  | none => exact absurd (List.find?_eq_none.mp h v hv) (by simp)
  | some w =>
    have h1 := List.mem_of_find?_eq_some h
    have h2 : w.name = v.name := by simpa using List.find?_some h
    rw [List.inj_on_of_nodup_map hn h1 hv h2]

theorem var_none {f : NcFile K} {n : Str} (h : n ∉ f.vars.map NcVar.name) : f.var n = none := by
  unfold NcFile.var
  rw [List.find?_eq_none]
  intro x hx
  have : x.name ≠ n := fun he => h (List.mem_map.mpr ⟨x, hx, he⟩)
  simpa using this

theorem placeVar_ok {f : NcFile K} (hn : (f.vars.map NcVar.name).Nodup) {a b : Str} {v : NcVar K} (h : FirstVar f [a, b] v) : placeVar f a b = ok v := by
  obtain ⟨before, n, after, h1, h2, h3, h4⟩ := h
  unfold placeVar
  match before, h1 with
  | [], h1 =>
    simp only [List.nil_append, List.cons.injEq] at h1
    rw [h1.1, ← h4, var_some hn h3]
  | [x], h1 =>
    simp only [List.cons_append, List.nil_append, List.cons.injEq] at h1
    rw [h1.1, var_none (h2 x (by simp)), h1.2.1, ← h4, var_some hn h3]
    rfl
  | x :: y :: l, h1 =>
    simp at h1

end Gridpp.Client
