import Verif.Props.Window
import Verif.Props.FillUnits
import Verif.Lemmas.Client.Neighbourhood

/-! C181: laws of `window`. -/

set_option linter.unusedSectionVars false

namespace Gridpp.Props
open Fl Res Spec

section
variable {K : Type} [Field K] [LinearOrder K] [IsStrictOrderedRing K] [FloorRing K] [HasSqrt K]

/-- The calls for which `window` reads nothing outside its arrays (C29). -/
def SafeWindow (s : Statistic) (keep : Bool) : Prop := (s ≠ .mean ∧ s ≠ .sum ∧ s ≠ .count) ∨ (s = .sum ∧ keep = false)

theorem windowAt_map {α β : Type} (f : α → β) (before : Bool) (L x : Nat) (l : List α) : windowAt before L x (l.map f) = (windowAt before L x l).map f := by
  unfold windowAt slice
  split <;> simp [List.map_drop, List.map_take]

theorem windowValue_unique {rnd : Rnd K} {s : Statistic} {before keep edges : Bool} {L x : Nat} {row : List (Fl K)} {v w : Fl K}
    (h : WindowValue rnd s before keep edges L x row v) (h' : WindowValue rnd s before keep edges L x row w) : v = w := by
  by_cases hc : (keep = true ∧ ∃ u ∈ windowAt before L x row, u.isValid = false) ∨ (edges = true ∧ overshoots before L x row.length)
  · rw [h.1 hc, h'.1 hc]
  · have := h.2 hc
    rw [h'.2 hc] at this
    exact (Res.ok.inj this).symm

/-! ### Units -/

/-- **C181**: windows over values in other units, for the calls that read nothing outside (the others: `c29_mean_reads_outside`, `c29_count_reads_outside`). -/
theorem c181_units_partial [HasGeo K] (rnd : Rnd K) (c d : K) (hc : 0 < c) (Y X L : Nat) (a : List (List (Fl K))) (h : Rect Y X a) (hY : 0 < Y) (hX : 0 < X) (hL : 0 < L) (s : Statistic)
    (hs : Deterministic s) (hu : StatUnits d s) (before keep edges : Bool) (hodd : before = true ∨ L % 2 = 1) (hok : SafeWindow s keep) :
    ∃ out, window rnd a (L : Int) s before keep edges = ok out ∧ Rect Y X out ∧
      window rnd (a.map (List.map (inUnits c d))) (L : Int) s before keep edges = ok (out.map (List.map (statChange c d s))) := by
  obtain ⟨out, h1, h2, h3⟩ := c29_window_partial rnd Y X L a h hY hX hL s hs before keep edges hodd hok
  obtain ⟨out', k1, k2, k3⟩ := c29_window_partial rnd Y X L _ (rect_map (inUnits c d) h) hY hX hL s hs before keep edges hodd hok
  refine ⟨out, h1, h2, k1.trans (congrArg ok (Rect.ext k2 (rect_map _ h2) fun y hy x hx => ?_))⟩
  obtain ⟨row, hrow⟩ : ∃ row, a[y]? = some row := ⟨_, List.getElem?_eq_getElem (by rw [h.1]; exact hy)⟩
  obtain ⟨v, e1, e2⟩ := h3 y row hrow x hx
  obtain ⟨v', f1, f2⟩ := k3 y (row.map (inUnits c d)) (by rw [List.getElem?_map, hrow]; rfl) x hx
  rw [f1, cell?_map, e1, Option.map_some]
  congr 1
  refine windowValue_unique f2 ⟨fun hm => ?_, fun hm => ?_⟩
  · rw [windowAt_map, List.length_map] at hm
    rw [e2.1 (hm.imp (And.imp_right fun ⟨u, hu, hv⟩ => by
      obtain ⟨w, hw, rfl⟩ := List.mem_map.mp hu
      exact ⟨w, hw, by rwa [inUnits_isValid hc.ne'] at hv⟩) id), statChange_missing]
  · rw [windowAt_map, List.length_map] at hm
    rw [windowAt_map, statistic_units rnd c d hc _ s hu, e2.2 fun hm' => hm (hm'.imp (And.imp_right fun ⟨u, hu, hv⟩ =>
      ⟨_, List.mem_map.mpr ⟨u, hu, rfl⟩, by rwa [inUnits_isValid hc.ne']⟩) id), map_ok]

/-! ### Backwards -/

theorem slice_reverse {α : Type} (l : List α) (lo hi : Nat) (hhi : hi < l.length) (hlo : lo ≤ hi) :
    slice (l.length - 1 - hi) (l.length - 1 - lo) l.reverse = (slice lo hi l).reverse := by
  unfold slice
  refine List.ext_getElem (by simp; omega) fun i h1 h2 => ?_
  simp only [List.length_drop, List.length_take, List.length_reverse] at h1 h2
  simp only [List.getElem_drop, List.getElem_take, List.getElem_reverse, List.length_drop, List.length_take]
  congr 1
  omega

theorem slice_min' {α : Type} (lo hi : Nat) (l : List α) (h : l.length ≤ hi + 1) : slice lo hi l = slice lo (l.length - 1) l := by
  unfold slice
  rw [List.take_of_length_le h, List.take_of_length_le (by omega)]

theorem windowAt_reverse {α : Type} (L x : Nat) (l : List α) (hx : x < l.length) :
    windowAt false L (l.length - 1 - x) l.reverse = (windowAt false L x l).reverse := by
  unfold windowAt
  simp only [Bool.false_eq_true, if_false]
  by_cases h1 : x + L / 2 < l.length
  · by_cases h2 : L / 2 ≤ x
    · rw [← slice_reverse l (x - L / 2) (x + L / 2) h1 (by omega)]
      congr 1 <;> omega
    · rw [slice_min' _ _ l.reverse (by rw [List.length_reverse]; omega), List.length_reverse, ← slice_reverse l (x - L / 2) (x + L / 2) h1 (by omega)]
      congr 1 <;> omega
  · rw [slice_min' (x - L / 2) (x + L / 2) l (by omega), ← slice_reverse l (x - L / 2) (l.length - 1) (by omega) (by omega)]
    by_cases h2 : L / 2 ≤ x
    · congr 1 <;> omega
    · rw [slice_min' _ _ l.reverse (by rw [List.length_reverse]; omega), List.length_reverse]
      congr 1 <;> omega

/-- **C181**: centred windows over a series run backwards give the results backwards. -/
theorem c181_reversed_partial (rnd : Rnd K) (Y X L : Nat) (a : List (List (Fl K))) (h : Rect Y X a) (hY : 0 < Y) (hX : 0 < X) (s : Statistic) (hs : Deterministic s) (keep edges : Bool)
    (hodd : L % 2 = 1) (hok : SafeWindow s keep) :
    ∃ out, window rnd a (L : Int) s false keep edges = ok out ∧ Rect Y X out ∧ window rnd (a.map List.reverse) (L : Int) s false keep edges = ok (out.map List.reverse) := by
  have rr : ∀ {b : List (List (Fl K))}, Rect Y X b → Rect Y X (b.map List.reverse) := by
    intro b hb
    refine ⟨by rw [List.length_map, hb.1], fun r hr => ?_⟩
    obtain ⟨r', hr', rfl⟩ := List.mem_map.mp hr
    rw [List.length_reverse, hb.2 r' hr']
  obtain ⟨out, h1, h2, h3⟩ := c29_window_partial rnd Y X L a h hY hX (by omega) s hs false keep edges (.inr hodd) hok
  obtain ⟨out', k1, k2, k3⟩ := c29_window_partial rnd Y X L _ (rr h) hY hX (by omega) s hs false keep edges (.inr hodd) hok
  refine ⟨out, h1, h2, k1.trans (congrArg ok (Rect.ext k2 (rr h2) fun y hy x hx => ?_))⟩
  obtain ⟨row, hrow⟩ : ∃ row, a[y]? = some row := ⟨_, List.getElem?_eq_getElem (by rw [h.1]; exact hy)⟩
  have hlen : row.length = X := h.2 row (List.mem_of_getElem? hrow)
  obtain ⟨v, e1, e2⟩ := h3 y row hrow (X - 1 - x) (by omega)
  obtain ⟨v', f1, f2⟩ := k3 y row.reverse (by rw [List.getElem?_map, hrow]; rfl) x hx
  have hcell : cell? (out.map List.reverse) y x = cell? out y (X - 1 - x) := by
    unfold cell?
    rw [List.getElem?_map]
    cases hr : out[y]? with
    | none => rfl
    | some r =>
      have hl : r.length = X := h2.2 r (List.mem_of_getElem? hr)
      show r.reverse[x]? = r[X - 1 - x]?
      rw [List.getElem?_reverse (by omega), hl]
  rw [f1, hcell, e1]
  congr 1
  have hw : windowAt false L x row.reverse = (windowAt false L (X - 1 - x) row).reverse := by
    have := windowAt_reverse L (X - 1 - x) row (by omega)
    rwa [hlen, show X - 1 - (X - 1 - x) = x by omega] at this
  have ho : overshoots false L x row.reverse.length ↔ overshoots false L (X - 1 - x) row.length := by
    unfold overshoots
    simp only [Bool.false_eq_true, if_false, List.length_reverse, hlen]
    omega
  refine windowValue_unique f2 ⟨fun hm => ?_, fun hm => ?_⟩
  · rw [hw, ho] at hm
    exact e2.1 (by simpa only [List.mem_reverse] using hm)
  · rw [hw, ho] at hm
    rw [hw, c01_only_valid_multiset rnd _ (windowAt false L (X - 1 - x) row) s hs ((List.reverse_perm _).filter _)]
    exact e2.2 (by simpa only [List.mem_reverse] using hm)

/-! ### Past values only -/

/-- **C181**: with `before` the results up to some time depend on the values up to that time only. -/
theorem c181_past_partial (rnd : Rnd K) (Y X X' L n : Nat) (a b : List (List (Fl K))) (ha : Rect Y X a) (hb : Rect Y X' b) (hY : 0 < Y) (hn : 0 < n) (hX : n ≤ X) (hX' : n ≤ X')
    (hL : 0 < L) (s : Statistic) (hs : Deterministic s) (keep edges : Bool) (hok : SafeWindow s keep) (hab : ∀ y < Y, ∀ x < n, cell? a y x = cell? b y x) :
    ∃ out out', window rnd a (L : Int) s true keep edges = ok out ∧ window rnd b (L : Int) s true keep edges = ok out' ∧ Rect Y X out ∧ Rect Y X' out' ∧
      ∀ y < Y, ∀ x < n, cell? out y x = cell? out' y x := by
  obtain ⟨out, h1, h2, h3⟩ := c29_window_partial rnd Y X L a ha hY (by omega) hL s hs true keep edges (.inl rfl) hok
  obtain ⟨out', k1, k2, k3⟩ := c29_window_partial rnd Y X' L b hb hY (by omega) hL s hs true keep edges (.inl rfl) hok
  refine ⟨out, out', h1, k1, h2, k2, fun y hy x hx => ?_⟩
  obtain ⟨row, hrow⟩ : ∃ row, a[y]? = some row := ⟨_, List.getElem?_eq_getElem (by rw [ha.1]; exact hy)⟩
  obtain ⟨row', hrow'⟩ : ∃ row, b[y]? = some row := ⟨_, List.getElem?_eq_getElem (by rw [hb.1]; exact hy)⟩
  have hl : row.length = X := ha.2 row (List.mem_of_getElem? hrow)
  have hl' : row'.length = X' := hb.2 row' (List.mem_of_getElem? hrow')
  obtain ⟨v, e1, e2⟩ := h3 y row hrow x (by omega)
  obtain ⟨v', f1, f2⟩ := k3 y row' hrow' x (by omega)
  rw [e1, f1]
  congr 1
  have ht : row.take (x + 1) = row'.take (x + 1) := by
    refine List.ext_getElem? fun i => ?_
    by_cases hi : i < x + 1
    · rw [List.getElem?_take_of_lt hi, List.getElem?_take_of_lt hi]
      have := hab y hy i (by omega)
      unfold cell? at this
      rw [hrow, hrow'] at this
      exact this
    · rw [List.getElem?_take_eq_none (by omega), List.getElem?_take_eq_none (by omega)]
  have hw : windowAt true L x row = windowAt true L x row' := by
    unfold windowAt slice
    rw [ht, if_pos rfl, if_pos rfl]
  have ho : overshoots true L x row.length ↔ overshoots true L x row'.length := Iff.rfl
  refine windowValue_unique e2 ⟨fun hm => f2.1 ?_, fun hm => ?_⟩
  · rwa [hw, ho] at hm
  · rw [hw, ho] at hm
    rw [hw]
    exact f2.2 hm

/-! ### Extremes -/

/-- The extreme of the extremes of the parts is the extreme of the whole. -/
theorem extreme_parts (rnd : Rnd K) {s : Statistic} (hs : s = .min ∨ s = .max) {f : List (Fl K) → Fl K} (hf : ∀ l, calcStatistic rnd l s = ok (f l)) (W : List (Fl K))
    (P : List (List (Fl K))) (h : ∀ q, q ∈ vals W ↔ ∃ p ∈ P, q ∈ vals p) : f (P.map f) = f W := by
  have hin : ∀ q, q ∈ vals (P.map f) ↔ ∃ p ∈ P, f p = fin q := by
    intro q
    rw [mem_vals, List.mem_map]
  rcases hs with rfl | rfl
  · rcases stat_min rnd _ _ (hf W) with ⟨e, hn⟩ | ⟨m, e, hm, hle⟩ <;> rcases stat_min rnd _ _ (hf (P.map f)) with ⟨e', hn'⟩ | ⟨m', e', hm', hle'⟩
    · rw [e, e']
    · obtain ⟨p, hp, hv⟩ := (hin m').mp hm'
      rcases stat_min rnd _ _ (hf p) with ⟨e1, -⟩ | ⟨m1, e1, hm1, -⟩
      · rw [e1] at hv; cases hv
      · have := (h m1).mpr ⟨p, hp, hm1⟩
        rw [hn] at this; cases this
    · obtain ⟨p, hp, hv⟩ := (h m).mp hm
      rcases stat_min rnd _ _ (hf p) with ⟨-, e1⟩ | ⟨m1, e1, -, -⟩
      · rw [e1] at hv; cases hv
      · have := (hin m1).mpr ⟨p, hp, e1⟩
        rw [hn'] at this; cases this
    · rw [e, e']
      congr 1
      apply le_antisymm
      · obtain ⟨p, hp, hv⟩ := (h m).mp hm
        rcases stat_min rnd _ _ (hf p) with ⟨-, e1⟩ | ⟨m1, e1, -, hle1⟩
        · rw [e1] at hv; cases hv
        · exact (hle' _ ((hin m1).mpr ⟨p, hp, e1⟩)).trans (hle1 _ hv)
      · obtain ⟨p, hp, hv⟩ := (hin m').mp hm'
        rcases stat_min rnd _ _ (hf p) with ⟨e1, -⟩ | ⟨m1, e1, hm1, -⟩
        · rw [e1] at hv; cases hv
        · rw [e1] at hv; cases hv
          exact hle _ ((h m').mpr ⟨p, hp, hm1⟩)
  · rcases stat_max rnd _ _ (hf W) with ⟨e, hn⟩ | ⟨m, e, hm, hle⟩ <;> rcases stat_max rnd _ _ (hf (P.map f)) with ⟨e', hn'⟩ | ⟨m', e', hm', hle'⟩
    · rw [e, e']
    · obtain ⟨p, hp, hv⟩ := (hin m').mp hm'
      rcases stat_max rnd _ _ (hf p) with ⟨e1, -⟩ | ⟨m1, e1, hm1, -⟩
      · rw [e1] at hv; cases hv
      · have := (h m1).mpr ⟨p, hp, hm1⟩
        rw [hn] at this; cases this
    · obtain ⟨p, hp, hv⟩ := (h m).mp hm
      rcases stat_max rnd _ _ (hf p) with ⟨-, e1⟩ | ⟨m1, e1, -, -⟩
      · rw [e1] at hv; cases hv
      · have := (hin m1).mpr ⟨p, hp, e1⟩
        rw [hn'] at this; cases this
    · rw [e, e']
      congr 1
      apply le_antisymm
      · obtain ⟨p, hp, hv⟩ := (hin m').mp hm'
        rcases stat_max rnd _ _ (hf p) with ⟨e1, -⟩ | ⟨m1, e1, hm1, -⟩
        · rw [e1] at hv; cases hv
        · rw [e1] at hv; cases hv
          exact hle _ ((h m').mpr ⟨p, hp, hm1⟩)
      · obtain ⟨p, hp, hv⟩ := (h m).mp hm
        rcases stat_max rnd _ _ (hf p) with ⟨-, e1⟩ | ⟨m1, e1, -, hle1⟩
        · rw [e1] at hv; cases hv
        · exact (hle1 _ hv).trans (hle' _ ((hin m1).mpr ⟨p, hp, e1⟩))

theorem window_plain (rnd : Rnd K) {Y X L : Nat} {a : List (List (Fl K))} (h : Rect Y X a) (hY : 0 < Y) (hX : 0 < X) (hL : 0 < L) {s : Statistic}
    (hs : s ≠ .mean ∧ s ≠ .sum ∧ s ≠ .count) {before : Bool} (hodd : before = true ∨ L % 2 = 1) {f : List (Fl K) → Fl K} (hf : ∀ l, calcStatistic rnd l s = ok (f l)) :
    window rnd a (L : Int) s before false false = ok (a.map fun row => (List.range X).map fun x => f (windowAt before L x row)) := by
  refine window_rows_ok rnd h hY hX hL hodd (g := fun row x => f (windowAt before L x row)) fun row hrow x hx => ?_
  rw [if_neg (by tauto), windowStatCell_ok rnd row s before false false hL (by rw [h.2 row hrow]; exact hx)]
  unfold winExpected
  rw [if_neg (by simp), hf]

theorem windowAt_range {before : Bool} {L x n k : Nat} :
    k ∈ windowAt before L x (List.range n) ↔ k < n ∧ (before = true → k ≤ x ∧ x < k + L) ∧ (before = false → x ≤ k + L / 2 ∧ k ≤ x + L / 2) := by
  unfold windowAt
  cases before with
  | true =>
    simp only [if_true, Client.mem_slice_range]
    constructor
    · rintro ⟨h1, h2, h3⟩; exact ⟨h3, fun _ => by omega, by simp⟩
    · rintro ⟨h1, h2, -⟩; have := h2 trivial; omega
  | false =>
    simp only [Bool.false_eq_true, if_false, Client.mem_slice_range]
    constructor
    · rintro ⟨h1, h2, h3⟩; exact ⟨h3, by simp, fun _ => by omega⟩
    · rintro ⟨h1, -, h2⟩; have := h2 trivial; omega

/-- **C181**: the greatest value in windows of the greatest value in windows is the greatest value in longer windows, up to the ends of the series; the same for the least
value. -/
theorem c181_compose (rnd : Rnd K) (Y X L1 L2 : Nat) (a : List (List (Fl K))) (h : Rect Y X a) (hY : 0 < Y) (hX : 0 < X) (hL1 : 0 < L1) (hL2 : 0 < L2) (s : Statistic)
    (hs : s = .min ∨ s = .max) (before : Bool) (hodd : before = true ∨ (L1 % 2 = 1 ∧ L2 % 2 = 1)) :
    ∃ b out, window rnd a (L1 : Int) s before false false = ok b ∧ window rnd b (L2 : Int) s before false false = ok out ∧
      window rnd a ((L1 : Int) + L2 - 1) s before false false = ok out := by
  have hd : Deterministic s := by rcases hs with rfl | rfl <;> simp [Deterministic]
  have hne : s ≠ .mean ∧ s ≠ .sum ∧ s ≠ .count := by rcases hs with rfl | rfl <;> simp
  choose f hf _ using fun l => c01_missing_iff rnd l s hd
  have hb : Rect Y X (a.map fun row => (List.range X).map fun x => f (windowAt before L1 x row)) := by
    refine ⟨by rw [List.length_map, h.1], fun r hr => ?_⟩
    obtain ⟨r', -, rfl⟩ := List.mem_map.mp hr
    simp
  have e1 := window_plain rnd h hY hX hL1 hne (before := before) (hodd.imp id And.left) hf
  have e2 := window_plain rnd hb hY hX hL2 hne (before := before) (hodd.imp id And.right) hf
  have e3 := window_plain rnd h hY hX (L := L1 + L2 - 1) (by omega) hne (before := before) (hodd.imp id fun hh => by omega) hf
  rw [show ((L1 + L2 - 1 : Nat) : Int) = (L1 : Int) + L2 - 1 by omega] at e3
  refine ⟨_, _, e1, e2, e3.trans (congrArg ok ?_)⟩
  rw [List.map_map]
  refine List.map_congr_left fun row hrow => List.map_congr_left fun x hx => ?_
  have hx' : x < X := List.mem_range.mp hx
  have hlen := h.2 row hrow
  rw [windowAt_map]
  have := extreme_parts rnd hs hf (windowAt before (L1 + L2 - 1) x row) ((windowAt before L2 x (List.range X)).map fun k => windowAt before L1 k row) fun q => by
    simp only [mem_vals, mem_windowAt, List.mem_map, windowAt_range]
    constructor
    · rintro ⟨i, h1, h2, h3⟩
      have hi : i < X := by rw [← hlen]; exact (List.getElem?_eq_some_iff.mp h1).1
      cases before with
      | true =>
        obtain ⟨g1, g2⟩ := h2 rfl
        exact ⟨_, ⟨min x (i + L1 - 1), ⟨by omega, fun _ => by omega, by simp⟩, rfl⟩, by rw [mem_windowAt]; exact ⟨i, h1, fun _ => by omega, by simp⟩⟩
      | false =>
        obtain ⟨g1, g2⟩ := h3 rfl
        rcases hodd with hodd | hodd
        · cases hodd
        by_cases hxi : x ≤ i
        · exact ⟨_, ⟨min i (x + L2 / 2), ⟨by omega, by simp, fun _ => by omega⟩, rfl⟩, by rw [mem_windowAt]; exact ⟨i, h1, by simp, fun _ => by omega⟩⟩
        · exact ⟨_, ⟨max i (x - L2 / 2), ⟨by omega, by simp, fun _ => by omega⟩, rfl⟩, by rw [mem_windowAt]; exact ⟨i, h1, by simp, fun _ => by omega⟩⟩
    · rintro ⟨p, ⟨k, ⟨h1, h2, h3⟩, rfl⟩, hq⟩
      rw [mem_windowAt] at hq
      obtain ⟨i, g1, g2, g3⟩ := hq
      refine ⟨i, g1, fun hb => ?_, fun hb => ?_⟩
      · have := h2 hb; have := g2 hb; omega
      · have := h3 hb; have := g3 hb
        rcases hodd with hodd | hodd
        · rw [hb] at hodd; cases hodd
        omega
  rw [← this, List.map_map]
  rfl

end

/-- **C181** is false for centred windows of a sum composed with itself: windows overlap. -/
theorem c181_sum_compose :
    window (fun _ => 0) [[fin (1 : ℚ), fin 1, fin 1, fin 1, fin 1]] 3 .sum false false false = ok [[fin 2, fin 3, fin 3, fin 3, fin 2]] ∧
    window (fun _ => 0) [[fin (2 : ℚ), fin 3, fin 3, fin 3, fin 2]] 3 .sum false false false = ok [[fin 5, fin 8, fin 9, fin 8, fin 5]] ∧
    window (fun _ => 0) [[fin (1 : ℚ), fin 1, fin 1, fin 1, fin 1]] 5 .sum false false false = ok [[fin 3, fin 4, fin 5, fin 4, fin 3]] := by
  refine ⟨?_, ?_, ?_⟩ <;> decide +kernel

/-- A case of the other theorems. -/
example : window (fun _ => 0) [[fin (1 : ℚ), nan, fin 3, fin 2]] 3 .max false false false = ok [[fin 1, fin 3, fin 3, fin 3]] ∧
    window (fun _ => 0) [[fin (2 : ℚ), fin 3, nan, fin 1]] 3 .max false false false = ok [[fin 3, fin 3, fin 3, fin 1]] ∧
    window (fun _ => 0) [[fin (12 : ℚ), nan, fin 16, fin 14]] 3 .max false false false = ok [[fin 12, fin 16, fin 16, fin 16]] ∧
    window (fun _ => 0) [[fin (1 : ℚ), fin 3, fin 3, fin 3]] 3 .max false false false = ok [[fin 3, fin 3, fin 3, fin 3]] ∧
    window (fun _ => 0) [[fin (1 : ℚ), nan, fin 3, fin 2]] 5 .max false false false = ok [[fin 3, fin 3, fin 3, fin 3]] ∧
    SafeWindow .max true ∧ StatUnits (10 : ℚ) .max := by
  refine ⟨by decide +kernel, by decide +kernel, by decide +kernel, by decide +kernel, by decide +kernel, Or.inl (by simp), by simp [StatUnits]⟩

end Gridpp.Props
