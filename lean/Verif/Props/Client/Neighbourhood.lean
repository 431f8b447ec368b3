import Verif.Lemmas.Client.Neighbourhood
import Verif.Spec.ClientNeighbourhood
import Verif.Props.Client.Stat
import Verif.Base.Inst
import Mathlib.Data.Rat.Floor
import Mathlib.Algebra.Order.Ring.Rat
import Mathlib.Algebra.Field.Rat

/-! # C111: the neighbourhood calibrator of the client -/

set_option linter.unusedSectionVars false

namespace Gridpp.Props
open Fl hiding MV isValid
open Res Client Spec

variable {K : Type} [Field K] [LinearOrder K] [IsStrictOrderedRing K] [FloorRing K]

/-- A statistic by order is between two of the values. -/
theorem statOf_between {s : StatType} {p : K} {xs : List K} {u : K} (h : StatOf s p xs u) (hs : s ≠ .mean ∧ s ≠ .sum ∧ s ≠ .std) :
    ∃ lo ∈ xs, ∃ hi ∈ xs, lo ≤ u ∧ u ≤ hi := by
  have hpoly : ∀ t, OnPolyline (sorted xs) t u → ∃ lo ∈ xs, ∃ hi ∈ xs, lo ≤ u ∧ u ≤ hi := by
    intro t ht
    have hmem : ∀ i, (hi : i < (sorted xs).length) → (sorted xs)[i] ∈ xs := fun i hi => by
      have := List.getElem_mem hi
      exact (List.mem_insertionSort (· ≤ ·)).mp this
    rcases ht with ⟨i, hi, -, rfl⟩ | ⟨i, hi, h1, h2, rfl⟩
    · exact ⟨_, hmem i hi, _, hmem i hi, le_rfl, le_rfl⟩
    · have h3 : 0 ≤ t - i := by linarith
      have h4 : t - i ≤ 1 := by linarith
      rcases le_total (sorted xs)[i] (sorted xs)[i + 1] with hle | hle
      · refine ⟨_, hmem i (by omega), _, hmem (i + 1) hi, ?_, ?_⟩ <;> nlinarith
      · refine ⟨_, hmem (i + 1) hi, _, hmem i (by omega), ?_, ?_⟩ <;> nlinarith
  cases s with
  | mean => exact absurd rfl hs.1
  | sum => exact absurd rfl hs.2.1
  | std => exact absurd rfl hs.2.2
  | min => exact ⟨u, h.1, u, h.1, le_rfl, le_rfl⟩
  | max => exact ⟨u, h.1, u, h.1, le_rfl, le_rfl⟩
  | median => exact hpoly _ h
  | quantile => exact hpoly _ h

/-- All numbers present: a row by way of its columns. For the extremes it is the extreme of the box, for other statistics a number within
the box. -/
theorem nbFastRow_ok [LawfulSqrt K] (o : NbOpts K) (p : K) (hq : o.stat = .quantile → o.quantile = fin p ∧ 0 ≤ p ∧ p ≤ 1) {Y X : Nat}
    {a : List (List (Fl K))} (h : Rect Y X a) (hall : ∀ y < Y, ∀ x < X, ∀ v, cell? a y x = some v → Present v)
    (hs : o.stat ≠ .mean ∧ o.stat ≠ .sum ∧ o.stat ≠ .std) (r : Nat) {y : Nat} (hy : y < Y) :
    ∃ g : Nat → Fl K, nbFastRow o a Y X (r : Int) (y : Int) = ok ((List.range X).map g) ∧
      ∀ x < X, WithinBox (square a r y x) (g x) ∧
        (o.stat = .min ∨ o.stat = .max → ∃ u, g x = fin u ∧ StatOf o.stat p (present (square a r y x)) u) := by
  have hcell : ∀ i < Y, ∀ j < X, ∃ q, cell? a i j = some (fin q) ∧ q ≠ -999 := by
    intro i hi j hj
    obtain ⟨v, hv, -⟩ := vget2_of_rect h hi hj
    obtain ⟨q, rfl, hq⟩ := hall i hi j hj v hv
    exact ⟨q, hv, hq⟩
  have hself : ∀ x < X, present (square a r y x) ≠ [] := by
    intro x hx
    obtain ⟨q, h1, h2⟩ := hcell y hy x hx
    exact List.ne_nil_of_mem (mem_present.mpr ⟨mem_square.mpr ⟨y, x, by omega, by omega, by omega, by omega, h1⟩, h2⟩)
  have hbox : ∀ x < X, ∃ u, calculateStat (square a r y x) o.stat o.quantile = ok (fin u) ∧ StatOf o.stat p (present (square a r y x)) u :=
    fun x hx => c89_value _ _ _ p (hself x hx) hq
  unfold nbFastRow
  split
  · choose! u hu using hbox
    refine ⟨fun x => fin (u x), mapM_upto fun x hx => ?_, fun x hx => ⟨⟨u x, rfl, statOf_between (hu x hx).2 hs⟩, fun _ => ⟨u x, rfl, (hu x hx).2⟩⟩⟩
    rw [nbBoxStat_ok o h r hy hx, (hu x hx).1]
  · rename_i hc
    have hr : r ≤ y := by omega
    have hr' : y + r < Y := by omega
    have hcol : ∀ j < X, ∃ u, calculateStat (column a (y - r) (y + r) j) o.stat o.quantile = ok (fin u) ∧
        StatOf o.stat p (present (column a (y - r) (y + r) j)) u := by
      intro j hj
      obtain ⟨q, h1, h2⟩ := hcell y hy j hj
      exact c89_value _ _ _ p (List.ne_nil_of_mem (mem_present.mpr ⟨mem_column.mpr ⟨y, by omega, by omega, h1⟩, h2⟩)) hq
    choose! u hu using hcol
    have hsl : mapM (nbSliver o a (r : Int) (y : Int)) (upto X) = ok ((List.range X).map fun j => fin (u j)) :=
      mapM_upto fun j hj => by rw [nbSliver_ok o h hr hr' hj, (hu j hj).1]
    -- numbers within the columns are within the box
    have hsub : ∀ x < X, ∀ j ∈ slice (x - r) (x + r) (List.range X), ∀ q ∈ present (column a (y - r) (y + r) j), q ∈ present (square a r y x) := by
      intro x hx j hj q hq'
      obtain ⟨h1, h2⟩ := mem_present.mp hq'
      exact mem_present.mpr ⟨(mem_square_columns h).mpr ⟨j, hj, h1⟩, h2⟩
    have hmid : ∀ x < X, ∀ j ∈ slice (x - r) (x + r) (List.range X), ∃ lo ∈ present (square a r y x), ∃ hi ∈ present (square a r y x), lo ≤ u j ∧ u j ≤ hi := by
      intro x hx j hj
      obtain ⟨lo, h1, hi, h2, h3⟩ := statOf_between (hu j (mem_slice_range.mp hj).2.2).2 hs
      exact ⟨lo, hsub x hx j hj lo h1, hi, hsub x hx j hj hi h2, h3⟩
    have hx_mem : ∀ x < X, x ∈ slice (x - r) (x + r) (List.range X) := fun x hx => mem_slice_range.mpr ⟨by omega, by omega, hx⟩
    -- the statistic of the columns
    have hfin : ∀ x < X, ∃ w, calculateStat ((slice (x - r) (x + r) (List.range X)).map fun j => fin (u j)) o.stat o.quantile = ok w ∧
        WithinBox (square a r y x) w ∧ (o.stat = .min ∨ o.stat = .max → ∃ t, w = fin t ∧ StatOf o.stat p (present (square a r y x)) t) := by
      intro x hx
      by_cases hp : present ((slice (x - r) (x + r) (List.range X)).map fun j => (fin (u j) : Fl K)) = []
      · -- all of them are taken for missing
        have hux : u x = -999 := by
          by_contra hne
          have : u x ∈ present ((slice (x - r) (x + r) (List.range X)).map fun j => (fin (u j) : Fl K)) :=
            mem_present.mpr ⟨List.mem_map.mpr ⟨x, hx_mem x hx, rfl⟩, hne⟩
          rw [hp] at this
          simp at this
        refine ⟨fin (-999), c89_missing _ _ _ hp, ⟨-999, rfl, ?_⟩, fun hmm => ?_⟩
        · have := hmid x hx x (hx_mem x hx)
          rwa [hux] at this
        · exfalso
          have hm := (hu x hx).2
          have : u x ∈ present (column a (y - r) (y + r) x) := by
            rcases hmm with hmm | hmm <;> · rw [hmm] at hm; exact hm.1
          exact (mem_present.mp this).2 hux
      · obtain ⟨t, h1, h2⟩ := c89_value _ o.stat o.quantile p hp hq
        have hback : ∀ q ∈ present ((slice (x - r) (x + r) (List.range X)).map fun j => (fin (u j) : Fl K)),
            ∃ j ∈ slice (x - r) (x + r) (List.range X), q = u j := by
          intro q hq'
          obtain ⟨j, hj, hj'⟩ := List.mem_map.mp (mem_present.mp hq').1
          exact ⟨j, hj, by simpa using hj'.symm⟩
        refine ⟨fin t, h1, ⟨t, rfl, ?_⟩, fun hmm => ⟨t, rfl, ?_⟩⟩
        · obtain ⟨lo, h3, hi, h4, h5, h6⟩ := statOf_between h2 hs
          obtain ⟨j, hj, rfl⟩ := hback lo h3
          obtain ⟨k, hk, rfl⟩ := hback hi h4
          obtain ⟨lo', g1, -, -, g2, -⟩ := hmid x hx j hj
          obtain ⟨-, -, hi', g3, -, g4⟩ := hmid x hx k hk
          exact ⟨lo', g1, hi', g3, le_trans g2 h5, le_trans h6 g4⟩
        · -- every number of the box is in a column, whose extreme is present
          have hdom : ∀ q ∈ present (square a r y x), ∃ j ∈ slice (x - r) (x + r) (List.range X), q ∈ present (column a (y - r) (y + r) j) := by
            intro q hq'
            obtain ⟨h3, h4⟩ := mem_present.mp hq'
            obtain ⟨j, hj, h5⟩ := (mem_square_columns h).mp h3
            exact ⟨j, hj, mem_present.mpr ⟨h5, h4⟩⟩
          have hpres : ∀ j ∈ slice (x - r) (x + r) (List.range X), u j ∈ present (column a (y - r) (y + r) j) := by
            intro j hj
            have hm := (hu j (mem_slice_range.mp hj).2.2).2
            rcases hmm with hmm | hmm <;> · rw [hmm] at hm; exact hm.1
          have hin : ∀ j ∈ slice (x - r) (x + r) (List.range X),
              u j ∈ present ((slice (x - r) (x + r) (List.range X)).map fun j => (fin (u j) : Fl K)) := fun j hj =>
            mem_present.mpr ⟨List.mem_map.mpr ⟨j, hj, rfl⟩, (mem_present.mp (hpres j hj)).2⟩
          rcases hmm with hmm | hmm
          · rw [hmm] at h2 ⊢
            obtain ⟨j, hj, rfl⟩ := hback t h2.1
            refine ⟨hsub x hx j hj _ (hpres j hj), fun q hq' => ?_⟩
            obtain ⟨k, hk, hk'⟩ := hdom q hq'
            have hm := (hu k (mem_slice_range.mp hk).2.2).2
            rw [hmm] at hm
            exact le_trans (h2.2 _ (hin k hk)) (hm.2 q hk')
          · rw [hmm] at h2 ⊢
            obtain ⟨j, hj, rfl⟩ := hback t h2.1
            refine ⟨hsub x hx j hj _ (hpres j hj), fun q hq' => ?_⟩
            obtain ⟨k, hk, hk'⟩ := hdom q hq'
            have hm := (hu k (mem_slice_range.mp hk).2.2).2
            rw [hmm] at hm
            exact le_trans (hm.2 q hk') (h2.2 _ (hin k hk))
    choose! w hw using hfin
    refine ⟨w, ?_, fun x hx => (hw x hx).2⟩
    rw [hsl, ok_bind]
    exact mapM_upto fun x hx => by rw [nbOfSlivers_ok o (fun j => fin (u j)) r hx, (hw x hx).1]

/-- The statistic of every box of a member, value by value. -/
theorem nbBrute_ok [LawfulSqrt K] (o : NbOpts K) (p : K) (hq : o.stat = .quantile → o.quantile = fin p ∧ 0 ≤ p ∧ p ≤ 1) {Y X : Nat}
    {a : List (List (Fl K))} (h : Rect Y X a) (r : Nat) : ∃ g : Nat → Nat → Fl K,
      grid2 Y X (nbBoxStat o a Y X (r : Int)) = ok (tabulate Y X g) ∧
      ∀ y < Y, ∀ x < X, ∀ v, NeighbourhoodValue o.stat p false (square a r y x) v (g y x) := by
  have hex : ∀ y x, ∃ w, calculateStat (square a r y x) o.stat o.quantile = ok w ∧
      ∀ v, NeighbourhoodValue o.stat p false (square a r y x) v w := by
    intro y x
    by_cases hp : present (square a r y x) = []
    · exact ⟨_, c89_missing _ _ _ hp, fun v => ⟨fun _ => by simp, fun hc => absurd hp hc⟩⟩
    · obtain ⟨u, h1, h2⟩ := c89_value _ o.stat o.quantile p hp hq
      exact ⟨_, h1, fun v => ⟨fun hc => absurd hc hp, fun _ => ⟨u, rfl, h2⟩⟩⟩
  choose g hg using hex
  exact ⟨g, grid2_ok fun y hy x hx => by rw [nbBoxStat_ok o h r hy hx, (hg y x).1], fun y _ x _ v => (hg y x).2 v⟩

/-- Whether the calibrator approximates: the option is set, the statistic is a median or quantile, and no value is missing. -/
def Approximates (o : NbOpts K) (Y X : Nat) (vals : Nat → Nat → Fl K) : Prop :=
  o.approx = true ∧ (o.stat = .median ∨ o.stat = .quantile) ∧ ∀ y < Y, ∀ x < X, Present (vals y x)

/-- Whether values are kept where nothing is present. -/
def keepsMissing (o : NbOpts K) : Bool := o.fast && (decide (o.stat = .mean) || decide (o.stat = .sum))

/-- What is claimed of one value. -/
def NbClaim (o : NbOpts K) (p : K) (Y X r : Nat) (vals : Nat → Nat → Fl K) (y x : Nat) (v w : Fl K) : Prop :=
  (¬ Approximates o Y X vals → NeighbourhoodValue o.stat p (keepsMissing o) (square (tabulate Y X vals) r y x) v w) ∧
  (Approximates o Y X vals → WithinBox (square (tabulate Y X vals) r y x) w)

theorem nbMissing_zero {Y X : Nat} {vals : Nat → Nat → Fl K} :
    nbMissing (tabulate Y X vals) = 0 ↔ ∀ y < Y, ∀ x < X, Present (vals y x) := by
  unfold nbMissing
  rw [List.length_eq_zero_iff, List.filter_eq_nil_iff]
  constructor
  · intro h y hy x hx
    have := h (vals y x) (List.mem_flatten.mpr ⟨_, List.mem_map.mpr ⟨y, List.mem_range.mpr hy, rfl⟩,
      List.mem_map.mpr ⟨x, List.mem_range.mpr hx, rfl⟩⟩)
    rw [← isValid_iff_present]
    simpa using this
  · intro h v hv
    obtain ⟨row, h1, h2⟩ := List.mem_flatten.mp hv
    obtain ⟨y, hy, rfl⟩ := List.mem_map.mp h1
    obtain ⟨x, hx, rfl⟩ := List.mem_map.mp h2
    have := isValid_iff_present.mpr (h y (List.mem_range.mp hy) x (List.mem_range.mp hx))
    simp [this]

theorem nbMember_ok [LawfulSqrt K] (o : NbOpts K) (p : K) (hq : o.stat = .quantile → o.quantile = fin p ∧ 0 ≤ p ∧ p ≤ 1) {Y X E : Nat}
    {raw f : FieldC K} (hraw : Sized Y X E raw) (hf : Sized Y X E f) (r : Nat) {e : Nat} (he : e < E) {vals : Nat → Nat → Fl K}
    (hv : ∀ y < Y, ∀ x < X, raw.get y x e = ok (vals y x)) :
    ∃ f', nbMember o (r : Int) raw f e = ok f' ∧ Sized Y X E f' ∧
      (∀ y < Y, ∀ x < X, ∃ v w, f.get y x e = ok v ∧ f'.get y x e = ok w ∧ NbClaim o p Y X r vals y x v w) ∧
      ∀ y x e', e' ≠ e → f'.get y x e' = f.get y x e' := by
  have hin : grid2 Y X (fun y x => raw.get y.toNat x.toNat e) = ok (tabulate Y X vals) := grid2_ok fun y hy x hx => by
    simpa using hv y hy x hx
  have hrect := rect_tabulate Y X vals
  unfold nbMember
  rw [hraw.nY, hraw.nX, hin, ok_bind]
  by_cases hk : keepsMissing o = true
  · -- the tables
    have hk' : (o.fast && (decide (o.stat = .mean) || decide (o.stat = .sum))) = true := hk
    rw [if_pos hk']
    obtain ⟨table, ht⟩ := nbTable_ok hrect
    rw [ht, ok_bind]
    have hstat : o.stat = .mean ∨ o.stat = .sum := by
      simp only [Bool.and_eq_true, Bool.or_eq_true, decide_eq_true_eq] at hk'
      exact hk'.2
    have hna : ¬ Approximates o Y X vals := by
      rintro ⟨-, h, -⟩
      rcases hstat with h' | h' <;> rw [h'] at h <;> simp at h
    obtain ⟨out, h1, h2, h3⟩ := forCells_spec (Y := Y) (X := X) (E := E) (nbSumCell table Y X (r : Int) o.stat e)
      (fun y x u u' => (∃ v w, u e = ok v ∧ u' e = ok w ∧ NbClaim o p Y X r vals y x v w) ∧ ∀ e', e' ≠ e → u' e' = u e') (by
        intro f hf y hy x hx
        obtain ⟨v, hv⟩ := hf.exists_get hy hx he
        rw [nbSumCell_ok hrect r o.stat e f hy hx ht]
        by_cases hp : present (square (tabulate Y X vals) r y x) = []
        · rw [if_pos hp]
          exact ⟨f, rfl, hf, ⟨⟨v, v, hv, hv, ⟨fun _ => ⟨fun _ => by rw [hk]; rfl, fun hc => absurd hp hc⟩, fun hc => absurd hc hna⟩⟩,
            fun _ _ => rfl⟩, fun _ _ _ => rfl⟩
        · rw [if_neg hp]
          obtain ⟨f', g1, g2, g3, g4⟩ := hf.set hy hx he (fin (if o.stat = .mean then (present (square (tabulate Y X vals) r y x)).sum /
            ((present (square (tabulate Y X vals) r y x)).length : K) else (present (square (tabulate Y X vals) r y x)).sum))
          refine ⟨f', g1, g2, ⟨⟨v, _, hv, g3, ⟨fun _ => ⟨fun hc => absurd hc hp, fun _ => ⟨_, rfl, ?_⟩⟩, fun hc => absurd hc hna⟩⟩,
            fun e' h => g4 _ _ _ (by simp [h])⟩, fun y' x' h => ?_⟩
          · rcases hstat with h' | h'
            · rw [h', if_pos rfl]; rfl
            · rw [h', if_neg (by simp)]; rfl
          · funext e'
            exact g4 _ _ _ (fun hc => h ⟨hc.1, hc.2.1⟩)) f hf
    refine ⟨out, h1, h2, fun y hy x hx => (h3 y hy x hx).1, fun y x e' he' => ?_⟩
    by_cases hyx : y < Y ∧ x < X
    · exact (h3 y hyx.1 x hyx.2).2 e' he'
    · rw [h2.get_abort (fun hc => hyx ⟨hc.1, hc.2.1⟩), hf.get_abort (fun hc => hyx ⟨hc.1, hc.2.1⟩)]
  · have hk' : (o.fast && (decide (o.stat = .mean) || decide (o.stat = .sum))) = false := by simpa [keepsMissing] using hk
    have hkf : keepsMissing o = false := hk'
    rw [if_neg (by rw [hk']; simp)]
    by_cases hc : (decide (nbMissing (tabulate Y X vals) = 0) && ((o.fast && (decide (o.stat = .min) || decide (o.stat = .max))) ||
        (o.approx && (decide (o.stat = .median) || decide (o.stat = .quantile))))) = true
    · rw [if_pos hc]
      simp only [Bool.and_eq_true, Bool.or_eq_true, decide_eq_true_eq] at hc
      obtain ⟨hm, hc⟩ := hc
      have hall := nbMissing_zero.mp hm
      have hs : o.stat ≠ .mean ∧ o.stat ≠ .sum ∧ o.stat ≠ .std := by
        rcases hc with ⟨-, h | h⟩ | ⟨-, h | h⟩ <;> rw [h] <;> decide
      have hrows := fun y => nbFastRow_ok o p hq hrect (fun y hy x hx v hv => by
        rw [cell?_tabulate vals hy hx, Option.some.injEq] at hv
        rw [← hv]
        exact hall y hy x hx) hs r (y := y)
      choose! g hg using hrows
      have hvals : mapM (nbFastRow o (tabulate Y X vals) Y X (r : Int)) (upto Y) = ok (tabulate Y X g) :=
        mapM_upto fun y hy => (hg y hy).1
      rw [hvals, ok_bind]
      obtain ⟨f', h1, h2, h3, h4⟩ := nbWrite_ok g he hf
      refine ⟨f', h1, h2, fun y hy x hx => ?_, h4⟩
      obtain ⟨v, hv⟩ := hf.exists_get hy hx he
      refine ⟨v, _, hv, h3 y hy x hx, fun hna => ?_, fun _ => ((hg y hy).2 x hx).1⟩
      have hmm : o.stat = .min ∨ o.stat = .max := by
        rcases hc with ⟨-, h⟩ | ⟨h, h'⟩
        · exact h
        · exact absurd ⟨h, h', hall⟩ hna
      obtain ⟨u, h5, h6⟩ := ((hg y hy).2 x hx).2 hmm
      refine ⟨fun hp => ?_, fun _ => ⟨u, h5, h6⟩⟩
      exfalso
      rw [hp] at h6
      rcases hmm with h | h <;> rw [h] at h6 <;> exact absurd h6.1 (by simp)
    · rw [if_neg hc]
      obtain ⟨g, h1, h2⟩ := nbBrute_ok o p hq hrect r
      rw [h1, ok_bind]
      obtain ⟨f', h3, h4, h5, h6⟩ := nbWrite_ok g he hf
      refine ⟨f', h3, h4, fun y hy x hx => ?_, h6⟩
      obtain ⟨v, hv⟩ := hf.exists_get hy hx he
      refine ⟨v, _, hv, h5 y hy x hx, fun _ => by rw [hkf]; exact h2 y hy x hx v, fun hA => ?_⟩
      exfalso
      apply hc
      obtain ⟨hA1, hA2, hA3⟩ := hA
      simp only [Bool.and_eq_true, Bool.or_eq_true, decide_eq_true_eq]
      exact ⟨nbMissing_zero.mpr hA3, Or.inr ⟨hA1, hA2⟩⟩

/-- The radius used at time `t` is `r`: the option, or the whole part of the first parameter of a file that is the same everywhere. -/
def RadiusIs (o : NbOpts K) (par : Option (Bool × (Nat → List (Fl K)))) (t r : Nat) : Prop :=
  (par = none ∧ o.radius = r) ∨ ∃ pars : Nat → List (Fl K), par = some (false, pars) ∧ ∃ q rest, pars t = fin q :: rest ∧ (r : K) ≤ q ∧ q < r + 1

/-- **C111**. Each value becomes the statistic of the numbers present in the box around it, whether it is computed from sums of rectangles,
from columns or value by value. Where nothing is present it becomes the missing value, or stays if it is computed from sums. Where an
approximation is asked for and no value of the member is missing, it is between two numbers of the box. -/
theorem c111_value [LawfulSqrt K] (o : NbOpts K) (p : K) (hq : o.stat = .quantile → o.quantile = fin p ∧ 0 ≤ p ∧ p ≤ 1)
    (par : Option (Bool × (Nat → List (Fl K)))) {Y X E : Nat} {fields : List (FieldC K)} (hs : Series Y X E fields) (r : Nat → Nat)
    (hr : ∀ t < fields.length, RadiusIs o par t (r t)) :
    ∃ out, neighbourhoodC o par fields = ok out ∧ out.length = fields.length ∧ Series Y X E out ∧
      ∀ t < fields.length, ∀ e < E, ∀ vals : Nat → Nat → Fl K, (∀ y < Y, ∀ x < X, At fields t y x e (vals y x)) →
        ∀ y < Y, ∀ x < X, ∃ w, At out t y x e w ∧
          (¬ Approximates o Y X vals → NeighbourhoodValue o.stat p (keepsMissing o) (square (tabulate Y X vals) (r t) y x) (vals y x) w) ∧
          (Approximates o Y X vals → WithinBox (square (tabulate Y X vals) (r t) y x) w) := by
  unfold neighbourhoodC
  obtain ⟨out, h1, h2, h3⟩ := eachTime_spec (fields := fields) (body := nbTime o par)
    (P := fun t f g => Sized Y X E g ∧ ∀ e < E, ∀ vals : Nat → Nat → Fl K, (∀ y < Y, ∀ x < X, f.get y x e = ok (vals y x)) →
        ∀ y < Y, ∀ x < X, ∃ w, g.get y x e = ok w ∧ NbClaim o p Y X (r t) vals y x (vals y x) w) (by
      intro t f hf
      have ht := (List.getElem?_eq_some_iff.mp hf).1
      have hsz : Sized Y X E f := hs f (List.mem_of_getElem? hf)
      have hrad : ∃ pars, nbRadius o pars = ok ((r t : Nat) : Int) ∧ nbTime o par t f = nbField o pars f := by
        rcases hr t ht with ⟨rfl, h⟩ | ⟨pars, rfl, q, rest, h4, h5, h6⟩
        · exact ⟨none, by simp [nbRadius, h], rfl⟩
        · refine ⟨some (pars t), ?_, rfl⟩
          have hfl : ⌊q⌋ = ((r t : Nat) : Int) := by rw [Int.floor_eq_iff]; push_cast; exact ⟨h5, h6⟩
          have h0 : 0 ≤ q := le_trans (Nat.cast_nonneg _) h5
          simp only [nbRadius, h4]
          unfold parAt
          simp [vget, Fl.truncInt, h0, hfl]
      obtain ⟨pars, h4, h5⟩ := hrad
      rw [h5]
      unfold nbField
      rw [h4, ok_bind, hsz.nE]
      obtain ⟨g, g1, g2, g3, -⟩ := foldM_cells (Sized Y X E) (fun s e => fun y x => s.get y x e)
        (fun g e => nbMember o ((r t : Nat) : Int) f g e) (fun e u u' => ∀ vals : Nat → Nat → Fl K, (∀ y < Y, ∀ x < X, f.get y x e = ok (vals y x)) →
          ∀ y < Y, ∀ x < X, ∃ v w, u y x = ok v ∧ u' y x = ok w ∧ NbClaim o p Y X (r t) vals y x v w) (List.range E) List.nodup_range (by
          intro s hss e he
          have he := List.mem_range.mp he
          have hex : ∀ y x, ∃ v, y < Y → x < X → f.get y x e = ok v := by
            intro y x
            by_cases hyx : y < Y ∧ x < X
            · obtain ⟨v, hv⟩ := hsz.exists_get hyx.1 hyx.2 he
              exact ⟨v, fun _ _ => hv⟩
            · exact ⟨nan, fun h h' => absurd ⟨h, h'⟩ hyx⟩
          choose vals hvals using hex
          obtain ⟨f', k1, k2, k3, k4⟩ := nbMember_ok o p hq hsz hss (r t) he (vals := vals) (fun y hy x hx => hvals y x hy hx)
          refine ⟨f', k1, k2, fun vals' hvals' => ?_, fun j hj => by funext y x; exact k4 y x j hj⟩
          obtain ⟨f'', l1, -, l3, -⟩ := nbMember_ok o p hq hsz hss (r t) he hvals'
          rw [k1, Res.ok.injEq] at l1
          subst l1
          exact l3) f hsz
      refine ⟨g, g1, g2, fun e he vals hvals y hy x hx => ?_⟩
      obtain ⟨v, w, k1, k2, k3⟩ := g3 e (List.mem_range.mpr he) vals hvals y hy x hx
      have k4 : f.get y x e = ok v := k1
      rw [hvals y hy x hx, Res.ok.injEq] at k4
      subst k4
      exact ⟨w, k2, k3⟩)
  refine ⟨out, h1, h2, series_iff.mpr fun t ht => ?_, fun t ht e he vals hvals y hy x hx => ?_⟩
  · obtain ⟨g, g1, g2, -⟩ := h3 t fields[t] (List.getElem?_eq_getElem (by omega))
    exact ⟨g, g1, g2⟩
  · obtain ⟨g, g1, -, g2⟩ := h3 t fields[t] (List.getElem?_eq_getElem ht)
    obtain ⟨w, g3, g4⟩ := g2 e he vals (fun y hy x hx => by
      obtain ⟨f, k1, k2⟩ := hvals y hy x hx
      rw [List.getElem?_eq_getElem ht, Option.some.injEq] at k1
      rw [k1]
      exact k2) y hy x hx
    exact ⟨w, ⟨g, g1, g3⟩, g4⟩

/-- **C111** (the constructor). A negative radius and a quantile outside [0, 1] or missing are refused; anything else is accepted, and then
the level is right. -/
theorem c111_options (radius : Int) (fast approx : Bool) (s : StatType) (q : Option (Fl K)) :
    (radius < 0 ∨ (s = .quantile ∧ ¬ ∃ p, q = some (fin p) ∧ p ≠ -999 ∧ 0 ≤ p ∧ p ≤ 1) → nbNew radius fast approx s q = .abort) ∧
    (∀ o, nbNew radius fast approx s q = ok o → o.radius = radius ∧ 0 ≤ radius ∧ o.stat = s ∧ o.fast = fast ∧ o.approx = approx ∧
      (s = .quantile → ∃ p, o.quantile = fin p ∧ 0 ≤ p ∧ p ≤ 1)) := by
  unfold nbNew
  by_cases hr : radius < 0
  · simp [hr, Client.error]
  · have hr' : 0 ≤ radius := by omega
    simp only [hr, if_false, false_or]
    cases s with
    | quantile =>
      cases q with
      | none => simp [Client.error]
      | some q =>
        cases q with
        | fin p =>
          by_cases h9 : p = -999
          · simp [h9, Client.isValid, Client.error]
          · by_cases h0 : p < 0
            · simp [Client.isValid, h9, h0, Client.error]
            · by_cases h1 : 1 < p
              · simp [Client.isValid, h9, h0, h1, Client.error]
              · have h0' := not_lt.mp h0
                have h1' := not_lt.mp h1
                simp only [Client.isValid, h9, h0, h1, decide_not, decide_false, Bool.not_false, Bool.not_true, lt_fin, gt_fin, Bool.or_self,
                  Bool.false_eq_true, if_false]
                refine ⟨fun h => absurd ⟨p, rfl, h9, h0', h1'⟩ h.2, fun o ho => ?_⟩
                rw [Res.ok.injEq] at ho
                subst ho
                exact ⟨rfl, hr', rfl, rfl, rfl, fun _ => ⟨p, rfl, h0', h1'⟩⟩
        | _ => simp [Client.isValid, Client.error]
    | _ =>
      refine ⟨fun h => absurd h.1 (by simp), fun o ho => ?_⟩
      rw [Res.ok.injEq] at ho
      subst ho
      exact ⟨rfl, hr', rfl, rfl, rfl, by simp⟩

/-- **C111** (negative radius). A negative radius from a parameter file is not refused. With sums of rectangles, memory outside the table is
read; otherwise the program stops. -/
theorem c111_negative_radius [HasSqrt K] (o : NbOpts K) (pars : Nat → List (Fl K)) {Y X E : Nat} (hY : 0 < Y) (hX : 0 < X) (hE : 0 < E)
    {f : FieldC K} {l : List (FieldC K)} (hf : Sized Y X E f) {q : K} {rest : List (Fl K)} (hp : pars 0 = fin q :: rest) (hq : q ≤ -1) :
    neighbourhoodC o (some (false, pars)) (f :: l) = if keepsMissing o then .ub else .abort := by
  have hq0 : ¬ 0 ≤ q := by intro h; linarith
  have hr : nbRadius o (some (pars 0)) = ok ⌈q⌉ := by
    simp [nbRadius, hp, parAt, vget, Fl.truncInt, hq0]
  have hneg : ⌈q⌉ ≤ -1 := by
    rw [Int.ceil_le]
    exact_mod_cast hq
  generalize ⌈q⌉ = r at hr hneg
  have hex : ∀ y x, ∃ v, y < Y → x < X → f.get y x 0 = ok v := by
    intro y x
    by_cases hyx : y < Y ∧ x < X
    · obtain ⟨v, hv⟩ := hf.exists_get hyx.1 hyx.2 hE
      exact ⟨v, fun _ _ => hv⟩
    · exact ⟨nan, fun h h' => absurd ⟨h, h'⟩ hyx⟩
  choose vals hvals using hex
  have hin : grid2 Y X (fun y x => f.get y.toNat x.toNat 0) = ok (tabulate Y X vals) := grid2_ok fun y hy x hx => by
    simpa using hvals y x hy hx
  have hbox : nbBoxStat o (tabulate Y X vals) Y X r 0 0 = .abort := by
    unfold nbBoxStat squareSize
    have : decide (min ((Y : Int) - 1) (0 + r) - max 0 (0 - r) + 1 > 0) = false := by
      rw [decide_eq_false_iff_not]
      omega
    simp only [this]
    rfl
  have hmem : nbMember o r f f 0 = if keepsMissing o then .ub else .abort := by
    unfold nbMember
    rw [hf.nY, hf.nX, hin, ok_bind]
    by_cases hk : keepsMissing o = true
    · have hk' : (o.fast && (decide (o.stat = .mean) || decide (o.stat = .sum))) = true := hk
      rw [if_pos hk', if_pos hk]
      obtain ⟨table, ht⟩ := nbTable_ok (rect_tabulate Y X vals)
      rw [ht, ok_bind]
      obtain ⟨Y, rfl⟩ : ∃ n, Y = n + 1 := ⟨Y - 1, by omega⟩
      obtain ⟨X, rfl⟩ : ∃ n, X = n + 1 := ⟨X - 1, by omega⟩
      have h0 : nbSumCell table (Y + 1) (X + 1) r o.stat 0 f 0 0 = .ub := by
        unfold nbSumCell
        have : min (((Y + 1 : Nat) : Int) - 1) (((0 : Nat) : Int) + r) < 0 := by omega
        simp only [vget2, vget_neg this]
        rfl
      simp only [FieldC.forCells, List.range_succ_eq_map, foldM_cons, h0]
      rfl
    · have hk' : ¬ (o.fast && (decide (o.stat = .mean) || decide (o.stat = .sum))) = true := hk
      rw [if_neg hk', if_neg hk]
      by_cases hc : (decide (nbMissing (tabulate Y X vals) = 0) && ((o.fast && (decide (o.stat = .min) || decide (o.stat = .max))) ||
          (o.approx && (decide (o.stat = .median) || decide (o.stat = .quantile))))) = true
      · rw [if_pos hc]
        have h0 : nbFastRow o (tabulate Y X vals) Y X r 0 = .abort := by
          unfold nbFastRow
          rw [if_neg (by omega)]
          have : nbSliver o (tabulate Y X vals) r 0 0 = .abort := by
            unfold nbSliver
            rw [if_pos (by omega)]
          rw [mapM_upto_first_abort hX this]
          rfl
        rw [mapM_upto_first_abort hY h0]
        rfl
      · rw [if_neg hc]
        unfold grid2
        rw [mapM_upto_first_abort hY (mapM_upto_first_abort hX hbox)]
        rfl
  have hfield : nbTime o (some (false, pars)) 0 f = if keepsMissing o then .ub else .abort := by
    show nbField o (some (pars 0)) f = _
    unfold nbField
    rw [hr, ok_bind, hf.nE]
    obtain ⟨E, rfl⟩ : ∃ n, E = n + 1 := ⟨E - 1, by omega⟩
    rw [List.range_succ_eq_map, foldM_cons, hmem]
    split_ifs <;> rfl
  have h0 : vget (f :: l) ((0 : Nat) : Int) = ok f := rfl
  simp only [neighbourhoodC, eachTime, List.length_cons, List.range_succ_eq_map, mapM_cons, h0, ok_bind, hfield]
  split_ifs <;> rfl

/-- **C111** (a parameter file that depends on the location) is refused, as soon as there is a time. -/
theorem c111_location [HasSqrt K] (o : NbOpts K) (pars : Nat → List (Fl K)) {fields : List (FieldC K)} (h : fields ≠ []) :
    neighbourhoodC o (some (true, pars)) fields = .abort := by
  obtain ⟨f, l, rfl⟩ := List.exists_cons_of_ne_nil h
  simp only [neighbourhoodC, eachTime, List.length_cons, List.range_succ_eq_map, mapM_cons]
  rfl

/-- **C111** (the approximation is one). Of nine numbers five are 0 and four are 5. The median 0 is asked for; by way of the columns the
result is 5. -/
theorem c111_approx_differs :
    neighbourhoodC (⟨1, .median, MV, true, true⟩ : NbOpts ℚ) none [⟨[fin 0, fin 0, fin 0, fin 5, fin 5, fin 0, fin 5, fin 5, fin 0], 3, 3, 1⟩] =
      (ok [⟨[fin (5 / 2), fin 0, fin 0, fin 5, fin 5, fin (5 / 2), fin 5, fin 5, fin (5 / 2)], 3, 3, 1⟩] : Res (List (FieldC ℚ))) ∧
    neighbourhoodC (⟨1, .median, MV, true, false⟩ : NbOpts ℚ) none [⟨[fin 0, fin 0, fin 0, fin 5, fin 5, fin 0, fin 5, fin 5, fin 0], 3, 3, 1⟩] =
      (ok [⟨[fin (5 / 2), fin 0, fin 0, fin 5, fin 0, fin 0, fin 5, fin 5, fin (5 / 2)], 3, 3, 1⟩] : Res (List (FieldC ℚ))) := by
  decide +kernel

/-- The hypotheses of `c111_value` are met by a field with a missing value, a mean and a radius from a parameter file. -/
example : Series 2 2 1 [(⟨[fin 1, fin 2, fin (-999), fin 4], 2, 2, 1⟩ : FieldC ℝ)] ∧
    RadiusIs (⟨3, .mean, MV, true, false⟩ : NbOpts ℝ) (some (false, fun _ => [fin (3 / 2)])) 0 1 := by
  refine ⟨?_, Or.inr ⟨_, rfl, 3 / 2, [], rfl, by norm_num, by norm_num⟩⟩
  intro f hf
  rw [List.mem_singleton] at hf
  subst hf
  exact ⟨rfl, rfl, rfl, rfl⟩

example : neighbourhoodC (⟨3, .mean, MV, true, false⟩ : NbOpts ℚ) (some (false, fun _ => [fin (3 / 2)]))
    [⟨[fin 1, fin 2, fin (-999), fin 5, fin 3, fin 7], 2, 3, 1⟩] =
      (ok [⟨[fin (11 / 4), fin (18 / 5), fin 4, fin (11 / 4), fin (18 / 5), fin 4], 2, 3, 1⟩] : Res (List (FieldC ℚ))) := by
  decide +kernel

/-- The hypotheses of `c111_negative_radius` are met by the missing value as radius. -/
example : ∃ f : FieldC ℚ, Sized 1 2 1 f ∧ neighbourhoodC (⟨3, .mean, MV, true, false⟩ : NbOpts ℚ) (some (false, fun _ => [MV])) [f] = .ub :=
  ⟨⟨[fin 1, fin 2], 1, 2, 1⟩, ⟨rfl, rfl, rfl, rfl⟩, by decide +kernel⟩

end Gridpp.Props
