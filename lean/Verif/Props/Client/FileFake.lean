import Verif.Spec.FileFake
import Verif.Props.Client.Grid
import Verif.Lemmas.Client.Field
import Mathlib.Data.Rat.Floor
import Mathlib.Algebra.Order.Ring.Rat
import Mathlib.Algebra.Field.Rat

/-! # C164: the grids of a file of the client, and the file Fake -/

set_option linter.unusedSectionVars false

namespace Gridpp.Props
open Fl hiding MV isValid
open Res Client Spec

variable {K : Type} [Field K] [LinearOrder K] [IsStrictOrderedRing K]

theorem rect_first {Y X : Nat} {v : List (List (Fl K))} (h : Rect Y X v) (hY : 0 < Y) : ∃ r, vget v 0 = ok r ∧ r.length = X := by
  have hl : 0 < v.length := by rw [h.1]; exact hY
  exact ⟨v[0], vget_eq_ok_of_lt (n := 0) hl, h.2 _ (List.getElem_mem hl)⟩

theorem otherSize_eq {Y X : Nat} {lats v : List (List (Fl K))} (hl : Rect Y X lats) (hY : 0 < Y) (hv : Regular v) [Decidable (Rect Y X v)] :
    otherSize lats v = ok (!decide (Rect Y X v)) := by
  obtain ⟨a, b, ha, hr⟩ := hv
  obtain ⟨r, r1, r2⟩ := rect_first hr ha
  unfold otherSize
  rw [hl.1, hr.1, r1, numX_rect hl hY]
  by_cases e : a = Y
  · subst e
    rw [if_neg (by simp)]
    simp only [ok_bind, r2]
    by_cases e2 : b = X
    · subst e2
      simp [hr]
    · have : ¬ Rect a X v := fun h => by
        obtain ⟨r', r1', r2'⟩ := rect_first h ha
        rw [r1] at r1'
        cases r1'
        exact e2 (r2.symm.trans r2')
      simp [e2, this]
  · have : ¬ Rect Y X v := fun h => e (hr.1.symm.trans h.1)
    rw [if_pos e]
    simp [this]

theorem setElevs_other (lats v : List (List (Fl K))) : setElevs lats v = (do
    let other ← otherSize lats v
    ok (if other then none else some v)) := by
  unfold setElevs otherSize
  by_cases e : v.length = lats.length
  · rw [if_neg (by simpa using e), if_neg (by simpa using e)]
    cases h1 : vget v 0 with
    | ok r =>
      cases h2 : numX lats with
      | ok n => simp only [ok_bind]; by_cases h3 : r.length = n <;> simp [h3]
      | _ => rfl
    | _ => rfl
  · rw [if_pos e, if_pos e]
    rfl

theorem missingGrid_eq {Y X : Nat} {lats : List (List (Fl K))} (hl : Rect Y X lats) (hY : 0 < Y) :
    missingGrid lats = ok (List.replicate Y (List.replicate X Client.MV)) := by
  unfold missingGrid
  rw [hl.1, if_neg (by omega), numX_rect hl hY]
  rfl

theorem missing_rect (Y X : Nat) : Rect Y X (List.replicate Y (List.replicate X (Client.MV : Fl K))) ∧
    ∀ r ∈ List.replicate Y (List.replicate X (Client.MV : Fl K)), ∀ x ∈ r, x = fin (-999) := by
  refine ⟨⟨by simp, fun r hr => ?_⟩, fun r hr x hx => ?_⟩
  · rw [List.eq_of_mem_replicate hr]; simp
  · rw [List.eq_of_mem_replicate hr] at hx
    exact List.eq_of_mem_replicate hx

/-- What the file holds: the last grid of the right size, or none. -/
def Holds (Y X : Nat) (given : List (List (List (Fl K)))) (v : List (List (Fl K))) : Prop :=
  LastOfSize Y X given v ∨ ((∀ w ∈ given, ¬ Rect Y X w) ∧ v = [])

theorem holds_add {Y X : Nat} {given : List (List (List (Fl K)))} {v w : List (List (Fl K))} (h : Holds Y X given v) [Decidable (Rect Y X w)] :
    Holds Y X (given ++ [w]) (if Rect Y X w then w else v) := by
  by_cases hw : Rect Y X w
  · rw [if_pos hw]
    exact .inl ⟨given, [], rfl, hw, by simp⟩
  · rw [if_neg hw]
    rcases h with ⟨b, a, rfl, h1, h2⟩ | ⟨h1, h2⟩
    · refine .inl ⟨b, a ++ [w], by simp, h1, fun u hu => ?_⟩
      rcases List.mem_append.mp hu with hu | hu
      · exact h2 u hu
      · rw [List.mem_singleton.mp hu]; exact hw
    · refine .inr ⟨fun u hu => ?_, h2⟩
      rcases List.mem_append.mp hu with hu | hu
      · exact h1 u hu
      · rw [List.mem_singleton.mp hu]; exact hw

theorem gridRun {Y X : Nat} {lats : List (List (Fl K))} (hl : Rect Y X lats) (hY : 0 < Y) (ops : List (GridOp K)) :
    ∀ (f : FileGrids K) (ge gf : List (List (List (Fl K)))), f.lats = lats → Holds Y X ge f.elevs → Holds Y X gf f.fractions →
      (∀ op ∈ ops, Regular (opGrid op)) → ∃ f', foldM gridStep f ops = ok f' ∧ f'.lats = lats ∧ Holds Y X (ge ++ elevsGiven ops) f'.elevs ∧
        Holds Y X (gf ++ fractionsGiven ops) f'.fractions := by
  classical
  induction ops with
  | nil => intro f ge gf h1 h2 h3 _; exact ⟨f, rfl, h1, by simpa [elevsGiven] using h2, by simpa [fractionsGiven] using h3⟩
  | cons op t ih =>
    intro f ge gf h1 h2 h3 hr
    have hop := hr op (by simp)
    rw [foldM_cons]
    cases op with
    | elevs v =>
      have hop : Regular v := hop
      have e : gridStep f (.elevs v) = ok { f with elevs := if Rect Y X v then v else f.elevs } := by
        unfold gridStep
        simp only
        rw [setElevs_other, h1, otherSize_eq hl hY hop]
        by_cases hv : Rect Y X v <;> simp [hv]
      rw [e, ok_bind]
      obtain ⟨f', g1, g2, g3, g4⟩ := ih { f with elevs := if Rect Y X v then v else f.elevs } (ge ++ [v]) gf h1 (holds_add h2) h3 fun o ho => hr o (by simp [ho])
      exact ⟨f', g1, g2, by simpa [elevsGiven] using g3, g4⟩
    | fractions v =>
      have hop : Regular v := hop
      have e : gridStep f (.fractions v) = ok { f with fractions := if Rect Y X v then v else f.fractions } := by
        unfold gridStep setLandFractions
        simp only
        rw [h1, otherSize_eq hl hY hop]
        by_cases hv : Rect Y X v <;> simp [hv]
      rw [e, ok_bind]
      obtain ⟨f', g1, g2, g3, g4⟩ := ih { f with fractions := if Rect Y X v then v else f.fractions } ge (gf ++ [v]) h1 h2 (holds_add h3) fun o ho => hr o (by simp [ho])
      exact ⟨f', g1, g2, g3, by simpa [fractionsGiven] using g4⟩

/-- **C164** (grids), for a file with coordinates and rectangles with at least one row. After any sequence of settings the elevations and the land
fractions have the size of the grid: they are the last ones given that have this size, or missing everywhere if there are none. -/
theorem c164_grids_partial {Y X : Nat} {lats : List (List (Fl K))} (hl : Rect Y X lats) (hY : 0 < Y) (ops : List (GridOp K))
    (hr : ∀ op ∈ ops, Regular (opGrid op)) :
    ∃ f e p, foldM gridStep ⟨lats, [], []⟩ ops = ok f ∧ getElevs f = ok e ∧ getLandFractions f = ok p ∧
      (LastOfSize Y X (elevsGiven ops) e ∨ NoneOfSize Y X (elevsGiven ops) e) ∧
      (LastOfSize Y X (fractionsGiven ops) p ∨ NoneOfSize Y X (fractionsGiven ops) p) := by
  classical
  obtain ⟨f, h1, h2, h3, h4⟩ := gridRun hl hY ops ⟨lats, [], []⟩ [] [] rfl (.inr ⟨by simp, rfl⟩) (.inr ⟨by simp, rfl⟩) hr
  rw [List.nil_append] at h3 h4
  have he : ∃ e, getElevs f = ok e ∧ (LastOfSize Y X (elevsGiven ops) e ∨ NoneOfSize Y X (elevsGiven ops) e) := by
    unfold getElevs
    rcases h3 with h | ⟨h, h0⟩
    · have hv : Rect Y X f.elevs := by obtain ⟨_, _, _, h, _⟩ := h; exact h
      rw [if_neg (by rw [hv.1]; omega)]
      exact ⟨_, rfl, .inl h⟩
    · rw [if_pos (by simp [h0]), h2, missingGrid_eq hl hY]
      exact ⟨_, rfl, .inr ⟨h, (missing_rect Y X).1, (missing_rect Y X).2⟩⟩
  have hp : ∃ p, getLandFractions f = ok p ∧ (LastOfSize Y X (fractionsGiven ops) p ∨ NoneOfSize Y X (fractionsGiven ops) p) := by
    unfold getLandFractions
    rcases h4 with h | ⟨h, h0⟩
    · have hv : Rect Y X f.fractions := by obtain ⟨_, _, _, h, _⟩ := h; exact h
      rw [h2, otherSize_eq hl hY ⟨Y, X, hY, hv⟩]
      refine ⟨f.fractions, by simp [hv], .inl h⟩
    · have : otherSize f.lats f.fractions = ok true := by
        unfold otherSize
        rw [h0, h2, hl.1, if_pos (by simp; omega)]
      rw [this, ok_bind, if_pos rfl, h2, missingGrid_eq hl hY]
      exact ⟨_, rfl, .inr ⟨h, (missing_rect Y X).1, (missing_rect Y X).2⟩⟩
  obtain ⟨e, e1, e2⟩ := he
  obtain ⟨p, p1, p2⟩ := hp
  exact ⟨f, e, p, h1, e1, p1, e2, p2⟩

/-- **C164** is false of grids that are not rectangles: only the first row is looked at. -/
theorem c164_ragged_false : setElevs [[fin (1 : ℚ), fin 1], [fin 1, fin 1]] [[fin 5, fin 6], []] = ok (some [[fin 5, fin 6], []]) ∧
    setLandFractions [[fin (1 : ℚ), fin 1], [fin 1, fin 1]] [[fin 5, fin 6], []] = ok (some [[fin 5, fin 6], []]) := by decide +kernel

/-- **C164** is false of a file without coordinates: the first row is read although there is none. -/
theorem c164_empty_false : getLandFractions (⟨[], [], []⟩ : FileGrids K) = .ub ∧ getElevs (⟨[], [], []⟩ : FileGrids K) = ok [] ∧
    setElevs ([] : List (List (Fl K))) [] = .ub := ⟨rfl, rfl, rfl⟩

/-- **C164** (sizes). Two files have the same dimensions exactly if all four sizes are equal. -/
theorem c164_same (a b : FileSizes) : sameDimensions a b = true ↔ a = b := by
  obtain ⟨_, _, _, _⟩ := a
  obtain ⟨_, _, _, _⟩ := b
  simp [sameDimensions, and_assoc]

/-- **C164** (file Fake, field). The value is the sum of row, column and member. -/
theorem c164_fake_field (Y X E : Nat) : ∃ f : FieldC K, fakeField Y X E = ok f ∧
    ∀ y < Y, ∀ x < X, ∀ e < E, f.get y x e = ok (fin ((y : K) + (x : K) + (e : K))) := by
  obtain ⟨f, h1, h2, -⟩ := FieldC.new_sized (K := K) Y X E Client.MV
  obtain ⟨out, g1, -, g3⟩ := forAll_spec (fun f i j e => f.set i j e (Fl.ofNat (i + j + e))) (fun y x e _ v => v = ok (fin ((y : K) + x + e))) (by
    intro g hg y hy x hx e he
    obtain ⟨g', k1, k2, k3, k4⟩ := hg.set hy hx he (Fl.ofNat (y + x + e))
    refine ⟨g', k1, k2, ?_, k4⟩
    rw [k3, ofNat_def]
    push_cast
    rfl) f h2
  refine ⟨out, ?_, g3⟩
  unfold fakeField
  rw [h1, ok_bind, g1]

/-- **C164** (file Fake, sizes). Sizes that are not positive end the program. -/
theorem c164_fake_sizes [FloorRing K] (tag next : Nat) {nLat nLon nEns nTime : Int} (h : nLat ≤ 0 ∨ nLon ≤ 0 ∨ nEns ≤ 0 ∨ nTime ≤ 0) :
    fakeFile (K := K) tag next nLat nLon nEns nTime = .abort := by
  unfold fakeFile
  split
  · rfl
  split
  · rfl
  split
  · rfl
  split
  · rfl
  omega

/-- **C164** is false of the file Fake: whatever the sizes, the first column has the longitude 0, for which making a file is undefined. -/
theorem c164_fake_false [FloorRing K] (tag next : Nat) {nLat nLon nEns nTime : Int} (h1 : 0 < nLat) (h2 : 0 < nLon) (h3 : 0 < nEns) (h4 : 0 < nTime) :
    fakeFile (K := K) tag next nLat nLon nEns nTime = .ub := by
  obtain ⟨Y, rfl⟩ := Int.eq_ofNat_of_zero_le h1.le
  obtain ⟨X, rfl⟩ := Int.eq_ofNat_of_zero_le h2.le
  have hY : 0 < Y := by omega
  have hX : 0 < X := by omega
  have frac : ∀ i n : Nat, i < n → 0 ≤ 10 * (i : K) / (n : K) ∧ 10 * (i : K) / (n : K) ≤ 10 := by
    intro i n hin
    have hn : (0 : K) < n := by exact_mod_cast (by omega : 0 < n)
    have hi : (i : K) ≤ n := by exact_mod_cast hin.le
    refine ⟨by positivity, ?_⟩
    rw [div_le_iff₀ hn]
    nlinarith
  have rect : ∀ a : Nat → Nat → Fl K, Rect Y X ((List.range Y).map fun i => (List.range X).map (a i)) := by
    intro a
    refine ⟨by simp, fun r hr => ?_⟩
    obtain ⟨i, -, rfl⟩ := List.mem_map.mp hr
    simp
  unfold fakeFile
  rw [if_neg (by omega), if_neg (by omega), if_neg (by omega), if_neg (by omega)]
  simp only [Int.toNat_natCast]
  obtain ⟨g1, n1, k1, k2, k3⟩ := c94_lats (f := (⟨[], [], tag⟩ : GridFile K)) next (.inl rfl) (lats := fakeLats Y X)
    (rect fun i _ => fin (50 + 10 * (i : K) / (Y : K))) (by
      intro r hr v hv
      obtain ⟨i, hi, rfl⟩ := List.mem_map.mp hr
      obtain ⟨j, hj, rfl⟩ := List.mem_map.mp hv
      have := frac i Y (List.mem_range.mp hi)
      exact ⟨_, rfl, by linarith, by linarith⟩)
  rw [k1, ok_bind]
  simp only
  rw [c94_zero_false (f := g1) n1 (.inl k3) (lons := fakeLons Y X) (rect fun _ j => fin (0 + 10 * (j : K) / (X : K))) (by
      intro r hr v hv
      obtain ⟨i, hi, rfl⟩ := List.mem_map.mp hr
      obtain ⟨j, hj, rfl⟩ := List.mem_map.mp hv
      have := frac j X (List.mem_range.mp hj)
      exact ⟨_, rfl, by linarith, by linarith⟩) ?_]
  · rfl
  · refine ⟨_, List.mem_map.mpr ⟨0, List.mem_range.mpr hY, rfl⟩, List.mem_map.mpr ⟨0, List.mem_range.mpr hX, ?_⟩⟩
    simp

/-- The land fractions of the file Fake are not fractions: with the sizes that are the default the greatest one is 27/20. -/
theorem c164_fake_fraction_false : cell? (fakeFractions (K := ℚ) 10 10) 9 9 = some (fin (27 / 20)) := by decide +kernel

/-- The conditions of `c164_grids_partial` can be met: the second of three elevations has the right size. -/
theorem c164_case_grids : ∃ f, foldM gridStep ⟨[[fin (1 : ℚ)], [fin 2]], [], []⟩
      [.elevs [[fin 3, fin 4]], .elevs [[fin 5], [fin 6]], .fractions [[fin 7]], .elevs [[fin 8]]] = ok f ∧
    getElevs f = ok [[fin 5], [fin 6]] ∧ getLandFractions f = ok [[fin (-999)], [fin (-999)]] :=
  ⟨⟨[[fin 1], [fin 2]], [[fin 5], [fin 6]], []⟩, rfl, rfl, rfl⟩

end Gridpp.Props
