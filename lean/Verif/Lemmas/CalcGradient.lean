import Verif.Model.CalcGradient
import Verif.Spec.CalcGradient
import Verif.Lemmas.SquareLoop

/-! Lemmas for calc_gradient. -/

set_option linter.unusedSectionVars false

namespace Gridpp
open Fl Res Spec

section
variable {K : Type}

theorem bothValid_append (a b : List (Fl K × Fl K)) : bothValid (a ++ b) = bothValid a ++ bothValid b := by
  induction a with
  | nil => rfl
  | cons p t ih =>
    obtain ⟨u, v⟩ := p
    cases u <;> cases v <;> simp [bothValid, ih]

theorem bothValid_invalid {u v : Fl K} (h : u.isValid = false ∨ v.isValid = false) : bothValid [(u, v)] = [] := by
  cases u <;> cases v <;> first | rfl | simp [isValid] at h

theorem bothValid_length_le (a : List (Fl K × Fl K)) : (bothValid a).length ≤ a.length := by
  induction a with
  | nil => simp [bothValid]
  | cons p t ih =>
    obtain ⟨u, v⟩ := p
    cases u <;> cases v <;> simp [bothValid] <;> omega

theorem mem_bothValid {a : List (Fl K × Fl K)} {p : K × K} : p ∈ bothValid a ↔ (fin p.1, fin p.2) ∈ a := by
  induction a with
  | nil => simp [bothValid]
  | cons q t ih =>
    obtain ⟨u, v⟩ := q
    obtain ⟨p1, p2⟩ := p
    cases u <;> cases v <;> simp_all [bothValid]

/-- `c` is the extreme (no element beats it) first value of the pairs, found where `r` reads. -/
def ExtAt (beats : K → K → Prop) (ps : List (K × K)) (c : Fl K) (r : Res (Fl K)) [DecidableEq K] : Prop :=
  (ps = [] ∧ c = nan) ∨ ∃ b v, c = fin b ∧ ps.find? (fun p => decide (p.1 = b)) = some (b, v) ∧ (∀ p ∈ ps, ¬ beats p.1 b) ∧ r = ok (fin v)

theorem extAt_step [DecidableEq K] {beats : K → K → Prop} (htr : ∀ a b c, beats a b → beats b c → beats a c) (hirr : ∀ a, ¬ beats a a)
    {ps : List (K × K)} {c : Fl K} {r r' : Res (Fl K)} {b v : K} (h : ExtAt beats ps c r) (hr : r' = ok (fin v)) (up : Bool)
    (hup : ∀ b', c = fin b' → (up = true ↔ beats b b')) :
    ExtAt beats (ps ++ [(b, v)]) (if !c.isValid || up then fin b else c) (if !c.isValid || up then r' else r) := by
  rcases h with ⟨rfl, rfl⟩ | ⟨b', v', rfl, h1, h2, h3⟩
  · exact Or.inr ⟨b, v, by simp [isValid], by simp, by simpa using hirr b, by simp [isValid, hr]⟩
  · right
    have hu := hup b' rfl
    by_cases hb : beats b b'
    · rw [hu.mpr hb]
      refine ⟨b, v, by simp, ?_, ?_, by simp [hr]⟩
      · rw [List.find?_append]
        have : ps.find? (fun p => decide (p.1 = b)) = none := by
          rw [List.find?_eq_none]
          intro p hp he
          have he : p.1 = b := by simpa using he
          exact h2 p hp (he ▸ hb)
        rw [this]
        simp
      · intro p hp
        rw [List.mem_append, List.mem_singleton] at hp
        rcases hp with hp | rfl
        · exact fun hc => h2 p hp (htr _ _ _ hc hb)
        · exact hirr _
    · have : up = false := by
        cases up with
        | false => rfl
        | true => exact absurd (hu.mp rfl) hb
      subst this
      refine ⟨b', v', by simp [isValid], ?_, ?_, by simp [isValid, h3]⟩
      · rw [List.find?_append, h1]; rfl
      · intro p hp
        rw [List.mem_append, List.mem_singleton] at hp
        rcases hp with hp | rfl
        · exact h2 p hp
        · exact hb

end

section
variable {K : Type} [Field K] [LinearOrder K] [IsStrictOrderedRing K]

/-- The state after the window loops. -/
theorem minMax_loop {Y X : Nat} {base values : List (List (Fl K))} (hb : Rect Y X base) (hv : Rect Y X values) (hw : Nat) {y x : Nat}
    (hy : y < Y) (hx : x < X) :
    ∃ s : MinMaxState K, foldM (fun s yy => foldM (fun s xx => minMaxStep base values s yy xx) s
        (irange (max 0 ((x : Int) - hw)) (min ((X : Int) - 1) (x + hw))))
        { cmax := MV, cmin := MV, imax := (0, 0), imin := (0, 0), count := 0 }
        (irange (max 0 ((y : Int) - hw)) (min ((Y : Int) - 1) (y + hw))) = ok s ∧
      s.count = (windowPairs base values hw y x).length ∧
      ExtAt (fun a b => b < a) (windowPairs base values hw y x) s.cmax (vget2 values s.imax.1 s.imax.2) ∧
      ExtAt (fun a b => a < b) (windowPairs base values hw y x) s.cmin (vget2 values s.imin.1 s.imin.2) := by
  rw [foldM_square hy hx]
  have hwp : windowPairs base values hw y x = bothValid ((square (positions Y X) hw y x).map (pairAt base values (nan, nan))) := by
    unfold windowPairs
    rw [← square_pairField hb hv]
    rfl
  rw [hwp]
  refine foldM_list_inv (P := fun d (s : MinMaxState K) => s.count = (bothValid (d.map (pairAt base values (nan, nan)))).length ∧
      ExtAt (fun a b => b < a) (bothValid (d.map (pairAt base values (nan, nan)))) s.cmax (vget2 values s.imax.1 s.imax.2) ∧
      ExtAt (fun a b => a < b) (bothValid (d.map (pairAt base values (nan, nan)))) s.cmin (vget2 values s.imin.1 s.imin.2)) ?_ ?_
  · exact ⟨rfl, Or.inl ⟨rfl, rfl⟩, Or.inl ⟨rfl, rfl⟩⟩
  · intro d p s hp ⟨h1, h2, h3⟩
    have hm := mem_positions.mp hp
    obtain ⟨e1, e2⟩ := read_pairAt hb hv (nan, nan) hm.1 hm.2.1
    rw [List.map_append, bothValid_append, List.map_singleton]
    unfold minMaxStep
    generalize hq : pairAt base values (nan, nan) p = q at *
    obtain ⟨u, w⟩ := q
    simp only at e1 e2
    rw [e1, ok_bind]
    by_cases hu : u.isValid
    · by_cases hwv : w.isValid
      · obtain ⟨b, rfl⟩ := exists_fin_of_valid hu
        obtain ⟨v, rfl⟩ := exists_fin_of_valid hwv
        simp only [isValid_fin, Bool.not_true, Bool.false_eq_true, if_false, e2, ok_bind]
        refine ⟨_, rfl, ?_, ?_, ?_⟩
        · simp [bothValid, h1]
        · have := extAt_step (beats := fun a b : K => b < a) (fun a b c h1 h2 => lt_trans h2 h1) (fun a => lt_irrefl a) h2 e2
            ((fin b).gt s.cmax) (b := b) (fun b' hb' => by rw [hb', gt_fin]; simp)
          split at this <;> rename_i hc <;> simp only [hc] <;> exact this
        · have := extAt_step (beats := fun a b : K => a < b) (fun a b c h1 h2 => lt_trans h1 h2) (fun a => lt_irrefl a) h3 e2
            ((fin b).lt s.cmin) (b := b) (fun b' hb' => by rw [hb', lt_fin]; simp)
          split at this <;> rename_i hc <;> simp only [hc] <;> exact this
      · have hwv : w.isValid = false := by simpa using hwv
        rw [bothValid_invalid (Or.inr hwv), List.append_nil]
        simp only [hu, Bool.not_true, Bool.false_eq_true, if_false, e2, ok_bind, hwv, Bool.not_false, if_true]
        exact ⟨s, rfl, h1, h2, h3⟩
    · have hu : u.isValid = false := by simpa using hu
      rw [bothValid_invalid (Or.inl hu), List.append_nil]
      simp only [hu, Bool.not_false, if_true]
      exact ⟨s, rfl, h1, h2, h3⟩

/-! ### Moments -/

theorem momentsAt_fin (b v : K) : momentsAt (fin b) (fin v) = { base0 := fin b, values0 := fin v, bb := fin (b * b), bv := fin (b * v), valid := fin 1 } := rfl

theorem momentsAt_invalid {u v : Fl K} (h : u.isValid = false ∨ v.isValid = false) :
    momentsAt u v = { base0 := MV, values0 := MV, bb := MV, bv := MV, valid := fin 0 } := by
  unfold momentsAt
  rcases h with h | h <;> simp [h]

theorem vals_moments (l : List (Fl K × Fl K)) :
    vals (l.map fun p => (momentsAt p.1 p.2).base0) = (bothValid l).map Prod.fst ∧
    vals (l.map fun p => (momentsAt p.1 p.2).values0) = (bothValid l).map Prod.snd ∧
    vals (l.map fun p => (momentsAt p.1 p.2).bb) = (bothValid l).map (fun p => p.1 * p.1) ∧
    vals (l.map fun p => (momentsAt p.1 p.2).bv) = (bothValid l).map (fun p => p.1 * p.2) ∧
    (vals (l.map fun p => (momentsAt p.1 p.2).valid)).sum = ((bothValid l).length : K) ∧
    (vals (l.map fun p => (momentsAt p.1 p.2).valid)).length = l.length := by
  induction l with
  | nil => simp [bothValid]
  | cons p t ih =>
    obtain ⟨h1, h2, h3, h4, h5, h6⟩ := ih
    obtain ⟨u, v⟩ := p
    simp only [List.map_cons]
    by_cases huv : u.isValid = false ∨ v.isValid = false
    · have e : bothValid ((u, v) :: t) = bothValid t := by
        rw [← List.singleton_append, bothValid_append, bothValid_invalid huv, List.nil_append]
      rw [e, momentsAt_invalid huv]
      simp only [MV, vals_nan, vals_fin, List.sum_cons, List.length_cons, zero_add, h1, h2, h3, h4, h5, h6, and_self]
    · have hu : u.isValid := by cases hc : u.isValid <;> simp_all
      have hv : v.isValid := by cases hc : v.isValid <;> simp_all
      obtain ⟨b, rfl⟩ := exists_fin_of_valid hu
      obtain ⟨w, rfl⟩ := exists_fin_of_valid hv
      rw [momentsAt_fin]
      simp only [bothValid, vals_fin, List.map_cons, List.sum_cons, List.length_cons, h1, h2, h3, h4, h5, h6, true_and, and_true]
      push_cast
      ring

theorem mean_sub_sq (ps : List (K × K)) (h : ps ≠ []) :
    mean (ps.map fun p => p.1 * p.1) - mean (ps.map Prod.fst) * mean (ps.map Prod.fst) = variance (ps.map Prod.fst) := by
  have := shifted_variance (ps.map Prod.fst) 0 (by simpa using h)
  simp only [sub_zero, List.map_map, List.length_map] at this
  unfold mean
  simp only [List.length_map]
  exact this

theorem covariance_sum (ps : List (K × K)) (m n : K) : (ps.map fun p => (p.1 - m) * (p.2 - n)).sum =
    (ps.map fun p => p.1 * p.2).sum - m * (ps.map Prod.snd).sum - n * (ps.map Prod.fst).sum + ps.length * (m * n) := by
  induction ps with
  | nil => simp
  | cons p t ih => simp [ih]; ring

theorem mean_sub_prod (ps : List (K × K)) (h : ps ≠ []) :
    mean (ps.map fun p => p.1 * p.2) - mean (ps.map Prod.fst) * mean (ps.map Prod.snd) = covariance ps := by
  have hn : (ps.length : K) ≠ 0 := by simpa using h
  unfold covariance
  conv_rhs => unfold mean
  rw [covariance_sum]
  unfold mean
  simp only [List.length_map]
  field_simp
  ring

/-- Affine values have the slope of the line. -/
theorem slope_affine {ps : List (K × K)} (hv : variance (ps.map Prod.fst) ≠ 0) {a g : K} (h : ∀ p ∈ ps, p.2 = a + g * p.1) : slope ps = g := by
  have hne : ps ≠ [] := by rintro rfl; simp [variance] at hv
  have hn : (ps.length : K) ≠ 0 := by simpa using hne
  have hs : ps.map Prod.snd = ps.map fun p => a + g * p.1 := List.map_congr_left h
  have hsum : (ps.map fun p => a + g * p.1).sum = ps.length * a + g * (ps.map Prod.fst).sum := by
    clear hv h hne hn hs
    induction ps with
    | nil => simp
    | cons p t ih => simp [ih]; ring
  have hm : mean (ps.map Prod.snd) = a + g * mean (ps.map Prod.fst) := by
    rw [hs]; unfold mean; rw [hsum]; simp only [List.length_map]; field_simp
  have hp : (ps.map fun p => p.1 * p.2) = ps.map fun p => a * p.1 + g * (p.1 * p.1) := List.map_congr_left fun p hp => by rw [h p hp]; ring
  have hps : (ps.map fun p => a * p.1 + g * (p.1 * p.1)).sum = a * (ps.map Prod.fst).sum + g * (ps.map fun p => p.1 * p.1).sum := by
    clear hv h hne hn hs hsum hm hp
    induction ps with
    | nil => simp
    | cons p t ih => simp [ih]; ring
  have hpm : mean (ps.map fun p => p.1 * p.2) = a * mean (ps.map Prod.fst) + g * mean (ps.map fun p => p.1 * p.1) := by
    rw [hp]; unfold mean; rw [hps]; simp only [List.length_map]; ring
  unfold slope
  rw [div_eq_iff hv, ← mean_sub_sq ps hne, ← mean_sub_prod ps hne, hm, hpm]
  ring

end
end Gridpp
