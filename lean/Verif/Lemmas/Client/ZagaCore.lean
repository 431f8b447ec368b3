import Verif.Lemmas.Client.Zaga
import Verif.Lemmas.Client.Recalibrate
import Verif.Lemmas.Client.Stencil
import Verif.Lemmas.Client.Coastal

/-! # The calibrator zaga: lemmas -/

set_option linter.unusedSectionVars false

namespace Gridpp.Client
open Fl hiding MV isValid
open Res Spec

variable {K : Type} [Field K] [LinearOrder K] [IsStrictOrderedRing K]

/-! ### Sums that become missing -/

/-- One step of a sum that becomes missing with its first missing value. -/
def chainAdd (total v : Fl K) : Fl K := if isValid total && isValid v then total + v else MV

theorem chain_MV (l : List (Fl K)) : l.foldl chainAdd MV = MV := by
  induction l with
  | nil => rfl
  | cons v t ih =>
    have : chainAdd MV v = (MV : Fl K) := by
      unfold chainAdd
      rw [isValid_false_iff.mpr not_present_MV]; rfl
    rw [List.foldl_cons, this, ih]

theorem chain_missing {l : List (Fl K)} (h : ∃ v ∈ l, ¬ Present v) (a : Fl K) : l.foldl chainAdd a = MV := by
  induction l generalizing a with
  | nil => obtain ⟨v, hv, -⟩ := h; cases hv
  | cons v t ih =>
    rw [List.foldl_cons]
    by_cases hv : Present v
    · apply ih
      obtain ⟨u, hu, hn⟩ := h
      rcases List.mem_cons.mp hu with rfl | hu
      · exact absurd hv hn
      · exact ⟨u, hu, hn⟩
    · have : chainAdd a v = MV := by
        unfold chainAdd
        rw [isValid_false_iff.mpr hv]; simp
      rw [this, chain_MV]

theorem chain_sum {l : List K} (h : ∀ v ∈ l, 0 ≤ v) {a : K} (ha : 0 ≤ a) : (l.map fin).foldl chainAdd (fin a) = fin (a + l.sum) := by
  induction l generalizing a with
  | nil => simp
  | cons v t ih =>
    have hv := h v (by simp)
    have : chainAdd (fin a) (fin v) = fin (a + v) := by
      unfold chainAdd
      rw [valid_nonneg ha, valid_nonneg hv]; simp
    rw [List.map_cons, List.foldl_cons, this, ih (fun u hu => h u (by simp [hu])) (by linarith), List.sum_cons, add_assoc]

/-! ### The window of time -/

variable [FloorRing K] [HasExp K]

theorem zagaTotal_eq {precips : List (FieldC K)} {window t e : Nat} {c : Int × Int} {u : Nat → Fl K}
    (h : ∀ k < window, ∃ f, vget precips ((t : Int) - window + 1 + k) = ok f ∧ f.getInt c.1 c.2 e = ok (u k)) :
    zagaTotal window precips t e c = ok (((List.range window).map u).foldl chainAdd (fin 0)) := by
  unfold zagaTotal irange
  have hn : ((t : Int) + 1 - ((t : Int) - window + 1)).toNat = window := by omega
  rw [hn, foldM_map', List.foldl_map]
  refine foldM_ok ?_
  intro b k hk
  obtain ⟨f, h1, h2⟩ := h k (List.mem_range.mp hk)
  rw [h1, ok_bind, h2, ok_bind]
  rfl

/-- A window that starts before the first time. -/
theorem zagaTotal_ub {precips : List (FieldC K)} {window t e : Nat} {c : Int × Int} (h : t + 1 < window) : zagaTotal window precips t e c = .ub := by
  unfold zagaTotal irange
  have hn : ((t : Int) + 1 - ((t : Int) - window + 1)).toNat = window := by omega
  rw [hn]
  obtain ⟨w, rfl⟩ : ∃ w, window = w + 1 := ⟨window - 1, by omega⟩
  rw [List.range_succ_eq_map, List.map_cons, foldM_cons, vget_neg (by push_cast; omega)]
  rfl

/-! ### The sums over members and neighbours -/

/-- The neighbours of all members in the order of the loops. -/
def zagaPlaces (Y X E nb i j : Nat) : List (Nat × Nat × Nat) :=
  (List.range E).flatMap fun e => (stencil Y X nb ((i : Int), (j : Int))).map fun c => (e, c.1.toNat, c.2.toNat)

theorem mem_zagaPlaces {Y X E nb i j : Nat} (q : Nat × Nat × Nat) : q ∈ zagaPlaces Y X E nb i j ↔ q ∈ zagaSample Y X E nb i j := by
  unfold zagaPlaces zagaSample
  simp only [List.mem_flatMap, List.mem_range, List.mem_map, mem_stencil, Finset.mem_filter, Finset.mem_product, Finset.mem_range]
  constructor
  · rintro ⟨e, he, c, hc, rfl⟩
    simp only
    omega
  · rintro ⟨⟨h1, h2, h3⟩, h4⟩
    exact ⟨q.1, h1, ((q.2.1 : Int), (q.2.2 : Int)), by simp only; omega, by simp⟩

theorem zagaPlaces_nodup (Y X E nb i j : Nat) : (zagaPlaces Y X E nb i j).Nodup := by
  unfold zagaPlaces
  rw [List.nodup_flatMap]
  refine ⟨fun e _ => ?_, ?_⟩
  · refine List.Nodup.map_on ?_ (stencil_nodup Y X nb _)
    intro a ha b hb hab
    rw [mem_stencil] at ha hb
    simp only [Prod.mk.injEq, true_and] at hab
    apply Prod.ext <;> omega
  · refine (List.nodup_range (n := E)).imp ?_
    intro a b hab q hq hq'
    obtain ⟨c, -, rfl⟩ := List.mem_map.mp hq
    obtain ⟨d, -, hd⟩ := List.mem_map.mp hq'
    simp only [Prod.mk.injEq] at hd
    exact hab hd.1.symm

theorem zagaPlaces_toFinset (Y X E nb i j : Nat) : (zagaPlaces Y X E nb i j).toFinset = zagaSample Y X E nb i j := by
  ext q
  rw [List.mem_toFinset, mem_zagaPlaces]

theorem zagaSums_eq {o : ZagaOpts K} {Y X E : Nat} {precips : List (FieldC K)} {t i j : Nat} {tot : Nat × Nat × Nat → Fl K}
    (h : ∀ q ∈ zagaSample Y X E o.nb i j, zagaTotal o.window precips t q.1 ((q.2.1 : Int), (q.2.2 : Int)) = ok (tot q)) :
    zagaSums o Y X E precips t i j =
      ok ((zagaPlaces Y X E o.nb i j).foldl (fun s q => zagaAdd o.fracThreshold (tot q) s) ⟨fin 0, fin 0, 0⟩) := by
  have e1 : zagaSums o Y X E precips t i j = foldM (fun s (q : Nat × Nat × Nat) => do
      let total ← zagaTotal o.window precips t q.1 ((q.2.1 : Int), (q.2.2 : Int))
      ok (zagaAdd o.fracThreshold total s)) ⟨fin 0, fin 0, 0⟩ (zagaPlaces Y X E o.nb i j) := by
    unfold zagaSums zagaPlaces
    rw [← foldM_flatMap]
    congr 1
    funext s e
    rw [foldM_map']
    have : ∀ (l : List (Int × Int)) (s : ZagaSums K), (∀ c ∈ l, 0 ≤ c.1 ∧ 0 ≤ c.2) → foldM (fun s c => do
        let total ← zagaTotal o.window precips t e c
        ok (zagaAdd o.fracThreshold total s)) s l = foldM (fun s (c : Int × Int) => do
        let total ← zagaTotal o.window precips t e ((c.1.toNat : Int), (c.2.toNat : Int))
        ok (zagaAdd o.fracThreshold total s)) s l := by
      intro l
      induction l with
      | nil => intros; rfl
      | cons c l ih =>
        intro s hc
        obtain ⟨h1, h2⟩ := hc c (by simp)
        rw [foldM_cons, foldM_cons, Int.toNat_of_nonneg h1, Int.toNat_of_nonneg h2]
        cases zagaTotal o.window precips t e (c.1, c.2) with
        | ok v => exact ih _ fun d hd => hc d (by simp [hd])
        | _ => rfl
    refine this _ s fun c hc => ?_
    rw [mem_stencil] at hc
    omega
  rw [e1]
  refine foldM_ok ?_
  intro s q hq
  rw [h q ((mem_zagaPlaces q).mp hq), ok_bind]

theorem zagaAdd_present (thr : K) (l : List (Nat × Nat × Nat)) {tot : Nat × Nat × Nat → Fl K} {g : Nat × Nat × Nat → K}
    (h : ∀ q ∈ l, tot q = fin (g q) ∧ 0 ≤ g q) {a b : K} {n : Nat} (ha : 0 ≤ a) :
    l.foldl (fun s q => zagaAdd (fin thr) (tot q) s) ⟨fin a, fin b, n⟩ =
      ⟨fin (a + (l.map g).sum), fin (b + (l.countP fun q => decide (g q ≤ thr) : Nat)), n + l.length⟩ := by
  induction l generalizing a b n with
  | nil => simp
  | cons q t ih =>
    obtain ⟨h1, h2⟩ := h q (by simp)
    have hstep : zagaAdd (fin thr) (tot q) ⟨fin a, fin b, n⟩ = ⟨fin (a + g q), fin (b + if g q ≤ thr then 1 else 0), n + 1⟩ := by
      unfold zagaAdd
      rw [h1, valid_nonneg h2]
      simp only
      rw [valid_nonneg ha]
      by_cases hc : g q ≤ thr
      · simp [hc, le_fin, one_def]
      · simp [hc, le_fin, zero_def]
    rw [List.foldl_cons, hstep, ih (fun r hr => h r (by simp [hr])) (by linarith), List.map_cons, List.sum_cons, List.countP_cons, List.length_cons]
    congr 1
    · rw [add_assoc]
    · by_cases hc : g q ≤ thr
      · simp [hc]; ring
      · simp [hc]
    · omega

theorem zagaAdd_MV (thr : Fl K) (l : List (Nat × Nat × Nat)) (tot : Nat × Nat × Nat → Fl K) (s : ZagaSums K) (hs : s.mean = MV) :
    (l.foldl (fun s q => zagaAdd thr (tot q) s) s).mean = MV := by
  induction l generalizing s with
  | nil => exact hs
  | cons q t ih =>
    rw [List.foldl_cons]
    apply ih
    unfold zagaAdd
    rw [hs, isValid_false_iff.mpr not_present_MV]
    simp

theorem zagaAdd_missing (thr : Fl K) (l : List (Nat × Nat × Nat)) {tot : Nat × Nat × Nat → Fl K} (h : ∃ q ∈ l, ¬ Present (tot q)) (s : ZagaSums K) :
    (l.foldl (fun s q => zagaAdd thr (tot q) s) s).mean = MV := by
  induction l generalizing s with
  | nil => obtain ⟨q, hq, -⟩ := h; cases hq
  | cons q t ih =>
    rw [List.foldl_cons]
    by_cases hq : Present (tot q)
    · apply ih
      obtain ⟨r, hr, hn⟩ := h
      rcases List.mem_cons.mp hr with rfl | hr
      · exact absurd hq hn
      · exact ⟨r, hr, hn⟩
    · apply zagaAdd_MV
      unfold zagaAdd
      rw [isValid_false_iff.mpr hq]
      simp

theorem zagaSums_present {o : ZagaOpts K} {Y X E : Nat} {precips : List (FieldC K)} {t i j : Nat} {thr : K} (hthr : o.fracThreshold = fin thr)
    {g : Nat × Nat × Nat → K} (h : ∀ q ∈ zagaSample Y X E o.nb i j,
      zagaTotal o.window precips t q.1 ((q.2.1 : Int), (q.2.2 : Int)) = ok (fin (g q)) ∧ 0 ≤ g q) :
    zagaSums o Y X E precips t i j = ok ⟨fin (∑ q ∈ zagaSample Y X E o.nb i j, g q),
      fin (((zagaSample Y X E o.nb i j).filter fun q => g q ≤ thr).card : K), (zagaSample Y X E o.nb i j).card⟩ := by
  rw [zagaSums_eq (tot := fun q => fin (g q)) fun q hq => (h q hq).1, hthr,
    zagaAdd_present thr _ (g := g) (fun q hq => ⟨rfl, (h q ((mem_zagaPlaces q).mp hq)).2⟩) (le_refl _)]
  have hnd := zagaPlaces_nodup Y X E o.nb i j
  rw [← zagaPlaces_toFinset, List.sum_toFinset g hnd, List.toFinset_card_of_nodup hnd, zero_add, zero_add, Nat.zero_add]
  congr 4
  rw [List.countP_eq_length_filter, ← List.toFinset_card_of_nodup (hnd.filter _)]
  congr 1
  ext q
  simp

theorem zagaSums_missing {o : ZagaOpts K} {Y X E : Nat} {precips : List (FieldC K)} {t i j : Nat} {tot : Nat × Nat × Nat → Fl K}
    (h : ∀ q ∈ zagaSample Y X E o.nb i j, zagaTotal o.window precips t q.1 ((q.2.1 : Int), (q.2.2 : Int)) = ok (tot q))
    (hm : ∃ q ∈ zagaSample Y X E o.nb i j, ¬ Present (tot q)) : ∃ s, zagaSums o Y X E precips t i j = ok s ∧ s.mean = MV := by
  refine ⟨_, zagaSums_eq h, zagaAdd_missing _ _ ?_ _⟩
  obtain ⟨q, hq, hn⟩ := hm
  exact ⟨q, (mem_zagaPlaces q).mpr hq, hn⟩

theorem zagaSample_nonempty {Y X E nb y x : Nat} (hy : y < Y) (hx : x < X) (hE : 0 < E) : 0 < (zagaSample Y X E nb y x).card := by
  refine Finset.card_pos.mpr ⟨(0, y, x), ?_⟩
  unfold zagaSample
  simp only [Finset.mem_filter, Finset.mem_product, Finset.mem_range]
  omega

theorem sampleFraction_range {ι : Type} (S : Finset ι) (g : ι → K) (thr : K) : 0 ≤ sampleFraction S g thr ∧ sampleFraction S g thr ≤ 1 := by
  unfold sampleFraction
  have h1 : ((S.filter fun q => g q ≤ thr).card : K) ≤ (S.card : K) := by exact_mod_cast Finset.card_filter_le _ _
  have h2 : (0 : K) ≤ ((S.filter fun q => g q ≤ thr).card : K) := Nat.cast_nonneg _
  refine ⟨div_nonneg h2 (Nat.cast_nonneg _), ?_⟩
  rcases Nat.eq_zero_or_pos S.card with h | h
  · rw [h]; simp
  · rw [div_le_one (by exact_mod_cast h)]
    exact h1

theorem sampleMean_nonneg {ι : Type} (S : Finset ι) {g : ι → K} (hg : ∀ q ∈ S, 0 ≤ g q) {top : K} (ht : 0 ≤ top) : 0 ≤ sampleMean S g top :=
  le_min (div_nonneg (Finset.sum_nonneg hg) (Nat.cast_nonneg _)) ht

/-- The predictors that come out of the sums. -/
theorem zagaMean_eq {top : K} (ht : 0 < top) {ι : Type} (S : Finset ι) {g : ι → K} (hS : 0 < S.card) (b : Fl K) :
    zagaMean (fin top) ⟨fin (∑ q ∈ S, g q), b, S.card⟩ = fin (sampleMean S g top) := by
  have hS' : ((S.card : Nat) : K) ≠ 0 := by exact_mod_cast hS.ne'
  unfold zagaMean sampleMean
  simp only
  rw [ofNat_def, fin_div_of_ne _ hS', valid_nonneg ht.le, gt_fin]
  by_cases h : top < (∑ q ∈ S, g q) / (S.card : K)
  · rw [min_eq_right h.le]; simp [h]
  · rw [min_eq_left (not_lt.mp h)]; simp [h]

end Gridpp.Client
