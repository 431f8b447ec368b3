import Verif.Model.Client.Gaussian
import Verif.Spec.Gaussian
import Verif.Spec.Zaga
import Verif.Lemmas.Client.ZagaCore

/-! # The calibrator gaussian: lemmas -/

set_option linter.unusedSectionVars false

namespace Gridpp.Client
open Fl hiding MV isValid
open Res Spec

variable {K : Type} [Field K] [LinearOrder K] [IsStrictOrderedRing K]

theorem gaussSums_eq {nb Y X E : Nat} {f : FieldC K} {i j : Nat} {val : Nat × Nat × Nat → Fl K}
    (h : ∀ q ∈ zagaSample Y X E nb i j, f.getInt (q.2.1 : Int) (q.2.2 : Int) q.1 = ok (val q)) :
    gaussSums nb Y X E f i j = ok ((zagaPlaces Y X E nb i j).foldl (fun s q => gaussAdd (val q) s) ⟨fin 0, fin 0, 0⟩) := by
  have e1 : gaussSums nb Y X E f i j = foldM (fun s (q : Nat × Nat × Nat) => do
      let value ← f.getInt (q.2.1 : Int) (q.2.2 : Int) q.1
      ok (gaussAdd value s)) ⟨fin 0, fin 0, 0⟩ (zagaPlaces Y X E nb i j) := by
    unfold gaussSums zagaPlaces
    rw [← foldM_flatMap]
    congr 1
    funext s e
    rw [foldM_map']
    have : ∀ (l : List (Int × Int)) (s : GaussSums K), (∀ c ∈ l, 0 ≤ c.1 ∧ 0 ≤ c.2) → foldM (fun s c => do
        let value ← f.getInt c.1 c.2 e
        ok (gaussAdd value s)) s l = foldM (fun s (c : Int × Int) => do
        let value ← f.getInt (c.1.toNat : Int) (c.2.toNat : Int) e
        ok (gaussAdd value s)) s l := by
      intro l
      induction l with
      | nil => intros; rfl
      | cons c l ih =>
        intro s hc
        obtain ⟨h1, h2⟩ := hc c (by simp)
        rw [foldM_cons, foldM_cons, Int.toNat_of_nonneg h1, Int.toNat_of_nonneg h2]
        cases f.getInt c.1 c.2 e with
        | ok v => exact ih _ fun d hd => hc d (by simp [hd])
        | _ => rfl
    refine this _ s fun c hc => ?_
    rw [mem_stencil] at hc
    omega
  rw [e1]
  refine foldM_ok ?_
  intro s q hq
  rw [h q ((mem_zagaPlaces q).mp hq), ok_bind]

theorem gaussAdd_foldl (l : List (Nat × Nat × Nat)) {val : Nat × Nat × Nat → Fl K} {g : Nat × Nat × Nat → K}
    (h : ∀ q ∈ l, Present (val q) → val q = fin (g q)) {a b : K} {n : Nat} :
    l.foldl (fun s q => gaussAdd (val q) s) ⟨fin a, fin b, n⟩ =
      ⟨fin (a + ((l.filter fun q => isValid (val q)).map g).sum), fin (b + ((l.filter fun q => isValid (val q)).map fun q => g q * g q).sum),
        n + (l.filter fun q => isValid (val q)).length⟩ := by
  induction l generalizing a b n with
  | nil => simp
  | cons q t ih =>
    have ih := fun a b n => ih (fun q hq => h q (by simp [hq])) (a := a) (b := b) (n := n)
    rw [List.foldl_cons]
    by_cases hq : Present (val q)
    · have hv := isValid_iff_present.mpr hq
      have e := h q (by simp) hq
      have : gaussAdd (val q) ⟨fin a, fin b, n⟩ = ⟨fin (a + g q), fin (b + g q * g q), n + 1⟩ := by
        unfold gaussAdd
        rw [hv, e]
        simp
      rw [this, ih, List.filter_cons_of_pos (p := fun q => isValid (val q)) hv, List.map_cons, List.map_cons, List.sum_cons, List.sum_cons, List.length_cons]
      rw [add_assoc, add_assoc, Nat.add_assoc, Nat.add_comm 1]
    · have hv := isValid_false_iff.mpr hq
      have : gaussAdd (val q) (⟨fin a, fin b, n⟩ : GaussSums K) = ⟨fin a, fin b, n⟩ := by
        unfold gaussAdd
        rw [hv]
        simp
      rw [this, ih, List.filter_cons_of_neg (p := fun q => isValid (val q)) (by simp [hv])]

/-- The sums over the values that are there. -/
theorem gaussSums_present {nb Y X E : Nat} {f : FieldC K} {i j : Nat} {val : Nat × Nat × Nat → Fl K}
    (h : ∀ q ∈ zagaSample Y X E nb i j, f.getInt (q.2.1 : Int) (q.2.2 : Int) q.1 = ok (val q)) {S : Finset (Nat × Nat × Nat)}
    (hS : ∀ q, q ∈ S ↔ q ∈ zagaSample Y X E nb i j ∧ Present (val q)) {g : Nat × Nat × Nat → K} (hg : ∀ q ∈ S, val q = fin (g q)) :
    gaussSums nb Y X E f i j = ok ⟨fin (∑ q ∈ S, g q), fin (∑ q ∈ S, g q * g q), S.card⟩ := by
  have hnd := (zagaPlaces_nodup Y X E nb i j).filter (fun q => isValid (val q))
  have hfs : ((zagaPlaces Y X E nb i j).filter fun q => isValid (val q)).toFinset = S := by
    ext q
    rw [List.mem_toFinset, List.mem_filter, mem_zagaPlaces, hS, isValid_iff_present]
  rw [gaussSums_eq h, gaussAdd_foldl _ (g := g) (fun q hq hp => hg q ((hS q).mpr ⟨(mem_zagaPlaces q).mp hq, hp⟩)), ← hfs,
    List.sum_toFinset g hnd, List.sum_toFinset (fun q => g q * g q) hnd, List.toFinset_card_of_nodup hnd, zero_add, zero_add, Nat.zero_add]

/-- Mean and standard deviation. -/
theorem gauss_predictors [LawfulSqrt K] {ι : Type} (S : Finset ι) (hS : 0 < S.card) (g : ι → K) :
    ∃ m s, MeanAndSpread S g m s ∧ (⟨fin (∑ q ∈ S, g q), fin (∑ q ∈ S, g q * g q), S.card⟩ : GaussSums K).mean = fin m ∧
      (⟨fin (∑ q ∈ S, g q), fin (∑ q ∈ S, g q * g q), S.card⟩ : GaussSums K).spread = fin s := by
  have hn : (0 : K) < (S.card : K) := by exact_mod_cast hS
  set m := (∑ q ∈ S, g q) / (S.card : K) with hm
  have hsum : ∑ q ∈ S, g q = (S.card : K) * m := by rw [hm, mul_div_cancel₀ _ hn.ne']
  have hsq : ∑ q ∈ S, (g q - m) * (g q - m) = (∑ q ∈ S, g q * g q) - (S.card : K) * (m * m) := by
    have : ∀ q ∈ S, (g q - m) * (g q - m) = g q * g q - 2 * m * g q + m * m := fun q _ => by ring
    rw [Finset.sum_congr rfl this, Finset.sum_add_distrib, Finset.sum_sub_distrib, ← Finset.mul_sum, hsum, Finset.sum_const, nsmul_eq_mul]
    ring
  have hv : (∑ q ∈ S, g q * g q) / (S.card : K) - m * m = (∑ q ∈ S, (g q - m) * (g q - m)) / (S.card : K) := by
    rw [hsq, sub_div, mul_div_cancel_left₀ _ hn.ne']
  have hnn : 0 ≤ (∑ q ∈ S, g q * g q) / (S.card : K) - m * m := by
    rw [hv]
    exact div_nonneg (Finset.sum_nonneg fun q _ => mul_self_nonneg _) hn.le
  have e1 : (⟨fin (∑ q ∈ S, g q), fin (∑ q ∈ S, g q * g q), S.card⟩ : GaussSums K).mean = fin m := by
    unfold GaussSums.mean
    rw [ofNat_def, fin_div_of_ne _ hn.ne']
  refine ⟨m, HasSqrt.sqrt ((∑ q ∈ S, g q * g q) / (S.card : K) - m * m), ⟨hsum.symm, LawfulSqrt.sqrt_nonneg _ hnn, ?_⟩, e1, ?_⟩
  · rw [LawfulSqrt.sqrt_mul_self _ hnn, hv, mul_div_cancel₀ _ hn.ne']
  · unfold GaussSums.spread
    rw [e1, ofNat_def, fin_div_of_ne _ hn.ne', fin_mul, fin_sub]
    simp only [Fl.sqrt]
    rw [if_neg (not_lt.mpr hnn)]

/-- There is only one mean and one standard deviation. -/
theorem meanAndSpread_unique {ι : Type} {S : Finset ι} (hS : 0 < S.card) {g : ι → K} {m s m' s' : K} (h : MeanAndSpread S g m s)
    (h' : MeanAndSpread S g m' s') : m = m' ∧ s = s' := by
  have hn : (S.card : K) ≠ 0 := by exact_mod_cast hS.ne'
  have hm : m = m' := mul_left_cancel₀ hn (h.mean.trans h'.mean.symm)
  subst hm
  refine ⟨rfl, ?_⟩
  have : s * s = s' * s' := mul_left_cancel₀ hn (h.spread.trans h'.spread.symm)
  have hf : (s - s') * (s + s') = 0 := by linear_combination this
  rcases mul_eq_zero.mp hf with h1 | h1
  · linarith
  · have := h.nonneg; have := h'.nonneg; linarith

end Gridpp.Client
