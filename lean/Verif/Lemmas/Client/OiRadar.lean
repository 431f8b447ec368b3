import Verif.Lemmas.Client.OiEnsemble

/-! Lemmas about the covariances of the errors of observations by radar in the calibrator `oi`. -/

set_option linter.unusedSectionVars false

namespace Gridpp.Client
open Fl hiding MV isValid
open Res Client Matrix

variable {K : Type} [Field K] [LinearOrder K] [IsStrictOrderedRing K]

/-- A symmetric positive definite matrix has an inverse of the same kind. -/
theorem Precision.of_pos {m : Nat} {C : Matrix (Fin m) (Fin m) K} (hs : Cᵀ = C) (hp : ∀ v, v ≠ 0 → 0 < v ⬝ᵥ (C *ᵥ v)) : C.det ≠ 0 ∧ Precision C⁻¹ C := by
  have hd : C.det ≠ 0 := by
    intro h0
    obtain ⟨v, hv, hv2⟩ := Matrix.exists_mulVec_eq_zero_iff.mpr h0
    have := hp v hv
    rw [hv2, dotProduct_zero] at this
    exact lt_irrefl _ this
  have hu : IsUnit C.det := isUnit_iff_ne_zero.mpr hd
  have hform : ∀ v, v ⬝ᵥ (C⁻¹ *ᵥ v) = (C⁻¹ *ᵥ v) ⬝ᵥ (C *ᵥ (C⁻¹ *ᵥ v)) := fun v => by
    rw [mulVec_mulVec, Matrix.mul_nonsing_inv _ hu, one_mulVec, dotProduct_comm]
  refine ⟨hd, by rw [transpose_nonsing_inv, hs], fun v => ?_, fun v hv => ?_, Matrix.nonsing_inv_mul _ hu⟩
  · rw [hform]
    by_cases h0 : C⁻¹ *ᵥ v = 0
    · rw [h0]; simp
    · exact (hp _ h0).le
  · rw [hform] at hv
    by_contra h0
    have h1 : C⁻¹ *ᵥ v ≠ 0 := fun hh => h0 (by
      have := congrArg (fun t => C *ᵥ t) hh
      simpa only [mulVec_mulVec, Matrix.mul_nonsing_inv _ hu, one_mulVec, mulVec_zero] using this)
    exact (hp _ h1).ne' hv

section
variable {m r : Nat} {pos : Fin m → Option (Fin r)} {at' : Fin r → Fin m}

/-- A matrix that is scaled from `N` on some of the indices, and diagonal elsewhere. -/
def blockMat (pos : Fin m → Option (Fin r)) (N : Matrix (Fin r) (Fin r) K) (s q : Fin m → K) : Matrix (Fin m) (Fin m) K :=
  Matrix.of fun i j =>
    match pos i, pos j with
    | some a, some b => s i * s j * N a b
    | _, _ => if i = j then q i else 0

theorem blockMat_none {N : Matrix (Fin r) (Fin r) K} {s q : Fin m → K} {i : Fin m} (h : pos i = none) (j : Fin m) :
    blockMat pos N s q i j = if i = j then q i else 0 := by
  simp [blockMat, h]

theorem blockMat_none' {N : Matrix (Fin r) (Fin r) K} {s q : Fin m → K} {j : Fin m} (h : pos j = none) (i : Fin m) :
    blockMat pos N s q i j = if i = j then q i else 0 := by
  simp only [blockMat, Matrix.of_apply, h]
  cases pos i <;> rfl

theorem blockMat_some {N : Matrix (Fin r) (Fin r) K} {s q : Fin m → K} {i j : Fin m} {a b : Fin r} (h : pos i = some a) (h' : pos j = some b) :
    blockMat pos N s q i j = s i * s j * N a b := by
  simp [blockMat, h, h']

theorem sum_block (h1 : ∀ a, pos (at' a) = some a) (h2 : ∀ i a, pos i = some a → i = at' a) (f : Fin m → K) :
    ∑ i, f i = ∑ i with pos i = none, f i + ∑ a, f (at' a) := by
  rw [← Finset.sum_filter_add_sum_filter_not Finset.univ (fun i => pos i = none)]
  congr 1
  symm
  refine Finset.sum_nbij at' (fun a _ => by simp [h1]) (fun a _ b _ hab => ?_) (fun i hi => ?_) (fun _ _ => rfl)
  · have := h1 a
    rw [hab, h1] at this
    exact (Option.some.inj this).symm
  · simp only [Finset.coe_filter, Finset.mem_univ, true_and, Set.mem_ofPred_eq] at hi
    obtain ⟨a, ha⟩ := Option.ne_none_iff_exists'.mp hi
    exact ⟨a, by simp, (h2 i a ha).symm⟩

theorem blockMat_form (h1 : ∀ a, pos (at' a) = some a) (h2 : ∀ i a, pos i = some a → i = at' a) (N : Matrix (Fin r) (Fin r) K) (s q v : Fin m → K) :
    v ⬝ᵥ (blockMat pos N s q *ᵥ v) = ∑ i with pos i = none, q i * (v i * v i) +
      (fun a => s (at' a) * v (at' a)) ⬝ᵥ (N *ᵥ fun a => s (at' a) * v (at' a)) := by
  show ∑ i, v i * (∑ j, blockMat pos N s q i j * v j) = _ + ∑ a, (s (at' a) * v (at' a)) * (∑ b, N a b * (s (at' b) * v (at' b)))
  rw [sum_block h1 h2]
  congr 1
  · refine Finset.sum_congr rfl fun i hi => ?_
    have hi' : pos i = none := by simpa using hi
    rw [Finset.sum_eq_single i (fun j _ hj => by rw [blockMat_none hi', if_neg (Ne.symm hj), zero_mul]) (by simp), blockMat_none hi', if_pos rfl]
    ring
  · refine Finset.sum_congr rfl fun a _ => ?_
    rw [sum_block h1 h2, Finset.sum_eq_zero (s := Finset.univ.filter fun i => pos i = none) (fun j hj => by
      have hj' : pos j = none := by simpa using hj
      rw [blockMat_none' hj', if_neg (fun hh => by rw [← hh, h1] at hj'; cases hj'), zero_mul]), zero_add, Finset.mul_sum, Finset.mul_sum]
    refine Finset.sum_congr rfl fun b _ => ?_
    rw [blockMat_some (h1 a) (h1 b)]
    ring

/-- Scaled blocks are inverses of each other. -/
theorem Precision.block (h1 : ∀ a, pos (at' a) = some a) (h2 : ∀ i a, pos i = some a → i = at' a) {N C : Matrix (Fin r) (Fin r) K} (hN : Precision N C)
    {s q : Fin m → K} (hs : ∀ i, s i ≠ 0) (hq : ∀ i, 0 < q i) :
    Precision (blockMat pos N s q) (blockMat pos C (fun i => (s i)⁻¹) fun i => (q i)⁻¹) := by
  have hnn : ∀ v : Fin m → K, 0 ≤ ∑ i with pos i = none, q i * (v i * v i) := fun v =>
    Finset.sum_nonneg fun i _ => mul_nonneg (hq i).le (mul_self_nonneg _)
  refine ⟨?_, fun v => ?_, fun v hv => ?_, ?_⟩
  · ext i j
    rw [transpose_apply]
    rcases hi : pos i with _ | a
    · rw [blockMat_none hi, blockMat_none' hi]
      by_cases hij : i = j
      · subst hij; rfl
      · rw [if_neg hij, if_neg (Ne.symm hij)]
    · rcases hj : pos j with _ | b
      · rw [blockMat_none hj, blockMat_none' hj]
        by_cases hij : i = j
        · subst hij; rfl
        · rw [if_neg hij, if_neg (Ne.symm hij)]
      · rw [blockMat_some hi hj, blockMat_some hj hi, show N b a = N a b from congrFun (congrFun hN.symm a) b]
        ring
  · rw [blockMat_form h1 h2]
    exact add_nonneg (hnn v) (hN.nonneg _)
  · rw [blockMat_form h1 h2] at hv
    have e1 := hnn v
    have e2 := hN.nonneg fun a => s (at' a) * v (at' a)
    have e3 := hN.definite _ (le_antisymm (by linarith) e2)
    have e4 : ∑ i with pos i = none, q i * (v i * v i) = 0 := le_antisymm (by linarith) e1
    funext i
    rcases hi : pos i with _ | a
    · have := (Finset.sum_eq_zero_iff_of_nonneg fun i _ => mul_nonneg (hq i).le (mul_self_nonneg (v i))).mp e4 i (by simpa using hi)
      exact mul_self_eq_zero.mp ((mul_eq_zero.mp this).resolve_left (hq i).ne')
    · rw [h2 i a hi]
      exact (mul_eq_zero.mp (congrFun e3 a)).resolve_left (hs _)
  · ext i k
    rw [Matrix.mul_apply, Matrix.one_apply]
    rcases hi : pos i with _ | a
    · rw [Finset.sum_eq_single i (fun j _ hj => by rw [blockMat_none hi, if_neg (Ne.symm hj), zero_mul]) (by simp), blockMat_none hi, if_pos rfl, blockMat_none hi]
      by_cases hik : i = k
      · rw [if_pos hik, if_pos hik, mul_inv_cancel₀ (hq i).ne']
      · rw [if_neg hik, if_neg hik, mul_zero]
    · rw [sum_block h1 h2, Finset.sum_eq_zero (s := Finset.univ.filter fun i => pos i = none) (fun j hj => by
        have hj' : pos j = none := by simpa using hj
        rw [blockMat_none' hj', if_neg (fun hh => by rw [hh, hj'] at hi; cases hi), zero_mul]), zero_add]
      rcases hk : pos k with _ | c
      · rw [if_neg (fun hh => by rw [hh, hk] at hi; cases hi)]
        refine Finset.sum_eq_zero fun b _ => ?_
        rw [blockMat_none' hk, if_neg (fun hh => by rw [← hh, h1] at hk; cases hk), mul_zero]
      · have e : ∀ b, blockMat pos N s q i (at' b) * blockMat pos C (fun i => (s i)⁻¹) (fun i => (q i)⁻¹) (at' b) k = s i * (s k)⁻¹ * (N a b * C b c) := fun b => by
          rw [blockMat_some hi (h1 b), blockMat_some (h1 b) hk]
          have := hs (at' b)
          field_simp
        rw [Finset.sum_congr rfl fun b _ => e b, ← Finset.mul_sum, ← Matrix.mul_apply, hN.inv, Matrix.one_apply]
        by_cases hik : i = k
        · subst hik
          rw [hi] at hk
          rw [if_pos (Option.some.inj hk), if_pos rfl, mul_one, mul_inv_cancel₀ (hs i)]
        · rw [if_neg hik, if_neg (fun hac => hik (by rw [h2 i a hi, h2 k c hk, hac])), mul_zero]

end

/-! ### The radar stations among those used -/

section
variable [LawfulSqrt K] [HasExp K]

/-- The positions of the radar stations. -/
def oiRadarAt (sel : List Nat) (radar : Nat → Bool) : List Nat := (List.range sel.length).filter fun i => radar (sel.getD i 0)

theorem oiRadarIndices_eq (rho : Nat → K) (members sel : List Nat) (st : Nat → OiStation K) (h : Nat → K) (Y : Nat → Nat → K) {radar : Nat → Bool}
    (hr : ∀ i ∈ sel, (st i).radar.gt 0 = radar i) : oiRadarIndices (oiRowsOf rho members sel st h Y) = oiRadarAt sel radar := by
  unfold oiRadarIndices oiRadarAt
  rw [oiRowsOf_length]
  refine List.filter_congr fun i hi => ?_
  have hi' : i < sel.length := by simpa using hi
  have e : (oiRowsOf rho members sel st h Y)[i]? = some ⟨fin (rho (sel.get ⟨i, hi'⟩)), st (sel.get ⟨i, hi'⟩), List.ofFn fun k : Fin members.length => fin (Y (sel.get ⟨i, hi'⟩) (members.get k)),
    fin (h (sel.get ⟨i, hi'⟩))⟩ := by
    unfold oiRowsOf
    rw [List.getElem?_ofFn, dif_pos hi']
  rw [e]
  simp only
  rw [hr _ (List.get_mem _ _)]
  simp [List.getD, hi']

theorem oiRadarAt_lt {sel : List Nat} {radar : Nat → Bool} {i : Nat} (h : i ∈ oiRadarAt sel radar) : i < sel.length := by
  simpa using (List.mem_filter.mp h).1

theorem oiRadarAt_nodup (sel : List Nat) (radar : Nat → Bool) : (oiRadarAt sel radar).Nodup := List.nodup_range.filter _

/-- The number of a radar station among the radar stations. -/
def oiRadarPos (sel : List Nat) (radar : Nat → Bool) (i : Fin sel.length) : Option (Fin (oiRadarAt sel radar).length) :=
  if h : (i : Nat) ∈ oiRadarAt sel radar then some ⟨(oiRadarAt sel radar).idxOf (i : Nat), List.idxOf_lt_length_of_mem h⟩ else none

def oiRadarFin (sel : List Nat) (radar : Nat → Bool) (a : Fin (oiRadarAt sel radar).length) : Fin sel.length :=
  ⟨(oiRadarAt sel radar).get a, oiRadarAt_lt (List.get_mem _ _)⟩

theorem oiRadarPos_fin (sel : List Nat) (radar : Nat → Bool) (a : Fin (oiRadarAt sel radar).length) : oiRadarPos sel radar (oiRadarFin sel radar a) = some a := by
  unfold oiRadarPos oiRadarFin
  rw [dif_pos (List.get_mem _ _)]
  congr 1
  apply Fin.ext
  simp only [List.get_eq_getElem]
  exact (oiRadarAt_nodup sel radar).idxOf_getElem a.1 a.2

theorem oiRadarFin_of_pos {sel : List Nat} {radar : Nat → Bool} (i : Fin sel.length) (a : Fin (oiRadarAt sel radar).length)
    (h : oiRadarPos sel radar i = some a) : i = oiRadarFin sel radar a := by
  unfold oiRadarPos at h
  by_cases hm : (i : Nat) ∈ oiRadarAt sel radar
  · rw [dif_pos hm] at h
    have := Option.some.inj h
    subst this
    apply Fin.ext
    unfold oiRadarFin
    simp
  · rw [dif_neg hm] at h
    cases h

theorem oiRadarPos_none {sel : List Nat} {radar : Nat → Bool} (i : Fin sel.length) : oiRadarPos sel radar i = none ↔ radar (sel.get i) = false := by
  unfold oiRadarPos oiRadarAt
  by_cases hm : (i : Nat) ∈ (List.range sel.length).filter fun i => radar (sel.getD i 0)
  · rw [dif_pos hm]
    have := (List.mem_filter.mp hm).2
    simp [List.getD] at this
    simp [this]
  · rw [dif_neg hm]
    simp [List.getD] at hm
    simp [hm]

theorem idxOf?_radar {sel : List Nat} {radar : Nat → Bool} (i : Fin sel.length) :
    (oiRadarAt sel radar).idxOf? (i : Nat) = (oiRadarPos sel radar i).map Fin.val := by
  unfold oiRadarPos
  by_cases hm : (i : Nat) ∈ oiRadarAt sel radar
  · rw [dif_pos hm]
    simp only [Option.map_some]
    have h1 := List.idxOf_eq_getD_idxOf? (i : Nat) (oiRadarAt sel radar)
    rcases h2 : (oiRadarAt sel radar).idxOf? (i : Nat) with _ | n
    · exact absurd hm (List.idxOf?_eq_none_iff.mp h2)
    · rw [h1, h2]; rfl
  · rw [dif_neg hm]
    exact List.idxOf?_eq_none_iff.mpr hm

theorem sqrt_mul' {a b : K} (ha : 0 ≤ a) (hb : 0 ≤ b) : HasSqrt.sqrt (a * b) = HasSqrt.sqrt a * HasSqrt.sqrt b := by
  have h1 := LawfulSqrt.sqrt_mul_self (a * b) (mul_nonneg ha hb)
  have h2 := LawfulSqrt.sqrt_nonneg (a * b) (mul_nonneg ha hb)
  have h3 := LawfulSqrt.sqrt_mul_self a ha
  have h4 := LawfulSqrt.sqrt_mul_self b hb
  have h5 := mul_nonneg (LawfulSqrt.sqrt_nonneg a ha) (LawfulSqrt.sqrt_nonneg b hb)
  exact (mul_self_inj h2 h5).mp (by rw [h1]; calc a * b = (HasSqrt.sqrt a * HasSqrt.sqrt a) * (HasSqrt.sqrt b * HasSqrt.sqrt b) := by rw [h3, h4]
    _ = _ := by ring)

/-- `Rinv` with three parameters. -/
theorem oiRinvAll_three {A : ArmaE K} (hA : A.Lawful) {o : OiOptions K} {sg sc : K} (hsg : o.sigma = fin sg) (h0 : sg ≠ 0) (hsc : o.sigmaC = fin sc) (h0c : sc ≠ 0)
    (dist : Fl K → Fl K → Fl K → Fl K → Res (Fl K)) {members sel : List Nat} {st : Nat → OiStation K} {ci : Nat → K} (hci : ∀ i ∈ sel, (st i).ci = fin (ci i) ∧ 0 < ci i)
    (h : Nat → K) (Y : Nat → Nat → K) (G : Nat → K) (hG : ∀ i ∈ sel, 0 < G i) {radar : Nat → Bool} (hr : ∀ i ∈ sel, (st i).radar.gt 0 = radar i) (hany : ∃ i ∈ sel, radar i = true)
    {C : Matrix (Fin (oiRadarAt sel radar).length) (Fin (oiRadarAt sel radar).length) K}
    (hC : oiRadarR o dist (oiRowsOf G members sel st h Y) = ok (toRows C)) (hdet : C.det ≠ 0) :
    oiRinvAll A o dist 3 (oiRowsOf G members sel st h Y) = ok (some (toRows (blockMat (oiRadarPos sel radar) C⁻¹ (fun a => HasSqrt.sqrt (G (sel.get a)) / sc)
      fun a => G (sel.get a) / (sg * sg * ci (sel.get a))))) := by
  have hr0 : 0 < (oiRadarAt sel radar).length := by
    obtain ⟨i, hi, hri⟩ := hany
    obtain ⟨a, rfl⟩ := List.mem_iff_get.mp hi
    refine List.length_pos_of_mem (a := (a : Nat)) (List.mem_filter.mpr ⟨by simp, ?_⟩)
    simpa [List.getD] using hri
  have hrc : ¬ (A.rcond (toRows C)).le 0 = true := by
    have := hA.rcond_pos _ _ hr0 hdet
    revert this
    cases A.rcond (toRows C) with
    | fin _ => simp [zero_def]
    | _ => simp [Fl.gt, Fl.le, Fl.lt, Fl.feq]
  have e : oiRinv o (oiRowsOf G members sel st h Y) = List.ofFn fun a : Fin sel.length => fin (G (sel.get a) / (sg * sg * ci (sel.get a))) := by
    unfold oiRinv oiRowsOf
    rw [List.map_ofFn]
    congr 1
    funext a
    obtain ⟨h1, h2⟩ := hci _ (List.get_mem sel a)
    show fin (G (sel.get a)) / (o.sigma * o.sigma * (st (sel.get a)).ci) = _
    rw [hsg, h1, fin_mul, fin_mul, fin_div_of_ne _ (mul_ne_zero (mul_ne_zero h0 h0) h2.ne')]
  unfold oiRinvAll
  rw [if_neg (by decide), if_pos rfl, hC, ok_bind, if_neg hrc, hA.arma.inv_ok _ _ hdet, ok_bind]
  congr 2
  unfold oiRinvRadar
  simp only [oiRowsOf_length, oiRowsOf_rho, e, oiRadarIndices_eq G members sel st h Y hr]
  refine tab_toRows fun i j => ?_
  rw [idxOf?_radar, idxOf?_radar, getD_ofFn, getD_ofFn, getD_ofFn]
  rcases hi : oiRadarPos sel radar i with _ | a
  · rw [blockMat_none hi]
    simp only [Option.map_none]
    by_cases hij : i = j
    · rw [if_pos (by rw [hij]), if_pos hij]
    · rw [if_neg (fun c => hij (Fin.ext c)), if_neg hij, zero_def]
  · rcases hj : oiRadarPos sel radar j with _ | b
    · rw [blockMat_none' hj]
      simp only [Option.map_none, Option.map_some]
      by_cases hij : i = j
      · rw [if_pos (by rw [hij]), if_pos hij]
      · rw [if_neg (fun c => hij (Fin.ext c)), if_neg hij, zero_def]
    · rw [blockMat_some hi hj]
      simp only [Option.map_some]
      have hgi := hG _ (List.get_mem sel i)
      have hgj := hG _ (List.get_mem sel j)
      rw [ent_toRows, fin_mul (G (sel.get i)), hsc, fin_mul sc, show Fl.sqrt (fin (G (sel.get i) * G (sel.get j))) = fin (HasSqrt.sqrt (G (sel.get i)) * HasSqrt.sqrt (G (sel.get j))) by
        rw [← sqrt_mul' hgi.le hgj.le, Fl.sqrt, if_neg (not_lt.mpr (mul_pos hgi hgj).le)], fin_div_of_ne _ (mul_ne_zero h0c h0c), fin_mul]
      congr 1
      field_simp

/-- The correlations between radar stations. -/
def oiRadarC (L : K) (D : Nat → Nat → K) (sel : List Nat) (radar : Nat → Bool) (a b : Fin (oiRadarAt sel radar).length) : K :=
  if a = b then 1 else (1 + D (sel.get (oiRadarFin sel radar a)) (sel.get (oiRadarFin sel radar b)) / L) *
    HasExp.exp (-(D (sel.get (oiRadarFin sel radar a)) (sel.get (oiRadarFin sel radar b)) / L))

theorem oiRadarR_eq {o : OiOptions K} {L : K} (hL : o.hLengthC = fin L) (h0 : L ≠ 0) {dist : Fl K → Fl K → Fl K → Fl K → Res (Fl K)} {members sel : List Nat}
    {st : Nat → OiStation K} (h : Nat → K) (Y : Nat → Nat → K) (G : Nat → K) {radar : Nat → Bool} (hr : ∀ i ∈ sel, (st i).radar.gt 0 = radar i)
    {D : Nat → Nat → K} (hD : ∀ i ∈ sel, ∀ j ∈ sel, radar i = true → radar j = true → dist (st i).lat (st i).lon (st j).lat (st j).lon = ok (fin (D i j))) :
    oiRadarR o dist (oiRowsOf G members sel st h Y) = ok (toRows (Matrix.of (oiRadarC L D sel radar))) := by
  have hrad : ∀ a : Fin (oiRadarAt sel radar).length, radar (sel.get (oiRadarFin sel radar a)) = true := fun a => by
    by_contra hh
    have := (oiRadarPos_none (oiRadarFin sel radar a)).mpr (by simpa using hh)
    rw [oiRadarPos_fin] at this
    cases this
  have hget : ∀ a : Fin (oiRadarAt sel radar).length, vget (oiRadarAt sel radar) ((a : Nat) : Int) = ok ((oiRadarFin sel radar a : Fin sel.length) : Nat) := fun a =>
    vget_some (by rw [List.getElem?_eq_getElem a.2]; rfl)
  have hrow : ∀ i : Fin sel.length, ∃ row, vget (oiRowsOf G members sel st h Y) ((i : Nat) : Int) = ok row ∧ row.station = st (sel.get i) := fun i => by
    refine ⟨_, vget_some (a := ⟨fin (G (sel.get i)), st (sel.get i), List.ofFn fun k : Fin members.length => fin (Y (sel.get i) (members.get k)), fin (h (sel.get i))⟩) ?_, rfl⟩
    unfold oiRowsOf
    rw [List.getElem?_ofFn, dif_pos i.2]
  unfold oiRadarR
  simp only [oiRadarIndices_eq G members sel st h Y hr]
  rw [grid2_ok (g := fun y x => if hy : y < (oiRadarAt sel radar).length then if hx : x < (oiRadarAt sel radar).length then fin (oiRadarC L D sel radar ⟨y, hy⟩ ⟨x, hx⟩) else 0 else 0) (fun y hy x hx => by
    rw [dif_pos hy, dif_pos hx]
    unfold oiRadarC
    by_cases hyx : y = x
    · rw [if_pos (by exact_mod_cast hyx)]
      simp [hyx, one_def]
    · rw [if_neg (by exact_mod_cast hyx)]
      obtain ⟨r1, e1, f1⟩ := hrow (oiRadarFin sel radar ⟨y, hy⟩)
      obtain ⟨r2, e2, f2⟩ := hrow (oiRadarFin sel radar ⟨x, hx⟩)
      have g1 := hget ⟨y, hy⟩
      have g2 := hget ⟨x, hx⟩
      simp only at g1 g2
      rw [g1, ok_bind, g2, ok_bind, e1, ok_bind, e2, ok_bind, f1, f2, hD _ (List.get_mem _ _) _ (List.get_mem _ _) (hrad _) (hrad _), ok_bind, hL, fin_div_of_ne _ h0,
        one_def, fin_add]
      simp only [Fin.mk.injEq, hyx, if_false]
      rfl)]
  congr 1
  unfold tabulate toRows
  apply List.ext_getElem
  · simp
  · intro a ha hb
    have ha' : a < (oiRadarAt sel radar).length := by simpa using ha
    simp only [List.getElem_map, List.getElem_range, List.getElem_ofFn]
    apply List.ext_getElem
    · simp
    · intro b hb' hc
      have hb'' : b < (oiRadarAt sel radar).length := by simpa using hb'
      simp only [List.getElem_map, List.getElem_range, List.getElem_ofFn]
      rw [dif_pos ha', dif_pos hb'']
      rfl

end

end Gridpp.Client
