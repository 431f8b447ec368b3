import Verif.Model.Client.Kriging
import Verif.Lemmas.Client.Series
import Mathlib.Data.Rat.Floor

/-! # C117: the covariances of kriging -/

set_option linter.unusedSectionVars false

namespace Gridpp.Props
open Fl hiding MV isValid
open Res Client

variable {K : Type} [Field K] [LinearOrder K] [IsStrictOrderedRing K]

/-- The structure functions: that of Cressman falls from 1 at distance 0 to 0 at the distance `a`, that of Barnes to 1/e at `√2 a`. -/
def structureFunction [HasExp K] (barnes : Bool) (a d : K) : K :=
  if barnes then HasExp.exp (-(d * d) / (2 * a * a)) else max 0 ((a * a - d * d) / (a * a + d * d))

/-- The covariance of two places at the distance `h` and with the elevation difference `v`: 0 from the radius `R` and from the greatest
difference `m` on, otherwise the product of two structure functions. -/
def krigCovariance [HasExp K] (barnes : Bool) (L R : K) (M : Option K) (h v : K) : K :=
  match M with
  | none => if R ≤ h then 0 else structureFunction barnes L h
  | some m => if R ≤ h ∨ m ≤ v then 0 else structureFunction barnes L h * structureFunction barnes m v

/-- The options: `L` is the scale, `R` the radius, `M` the greatest elevation difference, if there is one. -/
structure KrigPlain (o : KrigOptions K) (barnes : Bool) (L R : K) (M : Option K) : Prop where
  efold : o.efold = fin L
  radius : o.radius = fin R
  maxElev : o.maxElev = fin (M.getD (-999))
  barnes : o.barnes = barnes
  scale : 0 < L
  difference : ∀ m ∈ M, 0 < m

/-- A place with coordinates and elevation. -/
def KrigPlace (p : KPoint K) (lat lon elev : K) : Prop :=
  p = ⟨fin lat, fin lon, fin elev⟩ ∧ lat ≠ -999 ∧ lon ≠ -999 ∧ elev ≠ -999

theorem KrigPlace.valid {p : KPoint K} {lat lon elev : K} (h : KrigPlace p lat lon elev) : p.valid = true := by
  obtain ⟨rfl, h1, h2, h3⟩ := h
  simp [KPoint.valid, Client.isValid, h1, h2, h3]

theorem cressmanC_fin {a : K} (ha : 0 < a) (d : K) : cressmanC (fin a) (fin d) = fin ((a * a - d * d) / (a * a + d * d)) := by
  unfold cressmanC
  simp only [fin_mul, fin_sub, fin_add]
  rw [fin_div_of_ne]
  have := mul_pos ha ha
  have := mul_self_nonneg d
  linarith

theorem barnesC_fin [HasExp K] {a : K} (ha : 0 < a) (d : K) :
    barnesC (fin a) (fin d) = fin (HasExp.exp (-(d * d) / (2 * a * a))) := by
  unfold barnesC
  simp only [fin_mul, fin_neg]
  rw [fin_div_of_ne]
  · simp only [Fl.exp]
    rw [neg_mul]
  · have := mul_pos ha ha
    rw [mul_assoc]
    linarith

/-- Beyond the scale that of Cressman is 0. -/
theorem structure_far [HasExp K] {a d : K} (ha : 0 < a) (h : a ≤ d) : structureFunction false a d = 0 := by
  unfold structureFunction
  rw [if_neg (by decide), max_eq_left]
  apply div_nonpos_of_nonpos_of_nonneg
  · nlinarith
  · nlinarith [mul_self_nonneg d]

theorem structure_near [HasExp K] {a d : K} (ha : 0 < a) (hd : 0 ≤ d) (h : d ≤ a) :
    structureFunction false a d = (a * a - d * d) / (a * a + d * d) := by
  unfold structureFunction
  rw [if_neg (by decide), max_eq_right]
  apply div_nonneg
  · nlinarith
  · nlinarith [mul_self_nonneg d]

/-- **C117** (value). The covariance of two places is the one specified. -/
theorem c117_value [HasExp K] {o : KrigOptions K} {barnes : Bool} {L R : K} {M : Option K} (ho : KrigPlain o barnes L R M)
    (dist : Fl K → Fl K → Fl K → Fl K → Res (Fl K)) {p q : KPoint K} {pa pb pc qa qb qc h : K} (hp : KrigPlace p pa pb pc)
    (hq : KrigPlace q qa qb qc) (hd : dist (fin pa) (fin pb) (fin qa) (fin qb) = ok (fin h)) (h0 : 0 ≤ h) :
    calcCovar o dist p q = ok (fin (krigCovariance barnes L R M h |pc - qc|)) := by
  unfold calcCovar
  rw [hp.valid, hq.valid]
  obtain ⟨rfl, -⟩ := hp
  obtain ⟨rfl, -⟩ := hq
  simp only [Bool.and_self, if_true, hd, ok_bind, ho.radius, ho.maxElev, ho.barnes, ho.efold]
  have hv : (fin pc - fin qc : Fl K).abs = fin |pc - qc| := by
    rw [fin_sub]
    rfl
  rw [hv]
  set v := |pc - qc| with hvdef
  have hv0 : 0 ≤ v := abs_nonneg _
  have hL := ho.scale
  cases M with
  | none =>
    have hi : Client.isValid (fin ((none : Option K).getD (-999))) = false := by simp [Client.isValid]
    rw [hi]
    simp only [Bool.false_and, Bool.or_false, Bool.false_eq_true, if_false, ge_fin, gt_fin, decide_eq_true_eq, krigCovariance, one_def]
    by_cases hR : R ≤ h
    · rw [if_pos hR, if_pos hR]; rfl
    · rw [if_neg hR, if_neg hR]
      cases barnes with
      | true => rw [if_pos rfl, barnesC_fin hL, fin_mul, mul_one]; rfl
      | false =>
        rw [if_neg (by decide)]
        by_cases hf : L < h
        · rw [if_pos hf, structure_far hL hf.le]; rfl
        · rw [if_neg hf, cressmanC_fin hL, fin_mul, mul_one, structure_near hL h0 (not_lt.mp hf)]
  | some m =>
    have hm := ho.difference m rfl
    have hi : Client.isValid (fin ((some m : Option K).getD (-999))) = true := by
      simp only [Option.getD_some, Client.isValid, decide_eq_true_eq]
      intro hc
      rw [hc] at hm
      linarith
    rw [hi]
    simp only [Option.getD_some, Bool.true_and, if_true, ge_fin, gt_fin, Bool.or_eq_true, decide_eq_true_eq, krigCovariance]
    by_cases hR : R ≤ h ∨ m ≤ v
    · rw [if_pos hR, if_pos hR]; rfl
    · rw [if_neg hR, if_neg hR]
      push Not at hR
      cases barnes with
      | true => rw [if_pos rfl, barnesC_fin hL, barnesC_fin hm, fin_mul]; rfl
      | false =>
        rw [if_neg (by decide)]
        by_cases hf : L < h
        · rw [if_pos (Or.inl hf), structure_far hL hf.le, zero_mul]; rfl
        · rw [if_neg (by push Not; exact ⟨not_lt.mp hf, hR.2.le⟩), cressmanC_fin hL, cressmanC_fin hm, fin_mul,
            structure_near hL h0 (not_lt.mp hf), structure_near hm hv0 hR.2.le]

theorem structure_range [LawfulExp K] (barnes : Bool) {a : K} (ha : 0 < a) (d : K) :
    0 ≤ structureFunction barnes a d ∧ structureFunction barnes a d ≤ 1 := by
  unfold structureFunction
  have hp := mul_pos ha ha
  have hd := mul_self_nonneg d
  cases barnes with
  | true =>
    rw [if_pos rfl]
    refine ⟨(LawfulExp.exp_pos _).le, exp_le_one ?_⟩
    apply div_nonpos_of_nonpos_of_nonneg (by linarith)
    rw [mul_assoc]; linarith
  | false =>
    rw [if_neg (by decide)]
    refine ⟨le_max_left _ _, max_le (by norm_num) ?_⟩
    rw [div_le_one (by linarith)]
    linarith

theorem structure_antitone [LawfulExp K] (barnes : Bool) {a : K} (ha : 0 < a) {d d' : K} (h0 : 0 ≤ d) (h : d ≤ d') :
    structureFunction barnes a d' ≤ structureFunction barnes a d := by
  unfold structureFunction
  have hp := mul_pos ha ha
  have hsq : d * d ≤ d' * d' := mul_self_le_mul_self h0 h
  have hd := mul_self_nonneg d
  cases barnes with
  | true =>
    simp only [if_true]
    apply exp_mono
    rw [neg_div, neg_div, neg_le_neg_iff]
    apply div_le_div_of_nonneg_right hsq
    rw [mul_assoc]; linarith
  | false =>
    simp only [Bool.false_eq_true, if_false]
    apply max_le_max_left
    rw [div_le_div_iff₀ (by linarith) (by linarith)]
    nlinarith

theorem structure_zero [LawfulExp K] (barnes : Bool) {a : K} (ha : 0 < a) : structureFunction barnes a 0 = 1 := by
  unfold structureFunction
  have hp := mul_pos ha ha
  cases barnes with
  | true => simp [LawfulExp.exp_zero]
  | false =>
    simp only [Bool.false_eq_true, if_false, mul_zero, sub_zero, add_zero]
    rw [div_self hp.ne', max_eq_right (by norm_num)]

/-- **C117** (range). Covariances are in [0, 1]; they are 1 at the same place and 0 from the radius and the greatest difference on. -/
theorem c117_range [LawfulExp K] (barnes : Bool) {L : K} (hL : 0 < L) (R : K) {M : Option K} (hM : ∀ m ∈ M, 0 < m) (h v : K) :
    0 ≤ krigCovariance barnes L R M h v ∧ krigCovariance barnes L R M h v ≤ 1 ∧ (0 < R → krigCovariance barnes L R M 0 0 = 1) ∧
    (R ≤ h → krigCovariance barnes L R M h v = 0) ∧ (∀ m ∈ M, m ≤ v → krigCovariance barnes L R M h v = 0) := by
  have h1 := structure_range barnes hL h
  have e1 := structure_zero barnes hL
  unfold krigCovariance
  cases M with
  | none =>
    simp only
    refine ⟨?_, ?_, ?_, ?_, ?_⟩
    · split_ifs; exacts [le_refl _, h1.1]
    · split_ifs; exacts [zero_le_one, h1.2]
    · intro hR; rw [if_neg (not_le.mpr hR), e1]
    · intro hR; rw [if_pos hR]
    · intro m hm; cases hm
  | some m =>
    have hm := hM m rfl
    have h2 := structure_range barnes hm v
    simp only
    refine ⟨?_, ?_, ?_, ?_, ?_⟩
    · split_ifs; exacts [le_refl _, mul_nonneg h1.1 h2.1]
    · split_ifs; exacts [zero_le_one, mul_le_one₀ h1.2 h2.1 h2.2]
    · intro hR; rw [if_neg (by push Not; exact ⟨hR, hm⟩), e1, structure_zero barnes hm, one_mul]
    · intro hR; rw [if_pos (Or.inl hR)]
    · intro m' hm' hv
      obtain rfl : m = m' := by simpa using hm'
      rw [if_pos (Or.inr hv)]

/-- **C117** (falling). Further away and with a greater elevation difference the covariance is not greater. -/
theorem c117_antitone [LawfulExp K] (barnes : Bool) {L : K} (hL : 0 < L) (R : K) {M : Option K} (hM : ∀ m ∈ M, 0 < m) {h h' v v' : K}
    (h0 : 0 ≤ h) (hh : h ≤ h') (v0 : 0 ≤ v) (hv : v ≤ v') : krigCovariance barnes L R M h' v' ≤ krigCovariance barnes L R M h v := by
  have a1 := structure_antitone barnes hL h0 hh
  have r1 := structure_range barnes hL h
  have r1' := structure_range barnes hL h'
  unfold krigCovariance
  cases M with
  | none =>
    simp only
    by_cases hR : R ≤ h
    · rw [if_pos hR, if_pos (hR.trans hh)]
    · rw [if_neg hR]
      split_ifs
      exacts [r1.1, a1]
  | some m =>
    have hm := hM m rfl
    have a2 := structure_antitone barnes hm v0 hv
    have r2 := structure_range barnes hm v
    have r2' := structure_range barnes hm v'
    simp only
    by_cases hR : R ≤ h ∨ m ≤ v
    · rw [if_pos hR, if_pos (hR.imp (fun x => x.trans hh) (fun x => x.trans hv))]
    · rw [if_neg hR]
      split_ifs
      · exact mul_nonneg r1.1 r2.1
      · exact mul_le_mul a1 a2 r2'.1 r1.1

/-- **C117** (symmetric). If the distance does not depend on the order of the places, the covariance does not either. -/
theorem c117_symmetric [HasExp K] (o : KrigOptions K) (dist : Fl K → Fl K → Fl K → Fl K → Res (Fl K))
    (hs : ∀ a b c d, dist a b c d = dist c d a b) (p q : KPoint K) : calcCovar o dist p q = calcCovar o dist q p := by
  have hv : (p.elev - q.elev).abs = (q.elev - p.elev).abs := by
    cases p.elev <;> cases q.elev <;> try rfl
    rename_i a b
    simp only [fin_sub, Fl.abs]
    rw [abs_sub_comm]
  unfold calcCovar
  rw [hv, hs p.lat p.lon q.lat q.lon, Bool.and_comm]

/-- The factor for pairs of different stations. -/
def krigFactor : K := 414 / 500

/-- **C117** (matrix). For stations with coordinates, elevations and distances the matrix of the stations is symmetric, with 1 on the
diagonal and 414/500 of the covariance elsewhere. -/
theorem c117_matrix [HasExp K] {o : KrigOptions K} {barnes : Bool} {L R : K} {M : Option K} (ho : KrigPlain o barnes L R M)
    (dist : Fl K → Fl K → Fl K → Fl K → Res (Fl K)) (locs : List (KPoint K)) (lat lon elev : Nat → K) (h : Nat → Nat → K)
    (hp : ∀ i < locs.length, ∃ p, locs[i]? = some p ∧ KrigPlace p (lat i) (lon i) (elev i))
    (hd : ∀ i j, i < j → j < locs.length → dist (fin (lat i)) (fin (lon i)) (fin (lat j)) (fin (lon j)) = ok (fin (h i j)) ∧ 0 ≤ h i j ∧
      h j i = h i j) :
    krigMatrix o dist locs = ok (tabulate locs.length locs.length fun i j =>
      fin (if i = j then 1 else krigCovariance barnes L R M (h i j) |elev i - elev j| * krigFactor)) := by
  unfold krigMatrix
  apply grid2_ok
  intro i hi j hj
  by_cases hij : i = j
  · rw [if_pos (by exact_mod_cast hij), if_pos hij]; rfl
  · rw [if_neg (by exact_mod_cast hij), if_neg hij]
    have key : ∀ a b : Nat, a < b → b < locs.length → (do
        let p ← vget locs (a : Int)
        let q ← vget locs (b : Int)
        let c ← calcCovar o dist p q
        ok (c * fin (414 / 1000 / (5 / 10)))) = ok (fin (krigCovariance barnes L R M (h a b) |elev a - elev b| * krigFactor)) := by
      intro a b hab hb
      obtain ⟨p, hp1, hp2⟩ := hp a (by omega)
      obtain ⟨q, hq1, hq2⟩ := hp b hb
      obtain ⟨d1, d2, -⟩ := hd a b hab hb
      rw [vget_eq_ok_of_lt (by omega), ok_bind, vget_eq_ok_of_lt hb, ok_bind]
      rw [List.getElem?_eq_getElem (by omega), Option.some.injEq] at hp1
      rw [List.getElem?_eq_getElem hb, Option.some.injEq] at hq1
      rw [hp1, hq1, c117_value ho dist hp2 hq2 d1 d2, ok_bind, fin_mul]
      congr 3
      unfold krigFactor; norm_num
    rcases lt_or_gt_of_ne hij with hlt | hlt
    · rw [min_eq_left (by omega), max_eq_right (by omega), key i j hlt hj]
    · rw [min_eq_right (by omega), max_eq_left (by omega), key j i hlt hi, (hd j i hlt hi).2.2, abs_sub_comm]

/-- The coordinates and the elevation of a place are there. -/
def Placed (p : KPoint K) : Prop := Present p.lat ∧ Present p.lon ∧ Present p.elev

theorem kpoint_valid_iff (p : KPoint K) : p.valid = true ↔ Placed p := by
  unfold KPoint.valid Placed
  rw [Bool.and_eq_true, Bool.and_eq_true, isValid_iff_present, isValid_iff_present, isValid_iff_present, and_assoc]

/-- **C117** is false for a station without elevation: all its covariances with others are -999 times the factor, which is not recognized
as missing. -/
theorem c117_missing [HasExp K] (o : KrigOptions K) (dist : Fl K → Fl K → Fl K → Fl K → Res (Fl K)) (p q : KPoint K)
    (h : ¬ Placed p ∨ ¬ Placed q) :
    calcCovar o dist p q = ok (fin (-999)) ∧ Client.isValid ((fin (-999) : Fl K) * fin (414 / 1000 / (5 / 10))) = true := by
  constructor
  · unfold calcCovar
    rw [← kpoint_valid_iff, ← kpoint_valid_iff, Bool.not_eq_true, Bool.not_eq_true] at h
    rw [if_neg (by rcases h with h | h <;> simp [h])]
    rfl
  · rw [fin_mul]
    simp only [Client.isValid, decide_eq_true_eq]
    norm_num

/-- **C117** (options). Negative scales, radii and elevation differences are refused; a scale of 0 is not, and makes the covariance of two
stations at the same place NaN. -/
theorem c117_options : (∀ o : KrigOptions K, krigCheck o = ok () ↔
      o.efold.lt 0 = false ∧ ¬ (Client.isValid o.maxElev = true ∧ o.maxElev.lt 0 = true) ∧ o.radius.lt 0 = false) ∧
    krigCheck (⟨fin 0, fin 1, fin (-999), false⟩ : KrigOptions K) = ok () ∧
    ∀ [HasExp K], calcCovar (⟨fin 0, fin 1, fin (-999), false⟩ : KrigOptions K) (fun _ _ _ _ => ok (fin 0)) ⟨fin 0, fin 0, fin 0⟩
      ⟨fin 0, fin 0, fin 0⟩ = ok nan := by
  refine ⟨?_, ?_, ?_⟩
  · intro o
    unfold krigCheck
    cases h1 : o.efold.lt 0 <;> cases h2 : Client.isValid o.maxElev <;> cases h3 : o.maxElev.lt 0 <;> cases h4 : o.radius.lt 0 <;>
      simp [Client.error]
  · unfold krigCheck
    simp [Client.isValid]
  · intro _
    unfold calcCovar
    have : KPoint.valid (⟨fin 0, fin 0, fin 0⟩ : KPoint K) = true := by simp [KPoint.valid, Client.isValid]
    rw [this]
    simp only [Bool.and_self, if_true, ok_bind]
    have hz : (fin (0 : K) - fin 0).abs = fin 0 := by simp [Fl.abs]
    have hi : Client.isValid (fin (-999 : K)) = false := by simp [Client.isValid]
    rw [hz, hi]
    simp only [Bool.false_and, Bool.or_false, ge_fin, gt_fin, Bool.false_eq_true, if_false]
    rw [if_neg (by simp), if_neg (by simp)]
    unfold cressmanC
    simp only [fin_mul, fin_sub, fin_add, mul_zero, sub_zero, add_zero, fin_div, if_true, infOfSign, lt_irrefl, if_false, one_def, nan_mul]

/-- Two stations at distance 1 with the scale 2 and elevations 0 and 1, the greatest difference 3: 3/5 times 4/5 times the factor. -/
example : krigMatrix (⟨fin 2, fin 5, fin 3, false⟩ : KrigOptions ℚ) (fun _ _ _ _ => ok (fin 1)) [⟨fin 0, fin 0, fin 0⟩, ⟨fin 1, fin 0, fin 1⟩] =
    ok [[fin 1, fin (3 / 5 * (8 / 10) * (414 / 500))], [fin (3 / 5 * (8 / 10) * (414 / 500)), fin 1]] := by decide +kernel

/-- The hypotheses of `c117_matrix` hold for them. -/
example : KrigPlain (⟨fin 2, fin 5, fin 3, false⟩ : KrigOptions ℚ) false 2 5 (some 3) ∧ KrigPlace (⟨fin 1, fin 0, fin 1⟩ : KPoint ℚ) 1 0 1 :=
  ⟨⟨rfl, rfl, rfl, rfl, by norm_num, by simp⟩, rfl, by norm_num, by norm_num, by norm_num⟩

end Gridpp.Props
