import Verif.Props.EnsiKalman
import Verif.Props.EnsiCases
import Verif.Lemmas.EnsiLimit

/-! Property C77: without extrapolation, how far ensemble-based optimal interpolation moves a member. -/

set_option linter.unusedSectionVars false

namespace Gridpp.Props
open Fl Res Matrix

section
variable {K : Type} [Field K] [LinearOrder K] [IsStrictOrderedRing K] [HasGeo K] [LawfulSqrt K] [HasExp K]
variable {T : RTree K} {bp points : Points K} {s : SF K} {maxPoints : Int} {L : Nat → Fl K} {G : Nat → Nat → K}

/-- How many members of `S` come before `e`. -/
def rank (S : Finset Nat) (e : Nat) : Nat := (S.filter (· < e)).card

theorem rank_get {members : List Nat} (h : members.Pairwise (· < ·)) (k : Fin members.length) : rank members.toFinset (members.get k) = k := by
  have hnd : members.Nodup := h.imp fun h => h.ne
  have hs : members.toFinset.filter (· < members.get k) = (members.take k).toFinset := by
    ext e
    simp only [Finset.mem_filter, List.mem_toFinset]
    constructor
    · rintro ⟨h1, h2⟩
      obtain ⟨j, rfl⟩ := List.get_of_mem h1
      have hjk : j < k := by
        by_contra c
        rcases lt_or_eq_of_le (not_lt.mp c) with c | c
        · exact absurd (List.pairwise_iff_get.mp h k j c) (by omega)
        · subst c; omega
      rw [List.mem_take_iff_getElem]
      exact ⟨j, by simpa using hjk, rfl⟩
    · intro h1
      rw [List.mem_take_iff_getElem] at h1
      obtain ⟨j, h1, rfl⟩ := h1
      have hj : j < k ∧ j < members.length := lt_min_iff.mp h1
      exact ⟨List.getElem_mem _, List.pairwise_iff_get.mp h ⟨j, hj.2⟩ k hj.1⟩
  unfold rank
  rw [hs, List.toFinset_card_of_nodup (hnd.sublist (List.take_sublist _ _)), List.length_take]
  exact min_eq_left k.2.le

/-- What the filter makes of the increment `inc` (relative to the mean) of member number `k`. -/
theorem filtered {members : List Nat} (hsort : members.Pairwise (· < ·)) (b : Nat → K) (p : Nat → Nat → K) (o : Nat → K) (r : List Nat)
    (hr0 : 0 < r.length) (q : Fin r.length → K) (Z : Matrix (Fin r.length) (Fin members.length) K) (k : Fin members.length) (t : K) :
    ∃ inc, fin (Spec.ensMean members.toFinset b) + ensiLimit (ensiRows (fun i => o (r.get i)) q
        (fun i => Spec.ensMean members.toFinset (p (r.get i))) (ensY members p r) Z) k (fin (b (members.get k) - Spec.ensMean members.toFinset b)) (fin t) =
        fin (b (members.get k) + inc) ∧
      (r.length = 1 → Spec.Clamped (fun i => o (r.get i) - p (r.get i) (members.get k)) (Spec.ensMean members.toFinset b + t - b (members.get k)) inc) ∧
      ∃ i' : Fin r.length, ∃ e' ∈ members.toFinset, (i' : Nat) = rank members.toFinset (members.get k) % r.length ∧
        rank members.toFinset e' = rank members.toFinset (members.get k) / r.length ∧
        Spec.Clamped (fun i => o (r.get i) - (Spec.ensMean members.toFinset (p (r.get i)) +
          (p (r.get i') e' - Spec.ensMean members.toFinset (p (r.get i'))))) (Spec.ensMean members.toFinset b + t - b (members.get k)) inc := by
  have hi' : k.1 % r.length < r.length := Nat.mod_lt _ hr0
  have he' : k.1 / r.length < members.length := lt_of_le_of_lt (Nat.div_le_self _ _) k.2
  have ht : ensiElement (ensiRows (fun i => o (r.get i)) q (fun i => Spec.ensMean members.toFinset (p (r.get i))) (ensY members p r) Z) k =
      fin (ensY members p r ⟨_, hi'⟩ ⟨_, he'⟩) := by
    unfold ensiElement
    rw [ensiRows_length]
    simp [ensiRows, ent, List.getD, hi', he', Function.comp_def]
  obtain ⟨inc, hi1, hi2⟩ := ensiLimit_clamped hr0 _ _ _ _ _ k _ (b (members.get k) - Spec.ensMean members.toFinset b) t ht
  have hx : ∀ v : K, v - (b (members.get k) - Spec.ensMean members.toFinset b) =
      Spec.ensMean members.toFinset b + v - b (members.get k) := fun v => by ring
  rw [hx] at hi2
  refine ⟨inc, by rw [hi1, fin_add]; congr 1; ring, fun h1 => ?_, ⟨_, hi'⟩, _, List.mem_toFinset.mpr (List.get_mem members ⟨_, he'⟩), ?_, ?_, ?_⟩
  · convert hi2 using 2 with i
    have e1 : (⟨k.1 % r.length, hi'⟩ : Fin r.length) = i := Fin.ext (by have := i.2; simp only; omega)
    have e2 : (⟨k.1 / r.length, he'⟩ : Fin members.length) = k := Fin.ext (by simp [h1])
    rw [e1, e2]
    unfold ensY
    ring
  · rw [rank_get hsort]
  · rw [rank_get hsort, rank_get hsort]
  · convert hi2 using 2 with i
    unfold ensY
    ring

/-- `optimal_interpolation_ensi` for points, without extrapolation: the increment of each member is that of the Kalman update,
moved to the nearest number between min(0, smallest) and max(0, largest innovation), but in these innovations the perturbation
of the member at the observations is replaced by one number, the perturbation at one observation of one member. If a single
observation is used that is the perturbation of the member at it. The claim (with the innovations of the member itself, for any
number of observations) is false, see `c77_wrong_member`. -/
theorem c77_ensi_partial {A : ArmaE K} (hA : A.Lawful) (h : EnsPoints T A.toArma bp points s maxPoints L G) {E : Nat}
    {background pbg : List (List (Fl K))} {pobs psigmas : List (Fl K)} {S : Finset Nat} {b p : Nat → Nat → K} {o sg : Nat → K}
    (hd : EnsData bp points background pbg pobs psigmas E S b p o sg) (hc : 2 ≤ S.card) :
    ∃ out, ensiPoints T A bp background points pobs psigmas pbg s maxPoints false = ok out ∧ Rect bp.size E out ∧
      ∀ y < bp.size, ∃ (m : Nat) (sel : Fin m → Nat) (a : Nat → K),
        Spec.Selection (UsableObs bp points (fun i => ∃ v, pobs[i]? = some (fin v)) (L y) (G y) y) (G y) maxPoints.toNat sel ∧
        Spec.KalmanUpdate S (b y) (fun i => p (sel i)) (fun i => sg (sel i) ^ 2 / G y (sel i)) (fun i => o (sel i)) a ∧
        (∀ e, e ∉ S → cell? out y e = cell? background y e) ∧
        ∀ e ∈ S, ∃ inc, cell? out y e = some (fin (b y e + inc)) ∧ (m = 0 → inc = 0) ∧
          (m = 1 → Spec.Clamped (fun i => o (sel i) - p (sel i) e) (a e - b y e) inc) ∧
          (0 < m → ∃ i' : Fin m, ∃ e' ∈ S, (i' : Nat) = rank S e % m ∧ rank S e' = rank S e / m ∧
            Spec.Clamped (fun i => o (sel i) - (Spec.ensMean S (p (sel i)) + (p (sel i') e' - Spec.ensMean S (p (sel i'))))) (a e - b y e) inc) := by
  obtain ⟨members, hsub, hSm, hn2, f, hrun, hcells⟩ := hd.cells hA h hc
  have hnd : members.Nodup := hsub.nodup List.nodup_range
  have hsort : members.Pairwise (· < ·) := List.Pairwise.sublist hsub List.pairwise_lt_range
  have hmS : ∀ e, e ∈ members ↔ e ∈ S := fun e => by rw [hSm, List.mem_toFinset]
  rw [hrun]
  have hcell : ∀ y < background.length, (∃ out, f false y = ok out ∧
      (out.length = E ∧ ∃ (m : Nat) (sel : Fin m → Nat) (a : Nat → K),
        Spec.Selection (UsableObs bp points (fun i => ∃ v, pobs[i]? = some (fin v)) (L y) (G y) y) (G y) maxPoints.toNat sel ∧
        Spec.KalmanUpdate S (b y) (fun i => p (sel i)) (fun i => sg (sel i) ^ 2 / G y (sel i)) (fun i => o (sel i)) a ∧
        (∀ e, e ∉ S → out[e]? = cell? background y e) ∧
        ∀ e ∈ S, ∃ inc, out[e]? = some (fin (b y e + inc)) ∧ (m = 0 → inc = 0) ∧
          (m = 1 → Spec.Clamped (fun i => o (sel i) - p (sel i) e) (a e - b y e) inc) ∧
          (0 < m → ∃ i' : Fin m, ∃ e' ∈ S, (i' : Nat) = rank S e % m ∧ rank S e' = rank S e / m ∧
            Spec.Clamped (fun i => o (sel i) - (Spec.ensMean S (p (sel i)) + (p (sel i') e' - Spec.ensMean S (p (sel i')))))
              (a e - b y e) inc))) ∨
      ∃ e, f false y = .throw e ∧ False := by
    intro y hyb
    left
    have hy : y < bp.size := by rw [← hd.hb.1]; exact hyb
    obtain ⟨row, hrow⟩ := exists_getElem? hyb
    have hlen : row.length = E := hd.hb.2 row (List.mem_iff_getElem?.mpr ⟨y, hrow⟩)
    have hrc : ∀ e, cell? background y e = row[e]? := fun e => by simp [cell?, hrow]
    have hrv : ∀ e ∈ S, row[e]? = some (fin (b y e)) := fun e he => by rw [← hrc]; exact hd.hbv y hy e he
    obtain ⟨r, hr3, hr4, hr5, hr6⟩ := hcells y row hrow
    by_cases h0 : r = []
    · rw [hr5 h0]
      rw [h0] at hr3
      refine ⟨row, rfl, hlen, 0, _, b y, hr3, ⟨fun i => i.elim0, fun k' => ?_, ?_, ?_, le_refl _⟩, fun e _ => (hrc e).symm,
        fun e he => ⟨0, by rw [add_zero]; exact hrv e he, fun _ => rfl, by omega, by omega⟩⟩
      · exact ⟨fun _ => funext fun i => i.elim0, fun _ j => j.elim0⟩
      · simp
      · simp
    · obtain ⟨W, hW, hfy⟩ := hr6 h0
      rw [hfy]
      have hrow' : ∀ e ∈ members, row[e]? = some (fin (b y e)) := fun e he => hrv e ((hmS e).mp he)
      obtain ⟨out, ho1, ho2, ho3, ho4⟩ := ensiUpdate_gen row members hnd (by omega) (b y) hrow'
        (ensObs members p (G y) o sg r) W _ _ (fun k => rfl) false
      obtain ⟨outA, -, -, -, hA4⟩ := ensiUpdate_gen row members hnd (by omega) (b y) hrow'
        (ensObs members p (G y) o sg r) W ((pinvMat (ensY members p r) (ensQ (G y) sg r) ((members.length : K) - 1))⁻¹ *ᵥ
          ((ensY members p r)ᵀ *ᵥ (diagonal (ensQ (G y) sg r) *ᵥ
            ((fun i => o (r.get i)) - fun i => Spec.ensMean members.toFinset (p (r.get i)))))) _ (fun k => rfl) true
      have hr0 : 0 < r.length := List.length_pos_iff.mpr h0
      refine ⟨out, ho1, by rw [ho2, hlen], r.length, r.get, fun e => match outA[e]? with | some (fin v) => v | _ => 0, hr3, ?_,
        fun e he => ?_, fun e he => ?_⟩
      · rw [hSm]
        refine ens_kalman members hnd hn2 (b y) p (G y) o sg r hr4 W hW _ fun k => ?_
        have := hA4 k
        rw [if_pos rfl, fin_add] at this
        simp only [this]
      · rw [hrc, ho3 e (fun c => he ((hmS e).mp c))]
      · obtain ⟨k, rfl⟩ := List.get_of_mem ((hmS e).mpr he)
        have h1 := ho4 k
        have h2 := hA4 k
        rw [if_pos rfl, fin_add] at h2
        rw [if_neg (by simp)] at h1
        simp only [h2]
        obtain ⟨inc, hi1, hi2, hi3⟩ := filtered hsort (b y) p o r hr0 (ensQ (G y) sg r) (ensY members p r) k
          (((fun k => b y (members.get k) - Spec.ensMean members.toFinset (b y)) ᵥ* W) k +
            (fun k => b y (members.get k) - Spec.ensMean members.toFinset (b y)) ⬝ᵥ
              ((pinvMat (ensY members p r) (ensQ (G y) sg r) ((members.length : K) - 1))⁻¹ *ᵥ ((ensY members p r)ᵀ *ᵥ (diagonal (ensQ (G y) sg r) *ᵥ
                ((fun i => o (r.get i)) - fun i => Spec.ensMean members.toFinset (p (r.get i)))))))
        unfold ensObs at h1
        rw [hi1] at h1
        rw [hSm]
        exact ⟨inc, h1, by omega, hi2, fun _ => hi3⟩
  rcases mapM_range_cases _ (fun _ => False) _ background.length hcell with ⟨out, h1, h2, h3⟩ | ⟨-, -, h⟩
  · refine ⟨out, h1, ⟨by rw [h2, hd.hb.1], fun r hr => ?_⟩, fun y hy => ?_⟩
    · obtain ⟨y, hy⟩ := List.mem_iff_getElem?.mp hr
      have hyb : y < background.length := by rw [← h2]; exact (List.getElem?_eq_some_iff.mp hy).1
      obtain ⟨r', hr', hl, -⟩ := h3 y hyb
      rw [hy] at hr'
      cases hr'
      exact hl
    · obtain ⟨r', hr', -, m, sel, a, c1, c2, c3, c4⟩ := h3 y (by rw [hd.hb.1]; exact hy)
      refine ⟨m, sel, a, c1, c2, fun e he => ?_, fun e he => ?_⟩
      · rw [← c3 e he]; simp [cell?, hr']
      · obtain ⟨inc, d1, d2⟩ := c4 e he
        exact ⟨inc, by rw [← d1]; simp [cell?, hr'], d2⟩
  · exact h.elim

variable {g : Grid K} {Y X : Nat} {lats lons : List (List (Fl K))} {type : CoordType}

/-- The same for a grid. -/
theorem c77_ensi_grid_partial {A : ArmaE K} (hA : A.Lawful) (hg : BuiltGrid g Y X lats lons type) (hbp : g.toPoints = ok bp)
    (h : EnsPoints T A.toArma bp points s maxPoints L G) {E : Nat} {background : List (List (List (Fl K)))} {pbg : List (List (Fl K))}
    {pobs psigmas : List (Fl K)} {S : Finset Nat} {b p : Nat → Nat → K} {o sg : Nat → K} (hb : Box Y X E background)
    (hd : EnsData bp points background.flatten pbg pobs psigmas E S b p o sg) (hc : 2 ≤ S.card) :
    ∃ out, ensiGrid T A g background points pobs psigmas pbg s maxPoints false = ok out ∧ Box Y X E out ∧
      ∀ y < Y, ∀ x < X, ∃ row brow, cell? out y x = some row ∧ cell? background y x = some brow ∧
        ∃ (m : Nat) (sel : Fin m → Nat) (a : Nat → K),
          Spec.Selection (UsableObs bp points (fun i => ∃ v, pobs[i]? = some (fin v)) (L (y * X + x)) (G (y * X + x)) (y * X + x))
            (G (y * X + x)) maxPoints.toNat sel ∧
          Spec.KalmanUpdate S (b (y * X + x)) (fun i => p (sel i)) (fun i => sg (sel i) ^ 2 / G (y * X + x) (sel i)) (fun i => o (sel i)) a ∧
          (∀ e, e ∉ S → row[e]? = brow[e]?) ∧
          ∀ e ∈ S, ∃ inc, row[e]? = some (fin (b (y * X + x) e + inc)) ∧ (m = 0 → inc = 0) ∧
            (m = 1 → Spec.Clamped (fun i => o (sel i) - p (sel i) e) (a e - b (y * X + x) e) inc) ∧
            (0 < m → ∃ i' : Fin m, ∃ e' ∈ S, (i' : Nat) = rank S e % m ∧ rank S e' = rank S e / m ∧
              Spec.Clamped (fun i => o (sel i) - (Spec.ensMean S (p (sel i)) + (p (sel i') e' - Spec.ensMean S (p (sel i')))))
                (a e - b (y * X + x) e) inc) := by
  have s1 := (sizes_of_grid hg hbp h).1
  obtain ⟨o1, h1, h2, h3⟩ := c77_ensi_partial hA h hd hc
  rw [s1] at h2
  obtain ⟨out, g1, g2, g3⟩ := unflatten3_eq h2
  refine ⟨out, by rw [ensiGrid_eq hg hbp h hb hd.hpobs hd.hsig hd.hpbg, h1, ok_bind, g1], g2, fun y hy x hx => ?_⟩
  obtain ⟨c, g4, g5⟩ := g3 y hy x hx
  obtain ⟨brow, hb1⟩ := hb.1.cell?_some hy hx
  have hb2 := flatten_getElem? (y := y) hb.1 hx
  rw [hb1] at hb2
  obtain ⟨m, sel, a, c1, c2, c3, c4⟩ := h3 (y * X + x) (by rw [s1]; exact ((c15_bijection Y X).2 y hy x hx).1)
  unfold cell? at c3 c4
  rw [g5] at c3 c4
  rw [hb2] at c3
  exact ⟨c, brow, g4, hb1, m, sel, a, c1, c2, c3, c4⟩

end

/-! ### The claim is false -/

namespace WrongMember

/-- The matrix to be inverted in the example. -/
def M : Matrix (Fin 4) (Fin 4) ℚ :=
  !![21 / 4, 9 / 4, -9 / 4, -9 / 4; 9 / 4, 21 / 4, -9 / 4, -9 / 4; -9 / 4, -9 / 4, 21 / 4, 9 / 4; -9 / 4, -9 / 4, 9 / 4, 21 / 4]

/-- Its inverse. -/
def N : Matrix (Fin 4) (Fin 4) ℚ :=
  !![13 / 48, -1 / 16, 1 / 16, 1 / 16; -1 / 16, 13 / 48, 1 / 16, 1 / 16; 1 / 16, 1 / 16, 13 / 48, -1 / 16; 1 / 16, 1 / 16, -1 / 16, 13 / 48]

/-- Eigenvectors of three times the inverse. -/
def V : Matrix (Fin 4) (Fin 4) ℚ :=
  !![1 / 2, 1 / 2, 1 / 2, 1 / 2; 1 / 2, 1 / 2, -1 / 2, -1 / 2; -1 / 2, 1 / 2, 1 / 2, -1 / 2; -1 / 2, 1 / 2, -1 / 2, 1 / 2]

/-- Eigenvalues of three times the inverse. -/
def d : Fin 4 → ℚ := ![1 / 4, 1, 1, 1]

theorem inverse : M * N = 1 := by decide +kernel

theorem eigen : V * V.transpose = 1 ∧ V.transpose * V = 1 ∧ V * diagonal d * V.transpose = 3 • N := by decide +kernel

/-- A library that gives the inverse and the eigenvectors of these matrices. -/
def lib : ArmaE ℚ := ⟨⟨fun m => if m = toRows M then ok (toRows N) else ub, id⟩, fun _ => 1,
  fun m => if m = toRows (3 • N) then some (List.ofFn fun i => fin (d i), toRows V) else none⟩

/-- One output point with two observations at the same distance and four members. The innovations of members 2 and 3 are
-1 at both observations. -/
def call (extrap : Bool) : Res (List (List (Fl ℚ))) := do
  let bp ← Points.new [fin 0] [fin 0] [] [] .cartesian
  let points ← Points.new [fin 0, fin 0] [fin 1, fin (-1)] [] [] .cartesian
  ensiPoints RTree.scan lib bp [[fin 12, fin 12, fin 8, fin 8]] points [fin 5, fin 5] [fin (2 / 3), fin (4 / 3)]
    [[fin 4, fin 4, fin 6, fin 6], [fin 4, fin 4, fin 6, fin 6]] (.cressman (fin 3) (fin 0) (fin 0)) 0 extrap

end WrongMember

/-- The claim is false: without extrapolation members 2 and 3 are moved up by 1 although both their innovations are -1, and
members 0 and 1, whose innovations are 1, would be moved by -1 and are kept. -/
theorem c77_wrong_member : WrongMember.call true = ok [[fin 11, fin 11, fin 9, fin 9]] ∧
    WrongMember.call false = ok [[fin 12, fin 12, fin 9, fin 9]] ∧
    ¬ Spec.InRange (fun _ : Fin 2 => (5 - 6 : ℚ)) (9 - 8) := by
  refine ⟨by decide +kernel, by decide +kernel, ?_⟩
  rintro ⟨-, h | ⟨_, h⟩⟩ <;> norm_num at h

end Gridpp.Props
