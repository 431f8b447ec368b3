import Verif.Props.FullGradientOrder
import Verif.Model.Fill
import Verif.Props.Smart

/-! C189: filling of gaps and smart downscaling keep the order of the values. -/

set_option linter.unusedSectionVars false

namespace Gridpp.Props
open Fl Res Spec

section
variable {σ τ : Type}

theorem outcomeRel_foldM {R : Nat → σ → τ → Prop} {f : σ → Int → Res σ} {g : τ → Int → Res τ} (n : Nat)
    (h : ∀ t < n, ∀ s s', R t s s' → OutcomeRel (R (t + 1)) (f s (t : Int)) (g s' (t : Int))) {s : σ} {s' : τ} (h0 : R 0 s s') :
    OutcomeRel (R n) (foldM f s (upto n)) (foldM g s' (upto n)) := by
  have key : ∀ m k, k + m = n → ∀ s s', R k s s' →
      OutcomeRel (R n) (foldM f s ((List.range' k m).map fun j : Nat => (j : Int))) (foldM g s' ((List.range' k m).map fun j : Nat => (j : Int))) := by
    intro m
    induction m with
    | zero => intro k hk s s' hs; rw [Nat.add_zero] at hk; subst hk; exact hs
    | succ m ih =>
      intro k hk s s' hs
      rw [List.range'_succ, List.map_cons]
      exact OutcomeRel.bind (h k (by omega) s s' hs) fun a b hab => ih (k + 1) (by omega) a b hab
  unfold upto
  rw [List.range_eq_range']
  exact key n 0 (by omega) s s' h0

end

section
variable {K : Type} [Field K] [LinearOrder K] [IsStrictOrderedRing K]

/-! ### fill_missing -/

theorem valid_is_fin {v : Fl K} (h : v.isValid = true) : ∃ q, v = fin q := by
  cases v with
  | fin q => exact ⟨q, rfl⟩
  | nan => cases h
  | pinf => cases h
  | ninf => cases h

/-- Interpolation between two values with the same weight, or with a missing value or an empty interval. -/
theorem gap_rel {R : Fl K → Fl K → Prop} (hR : KeptByMeans R) (hI : ∀ u v : Fl K, u.isValid = false → v.isValid = false → R u v) {u v x y : Fl K} (h : R u v) (k : R x y)
    {p m : Int} (hp : 0 ≤ p) (hm : p ≤ m) : R (u + (x - u) * Fl.ofInt p / Fl.ofInt m) (v + (y - v) * Fl.ofInt p / Fl.ofInt m) := by
  have left : ∀ u w : Fl K, u.isValid = false → (u + w).isValid = false := by
    intro u w hu; cases u <;> cases w <;> first | rfl | cases hu
  have right : ∀ (q : K) (w : Fl K), w.isValid = false → (fin q + w).isValid = false := by
    intro q w hw; cases w <;> first | rfl | cases hw
  have bad : ∀ (q : K) (w : Fl K), w.isValid = false → (fin q + (w - fin q) * Fl.ofInt p / Fl.ofInt m).isValid = false := by
    intro q w hw
    apply right
    have e1 : (w - fin q).isValid = false := by cases w <;> first | rfl | cases hw
    have e2 : ∀ w : Fl K, w.isValid = false → ∀ c : K, (w * fin c).isValid = false := by
      intro w hw c
      cases w with
      | fin q => cases hw
      | nan => rfl
      | pinf => show (infOfSign c).isValid = false; unfold infOfSign; split_ifs <;> rfl
      | ninf => show (infOfSign (-c)).isValid = false; unfold infOfSign; split_ifs <;> rfl
    have e3 : ∀ w : Fl K, w.isValid = false → ∀ c : K, (w / fin c).isValid = false := by
      intro w hw c
      cases w with
      | fin q => cases hw
      | nan => rfl
      | pinf => show (if c < 0 then (ninf : Fl K) else pinf).isValid = false; split_ifs <;> rfl
      | ninf => show (if c < 0 then (pinf : Fl K) else ninf).isValid = false; split_ifs <;> rfl
    exact e3 _ (e2 _ e1 _) _
  have hv := hR.valid _ _ h
  have kv := hR.valid _ _ k
  cases hu : v.isValid with
  | false => exact hI _ _ (left _ _ (hv.trans hu)) (left _ _ hu)
  | true =>
    obtain ⟨r, rfl⟩ := valid_is_fin hu
    obtain ⟨q, rfl⟩ := valid_is_fin (hv.trans hu)
    cases hx : y.isValid with
    | false => exact hI _ _ (bad q x (kv.trans hx)) (bad r y hx)
    | true =>
      obtain ⟨r', rfl⟩ := valid_is_fin hx
      obtain ⟨q', rfl⟩ := valid_is_fin (kv.trans hx)
      by_cases hz : m = 0
      · subst hz
        have e : Fl.ofInt (K := K) 0 = fin 0 := by simp [Fl.ofInt]
        have z : ∀ a b : K, (fin a + (fin b - fin a) * Fl.ofInt p / Fl.ofInt 0).isValid = false := by
          intro a b
          rw [e]
          rw [show (Fl.ofInt p : Fl K) = fin (p : K) from rfl, fin_sub, fin_mul, fin_div, if_pos rfl]
          unfold infOfSign
          split_ifs <;> rfl
        exact hI _ _ (z q q') (z r r')
      · have hm0 : (0 : K) < (m : K) := by
          have : 0 < m := lt_of_le_of_ne (hp.trans hm) (Ne.symm hz)
          exact_mod_cast this
        have hp0 : (0 : K) ≤ (p : K) := by exact_mod_cast hp
        have hpm : (p : K) ≤ (m : K) := by exact_mod_cast hm
        have e : ∀ a b : K, (fin a + (fin b - fin a) * Fl.ofInt p / Fl.ofInt m : Fl K) =
            fin ((1 - (p : K) / (m : K)) * a + (p : K) / (m : K) * b + 0 * a + 0 * a) := by
          intro a b
          rw [show (Fl.ofInt p : Fl K) = fin (p : K) from rfl, show (Fl.ofInt m : Fl K) = fin (m : K) from rfl, fin_sub, fin_mul, fin_div_of_ne _ hm0.ne', fin_add]
          congr 1; ring
        rw [e, e]
        exact hR.mean _ _ _ _ _ _ _ _ _ _ _ _ (sub_nonneg.mpr ((div_le_one hm0).mpr hpm)) (div_nonneg hp0 hm0.le) le_rfl le_rfl (by ring) h k h h

theorem fillNext_rel {R : Fl K → Fl K → Prop} (hR : KeptByMeans R) {get get' : Int → Res (Fl K)} (hg : ∀ i, OutcomeRel R (get i) (get' i)) (fuel : Nat) (x : Int) :
    OutcomeRel (fun p q => p = q ∧ x ≤ p) (fillNext get fuel x) (fillNext get' fuel x) := by
  induction fuel generalizing x with
  | zero => exact ⟨rfl, le_rfl⟩
  | succ n ih =>
    unfold fillNext
    refine (hg x).bind fun u v huv => ?_
    rw [hR.valid _ _ huv]
    split
    · exact ⟨rfl, le_rfl⟩
    · have := ih (x + 1)
      revert this
      generalize fillNext get n (x + 1) = a
      generalize fillNext get' n (x + 1) = b
      intro h
      cases a <;> cases b <;> first | exact False.elim h | exact h | exact ⟨h.1, by have := h.2; omega⟩

theorem fillLine_rel {R : Fl K → Fl K → Prop} (hR : KeptByMeans R) (hI : ∀ u v : Fl K, u.isValid = false → v.isValid = false → R u v) {get get' : Int → Res (Fl K)} (hg : ∀ i, OutcomeRel R (get i) (get' i)) (n : Nat) :
    OutcomeRel (Vec1 R) (fillLine get n) (fillLine get' n) := by
  unfold fillLine
  have key : OutcomeRel (fun (s s' : FillState K) => s.last = s'.last ∧ s.next = s'.next ∧ s.last ≤ (n : Int) ∧ Vec1 R s.out s'.out)
      (foldM (fillStep get n) ⟨0, -1, []⟩ (upto n)) (foldM (fillStep get' n) ⟨0, -1, []⟩ (upto n)) := by
    refine outcomeRel_foldM (R := fun t (s s' : FillState K) => s.last = s'.last ∧ s.next = s'.next ∧ s.last ≤ (t : Int) ∧ Vec1 R s.out s'.out) n ?_
      ⟨rfl, rfl, by simp, List.Forall₂.nil⟩
    rintro t ht ⟨l, nx, o⟩ ⟨l', nx', o'⟩ ⟨e1, e2, e3, e4⟩
    simp only at e1 e2 e3 e4
    subst e1 e2
    unfold fillStep
    refine (hg _).bind fun u v huv => ?_
    rw [hR.valid _ _ huv]
    split
    · have hf : OutcomeRel (fun p q => p = q ∧ (t : Int) ≤ p) (fillFind get n nx (t : Int)) (fillFind get' n nx (t : Int)) := by
        unfold fillFind
        split
        · exact fillNext_rel hR hg _ _
        · exact ⟨rfl, by omega⟩
      refine OutcomeRel.bind hf fun p q hpq => ?_
      obtain ⟨rfl, hp⟩ := hpq
      have hgap : OutcomeRel R (fillGap get n l p (t : Int)) (fillGap get' n l p (t : Int)) := by
        unfold fillGap
        split
        · exact hR.missing
        · exact (hg _).bind fun a b hab => (hg _).bind fun c d hcd => OutcomeRel.value (gap_rel hR hI hab hcd (by omega) (by omega))
      refine OutcomeRel.bind hgap fun a b hab => ?_
      exact ⟨rfl, rfl, by show l ≤ ((t + 1 : Nat) : Int); push_cast; omega, List.rel_append e4 (.cons hab .nil)⟩
    · exact ⟨rfl, rfl, by show (t : Int) ≤ ((t + 1 : Nat) : Int); push_cast; omega, List.rel_append e4 (.cons huv .nil)⟩
  exact OutcomeRel.bind key fun s s' h => OutcomeRel.value h.2.2.2

theorem fillCombine_rel {R : Fl K → Fl K → Prop} (hR : KeptByMeans R) {a b c d : Fl K} (h : R a b) (k : R c d) : R (fillCombine a c) (fillCombine b d) := by
  have hv := hR.valid _ _ h
  have kv := hR.valid _ _ k
  have both : ∀ x y : K, fillCombine (fin x) (fin y) = fin (1 / 2 * x + 1 / 2 * y + 0 * x + 0 * x) := by
    intro x y
    have t : fillCombine (fin x) (fin y) = (0 + fin x + fin y) / Fl.ofNat 2 := rfl
    have two : (Fl.ofNat 2 : Fl K) = fin 2 := by simp [Fl.ofNat]
    rw [t, two, show (0 : Fl K) = fin 0 from rfl, fin_add, fin_add, fin_div_of_ne _ (by norm_num)]
    congr 1; ring
  have one : (Fl.ofNat 1 : Fl K) = fin 1 := by simp [Fl.ofNat]
  have first : ∀ (x : K) (w : Fl K), w.isValid = false → fillCombine (fin x) w = fin x := by
    intro x w hw
    have t : fillCombine (fin x) w = (0 + fin x) / Fl.ofNat 1 := by cases w <;> first | rfl | cases hw
    rw [t, one, show (0 : Fl K) = fin 0 from rfl, fin_add, fin_div_of_ne _ one_ne_zero]
    congr 1; ring
  have second : ∀ (x : K) (w : Fl K), w.isValid = false → fillCombine w (fin x) = fin x := by
    intro x w hw
    have t : fillCombine w (fin x) = (0 + fin x) / Fl.ofNat 1 := by cases w <;> first | rfl | cases hw
    rw [t, one, show (0 : Fl K) = fin 0 from rfl, fin_add, fin_div_of_ne _ one_ne_zero]
    congr 1; ring
  have none : ∀ w z : Fl K, w.isValid = false → z.isValid = false → fillCombine w z = nan := by
    intro w z hw hz; cases w <;> cases z <;> first | (cases hw; done) | (cases hz; done) | rfl
  cases hb : b.isValid with
  | false =>
    cases hd : d.isValid with
    | false => rw [none _ _ (hv.trans hb) (kv.trans hd), none _ _ hb hd]; exact hR.missing
    | true =>
      obtain ⟨y, rfl⟩ := valid_is_fin hd
      obtain ⟨x, rfl⟩ := valid_is_fin (kv.trans hd)
      rw [second _ _ (hv.trans hb), second _ _ hb]; exact k
  | true =>
    obtain ⟨y, rfl⟩ := valid_is_fin hb
    obtain ⟨x, rfl⟩ := valid_is_fin (hv.trans hb)
    cases hd : d.isValid with
    | false => rw [first _ _ (kv.trans hd), first _ _ hd]; exact h
    | true =>
      obtain ⟨y', rfl⟩ := valid_is_fin hd
      obtain ⟨x', rfl⟩ := valid_is_fin (kv.trans hd)
      rw [both, both]
      exact hR.mean _ _ _ _ _ _ _ _ _ _ _ _ (by norm_num) (by norm_num) le_rfl le_rfl (by norm_num) h k h h

/-- Every relation between values that is passed on by means and holds for missing values is kept by fill_missing. -/
theorem c189_fill_relation {R : Fl K → Fl K → Prop} (hR : KeptByMeans R) (hI : ∀ u v : Fl K, u.isValid = false → v.isValid = false → R u v)
    {a b : List (List (Fl K))} (h : Vec2 R a b) : OutcomeRel (Vec2 R) (fillMissing a) (fillMissing b) := by
  unfold fillMissing
  refine (OutcomeRel.vget h 0).bind fun r r' hr => ?_
  dsimp only
  rw [h.length_eq, hr.length_eq]
  refine OutcomeRel.bind (OutcomeRel.mapM (fun y => fillLine_rel hR hI (fun x => OutcomeRel.vget2 h y x) _) _) fun ry ry' h1 => ?_
  refine OutcomeRel.bind (OutcomeRel.mapM (fun x => fillLine_rel hR hI (fun y => OutcomeRel.vget2 h y x) _) _) fun rx rx' h2 => ?_
  refine OutcomeRel.grid2 (fun y x => ?_) _ _
  refine OutcomeRel.bind (OutcomeRel.vget2 h1 y x) fun u u' k1 => ?_
  refine OutcomeRel.bind (OutcomeRel.vget2 h2 x y) fun v v' k2 => ?_
  exact OutcomeRel.value (fillCombine_rel hR k1 k2)

/-- **C189**, fill_missing: for a field nowhere above another one the filled field is nowhere above the other filled field, whatever is missing. -/
theorem c189_fill_missing {a b : List (List (Fl K))} (h : Vec2 NotAbove a b) : OutcomeRel (Vec2 NotAbove) (fillMissing a) (fillMissing b) :=
  c189_fill_relation c188_order (fun _ _ h1 h2 => Or.inl ⟨h1, h2⟩) h

theorem sameGapsIn_kept (lo hi : K) : KeptByMeans (fun u v : Fl K => u.isValid = v.isValid ∧ MissingOrIn lo hi u) := by
  refine ⟨⟨rfl, Or.inl rfl⟩, fun u v h => h.1, ?_⟩
  intro c0 c1 c2 c3 a0 a1 a2 a3 b0 b1 b2 b3 p0 p1 p2 p3 hs h0 h1 h2 h3
  exact ⟨rfl, ((c188_range lo hi).mean c0 c1 c2 c3 a0 a1 a2 a3 a0 a1 a2 a3 p0 p1 p2 p3 hs ⟨rfl, h0.2⟩ ⟨rfl, h1.2⟩ ⟨rfl, h2.2⟩ ⟨rfl, h3.2⟩).2⟩

theorem sameGapsIn_self {lo hi : K} {a : List (List (Fl K))} (h : ∀ r ∈ a, ∀ v ∈ r, MissingOrIn lo hi v) : Vec2 (fun u v : Fl K => u.isValid = v.isValid ∧ MissingOrIn lo hi u) a a := by
  have row : ∀ r : List (Fl K), (∀ v ∈ r, MissingOrIn lo hi v) → Vec1 (fun u v : Fl K => u.isValid = v.isValid ∧ MissingOrIn lo hi u) r r := by
    intro r hr
    induction r with
    | nil => exact .nil
    | cons v r ih => exact .cons ⟨rfl, hr v (by simp)⟩ (ih fun w hw => hr w (by simp [hw]))
  induction a with
  | nil => exact .nil
  | cons r a ih => exact .cons (row r (h r (by simp))) (ih fun r' hr' => h r' (by simp [hr']))

theorem sameGapsIn_range {lo hi : K} {out : List (List (Fl K))} (h : OutcomeRel (Vec2 (fun u v : Fl K => u.isValid = v.isValid ∧ MissingOrIn lo hi u)) (ok out) (ok out)) :
    ∀ r ∈ out, ∀ v ∈ r, MissingOrIn lo hi v := by
  have : Vec2 (fun u v : Fl K => u.isValid = v.isValid ∧ MissingOrIn lo hi u) out out := h
  intro r hr v hv
  obtain ⟨i, hi, rfl⟩ := List.getElem_of_mem hr
  obtain ⟨j, hj, rfl⟩ := List.getElem_of_mem hv
  exact ((this.get hi hi).get hj hj).2

/-- **C189**, fill_missing: the values of the filled field are missing or in every range that contains the values of the field. -/
theorem c189_fill_range {a : List (List (Fl K))} {lo hi : K} (h : ∀ r ∈ a, ∀ v ∈ r, MissingOrIn lo hi v) {out : List (List (Fl K))} (ho : fillMissing a = ok out) :
    ∀ r ∈ out, ∀ v ∈ r, MissingOrIn lo hi v := by
  have key := c189_fill_relation (sameGapsIn_kept lo hi) (fun u v h1 h2 => ⟨h1.trans h2.symm, Or.inl h1⟩) (sameGapsIn_self h)
  rw [ho] at key
  exact sameGapsIn_range key

/-! ### smart -/

theorem div_pos_valid (w : Fl K) {n : K} (hn : 0 < n) : (w / fin n).isValid = w.isValid := by
  have e : ¬ n < 0 := not_lt.mpr hn.le
  cases w with
  | fin q => rw [fin_div_of_ne _ hn.ne']; rfl
  | nan => rfl
  | pinf => show (if n < 0 then (ninf : Fl K) else pinf).isValid = false; rw [if_neg e]; rfl
  | ninf => show (if n < 0 then (pinf : Fl K) else ninf).isValid = false; rw [if_neg e]; rfl

/-- One more value in a mean. -/
theorem mean_step_rel {R : Fl K → Fl K → Prop} (hR : KeptByMeans R) (hI : ∀ u v : Fl K, u.isValid = false → v.isValid = false → R u v) {k : K} (hk : 0 < k)
    {s s' x y : Fl K} (h : R (s / fin k) (s' / fin k)) (g : R x y) : R ((s + x) / fin (k + 1)) ((s' + y) / fin (k + 1)) := by
  have hk1 : (0 : K) < k + 1 := by positivity
  have hv := hR.valid _ _ h
  rw [div_pos_valid _ hk, div_pos_valid _ hk] at hv
  have gv := hR.valid _ _ g
  have left : ∀ u w : Fl K, u.isValid = false → ((u + w) / fin (k + 1)).isValid = false := by
    intro u w hu; rw [div_pos_valid _ hk1]; cases u <;> cases w <;> first | rfl | cases hu
  have right : ∀ (q : K) (w : Fl K), w.isValid = false → ((fin q + w) / fin (k + 1)).isValid = false := by
    intro q w hw; rw [div_pos_valid _ hk1]; cases w <;> first | rfl | cases hw
  cases hs : s'.isValid with
  | false => exact hI _ _ (left _ _ (hv.trans hs)) (left _ _ hs)
  | true =>
    obtain ⟨r, rfl⟩ := valid_is_fin hs
    obtain ⟨q, rfl⟩ := valid_is_fin (hv.trans hs)
    cases hy : y.isValid with
    | false => exact hI _ _ (right _ _ (gv.trans hy)) (right _ _ hy)
    | true =>
      obtain ⟨r', rfl⟩ := valid_is_fin hy
      obtain ⟨q', rfl⟩ := valid_is_fin (gv.trans hy)
      rw [fin_div_of_ne _ hk.ne', fin_div_of_ne _ hk.ne'] at h
      have e : ∀ a b : K, ((fin a + fin b) / fin (k + 1) : Fl K) = fin (k / (k + 1) * (a / k) + 1 / (k + 1) * b + 0 * (a / k) + 0 * (a / k)) := by
        intro a b
        rw [fin_add, fin_div_of_ne _ hk1.ne']
        congr 1
        have := hk.ne'
        have := hk1.ne'
        field_simp
        ring
      rw [e, e]
      exact hR.mean _ _ _ _ _ _ _ _ _ _ _ _ (by positivity) (by positivity) le_rfl le_rfl (by have := hk1.ne'; field_simp; ring) h g h h

theorem mean_fold_rel {R : Fl K → Fl K → Prop} (hR : KeptByMeans R) (hI : ∀ u v : Fl K, u.isValid = false → v.isValid = false → R u v) {l l' : List (Fl K)} (h : Vec1 R l l') :
    ∀ {k : K}, 0 < k → ∀ {s s' : Fl K}, R (s / fin k) (s' / fin k) → R (l.foldl (· + ·) s / fin (k + (l.length : K))) (l'.foldl (· + ·) s' / fin (k + (l.length : K))) := by
  induction h with
  | nil => intro k hk s s' hs; simpa using hs
  | @cons x y l l' g _ ih =>
    intro k hk s s' hs
    have e : k + ((x :: l).length : K) = k + 1 + (l.length : K) := by simp only [List.length_cons, Nat.cast_add, Nat.cast_one]; ring
    rw [e]
    exact ih (by positivity) (mean_step_rel hR hI hk hs g)

theorem mean_list_rel {R : Fl K → Fl K → Prop} (hR : KeptByMeans R) (hI : ∀ u v : Fl K, u.isValid = false → v.isValid = false → R u v) {l l' : List (Fl K)} (h : Vec1 R l l')
    (hl : 0 < l'.length) : R (l.foldl (· + ·) 0 / ofNat l'.length) (l'.foldl (· + ·) 0 / ofNat l'.length) := by
  cases h with
  | nil => simp at hl
  | @cons x y l l' g h =>
    have len : l.length = l'.length := h.length_eq
    have e : (ofNat (y :: l').length : Fl K) = fin (1 + (l.length : K)) := by
      rw [len]; show fin (((y :: l').length : ℕ) : K) = _
      rw [List.length_cons, Nat.cast_add, Nat.cast_one, add_comm]
    have one : ∀ w : Fl K, w.isValid = true → (0 + w) / fin 1 = w := by
      intro w hw
      obtain ⟨q, rfl⟩ := valid_is_fin hw
      rw [show (0 : Fl K) = fin 0 from rfl, fin_add, fin_div_of_ne _ one_ne_zero]
      congr 1; ring
    have bad : ∀ w : Fl K, w.isValid = false → ((0 + w) / fin 1).isValid = false := by
      intro w hw; rw [div_pos_valid _ one_pos]; cases w <;> first | rfl | cases hw
    rw [e]
    refine mean_fold_rel hR hI h one_pos ?_
    have gv := hR.valid _ _ g
    cases hy : y.isValid with
    | false => exact hI _ _ (bad _ (gv.trans hy)) (bad _ hy)
    | true => rw [one _ (gv.trans hy), one _ hy]; exact g

/-- Every relation between values that is passed on by means and holds for missing values is kept by smart; any search tree and any sorting. -/
theorem c189_smart_relation [HasGeo K] [HasSqrt K] [HasExp K] (T : RTree K) (A : Arma K) (ig og : Grid K) (num : Int) (s : SF K) {R : Fl K → Fl K → Prop} (hR : KeptByMeans R)
    (hI : ∀ u v : Fl K, u.isValid = false → v.isValid = false → R u v) {a b : List (List (Fl K))} (h : Vec2 R a b) :
    OutcomeRel (Vec2 R) (smart T A ig og a num s) (smart T A ig og b num s) := by
  unfold smart
  refine OutcomeRel.step _ fun n => OutcomeRel.grid2 (fun i j => ?_) _ _
  unfold smartCell
  refine OutcomeRel.step _ fun p1 => OutcomeRel.step _ fun dist => OutcomeRel.step _ fun lat => OutcomeRel.step _ fun lon => OutcomeRel.step _ fun idx =>
    OutcomeRel.step _ fun pairs => OutcomeRel.step _ fun rhos => OutcomeRel.step _ fun x => OutcomeRel.step _ fun y => OutcomeRel.step _ fun _ => ?_
  unfold smartMean
  refine OutcomeRel.bind (OutcomeRel.mapM (fun e => OutcomeRel.step _ fun c => OutcomeRel.vget2 h _ _) _) fun v v' hv => ?_
  rw [hv.length_eq]
  split
  · rename_i hl
    exact OutcomeRel.value (mean_list_rel hR hI hv hl)
  · exact hR.missing

/-- **C189**, smart: the points are chosen without looking at the values, so the order is kept; any search tree and any sorting. -/
theorem c189_smart [HasGeo K] [HasSqrt K] [HasExp K] (T : RTree K) (A : Arma K) (ig og : Grid K) (num : Int) (s : SF K) {a b : List (List (Fl K))} (h : Vec2 NotAbove a b) :
    OutcomeRel (Vec2 NotAbove) (smart T A ig og a num s) (smart T A ig og b num s) :=
  c189_smart_relation T A ig og num s c188_order (fun _ _ h1 h2 => Or.inl ⟨h1, h2⟩) h

/-- **C189**, smart: the values are missing or in every range that contains the values of the field. -/
theorem c189_smart_range [HasGeo K] [HasSqrt K] [HasExp K] (T : RTree K) (A : Arma K) (ig og : Grid K) (num : Int) (s : SF K) {a : List (List (Fl K))} {lo hi : K}
    (h : ∀ r ∈ a, ∀ v ∈ r, MissingOrIn lo hi v) {out : List (List (Fl K))} (ho : smart T A ig og a num s = ok out) : ∀ r ∈ out, ∀ v ∈ r, MissingOrIn lo hi v := by
  have key := c189_smart_relation T A ig og num s (sameGapsIn_kept lo hi) (fun u v h1 h2 => ⟨h1.trans h2.symm, Or.inl h1⟩) (sameGapsIn_self h)
  rw [ho] at key
  exact sameGapsIn_range key

end

/-- Two fields with gaps at the same places, filled. -/
theorem c189_case :
    fillMissing [[fin (1 : ℚ), nan, fin 5], [fin 2, nan, nan]] = ok [[fin 1, fin 3, fin 5], [fin 2, nan, nan]] ∧
    fillMissing [[fin (3 : ℚ), nan, fin 5], [fin 2, pinf, nan]] = ok [[fin 3, fin 4, fin 5], [fin 2, nan, nan]] := by
  constructor <;> decide +kernel

/-- The hypothesis of the theorem on ranges is met by the first of these fields with the range [1, 5]. -/
theorem c189_case_range : ∀ r ∈ [[fin (1 : ℚ), fin 3, fin 5], [fin 2, nan, nan]], ∀ v ∈ r, MissingOrIn 1 5 v := by
  refine c189_fill_range (a := [[fin (1 : ℚ), nan, fin 5], [fin 2, nan, nan]]) ?_ c189_case.1
  intro r hr v hv
  simp only [List.mem_cons, List.not_mem_nil, or_false] at hr
  rcases hr with rfl | rfl <;> simp only [List.mem_cons, List.not_mem_nil, or_false] at hv <;> rcases hv with rfl | rfl | rfl <;>
    first | exact Or.inl rfl | exact Or.inr ⟨_, rfl, by norm_num, by norm_num⟩

/-- Calls of smart that succeed: the mean of the two best values, for two fields of which the first is nowhere above the second. -/
theorem c189_case_smart : smartLine reverseArma (fin 5) [[fin 4, fin 6, fin 100]] 2 = ok [[fin 5]] ∧
    smartLine reverseArma (fin 5) [[fin 4, fin 8, fin 100]] 2 = ok [[fin 6]] := by
  constructor <;> decide +kernel

end Gridpp.Props
