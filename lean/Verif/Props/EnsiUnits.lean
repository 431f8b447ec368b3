import Verif.Props.OIUnits
import Verif.Props.Ensi
import Verif.Props.NeighbourhoodLaws
import Verif.Lemmas.Stats

/-! C174: ensemble-based optimal interpolation in other units. -/

set_option linter.unusedSectionVars false

namespace Gridpp.Props
open Fl Res Spec

section
variable {K : Type} [Field K] [LinearOrder K] [IsStrictOrderedRing K]

/-! ### Loops -/

theorem mapM_mapIdx_arg {α β γ δ : Type} {f : α → Res γ} {f' : β → Res δ} (g : Nat → β → α) (h : Nat → δ → γ) (l : List β)
    (hf : ∀ i b, f (g i b) = h i <$> f' b) : mapM f (l.mapIdx g) = (fun r => r.mapIdx h) <$> mapM f' l := by
  induction l generalizing g h with
  | nil => rfl
  | cons b t ih =>
    rw [List.mapIdx_cons, mapM_cons, mapM_cons, hf, ih (fun i => g (i + 1)) (fun i => h (i + 1)) fun i b => hf (i + 1) b]
    cases f' b with
    | ok v =>
      rw [map_ok, ok_bind, ok_bind]
      cases mapM f' t with
      | ok r => simp only [map_ok, ok_bind, List.mapIdx_cons]
      | _ => rfl
    | _ => rfl

theorem mapM_zipWith {α β γ : Type} (f : α → Res β) (g : α → β → γ) (l : List α) :
    mapM (fun a => g a <$> f a) l = (fun r => List.zipWith g l r) <$> mapM f l := by
  induction l with
  | nil => rfl
  | cons a t ih =>
    rw [mapM_cons, mapM_cons, ih]
    cases f a with
    | ok v =>
      rw [map_ok, ok_bind, ok_bind]
      cases mapM f t with
      | ok r => simp only [map_ok, ok_bind, List.zipWith_cons_cons]
      | _ => rfl
    | _ => rfl

theorem vset_map {α β : Type} (f : α → β) (l : List α) (i : Int) (a : α) : vset (l.map f) i (f a) = List.map f <$> vset l i a := by
  unfold vset
  rw [List.length_map]
  split_ifs
  · rfl
  · rw [map_ok, List.map_set]
  · rfl

theorem writeMembers_map (f : Fl K → Fl K) (row : List (Fl K)) (members : List Nat) (vals : List (Fl K)) :
    writeMembers (row.map f) members (vals.map f) = List.map f <$> writeMembers row members vals := by
  unfold writeMembers
  induction members generalizing row vals with
  | nil => rfl
  | cons a t ih =>
    cases vals with
    | nil => rfl
    | cons v vs =>
      rw [List.map_cons, List.zip_cons_cons, List.zip_cons_cons, foldM_cons, foldM_cons, vset_map, map_bind_eq, bind_map_eq]
      congr 1
      funext r
      exact ih r vs

/-! ### Matrices -/

theorem ent_map (c : K) (M : List (List (Fl K))) (i j : Nat) : ent (M.map (List.map (fin c * ·))) i j = fin c * ent M i j := by
  unfold ent
  simp only [List.getD_eq_getElem?_getD, List.getElem?_map]
  cases M[i]? with
  | none => simp
  | some r =>
    simp only [Option.map_some, Option.getD_some, List.getElem?_map]
    cases r[j]? <;> simp

theorem getD_map_scale (c : K) (l : List (Fl K)) (i : Nat) : (l.map (fin c * ·)).getD i nan = fin c * l.getD i nan := by
  simp only [List.getD_eq_getElem?_getD, List.getElem?_map]
  cases l[i]? <;> simp

theorem tab_scale (c : K) (m n : Nat) (f : Nat → Nat → Fl K) : tab m n (fun i j => fin c * f i j) = (tab m n f).map (List.map (fin c * ·)) := by
  unfold tab
  simp only [List.map_map, Function.comp_def]

theorem sumTo_scale {c : K} (hc : c ≠ 0) (n : Nat) (f : Nat → Fl K) : sumTo n (fun k => fin c * f k) = fin c * sumTo n f := by
  unfold sumTo
  have : ∀ (l : List Nat) (a : Fl K), l.foldl (fun a k => a + fin c * f k) (fin c * a) = fin c * l.foldl (fun a k => a + f k) a := by
    intro l
    induction l with
    | nil => intro a; rfl
    | cons x t ih => intro a; rw [List.foldl_cons, List.foldl_cons, ← scale_add hc, ih]
  rw [← this, scale_zero]

theorem scale_scale {c k : K} (hc : c ≠ 0) (x : Fl K) : fin c * (fin k * x) = fin (c * k) * x := by rw [scale_mul hc, fin_mul]

theorem one_scale (x : Fl K) : fin (1 : K) * x = x := by
  rcases scale_cases (one_ne_zero (α := K)) with ⟨-, e1, e2⟩ | ⟨h, -⟩
  · cases x <;> simp only [e1, e2, mul_nan, fin_mul, one_mul]
  · exact absurd h (not_lt.mpr zero_le_one)

theorem div_scale {k : K} (hk : 0 < k) (x y : Fl K) : x / (fin k * y) = fin k⁻¹ * (x / y) := by
  have h1 : x = fin k * (fin k⁻¹ * x) := by rw [scale_scale hk.ne', mul_inv_cancel₀ hk.ne', one_scale]
  conv_lhs => rw [h1, scale_div hk]
  have hk' := inv_pos.mpr hk
  obtain ⟨-, e1, e2⟩ | ⟨h', -⟩ := scale_cases hk'.ne'
  · cases x with
    | nan => simp only [mul_nan, nan_div]
    | pinf =>
      rw [e1]
      cases y with
      | fin q =>
        show (if q < 0 then ninf else pinf) = fin k⁻¹ * (if q < 0 then ninf else pinf)
        split_ifs <;> simp only [e1, e2]
      | _ => exact (mul_nan _).symm
    | ninf =>
      rw [e2]
      cases y with
      | fin q =>
        show (if q < 0 then pinf else ninf) = fin k⁻¹ * (if q < 0 then pinf else ninf)
        split_ifs <;> simp only [e1, e2]
      | _ => exact (mul_nan _).symm
    | fin p =>
      rw [fin_mul]
      cases y with
      | fin q =>
        rw [fin_div, fin_div]
        split_ifs
        · rw [infOfSign_scale_pos hk', scale_infOfSign hk'.ne', infOfSign_scale_pos hk']
        · rw [fin_mul, mul_div_assoc]
      | nan => simp only [div_nan, mul_nan]
      | pinf => exact (scale_zero _).symm
      | ninf => exact (scale_zero _).symm
  · exact absurd h' (not_lt.mpr hk'.le)

/-! ### Observations -/

/-- What is used of an observation, in other units: the offset is `o`. -/
def obsInUnits (c o : K) (r : EnsiObs K) : EnsiObs K :=
  ⟨inUnits c o r.obs, fin (c * c)⁻¹ * r.rinv, inUnits c o r.yhat, r.y.map (fin c * ·), r.z.map (fin c * ·)⟩

/-- The same observations in other units, each with an offset of its own. -/
def SameObs (c : K) (rows' rows : List (EnsiObs K)) : Prop := List.Forall₂ (fun r' r => ∃ o, r' = obsInUnits c o r) rows' rows

theorem SameObs.length {c : K} {rows' rows : List (EnsiObs K)} (h : SameObs c rows' rows) : rows'.length = rows.length := List.Forall₂.length_eq h

theorem SameObs.map {c : K} {rows' rows : List (EnsiObs K)} (h : SameObs c rows' rows) {β : Type} {f g : EnsiObs K → β}
    (hfg : ∀ o r, f (obsInUnits c o r) = g r) : rows'.map f = rows.map g := by
  induction h with
  | nil => rfl
  | cons h _ ih =>
    obtain ⟨o, rfl⟩ := h
    rw [List.map_cons, List.map_cons, ih, hfg]

theorem SameObs.z {c : K} {rows' rows : List (EnsiObs K)} (h : SameObs c rows' rows) : rows'.map EnsiObs.z = (rows.map EnsiObs.z).map (List.map (fin c * ·)) := by
  rw [h.map (g := fun r => r.z.map (fin c * ·)) fun o r => rfl, List.map_map]
  rfl

theorem SameObs.y {c : K} {rows' rows : List (EnsiObs K)} (h : SameObs c rows' rows) : rows'.map EnsiObs.y = (rows.map EnsiObs.y).map (List.map (fin c * ·)) := by
  rw [h.map (g := fun r => r.y.map (fin c * ·)) fun o r => rfl, List.map_map]
  rfl

theorem SameObs.rinv {c : K} {rows' rows : List (EnsiObs K)} (h : SameObs c rows' rows) : rows'.map EnsiObs.rinv = (rows.map EnsiObs.rinv).map (fin (c * c)⁻¹ * ·) := by
  rw [h.map (g := fun r => fin (c * c)⁻¹ * r.rinv) fun o r => rfl, List.map_map]
  rfl

theorem inUnits_add' {c : K} (hc : c ≠ 0) (d : K) (x y : Fl K) : fin c * x + inUnits c d y = inUnits c d (x + y) := by
  have comm : ∀ x y : Fl K, x + y = y + x := fun x y => by cases x <;> cases y <;> first | rfl | simp only [fin_add, add_comm]
  rw [comm x y, inUnits_add hc, comm]

theorem ensiC_units {c : K} (hc : c ≠ 0) (n : Nat) {rows' rows : List (EnsiObs K)} (h : SameObs c rows' rows) :
    ensiC n rows' = (ensiC n rows).map (List.map (fin c⁻¹ * ·)) := by
  have hr : (c * c)⁻¹ ≠ 0 := inv_ne_zero (mul_ne_zero hc hc)
  unfold ensiC
  rw [h.length, h.z, h.rinv, ← tab_scale]
  congr 1
  funext e i
  rw [← sumTo_scale (inv_ne_zero hc)]
  congr 1
  funext l
  rw [ent_map, getD_map_scale]
  have : (if l = i then fin (c * c)⁻¹ * (rows.map EnsiObs.rinv).getD i nan else 0) = fin (c * c)⁻¹ * (if l = i then (rows.map EnsiObs.rinv).getD i nan else 0) := by
    split_ifs
    · rfl
    · exact (scale_zero _).symm
  rw [this, scale_mul_right hr, ← scale_mul hc, scale_scale hr, mul_inv, mul_assoc, inv_mul_cancel₀ hc, mul_one]

theorem ensiPinv_units {c : K} (hc : c ≠ 0) (n : Nat) {rows' rows : List (EnsiObs K)} (h : SameObs c rows' rows) (diag : Fl K) :
    ensiPinv n rows' diag = ensiPinv n rows diag := by
  unfold ensiPinv
  rw [ensiC_units hc n h, h.length, h.z]
  congr 1
  funext e f
  congr 2
  funext i
  rw [ent_map, ent_map, scale_mul_right hc, ← scale_mul (inv_ne_zero hc), scale_scale hc, mul_inv_cancel₀ hc, one_scale]

theorem ensiWeights_units {c : K} (hc : c ≠ 0) (n : Nat) {rows' rows : List (EnsiObs K)} (h : SameObs c rows' rows) (P : List (List (Fl K))) :
    ensiWeights n rows' P = ensiWeights n rows P := by
  have hm : mmul n n rows.length P ((ensiC n rows).map (List.map (fin c⁻¹ * ·))) = (mmul n n rows.length P (ensiC n rows)).map (List.map (fin c⁻¹ * ·)) := by
    unfold mmul
    rw [← tab_scale]
    congr 1
    funext i j
    rw [← sumTo_scale (inv_ne_zero hc)]
    congr 1
    funext l
    rw [ent_map, scale_mul_right (inv_ne_zero hc)]
  have hd : rows'.map (fun r => r.obs - r.yhat) = (rows.map fun r => r.obs - r.yhat).map (fin c * ·) := by
    rw [h.map (g := fun r => fin c * (r.obs - r.yhat)) fun o r => inUnits_sub hc o _ _, List.map_map]
    rfl
  unfold ensiWeights
  rw [ensiC_units hc n h, h.length, hm, hd]
  congr 1
  funext e
  congr 1
  funext i
  rw [ent_map, getD_map_scale, scale_mul_right hc, ← scale_mul (inv_ne_zero hc), scale_scale hc, mul_inv_cancel₀ hc, one_scale]

theorem ensiTransform_units [HasSqrt K] {c : K} (hc : c ≠ 0) (A : ArmaE K) (n : Nat) {rows' rows : List (EnsiObs K)} (h : SameObs c rows' rows) (diag : Fl K) :
    ensiTransform A n rows' diag = ensiTransform A n rows diag := by
  unfold ensiTransform
  rw [ensiPinv_units hc n h]
  have : ∀ P r, ensiFactor n rows' P r = ensiFactor n rows P r := by
    rintro P (_ | ⟨lam, V⟩)
    · rfl
    · unfold ensiFactor
      rw [ensiWeights_units hc n h]
  simp only [this]

/-! ### Members -/

theorem ensiLimit_units {c : K} (hc : c ≠ 0) {rows' rows : List (EnsiObs K)} (h : SameObs c rows' rows) (e : Nat) (x inc : Fl K) :
    ensiLimit rows' e (fin c * x) (fin c * inc) = fin c * ensiLimit rows e x inc := by
  have he : ensiElement rows' e = fin c * ensiElement rows e := by
    unfold ensiElement
    rw [h.y, h.length, ent_map]
  have hd : rows'.map (fun r => r.obs - (ensiElement rows' e + r.yhat)) = (rows.map fun r => r.obs - (ensiElement rows e + r.yhat)).map (fin c * ·) := by
    rw [he, h.map (g := fun r => fin c * (r.obs - (ensiElement rows e + r.yhat))) fun o r => ?_, List.map_map]
    · rfl
    · show inUnits c o r.obs - (fin c * ensiElement rows e + inUnits c o r.yhat) = _
      rw [inUnits_add' hc, inUnits_sub hc]
  unfold ensiLimit
  simp only [hd, ← scale_sub hc]
  generalize (rows.map fun r => r.obs - (ensiElement rows e + r.yhat)) = v
  generalize hm : inc - x = i
  have z : ∀ x : Fl K, 0 + fin c * x = fin c * (0 + x) := fun x => by rw [scale_add hc, scale_zero]
  rcases lt_or_gt_of_ne hc with hs | hs
  · rw [(armaMax_scale_neg hs v).1, (armaMax_scale_neg hs v).2]
    generalize armaMin v = a
    generalize armaMax v = b
    have h0 : ∀ x : Fl K, (fin c * x).lt 0 = x.gt 0 := fun x => by
      conv_lhs => rw [← scale_zero c, scale_lt_neg hs]
      rfl
    have h1 : ∀ x : Fl K, (fin c * x).gt 0 = x.lt 0 := fun x => by
      show (0 : Fl K).lt _ = _
      conv_lhs => rw [← scale_zero c, scale_lt_neg hs]
    have h2 : ∀ x y : Fl K, (fin c * x).gt (fin c * y) = x.lt y := fun x y => scale_lt_neg hs y x
    have h3 : ∀ x y : Fl K, (fin c * x).lt (fin c * y) = x.gt y := fun x y => scale_lt_neg hs x y
    simp only [h0, h1, h2, h3, ← scale_add hc, z]
    rcases Bool.eq_false_or_eq_true (i.gt 0) with hi | hi
    · have n1 : i.lt 0 = false := fl_lt_asymm hi
      have n2 : (a.lt 0 && i.lt a) = false := by
        rcases Bool.eq_false_or_eq_true (a.lt 0 && i.lt a) with h | h
        · obtain ⟨u, v⟩ := Bool.and_eq_true_iff.mp h
          rw [fl_lt_trans v u] at n1
          cases n1
        · exact h
      rw [n1, n2, hi]
      simp only [Bool.and_false, Bool.false_eq_true, if_false]
      split_ifs <;> rfl
    · have n2 : (b.gt 0 && i.gt b) = false := by
        rcases Bool.eq_false_or_eq_true (b.gt 0 && i.gt b) with h | h
        · obtain ⟨u, v⟩ := Bool.and_eq_true_iff.mp h
          have := fl_lt_trans u v
          rw [show Fl.gt i 0 = (0 : Fl K).lt i from rfl, this] at hi
          cases hi
        · exact h
      rw [n2, hi]
      simp only [Bool.and_false, Bool.false_eq_true, if_false]
      split_ifs <;> rfl
  · rw [(armaMax_scale_pos hs v).1, (armaMax_scale_pos hs v).2]
    have h0 : ∀ x : Fl K, (fin c * x).lt 0 = x.lt 0 := fun x => by conv_lhs => rw [← scale_zero c, scale_lt_pos hs]
    have h1 : ∀ x : Fl K, (fin c * x).gt 0 = x.gt 0 := fun x => by
      show (0 : Fl K).lt _ = _
      conv_lhs => rw [← scale_zero c, scale_lt_pos hs]
      rfl
    have h2 : ∀ x y : Fl K, (fin c * x).gt (fin c * y) = x.gt y := fun x y => scale_lt_pos hs y x
    simp only [h0, h1, h2, scale_lt_pos hs, ← scale_add hc, z]
    split_ifs <;> rfl

theorem ensiMember_units {c : K} (hc : c ≠ 0) (d : K) {rows' rows : List (EnsiObs K)} (h : SameObs c rows' rows) (extrap : Bool) (mean : Fl K) (X : List (Fl K))
    (W : Nat → Nat → Fl K) (e : Nat) :
    ensiMember rows' extrap (inUnits c d mean) (X.map (fin c * ·)) W e = inUnits c d (ensiMember rows extrap mean X W e) := by
  unfold ensiMember
  have hs : (sumTo (X.map (fin c * ·)).length fun k => (X.map (fin c * ·)).getD k nan * W k e) = fin c * sumTo X.length fun k => X.getD k nan * W k e := by
    rw [List.length_map, ← sumTo_scale hc]
    congr 1
    funext k
    rw [getD_map_scale, ← scale_mul hc]
  simp only [hs]
  simp only [getD_map_scale, ensiLimit_units hc h]
  rw [inUnits_add hc]
  split_ifs <;> rfl

theorem mean_units (c d : K) (ps : List K) (h : ps ≠ []) :
    (sumTo ((ps.map fin).map (inUnits c d)).length fun k => ((ps.map fin).map (inUnits c d)).getD k nan) / Fl.ofNat ((ps.map fin).map (inUnits c d)).length =
      inUnits c d ((sumTo (ps.map (fin (K := K))).length fun k => (ps.map fin).getD k nan) / Fl.ofNat (ps.map (fin (K := K))).length) := by
  have key : ∀ qs : List K, (sumTo (qs.map (fin (K := K))).length fun k => (qs.map fin).getD k nan) = fin qs.sum := by
    intro qs
    unfold sumTo
    induction qs using List.reverseRecOn with
    | nil => rfl
    | append_singleton l a ih =>
      rw [List.map_append, List.length_append, List.map_cons, List.map_nil, List.length_singleton, List.range_succ, List.foldl_append, List.foldl_cons, List.foldl_nil]
      have : (List.range (l.map (fin (K := K))).length).foldl (fun a_1 k => a_1 + (l.map fin ++ [fin a]).getD k nan) 0 =
          (List.range (l.map (fin (K := K))).length).foldl (fun a k => a + (l.map fin).getD k nan) 0 := by
        apply List.foldl_ext
        intro b k hk
        rw [List.getD_eq_getElem?_getD, List.getElem?_append_left (List.mem_range.mp hk), ← List.getD_eq_getElem?_getD]
      rw [this, ih]
      simp [List.getD_eq_getElem?_getD]
  have hmap : (ps.map fin).map (inUnits c d) = (ps.map fun v => c * v + d).map fin := by
    rw [List.map_map, List.map_map]
    rfl
  have hn : (ps.length : K) ≠ 0 := Nat.cast_ne_zero.mpr fun e => h (List.length_eq_zero_iff.mp e)
  have hsum : (ps.map fun v => c * v + d).sum = c * ps.sum + ps.length * d := by
    clear h hn hmap key
    induction ps with
    | nil => simp
    | cons a t ih =>
      rw [List.map_cons, List.sum_cons, List.sum_cons, ih, List.length_cons, Nat.cast_succ]
      ring
  rw [hmap, key, key]
  simp only [List.length_map, hsum, Fl.ofNat, fin_div, hn, if_false, inUnits, fin_mul, fin_add]
  congr 1
  field_simp

theorem meanStat_units (c o : K) (row : List (Fl K)) : meanStat (row.map (inUnits c o)) = inUnits c o (meanStat row) := by
  unfold meanStat
  rw [sumCount_eq, sumCount_eq, vals_inUnits]
  generalize vals row = ps
  simp only [List.length_map]
  split_ifs with h
  · have hn : (ps.length : K) ≠ 0 := Nat.cast_ne_zero.mpr h.ne'
    have hsum : (ps.map fun v => c * v + o).sum = c * ps.sum + ps.length * o := by
      clear h hn
      induction ps with
      | nil => simp
      | cons a t ih =>
        rw [List.map_cons, List.sum_cons, List.sum_cons, ih, List.length_cons, Nat.cast_succ]
        ring
    simp only [hsum, Fl.ofNat, fin_div, hn, if_false, inUnits, fin_mul, fin_add]
    congr 1
    field_simp
  · rfl

theorem meanStat_invalid {row : List (Fl K)} (h : (meanStat row).isValid = false) : ∀ v ∈ row, v.isValid = false := by
  intro v hv
  rcases Bool.eq_false_or_eq_true v.isValid with hv' | hv'
  · obtain ⟨q, rfl⟩ := exists_fin_of_valid hv'
    have hm : q ∈ vals row := mem_vals.mpr hv
    unfold meanStat at h
    rw [sumCount_eq] at h
    have hp := List.length_pos_of_mem hm
    simp only [hp, if_true, Fl.ofNat, fin_div, Nat.cast_ne_zero.mpr hp.ne', if_false] at h
    cases h
  · exact hv'

theorem invalid_inUnits {c : K} (hc : c ≠ 0) (o : K) {v : Fl K} (h : v.isValid = false) : inUnits c o v = fin c * v := by
  unfold inUnits
  rcases scale_cases hc with ⟨-, e1, e2⟩ | ⟨-, e1, e2⟩ <;> cases v <;> first | (simp only [e1, e2, mul_nan] ; rfl) | cases h

theorem ensiPerturb_units {c : K} (hc : c ≠ 0) (o : K) (n : Nat) (row : List (Fl K)) :
    ensiPerturb n (row.map (inUnits c o)) = (fun g => (g.1.map (fin c * ·), inUnits c o g.2)) <$> ensiPerturb n row := by
  have hm : ∀ e : Nat, (do
      let v ← vget (row.map (inUnits c o)) (e : Int)
      ok (if v.isValid && (meanStat (row.map (inUnits c o))).isValid then v - meanStat (row.map (inUnits c o)) else v) : Res (Fl K)) = (fin c * ·) <$> (do
      let v ← vget row (e : Int)
      ok (if v.isValid && (meanStat row).isValid then v - meanStat row else v)) := by
    intro e
    rw [vget_map, map_bind_eq, bind_map_eq, meanStat_units]
    cases hv : vget row (e : Int) with
    | ok v =>
      rw [ok_bind, ok_bind, map_ok, inUnits_isValid hc, inUnits_isValid hc]
      congr 1
      split_ifs with h
      · exact inUnits_sub hc o _ _
      · refine invalid_inUnits hc o ?_
        rw [Bool.and_eq_true, not_and_or, Bool.not_eq_true, Bool.not_eq_true] at h
        rcases h with h | h
        · exact h
        · refine meanStat_invalid h v ?_
          obtain ⟨_, -, h2⟩ := vget_eq_ok.mp hv
          exact List.mem_of_getElem? h2
    | _ => rfl
  unfold ensiPerturb
  simp only [hm]
  rw [mapM_map_eq, map_bind_eq, bind_map_eq, meanStat_units]
  rfl

theorem ensiRow_units {c : K} (hc : c ≠ 0) (o : Nat → K) (members : List Nat) (pobs psigmas : List (Fl K)) (gY : List (List (Fl K) × Fl K)) (e : Fl K × Nat) :
    ensiRow members (inUnitsEach c o pobs) (psigmas.map (fin |c| * ·)) (gY.mapIdx fun i g => (g.1.map (fin c * ·), inUnits c (o i) g.2)) e =
      obsInUnits c (o e.2) <$> ensiRow members pobs psigmas gY e := by
  have habs : |c| ≠ 0 := abs_ne_zero.mpr hc
  have hs : ∀ x sg : Fl K, x / ((fin |c| * sg) * (fin |c| * sg)) = fin (c * c)⁻¹ * (x / (sg * sg)) := by
    intro x sg
    rw [scale_mul_right habs, ← scale_mul habs, scale_scale habs, abs_mul_abs_self, div_scale (mul_self_pos.mpr hc)]
  unfold ensiRow
  simp only [vget_inUnitsEach, vget_mapIdx, vget_map, map_bind_eq, bind_map_eq, mapM_map_eq, hs]
  rfl

theorem ensiUpdate_units {c : K} (hc : c ≠ 0) (d : K) (row : List (Fl K)) (members : List Nat) {rows' rows : List (EnsiObs K)} (h : SameObs c rows' rows) (extrap : Bool)
    (hv : ∀ e ∈ members, ∃ q, row[e]? = some (fin q)) (t : Option (List (List (Fl K)) × List (Fl K))) :
    ensiUpdate (row.map (inUnits c d)) members rows' extrap t = List.map (inUnits c d) <$> ensiUpdate row members rows extrap t := by
  cases t with
  | none => rfl
  | some Ww =>
    obtain ⟨W, w⟩ := Ww
    obtain ⟨ps, hps⟩ : ∃ ps : List K, mapM (fun ei : Nat => vget row (ei : Int)) members = ok (ps.map fin) := by
      clear h
      induction members with
      | nil => exact ⟨[], rfl⟩
      | cons a m ih =>
        obtain ⟨q, hq⟩ := hv a (List.mem_cons_self ..)
        obtain ⟨ps, hps⟩ := ih fun e he => hv e (List.mem_cons_of_mem _ he)
        exact ⟨q :: ps, by rw [mapM_cons, vget_some hq, ok_bind, hps, ok_bind]; rfl⟩
    have hl : ps.length = members.length := by simpa using mapM_length hps
    unfold ensiUpdate
    simp only [vget_map, mapM_map_eq, map_bind_eq, bind_map_eq]
    rw [hps, ok_bind, ok_bind]
    by_cases h0 : ps = []
    · have hm : members = [] := List.length_eq_zero_iff.mp (by rw [← hl, h0]; rfl)
      subst hm
      rfl
    · rw [mean_units c d ps h0]
      generalize ((sumTo (ps.map (fin (K := K))).length fun k => (ps.map fin).getD k nan) / Fl.ofNat (ps.map (fin (K := K))).length) = mean
      rw [← writeMembers_map, List.map_map (f := ensiMember _ _ _ _ _)]
      congr 1
      refine List.map_congr_left fun e _ => ?_
      rw [Function.comp_apply, ← ensiMember_units hc d h]
      congr 1
      rw [List.map_map (f := inUnits c d), List.map_map (f := fun v => v - mean)]
      refine List.map_congr_left fun v _ => ?_
      exact inUnits_sub hc d _ _

theorem ensiUsable_units {c : K} (hc : c ≠ 0) (o : Nat → K) (idx : List Nat) (rhos : List (Fl K)) (obs : Nat → Res (Fl K)) :
    ensiUsable idx rhos (fun i => inUnits c (o i) <$> obs i) = ensiUsable idx rhos obs := by
  unfold ensiUsable
  simp only [map_bind_eq, inUnits_isValid hc]

theorem validMembers_units {c : K} (hc : c ≠ 0) (d : Nat → K) (n : Nat) (rows : List (List (Fl K))) :
    validMembers n (rows.mapIdx fun y r => r.map (inUnits c (d y))) = validMembers n rows := by
  have hm : ∀ e, memberValid (rows.mapIdx fun y r => r.map (inUnits c (d y))) e = memberValid rows e := by
    intro e
    unfold memberValid
    rw [mapM_mapIdx_arg (f' := fun r => do
      let v ← vget r (e : Int)
      ok v.isValid) (h := fun _ => id)]
    · rw [map_bind_eq]
      congr 1
      funext bs
      congr 2
      apply List.ext_getElem <;> simp
    · intro i r
      rw [vget_map, map_bind_eq, bind_map_eq]
      congr 1
      funext v
      rw [inUnits_isValid hc]
      rfl
  unfold validMembers
  simp only [hm]

theorem forall₂_left {α β : Type} {R : α → β → Prop} {l : List α} {bs : List β} (h : List.Forall₂ R l bs) {a : α} (ha : a ∈ l) : ∃ b ∈ bs, R a b := by
  induction h with
  | nil => cases ha
  | cons hr _ ih =>
    rcases List.mem_cons.mp ha with rfl | ha
    · exact ⟨_, List.mem_cons_self .., hr⟩
    · obtain ⟨b, hb, hr⟩ := ih ha
      exact ⟨b, List.mem_cons_of_mem _ hb, hr⟩

theorem forall₂_right {α β : Type} {R : α → β → Prop} {l : List α} {bs : List β} (h : List.Forall₂ R l bs) {b : β} (hb : b ∈ bs) : ∃ a ∈ l, R a b := by
  obtain ⟨a, ha, hr⟩ := forall₂_left h.flip hb
  exact ⟨a, ha, hr⟩

theorem valid_of_validMembers {n : Nat} {rows : List (List (Fl K))} {members : List Nat} (h : validMembers n rows = ok members) :
    ∀ row ∈ rows, ∀ e ∈ members, ∃ q, row[e]? = some (fin q) := by
  intro row hrow e he
  unfold validMembers at h
  obtain ⟨bs, h1, h2⟩ := bind_eq_ok.mp h
  cases h2
  obtain ⟨x, hx, rfl⟩ := List.mem_filterMap.mp he
  obtain ⟨a, -, h3⟩ := forall₂_right (mapM_eq_ok h1) hx
  obtain ⟨b, h4, h5⟩ := bind_eq_ok.mp h3
  cases b with
  | false => cases h5
  | true =>
    cases h5
    unfold memberValid at h4
    obtain ⟨vs, h6, h7⟩ := bind_eq_ok.mp h4
    obtain ⟨v, hv, h8⟩ := forall₂_left (mapM_eq_ok h6) hrow
    obtain ⟨w, h9, h10⟩ := bind_eq_ok.mp h8
    have hv' := List.all_eq_true.mp (Res.ok.inj h7) v hv
    cases h10
    obtain ⟨q, rfl⟩ := exists_fin_of_valid hv'
    obtain ⟨k, hk, hk'⟩ := vget_eq_ok.mp h9
    cases Int.ofNat_inj.mp hk
    exact ⟨q, hk'⟩

theorem sameObs_zipWith (c : K) (o : Nat → K) (sel : List (Fl K × Nat)) (rows : List (EnsiObs K)) (hl : rows.length = sel.length) :
    SameObs c (List.zipWith (fun e r => obsInUnits c (o e.2) r) sel rows) rows := by
  induction sel generalizing rows with
  | nil =>
    cases rows with
    | nil => exact .nil
    | cons _ _ => cases hl
  | cons a t ih =>
    cases rows with
    | nil => cases hl
    | cons r rs => exact .cons ⟨_, rfl⟩ (ih rs (by simpa using hl))

theorem ensiCell_units [HasGeo K] [HasSqrt K] [HasExp K] {c : K} (hc : c ≠ 0) (d o : Nat → K) (T : RTree K) (A : ArmaE K) (bp points : Points K) (pts : List (Point K)) (s : SF K)
    (maxPoints : Int) (extrap : Bool) (background : List (List (Fl K))) (pobs psigmas : List (Fl K)) (gY : List (List (Fl K) × Fl K)) (members : List Nat) (y : Nat)
    (hv : ∀ row ∈ background, ∀ e ∈ members, ∃ q, row[e]? = some (fin q)) :
    ensiCell T A bp points pts s maxPoints extrap (ensInUnits c d background) (inUnitsEach c o pobs) (psigmas.map (fin |c| * ·))
        (gY.mapIdx fun i g => (g.1.map (fin c * ·), inUnits c (o i) g.2)) members y =
      List.map (inUnits c (d y)) <$> ensiCell T A bp points pts s maxPoints extrap background pobs psigmas gY members y := by
  have hsel : ensiSelect T A.toArma bp points pts s maxPoints (fun i => vget (inUnitsEach c o pobs) (i : Int)) y =
      ensiSelect T A.toArma bp points pts s maxPoints (fun i => vget pobs (i : Int)) y := by
    unfold ensiSelect
    simp only [vget_inUnitsEach, ensiUsable_units hc]
  unfold ensiCell
  rw [hsel, ensInUnits, vget_mapIdx, map_bind_eq, bind_map_eq]
  cases hrow : vget background (y : Int) with
  | ok row =>
    rw [ok_bind, ok_bind, bind_map_eq]
    congr 1
    funext sel
    split
    · rfl
    · have e1 : mapM (ensiRow members (inUnitsEach c o pobs) (psigmas.map (fin |c| * ·)) (gY.mapIdx fun i g => (g.1.map (fin c * ·), inUnits c (o i) g.2))) sel =
          (fun r => List.zipWith (fun e r => obsInUnits c (o e.2) r) sel r) <$> mapM (ensiRow members pobs psigmas gY) sel := by
        rw [← mapM_zipWith]
        congr 1
        funext e
        exact ensiRow_units hc o members pobs psigmas gY e
      rw [e1, map_bind_eq, bind_map_eq]
      cases hr : mapM (ensiRow members pobs psigmas gY) sel with
      | ok rows =>
        have hl := mapM_length hr
        have hsame : SameObs c (List.zipWith (fun e r => obsInUnits c (o e.2) r) sel rows) rows := by
          exact sameObs_zipWith c o sel rows hl
        rw [ok_bind, ok_bind, ensiTransform_units hc A _ hsame, bind_map_eq]
        congr 1
        funext t
        obtain ⟨_, -, h2⟩ := vget_eq_ok.mp hrow
        exact ensiUpdate_units hc (d y) row members hsame extrap (hv row (List.mem_of_getElem? h2)) t
      | _ => rfl
  | _ => rfl

/-- **C174**: `optimal_interpolation_ensi` for points. If the background is in other units (a factor and an offset of its own for every output point), the
observations and their background too (an offset for every observation), and the standard deviations of the observation errors are multiplied by the size of the
factor, then the analysis is in the other units, and the call ends in the same way otherwise. -/
theorem c174_points [HasGeo K] [HasSqrt K] [HasExp K] (c : K) (hc : c ≠ 0) (d o : Nat → K) (T : RTree K) (A : ArmaE K) (bp : Points K) (background : List (List (Fl K)))
    (points : Points K) (pobs psigmas : List (Fl K)) (pbg : List (List (Fl K))) (s : SF K) (maxPoints : Int) (extrap : Bool) :
    ensiPoints T A bp (ensInUnits c d background) points (inUnitsEach c o pobs) (psigmas.map (fin |c| * ·)) (ensInUnits c o pbg) s maxPoints extrap =
      ensInUnits c d <$> ensiPoints T A bp background points pobs psigmas pbg s maxPoints extrap := by
  have hlen : ∀ f (a : List (List (Fl K))), (ensInUnits c f a).length = a.length := fun f a => List.length_mapIdx
  have h0 : vget (ensInUnits c d background) 0 = (List.map (inUnits c (d 0))) <$> vget background 0 := vget_mapIdx _ background 0
  have hg : ∀ n, mapM (ensiPerturb n) (ensInUnits c o pbg) = (fun r => r.mapIdx fun i g => (g.1.map (fin c * ·), inUnits c (o i) g.2)) <$> mapM (ensiPerturb n) pbg :=
    fun n => mapM_mapIdx_arg _ _ _ fun i b => ensiPerturb_units hc (o i) n b
  have hvm : ∀ n, validMembers n (ensInUnits c d background) = validMembers n background := fun n => validMembers_units hc d n background
  unfold ensiPoints
  simp only [hlen, length_inUnitsEach, List.length_map, h0, hg, hvm, map_bind_eq]
  split_ifs <;> try rfl
  rw [bind_map_eq]
  congr 1
  funext r0
  rw [bind_map_eq]
  congr 1
  funext gY
  rw [bind_map_eq]
  congr 1
  funext pts
  rw [bind_map_eq]
  cases hmem : validMembers r0.length background with
  | ok members =>
    rw [ok_bind, ok_bind]
    have := mapM_mapIdx (ensiCell T A bp points pts s maxPoints extrap background pobs psigmas gY members) (fun y => List.map (inUnits c (d y))) background.length 0
    rw [List.range_eq_range']
    simp only [Nat.sub_zero] at this
    rw [show (ensInUnits c d : List (List (Fl K)) → _) = fun l => l.mapIdx fun y => List.map (inUnits c (d y)) from rfl, ← this]
    congr 1
    funext y
    exact ensiCell_units hc d o T A bp points pts s maxPoints extrap background pobs psigmas gY members y (valid_of_validMembers hmem)
  | _ => rfl

/-! ### The variants with two ensembles -/

theorem foldM_map_eq {α β γ : Type} {f : β → α → Res β} {f' : γ → α → Res γ} (g : β → γ) (h : ∀ b a, f' (g b) a = g <$> f b a) (b : β) (l : List α) :
    foldM f' (g b) l = g <$> foldM f b l := by
  induction l generalizing b with
  | nil => rfl
  | cons a t ih =>
    rw [foldM_cons, foldM_cons, h, map_bind_eq, bind_map_eq]
    congr 1
    funext b'
    exact ih b'

/-- The same places in another form: the values present are the same ones. -/
def SameValid (rows' rows : List (List (Fl K))) : Prop :=
  List.Forall₂ (fun r' r => ∃ f : Fl K → Fl K, (∀ v, (f v).isValid = v.isValid) ∧ r' = r.map f) rows' rows

theorem sameValid_refl (rows : List (List (Fl K))) : SameValid rows rows := by
  induction rows with
  | nil => exact .nil
  | cons r t ih => exact .cons ⟨id, fun _ => rfl, (List.map_id r).symm⟩ ih

theorem sameValid_units {c : K} (hc : c ≠ 0) (d : Nat → K) (rows : List (List (Fl K))) : SameValid (ensInUnits c d rows) rows := by
  unfold ensInUnits
  induction rows generalizing d with
  | nil => exact .nil
  | cons r t ih =>
    rw [List.mapIdx_cons]
    exact .cons ⟨inUnits c (d 0), inUnits_isValid hc _, rfl⟩ (ih fun i => d (i + 1))

theorem SameValid.append {a' a b' b : List (List (Fl K))} (h1 : SameValid a' a) (h2 : SameValid b' b) : SameValid (a' ++ b') (a ++ b) := by
  induction h1 with
  | nil => exact h2
  | cons h _ ih => exact .cons h ih

theorem SameValid.members {rows' rows : List (List (Fl K))} (h : SameValid rows' rows) (n : Nat) : validMembers n rows' = validMembers n rows := by
  have hm : ∀ e, memberValid rows' e = memberValid rows e := by
    intro e
    unfold memberValid
    congr 1
    induction h with
    | nil => rfl
    | cons hr _ ih =>
      obtain ⟨f, hf, rfl⟩ := hr
      rw [mapM_cons, mapM_cons, ih, vget_map, map_bind_eq]
      simp only [hf]
  unfold validMembers
  simp only [hm]

theorem multiInnov_units {c : K} (hc : c ≠ 0) (o : K) (members : List Nat) (obs pb : List (Fl K)) :
    multiInnov members (obs.map (inUnits c o)) (pb.map (inUnits c o)) = List.map (fin c * ·) <$> multiInnov members obs pb := by
  unfold multiInnov
  rw [← foldM_map_eq (f' := fun (row : List (Fl K)) (ei : Nat) => do
      let o' ← vget (obs.map (inUnits c o)) (ei : Int)
      let b ← vget (pb.map (inUnits c o)) (ei : Int)
      if ei < members.length then vset row (ei : Int) (o' - b) else .throw .logicError)]
  · rw [List.map_replicate, scale_zero]
  · intro row ei
    simp only [vget_map, map_bind_eq, bind_map_eq, inUnits_sub hc]
    congr 1
    funext u
    congr 1
    funext v
    split_ifs
    · exact vset_map (fin c * ·) row _ _
    · rfl

/-- An observation with its departures in other units. -/
def multiScale (c : K) (r : MultiObs K) : MultiObs K := { r with innov := r.innov.map (fin c * ·) }

theorem vget_ensInUnits (c : K) (d : Nat → K) (a : List (List (Fl K))) (i : Nat) : vget (ensInUnits c d a) (i : Int) = List.map (inUnits c (d i)) <$> vget a (i : Int) :=
  vget_mapIdx _ a i

theorem multiRow_units [HasGeo K] [HasSqrt K] [HasExp K] {c : K} (hc : c ≠ 0) (o : Nat → K) (T : RTree K) (s : SF K) (pts : List (Point K)) (members : List Nat)
    (pobs : List (List (Fl K))) (pratios : List (Fl K)) (pbg : List (List (Fl K))) (z : Nat → Res (List (Fl K))) (sel : List (Fl K × Nat)) (e : Fl K × Nat) :
    multiRow T s pts members (ensInUnits c o pobs) pratios (ensInUnits c o pbg) z sel e = multiScale c <$> multiRow T s pts members pobs pratios pbg z sel e := by
  unfold multiRow
  simp only [vget_ensInUnits, map_bind_eq, bind_map_eq, multiInnov_units hc]
  rfl

theorem multiLimit_units {c : K} (hc : c ≠ 0) (i : Fl K) (v : List (Fl K)) :
    multiLimit (fin c * i) (armaMin (v.map (fin c * ·))) (armaMax (v.map (fin c * ·))) = fin c * multiLimit i (armaMin v) (armaMax v) := by
  unfold multiLimit
  rcases lt_or_gt_of_ne hc with hs | hs
  · rw [(armaMax_scale_neg hs v).1, (armaMax_scale_neg hs v).2]
    generalize armaMin v = a
    generalize armaMax v = b
    have h0 : ∀ x : Fl K, (fin c * x).lt 0 = x.gt 0 := fun x => by
      conv_lhs => rw [← scale_zero c, scale_lt_neg hs]
      rfl
    have h1 : ∀ x : Fl K, (fin c * x).gt 0 = x.lt 0 := fun x => by
      show (0 : Fl K).lt _ = _
      conv_lhs => rw [← scale_zero c, scale_lt_neg hs]
    have h2 : ∀ x y : Fl K, (fin c * x).gt (fin c * y) = x.lt y := fun x y => scale_lt_neg hs y x
    have h3 : ∀ x y : Fl K, (fin c * x).lt (fin c * y) = x.gt y := fun x y => scale_lt_neg hs x y
    simp only [h0, h1, h2, h3]
    rcases Bool.eq_false_or_eq_true (i.gt 0) with hi | hi
    · have n1 : i.lt 0 = false := fl_lt_asymm hi
      have n2 : (a.lt 0 && i.lt a) = false := by
        rcases Bool.eq_false_or_eq_true (a.lt 0 && i.lt a) with h | h
        · obtain ⟨u, v⟩ := Bool.and_eq_true_iff.mp h
          rw [fl_lt_trans v u] at n1
          cases n1
        · exact h
      rw [n1, n2, hi]
      simp only [Bool.and_false, Bool.false_eq_true, if_false]
      split_ifs <;> first | rfl | exact (scale_zero c).symm
    · have n2 : (b.gt 0 && i.gt b) = false := by
        rcases Bool.eq_false_or_eq_true (b.gt 0 && i.gt b) with h | h
        · obtain ⟨u, v⟩ := Bool.and_eq_true_iff.mp h
          have := fl_lt_trans u v
          rw [show Fl.gt i 0 = (0 : Fl K).lt i from rfl, this] at hi
          cases hi
        · exact h
      rw [n2, hi]
      simp only [Bool.and_false, Bool.false_eq_true, if_false]
      split_ifs <;> first | rfl | exact (scale_zero c).symm
  · rw [(armaMax_scale_pos hs v).1, (armaMax_scale_pos hs v).2]
    have h0 : ∀ x : Fl K, (fin c * x).lt 0 = x.lt 0 := fun x => by conv_lhs => rw [← scale_zero c, scale_lt_pos hs]
    have h1 : ∀ x : Fl K, (fin c * x).gt 0 = x.gt 0 := fun x => by
      show (0 : Fl K).lt _ = _
      conv_lhs => rw [← scale_zero c, scale_lt_pos hs]
      rfl
    have h2 : ∀ x y : Fl K, (fin c * x).gt (fin c * y) = x.gt y := fun x y => scale_lt_pos hs y x
    simp only [h0, h1, h2, scale_lt_pos hs]
    split_ifs <;> first | rfl | exact (scale_zero c).symm

theorem multiIncrements_units {c : K} (hc : c ≠ 0) (A : Arma K) (n : Nat) (rows : List (MultiObs K)) (lr : List (Fl K)) (R : List (List (Fl K))) (br : Fl K) (extrap : Bool) :
    multiIncrements A n (rows.map (multiScale c)) lr R br extrap = List.map (fin c * ·) <$> multiIncrements A n rows lr R br extrap := by
  have hcol : ∀ e, (rows.map (multiScale c)).map (fun r => r.innov.getD e nan) = (rows.map fun r => r.innov.getD e nan).map (fin c * ·) := by
    intro e
    rw [List.map_map, List.map_map]
    refine List.map_congr_left fun r _ => ?_
    exact getD_map_scale c r.innov e
  have hrat : (rows.map (multiScale c)).map MultiObs.ratio = rows.map MultiObs.ratio := by
    rw [List.map_map]
    rfl
  unfold multiIncrements
  simp only [hcol, hrat, List.length_map, bind_map_eq]
  congr 1
  funext N
  rw [map_ok, List.map_map]
  congr 1
  refine List.map_congr_left fun e _ => ?_
  rw [Function.comp_apply]
  simp only [getD_map_scale, scale_mul_right hc, sumTo_scale hc, multiLimit_units hc]
  split_ifs <;> rfl

theorem multiWrite_units {c : K} (hc : c ≠ 0) (d : K) (row : List (Fl K)) (members : List Nat) (dx : List (Fl K)) :
    multiWrite (row.map (inUnits c d)) members (dx.map (fin c * ·)) = List.map (inUnits c d) <$> multiWrite row members dx := by
  unfold multiWrite
  simp only [vget_map, mapM_map_eq, map_bind_eq, bind_map_eq]
  congr 1
  funext vals
  rw [← writeMembers_map]
  congr 1
  rw [List.zipWith_map, List.map_zipWith]
  congr 1
  funext a b
  exact (inUnits_add hc d a b).symm

theorem ensiSelect_units [HasGeo K] [HasSqrt K] [HasExp K] {c : K} (hc : c ≠ 0) (o : Nat → K) (T : RTree K) (A : Arma K) (bp points : Points K) (pts : List (Point K)) (s : SF K)
    (maxPoints : Int) (pobs : List (List (Fl K))) (y : Nat) :
    ensiSelect T A bp points pts s maxPoints (fun i => vget2 (ensInUnits c o pobs) (i : Int) 0) y =
      ensiSelect T A bp points pts s maxPoints (fun i => vget2 pobs (i : Int) 0) y := by
  have : (fun i : Nat => vget2 (ensInUnits c o pobs) (i : Int) 0) = fun i : Nat => inUnits c (o i) <$> vget2 pobs (i : Int) 0 := by
    funext i
    unfold vget2
    rw [vget_ensInUnits, map_bind_eq, bind_map_eq]
    congr 1
    funext r
    exact vget_map _ r 0
  unfold ensiSelect
  simp only [this, ensiUsable_units hc]

theorem ebescCell_units [HasGeo K] [HasSqrt K] [HasExp K] {c : K} (hc : c ≠ 0) (d o : Nat → K) (T : RTree K) (A : Arma K) (bp points : Points K) (pts : List (Point K)) (s : SF K)
    (maxPoints : Int) (extrap : Bool) (bratios : List (Fl K)) (background pobs : List (List (Fl K))) (pratios : List (Fl K)) (pbg : List (List (Fl K))) (members : List Nat)
    (y : Nat) :
    ebescCell T A bp points pts s maxPoints extrap bratios (ensInUnits c d background) (ensInUnits c o pobs) pratios (ensInUnits c o pbg) members y =
      List.map (inUnits c (d y)) <$> ebescCell T A bp points pts s maxPoints extrap bratios background pobs pratios pbg members y := by
  have hrows : ∀ z sel, mapM (multiRow T s pts members (ensInUnits c o pobs) pratios (ensInUnits c o pbg) z sel) sel =
      List.map (multiScale c) <$> mapM (multiRow T s pts members pobs pratios pbg z sel) sel := by
    intro z sel
    rw [← mapM_map_eq]
    congr 1
    funext e
    exact multiRow_units hc o T s pts members pobs pratios pbg z sel e
  have hr : ∀ rows : List (MultiObs K), (rows.map (multiScale c)).map MultiObs.rho = rows.map MultiObs.rho ∧
      (rows.map (multiScale c)).map MultiObs.corr = rows.map MultiObs.corr := by
    intro rows
    rw [List.map_map, List.map_map]
    exact ⟨rfl, rfl⟩
  unfold ebescCell
  simp only [ensiSelect_units hc, vget_ensInUnits, map_bind_eq, bind_map_eq, hrows, (hr _).1, (hr _).2, multiIncrements_units hc, multiWrite_units hc]
  congr 1
  funext row
  congr 1
  funext br
  congr 1
  funext sel
  split
  · rfl
  · simp only [bind_map_eq]

theorem mapM_range_units {c : K} (d : Nat → K) {f' f : Nat → Res (List (Fl K))} (h : ∀ y, f' y = List.map (inUnits c (d y)) <$> f y) (n : Nat) :
    mapM f' (List.range n) = ensInUnits c d <$> mapM f (List.range n) := by
  have := mapM_mapIdx f (fun y => List.map (inUnits c (d y))) n 0
  simp only [Nat.sub_zero] at this
  rw [List.range_eq_range', show (ensInUnits c d : List (List (Fl K)) → _) = fun l => l.mapIdx fun y => List.map (inUnits c (d y)) from rfl, ← this]
  congr 1
  funext y
  exact h y

theorem length_ensInUnits (c : K) (d : Nat → K) (a : List (List (Fl K))) : (ensInUnits c d a).length = a.length := List.length_mapIdx

/-- **C174**: `optimal_interpolation_ensi_multi_ebesc` for points (the ratios have no unit). -/
theorem c174_ebesc [HasGeo K] [HasSqrt K] [HasExp K] (c : K) (hc : c ≠ 0) (d o : Nat → K) (T : RTree K) (A : Arma K) (bp : Points K) (bratios : List (Fl K))
    (background : List (List (Fl K))) (points : Points K) (pobs : List (List (Fl K))) (pratios : List (Fl K)) (pbg : List (List (Fl K))) (s : SF K) (maxPoints : Int)
    (extrap : Bool) :
    ebescPoints T A bp bratios (ensInUnits c d background) points (ensInUnits c o pobs) pratios (ensInUnits c o pbg) s maxPoints extrap =
      ensInUnits c d <$> ebescPoints T A bp bratios background points pobs pratios pbg s maxPoints extrap := by
  have hvm : ∀ n, validMembers n (ensInUnits c d background ++ ensInUnits c o pbg) = validMembers n (background ++ pbg) :=
    ((sameValid_units hc d background).append (sameValid_units hc o pbg)).members
  have h0 : vget (ensInUnits c d background) 0 = (List.map (inUnits c (d 0))) <$> vget background 0 := vget_ensInUnits c d background 0
  unfold ebescPoints
  simp only [length_ensInUnits, h0, hvm, map_bind_eq, List.length_map]
  split_ifs <;> try rfl
  simp only [bind_map_eq]
  congr 1
  funext r0
  congr 1
  funext pts
  congr 1
  funext members
  unfold ebescLoop
  rw [length_ensInUnits]
  split
  · rfl
  · exact mapM_range_units d (fun y => ebescCell_units hc d o T A bp points pts s maxPoints extrap bratios background pobs pratios pbg members y) _

theorem ebeCell_units [HasGeo K] [HasSqrt K] [HasExp K] {c : K} (hc : c ≠ 0) (d o : Nat → K) (T : RTree K) (A : Arma K) (bp points : Points K) (pts : List (Point K)) (s : SF K)
    (maxPoints : Int) (extrap : Bool) (bratios : List (Fl K)) (background backgroundc pobs : List (List (Fl K))) (pratios : List (Fl K)) (pbg gZ : List (List (Fl K)))
    (members : List Nat) (y : Nat) :
    ebeCell T A bp points pts s maxPoints extrap bratios (ensInUnits c d background) backgroundc (ensInUnits c o pobs) pratios (ensInUnits c o pbg) gZ members y =
      List.map (inUnits c (d y)) <$> ebeCell T A bp points pts s maxPoints extrap bratios background backgroundc pobs pratios pbg gZ members y := by
  have hrows : ∀ z sel, mapM (multiRow T s pts members (ensInUnits c o pobs) pratios (ensInUnits c o pbg) z sel) sel =
      List.map (multiScale c) <$> mapM (multiRow T s pts members pobs pratios pbg z sel) sel := by
    intro z sel
    rw [← mapM_map_eq]
    congr 1
    funext e
    exact multiRow_units hc o T s pts members pobs pratios pbg z sel e
  have hr : ∀ rows : List (MultiObs K), (rows.map (multiScale c)).map MultiObs.rho = rows.map MultiObs.rho ∧
      (rows.map (multiScale c)).map MultiObs.corr = rows.map MultiObs.corr ∧ (rows.map (multiScale c)).map MultiObs.z = rows.map MultiObs.z := by
    intro rows
    rw [List.map_map, List.map_map, List.map_map]
    exact ⟨rfl, rfl, rfl⟩
  unfold ebeCell
  simp only [ensiSelect_units hc, vget_ensInUnits, map_bind_eq, bind_map_eq, hrows, (hr _).1, (hr _).2.1, (hr _).2.2, List.length_map, multiIncrements_units hc,
    multiWrite_units hc]
  congr 1
  funext row
  congr 1
  funext br
  congr 1
  funext sel
  split
  · rfl
  · simp only [bind_map_eq]

/-- **C174**: `optimal_interpolation_ensi_multi_ebe` for points: the first ensemble, to which the observations belong, in other units; the second one, from which only
correlations are taken, as it is. -/
theorem c174_ebe [HasGeo K] [HasSqrt K] [HasExp K] (c : K) (hc : c ≠ 0) (d o : Nat → K) (T : RTree K) (A : Arma K) (bp : Points K) (bratios : List (Fl K))
    (background backgroundc : List (List (Fl K))) (points : Points K) (pobs : List (List (Fl K))) (pratios : List (Fl K)) (pbg pbgc : List (List (Fl K))) (s : SF K)
    (maxPoints : Int) (extrap : Bool) :
    ebePoints T A bp bratios (ensInUnits c d background) backgroundc points (ensInUnits c o pobs) pratios (ensInUnits c o pbg) pbgc s maxPoints extrap =
      ensInUnits c d <$> ebePoints T A bp bratios background backgroundc points pobs pratios pbg pbgc s maxPoints extrap := by
  have hvm : ∀ n, validMembers n (ensInUnits c d background ++ backgroundc ++ ensInUnits c o pbg ++ pbgc) = validMembers n (background ++ backgroundc ++ pbg ++ pbgc) :=
    ((((sameValid_units hc d background).append (sameValid_refl backgroundc)).append (sameValid_units hc o pbg)).append (sameValid_refl pbgc)).members
  have h0 : vget (ensInUnits c d background) 0 = (List.map (inUnits c (d 0))) <$> vget background 0 := vget_ensInUnits c d background 0
  unfold ebePoints
  simp only [length_ensInUnits, h0, hvm, map_bind_eq, List.length_map]
  by_cases h1 : maxPoints < 0
  · rw [if_pos h1, if_pos h1]; rfl
  rw [if_neg h1, if_neg h1]
  by_cases h2 : bp.type ≠ points.type
  · rw [if_pos h2, if_pos h2]; rfl
  rw [if_neg h2, if_neg h2]
  by_cases h3 : background.length ≠ bp.size
  · rw [if_pos h3, if_pos h3]; rfl
  rw [if_neg h3, if_neg h3]
  by_cases h4 : backgroundc.length ≠ bp.size
  · rw [if_pos h4, if_pos h4]; rfl
  rw [if_neg h4, if_neg h4]
  by_cases h5 : bratios.length ≠ bp.size
  · rw [if_pos h5, if_pos h5]; rfl
  rw [if_neg h5, if_neg h5]
  by_cases h6 : pobs.length ≠ points.size
  · rw [if_pos h6, if_pos h6]; rfl
  rw [if_neg h6, if_neg h6]
  by_cases h7 : pratios.length ≠ points.size
  · rw [if_pos h7, if_pos h7]; rfl
  rw [if_neg h7, if_neg h7]
  by_cases h8 : pbg.length ≠ points.size
  · rw [if_pos h8, if_pos h8]; rfl
  rw [if_neg h8, if_neg h8]
  by_cases h9 : pbgc.length ≠ points.size
  · rw [if_pos h9, if_pos h9]; rfl
  rw [if_neg h9, if_neg h9]
  by_cases h10 : points.size = 0
  · rw [if_pos h10, if_pos h10]; rfl
  rw [if_neg h10, if_neg h10]
  simp only [bind_map_eq]
  congr 1
  funext r0
  congr 1
  funext pts
  congr 1
  funext members
  unfold ebeLoop
  rw [length_ensInUnits]
  split
  · rfl
  · rw [bind_map_eq]
    congr 1
    funext gZ
    exact mapM_range_units d (fun y => ebeCell_units hc d o T A bp points pts s maxPoints extrap bratios background backgroundc pobs pratios pbg gZ members y) _

end
end Gridpp.Props
