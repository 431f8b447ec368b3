import Verif.Props.DownscalingOrder

/-! C188 for full_gradient to grids: layers of a series in relations of their own. -/

set_option linter.unusedSectionVars false

namespace Gridpp.Spec

/-- Two series of the same length whose layers are in relations of their own. -/
def Layered {α β : Type} (R : Nat → α → β → Prop) (a : List α) (b : List β) : Prop :=
  a.length = b.length ∧ ∀ t x y, a[t]? = some x → b[t]? = some y → R t x y

end Gridpp.Spec

namespace Gridpp.Props
open Fl Res Spec

section
variable {α β γ δ ι : Type}

theorem layered_nil {R : Nat → α → β → Prop} : Layered R [] [] := ⟨rfl, fun t x y h => by simp at h⟩

theorem layered_cons {R : Nat → α → β → Prop} {a : α} {b : β} {as : List α} {bs : List β} (h : R 0 a b) (ht : Layered (fun t => R (t + 1)) as bs) :
    Layered R (a :: as) (b :: bs) := by
  refine ⟨by simp [ht.1], fun t x y h1 h2 => ?_⟩
  cases t with
  | zero => simp at h1 h2; subst h1; subst h2; exact h
  | succ t => simp at h1 h2; exact ht.2 t x y h1 h2

theorem layered_tail {R : Nat → α → β → Prop} {a : α} {b : β} {as : List α} {bs : List β} (h : Layered R (a :: as) (b :: bs)) :
    R 0 a b ∧ Layered (fun t => R (t + 1)) as bs :=
  ⟨h.2 0 a b rfl rfl, by simpa using h.1, fun t x y h1 h2 => h.2 (t + 1) x y (by simpa using h1) (by simpa using h2)⟩

theorem layered_mapM_index {R : Nat → α → β → Prop} {f : ι → Res α} {g : ι → Res β} (l : List ι) (h : ∀ t i, l[t]? = some i → OutcomeRel (R t) (f i) (g i)) :
    OutcomeRel (Layered R) (Res.mapM f l) (Res.mapM g l) := by
  induction l generalizing R with
  | nil => exact layered_nil
  | cons i l ih =>
    rw [mapM_cons, mapM_cons]
    exact OutcomeRel.bind (h 0 i rfl) fun a b hab => OutcomeRel.bind (ih (R := fun t => R (t + 1)) fun t j hj => h (t + 1) j (by simpa using hj)) fun as bs has =>
      OutcomeRel.value (layered_cons hab has)

theorem layered_mapM_upto {R : Nat → α → β → Prop} {f : Int → Res α} {g : Int → Res β} (n : Nat) (h : ∀ t < n, OutcomeRel (R t) (f (t : Int)) (g (t : Int))) :
    OutcomeRel (Layered R) (Res.mapM f (upto n)) (Res.mapM g (upto n)) := by
  refine layered_mapM_index _ fun t i hi => ?_
  unfold upto at hi
  rw [List.getElem?_map, Option.map_eq_some_iff] at hi
  obtain ⟨k, hk, rfl⟩ := hi
  rw [List.getElem?_eq_some_iff] at hk
  obtain ⟨h1, h2⟩ := hk
  rw [List.getElem_range] at h2
  subst h2
  exact h t (by simpa using h1)

theorem layered_mapM {R : Nat → α → β → Prop} {S : Nat → γ → δ → Prop} {f : α → Res γ} {g : β → Res δ} (h : ∀ t a b, R t a b → OutcomeRel (S t) (f a) (g b))
    {l : List α} {l' : List β} (hl : Layered R l l') : OutcomeRel (Layered S) (Res.mapM f l) (Res.mapM g l') := by
  induction l generalizing l' R S with
  | nil =>
    cases l' with
    | nil => exact layered_nil
    | cons b l' => exact absurd hl.1 (by simp)
  | cons a l ih =>
    cases l' with
    | nil => exact absurd hl.1 (by simp)
    | cons b l' =>
      obtain ⟨h0, ht⟩ := layered_tail hl
      rw [mapM_cons, mapM_cons]
      exact OutcomeRel.bind (h 0 a b h0) fun c d hcd => OutcomeRel.bind (ih (R := fun t => R (t + 1)) (S := fun t => S (t + 1)) (fun t => h (t + 1)) ht) fun cs ds hcs =>
        OutcomeRel.value (layered_cons hcd hcs)

theorem layered_vget {R : Nat → α → β → Prop} {a : List α} {b : List β} (h : Layered R a b) (t : Nat) : OutcomeRel (R t) (vget a (t : Int)) (vget b (t : Int)) := by
  rw [vget_nat, vget_nat]
  by_cases hl : t < a.length
  · rw [List.getElem?_eq_getElem hl, List.getElem?_eq_getElem (h.1 ▸ hl)]
    exact h.2 t _ _ (List.getElem?_eq_getElem hl) (List.getElem?_eq_getElem _)
  · rw [List.getElem?_eq_none (by omega), List.getElem?_eq_none (by rw [← h.1]; omega)]; trivial

theorem layered_replicate {R : Nat → α → β → Prop} {u : α} {v : β} (h : ∀ t, R t u v) (n : Nat) : Layered R (List.replicate n u) (List.replicate n v) := by
  refine ⟨by simp, fun t x y h1 h2 => ?_⟩
  rw [List.getElem?_replicate] at h1 h2
  split at h1
  · rename_i ht
    rw [if_pos ht] at h2
    cases h1; cases h2; exact h t
  · cases h1

theorem layered_append {R : Nat → α → α → Prop} {a b : List α} (h : Layered R a b) (c : List α) (hc : ∀ t, a.length ≤ t → ∀ x, R t x x) : Layered R (a ++ c) (b ++ c) := by
  refine ⟨by simp [h.1], fun t x y h1 h2 => ?_⟩
  by_cases ht : t < a.length
  · rw [List.getElem?_append_left ht] at h1
    rw [List.getElem?_append_left (h.1 ▸ ht)] at h2
    exact h.2 t x y h1 h2
  · rw [List.getElem?_append_right (by omega)] at h1
    rw [List.getElem?_append_right (by rw [← h.1]; omega), ← h.1, h1] at h2
    cases h2
    exact hc t (by omega) x

end

section
variable {K : Type} [Field K] [LinearOrder K] [IsStrictOrderedRing K] [HasGeo K]

theorem compatibleSizeG3_layered {R : Nat → Fl K → Fl K → Prop} (g : Grid K) {a b : List (List (List (Fl K)))} (h : Layered (fun t => Vec2 (R t)) a b) :
    compatibleSizeG3 g a = compatibleSizeG3 g b := by
  cases a with
  | nil =>
    cases b with
    | nil => rfl
    | cons y b => exact absurd h.1 (by simp)
  | cons x a =>
    cases b with
    | nil => exact absurd h.1 (by simp)
    | cons y b =>
      cases (layered_tail h).1 with
      | nil => rfl
      | cons hs hu =>
        unfold compatibleSizeG3
        simp only [hu.length_eq, hs.length_eq]

theorem nearestGG3_layered (T : RTree K) {R : Nat → Fl K → Fl K → Prop} (hR : ∀ t, R t nan nan) (ig og : Grid K) {a b : List (List (List (Fl K)))}
    (h : Layered (fun t => Vec2 (R t)) a b) : OutcomeRel (Layered fun t => Vec2 (R t)) (nearestGG3 T ig og a) (nearestGG3 T ig og b) := by
  unfold nearestGG3
  rw [compatibleSizeG3_layered ig h]
  refine OutcomeRel.step _ fun c => ?_
  split
  · exact rfl
  refine OutcomeRel.step _ fun row0 => OutcomeRel.step _ fun s => ?_
  rw [h.1]
  split
  · exact layered_replicate (fun t => vec2_init (hR t) _ _) _
  · refine OutcomeRel.step _ fun IJ => layered_mapM_upto _ fun t _ => ?_
    refine OutcomeRel.grid2 (fun y x => ?_) _ _
    refine OutcomeRel.step _ fun c => ?_
    exact OutcomeRel.bind (layered_vget h t) fun _ _ h2 => OutcomeRel.vget2 h2 _ _

variable [HasSqrt K]

theorem bilinearAt3_layered (T : RTree K) {R : Nat → Fl K → Fl K → Prop} (hR : ∀ t, KeptByMeans (R t)) (g : Grid K) {a b : List (List (List (Fl K)))}
    (h : Layered (fun t => Vec2 (R t)) a b) (lat lon : Fl K) : OutcomeRel (Layered R) (bilinearAt3 T g a lat lon) (bilinearAt3 T g b lat lon) := by
  unfold bilinearAt3
  refine OutcomeRel.step _ fun bx => ?_
  cases bx with
  | none => exact OutcomeRel.step _ fun c => layered_mapM (fun t _ _ h2 => OutcomeRel.vget2 h2 _ _) h
  | some bx => exact OutcomeRel.step _ fun q => layered_mapM (R := fun t => Vec2 (R t)) (fun t _ _ h2 => boxValue_rel (hR t) T g h2 lat lon bx q) h

theorem bilinearGG3_layered (T : RTree K) {R : Nat → Fl K → Fl K → Prop} (hR : ∀ t, KeptByMeans (R t)) (ig og : Grid K) {a b : List (List (List (Fl K)))}
    (h : Layered (fun t => Vec2 (R t)) a b) : OutcomeRel (Layered fun t => Vec2 (R t)) (bilinearGG3 T ig og a) (bilinearGG3 T ig og b) := by
  unfold bilinearGG3
  rw [compatibleSizeG3_layered ig h]
  refine OutcomeRel.step _ fun c => ?_
  split
  · exact rfl
  refine OutcomeRel.step _ fun row0 => OutcomeRel.step _ fun s => ?_
  rw [h.1]
  split
  · exact layered_replicate (fun t => vec2_init (hR t).missing _ _) _
  · refine OutcomeRel.bind (OutcomeRel.omp (OutcomeRel.grid2 (fun y x => OutcomeRel.step _ fun la => OutcomeRel.step _ fun lo => bilinearAt3_layered T hR ig h la lo) _ _))
      fun v v' hv => ?_
    refine layered_mapM_upto _ fun t _ => ?_
    exact OutcomeRel.grid2 (fun y x => (OutcomeRel.vget2 hv y x).bind fun _ _ h1 => layered_vget h1 t) _ _

theorem downscalingGG3_layered (T : RTree K) (d : Downscaler) {R : Nat → Fl K → Fl K → Prop} (hR : ∀ t, KeptByMeans (R t)) (ig og : Grid K)
    {a b : List (List (List (Fl K)))} (h : Layered (fun t => Vec2 (R t)) a b) :
    OutcomeRel (Layered fun t => Vec2 (R t)) (downscalingGG3 T d ig og a) (downscalingGG3 T d ig og b) := by
  unfold downscalingGG3
  rw [compatibleSizeG3_layered ig h]
  refine OutcomeRel.step _ fun c => ?_
  split
  · exact rfl
  · cases d
    · exact nearestGG3_layered T (fun t => (hR t).missing) ig og h
    · exact bilinearGG3_layered T hR ig og h
    · exact rfl

theorem keptByMeans_eq : KeptByMeans (fun u v : Fl K => u = v) where
  missing := rfl
  valid := by rintro u v rfl; rfl
  mean := by
    intro c0 c1 c2 c3 a0 a1 a2 a3 b0 b1 b2 b3 _ _ _ _ _ h0 h1 h2 h3
    cases h0; cases h1; cases h2; cases h3; rfl

theorem vec1_eq {α : Type} {a b : List α} (h : Vec1 (fun u v => u = v) a b) : a = b := by
  induction h with
  | nil => rfl
  | cons h _ ih => rw [h, ih]

theorem vec2_eq {α : Type} {a b : List (List α)} (h : Vec2 (fun u v => u = v) a b) : a = b :=
  vec1_eq (h.imp fun _ _ => vec1_eq)

theorem vec1_refl {α : Type} {R : α → α → Prop} (hR : ∀ u, R u u) (a : List α) : Vec1 R a a := by
  induction a with
  | nil => exact .nil
  | cons u a ih => exact .cons (hR u) ih

/-- The first `n` layers are in order, the others equal. -/
def firstOrdered (n : Nat) (t : Nat) (u v : Fl K) : Prop := (t < n → NotAbove u v) ∧ (n ≤ t → u = v)

theorem firstOrdered_lt {n t : Nat} (h : t < n) : firstOrdered (K := K) n t = NotAbove := by
  funext u v; simp [firstOrdered, h, Nat.not_le.mpr h]

theorem firstOrdered_ge {n t : Nat} (h : n ≤ t) : firstOrdered (K := K) n t = fun u v => u = v := by
  funext u v; simp [firstOrdered, h, Nat.not_lt.mpr h]

theorem firstOrdered_kept (n t : Nat) : KeptByMeans (firstOrdered (K := K) n t) := by
  by_cases h : t < n
  · rw [firstOrdered_lt h]; exact c188_order
  · rw [firstOrdered_ge (Nat.not_lt.mp h)]; exact keptByMeans_eq

theorem sizeMismatch_rel {R : Fl K → Fl K → Prop} (s : Nat × Nat) {a b : List (List (Fl K))} (h : Vec2 R a b) : sizeMismatch s a = sizeMismatch s b := by
  unfold sizeMismatch
  rw [h.length_eq]
  split
  · rfl
  · cases h with
    | nil => rfl
    | cons hr _ =>
      have e : ∀ (r : List (Fl K)) t, vget (r :: t) 0 = ok r := fun _ _ => rfl
      rw [e, e, ok_bind, ok_bind, hr.length_eq]

/-- A layer after the first `n` is the same in both series. -/
theorem vget_after {n : Nat} {a b : List (List (List (Fl K)))} (h : Layered (fun t => Vec2 (firstOrdered n t)) a b) {t : Nat} (ht : n ≤ t) :
    vget a (t : Int) = vget b (t : Int) := by
  have := layered_vget h t
  cases ha : vget a (t : Int) <;> cases hb : vget b (t : Int) <;> rw [ha, hb] at this
  all_goals first | exact False.elim this | rfl | skip
  · rw [firstOrdered_ge ht] at this
    exact congrArg ok (vec2_eq this)
  · exact congrArg Res.throw this

/-- **C188**, full_gradient to a grid: the corrections do not depend on the values, so the order is kept. -/
theorem c188_full_gradient_grid (T : RTree K) (d : Downscaler) (ig og : Grid K) {a b : List (List (Fl K))} (h : Vec2 NotAbove a b) (ge gl : List (List (Fl K))) :
    OutcomeRel (Vec2 NotAbove) (fullGradientGG2 T d ig og a ge gl) (fullGradientGG2 T d ig og b ge gl) := by
  unfold fullGradientGG2
  refine OutcomeRel.step _ fun so => OutcomeRel.step _ fun si => ?_
  rw [sizeMismatch_rel si h]
  refine OutcomeRel.step _ fun m => ?_
  split
  · exact rfl
  refine OutcomeRel.step _ fun ml => ?_
  split
  · exact rfl
  refine OutcomeRel.step _ fun me => ?_
  split
  · exact rfl
  have hl : Layered (fun t => Vec2 (firstOrdered (K := K) 1 t)) (a :: (stackFields ge ig.elevs ++ stackFields gl ig.lafs)) (b :: (stackFields ge ig.elevs ++ stackFields gl ig.lafs)) := by
    refine layered_append (a := [a]) (b := [b]) (layered_cons ?_ layered_nil) _ fun t ht x => ?_
    · rw [firstOrdered_lt (by omega)]; exact h
    · rw [firstOrdered_ge (by simpa using ht)]; exact vec1_refl (vec1_refl fun _ => rfl) x
  refine (downscalingGG3_layered T d (firstOrdered_kept 1) ig og hl).bind fun f f' hf => ?_
  have h0 := layered_vget hf 0
  rw [firstOrdered_lt (by omega)] at h0
  refine OutcomeRel.bind h0 fun o o' ho => ?_
  have hp : ∀ (p : Bool) (c : Nat), 1 ≤ c → stackPair p f (c : Int) = stackPair p f' (c : Int) := by
    intro p c hc
    unfold stackPair
    have e : ((c : Int) + 1) = ((c + 1 : Nat) : Int) := by push_cast; rfl
    rw [e, vget_after hf hc, vget_after hf (by omega : 1 ≤ c + 1)]
  have e1 := hp (decide (ge.length ≠ 0)) 1 le_rfl
  have e2 : stackPair (decide (gl.length ≠ 0)) f (if ge.length = 0 then 1 else 3) = stackPair (decide (gl.length ≠ 0)) f' (if ge.length = 0 then 1 else 3) := by
    split
    · exact hp _ 1 le_rfl
    · exact hp _ 3 (by omega)
  have e1' : stackPair (decide (ge.length ≠ 0)) f 1 = stackPair (decide (ge.length ≠ 0)) f' 1 := e1
  rw [e1', e2]
  refine OutcomeRel.step _ fun e => OutcomeRel.step _ fun l => ?_
  exact OutcomeRel.omp (OutcomeRel.grid2 (fun y x => OutcomeRel.step _ fun lc => OutcomeRel.step _ fun ec => (OutcomeRel.vget2 ho y x).bind fun _ _ h1 =>
    OutcomeRel.value (notAbove_add h1 (lc + ec))) _ _)

theorem sizes_rel {R : Fl K → Fl K → Prop} {a b : List (List (List (Fl K)))} (h : Vec3 R a b) : a.map (List.map List.length) = b.map (List.map List.length) := by
  induction h with
  | nil => rfl
  | cons hr _ ih =>
    rw [List.map_cons, List.map_cons, ih]
    congr 1
    induction hr with
    | nil => rfl
    | cons hs _ ih' => rw [List.map_cons, List.map_cons, ih', hs.length_eq]

/-- **C188**, full_gradient to a grid for several times. -/
theorem c188_full_gradient_times (T : RTree K) (d : Downscaler) (ig og : Grid K) {a b : List (List (List (Fl K)))} (h : Vec3 NotAbove a b)
    (ge gl : List (List (List (Fl K)))) :
    OutcomeRel (Vec3 NotAbove) (fullGradientGG3 T d ig og a ge gl) (fullGradientGG3 T d ig og b ge gl) := by
  unfold fullGradientGG3
  have hn := h.length_eq
  have hs : ∀ (grad : List (List (List (Fl K)))) vals, stackFields3 grad vals a = stackFields3 grad vals b := by
    intro grad vals
    unfold stackFields3 compatibleSize33
    rw [hn, sizes_rel h]
  rw [hs, hs, hn]
  refine OutcomeRel.step _ fun so => OutcomeRel.step _ fun fe => OutcomeRel.step _ fun fl => ?_
  have hl : Layered (fun t => Vec2 (firstOrdered (K := K) b.length t)) (a ++ (fe ++ fl)) (b ++ (fe ++ fl)) := by
    refine layered_append ⟨hn, fun t x y h1 h2 => ?_⟩ _ fun t ht x => ?_
    · rw [List.getElem?_eq_some_iff] at h1 h2
      obtain ⟨i1, rfl⟩ := h1
      obtain ⟨i2, rfl⟩ := h2
      rw [firstOrdered_lt i2]
      exact h.get i1 i2
    · rw [firstOrdered_ge (by omega)]; exact vec1_refl (vec1_refl fun _ => rfl) x
  refine (downscalingGG3_layered T d (firstOrdered_kept b.length) ig og hl).bind fun f f' hf => ?_
  have ho : OutcomeRel (Layered fun t => Vec2 (firstOrdered (K := K) b.length t)) (Res.mapM (fun t : Int => vget f t) (upto b.length))
      (Res.mapM (fun t : Int => vget f' t) (upto b.length)) := layered_mapM_upto _ fun t _ => layered_vget hf t
  refine OutcomeRel.bind ho fun o o' ho => ?_
  have hp : ∀ (p : Bool) (c : Nat), b.length ≤ c → stackPair3 p b.length f (c : Int) = stackPair3 p b.length f' (c : Int) := by
    intro p c hc
    unfold stackPair3
    have e : ((c : Int) + (b.length : Int)) = ((c + b.length : Nat) : Int) := by push_cast; rfl
    rw [e, vget_after hf (by omega : b.length ≤ c + b.length)]
    have em : Res.mapM (fun t : Int => vget f ((c : Int) + t)) (upto b.length) = Res.mapM (fun t : Int => vget f' ((c : Int) + t)) (upto b.length) := by
      refine mapM_congr fun i hi => ?_
      unfold upto at hi
      obtain ⟨k, -, rfl⟩ := List.mem_map.mp hi
      have e' : ((c : Int) + (k : Int)) = ((c + k : Nat) : Int) := by push_cast; rfl
      rw [e', vget_after hf (by omega : b.length ≤ c + k)]
    rw [em]
  have e2 : stackPair3 (decide (gl.length ≠ 0)) b.length f (if ge.length = 0 then (b.length : Int) else 2 * b.length + 1) =
      stackPair3 (decide (gl.length ≠ 0)) b.length f' (if ge.length = 0 then (b.length : Int) else 2 * b.length + 1) := by
    split
    · exact hp _ _ le_rfl
    · have e : (2 * (b.length : Int) + 1) = ((2 * b.length + 1 : Nat) : Int) := by push_cast; rfl
      rw [e]
      exact hp _ _ (by omega)
  rw [hp _ _ le_rfl, e2]
  refine OutcomeRel.step _ fun e => OutcomeRel.step _ fun l => OutcomeRel.omp ?_
  have key : OutcomeRel (Layered fun t => Vec2 (firstOrdered (K := K) b.length t))
      (Res.mapM (fun t : Int => grid2 so.1 so.2 fun y x => do
        let lc ← correctionG3 l.1 l.2 og.lafs t y x
        let ec ← correctionG3 e.1 e.2 og.elevs t y x
        let vt ← vget o t
        let v ← vget2 vt y x
        ok (v + (lc + ec))) (upto b.length))
      (Res.mapM (fun t : Int => grid2 so.1 so.2 fun y x => do
        let lc ← correctionG3 l.1 l.2 og.lafs t y x
        let ec ← correctionG3 e.1 e.2 og.elevs t y x
        let vt ← vget o' t
        let v ← vget2 vt y x
        ok (v + (lc + ec))) (upto b.length)) := by
    refine layered_mapM_upto _ fun t ht => ?_
    have h1 := layered_vget ho t
    rw [firstOrdered_lt ht] at h1 ⊢
    exact OutcomeRel.grid2 (fun y x => OutcomeRel.step _ fun lc => OutcomeRel.step _ fun ec => OutcomeRel.bind h1 fun _ _ h2 =>
      (OutcomeRel.vget2 h2 y x).bind fun _ _ h3 => OutcomeRel.value (notAbove_add h3 (lc + ec))) _ _
  revert key
  generalize hx : Res.mapM _ _ = x
  generalize hy : Res.mapM _ _ = y
  intro key
  cases x <;> cases y <;> first | exact False.elim key | exact key | skip
  rename_i xs ys
  have l1 := mapM_length hx
  have l2 := mapM_length hy
  have l3 : (upto b.length).length = b.length := by simp [upto]
  refine List.forall₂_iff_get.mpr ⟨key.1, fun t i1 i2 => ?_⟩
  have := key.2 t _ _ (List.getElem?_eq_getElem i1) (List.getElem?_eq_getElem i2)
  beta_reduce at this
  rw [firstOrdered_lt (by omega)] at this
  exact this

end

/-- The order of two fields with gradients of elevation and land area fraction at a grid point 100 m higher. -/
theorem c188_case_gradient :
    (do let g ← Grid.new [[fin (0 : ℚ)]] [[fin 0]] [[fin 0]] [[fin 0]] .cartesian
        let o ← Grid.new [[fin (0 : ℚ)]] [[fin 0]] [[fin 100]] [[fin 1]] .cartesian
        fullGradientGG2 RTree.scan .nearest g o [[fin 3]] [[fin (-1)]] [[fin 2]]) = ok [[fin (-95)]] ∧
    (do let g ← Grid.new [[fin (0 : ℚ)]] [[fin 0]] [[fin 0]] [[fin 0]] .cartesian
        let o ← Grid.new [[fin (0 : ℚ)]] [[fin 0]] [[fin 100]] [[fin 1]] .cartesian
        fullGradientGG3 RTree.scan .nearest g o [[[fin 4]], [[nan]]] [[[fin (-1)]], [[fin 0]]] []) = ok [[[fin (-96)]], [[nan]]] := by
  constructor <;> decide +kernel

end Gridpp.Props
