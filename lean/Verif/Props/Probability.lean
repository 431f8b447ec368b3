import Verif.Model.Probability
import Verif.Spec.Probability
import Verif.Props.Nearest
import Verif.Props.Stats
import Verif.Lemmas.Elementwise
import Verif.Lemmas.Gridding

/-! # C62: downscaling of probabilities -/

set_option linter.unusedSectionVars false

namespace Gridpp.Props
open Fl Res Spec

variable {K : Type} [Field K] [LinearOrder K] [IsStrictOrderedRing K]

theorem compareM_known {op : ComparisonOperator} (hop : op ≠ .other) (v t : Fl K) : compareM op v (ok t) = ok (some (Holds op v t)) := by
  cases op <;> first | rfl | exact absurd rfl hop

theorem filter_take_succ {α : Type} (p : α → Bool) (l : List α) {k : Nat} (hk : k < l.length) :
    (l.take (k + 1)).filter p = (l.take k).filter p ++ if p l[k] then [l[k]] else [] := by
  rw [List.take_add_one, List.getElem?_eq_getElem hk, Option.toList_some, List.filter_append]
  congr 1
  by_cases h : p l[k] <;> simp [h]

/-- The loop over members. -/
theorem probabilityCell_eq (op : ComparisonOperator) (hop : op ≠ .other) (members : List (Fl K)) (t : Fl K) :
    ∃ v, probabilityCell op (ok members) (ok t) members.length = ok v ∧ IsFraction members (fun m => Holds op m t) v := by
  have key : ∃ s, foldM (probabilityStep op (ok members) (ok t)) (0, 0) (upto members.length) = ok s ∧
      s = ((members.filter isValid).length, ((members.filter isValid).filter fun m => Holds op m t).length) := by
    have := foldM_upto_inv (f := probabilityStep op (ok members) (ok t)) (P := fun k s =>
      k ≤ members.length ∧ s = (((members.take k).filter isValid).length, (((members.take k).filter isValid).filter fun m => Holds op m t).length))
      members.length (b := (0, 0)) ⟨Nat.zero_le _, by simp⟩ ?_
    · obtain ⟨s, e, -, hs⟩ := this
      exact ⟨s, e, by rw [hs, List.take_length]⟩
    · rintro k hk ⟨n, tot⟩ ⟨-, hs⟩
      cases hs
      have hv : vget members (k : Int) = ok members[k] := vget_eq_ok_of_lt hk
      unfold probabilityStep
      rw [ok_bind, hv, ok_bind]
      by_cases hval : isValid members[k] = true
      · rw [if_pos hval, compareM_known hop, ok_bind]
        refine ⟨_, rfl, by omega, ?_⟩
        rw [filter_take_succ _ _ hk, if_pos hval, List.length_append, List.filter_append, List.length_append]
        cases hh : Holds op members[k] t <;> simp [hh]
      · rw [if_neg hval]
        refine ⟨_, rfl, by omega, ?_⟩
        rw [filter_take_succ _ _ hk, if_neg hval, List.append_nil]
  obtain ⟨s, e, rfl⟩ := key
  unfold probabilityCell
  rw [e, ok_bind]
  refine ⟨_, rfl, ?_, ?_⟩
  · intro h
    rw [h]; rfl
  · intro h
    have hn : ((members.filter isValid).length : K) ≠ 0 := by
      simpa using h
    rw [if_neg (by simpa using h)]
    refine ⟨(((members.filter isValid).filter fun m => Holds op m t).length : K) / (members.filter isValid).length, ?_, div_mul_cancel₀ _ hn⟩
    exact fin_div_of_ne _ hn

/-- Every cell of `iv` has `nEns` members. -/
def EnsRect (Y X nEns : Nat) (iv : List (List (List (Fl K)))) : Prop :=
  Rect Y X iv ∧ ∀ y x m, cell? iv y x = some m → m.length = nEns

section
variable [HasGeo K] [LawfulSqrt K]

/-- The nearest cells, found once. -/
theorem nearest_cells {T : RTree K} (hT : T.Lawful) {ig og : Grid K} {Y X oY oX : Nat} {lats lons olats olons : List (List (Fl K))}
    {type otype : CoordType} (hi : BuiltGrid ig Y X lats lons type) (ho : BuiltGrid og oY oX olats olons otype) (hv : GridValidIn type olats olons) :
    ∃ near : Nat → Nat → Nat × Nat, ∀ y x la lo, cell? olats y x = some la → cell? olons y x = some lo →
      nearestCell T ig la lo = ok (near y x) ∧ (near y x).1 < Y ∧ (near y x).2 < X ∧ NearestCellTo lats lons type la lo (near y x) := by
  have : ∀ y x, ∃ c : Nat × Nat, ∀ la lo, cell? olats y x = some la → cell? olons y x = some lo →
      nearestCell T ig la lo = ok c ∧ c.1 < Y ∧ c.2 < X ∧ NearestCellTo lats lons type la lo c := by
    intro y x
    by_cases h : ∃ la lo, cell? olats y x = some la ∧ cell? olons y x = some lo
    · obtain ⟨la, lo, a, b⟩ := h
      obtain ⟨c, c1, c2, c3, c4⟩ := nearestCell_to hT hi (hv y x la lo a b)
      refine ⟨c, fun la' lo' a' b' => ?_⟩
      rw [a] at a'; rw [b] at b'
      cases a'; cases b'
      exact ⟨c1, c2, c3, c4⟩
    · exact ⟨(0, 0), fun la lo a b => absurd ⟨la, lo, a, b⟩ h⟩
  choose near h using this
  exact ⟨near, fun y x la lo a b => h y x la lo a b⟩

/-- **C62**: each output cell is the fraction of valid members of its nearest input cell that compare to the threshold as
the operator says. The nearest cells are the same for all operators. -/
theorem c62_probability {T : RTree K} (hT : T.Lawful) {ig og : Grid K} {Y X oY oX nEns : Nat} {lats lons olats olons : List (List (Fl K))}
    {type otype : CoordType} (hi : BuiltGrid ig Y X lats lons type) (ho : BuiltGrid og oY oX olats olons otype) (hv : GridValidIn type olats olons)
    {iv : List (List (List (Fl K)))} (hiv : EnsRect Y X nEns iv) {threshold : List (List (Fl K))} (ht : Rect oY oX threshold) :
    ∃ near : Nat → Nat → Nat × Nat,
      (∀ y x la lo, cell? olats y x = some la → cell? olons y x = some lo → NearestCellTo lats lons type la lo (near y x)) ∧
      ∀ op, op ≠ .other → ∃ out, downscaleProbability T ig og iv threshold op = ok out ∧ Rect oY oX out ∧
        ∀ y < oY, ∀ x < oX, ∃ members t v, cell? iv (near y x).1 (near y x).2 = some members ∧ cell? threshold y x = some t ∧
          cell? out y x = some v ∧ IsFraction members (fun m => Holds op m t) v := by
  obtain ⟨near, hnear⟩ := nearest_cells hT hi ho hv
  refine ⟨near, fun y x la lo a b => (hnear y x la lo a b).2.2.2, fun op hop => ?_⟩
  have hw := hi.wf.1
  have how := ho.wf.1
  obtain ⟨hol, holo⟩ : og.lats = olats ∧ og.lons = olons := ⟨ho.wf.2.1, ho.wf.2.2.1⟩
  obtain ⟨r, hr, hrl⟩ := first_row how.lats how.hY
  obtain ⟨m0, m1, m2⟩ := vget2_of_rect hiv.1 hw.hY hw.hX
  obtain ⟨out, h1, h2, h3⟩ := grid2_exists (Y := oY) (X := oX) (f := fun i j => do
      let la ← vget2 og.lats i j
      let lo ← vget2 og.lons i j
      let c ← nearestCell T ig la lo
      probabilityCell op (vget2 iv c.1 c.2) (vget2 threshold i j) m0.length)
      (P := fun y x v => ∃ members t, cell? iv (near y x).1 (near y x).2 = some members ∧ cell? threshold y x = some t ∧
        IsFraction members (fun m => Holds op m t) v) (by
    intro y hy x hx
    obtain ⟨la, a1, a2⟩ := vget2_of_rect how.lats hy hx
    obtain ⟨lo, b1, b2⟩ := vget2_of_rect how.lons hy hx
    obtain ⟨c1, c2, c3, -⟩ := hnear y x la lo (hol ▸ a1) (holo ▸ b1)
    obtain ⟨members, d1, d2⟩ := vget2_of_rect hiv.1 c2 c3
    obtain ⟨t, e1, e2⟩ := vget2_of_rect ht hy hx
    obtain ⟨v, hv1, hv2⟩ := probabilityCell_eq op hop members t
    refine ⟨v, ?_, members, t, d1, e1, hv2⟩
    have hlen : m0.length = members.length := (hiv.2 _ _ _ m1).trans (hiv.2 _ _ _ d1).symm
    simp only [a2, b2, c1, ok_bind, d2, e2, hlen, hv1])
  refine ⟨out, ?_, h2, fun y hy x hx => ?_⟩
  · unfold downscaleProbability
    have m2' : vget2 iv 0 0 = ok m0 := m2
    rw [hr, ok_bind, m2', ok_bind, how.lats.1, hrl, h1]; rfl
  · obtain ⟨v, e1, -, members, t, e2, e3, e4⟩ := h3 y hy x hx
    exact ⟨members, t, v, e2, e3, e1, e4⟩

end

/-- **C62**: a fraction is missing or between 0 and 1. -/
theorem c62_range {members : List (Fl K)} {P : Fl K → Bool} {v : Fl K} (h : IsFraction members P v) :
    v = nan ∨ ∃ p : K, v = fin p ∧ 0 ≤ p ∧ p ≤ 1 := by
  by_cases hn : members.filter isValid = []
  · exact Or.inl (h.1 hn)
  · obtain ⟨p, rfl, hp⟩ := h.2 hn
    right
    have hpos : (0 : K) < (members.filter isValid).length := by
      have := List.length_pos_iff.mpr hn
      exact_mod_cast this
    have hle : (((members.filter isValid).filter P).length : K) ≤ (members.filter isValid).length := by
      exact_mod_cast List.length_filter_le _ _
    have h0 : (0 : K) ≤ ((members.filter isValid).filter P).length := by positivity
    refine ⟨p, rfl, ?_, ?_⟩
    · by_contra hc
      push Not at hc
      nlinarith
    · by_contra hc
      push Not at hc
      nlinarith

/-- **C62**: 'less than' and 'at least' (and 'at most' and 'greater than') complement each other for a threshold that is not
missing, also if some members are missing. -/
theorem c62_complement {members : List (Fl K)} {t p q r s : Fl K} (ht : t ≠ nan) (hv : members.filter isValid ≠ [])
    (h1 : IsFraction members (fun m => Holds .lt m t) p) (h2 : IsFraction members (fun m => Holds .geq m t) q)
    (h3 : IsFraction members (fun m => Holds .leq m t) r) (h4 : IsFraction members (fun m => Holds .gt m t) s) :
    p + q = fin 1 ∧ r + s = fin 1 := by
  have hpos : ((members.filter isValid).length : K) ≠ 0 := by simpa using hv
  have split : ∀ P Q : Fl K → Bool, (∀ m, isValid m = true → Q m = !P m) →
      (((members.filter isValid).filter P).length : K) + ((members.filter isValid).filter Q).length = (members.filter isValid).length := by
    intro P Q h
    have e : (members.filter isValid).filter Q = (members.filter isValid).filter (fun m => !P m) :=
      List.filter_congr fun m hm => h m (List.mem_filter.mp hm).2
    rw [e]
    have := List.length_eq_length_filter_add (l := members.filter isValid) P
    exact_mod_cast this.symm
  have cmp : ∀ m, isValid m = true → (t.le m = !(m.lt t)) ∧ (t.lt m = !(m.le t)) := by
    intro m hm
    obtain ⟨a, rfl⟩ := exists_fin_of_valid hm
    cases t with
    | nan => exact absurd rfl ht
    | pinf => constructor <;> rfl
    | ninf => constructor <;> rfl
    | fin b => constructor <;> simp [← decide_not]
  have conv : ∀ {P Q : Fl K → Bool} {v w : Fl K}, (∀ m, isValid m = true → Q m = !P m) → IsFraction members P v → IsFraction members Q w →
      v + w = fin 1 := by
    intro P Q v w h a b
    obtain ⟨p, rfl, hp⟩ := a.2 hv
    obtain ⟨q, rfl, hq⟩ := b.2 hv
    have := split P Q h
    rw [← hp, ← hq, ← add_mul] at this
    rw [fin_add, mul_right_cancel₀ hpos (this.trans (one_mul _).symm)]
  exact ⟨conv (fun m hm => (cmp m hm).1) h1 h2, conv (fun m hm => (cmp m hm).2) h3 h4⟩

/-- **C62** is false for a missing threshold: both probabilities are 0. -/
theorem c62_missing_threshold :
    (do let g ← Grid.new [[fin (0 : ℚ)]] [[fin 0]] [] [] .cartesian
        downscaleProbability RTree.scan g g [[[fin 1, fin 2]]] [[nan]] .lt) = ok [[fin 0]] ∧
    (do let g ← Grid.new [[fin (0 : ℚ)]] [[fin 0]] [] [] .cartesian
        downscaleProbability RTree.scan g g [[[fin 1, fin 2]]] [[nan]] .geq) = ok [[fin 0]] := by decide +kernel

/-- An operator outside the enumeration is not reported: the probability is 0. -/
theorem c62_unknown_operator :
    (do let g ← Grid.new [[fin (0 : ℚ)]] [[fin 0]] [] [] .cartesian
        downscaleProbability RTree.scan g g [[[fin 1, fin 2]]] [[fin 2]] .other) = ok [[fin 0]] := by decide +kernel

/-- Sizes are not checked: without values, and with fewer members in a cell than in the first one, elements are read outside. -/
theorem c62_unchecked :
    (do let g ← Grid.new [[fin (0 : ℚ)]] [[fin 0]] [] [] .cartesian
        downscaleProbability RTree.scan g g [] [[fin 2]] .lt) = ub ∧
    (do let g ← Grid.new [[fin (0 : ℚ), fin 0]] [[fin 0, fin 1]] [] [] .cartesian
        downscaleProbability RTree.scan g g [[[fin 1, fin 2], [fin 1]]] [[fin 2, fin 2]] .lt) = ub := by decide +kernel

/-! ### Masks -/

theorem maskLoop_eq (op : ComparisonOperator) (hop : op ≠ .other) (mask trues falses : List (Fl K)) (t : Fl K) (h1 : mask.length = trues.length)
    (h2 : falses.length = trues.length) :
    ∃ masked, mapM (maskStep op (ok mask) (ok trues) (ok falses) (ok t)) (upto trues.length) = ok masked ∧
      Selected (fun m => Holds op m t) mask trues falses masked := by
  obtain ⟨masked, e, hl, H⟩ := mapM_upto_exists (n := trues.length) (f := maskStep op (ok mask) (ok trues) (ok falses) (ok t))
    (P := fun k v => ∀ m a b, mask[k]? = some m → trues[k]? = some a → falses[k]? = some b →
      (isValid m = true → Holds op m t = true → v = a) ∧ (isValid m = true → Holds op m t = false → v = b) ∧ (isValid m = false → v = nan)) (by
    intro k hk
    have g1 : vget mask (k : Int) = ok (mask[k]'(by omega)) := vget_eq_ok_of_lt (by omega)
    have g2 : vget trues (k : Int) = ok trues[k] := vget_eq_ok_of_lt hk
    have g3 : vget falses (k : Int) = ok (falses[k]'(by omega)) := vget_eq_ok_of_lt (by omega)
    unfold maskStep
    rw [ok_bind, g1, ok_bind]
    have l1 : mask[k]? = some (mask[k]'(by omega)) := List.getElem?_eq_getElem _
    have l2 : trues[k]? = some trues[k] := List.getElem?_eq_getElem _
    have l3 : falses[k]? = some (falses[k]'(by omega)) := List.getElem?_eq_getElem _
    rw [l1, l2, l3]
    generalize mask[k]'(by omega) = m at *
    by_cases hv : isValid m = true
    · rw [if_pos hv, compareM_known hop, ok_bind]
      cases hh : Holds op m t
      · refine ⟨_, g3, ?_⟩
        rintro m' a b ⟨⟩ ⟨⟩ ⟨⟩
        refine ⟨fun _ h => ?_, fun _ _ => rfl, fun h => ?_⟩
        · rw [hh] at h; cases h
        · rw [hv] at h; cases h
      · refine ⟨_, g2, ?_⟩
        rintro m' a b ⟨⟩ ⟨⟩ ⟨⟩
        refine ⟨fun _ _ => rfl, fun _ h => ?_, fun h => ?_⟩
        · rw [hh] at h; cases h
        · rw [hv] at h; cases h
    · rw [if_neg hv]
      refine ⟨_, rfl, ?_⟩
      rintro m' a b ⟨⟩ ⟨⟩ ⟨⟩
      exact ⟨fun h => absurd h hv, fun h => absurd h hv, fun _ => rfl⟩)
  refine ⟨masked, e, hl, fun k m a b hm ha hb => ?_⟩
  have hk : k < trues.length := (List.getElem?_eq_some_iff.mp ha).1
  obtain ⟨v, hv, -, P⟩ := H k hk
  obtain ⟨p1, p2, p3⟩ := P m a b hm ha hb
  rw [hv]
  exact ⟨fun h h' => by rw [p1 h h'], fun h h' => by rw [p2 h h'], fun h => by rw [p3 h]⟩

variable [HasGeo K] [LawfulSqrt K] [FloorRing K]

/-- The masked values of each cell and the statistic over them. -/
theorem maskThresholdWith_sat {stat : List (Fl K) → Res (Fl K)} (hstat : ∀ l, ∃ v, stat l = ok v) {T : RTree K} (hT : T.Lawful) {ig og : Grid K}
    {Y X oY oX nEns : Nat} {lats lons olats olons : List (List (Fl K))} {type otype : CoordType} (hi : BuiltGrid ig Y X lats lons type)
    (ho : BuiltGrid og oY oX olats olons otype) (hv : GridValidIn type olats olons) {ivTrue ivFalse tv : List (List (List (Fl K)))}
    (h1 : EnsRect Y X nEns ivTrue) (h2 : EnsRect Y X nEns ivFalse) (h3 : EnsRect Y X nEns tv) {threshold : List (List (Fl K))}
    (ht : Rect oY oX threshold) {op : ComparisonOperator} (hop : op ≠ .other) :
    ∃ out, maskThresholdWith stat T ig og ivTrue ivFalse tv threshold op = ok out ∧ Rect oY oX out ∧
      ∀ y < oY, ∀ x < oX, ∃ la lo c mask trues falses masked t v, cell? olats y x = some la ∧ cell? olons y x = some lo ∧
        NearestCellTo lats lons type la lo c ∧ cell? tv c.1 c.2 = some mask ∧ cell? ivTrue c.1 c.2 = some trues ∧
        cell? ivFalse c.1 c.2 = some falses ∧ cell? threshold y x = some t ∧ Selected (fun m => Holds op m t) mask trues falses masked ∧
        cell? out y x = some v ∧ stat masked = ok v := by
  obtain ⟨near, hnear⟩ := nearest_cells hT hi ho hv
  have hw := hi.wf.1
  have how := ho.wf.1
  obtain ⟨hol, holo⟩ : og.lats = olats ∧ og.lons = olons := ⟨ho.wf.2.1, ho.wf.2.2.1⟩
  obtain ⟨r, hr, hrl⟩ := first_row how.lats how.hY
  obtain ⟨m0, m1, m2⟩ := vget2_of_rect h1.1 hw.hY hw.hX
  obtain ⟨out, e1, e2, e3⟩ := grid2_exists (Y := oY) (X := oX) (f := fun i j => do
      let la ← vget2 og.lats i j
      let lo ← vget2 og.lons i j
      let c ← nearestCell T ig la lo
      let masked ← mapM (maskStep op (vget2 tv c.1 c.2) (vget2 ivTrue c.1 c.2) (vget2 ivFalse c.1 c.2) (vget2 threshold i j)) (upto m0.length)
      stat masked)
      (P := fun y x v => ∃ la lo c mask trues falses masked t, cell? olats y x = some la ∧ cell? olons y x = some lo ∧
        NearestCellTo lats lons type la lo c ∧ cell? tv c.1 c.2 = some mask ∧ cell? ivTrue c.1 c.2 = some trues ∧
        cell? ivFalse c.1 c.2 = some falses ∧ cell? threshold y x = some t ∧ Selected (fun m => Holds op m t) mask trues falses masked ∧
        stat masked = ok v) (by
    intro y hy x hx
    obtain ⟨la, a1, a2⟩ := vget2_of_rect how.lats hy hx
    obtain ⟨lo, b1, b2⟩ := vget2_of_rect how.lons hy hx
    obtain ⟨c1, c2, c3, c4⟩ := hnear y x la lo (hol ▸ a1) (holo ▸ b1)
    obtain ⟨mask, d1, d2⟩ := vget2_of_rect h3.1 c2 c3
    obtain ⟨trues, f1, f2⟩ := vget2_of_rect h1.1 c2 c3
    obtain ⟨falses, g1, g2⟩ := vget2_of_rect h2.1 c2 c3
    obtain ⟨t, t1, t2⟩ := vget2_of_rect ht hy hx
    have n0 := h1.2 _ _ _ m1
    have n1 := h1.2 _ _ _ f1
    have n2 := h2.2 _ _ _ g1
    have n3 := h3.2 _ _ _ d1
    obtain ⟨masked, k1, k2⟩ := maskLoop_eq op hop mask trues falses t (by omega) (by omega)
    obtain ⟨v, hv⟩ := hstat masked
    have hlen : m0.length = trues.length := by omega
    refine ⟨v, ?_, la, lo, near y x, mask, trues, falses, masked, t, hol ▸ a1, holo ▸ b1, c4, d1, f1, g1, t1, k2, hv⟩
    simp only [a2, b2, c1, ok_bind, d2, f2, g2, t2, hlen, k1, hv])
  refine ⟨out, ?_, e2, fun y hy x hx => ?_⟩
  · unfold maskThresholdWith
    have m2' : vget2 ivTrue 0 0 = ok m0 := m2
    rw [hr, ok_bind, m2', ok_bind, how.lats.1, hrl, e1]; rfl
  · obtain ⟨v, q, -, la, lo, c, mask, trues, falses, masked, t, l1, l2, l3, l4, l5, l6, l7, l8, l9⟩ := e3 y hy x hx
    exact ⟨la, lo, c, mask, trues, falses, masked, t, v, l1, l2, l3, l4, l5, l6, l7, l8, q, l9⟩

/-- **C62**, consensus: each cell is the statistic over the members the mask selects in the nearest input cell. -/
theorem c62_consensus (rnd : Rnd K) {s : Statistic} (hs : Deterministic s) {T : RTree K} (hT : T.Lawful) {ig og : Grid K}
    {Y X oY oX nEns : Nat} {lats lons olats olons : List (List (Fl K))} {type otype : CoordType} (hi : BuiltGrid ig Y X lats lons type)
    (ho : BuiltGrid og oY oX olats olons otype) (hv : GridValidIn type olats olons) {ivTrue ivFalse tv : List (List (List (Fl K)))}
    (h1 : EnsRect Y X nEns ivTrue) (h2 : EnsRect Y X nEns ivFalse) (h3 : EnsRect Y X nEns tv) {threshold : List (List (Fl K))}
    (ht : Rect oY oX threshold) {op : ComparisonOperator} (hop : op ≠ .other) :
    ∃ out, maskThresholdDownscaleConsensus rnd T ig og ivTrue ivFalse tv threshold op s = ok out ∧ Rect oY oX out ∧
      ∀ y < oY, ∀ x < oX, ∃ la lo c mask trues falses masked t v, cell? olats y x = some la ∧ cell? olons y x = some lo ∧
        NearestCellTo lats lons type la lo c ∧ cell? tv c.1 c.2 = some mask ∧ cell? ivTrue c.1 c.2 = some trues ∧
        cell? ivFalse c.1 c.2 = some falses ∧ cell? threshold y x = some t ∧ Selected (fun m => Holds op m t) mask trues falses masked ∧
        cell? out y x = some v ∧ calcStatistic rnd masked s = ok v := by
  have hq : s ≠ .quantile := by
    rintro rfl
    simp [Deterministic] at hs
  have e : maskStatistic rnd s (fin 0) = fun l => calcStatistic rnd l s := by
    funext l
    exact if_neg hq
  unfold maskThresholdDownscaleConsensus
  rw [e]
  exact maskThresholdWith_sat (fun l => by obtain ⟨v, hv, -⟩ := c01_missing_iff rnd l s hs; exact ⟨v, hv⟩) hT hi ho hv h1 h2 h3 ht hop

/-- **C62**, quantile: each cell is the quantile of the members the mask selects in the nearest input cell. -/
theorem c62_quantile (rnd : Rnd K) {q : Fl K} (hq : ¬(q.lt 0 = true ∨ q.gt 1 = true)) {T : RTree K} (hT : T.Lawful) {ig og : Grid K}
    {Y X oY oX nEns : Nat} {lats lons olats olons : List (List (Fl K))} {type otype : CoordType} (hi : BuiltGrid ig Y X lats lons type)
    (ho : BuiltGrid og oY oX olats olons otype) (hv : GridValidIn type olats olons) {ivTrue ivFalse tv : List (List (List (Fl K)))}
    (h1 : EnsRect Y X nEns ivTrue) (h2 : EnsRect Y X nEns ivFalse) (h3 : EnsRect Y X nEns tv) {threshold : List (List (Fl K))}
    (ht : Rect oY oX threshold) {op : ComparisonOperator} (hop : op ≠ .other) :
    ∃ out, maskThresholdDownscaleQuantile rnd T ig og ivTrue ivFalse tv threshold op q = ok out ∧ Rect oY oX out ∧
      ∀ y < oY, ∀ x < oX, ∃ la lo c mask trues falses masked t v, cell? olats y x = some la ∧ cell? olons y x = some lo ∧
        NearestCellTo lats lons type la lo c ∧ cell? tv c.1 c.2 = some mask ∧ cell? ivTrue c.1 c.2 = some trues ∧
        cell? ivFalse c.1 c.2 = some falses ∧ cell? threshold y x = some t ∧ Selected (fun m => Holds op m t) mask trues falses masked ∧
        cell? out y x = some v ∧ calcQuantile masked q = ok v := by
  have e : maskStatistic rnd .quantile q = fun l => calcQuantile l q := by
    funext l
    exact if_pos rfl
  unfold maskThresholdDownscaleQuantile
  rw [e]
  exact maskThresholdWith_sat (fun l => (c04_throws_iff l q).2.mpr hq) hT hi ho hv h1 h2 h3 ht hop

/-- A statistic that is not supported terminates the process instead of raising an exception (see C67). -/
theorem c62_unknown_statistic :
    (do let g ← Grid.new [[fin (0 : ℚ)]] [[fin 0]] [] [] .cartesian
        maskThresholdDownscaleConsensus (fun _ => 0) RTree.scan g g [[[fin 1]]] [[[fin 2]]] [[[fin 0]]] [[fin 1]] .lt .unknown) = abort := by
  decide +kernel

/-- Concrete cases. -/
example :
    (do let g ← Grid.new [[fin (0 : ℚ), fin 0]] [[fin 0, fin 10]] [] [] .cartesian
        downscaleProbability RTree.scan g g [[[fin 1, fin 2, nan], [fin 3, fin 4, fin 5]]] [[fin 2, fin 4]] .lt) = ok [[fin (1 / 2), fin (1 / 3)]] ∧
    (do let g ← Grid.new [[fin (0 : ℚ)]] [[fin 0]] [] [] .cartesian
        maskThresholdDownscaleConsensus (fun _ => 0) RTree.scan g g [[[fin 1, fin 2, fin 3]]] [[[fin 10, fin 20, fin 30]]] [[[fin 0, fin 5, nan]]]
          [[fin 1]] .lt .mean) = ok [[fin (21 / 2)]] := by decide +kernel

end Gridpp.Props
