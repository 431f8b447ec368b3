import Verif.Model.Client.KDTree
import Verif.Lemmas.Client.Series
import Mathlib.Tactic.Linarith

/-! # Lemmas about the nearest neighbour search of the client -/

set_option linter.unusedSectionVars false

namespace Gridpp.Client
open Fl hiding MV isValid
open Res

variable {K : Type} [Field K] [LinearOrder K] [IsStrictOrderedRing K]

/-- The number in a float that is one. -/
def num : Fl K → K
  | fin q => q
  | _ => 0

/-- Coordinates that `getDistance` accepts. -/
def OnGlobe (lat lon : K) : Prop := |lat| ≤ 90 ∧ |lon| ≤ 360

/-- A site with acceptable coordinates. -/
def GoodSite (s : Site K) : Prop := ∃ a b, s.lat = fin a ∧ s.lon = fin b ∧ OnGlobe a b

section dist
variable [HasArcC K]

/-- The distance between two places, zero for equal coordinates. -/
def gap (a b c d : K) : K := if a = c ∧ b = d then 0 else HasArcC.arc a b c d

/-- The distance from a place to a site. -/
def far (a b : K) (s : Site K) : K := gap a b (num s.lat) (num s.lon)

theorem getDistance_ok {a b c d : K} (h : OnGlobe a b) (h' : OnGlobe c d) :
    getDistance (fin a) (fin b) (fin c) (fin d) = ok (fin (gap a b c d)) := by
  have v : ∀ x : K, |x| ≤ 360 → isValid (fin x : Fl K) = true := by
    intro x hx
    refine isValid_iff_present.mpr ⟨x, rfl, ?_⟩
    rintro rfl
    rw [abs_neg, abs_of_nonneg (by norm_num)] at hx
    norm_num at hx
  have w : ∀ x B : K, |x| ≤ B → absLe (fin x : Fl K) B = true := by
    intro x B hx
    have := abs_le.mp hx
    simp [absLe, le_fin, ge_fin, this.1, this.2]
  have e : ∀ x : K, |x| ≤ 90 → |x| ≤ 360 := fun x hx => hx.trans (by norm_num)
  unfold getDistance gap
  rw [v a (e a h.1), v c (e c h'.1), v b h.2, v d h'.2, w a _ h.1, w c _ h'.1, w b _ h.2, w d _ h'.2]
  simp only [Bool.not_true, Bool.or_self, Bool.false_eq_true, if_false, Bool.and_self, feq_fin, Bool.and_eq_true, decide_eq_true_eq]
  by_cases hc : a = c ∧ b = d
  · rw [if_pos hc, if_pos hc, zero_def]
  · rw [if_neg hc, if_neg hc]

namespace KD

/-- All sites of a tree. -/
def toList : KD K → List (Site K)
  | nil => []
  | node _ p l r => p :: (toList l ++ toList r)

/-- Keys at most that of the node on the left, greater ones on the right; no right side without a left side. -/
def Ordered : KD K → Prop
  | nil => True
  | node x p l r => Ordered l ∧ Ordered r ∧ (l = nil → r = nil) ∧ (∀ s ∈ toList l, num (key x s) ≤ num (key x p)) ∧
      ∀ s ∈ toList r, num (key x p) < num (key x s)

/-- No place beyond a line of constant longitude or latitude is nearer than the point of that line with the own latitude or
longitude. -/
structure Separates (K : Type) [Field K] [LinearOrder K] [HasArcC K] : Prop where
  lon : ∀ a b c d s : K, OnGlobe a b → OnGlobe c d → |s| ≤ 360 → (b ≤ s ∧ s < d ∨ d ≤ s ∧ s < b) → gap a b a s ≤ gap a b c d
  lat : ∀ a b c d s : K, OnGlobe a b → OnGlobe c d → |s| ≤ 90 → (a ≤ s ∧ s < c ∨ c ≤ s ∧ s < a) → gap a b s b ≤ gap a b c d

/-- The state `(s, m)` after the sites in `V` have been dealt with, when the search began with `best`. -/
def Upd (a b : K) (V : Site K → Prop) (best : Fl K) (s : Site K) (m : Fl K) : Prop :=
  (m = best ∧ ∀ p, V p → (fin (far a b p) : Fl K).lt best = false) ∨
  (V s ∧ m = fin (far a b s) ∧ (fin (far a b s) : Fl K).lt best = true ∧ ∀ p, V p → far a b s ≤ far a b p)

theorem lt_trans_fin {x y : K} {z : Fl K} (h : x < y) (h' : (fin y : Fl K).lt z = true) : (fin x : Fl K).lt z = true := by
  cases z with
  | fin z => rw [lt_fin, decide_eq_true_eq] at *; exact h.trans h'
  | pinf => rfl
  | ninf => exact absurd h' (by simp [Fl.lt])
  | nan => exact absurd h' (by simp [Fl.lt])

theorem Upd.congr {a b : K} {V W : Site K → Prop} {best m : Fl K} {s : Site K} (h : Upd a b V best s m) (hVW : ∀ p, V p ↔ W p) :
    Upd a b W best s m := by
  have : V = W := funext fun p => propext (hVW p)
  rwa [← this]

theorem Upd.union {a b : K} {V W : Site K → Prop} {best m m' : Fl K} {s s' : Site K} (h : Upd a b V best s m) (h' : Upd a b W m s' m') :
    Upd a b (fun p => V p ∨ W p) best (if m'.lt m then (s', m') else (s, m)).1 (if m'.lt m then (s', m') else (s, m)).2 := by
  rcases h' with ⟨rfl, h'⟩ | ⟨hs', rfl, hlt, h'⟩
  · have hirr : m'.lt m' = false := by
      cases m' <;> simp [Fl.lt]
    rw [hirr]
    simp only [Bool.false_eq_true, if_false]
    rcases h with ⟨rfl, h⟩ | ⟨hs, rfl, hlt, h⟩
    · exact .inl ⟨rfl, fun p hp => hp.elim (h p) (h' p)⟩
    · refine .inr ⟨.inl hs, rfl, hlt, fun p hp => hp.elim (h p) fun hp => ?_⟩
      have := h' p hp
      rw [lt_fin, decide_eq_false_iff_not, not_lt] at this
      exact this
  · rw [hlt]
    simp only [if_true]
    rcases h with ⟨rfl, h⟩ | ⟨hs, rfl, hlt2, h⟩
    · refine .inr ⟨.inr hs', rfl, hlt, fun p hp => hp.elim (fun hp => ?_) (h' p)⟩
      have := h p hp
      by_contra hc
      rw [lt_trans_fin (not_le.mp hc) hlt] at this
      exact absurd this (by simp)
    · have hlt' : far a b s' < far a b s := by rw [lt_fin, decide_eq_true_eq] at hlt; exact hlt
      exact .inr ⟨.inr hs', rfl, lt_trans_fin hlt' hlt2, fun p hp => hp.elim (fun hp => hlt'.le.trans (h p hp)) (h' p)⟩

theorem Upd.visit {a b : K} {V : Site K → Prop} {best m : Fl K} {s : Site K} (h : Upd a b V best s m) (p : Site K) :
    Upd a b (fun q => V q ∨ q = p) best (if (fin (far a b p) : Fl K).lt m then (p, fin (far a b p)) else (s, m)).1
      (if (fin (far a b p) : Fl K).lt m then (p, fin (far a b p)) else (s, m)).2 := by
  by_cases hlt : (fin (far a b p) : Fl K).lt m = true
  · have := h.union (W := fun q => q = p) (s' := p) (m' := fin (far a b p)) (.inr ⟨rfl, rfl, hlt, fun q hq => by rw [hq]⟩)
    exact this
  · rw [Bool.not_eq_true] at hlt
    have h' := h.union (W := fun q => q = p) (s' := p) (m' := m) (.inl ⟨rfl, fun q hq => by rw [hq]; exact hlt⟩)
    have hirr : m.lt m = false := by cases m <;> simp [Fl.lt]
    rw [hirr] at h'
    rw [hlt]
    exact h'

theorem Upd.skip {a b : K} {V W : Site K → Prop} {best m : Fl K} {s : Site K} (h : Upd a b V best s m)
    (hW : ∀ p, W p → (fin (far a b p) : Fl K).lt m = false) : Upd a b (fun p => V p ∨ W p) best s m := by
  have h' := h.union (W := W) (s' := s) (m' := m) (.inl ⟨rfl, hW⟩)
  have hirr : m.lt m = false := by cases m <;> simp [Fl.lt]
  rw [hirr] at h'
  exact h'

/-- What a search of the tree `t` does. -/
def Finds (a b : K) (t : KD K) (search : Fl K → Res (Site K × Fl K)) : Prop :=
  ∀ best, ∃ s m, search best = ok (s, m) ∧ s ∈ t.toList ∧ Upd a b (· ∈ t.toList) best s m

/-- A search of the child `t`, if it exists. -/
def FindsChild (a b : K) (t : KD K) (search : Option (Fl K → Res (Site K × Fl K))) : Prop :=
  match search with
  | none => t.toList = []
  | some f => Finds a b t f

/-- One turn of the loop: the sites in `N` have been searched, those in `O` are the other side. -/
theorem visit_spec {a b A : K} {x : Bool} {p : Site K} (hdist : getDistance (fin a) (fin b) p.lat p.lon = ok (fin (far a b p)))
    (hA : acrossDistance (fin a) (fin b) x p = ok (fin A))
    {left right : Option (Fl K → Res (Site K × Fl K))} {N : Site K → Prop} {O : KD K} {s0 : Site K} {m0 best : Fl K} {flag : Bool}
    (hO : FindsChild a b O (if flag then right else left)) (hs0 : s0 = p ∨ N s0) (hU : Upd a b N best s0 m0)
    (hfar : ∀ s ∈ O.toList, A ≤ far a b s) :
    ∃ s m, visit (fin a) (fin b) x p left right (s0, m0) flag = ok (s, m) ∧ ((N s ∨ s = p) ∨ s ∈ O.toList) ∧
      Upd a b (fun q => (N q ∨ q = p) ∨ q ∈ O.toList) best s m := by
  have hV := hU.visit p
  unfold visit
  rw [hdist, hA]
  simp only [ok_bind]
  generalize hS : (if (fin (far a b p) : Fl K).lt m0 then (p, fin (far a b p)) else (s0, m0)) = S at hV ⊢
  have hSmem : N S.1 ∨ S.1 = p := by
    rw [← hS]
    split_ifs
    · exact .inr rfl
    · rcases hs0 with h | h
      · exact .inr h
      · exact .inl h
  by_cases hcross : (fin A : Fl K).lt S.2 = true
  · rw [if_pos hcross]
    generalize (if flag then right else left) = other at hO
    cases other with
    | none =>
      have hO' : O.toList = [] := hO
      exact ⟨S.1, S.2, rfl, .inl hSmem, hV.skip fun q hq => by rw [hO'] at hq; simp at hq⟩
    | some search =>
      obtain ⟨s1, m1, h1, h2, h3⟩ := hO S.2
      have hT := hV.union h3
      have hTmem : (N (if m1.lt S.2 then (s1, m1) else (S.1, S.2)).1 ∨ (if m1.lt S.2 then (s1, m1) else (S.1, S.2)).1 = p) ∨
          (if m1.lt S.2 then (s1, m1) else (S.1, S.2)).1 ∈ O.toList := by
        split_ifs
        · exact .inr h2
        · exact .inl hSmem
      simp only [h1, ok_bind]
      exact ⟨_, _, rfl, hTmem, hT⟩
  · rw [if_neg hcross]
    refine ⟨S.1, S.2, rfl, .inl hSmem, hV.skip fun q hq => ?_⟩
    by_contra hc
    rw [Bool.not_eq_false] at hc
    rcases lt_or_eq_of_le (hfar q hq) with h | h
    · exact hcross (lt_trans_fin h hc)
    · rw [h] at hcross; exact hcross hc

/-- The distance across the line of a node bounds the distance to all sites on the side where the place is not. -/
theorem across_spec (hsep : Separates K) {a b : K} (hq : OnGlobe a b) {x : Bool} {p : Site K} {l r : KD K}
    (hp : GoodSite p) (hgl : ∀ s ∈ l.toList, GoodSite s) (hgr : ∀ s ∈ r.toList, GoodSite s)
    (hl : ∀ s ∈ toList l, num (key x s) ≤ num (key x p)) (hr : ∀ s ∈ toList r, num (key x p) < num (key x s)) :
    ∃ A : K, acrossDistance (fin a) (fin b) x p = ok (fin A) ∧
      ((if x then (fin b : Fl K).le p.lon else (fin a : Fl K).le p.lat) = true → ∀ s ∈ r.toList, A ≤ far a b s) ∧
      ((if x then (fin b : Fl K).le p.lon else (fin a : Fl K).le p.lat) = false → ∀ s ∈ l.toList, A ≤ far a b s) := by
  obtain ⟨c, d, hc, hd, hcd⟩ := hp
  cases x with
  | true =>
    refine ⟨gap a b a d, ?_, ?_, ?_⟩
    · rw [acrossDistance, if_pos rfl, hd]; exact getDistance_ok hq ⟨hq.1, hcd.2⟩
    · rw [if_pos rfl, hd, le_fin, decide_eq_true_eq]
      intro hbd s hs
      obtain ⟨e, f, he, hf, hef⟩ := hgr s hs
      have h1 := hr s hs
      simp only [key, if_true, hd, hf, num] at h1
      have := hsep.lon a b e f d hq hef hcd.2 (.inl ⟨hbd, h1⟩)
      simpa [far, he, hf, num] using this
    · rw [if_pos rfl, hd, le_fin, decide_eq_false_iff_not, not_le]
      intro hbd s hs
      obtain ⟨e, f, he, hf, hef⟩ := hgl s hs
      have h1 := hl s hs
      simp only [key, if_true, hd, hf, num] at h1
      have := hsep.lon a b e f d hq hef hcd.2 (.inr ⟨h1, hbd⟩)
      simpa [far, he, hf, num] using this
  | false =>
    refine ⟨gap a b c b, ?_, ?_, ?_⟩
    · rw [acrossDistance, if_neg (by simp), hc]; exact getDistance_ok hq ⟨hcd.1, hq.2⟩
    · rw [if_neg (by simp), hc, le_fin, decide_eq_true_eq]
      intro hac s hs
      obtain ⟨e, f, he, hf, hef⟩ := hgr s hs
      have h1 := hr s hs
      simp only [key, Bool.false_eq_true, if_false, hc, he, num] at h1
      have := hsep.lat a b e f c hq hef hcd.1 (.inl ⟨hac, h1⟩)
      simpa [far, he, hf, num] using this
    · rw [if_neg (by simp), hc, le_fin, decide_eq_false_iff_not, not_le]
      intro hac s hs
      obtain ⟨e, f, he, hf, hef⟩ := hgl s hs
      have h1 := hl s hs
      simp only [key, Bool.false_eq_true, if_false, hc, he, num] at h1
      have := hsep.lat a b e f c hq hef hcd.1 (.inr ⟨h1, hac⟩)
      simpa [far, he, hf, num] using this

theorem toList_of_isNil {u : KD K} (hu : u.isNil = true) : u.toList = [] := by
  cases u with
  | nil => rfl
  | node => simp [isNil] at hu

theorem eq_nil_of_isNil {u : KD K} (hu : u.isNil = true) : u = nil := by
  cases u with
  | nil => rfl
  | node => simp [isNil] at hu

theorem nearest_node (lat lon : Fl K) (x : Bool) (p : Site K) (l r : KD K) (best : Fl K) :
    nearest lat lon (node x p l r) best =
      (match if (if x then lon.le p.lon else lat.le p.lat) then (if l.isNil then none else some (nearest lat lon l))
          else (if r.isNil then none else some (nearest lat lon r)) with
      | none => visit lat lon x p (if l.isNil then none else some (nearest lat lon l))
          (if r.isNil then none else some (nearest lat lon r)) (p, best) false
      | some search => do
        let below ← search best
        visit lat lon x p (if l.isNil then none else some (nearest lat lon l))
          (if r.isNil then none else some (nearest lat lon r)) below (if x then lon.le p.lon else lat.le p.lat)) := by
  rw [nearest]
  generalize (if (if x then lon.le p.lon else lat.le p.lat) then (if l.isNil then none else some (nearest lat lon l))
    else (if r.isNil then none else some (nearest lat lon r))) = o
  cases o <;> rfl

/-- One node, given what the searches of the children do. -/
theorem node_spec {a b A : K} {x : Bool} {p : Site K} {l r : KD K} (hlr : l.toList = [] → r.toList = [])
    (hdist : getDistance (fin a) (fin b) p.lat p.lon = ok (fin (far a b p)))
    (hA : acrossDistance (fin a) (fin b) x p = ok (fin A))
    {left right : Option (Fl K → Res (Site K × Fl K))} (hcl : FindsChild a b l left) (hcr : FindsChild a b r right) (go : Bool)
    (hAl : go = true → ∀ s ∈ r.toList, A ≤ far a b s) (hAr : go = false → ∀ s ∈ l.toList, A ≤ far a b s) (best : Fl K) :
    ∃ s m, (match if go then left else right with
      | none => visit (fin a) (fin b) x p left right (p, best) false
      | some search => do
        let below ← search best
        visit (fin a) (fin b) x p left right below go) = ok (s, m) ∧ s ∈ (node x p l r).toList ∧ Upd a b (· ∈ (node x p l r).toList) best s m := by
  have hmem : ∀ q, (q ∈ l.toList ∨ q = p) ∨ q ∈ r.toList ↔ q ∈ (node x p l r).toList := by
    intro q; simp only [toList, List.mem_cons, List.mem_append]; tauto
  have hmem' : ∀ q, (q ∈ r.toList ∨ q = p) ∨ q ∈ l.toList ↔ q ∈ (node x p l r).toList := by
    intro q; simp only [toList, List.mem_cons, List.mem_append]; tauto
  have empty : ∀ V : Site K → Prop, (∀ q, ¬ V q) → Upd a b V best p best :=
    fun V hV => .inl ⟨rfl, fun q hq => absurd hq (hV q)⟩
  cases go with
  | true =>
    rw [if_pos rfl]
    cases left with
    | none =>
      have hl0 : l.toList = [] := hcl
      have hr0 := hlr hl0
      obtain ⟨s, m, h1, h2, h3⟩ := visit_spec (a := a) (b := b) (best := best) (N := (· ∈ r.toList)) (O := l) (flag := false)
        (left := none) (right := right) (s0 := p) (m0 := best) hdist hA hcl (.inl rfl) (empty _ (by simp [hr0])) (by simp [hl0])
      exact ⟨s, m, h1, (hmem' s).mp h2, h3.congr hmem'⟩
    | some search =>
      obtain ⟨s1, m1, g1, g2, g3⟩ := hcl best
      obtain ⟨s, m, h1, h2, h3⟩ := visit_spec (a := a) (b := b) (best := best) (N := (· ∈ l.toList)) (O := r) (flag := true)
        (left := some search) (right := right) (s0 := s1) (m0 := m1) hdist hA hcr (.inr g2) g3 (hAl rfl)
      exact ⟨s, m, by simp only [g1, ok_bind]; exact h1, (hmem s).mp h2, h3.congr hmem⟩
  | false =>
    rw [if_neg (by simp)]
    cases right with
    | none =>
      have hr0 : r.toList = [] := hcr
      obtain ⟨s, m, h1, h2, h3⟩ := visit_spec (a := a) (b := b) (best := best) (N := (· ∈ r.toList)) (O := l) (flag := false)
        (left := left) (right := none) (s0 := p) (m0 := best) hdist hA hcl (.inl rfl) (empty _ (by simp [hr0])) (hAr rfl)
      exact ⟨s, m, h1, (hmem' s).mp h2, h3.congr hmem'⟩
    | some search =>
      obtain ⟨s1, m1, g1, g2, g3⟩ := hcr best
      obtain ⟨s, m, h1, h2, h3⟩ := visit_spec (a := a) (b := b) (best := best) (N := (· ∈ r.toList)) (O := l) (flag := false)
        (left := left) (right := some search) (s0 := s1) (m0 := m1) hdist hA hcl (.inr g2) g3 (hAr rfl)
      exact ⟨s, m, by simp only [g1, ok_bind]; exact h1, (hmem' s).mp h2, h3.congr hmem'⟩

/-- The search finds the best site of a tree in which all sites are good. -/
theorem nearest_spec (hsep : Separates K) {a b : K} (hq : OnGlobe a b) (t : KD K) (ht : t ≠ nil) (hord : t.Ordered)
    (hgood : ∀ s ∈ t.toList, GoodSite s) : Finds a b t (nearest (fin a) (fin b) t) := by
  induction t with
  | nil => exact absurd rfl ht
  | node x p l r ihl ihr =>
    obtain ⟨hol, hor, hlr, hl, hr⟩ := hord
    have hgl : ∀ s ∈ l.toList, GoodSite s := fun s hs => hgood s (by simp [toList, hs])
    have hgr : ∀ s ∈ r.toList, GoodSite s := fun s hs => hgood s (by simp [toList, hs])
    have hp : GoodSite p := hgood p (by simp [toList])
    have hdist : getDistance (fin a) (fin b) p.lat p.lon = ok (fin (far a b p)) := by
      obtain ⟨c, d, hc, hd, hcd⟩ := hp
      rw [hc, hd, getDistance_ok hq hcd]; simp [far, hc, hd, num]
    obtain ⟨A, hA, hAl, hAr⟩ := across_spec hsep hq hp hgl hgr hl hr
    have child : ∀ u : KD K, (u ≠ nil → Finds a b u (nearest (fin a) (fin b) u)) →
        FindsChild a b u (if u.isNil then none else some (nearest (fin a) (fin b) u)) := by
      intro u hu
      by_cases hn : u.isNil = true
      · rw [if_pos hn]; exact toList_of_isNil hn
      · rw [if_neg hn]; exact hu (by rintro rfl; exact hn rfl)
    have hnil : l.toList = [] → r.toList = [] := by
      intro h
      cases l with
      | nil => rw [hlr rfl]; rfl
      | node => simp [toList] at h
    intro best
    rw [nearest_node]
    exact node_spec hnil hdist hA (child l fun h => ihl h hol hgl) (child r fun h => ihr h hor hgr) _ hAl hAr best

end KD
end dist

namespace KD

/-! ### The tree that is built -/

/-- What is assumed of `std::sort` with the comparison of a section: any order that is ascending in the key. -/
def Sorts (sort : Bool → List (Site K) → List (Site K)) : Prop :=
  ∀ x l, (sort x l).Perm l ∧ (sort x l).Pairwise fun s t => num (key x s) ≤ num (key x t)

theorem key_fin {x : Bool} {s : Site K} (h : GoodSite s) : key x s = fin (num (key x s)) := by
  obtain ⟨a, b, h1, h2, -⟩ := h
  cases x <;> simp [key, h1, h2, num]

theorem advance_spec (x : Bool) (cur : Site K) (rest : List (Site K)) (m : Nat) (hg : ∀ s ∈ cur :: rest, GoodSite s)
    (hs : (cur :: rest).Pairwise fun s t => num (key x s) ≤ num (key x t)) :
    ∃ k c, advance x cur rest m = m + k ∧ (cur :: rest)[k]? = some c ∧ ∀ s ∈ rest.drop k, num (key x c) < num (key x s) := by
  induction rest generalizing cur m with
  | nil => exact ⟨0, cur, rfl, rfl, by simp⟩
  | cons p t ih =>
    have hc := key_fin (x := x) (hg cur (by simp))
    have hp := key_fin (x := x) (hg p (by simp))
    rw [List.pairwise_cons] at hs
    unfold advance
    by_cases he : (key x cur).feq (key x p) = true
    · rw [if_pos he]
      obtain ⟨k, c, h1, h2, h3⟩ := ih p (m + 1) (fun s hs => hg s (List.mem_cons_of_mem _ hs)) hs.2
      exact ⟨k + 1, c, by rw [h1]; omega, by simpa using h2, by simpa using h3⟩
    · rw [if_neg he]
      refine ⟨0, cur, rfl, rfl, ?_⟩
      have hlt : num (key x cur) < num (key x p) := by
        refine lt_of_le_of_ne (hs.1 p (by simp)) fun h => he ?_
        rw [hc, hp, h, feq_fin]; simp
      intro s hs'
      rw [List.drop_zero, List.mem_cons] at hs'
      rcases hs' with rfl | hs'
      · exact hlt
      · exact hlt.trans_le ((List.pairwise_cons.mp hs.2).1 s hs')

theorem subTree_spec {sort : Bool → List (Site K) → List (Site K)} (hsort : Sorts sort) (fuel : Nat) (l : List (Site K)) (x : Bool)
    (hne : l ≠ []) (hfuel : l.length ≤ fuel) (hg : ∀ s ∈ l, GoodSite s) :
    ∃ t, subTree sort fuel l x = ok t ∧ t ≠ nil ∧ t.Ordered ∧ t.toList.Perm l := by
  induction fuel generalizing l x with
  | zero =>
    have := List.length_pos_iff.mpr hne
    omega
  | succ fuel ih =>
    have hpos := List.length_pos_iff.mpr hne
    unfold subTree
    by_cases h1 : l.length = 1
    · rw [if_pos h1]
      obtain ⟨s, rfl⟩ := List.length_eq_one_iff.mp h1
      exact ⟨.node x s nil nil, rfl, by simp, by simp [Ordered, toList], by simp [toList]⟩
    · rw [if_neg h1]
      obtain ⟨hperm, hpw⟩ := hsort x l
      have hlen : (sort x l).length = l.length := hperm.length_eq
      set S := sort x l with hS
      have hgS : ∀ s ∈ S, GoodSite s := fun s hs => hg s (hperm.mem_iff.mp hs)
      have hmid : l.length / 2 < S.length := by omega
      have hdrop : S.drop (l.length / 2) = S[l.length / 2] :: S.drop (l.length / 2 + 1) := by
        rw [List.drop_eq_getElem_cons hmid]
      obtain ⟨k, c, hk1, hk2, hk3⟩ := advance_spec x S[l.length / 2] (S.drop (l.length / 2 + 1)) (l.length / 2)
        (by rw [← hdrop]; exact fun s hs => hgS s (List.mem_of_mem_drop hs))
        (by rw [← hdrop]; exact hpw.sublist (List.drop_sublist _ _))
      rw [← hdrop, List.getElem?_drop] at hk2
      rw [List.drop_drop] at hk3
      simp only [vget_eq_ok_of_lt hmid, ok_bind, hk1]
      set med := l.length / 2 + k with hmed
      have hmedlt : med < S.length := by
        by_contra hc
        rw [List.getElem?_eq_none (by omega)] at hk2
        simp at hk2
      have hcS : S[med] = c := by
        rw [List.getElem?_eq_getElem hmedlt] at hk2
        simpa using hk2
      rw [show l.length / 2 + 1 + k = med + 1 by omega] at hk3
      simp only [vget_eq_ok_of_lt hmedlt, ok_bind]
      have hsplit : S = S.take med ++ c :: S.drop (med + 1) := by
        rw [← hcS, ← List.drop_eq_getElem_cons hmedlt, List.take_append_drop]
      have hleft : ∀ s ∈ S.take med, num (key x s) ≤ num (key x c) := by
        rw [hsplit] at hpw
        intro s hs
        exact (List.pairwise_append.mp hpw).2.2 s hs c (by simp)
      have hm0 : 0 < med := by omega
      obtain ⟨tl, hl1, hl2, hl3, hl4⟩ := ih (S.take med) (!x) (by
          intro h
          have := congrArg List.length h
          rw [List.length_take, List.length_nil] at this
          omega) (by rw [List.length_take]; omega) (fun s hs => hgS s (List.mem_of_mem_take hs))
      rw [if_pos hm0, hl1, ok_bind]
      have hpermS : (c :: (S.take med ++ S.drop (med + 1))).Perm l := by
        refine List.Perm.trans ?_ hperm
        have : (S.take med ++ c :: S.drop (med + 1)).Perm (c :: (S.take med ++ S.drop (med + 1))) := List.perm_middle
        exact (this.symm).trans (by rw [← hsplit])
      by_cases hr : med < l.length - 1
      · rw [if_pos hr]
        obtain ⟨tr, hr1, hr2, hr3, hr4⟩ := ih (S.drop (med + 1)) (!x) (by
          intro h
          have := congrArg List.length h
          rw [List.length_drop, List.length_nil] at this
          omega) (by rw [List.length_drop]; omega) (fun s hs => hgS s (List.mem_of_mem_drop hs))
        rw [hr1, ok_bind, hcS]
        refine ⟨_, rfl, by simp, ⟨hl3, hr3, fun h => absurd h hl2, ?_, ?_⟩, ?_⟩
        · intro s hs; exact hleft s (hl4.mem_iff.mp hs)
        · intro s hs; exact hk3 s (hr4.mem_iff.mp hs)
        · exact ((hl4.append hr4).cons c).trans hpermS
      · rw [if_neg hr, hcS]
        have hd0 : S.drop (med + 1) = [] := List.drop_eq_nil_of_le (by omega)
        refine ⟨_, rfl, by simp, ⟨hl3, trivial, fun _ => rfl, ?_, ?_⟩, ?_⟩
        · intro s hs; exact hleft s (hl4.mem_iff.mp hs)
        · intro s hs; simp [toList] at hs
        · rw [hd0] at hpermS
          simp only [toList, List.append_nil] at hpermS ⊢
          exact (hl4.cons c).trans hpermS

/-- The sites are the valid grid points. -/
theorem sites_spec {Y X : Nat} (hY : 0 < Y) {lats lons : List (List (Fl K))} (hlat : Rect Y X lats) (hlon : Rect Y X lons) :
    ∃ l, sites lats lons = ok l ∧ ∀ s, s ∈ l ↔ s.i < Y ∧ s.j < X ∧ cell? lats s.i s.j = some s.lat ∧ cell? lons s.i s.j = some s.lon ∧
      isValid s.lat = true ∧ isValid s.lon = true := by
  have h0 : 0 < lats.length := by rw [hlat.1]; exact hY
  have hrow : (lats[0]).length = X := hlat.2 _ (List.getElem_mem h0)
  have inner : ∀ i < Y, ∃ out, mapM (fun j : Nat => do
      let lon ← vget2 lons i j
      if isValid lon then do
        let lat ← vget2 lats i j
        ok (if isValid lat then [Site.mk lon lat i j] else [])
      else ok []) (List.range X) = ok out ∧ out.length = X ∧ ∀ j < X, ∃ v, out[j]? = some v ∧
        ∀ s, s ∈ v ↔ s.i = i ∧ s.j = j ∧ cell? lats i j = some s.lat ∧ cell? lons i j = some s.lon ∧ isValid s.lat = true ∧ isValid s.lon = true := by
    intro i hi
    refine mapM_range_exists (P := fun j v => ∀ s : Site K, s ∈ v ↔ s.i = i ∧ s.j = j ∧ cell? lats i j = some s.lat ∧ cell? lons i j = some s.lon ∧
      isValid s.lat = true ∧ isValid s.lon = true) fun j hj => ?_
    obtain ⟨lat, ha, ha'⟩ := vget2_of_rect hlat hi hj
    obtain ⟨lon, hb, hb'⟩ := vget2_of_rect hlon hi hj
    simp only [hb', ok_bind]
    by_cases hv : isValid lon = true
    · rw [if_pos hv, ha', ok_bind]
      refine ⟨_, rfl, fun s => ?_⟩
      rw [ha, hb]
      by_cases hw : isValid lat = true
      · rw [if_pos hw, List.mem_singleton]
        constructor
        · rintro rfl; exact ⟨rfl, rfl, rfl, rfl, hw, hv⟩
        · rintro ⟨rfl, rfl, h1, h2, -, -⟩
          simp only [Option.some.injEq] at h1 h2
          subst h1; subst h2; rfl
      · rw [if_neg hw]
        constructor
        · intro h; simp at h
        · rintro ⟨-, -, h1, -, h3, -⟩
          simp only [Option.some.injEq] at h1
          rw [← h1] at h3; exact absurd h3 hw
    · rw [if_neg hv]
      refine ⟨[], rfl, fun s => ?_⟩
      rw [hb]
      constructor
      · intro h; simp at h
      · rintro ⟨-, -, -, h2, -, h4⟩
        simp only [Option.some.injEq] at h2
        rw [← h2] at h4; exact absurd h4 hv
  obtain ⟨rows, h1, h2, h3⟩ := mapM_range_exists (n := Y) (f := fun i : Nat => do
      let cells ← mapM (fun j : Nat => do
        let lon ← vget2 lons i j
        if isValid lon then do
          let lat ← vget2 lats i j
          ok (if isValid lat then [Site.mk lon lat i j] else [])
        else ok []) (List.range X)
      ok cells.flatten)
    (P := fun i v => ∀ s : Site K, s ∈ v ↔ s.i = i ∧ s.j < X ∧ cell? lats i s.j = some s.lat ∧ cell? lons i s.j = some s.lon ∧
      isValid s.lat = true ∧ isValid s.lon = true) (by
      intro i hi
      obtain ⟨out, g1, g2, g3⟩ := inner i hi
      refine ⟨out.flatten, by simp only [g1, ok_bind], fun s => ?_⟩
      rw [List.mem_flatten]
      constructor
      · rintro ⟨v, hv, hs⟩
        obtain ⟨j, hj, rfl⟩ := List.getElem_of_mem hv
        obtain ⟨w, hw1, hw2⟩ := g3 j (by omega)
        rw [List.getElem?_eq_getElem hj, Option.some.injEq] at hw1
        rw [hw1, hw2 s] at hs
        obtain ⟨e1, e2, e3⟩ := hs
        rw [e2]
        exact ⟨e1, by omega, e3⟩
      · rintro ⟨e1, e2, e3⟩
        obtain ⟨w, hw1, hw2⟩ := g3 s.j e2
        exact ⟨w, List.mem_of_getElem? hw1, (hw2 s).mpr ⟨e1, rfl, e3⟩⟩)
  refine ⟨rows.flatten, ?_, fun s => ?_⟩
  · unfold sites
    have hv : vget lats 0 = ok lats[0] := vget_eq_ok_of_lt (n := 0) h0
    rw [hv]
    simp only [ok_bind, hrow, hlat.1, h1]
  · rw [List.mem_flatten]
    constructor
    · rintro ⟨v, hv, hs⟩
      obtain ⟨i, hi, rfl⟩ := List.getElem_of_mem hv
      obtain ⟨w, hw1, hw2⟩ := h3 i (by omega)
      rw [List.getElem?_eq_getElem hi, Option.some.injEq] at hw1
      rw [hw1, hw2 s] at hs
      obtain ⟨e1, e2⟩ := hs
      rw [e1]
      exact ⟨by omega, e2⟩
    · rintro ⟨e1, e2⟩
      obtain ⟨w, hw1, hw2⟩ := h3 s.i e1
      exact ⟨w, List.mem_of_getElem? hw1, (hw2 s).mpr ⟨rfl, e2⟩⟩

end KD

end Gridpp.Client
