import Verif.Model.Smart
import Verif.Lemmas.Radius
import Verif.Base.Loops
import Verif.Props.Grid
import Verif.Props.OICases

/-! C70: `smart`. -/

set_option linter.unusedSectionVars false

namespace Gridpp.Props
open Fl Res

section
variable {K : Type} [Field K] [LinearOrder K] [IsStrictOrderedRing K]

theorem sortPairs_eq {A : Arma K} (hA : A.Lawful) (rho : Nat → K) (l : List Nat) :
    ∃ l2 : List Nat, sortPairs A (rhoPairs rho l) = ok (rhoPairs rho l2) ∧ l2.Perm l ∧ l2.Pairwise fun a b => rho a ≤ rho b := by
  have hnan : ∀ e ∈ rhoPairs rho l, e.1 ≠ nan := by
    intro e he
    obtain ⟨i, -, rfl⟩ := List.mem_map.mp he
    simp
  have hperm := hA.sort_perm _ hnan
  have hsort := hA.sort_sorted _ hnan
  have hs : A.sortFirst (rhoPairs rho l) = rhoPairs rho ((A.sortFirst (rhoPairs rho l)).map Prod.snd) := by
    unfold rhoPairs
    rw [List.map_map]
    conv_lhs => rw [← List.map_id (A.sortFirst _)]
    apply List.map_congr_left
    intro e he
    obtain ⟨i, -, rfl⟩ := List.mem_map.mp (hperm.subset he)
    rfl
  refine ⟨(A.sortFirst (rhoPairs rho l)).map Prod.snd, ?_, ?_, ?_⟩
  · unfold sortPairs
    rw [if_neg, ← hs]
    simp [rhoPairs, Fl.isNan]
  · have := hperm.map Prod.snd
    simpa [rhoPairs, List.map_map, Function.comp_def] using this
  · rw [hs] at hsort
    have := List.pairwise_map.mp hsort
    refine this.imp ?_
    intro a b hab
    simpa using hab

/-- The best `n` of a sorted list. -/
theorem takeBest (rho : Nat → K) (l l2 : List Nat) (hl : l.Nodup) (hp : l2.Perm l) (hs : l2.Pairwise fun a b => rho a ≤ rho b) (n : Nat) :
    (l2.reverse.take n).Nodup ∧ (∀ i ∈ l2.reverse.take n, i ∈ l) ∧ (l2.reverse.take n).length = min n l.length ∧
      ∀ i ∈ l, i ∉ l2.reverse.take n → ∀ j ∈ l2.reverse.take n, rho i ≤ rho j := by
  have hs2 : l2.reverse.Pairwise fun a b => rho b ≤ rho a := by rw [List.pairwise_reverse]; exact hs
  refine ⟨(List.take_sublist _ _).nodup (List.nodup_reverse.mpr (hp.nodup_iff.mpr hl)), fun i hi =>
    hp.subset (List.mem_reverse.mp (List.mem_of_mem_take hi)), by simp [hp.length_eq], fun i hi hno j hj => ?_⟩
  have hi2 : i ∈ l2.reverse := List.mem_reverse.mpr (hp.symm.subset hi)
  rw [← List.take_append_drop n l2.reverse, List.mem_append] at hi2
  rw [← List.take_append_drop n l2.reverse, List.pairwise_append] at hs2
  exact hs2.2.2 j hj i (hi2.resolve_left hno)

theorem foldl_add_nan (l : List (Fl K)) (h : nan ∈ l) (a : Fl K) : l.foldl (· + ·) a = nan := by
  have key : ∀ l : List (Fl K), l.foldl (· + ·) nan = nan := by
    intro l
    induction l with
    | nil => rfl
    | cons x t ih => rw [List.foldl_cons, nan_add, ih]
  induction l generalizing a with
  | nil => cases h
  | cons x t ih =>
    rw [List.foldl_cons]
    rcases List.mem_cons.mp h with h | h
    · subst h
      rw [add_nan, key]
    · exact ih h _

theorem mapM_ub {α β : Type} {f : α → Res β} {l : List α} (h : ∀ a ∈ l, (∃ b, f a = ok b) ∨ f a = ub) (hu : ∃ a ∈ l, f a = ub) :
    mapM f l = ub := by
  induction l with
  | nil => obtain ⟨a, ha, -⟩ := hu; cases ha
  | cons a t ih =>
    rw [mapM_cons]
    rcases h a (by simp) with ⟨b, hb⟩ | hb
    · rw [hb, ok_bind, ih (fun a ha => h a (List.mem_cons_of_mem _ ha))]
      · rfl
      · obtain ⟨c, hc, hcu⟩ := hu
        rcases List.mem_cons.mp hc with rfl | hc
        · rw [hb] at hcu; cases hcu
        · exact ⟨c, hc, hcu⟩
    · rw [hb]; rfl

theorem grid2_ub {β : Type} {Y X : Nat} {f : Int → Int → Res β} (h : ∀ y < Y, ∀ x < X, (∃ b, f (y : Int) (x : Int) = ok b) ∨ f (y : Int) (x : Int) = ub)
    (hu : ∃ y < Y, ∃ x < X, f (y : Int) (x : Int) = ub) : grid2 Y X f = ub := by
  unfold grid2
  have hmem : ∀ (n : Nat) (a : Int), a ∈ upto n ↔ ∃ k < n, (k : Int) = a := by intro n a; simp [upto]
  have hrow : ∀ y < Y, (∃ x < X, f (y : Int) (x : Int) = ub) → mapM (fun x => f (y : Int) x) (upto X) = ub := by
    rintro y hy ⟨x, hx, hux⟩
    apply mapM_ub
    · intro a ha
      obtain ⟨k, hk, rfl⟩ := (hmem _ _).mp ha
      exact h y hy k hk
    · exact ⟨x, (hmem _ _).mpr ⟨x, hx, rfl⟩, hux⟩
  apply mapM_ub
  · intro a ha
    obtain ⟨y, hy, rfl⟩ := (hmem _ _).mp ha
    by_cases hux : ∃ x < X, f (y : Int) (x : Int) = ub
    · exact Or.inr (hrow y hy hux)
    · left
      apply mapM_exists
      intro b hb
      obtain ⟨x, hx, rfl⟩ := (hmem _ _).mp hb
      exact (h y hy x hx).resolve_right fun c => hux ⟨x, hx, c⟩
  · obtain ⟨y, hy, hux⟩ := hu
    exact ⟨y, (hmem _ _).mpr ⟨y, hy, rfl⟩, hrow y hy hux⟩

end

section
variable {K : Type} [Field K] [LinearOrder K] [IsStrictOrderedRing K] [HasGeo K] [LawfulSqrt K] [HasExp K]

/-- The structure function gives numbers: the localization distance `L c` at output cell `c`, the correlation `G c d` of
output cell `c` and input cell `d`. -/
structure GridCorrelations (T : RTree K) (s : SF K) (ig og : Grid K) (L : Nat × Nat → Fl K) (G : Nat × Nat → Nat × Nat → K) : Prop where
  radius : ∀ (c : Nat × Nat) p, og.getPoint (c.1 : Int) (c.2 : Int) = ok p → s.locDist T p = ok (L c)
  cell : ∀ (c d : Nat × Nat) p q, og.getPoint (c.1 : Int) (c.2 : Int) = ok p → ig.getPoint (d.1 : Int) (d.2 : Int) = ok q →
    s.corr T p q = ok (fin (G c d))

/-- Input cell `d` lies within the localization distance of output cell `c` (distances in the coordinate type of the input). -/
def Near (ilats ilons olats olons : List (List (Fl K))) (itype : CoordType) (L : Nat × Nat → Fl K) (c d : Nat × Nat) : Prop :=
  ∃ p q, CellAt olats olons itype c p ∧ CellAt ilats ilons itype d q ∧ Within p q (L c)

/-- `v` is the mean of the values of at most `num` different input cells that are near output cell `c`, all if there are at
most `num`, otherwise `num` of the best correlated ones. -/
def IsSmartMean (ivalues : List (List (Fl K))) (near : Nat × Nat → Prop) (rho : Nat × Nat → K) (num : Nat) (v : Fl K) : Prop :=
  ∃ r : List (Nat × Nat), r.Nodup ∧ (∀ d ∈ r, near d) ∧ r.length ≤ num ∧
    (∀ d, near d → d ∉ r → r.length = num ∧ ∀ e ∈ r, rho d ≤ rho e) ∧
    (r = [] → v = nan) ∧ ((∃ d ∈ r, cell? ivalues d.1 d.2 = some nan) → v = nan) ∧
    ∀ w : Nat × Nat → K, r ≠ [] → (∀ d ∈ r, cell? ivalues d.1 d.2 = some (fin (w d))) → v = fin ((r.map w).sum / r.length)

theorem smartCell_spec {T : RTree K} (hT : T.Lawful) {A : Arma K} (hA : A.Lawful) {ig og : Grid K} {Y X OY OX : Nat}
    {ilats ilons olats olons : List (List (Fl K))} {itype otype : CoordType} (hi : BuiltGrid ig Y X ilats ilons itype)
    (ho : BuiltGrid og OY OX olats olons otype) (hv : GridValidIn itype olats olons) {ivalues : List (List (Fl K))} (hr : Rect Y X ivalues)
    {s : SF K} {L : Nat × Nat → Fl K} {G : Nat × Nat → Nat × Nat → K} (hc : GridCorrelations T s ig og L G) (num : Int) {y x : Nat}
    (hy : y < OY) (hx : x < OX) :
    ((∃ d, Near ilats ilons olats olons itype L (y, x) d) → ∃ v, smartCell T A ig og ivalues num s (y : Int) (x : Int) = ok v ∧
      IsSmartMean ivalues (Near ilats ilons olats olons itype L (y, x)) (G (y, x)) num.toNat v) ∧
    ((¬ ∃ d, Near ilats ilons olats olons itype L (y, x) d) → smartCell T A ig og ivalues num s (y : Int) (x : Int) = ub) := by
  obtain ⟨hwo, e1, e2, e3⟩ := ho.wf
  have hpoint : ∃ p1, og.getPoint (y : Int) (x : Int) = ok p1 := by
    obtain ⟨h1, h2, h3, h4, el, lf, h5, h6, hg⟩ := ho
    obtain ⟨p, q, hp, -⟩ := c15_get_point OY OX h1 h2 olats olons el lf otype og h3 h4 h5 h6 hg y x hy hx
    exact ⟨p, hp⟩
  have hipoint : ∀ c : Nat × Nat, c.1 < Y → c.2 < X → ∃ p, ig.getPoint (c.1 : Int) (c.2 : Int) = ok p := by
    intro c hcy hcx
    obtain ⟨h1, h2, h3, h4, el, lf, h5, h6, hg⟩ := hi
    obtain ⟨p, q, hp, -⟩ := c15_get_point Y X h1 h2 ilats ilons el lf itype ig h3 h4 h5 h6 hg c.1 c.2 hcy hcx
    exact ⟨p, hp⟩
  obtain ⟨p1, hp1⟩ := hpoint
  obtain ⟨la, hla, hla'⟩ := vget2_of_rect hwo.lats hy hx
  obtain ⟨lo, hlo, hlo'⟩ := vget2_of_rect hwo.lons hy hx
  rw [e1] at hla
  rw [e2] at hlo
  obtain ⟨q1, hq1⟩ := hv y x la lo hla hlo
  obtain ⟨idx, hidx, -, hnd, hmem⟩ := grid_within hT hi hq1 (L (y, x))
  have hcell : CellAt olats olons itype (y, x) q1 := ⟨la, lo, hla, hlo, hq1⟩
  have hnear : ∀ d, Near ilats ilons olats olons itype L (y, x) d ↔ d ∈ idx := by
    intro d
    rw [hmem]
    constructor
    · rintro ⟨p, q, ⟨la', lo', c1, c2, c3⟩, c4, c5⟩
      have : p = q1 := by
        have h1 : la' = la := by rw [hla] at c1; exact (Option.some.inj c1).symm
        have h2 : lo' = lo := by rw [hlo] at c2; exact (Option.some.inj c2).symm
        rw [h1, h2, hq1] at c3
        exact (Res.ok.inj c3).symm
      subst this
      exact ⟨q, c4, c5⟩
    · rintro ⟨q, c4, c5⟩
      exact ⟨q1, q, hcell, c4, c5⟩
  have hlt : ∀ c ∈ idx, c.1 < Y ∧ c.2 < X := by
    intro c hcm
    obtain ⟨hwi, f1, f2, f3⟩ := hi.wf
    obtain ⟨q, hq, -⟩ := (hmem c).mp hcm
    rw [← f1, ← f2, ← f3] at hq
    exact hwi.cellAt_lt hq
  let rho : Nat → K := fun k => G (y, x) (idx.getD k (0, 0))
  have hgetD : ∀ k (hk : k < idx.length), idx.getD k (0, 0) = idx[k] := by intro k hk; simp [hk]
  have hpairs : mapM (fun k : Nat => do
      let c ← vget idx (k : Int)
      let p2 ← ig.getPoint (c.1 : Int) (c.2 : Int)
      let r ← s.corr T p1 p2
      ok (r, k)) (List.range idx.length) = ok (rhoPairs rho (List.range idx.length)) := by
    unfold rhoPairs
    apply mapM_ok
    intro k hk
    have hk := List.mem_range.mp hk
    obtain ⟨p2, hp2⟩ := hipoint idx[k] (hlt _ (List.getElem_mem hk)).1 (hlt _ (List.getElem_mem hk)).2
    rw [vget_some (List.getElem?_eq_getElem hk), ok_bind, hp2, ok_bind, hc.cell (y, x) idx[k] p1 p2 hp1 hp2, ok_bind]
    simp only [rho, hgetD k hk]
  obtain ⟨l2, hl2, hperm, hsorted⟩ := sortPairs_eq hA rho (List.range idx.length)
  have hstep : smartCell T A ig og ivalues num s (y : Int) (x : Int) = (do
      let a ← vget (rhoPairs rho l2) 0
      let b ← vget (rhoPairs rho l2) (((rhoPairs rho l2).length : Int) - 1)
      Res.assert (a.1.le b.1)
      smartMean ivalues idx (rhoPairs rho l2) num) := by
    unfold smartCell
    simp only [hp1, ok_bind, hc.radius (y, x) p1 hp1, hla', hlo', hidx, hpairs, hl2]
  have hlen : l2.length = idx.length := by rw [hperm.length_eq, List.length_range]
  constructor
  · rintro ⟨d, hd⟩
    have hpos : 0 < l2.length := by
      rw [hlen]
      exact List.length_pos_of_mem ((hnear d).mp hd)
    obtain ⟨t1, t2, t3, t4⟩ := takeBest rho (List.range idx.length) l2 List.nodup_range hperm hsorted num.toNat
    rw [List.length_range] at t3
    generalize hr0 : l2.reverse.take num.toNat = r0 at t1 t2 t3 t4
    have hr0lt : ∀ k ∈ r0, k < idx.length := fun k hk => List.mem_range.mp (t2 k hk)
    -- the values
    have hval : ∀ k, k < idx.length → ∃ v, cell? ivalues (idx.getD k (0, 0)).1 (idx.getD k (0, 0)).2 = some v := by
      intro k hk
      rw [hgetD k hk]
      have := hlt _ (List.getElem_mem hk)
      obtain ⟨v, h1, -⟩ := vget2_of_rect hr this.1 this.2
      exact ⟨v, h1⟩
    let val : Nat × Nat → Fl K := fun c => (cell? ivalues c.1 c.2).getD nan
    have hvals : mapM (fun e : Fl K × Nat => do
        let c ← vget idx (e.2 : Int)
        vget2 ivalues (c.1 : Int) (c.2 : Int)) ((rhoPairs rho l2).reverse.take num.toNat) =
        ok ((r0.map fun k => idx.getD k (0, 0)).map val) := by
      have : (rhoPairs rho l2).reverse.take num.toNat = rhoPairs rho r0 := by
        unfold rhoPairs
        rw [← List.map_reverse, ← List.map_take, hr0]
      rw [this]
      have hgo : ∀ r : List Nat, (∀ k ∈ r, k < idx.length) → mapM (fun e : Fl K × Nat => do
        let c ← vget idx (e.2 : Int)
        vget2 ivalues (c.1 : Int) (c.2 : Int)) (rhoPairs rho r) = ok ((r.map fun k => idx.getD k (0, 0)).map val) := by
        intro r
        induction r with
        | nil => intro _; rfl
        | cons k t ih =>
          intro hk
          have hk0 := hk k (by simp)
          obtain ⟨v, hv0⟩ := hval k hk0
          show mapM _ ((fin (rho k), k) :: rhoPairs rho t) = _
          rw [mapM_cons, vget_some (List.getElem?_eq_getElem hk0), ok_bind, ih fun j hj => hk j (List.mem_cons_of_mem _ hj)]
          rw [hgetD k hk0] at hv0
          rw [vget2_of_cell? hv0, ok_bind, ok_bind, List.map_cons, List.map_cons]
          simp only [val, hgetD k hk0, hv0, Option.getD_some]
      exact hgo r0 hr0lt
    have h0 : vget (rhoPairs rho l2) 0 = ok (fin (rho l2[0]), l2[0]) := by
      apply vget_some (n := 0)
      simp [rhoPairs, hpos]
    have h1 : vget (rhoPairs rho l2) (((rhoPairs rho l2).length : Int) - 1) = ok (fin (rho l2[l2.length - 1]), l2[l2.length - 1]) := by
      have : (((rhoPairs rho l2).length : Int) - 1) = ((l2.length - 1 : Nat) : Int) := by simp [rhoPairs]; omega
      rw [this]
      apply vget_some
      have : l2.length - 1 < l2.length := by omega
      simp [rhoPairs, this]
    have hle : rho l2[0] ≤ rho l2[l2.length - 1] := by
      rcases Nat.eq_or_lt_of_le (Nat.zero_le (l2.length - 1)) with h | h
      · simp only [← h]; exact le_refl _
      · exact List.pairwise_iff_getElem.mp hsorted 0 (l2.length - 1) hpos (by omega) h
    rw [hstep, h0, ok_bind, h1, ok_bind]
    simp only [le_fin, hle, decide_true, assert_true, ok_bind]
    unfold smartMean
    rw [hvals, ok_bind]
    have hinj : (r0.map fun k => idx.getD k (0, 0)).Nodup := by
      refine t1.map_on ?_
      intro a ha b hb hab
      rw [hgetD a (hr0lt a ha), hgetD b (hr0lt b hb)] at hab
      exact (List.Nodup.getElem_inj_iff hnd).mp hab
    have hin : ∀ d ∈ r0.map (fun k => idx.getD k (0, 0)), d ∈ idx := by
      intro d hd
      obtain ⟨k, hk, rfl⟩ := List.mem_map.mp hd
      rw [hgetD k (hr0lt k hk)]
      exact List.getElem_mem _
    have hrest : ∀ d, d ∈ idx → d ∉ r0.map (fun k => idx.getD k (0, 0)) → (r0.map fun k => idx.getD k (0, 0)).length = num.toNat ∧
        ∀ e ∈ r0.map (fun k => idx.getD k (0, 0)), G (y, x) d ≤ G (y, x) e := by
      intro d hd hno
      obtain ⟨k, hk, rfl⟩ := List.mem_iff_getElem.mp hd
      have hkn : k ∉ r0 := fun h => hno (List.mem_map.mpr ⟨k, h, hgetD k hk⟩)
      constructor
      · rw [List.length_map, t3]
        by_contra hne
        have hfull : r0.length = idx.length := by omega
        have hsub : r0 ⊆ List.range idx.length := fun i hi => t2 i hi
        have hp := List.subperm_of_subset t1 hsub
        have := hp.perm_of_length_le (by rw [List.length_range, hfull])
        exact hkn (this.symm.subset (List.mem_range.mpr hk))
      · intro e he
        obtain ⟨j, hj, rfl⟩ := List.mem_map.mp he
        have := t4 k (List.mem_range.mpr hk) hkn j hj
        simp only [rho, hgetD k hk] at this
        exact this
    have hlenr : (r0.map fun k => idx.getD k (0, 0)).length ≤ num.toNat := by
      rw [List.length_map, t3]; exact min_le_left _ _
    generalize r0.map (fun k => idx.getD k (0, 0)) = r at hinj hin hrest hlenr
    by_cases hr1 : r = []
    · rw [if_neg (by simp [hr1])]
      refine ⟨nan, rfl, r, hinj, fun d hd => (hnear d).mpr (hin d hd), hlenr, fun d hd hno => hrest d ((hnear d).mp hd) hno, fun _ => rfl,
        fun _ => rfl, fun w h => absurd hr1 h⟩
    · rw [if_pos (by simpa [List.length_pos_iff] using hr1)]
      refine ⟨_, rfl, r, hinj, fun d hd => (hnear d).mpr (hin d hd), hlenr, fun d hd hno => hrest d ((hnear d).mp hd) hno,
        fun h => absurd h hr1, ?_, ?_⟩
      · rintro ⟨d, hd, hnan⟩
        rw [foldl_add_nan]
        · exact nan_div _
        · exact List.mem_map.mpr ⟨d, hd, by simp [val, hnan]⟩
      · intro w _ hw
        have : r.map val = (r.map w).map fin := by
          rw [List.map_map]
          apply List.map_congr_left
          intro d hd
          simp [val, hw d hd]
        rw [this, zero_def, foldl_add_fin, zero_add, ofNat_def, fin_div_of_ne]
        · simp
        · simpa using hr1
  · intro hno
    have : idx = [] := List.eq_nil_iff_forall_not_mem.mpr fun d hd => hno ⟨d, (hnear d).mpr hd⟩
    have h0 : l2 = [] := by
      rw [this] at hlen
      exact List.length_eq_zero_iff.mp (by simpa using hlen)
    rw [hstep, h0]
    rfl

/-- C70, where every output cell has an input cell within its localization distance: every output is the mean described by
`IsSmartMean`, and nothing is read outside the lists. -/
theorem c70_smart_partial {T : RTree K} (hT : T.Lawful) {A : Arma K} (hA : A.Lawful) {ig og : Grid K} {Y X OY OX : Nat}
    {ilats ilons olats olons : List (List (Fl K))} {itype otype : CoordType} (hi : BuiltGrid ig Y X ilats ilons itype)
    (ho : BuiltGrid og OY OX olats olons otype) (hv : GridValidIn itype olats olons) {ivalues : List (List (Fl K))} (hr : Rect Y X ivalues)
    {s : SF K} {L : Nat × Nat → Fl K} {G : Nat × Nat → Nat × Nat → K} (hc : GridCorrelations T s ig og L G) (num : Int)
    (hne : ∀ y < OY, ∀ x < OX, ∃ d, Near ilats ilons olats olons itype L (y, x) d) :
    ∃ out, smart T A ig og ivalues num s = ok out ∧ Rect OY OX out ∧ ∀ y < OY, ∀ x < OX, ∃ v, cell? out y x = some v ∧
      IsSmartMean ivalues (Near ilats ilons olats olons itype L (y, x)) (G (y, x)) num.toNat v := by
  obtain ⟨hwo, -⟩ := ho.wf
  obtain ⟨out, h1, h2, h3⟩ := grid2_exists (f := smartCell T A ig og ivalues num s)
    (P := fun y x v => IsSmartMean ivalues (Near ilats ilons olats olons itype L (y, x)) (G (y, x)) num.toNat v)
    (fun y hy x hx => (smartCell_spec hT hA hi ho hv hr hc num hy hx).1 (hne y hy x hx))
  refine ⟨out, ?_, h2, fun y hy x hx => ?_⟩
  · unfold smart
    rw [hwo.size, ok_bind, h1]
  · obtain ⟨v, a, -, b⟩ := h3 y hy x hx
    exact ⟨v, a, b⟩

/-- **C70** is false as stated: if any output cell has no input cell within its localization distance, `rhos[0]` of an empty
vector is read. -/
theorem c70_reads_outside {T : RTree K} (hT : T.Lawful) {A : Arma K} (hA : A.Lawful) {ig og : Grid K} {Y X OY OX : Nat}
    {ilats ilons olats olons : List (List (Fl K))} {itype otype : CoordType} (hi : BuiltGrid ig Y X ilats ilons itype)
    (ho : BuiltGrid og OY OX olats olons otype) (hv : GridValidIn itype olats olons) {ivalues : List (List (Fl K))} (hr : Rect Y X ivalues)
    {s : SF K} {L : Nat × Nat → Fl K} {G : Nat × Nat → Nat × Nat → K} (hc : GridCorrelations T s ig og L G) (num : Int)
    {y x : Nat} (hy : y < OY) (hx : x < OX) (hno : ¬ ∃ d, Near ilats ilons olats olons itype L (y, x) d) :
    smart T A ig og ivalues num s = ub := by
  obtain ⟨hwo, -⟩ := ho.wf
  unfold smart
  rw [hwo.size, ok_bind]
  apply grid2_ub
  · intro y' hy' x' hx'
    have h := smartCell_spec hT hA hi ho hv hr hc num hy' hx'
    by_cases hd : ∃ d, Near ilats ilons olats olons itype L (y', x') d
    · obtain ⟨v, hv, -⟩ := h.1 hd
      exact Or.inl ⟨v, hv⟩
    · exact Or.inr (h.2 hd)
  · exact ⟨y, hy, x, hx, (smartCell_spec hT hA hi ho hv hr hc num hy hx).2 hno⟩

end

section
variable {K : Type} [Field K] [LinearOrder K] [IsStrictOrderedRing K] [HasGeo K] [LawfulSqrt K] [LawfulExp K]

/-- The correlations exist for constructed grids, if the structure function has its scales at the output cells. -/
theorem c70_correlations (T : RTree K) (s : SF K) {ig og : Grid K} {Y X OY OX : Nat} {ilats ilons olats olons : List (List (Fl K))}
    {itype otype : CoordType} (hi : BuiltGrid ig Y X ilats ilons itype) (ho : BuiltGrid og OY OX olats olons otype)
    (h : ∀ (c : Nat × Nat) p, og.getPoint (c.1 : Int) (c.2 : Int) = ok p → Regular T s p) : ∃ L G, GridCorrelations T s ig og L G := by
  classical
  have lt : ∀ {g : Grid K} {Y X : Nat} {lats lons : List (List (Fl K))} {type : CoordType}, BuiltGrid g Y X lats lons type →
      ∀ (c : Nat × Nat) p, g.getPoint (c.1 : Int) (c.2 : Int) = ok p → ∃ q, Spec.LiesAt p q := by
    intro g Y X lats lons type hg c p hp
    obtain ⟨hw, -⟩ := hg.wf
    have hp' := hp
    unfold Grid.getPoint at hp'
    obtain ⟨la, hla, -⟩ := bind_eq_ok.mp hp'
    unfold vget2 at hla
    obtain ⟨row, h1, h2⟩ := bind_eq_ok.mp hla
    have h1 := vget_nat_eq_ok.mp h1
    have h2 := vget_nat_eq_ok.mp h2
    have hcell : cell? g.lats c.1 c.2 = some la := by unfold cell?; rw [h1, Option.bind_some, h2]
    obtain ⟨hy, hx⟩ := cell?_lt hw.lats hcell
    obtain ⟨k1, k2, k3, k4, el, lf, k5, k6, k7⟩ := hg
    obtain ⟨p', q, e, -, -, -, -, -, -, hq⟩ := c15_get_point Y X k1 k2 lats lons el lf type g k3 k4 k5 k6 k7 c.1 c.2 hy hx
    rw [hp] at e; cases e
    exact ⟨q, hq⟩
  have hL : ∀ c : Nat × Nat, ∃ l, ∀ p, og.getPoint (c.1 : Int) (c.2 : Int) = ok p → s.locDist T p = ok l := by
    intro c
    by_cases hx : ∃ p, og.getPoint (c.1 : Int) (c.2 : Int) = ok p
    · obtain ⟨p, hp⟩ := hx
      obtain ⟨l, hl⟩ := (h c p hp).locDist
      exact ⟨l, fun p' hp' => by rw [hp] at hp'; cases hp'; exact hl⟩
    · exact ⟨nan, fun p hp => absurd ⟨p, hp⟩ hx⟩
  have hG : ∀ c d : Nat × Nat, ∃ g, ∀ p q, og.getPoint (c.1 : Int) (c.2 : Int) = ok p → ig.getPoint (d.1 : Int) (d.2 : Int) = ok q →
      s.corr T p q = ok (fin g) := by
    intro c d
    by_cases hx : ∃ p, og.getPoint (c.1 : Int) (c.2 : Int) = ok p
    · by_cases hy : ∃ q, ig.getPoint (d.1 : Int) (d.2 : Int) = ok q
      · obtain ⟨p, hp⟩ := hx
        obtain ⟨q, hq⟩ := hy
        obtain ⟨g, hg, -⟩ := c57_vector_partial T s p (h c p hp) (lt ho c p hp)
        refine ⟨g q, fun p' q' hp' hq' => ?_⟩
        rw [hp] at hp'; cases hp'
        rw [hq] at hq'; cases hq'
        exact hg q (lt hi d q hq)
      · exact ⟨0, fun p q _ hq => absurd ⟨q, hq⟩ hy⟩
    · exact ⟨0, fun p q hp _ => absurd ⟨p, hp⟩ hx⟩
  choose L hL using hL
  choose G hG using hG
  exact ⟨L, G, hL, hG⟩

end

/-! ## Concrete cases -/

section examples

/-- A grid with one row, at distances 1, 2 and 9 from the output cell. -/
def smartLine (A : Arma ℚ) (h : Fl ℚ) (ivalues : List (List (Fl ℚ))) (num : Int) : Res (List (List (Fl ℚ))) := do
  let ig ← Grid.new [[fin 0, fin 0, fin 0]] [[fin 1, fin 2, fin 9]] [] [] .cartesian
  let og ← Grid.new [[fin 0]] [[fin 0]] [] [] .cartesian
  smart RTree.scan A ig og ivalues num (.cressman h (fin 0) (fin 0))

/-- Reversing sorts the lists of these examples. -/
def reverseArma : Arma ℚ := ⟨fun _ => ub, fun l => l.reverse⟩

example : smartLine reverseArma (fin 5) [[fin 4, fin 6, fin 100]] 2 = ok [[fin 5]] := by decide +kernel
example : smartLine reverseArma (fin 5) [[fin 4, fin 6, fin 100]] 1 = ok [[fin 4]] := by decide +kernel
example : smartLine reverseArma (fin 5) [[fin 4, fin 6, fin 100]] 7 = ok [[fin 5]] := by decide +kernel
example : smartLine reverseArma (fin 5) [[fin 4, nan, fin 100]] 2 = ok [[nan]] := by decide +kernel
example : smartLine reverseArma (fin 5) [[fin 4, fin 6, fin 100]] 0 = ok [[nan]] := by decide +kernel

/-- No input cell within the localization distance. -/
theorem c70_empty_case : smartLine reverseArma (fin (1 / 2)) [[fin 4, fin 6, fin 100]] 2 = ub := by decide +kernel

/-- The size of `ivalues` is not checked. -/
theorem c70_unchecked : smartLine reverseArma (fin 5) [] 2 = ub := by decide +kernel

/-- The assumptions of `c70_smart_partial` are met. -/
example : ∃ (ig og : Grid ℝ) (L : Nat × Nat → Fl ℝ) (G : Nat × Nat → Nat × Nat → ℝ),
    BuiltGrid ig 1 2 [[fin 0, fin 0]] [[fin 1, fin 2]] .cartesian ∧ BuiltGrid og 1 1 [[fin 0]] [[fin 0]] .cartesian ∧
    GridValidIn .cartesian [[fin (0 : ℝ)]] [[fin 0]] ∧ GridCorrelations RTree.scan (.cressman (fin 5) (fin 0) (fin 0)) ig og L G ∧
    ∀ y < 1, ∀ x < 1, ∃ d, Near [[fin 0, fin 0]] [[fin 1, fin 2]] [[fin 0]] [[fin 0]] .cartesian L (y, x) d := by
  obtain ⟨ig, hig⟩ : ∃ g : Grid ℝ, Grid.new [[fin 0, fin 0]] [[fin 1, fin 2]] [] [] .cartesian = ok g := ⟨_, by with_unfolding_all rfl⟩
  obtain ⟨og, hog⟩ : ∃ g : Grid ℝ, Grid.new [[fin 0]] [[fin 0]] [] [] .cartesian = ok g := ⟨_, by with_unfolding_all rfl⟩
  have hi : BuiltGrid ig 1 2 [[fin 0, fin 0]] [[fin 1, fin 2]] .cartesian :=
    ⟨by norm_num, by norm_num, by simp [Rect], by simp [Rect], _, _, Or.inl rfl, Or.inl rfl, hig⟩
  have ho : BuiltGrid og 1 1 [[fin 0]] [[fin 0]] .cartesian :=
    ⟨by norm_num, by norm_num, by simp [Rect], by simp [Rect], _, _, Or.inl rfl, Or.inl rfl, hog⟩
  obtain ⟨L, G, hLG⟩ := c70_correlations RTree.scan (.cressman (fin 5) (fin 0) (fin 0)) hi ho (fun _ _ _ => trivial)
  refine ⟨ig, og, L, G, hi, ho, ho.validIn, hLG, ?_⟩
  intro y hy x hx
  obtain rfl : y = 0 := by omega
  obtain rfl : x = 0 := by omega
  obtain ⟨k1, k2, k3, k4, el, lf, k5, k6, k7⟩ := ho
  obtain ⟨p, q, hp, -⟩ := c15_get_point 1 1 k1 k2 _ _ el lf _ og k3 k4 k5 k6 k7 0 0 (by norm_num) (by norm_num)
  have hL : L (0, 0) = fin 5 := by
    have := hLG.radius (0, 0) p hp
    simpa [SF.locDist] using this.symm
  refine ⟨(0, 0), ⟨0, 0, 0⟩, ⟨1, 0, 0⟩, ⟨fin 0, fin 0, rfl, rfl, ?_⟩, ⟨fin 0, fin 1, rfl, rfl, ?_⟩, ?_⟩
  · with_unfolding_all rfl
  · with_unfolding_all rfl
  · rw [hL]
    refine ⟨?_, ?_⟩
    · unfold straightDistance sqDist
      show Real.sqrt _ ≤ 5
      norm_num
    · unfold OnAxis
      norm_num

end examples
end Gridpp.Props
