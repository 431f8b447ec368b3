import Verif.Lemmas.Client.Grid
import Verif.Props.Client.Neighbours

/-! # C94: the coordinates of a file of the client; C95: tags of files and the cache of neighbours -/

set_option linter.unusedSectionVars false

namespace Gridpp.Props
open Fl hiding MV isValid
open Res Client

variable {K : Type} [Field K] [LinearOrder K] [IsStrictOrderedRing K] [FloorRing K]

/-! ### Coordinates -/

/-- The file has no coordinates of this kind yet (`own`), or its grid has `Y` rows of `X` points. -/
def Fits (own lats : List (List (Fl K))) (Y X : Nat) : Prop := own = [] ∨ 0 < Y ∧ Rect Y X lats

theorem refuses_fits {own lats new : List (List (Fl K))} {Y X : Nat} (h : Fits own lats Y X) (hn : Rect Y X new) :
    refuses own lats new = ok false := by
  unfold refuses
  rcases h with rfl | ⟨h0, h⟩
  · rfl
  · by_cases ho : own.length = 0
    · rw [if_pos ho]
    · have hl : 0 < new.length := by rw [hn.1]; exact h0
      have hv0 : vget new 0 = ok new[0] := vget_eq_ok_of_lt (n := 0) hl
      rw [if_neg ho, if_neg (by rw [hn.1, h.1]; simp), hv0, numX_rect h h0]
      simp [hn.2 _ (List.getElem_mem hl)]

theorem checkRange_ok {b : K} {v : List (List (Fl K))} (h : ∀ r ∈ v, ∀ x ∈ r, ∃ q, x = fin q ∧ -b ≤ q ∧ q ≤ b) : checkRange b v = ok () := by
  unfold checkRange
  rw [if_neg]
  simp only [List.any_eq_true, Bool.or_eq_true, not_exists, not_and, not_or]
  intro r hr x hx
  obtain ⟨q, rfl, h1, h2⟩ := h r hr x hx
  simp [lt_fin, gt_fin, h1, h2]

theorem checkRange_abort {b : K} {v : List (List (Fl K))} (h : ∃ r ∈ v, ∃ q, fin q ∈ r ∧ (q < -b ∨ b < q)) : checkRange b v = .abort := by
  obtain ⟨r, hr, q, hq, hlt⟩ := h
  unfold checkRange
  rw [if_pos]
  · rfl
  · simp only [List.any_eq_true, Bool.or_eq_true]
    refine ⟨r, hr, _, hq, ?_⟩
    simp only [lt_fin, gt_fin, decide_eq_true_eq]
    exact hlt

/-- **C94** (latitudes). Latitudes of the right size from -90 to 90 are stored as they are. -/
theorem c94_lats {f : GridFile K} {Y X : Nat} {lats : List (List (Fl K))} (next : Nat) (hf : Fits f.lats f.lats Y X) (hr : Rect Y X lats)
    (hv : ∀ r ∈ lats, ∀ v ∈ r, ∃ q, v = fin q ∧ -90 ≤ q ∧ q ≤ 90) :
    ∃ f' n, setLats f next lats = ok (some (f', n)) ∧ f'.lats = lats ∧ f'.lons = f.lons := by
  unfold setLats
  rw [refuses_fits hf hr]
  simp only [ok_bind, Bool.false_eq_true, if_false]
  rw [checkRange_ok hv]
  simp only [ok_bind]
  split_ifs
  · exact ⟨_, _, rfl, rfl, rfl⟩
  · exact ⟨_, _, rfl, rfl, rfl⟩

/-- **C94** (longitudes). Longitudes of the right size from -360 to 360, none of them zero: what is stored at each grid point is from -180
to 180 and differs from the longitude given by a multiple of 360. -/
theorem c94_lons_partial {f : GridFile K} {Y X : Nat} {lons : List (List (Fl K))} (next : Nat) (hf : Fits f.lons f.lats Y X)
    (hr : Rect Y X lons) (hv : ∀ r ∈ lons, ∀ v ∈ r, ∃ q, v = fin q ∧ -360 ≤ q ∧ q ≤ 360 ∧ q ≠ 0) :
    ∃ f' n, setLons f next lons = ok (some (f', n)) ∧ f'.lats = f.lats ∧ Rect Y X f'.lons ∧
      ∀ y x q, cell? lons y x = some (fin q) →
        ∃ (r : K) (k : Int), cell? f'.lons y x = some (fin r) ∧ -180 ≤ r ∧ r ≤ 180 ∧ r = q + 360 * k := by
  have h1 : ∀ v, (∃ q : K, v = fin q ∧ -360 ≤ q ∧ q ≤ 360 ∧ q ≠ 0) → ∃ w, standardLon v = ok w ∧
      ∀ q, v = fin q → ∃ (r : K) (k : Int), w = fin r ∧ -180 ≤ r ∧ r ≤ 180 ∧ r = q + 360 * k := by
    rintro v ⟨q, rfl, h1, -, h0⟩
    obtain ⟨r, n, e1, e2, e3, e4, -⟩ := standardLon_spec h0 (by intro h; rw [h] at h1; norm_num at h1)
    refine ⟨_, e1, fun q' hq => ?_⟩
    rw [Fl.fin.injEq] at hq
    exact ⟨r, n, rfl, e2, e3, by rw [← hq]; exact e4⟩
  have h2 : ∀ l : List (Fl K), (∀ v ∈ l, ∃ q, v = fin q ∧ -360 ≤ q ∧ q ≤ 360 ∧ q ≠ 0) → ∃ o, mapM standardLon l = ok o ∧ List.Forall₂ (fun v w =>
      ∀ q, v = fin q → ∃ (r : K) (k : Int), w = fin r ∧ -180 ≤ r ∧ r ≤ 180 ∧ r = q + 360 * k) l o := by
    intro l
    induction l with
    | nil => exact fun _ => ⟨[], rfl, .nil⟩
    | cons v l ih =>
      intro h
      obtain ⟨w, e1, e2⟩ := h1 v (h v List.mem_cons_self)
      obtain ⟨o, e3, e4⟩ := ih fun u hu => h u (List.mem_cons_of_mem _ hu)
      exact ⟨w :: o, by rw [mapM_cons, e1, ok_bind, e3]; rfl, .cons e2 e4⟩
  have h3 : ∀ l : List (List (Fl K)), (∀ r ∈ l, ∀ v ∈ r, ∃ q, v = fin q ∧ -360 ≤ q ∧ q ≤ 360 ∧ q ≠ 0) → ∃ o, mapM (fun r => mapM standardLon r) l = ok o ∧
      List.Forall₂ (List.Forall₂ (fun v w =>
      ∀ q, v = fin q → ∃ (r : K) (k : Int), w = fin r ∧ -180 ≤ r ∧ r ≤ 180 ∧ r = q + 360 * k)) l o := by
    intro l
    induction l with
    | nil => exact fun _ => ⟨[], rfl, .nil⟩
    | cons v l ih =>
      intro h
      obtain ⟨w, e1, e2⟩ := h2 v (h v List.mem_cons_self)
      obtain ⟨o, e3, e4⟩ := ih fun u hu => h u (List.mem_cons_of_mem _ hu)
      exact ⟨w :: o, by rw [mapM_cons, e1, ok_bind, e3]; rfl, .cons e2 e4⟩
  obtain ⟨std, hs, hall⟩ := h3 lons hv
  have hcell : Rect Y X std ∧ ∀ y x q, cell? lons y x = some (fin q) →
        ∃ (r : K) (k : Int), cell? std y x = some (fin r) ∧ -180 ≤ r ∧ r ≤ 180 ∧ r = q + 360 * k := by
    constructor
    · refine ⟨by rw [← hall.length_eq, hr.1], fun r hr' => ?_⟩
      obtain ⟨r0, hr0, hR⟩ := forall₂_right hall r hr'
      rw [← hR.length_eq]
      exact hr.2 r0 hr0
    · intro y x q hc
      unfold cell? at hc ⊢
      cases hy : lons[y]? with
      | none => rw [hy] at hc; simp at hc
      | some row =>
        rw [hy] at hc
        have hx : row[x]? = some (fin q) := by simpa using hc
        have hyl : y < lons.length := (List.getElem?_eq_some_iff.mp hy).1
        have hxl : x < row.length := (List.getElem?_eq_some_iff.mp hx).1
        have g := List.forall₂_iff_get.mp hall
        have hR := g.2 y hyl (by rw [← g.1]; exact hyl)
        have er : lons.get ⟨y, hyl⟩ = row := (List.getElem?_eq_some_iff.mp hy).2
        rw [er] at hR
        have g' := List.forall₂_iff_get.mp hR
        have hV := g'.2 x hxl (by rw [← g'.1]; exact hxl) q (List.getElem?_eq_some_iff.mp hx).2
        obtain ⟨r, k, e1, e2⟩ := hV
        refine ⟨r, k, ?_, e2⟩
        rw [List.getElem?_eq_getElem (show y < std.length by rw [← g.1]; exact hyl)]
        show std[y][x]? = _
        rw [List.getElem?_eq_getElem (by have := g'.1; simp only [List.get_eq_getElem] at this; omega)]
        exact congrArg some e1
  unfold setLons
  rw [refuses_fits hf hr]
  simp only [ok_bind, Bool.false_eq_true, if_false]
  rw [checkRange_ok fun r hr' x hx => by
    obtain ⟨q, e, h1, h2, -⟩ := hv r hr' x hx
    exact ⟨q, e, h1, h2⟩]
  simp only [ok_bind, hs]
  split_ifs
  · exact ⟨_, _, rfl, rfl, hcell⟩
  · exact ⟨_, _, rfl, rfl, hcell⟩

/-- **C94** is false for a longitude of zero: the behaviour is undefined, whatever the other longitudes in range are. -/
theorem c94_zero_false {f : GridFile K} {Y X : Nat} {lons : List (List (Fl K))} (next : Nat) (hf : Fits f.lons f.lats Y X)
    (hr : Rect Y X lons) (hv : ∀ r ∈ lons, ∀ v ∈ r, ∃ q, v = fin q ∧ -360 ≤ q ∧ q ≤ 360) (hz : ∃ r ∈ lons, fin 0 ∈ r) :
    setLons f next lons = .ub := by
  have h1 : ∀ v, (∃ q : K, v = fin q ∧ -360 ≤ q ∧ q ≤ 360) → (∃ w, standardLon v = ok w) ∨ standardLon v = .ub := by
    rintro v ⟨q, rfl, h1, -⟩
    by_cases h0 : q = 0
    · exact .inr (by rw [h0, standardLon_zero])
    · obtain ⟨r, n, e1, -⟩ := standardLon_spec h0 (by intro h; rw [h] at h1; norm_num at h1)
      exact .inl ⟨_, e1⟩
  have h2 : ∀ l : List (Fl K), (∀ v ∈ l, ∃ q, v = fin q ∧ -360 ≤ q ∧ q ≤ 360) → ((∃ o, mapM standardLon l = ok o) ∨ mapM standardLon l = .ub) ∧
      (fin 0 ∈ l → mapM standardLon l = .ub) := by
    intro l
    induction l with
    | nil => exact fun _ => ⟨.inl ⟨[], rfl⟩, by simp⟩
    | cons v l ih =>
      intro h
      obtain ⟨i1, i2⟩ := ih fun u hu => h u (List.mem_cons_of_mem _ hu)
      rw [mapM_cons]
      rcases h1 v (h v List.mem_cons_self) with ⟨w, e⟩ | e
      · rw [e, ok_bind]
        refine ⟨?_, fun hm => ?_⟩
        · rcases i1 with ⟨o, e'⟩ | e' <;> rw [e']
          · exact .inl ⟨_, rfl⟩
          · exact .inr rfl
        · rcases List.mem_cons.mp hm with rfl | hm
          · rw [standardLon_zero] at e
            exact absurd e (by simp)
          · rw [i2 hm]
            rfl
      · rw [e]
        exact ⟨.inr rfl, fun _ => rfl⟩
  have h3 : ∀ l : List (List (Fl K)), (∀ r ∈ l, ∀ v ∈ r, ∃ q, v = fin q ∧ -360 ≤ q ∧ q ≤ 360) → (∃ r ∈ l, fin 0 ∈ r) →
      mapM (fun r => mapM standardLon r) l = .ub := by
    intro l
    induction l with
    | nil => simp
    | cons r l ih =>
      intro h hz
      rw [mapM_cons]
      obtain ⟨i1, i2⟩ := h2 r (h r List.mem_cons_self)
      by_cases hr0 : fin 0 ∈ r
      · rw [i2 hr0]
        rfl
      · obtain ⟨r', hr', hz'⟩ := hz
        have : r' ∈ l := by
          rcases List.mem_cons.mp hr' with rfl | h
          · exact absurd hz' hr0
          · exact h
        have e := ih (fun u hu => h u (List.mem_cons_of_mem _ hu)) ⟨r', this, hz'⟩
        rcases i1 with ⟨o, e'⟩ | e' <;> rw [e']
        · rw [ok_bind, e]
          rfl
        · rfl
  unfold setLons
  rw [refuses_fits hf hr]
  simp only [ok_bind, Bool.false_eq_true, if_false]
  rw [checkRange_ok hv]
  simp only [ok_bind]
  rw [h3 lons hv hz]
  rfl

/-- **C94** (range). A latitude below -90 or above 90 ends the program; so does the missing value. -/
theorem c94_lats_range {f : GridFile K} {Y X : Nat} {lats : List (List (Fl K))} (next : Nat) (hf : Fits f.lats f.lats Y X) (hr : Rect Y X lats)
    (hv : ∃ r ∈ lats, ∃ q, fin q ∈ r ∧ (q < -90 ∨ 90 < q)) : setLats f next lats = .abort := by
  unfold setLats
  rw [refuses_fits hf hr]
  simp only [ok_bind, Bool.false_eq_true, if_false]
  rw [checkRange_abort hv]
  rfl

/-- **C94** (range). A longitude below -360 or above 360 ends the program; so does the missing value. -/
theorem c94_lons_range {f : GridFile K} {Y X : Nat} {lons : List (List (Fl K))} (next : Nat) (hf : Fits f.lons f.lats Y X) (hr : Rect Y X lons)
    (hv : ∃ r ∈ lons, ∃ q, fin q ∈ r ∧ (q < -360 ∨ 360 < q)) : setLons f next lons = .abort := by
  unfold setLons
  rw [refuses_fits hf hr]
  simp only [ok_bind, Bool.false_eq_true, if_false]
  rw [checkRange_abort hv]
  rfl

theorem refuses_size {own lats new : List (List (Fl K))} {Y X Y' X' : Nat} (ho : own ≠ []) (h0 : 0 < Y) (h : Rect Y X lats)
    (hn : Rect Y' X' new) (hne : (Y', X') ≠ (Y, X)) : refuses own lats new = ok true := by
  unfold refuses
  rw [if_neg (by rw [List.length_eq_zero_iff]; exact ho)]
  by_cases hy : Y' = Y
  · have hl : 0 < new.length := by rw [hn.1]; omega
    have hv0 : vget new 0 = ok new[0] := vget_eq_ok_of_lt (n := 0) hl
    rw [if_neg (by rw [hn.1, h.1, hy]; simp), hv0, numX_rect h h0]
    simp only [ok_bind, hn.2 _ (List.getElem_mem hl)]
    have : X' ≠ X := fun hx => hne (by rw [hy, hx])
    simp [this]
  · rw [if_pos (by rw [hn.1, h.1]; exact hy)]

/-- **C94** (size). Coordinates of another size than that of the grid of the file are refused. -/
theorem c94_size {f : GridFile K} {Y X Y' X' : Nat} {v : List (List (Fl K))} (next : Nat) (h0 : 0 < Y) (h : Rect Y X f.lats)
    (hn : Rect Y' X' v) (hne : (Y', X') ≠ (Y, X)) :
    setLats f next v = ok none ∧ (f.lons ≠ [] → setLons f next v = ok none) := by
  constructor
  · unfold setLats
    rw [refuses_size (by intro he; rw [he] at h; have := h.1; simp at this; omega) h0 h hn hne]
    rfl
  · intro ho
    unfold setLons
    rw [refuses_size ho h0 h hn hne]
    rfl

/-- The hypotheses are met; a longitude of 360 is stored as zero, which cannot be given again. -/
example : setLons (⟨[], [], 0⟩ : GridFile ℚ) 1 [[fin 190, fin (-350)], [fin 360, fin 180]] =
      ok (some (⟨[], [[fin (-170), fin 10], [fin 0, fin 180]], 1⟩, 2)) ∧
    setLons (⟨[[fin 1]], [], 0⟩ : GridFile ℚ) 1 [[fin 0]] = .ub ∧ setLons (⟨[[fin 1]], [], 0⟩ : GridFile ℚ) 1 [[fin (-999)]] = .abort ∧
    setLats (⟨[[fin 1]], [], 0⟩ : GridFile ℚ) 1 [[fin 2], [fin 3]] = ok none := by
  refine ⟨?_, ?_, ?_, ?_⟩ <;> decide +kernel

/-! ### Tags and the cache -/

/-- The operation is not a scan. -/
def NoScan : Op K → Prop
  | .brute _ _ => False
  | _ => True

section
variable [HasArcC K]

/-- The table is the one that a new search with the tree gives. -/
def ByTree (sort : Bool → List (Site K) → List (Site K)) (f g : GridFile K) (t : List (List (Int × Int))) : Prop :=
  treeGrid sort f.lats f.lons g.lats g.lons = ok t

/-- The table is the one that a new scan gives. -/
def ByScan (f g : GridFile K) (t : List (List (Int × Int))) : Prop := bruteForceGrid f.lats f.lons g.lats g.lons = ok t

theorem getElem?_of_vget {α : Type} {l : List α} {k : Nat} {a : α} (h : vget l (k : Int) = ok a) : l[k]? = some a := by
  rw [vget_nat] at h
  cases hx : l[k]? with
  | none => rw [hx] at h; exact absurd h (by simp)
  | some v => rw [hx] at h; cases h; rfl

theorem step_inv {sort : Bool → List (Site K) → List (Site K)} {Allowed : GridFile K → GridFile K → List (List (Int × Int)) → Prop}
    {w : World K} {op : Op K} {r : World K × Option (List (List (Int × Int)))} (h : Inv Allowed w)
    (ht : ∀ f g t, ByTree sort f g t → Allowed f g t) (hb : NoScan op ∨ ∀ f g t, ByScan f g t → Allowed f g t) (hs : step sort w op = ok r) :
    Inv Allowed r.1 ∧ Older w r.1 := by
  cases op with
  | new =>
    cases hs
    have hget : ∀ (m : Nat) (g : GridFile K), (w.files ++ [⟨[], [], w.next⟩])[m]? = some g →
        w.files[m]? = some g ∨ m = w.files.length ∧ g = ⟨[], [], w.next⟩ := by
      intro m g hg
      by_cases hm : m < w.files.length
      · rw [List.getElem?_append_left hm] at hg
        exact .inl hg
      · rw [List.getElem?_append_right (by omega)] at hg
        by_cases hm' : m - w.files.length = 0
        · rw [hm'] at hg
          simp only [List.getElem?_cons_zero, Option.some.injEq] at hg
          exact .inr ⟨by omega, hg.symm⟩
        · rw [List.getElem?_eq_none (by simp; omega)] at hg
          simp at hg
    have hmem : ∀ g ∈ w.files ++ [⟨[], [], w.next⟩], g ∈ w.files ∨ g = ⟨[], [], w.next⟩ := by
      intro g hg
      simpa using hg
    refine ⟨⟨?_, ?_, ?_, ?_, ?_⟩, Nat.le_succ _, ?_⟩
    · intro g hg
      rcases hmem g hg with hg | rfl
      · exact (h.below g hg).trans (Nat.lt_succ_self _)
      · exact Nat.lt_succ_self _
    · intro i j a b ha hb hab
      rcases hget i a ha with ha2 | ⟨hi, ea⟩ <;> rcases hget j b hb with hb2 | ⟨hj, eb⟩
      · exact h.distinct i j a b ha2 hb2 hab
      · have := h.below a (List.mem_of_getElem? ha2)
        rw [hab, eb] at this
        exact absurd this (lt_irrefl _)
      · have := h.below b (List.mem_of_getElem? hb2)
        rw [← hab, ea] at this
        exact absurd this (lt_irrefl _)
      · rw [hi, hj]
    · intro g hg
      rcases hmem g hg with hg | rfl
      · exact h.kept g hg
      · intro r hr
        simp at hr
    · intro p hp
      have := h.keys p hp
      exact ⟨this.1.trans (Nat.lt_succ_self _), this.2.trans (Nat.lt_succ_self _)⟩
    · intro a ha b hb t htab
      have hkey := h.keys _ htab
      rcases hmem a ha with ha2 | rfl
      · rcases hmem b hb with hb2 | rfl
        · exact h.tables a ha2 b hb2 t htab
        · exact absurd hkey.2 (lt_irrefl _)
      · exact absurd hkey.1 (lt_irrefl _)
    · intro m g hg hlt
      rcases hget m g hg with hg | ⟨-, rfl⟩
      · exact hg
      · exact absurd hlt (lt_irrefl _)
  | clear =>
    cases hs
    exact ⟨⟨h.below, h.distinct, h.kept, by simp, by simp⟩, Older.refl w⟩
  | lats k v =>
    obtain ⟨f, hf, h1⟩ := bind_eq_ok.mp hs
    obtain ⟨q, hq, h2⟩ := bind_eq_ok.mp h1
    have hf' := getElem?_of_vget hf
    cases q with
    | none =>
      cases h2
      exact ⟨h, Older.refl w⟩
    | some p =>
      obtain ⟨f', n⟩ := p
      cases h2
      obtain ⟨e1, e2⟩ := setLats_spec hq (h.kept f (List.mem_of_getElem? hf'))
      exact h.replace hf' e1 e2
  | lons k v =>
    obtain ⟨f, hf, h1⟩ := bind_eq_ok.mp hs
    obtain ⟨q, hq, h2⟩ := bind_eq_ok.mp h1
    have hf' := getElem?_of_vget hf
    cases q with
    | none =>
      cases h2
      exact ⟨h, Older.refl w⟩
    | some p =>
      obtain ⟨f', n⟩ := p
      cases h2
      obtain ⟨e1, e2⟩ := setLons_spec hq (h.kept f (List.mem_of_getElem? hf'))
      exact h.replace hf' e1 e2
  | tree a b =>
    obtain ⟨q, hq, h1⟩ := bind_eq_ok.mp hs
    cases h1
    obtain ⟨e1, e2, -⟩ := h.lookup hq ht
    exact ⟨e1, e2⟩
  | brute a b =>
    obtain ⟨q, hq, h1⟩ := bind_eq_ok.mp hs
    cases h1
    obtain ⟨e1, e2, -⟩ := h.lookup hq (hb.resolve_left fun h => h)
    exact ⟨e1, e2⟩

theorem run_inv {sort : Bool → List (Site K) → List (Site K)} {Allowed : GridFile K → GridFile K → List (List (Int × Int)) → Prop}
    (ht : ∀ f g t, ByTree sort f g t → Allowed f g t) {ops : List (Op K)} (hb : (∀ op ∈ ops, NoScan op) ∨ ∀ f g t, ByScan f g t → Allowed f g t)
    {w w' : World K} (h : Inv Allowed w) (hr : run sort w ops = ok w') : Inv Allowed w' ∧ Older w w' := by
  induction ops generalizing w with
  | nil =>
    cases hr
    exact ⟨h, Older.refl _⟩
  | cons op ops ih =>
    unfold run at hr
    rw [foldM_cons] at hr
    obtain ⟨w1, hw1, hr⟩ := bind_eq_ok.mp hr
    obtain ⟨r, hr1, hr2⟩ := bind_eq_ok.mp hw1
    cases hr2
    obtain ⟨i1, i2⟩ := step_inv h ht (hb.imp (fun h => h op List.mem_cons_self) id) hr1
    obtain ⟨i3, i4⟩ := ih (hb.imp (fun h o ho => h o (List.mem_cons_of_mem _ ho)) id) i1 hr
    exact ⟨i3, i2.trans i4⟩

theorem start_inv (Allowed : GridFile K → GridFile K → List (List (Int × Int)) → Prop) : Inv Allowed (World.start : World K) :=
  ⟨by simp [World.start], by simp [World.start], by simp [World.start], by simp [World.start], by simp [World.start]⟩

/-- **C95** (tags). At any two moments of an execution, two files with the same tag have the same coordinates (and are the same file). -/
theorem c95_tags {sort : Bool → List (Site K) → List (Site K)} {before after : List (Op K)} {w w' : World K}
    (h : run sort World.start before = ok w) (h' : run sort w after = ok w') {i j : Nat} {f g : GridFile K} (hf : w.files[i]? = some f)
    (hg : w'.files[j]? = some g) (ht : f.tag = g.tag) : i = j ∧ f.lats = g.lats ∧ f.lons = g.lons := by
  have h1 := (run_inv (Allowed := fun _ _ _ => True) (fun _ _ _ _ => trivial) (.inr fun _ _ _ _ => trivial) (start_inv _) h).1
  have h2 := (run_inv (Allowed := fun _ _ _ => True) (fun _ _ _ _ => trivial) (.inr fun _ _ _ _ => trivial) h1 h').2
  have hb := h1.below f (List.mem_of_getElem? hf)
  have hg' := h2.2 j g hg (ht ▸ hb)
  have := h1.distinct i j f g hf hg' ht
  subst this
  rw [hf, Option.some.injEq] at hg'
  exact ⟨rfl, by rw [hg'], by rw [hg']⟩

/-- **C95** (cache, search with the tree). In an execution without scans, the neighbours that are returned, new or from the cache, are
always those that a new search gives for the present coordinates of the two files. -/
theorem c95_tree_partial {sort : Bool → List (Site K) → List (Site K)} {ops : List (Op K)} (hn : ∀ op ∈ ops, NoScan op) {w w' : World K}
    (h : run sort World.start ops = ok w) {a b : Nat} {t : List (List (Int × Int))} (hs : step sort w (.tree a b) = ok (w', some t)) :
    ∃ f g, w.files[a]? = some f ∧ w.files[b]? = some g ∧ treeGrid sort f.lats f.lons g.lats g.lons = ok t := by
  have h1 := (run_inv (Allowed := ByTree sort) (fun _ _ _ h => h) (.inl hn) (start_inv _) h).1
  obtain ⟨q, hq, h2⟩ := bind_eq_ok.mp hs
  obtain ⟨-, -, f, g, e1, e2, e3⟩ := h1.lookup hq (fun _ _ _ h => h)
  cases h2
  exact ⟨f, g, e1, e2, e3⟩

/-- **C95** (cache, any execution). The neighbours that are returned are those of one of the two searches for the present coordinates of
the two files, never those of earlier coordinates. -/
theorem c95_any {sort : Bool → List (Site K) → List (Site K)} {ops : List (Op K)} {w w' : World K} (h : run sort World.start ops = ok w)
    {a b : Nat} {t : List (List (Int × Int))} (hs : step sort w (.tree a b) = ok (w', some t) ∨ step sort w (.brute a b) = ok (w', some t)) :
    ∃ f g, w.files[a]? = some f ∧ w.files[b]? = some g ∧
      (treeGrid sort f.lats f.lons g.lats g.lons = ok t ∨ bruteForceGrid f.lats f.lons g.lats g.lons = ok t) := by
  have h1 := (run_inv (Allowed := fun f g t => ByTree sort f g t ∨ ByScan f g t) (fun _ _ _ h => .inl h) (.inr fun _ _ _ h => .inr h) (start_inv _) h).1
  rcases hs with hs | hs
  · obtain ⟨q, hq, h2⟩ := bind_eq_ok.mp hs
    obtain ⟨-, -, f, g, e1, e2, e3⟩ := h1.lookup hq (fun _ _ _ h => .inl h)
    cases h2
    exact ⟨f, g, e1, e2, e3⟩
  · obtain ⟨q, hq, h2⟩ := bind_eq_ok.mp hs
    obtain ⟨-, -, f, g, e1, e2, e3⟩ := h1.lookup hq (fun _ _ _ h => .inr h)
    cases h2
    exact ⟨f, g, e1, e2, e3⟩

/-- **C95** (a lookup answers). A search with the tree returns a table whenever a new search would: a table in the cache is returned
without a new search. -/
theorem c95_answers {sort : Bool → List (Site K) → List (Site K)} {w : World K} {a b : Nat} {f g : GridFile K} {t : List (List (Int × Int))}
    (hf : w.files[a]? = some f) (hg : w.files[b]? = some g) (ht : treeGrid sort f.lats f.lons g.lats g.lons = ok t) :
    ∃ w' t', step sort w (.tree a b) = ok (w', some t') := by
  show ∃ w' t', (do
    let r ← lookup w a b fun f g => treeGrid sort f.lats f.lons g.lats g.lons
    ok (r.1, some r.2)) = ok (w', some t')
  unfold Client.lookup
  rw [vget_nat, vget_nat, hf, hg]
  show ∃ w' t', (do
    let r ← (match cached w.cache f.tag g.tag with
      | some t => ok (w, t)
      | none => do
        let t ← treeGrid sort f.lats f.lons g.lats g.lons
        ok ({ w with cache := ((f.tag, g.tag), t) :: w.cache }, t))
    ok (r.1, some r.2)) = ok (w', some t')
  cases cached w.cache f.tag g.tag with
  | some t => exact ⟨_, _, rfl⟩
  | none => rw [ht]; exact ⟨_, _, rfl⟩

end

/-- **C95** (with C92). In an execution without scans, for any distance that separates: a lookup by the tree returns for every place with
coordinates the nearest grid point, for the coordinates that the files have at that time. -/
theorem c95_nearest_partial [HasArcC K] (hsep : KD.Separates K) (hpos : ∀ a b c d : K, 0 ≤ HasArcC.arc a b c d)
    {sort : Bool → List (Site K) → List (Site K)} (hsort : KD.Sorts sort) {ops : List (Op K)} (hn : ∀ op ∈ ops, NoScan op) {w : World K}
    (h : run sort World.start ops = ok w) {a b : Nat} {f g : GridFile K} (hf : w.files[a]? = some f) (hg : w.files[b]? = some g)
    {Y X nY nX : Nat} (hlat : Rect Y X f.lats) (hlon : Rect Y X f.lons) (hoa : Rect nY nX g.lats) (hoo : Rect nY nX g.lons) (h0 : 0 < nY)
    (hglobe : ∀ i j c d, PlaceAt f.lats f.lons i j c d → OnGlobe c d) (hoglobe : ∀ i j c d, PlaceAt g.lats g.lons i j c d → OnGlobe c d)
    (hsome : ∃ i j c d, PlaceAt f.lats f.lons i j c d) :
    ∃ w' t, step sort w (.tree a b) = ok (w', some t) ∧ Rect nY nX t ∧
      NearestTable (fun c d a b => gap a b c d) f.lats f.lons g.lats g.lons nY nX t := by
  obtain ⟨out, e1, e2, e3, -⟩ := c92_tree_grid_partial hsep hpos hsort hlat hlon hoa hoo h0 hglobe hoglobe hsome
  obtain ⟨w', t, e4⟩ := c95_answers hf hg e1
  obtain ⟨f', g', e5, e6, e7⟩ := c95_tree_partial hn h e4
  rw [hf, Option.some.injEq] at e5
  rw [hg, Option.some.injEq] at e6
  rw [← e5, ← e6, e1] at e7
  cases e7
  exact ⟨w', _, e4, e2, e3⟩

/-- A flat distance; only for the examples. -/
local instance flatGrid : HasArcC ℚ := ⟨fun a b c d => |a - c| + |b - d|⟩

/-- Two files with grids. -/
def twoFiles : List (Op ℚ) :=
  [.new, .new, .lats 0 [[fin 1, fin 1]], .lons 0 [[fin 3, fin 1]], .lats 1 [[fin 1]], .lons 1 [[fin 2]]]

/-- **C95** is false when both searches are used: the two share the cache, so a search with the tree returns the table of an earlier scan,
which is another one where two grid points are equally near. -/
theorem c95_shared_false :
    (run insertSort World.start twoFiles >>= fun w => step insertSort w (.tree 0 1) >>= fun r => ok r.2) = ok (some [[(0, 1)]]) ∧
    (run insertSort World.start (twoFiles ++ [.brute 0 1]) >>= fun w => step insertSort w (.tree 0 1) >>= fun r => ok r.2) = ok (some [[(0, 0)]]) := by
  constructor <;> decide +kernel

/-- The hypotheses are met by an execution in which coordinates change after a lookup. -/
example : (∀ op ∈ twoFiles ++ [.tree 0 1, .lons 1 [[fin 3]], .tree 0 1], NoScan op) ∧
    (run insertSort World.start (twoFiles ++ [.tree 0 1, .lons 1 [[fin 3]], .tree 0 1]) >>= fun w => ok (w.next :: w.files.map (·.tag))) =
      ok [7, 3, 6] ∧
    (run insertSort World.start (twoFiles ++ [.tree 0 1, .lons 1 [[fin 3]], .tree 0 1]) >>= fun w => ok (w.cache.map (·.2))) =
      ok [[[(0, 0)]], [[(0, 1)]]] := by
  refine ⟨?_, by decide +kernel, by decide +kernel⟩
  intro op hop
  simp only [twoFiles, List.cons_append, List.nil_append, List.mem_cons, List.not_mem_nil, or_false] at hop
  rcases hop with rfl | rfl | rfl | rfl | rfl | rfl | rfl | rfl | rfl <;> trivial

end Gridpp.Props
