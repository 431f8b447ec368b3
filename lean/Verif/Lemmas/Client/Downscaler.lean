import Verif.Model.Client.Downscaler
import Verif.Lemmas.Client.KDTree
import Verif.Lemmas.Grid
import Verif.Base.Loops

/-! # Lemmas about the downscalers of the client -/

set_option linter.unusedSectionVars false

namespace Gridpp.Client
open Fl hiding MV isValid
open Res

variable {K : Type} [Field K] [LinearOrder K] [IsStrictOrderedRing K]

/-- A loop with an invariant that depends on the number of iterations. -/
theorem foldM_range_inv {S : Type} {body : S → Nat → Res S} {n : Nat} {I : Nat → S → Prop}
    (h : ∀ k < n, ∀ s, I k s → ∃ s', body s k = ok s' ∧ I (k + 1) s') {s : S} (h0 : I 0 s) :
    ∃ s', foldM body s (List.range n) = ok s' ∧ I n s' := by
  induction n with
  | zero => exact ⟨s, rfl, h0⟩
  | succ n ih =>
    obtain ⟨s', h1, h2⟩ := ih (fun k hk => h k (by omega))
    obtain ⟨s'', h3, h4⟩ := h n (by omega) s' h2
    refine ⟨s'', ?_, h4⟩
    rw [List.range_succ, foldM_append, h1]
    simp [foldM_cons, h3]

/-- The grid point `i`, `j` has the coordinates `c`, `d`, neither of them missing. -/
def PlaceIn (lats lons : List (List (Fl K))) (i j : Nat) (c d : K) : Prop :=
  cell? lats i j = some (fin c) ∧ cell? lons i j = some (fin d) ∧ c ≠ -999 ∧ d ≠ -999

theorem PlaceIn.unique {lats lons : List (List (Fl K))} {i j : Nat} {c d c' d' : K} (h : PlaceIn lats lons i j c d)
    (h' : PlaceIn lats lons i j c' d') : c = c' ∧ d = d' := by
  have h1 := h.1.symm.trans h'.1
  have h2 := h.2.1.symm.trans h'.2.1
  simp only [Option.some.injEq, Fl.fin.injEq] at h1 h2
  exact ⟨h1, h2⟩

/-- `(i, j)` comes before `(i', j')` in the loops over rows and columns. -/
def Before (i j i' j' : Nat) : Prop := i < i' ∨ i = i' ∧ j < j'

section
variable [HasArcC K]

/-- The state of the scan when all cells before `(i, j)` have been seen. -/
def Scanned (ilats ilons : List (List (Fl K))) (a b : K) (i j : Nat) (s : (Int × Int) × Fl K) : Prop :=
  (s = ((-999, -999), MV) ∧ ∀ i' j' c d, Before i' j' i j → ¬ PlaceIn ilats ilons i' j' c d) ∨
  ∃ (p q : Nat) (c d : K), s = (((p : Int), (q : Int)), fin (gap c d a b)) ∧ PlaceIn ilats ilons p q c d ∧ Before p q i j ∧
    ∀ i' j' c' d', Before i' j' i j → PlaceIn ilats ilons i' j' c' d' →
      gap c d a b ≤ gap c' d' a b ∧ (Before i' j' p q → gap c d a b < gap c' d' a b)

theorem gap_nonneg (hpos : ∀ a b c d : K, 0 ≤ HasArcC.arc a b c d) (a b c d : K) : 0 ≤ gap a b c d := by
  unfold gap
  split_ifs
  · exact le_rfl
  · exact hpos _ _ _ _

theorem Scanned.none {ilats ilons : List (List (Fl K))} {a b : K} {i j : Nat} {s : (Int × Int) × Fl K} (h : Scanned ilats ilons a b i j s)
    (hno : ∀ c d, ¬ PlaceIn ilats ilons i j c d) : Scanned ilats ilons a b i (j + 1) s := by
  have hstep : ∀ i' j', Before i' j' i (j + 1) → Before i' j' i j ∨ (i' = i ∧ j' = j) := by
    unfold Before; intro i' j' h; omega
  rcases h with ⟨rfl, h⟩ | ⟨p, q, c, d, rfl, h1, h2, h3⟩
  · refine .inl ⟨rfl, fun i' j' c d hb => ?_⟩
    rcases hstep i' j' hb with hb | ⟨rfl, rfl⟩
    · exact h i' j' c d hb
    · exact hno c d
  · refine .inr ⟨p, q, c, d, rfl, h1, ?_, fun i' j' c' d' hb hp => ?_⟩
    · unfold Before at *; omega
    · rcases hstep i' j' hb with hb | ⟨rfl, rfl⟩
      · exact h3 i' j' c' d' hb hp
      · exact absurd hp (hno c' d')

theorem bruteStep_spec (hpos : ∀ a b c d : K, 0 ≤ HasArcC.arc a b c d) {Y X : Nat} {ilats ilons : List (List (Fl K))}
    (hlat : Rect Y X ilats) (hlon : Rect Y X ilons) (hglobe : ∀ i j c d, PlaceIn ilats ilons i j c d → OnGlobe c d) {a b : K}
    (hq : OnGlobe a b) {i j : Nat} (hi : i < Y) (hj : j < X) {s : (Int × Int) × Fl K} (h : Scanned ilats ilons a b i j s) :
    ∃ s', bruteStep ilats ilons (fin a) (fin b) s i j = ok s' ∧ Scanned ilats ilons a b i (j + 1) s' := by
  obtain ⟨u, hu, hu'⟩ := vget2_of_rect hlat hi hj
  obtain ⟨v, hv, hv'⟩ := vget2_of_rect hlon hi hj
  unfold bruteStep
  simp only [hu', hv', ok_bind]
  by_cases hvu : isValid u = true
  swap
  · rw [if_neg hvu]
    refine ⟨s, rfl, h.none ?_⟩
    rintro c d ⟨h1, -, h3, -⟩
    rw [hu, Option.some.injEq] at h1
    exact hvu (isValid_iff_present.mpr ⟨c, h1, h3⟩)
  rw [if_pos hvu]
  by_cases hvv : isValid v = true
  swap
  · rw [if_neg hvv]
    refine ⟨s, rfl, h.none ?_⟩
    rintro c d ⟨-, h1, -, h3⟩
    rw [hv, Option.some.injEq] at h1
    exact hvv (isValid_iff_present.mpr ⟨d, h1, h3⟩)
  rw [if_pos hvv]
  obtain ⟨c, rfl, hc⟩ := isValid_iff_present.mp hvu
  obtain ⟨d, rfl, hd⟩ := isValid_iff_present.mp hvv
  have hP : PlaceIn ilats ilons i j c d := ⟨hu, hv, hc, hd⟩
  rw [getDistance_ok (hglobe i j c d hP) hq]
  simp only [ok_bind]
  refine ⟨_, rfl, ?_⟩
  have hstep : ∀ i' j', Before i' j' i (j + 1) → Before i' j' i j ∨ (i' = i ∧ j' = j) := by
    unfold Before; intro i' j' h; omega
  have hown : Before i j i (j + 1) := by unfold Before; omega
  rcases h with ⟨rfl, h⟩ | ⟨p, q, c1, d1, rfl, h1, h2, h3⟩
  · have hMV : isValid (MV : Fl K) = false := isValid_false_iff.mpr not_present_MV
    rw [hMV]
    simp only [Bool.not_false, Bool.true_or, if_true]
    refine .inr ⟨i, j, c, d, rfl, hP, hown, fun i' j' c' d' hb hp => ?_⟩
    rcases hstep i' j' hb with hb | ⟨rfl, rfl⟩
    · exact absurd hp (h i' j' c' d' hb)
    · obtain ⟨rfl, rfl⟩ := hP.unique hp
      exact ⟨le_rfl, fun hx => by unfold Before at hx; omega⟩
  · have hval : isValid (fin (gap c1 d1 a b) : Fl K) = true := by
      refine isValid_iff_present.mpr ⟨_, rfl, fun hx => ?_⟩
      have := gap_nonneg hpos c1 d1 a b
      rw [hx] at this
      norm_num at this
    simp only [hval, Bool.not_true, Bool.false_or]
    by_cases hlt : gap c d a b < gap c1 d1 a b
    · have : (fin (gap c d a b) : Fl K).lt (fin (gap c1 d1 a b)) = true := by rw [lt_fin, decide_eq_true_eq]; exact hlt
      rw [if_pos this]
      refine .inr ⟨i, j, c, d, rfl, hP, hown, fun i' j' c' d' hb hp => ?_⟩
      rcases hstep i' j' hb with hb | ⟨rfl, rfl⟩
      · have := (h3 i' j' c' d' hb hp).1
        exact ⟨(hlt.trans_le this).le, fun _ => hlt.trans_le this⟩
      · obtain ⟨rfl, rfl⟩ := hP.unique hp
        exact ⟨le_rfl, fun hx => by unfold Before at hx; omega⟩
    · have : ¬ (fin (gap c d a b) : Fl K).lt (fin (gap c1 d1 a b)) = true := by rw [lt_fin, decide_eq_true_eq]; exact hlt
      rw [if_neg this]
      refine .inr ⟨p, q, c1, d1, rfl, h1, ?_, fun i' j' c' d' hb hp => ?_⟩
      · unfold Before at *; omega
      · rcases hstep i' j' hb with hb | ⟨rfl, rfl⟩
        · exact h3 i' j' c' d' hb hp
        · obtain ⟨rfl, rfl⟩ := hP.unique hp
          exact ⟨not_lt.mp hlt, fun hx => by unfold Before at *; omega⟩

theorem bruteForce_spec (hpos : ∀ a b c d : K, 0 ≤ HasArcC.arc a b c d) {Y X : Nat} {ilats ilons : List (List (Fl K))}
    (hlat : Rect Y X ilats) (hlon : Rect Y X ilons) (hglobe : ∀ i j c d, PlaceIn ilats ilons i j c d → OnGlobe c d) {a b : K}
    (hq : OnGlobe a b) :
    ∃ s, bruteForce ilats ilons (fin b) (fin a) = ok s.1 ∧ Scanned ilats ilons a b Y 0 s := by
  have v : ∀ x : K, |x| ≤ 360 → isValid (fin x : Fl K) = true := by
    intro x hx
    refine isValid_iff_present.mpr ⟨x, rfl, ?_⟩
    rintro rfl
    rw [abs_neg, abs_of_nonneg (by norm_num)] at hx
    norm_num at hx
  have hend : ∀ i s, Scanned ilats ilons a b i X s → Scanned ilats ilons a b (i + 1) 0 s := by
    intro i s h
    have hb : ∀ i' j' c d, Before i' j' (i + 1) 0 → PlaceIn ilats ilons i' j' c d → Before i' j' i X := by
      intro i' j' c d hb hp
      have := (cell?_lt hlat hp.1).2
      unfold Before at *
      omega
    rcases h with ⟨rfl, h⟩ | ⟨p, q, c, d, rfl, h1, h2, h3⟩
    · exact .inl ⟨rfl, fun i' j' c d hx hp => h i' j' c d (hb i' j' c d hx hp) hp⟩
    · refine .inr ⟨p, q, c, d, rfl, h1, by unfold Before at *; omega, fun i' j' c' d' hx hp => h3 i' j' c' d' (hb i' j' c' d' hx hp) hp⟩
  obtain ⟨s, h1, h2⟩ := foldM_range_inv (n := ilats.length) (I := fun i s => Scanned ilats ilons a b i 0 s)
    (body := fun s i => do
      let n ← numX ilats
      foldM (fun s j => bruteStep ilats ilons (fin a) (fin b) s i j) s (List.range n)) (s := ((-999, -999), MV)) (by
      intro i hi s hs
      rw [hlat.1] at hi
      have hY : 0 < ilats.length := by rw [hlat.1]; omega
      have hn : numX ilats = ok X := by
        unfold numX
        rw [show vget ilats 0 = ok ilats[0] from vget_eq_ok_of_lt (n := 0) hY]
        simp [hlat.2 _ (List.getElem_mem hY)]
      simp only [hn, ok_bind]
      obtain ⟨s', g1, g2⟩ := foldM_range_inv (n := X) (I := fun j s => Scanned ilats ilons a b i j s)
        (body := fun s j => bruteStep ilats ilons (fin a) (fin b) s i j) (s := s)
        (fun j hj s hs => bruteStep_spec hpos hlat hlon hglobe hq hi hj hs) hs
      exact ⟨s', g1, hend i s' g2⟩)
    (.inl ⟨rfl, fun i' j' c d hb => by unfold Before at hb; omega⟩)
  refine ⟨s, ?_, by rw [hlat.1] at h2; exact h2⟩
  unfold bruteForce
  rw [v a (hq.1.trans (by norm_num)), v b hq.2, if_pos (by rfl), h1]
  rfl

end

/-! ### Identical grids -/

theorem numX_rect {Y X : Nat} {a : List (List (Fl K))} (h : Rect Y X a) (hY : 0 < Y) : numX a = ok X := by
  have hY : 0 < a.length := by rw [h.1]; exact hY
  unfold numX
  rw [show vget a 0 = ok a[0] from vget_eq_ok_of_lt (n := 0) hY]
  simp [h.2 _ (List.getElem_mem hY)]

theorem eqVec_iff {a b : List (Fl K)} : eqVec a b = true ↔ a.length = b.length ∧ ∀ (k : Nat) (u v : Fl K), a[k]? = some u → b[k]? = some v → u.feq v = true := by
  unfold eqVec
  rw [Bool.and_eq_true, decide_eq_true_eq, List.all_eq_true]
  refine and_congr_right fun hl => ⟨fun h k u v hu hv => ?_, fun h p hp => ?_⟩
  · refine h (u, v) (List.mem_iff_getElem?.mpr ⟨k, ?_⟩)
    rw [List.getElem?_zip_eq_some]
    exact ⟨hu, hv⟩
  · obtain ⟨k, hk⟩ := List.mem_iff_getElem?.mp hp
    rw [List.getElem?_zip_eq_some] at hk
    exact h k _ _ hk.1 hk.2

theorem eqVec2_iff {Y X : Nat} {a b : List (List (Fl K))} (ha : Rect Y X a) (hb : Rect Y X b) :
    eqVec2 a b = true ↔ ∀ y x u v, cell? a y x = some u → cell? b y x = some v → u.feq v = true := by
  unfold eqVec2
  rw [Bool.and_eq_true, decide_eq_true_eq, List.all_eq_true, ha.1, hb.1]
  simp only [true_and]
  constructor
  · intro h y x u v hu hv
    unfold cell? at hu hv
    rw [Option.bind_eq_some_iff] at hu hv
    obtain ⟨r, hr, hu⟩ := hu
    obtain ⟨s, hs, hv⟩ := hv
    have := h (r, s) (List.mem_iff_getElem?.mpr ⟨y, by rw [List.getElem?_zip_eq_some]; exact ⟨hr, hs⟩⟩)
    exact (eqVec_iff.mp this).2 x u v hu hv
  · intro h p hp
    obtain ⟨k, hk⟩ := List.mem_iff_getElem?.mp hp
    rw [List.getElem?_zip_eq_some] at hk
    refine eqVec_iff.mpr ⟨?_, fun x u v hu hv => h k x u v ?_ ?_⟩
    · rw [ha.2 _ (List.mem_of_getElem? hk.1), hb.2 _ (List.mem_of_getElem? hk.2)]
    · unfold cell?; rw [hk.1]; exact hu
    · unfold cell?; rw [hk.2]; exact hv

theorem feq_fin_right {u : Fl K} {a : K} (h : u.feq (fin a) = true) : u = fin a := by
  cases u with
  | fin q => rw [feq_fin, decide_eq_true_eq] at h; rw [h]
  | _ => simp [Fl.feq] at h

/-- For rectangular grids of which the second has a row, the comparison does not fail; if it says that the grids are identical, they
have the same sizes and the same coordinates. -/
theorem identicalGrids_spec {Y X nY nX : Nat} {ilats ilons olats olons : List (List (Fl K))} (hlat : Rect Y X ilats) (hlon : Rect Y X ilons)
    (hoa : Rect nY nX olats) (hoo : Rect nY nX olons) (hn : 0 < nY) :
    ∃ r, identicalGrids ilats ilons olats olons = ok r ∧
      (r = true ↔ Y = nY ∧ X = nX ∧ (∀ y x u v, cell? ilats y x = some u → cell? olats y x = some v → u.feq v = true) ∧
        ∀ y x u v, cell? ilons y x = some u → cell? olons y x = some v → u.feq v = true) := by
  unfold identicalGrids
  rw [hlat.1, hoa.1]
  by_cases hY : Y = nY
  · subst hY
    rw [if_pos rfl, numX_rect hlat hn, numX_rect hoa hn]
    simp only [ok_bind]
    refine ⟨_, rfl, ?_⟩
    rw [Bool.and_eq_true, Bool.and_eq_true, decide_eq_true_eq]
    by_cases hX : X = nX
    · subst hX
      rw [eqVec2_iff hlat hoa, eqVec2_iff hlon hoo]
      simp
    · simp [hX]
  · rw [if_neg hY]
    exact ⟨false, rfl, by simp [hY]⟩

theorem cell?_ownIndices {Y X y x : Nat} (hy : y < Y) (hx : x < X) : cell? (ownIndices Y X) y x = some ((y : Int), (x : Int)) :=
  cell?_tabulate _ hy hx

theorem rect_ownIndices (Y X : Nat) : Rect Y X (ownIndices Y X) := rect_tabulate Y X _

/-! ### Loops that end the program -/

theorem foldM_abort {S ι : Type} {WF : S → Prop} {body : S → ι → Res S} {l : List ι}
    (hb : ∀ s, WF s → ∀ i ∈ l, (∃ s', body s i = ok s' ∧ WF s') ∨ body s i = .abort) {i0 : ι} (hi0 : i0 ∈ l)
    (h0 : ∀ s, WF s → body s i0 = .abort) {s : S} (hs : WF s) : foldM body s l = .abort := by
  induction l generalizing s with
  | nil => simp at hi0
  | cons a t ih =>
    rw [foldM_cons]
    rcases hb s hs a (by simp) with ⟨s', h1, h2⟩ | h1
    · rw [h1, ok_bind]
      rcases List.mem_cons.mp hi0 with rfl | h
      · rw [h0 s hs] at h1
        exact absurd h1 (by simp)
      · exact ih (fun s hs i hi => hb s hs i (by simp [hi])) h h2
    · rw [h1, abort_bind]

theorem foldM_ok_or_abort {S ι : Type} {WF : S → Prop} {body : S → ι → Res S} {l : List ι}
    (hb : ∀ s, WF s → ∀ i ∈ l, (∃ s', body s i = ok s' ∧ WF s') ∨ body s i = .abort) {s : S} (hs : WF s) :
    (∃ s', foldM body s l = ok s' ∧ WF s') ∨ foldM body s l = .abort := by
  induction l generalizing s with
  | nil => exact .inl ⟨s, rfl, hs⟩
  | cons a t ih =>
    rw [foldM_cons]
    rcases hb s hs a (by simp) with ⟨s', h1, h2⟩ | h1
    · rw [h1, ok_bind]
      exact ih (fun s hs i hi => hb s hs i (by simp [hi])) h2
    · rw [h1, abort_bind]
      exact .inr rfl

theorem mapM_abort {α β : Type} {f : α → Res β} {l : List α} (hb : ∀ a ∈ l, (∃ b, f a = ok b) ∨ f a = .abort) {a0 : α} (ha0 : a0 ∈ l)
    (h0 : f a0 = .abort) : mapM f l = .abort := by
  induction l with
  | nil => simp at ha0
  | cons a t ih =>
    rw [mapM_cons]
    rcases hb a (by simp) with ⟨b, h1⟩ | h1
    · rw [h1, ok_bind]
      rcases List.mem_cons.mp ha0 with rfl | h
      · rw [h0] at h1
        exact absurd h1 (by simp)
      · rw [ih (fun a ha => hb a (by simp [ha])) h, abort_bind]
    · rw [h1, abort_bind]

theorem mapM_ok_or_abort {α β : Type} {f : α → Res β} {l : List α} (hb : ∀ a ∈ l, (∃ b, f a = ok b) ∨ f a = .abort) :
    (∃ bs, mapM f l = ok bs) ∨ mapM f l = .abort := by
  induction l with
  | nil => exact .inl ⟨[], rfl⟩
  | cons a t ih =>
    rw [mapM_cons]
    rcases hb a (by simp) with ⟨b, h1⟩ | h1
    · rw [h1, ok_bind]
      rcases ih (fun a ha => hb a (by simp [ha])) with ⟨bs, h2⟩ | h2
      · rw [h2]; exact .inl ⟨_, rfl⟩
      · rw [h2]; exact .inr rfl
    · rw [h1, abort_bind]; exact .inr rfl

theorem grid2_abort {β : Type} {Y X : Nat} {f : Int → Int → Res β} (hb : ∀ y < Y, ∀ x < X, (∃ b, f (y : Nat) (x : Nat) = ok b) ∨ f (y : Nat) (x : Nat) = .abort)
    {y0 x0 : Nat} (hy0 : y0 < Y) (hx0 : x0 < X) (h0 : f y0 x0 = .abort) : grid2 Y X f = .abort := by
  have hm : ∀ {n : Nat} {i : Int}, i ∈ upto n → ∃ k : Nat, i = k ∧ k < n := by
    intro n i hi
    simp only [upto, List.mem_map, List.mem_range] at hi
    obtain ⟨k, hk, rfl⟩ := hi
    exact ⟨k, rfl, hk⟩
  have hm' : ∀ {n k : Nat}, k < n → (k : Int) ∈ upto n := by
    intro n k hk
    simp only [upto, List.mem_map, List.mem_range]
    exact ⟨k, hk, rfl⟩
  unfold grid2
  refine mapM_abort (fun i hi => ?_) (hm' hy0) ?_
  · obtain ⟨y, rfl, hy⟩ := hm hi
    exact mapM_ok_or_abort fun j hj => by
      obtain ⟨x, rfl, hx⟩ := hm hj
      exact hb y hy x hx
  · refine mapM_abort (fun j hj => ?_) (hm' hx0) h0
    obtain ⟨x, rfl, hx⟩ := hm hj
    exact hb y0 hy0 x hx

theorem forAll_abort {Y X E : Nat} {body : FieldC K → Nat → Nat → Nat → Res (FieldC K)} {f : FieldC K} (hf : Sized Y X E f)
    (hb : ∀ f : FieldC K, Sized Y X E f → ∀ y < Y, ∀ x < X, ∀ e < E, (∃ f', body f y x e = ok f' ∧ Sized Y X E f') ∨ body f y x e = .abort)
    {y0 x0 e0 : Nat} (hy0 : y0 < Y) (hx0 : x0 < X) (he0 : e0 < E) (h0 : ∀ f : FieldC K, Sized Y X E f → body f y0 x0 e0 = .abort) :
    FieldC.forAll Y X E body f = .abort := by
  unfold FieldC.forAll FieldC.forCells
  refine foldM_abort (WF := Sized Y X E) (i0 := y0) (fun s hs y hy => foldM_ok_or_abort (fun s hs x hx => foldM_ok_or_abort (fun s hs e he =>
    hb s hs y (List.mem_range.mp hy) x (List.mem_range.mp hx) e (List.mem_range.mp he)) hs) hs) (List.mem_range.mpr hy0) (fun s hs => ?_) hf
  refine foldM_abort (WF := Sized Y X E) (i0 := x0) (fun s hs x hx => foldM_ok_or_abort (fun s hs e he =>
    hb s hs y0 hy0 x (List.mem_range.mp hx) e (List.mem_range.mp he)) hs) (List.mem_range.mpr hx0) (fun s hs => ?_) hs
  exact foldM_abort (WF := Sized Y X E) (i0 := e0) (fun s hs e he => hb s hs y0 hy0 x0 hx0 e (List.mem_range.mp he))
    (List.mem_range.mpr he0) (fun s hs => h0 s hs) hs

/-! ### The nearest neighbour downscaler -/

/-- The loop as one over all members; the neighbour is looked up for every grid point. -/
theorem nearestField_spec {Y X E nY nX nE : Nat} {ifield ofield : FieldC K} (hi : Sized Y X E ifield) (ho : Sized nY nX nE ofield)
    {near : List (List (Int × Int))} (hnear : Rect nY nX near) (hE : nE ≤ E)
    (hin : ∀ y x c, cell? near y x = some c → c.1 = -999 ∨ c.2 = -999 ∨ ∃ i j : Nat, c = ((i : Int), (j : Int)) ∧ i < Y ∧ j < X) :
    ∃ out, nearestField near ifield ofield = ok out ∧ Sized nY nX nE out ∧ ∀ y < nY, ∀ x < nX, ∀ e < nE, ∃ c, cell? near y x = some c ∧
      (c.1 = -999 ∨ c.2 = -999 → out.get y x e = ok MV) ∧
      ∀ i j : Nat, c = ((i : Int), (j : Int)) → out.get y x e = ifield.get i j e := by
  unfold nearestField
  rw [ho.nY, ho.nX, ho.nE]
  obtain ⟨out, h1, h2, h3⟩ := forCells_spec (Y := nY) (X := nX) (E := nE) (fun f i j => do
    let c ← vget2 near i j
    foldM (fun f e => do
      let v ← nearestValue ifield c e
      f.set i j e v) f (List.range nE))
    (fun y x _ v => ∀ e < nE, ∃ c, cell? near y x = some c ∧ (c.1 = -999 ∨ c.2 = -999 → v e = ok MV) ∧
      ∀ i j : Nat, c = ((i : Int), (j : Int)) → v e = ifield.get i j e) (by
      intro f hf y hy x hx
      obtain ⟨c, hc, hc'⟩ := vget2_of_rect hnear hy hx
      simp only [hc', ok_bind]
      obtain ⟨f', g1, g2, g3, -, g5⟩ := forMembers_spec (Y := nY) (X := nX) (E := nE) y x nE (fun f e => do
          let v ← nearestValue ifield c e
          f.set y x e v) (fun e _ v => (c.1 = -999 ∨ c.2 = -999 → v = ok MV) ∧ ∀ i j : Nat, c = ((i : Int), (j : Int)) → v = ifield.get i j e) (by
          intro f hf e he
          have hval : ∃ v, nearestValue ifield c e = ok v ∧ (c.1 = -999 ∨ c.2 = -999 → v = MV) ∧
              ∀ i j : Nat, c = ((i : Int), (j : Int)) → ifield.get i j e = ok v := by
            unfold nearestValue isValidInt
            by_cases hm : c.1 = -999 ∨ c.2 = -999
            · refine ⟨MV, ?_, fun _ => rfl, ?_⟩
              · rw [if_neg]
                rcases hm with h | h <;> simp [h]
              · rintro i j rfl
                rcases hm with h | h <;> simp at h
            · obtain ⟨i, j, rfl, hiY, hjX⟩ : ∃ i j : Nat, c = ((i : Int), (j : Int)) ∧ i < Y ∧ j < X := by
                rcases hin y x c hc with h | h | h
                · exact absurd (.inl h) hm
                · exact absurd (.inr h) hm
                · exact h
              obtain ⟨v, hv⟩ := hi.exists_get hiY hjX (show e < E by omega)
              refine ⟨v, ?_, fun h => absurd h hm, ?_⟩
              · rw [if_pos (by
                  rw [Bool.and_eq_true, decide_eq_true_eq, decide_eq_true_eq]
                  exact ⟨fun h => hm (.inl h), fun h => hm (.inr h)⟩)]
                unfold FieldC.getInt
                rw [if_neg (by omega)]
                exact hv
              · intro i' j' h
                simp only [Prod.mk.injEq, Nat.cast_inj] at h
                rw [← h.1, ← h.2]
                exact hv
          obtain ⟨v, hv, hv1, hv2⟩ := hval
          obtain ⟨f', e1, e2, e3, e4⟩ := hf.set hy hx he v
          rw [hv]
          refine ⟨f', e1, e2, ⟨fun h => by rw [e3, hv1 h], fun i j h => by rw [e3, hv2 i j h]⟩, e4⟩) f hf
      exact ⟨f', g1, g2, fun e he => ⟨c, hc, g3 e he⟩, g5⟩) ofield ho
  exact ⟨out, h1, h2, h3⟩

/-- The loop over time steps. -/
theorem eachStep_spec {body : FieldC K → FieldC K → Res (FieldC K)} {ifields ofields : List (FieldC K)} {P : FieldC K → FieldC K → FieldC K → Prop}
    (hl : ifields.length = ofields.length)
    (h : ∀ (t : Nat) f g, ifields[t]? = some f → ofields[t]? = some g → ∃ r, body f g = ok r ∧ P f g r) :
    ∃ out, eachStep body ifields ofields = ok out ∧ out.length = ifields.length ∧
      ∀ (t : Nat) f g, ifields[t]? = some f → ofields[t]? = some g → ∃ r, out[t]? = some r ∧ P f g r := by
  unfold eachStep
  obtain ⟨out, h1, h2, h3⟩ := mapM_range_exists (n := ifields.length) (f := fun t : Nat => do
      let ifield ← vget ifields t
      let ofield ← vget ofields t
      body ifield ofield) (P := fun t r => ∀ f g, ifields[t]? = some f → ofields[t]? = some g → P f g r) (by
      intro t ht
      have e1 : ifields[t]? = some ifields[t] := List.getElem?_eq_getElem ht
      have e2 : ofields[t]? = some (ofields[t]'(hl ▸ ht)) := List.getElem?_eq_getElem (hl ▸ ht)
      obtain ⟨r, hr, hP⟩ := h t _ _ e1 e2
      refine ⟨r, ?_, fun f g hf hg => ?_⟩
      · rw [vget_eq_ok_of_lt ht, ok_bind, vget_eq_ok_of_lt (hl ▸ ht), ok_bind, hr]
      · rw [e1, Option.some.injEq] at hf
        rw [e2, Option.some.injEq] at hg
        rw [← hf, ← hg]
        exact hP)
  refine ⟨out, h1, h2, fun t f g hf hg => ?_⟩
  have ht : t < ifields.length := by
    by_contra hc
    rw [List.getElem?_eq_none (by omega)] at hf
    simp at hf
  obtain ⟨r, hr, hP⟩ := h3 t ht
  exact ⟨r, hr, hP f g hf hg⟩

end Gridpp.Client
