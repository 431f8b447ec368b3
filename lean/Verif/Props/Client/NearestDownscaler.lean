import Verif.Props.Client.Neighbours

/-! # C93: the nearest neighbour downscaler of the client -/

set_option linter.unusedSectionVars false

namespace Gridpp.Props
open Fl hiding MV isValid
open Res Client

variable {K : Type} [Field K] [LinearOrder K] [IsStrictOrderedRing K]

/-- **C93** (one field). With any table of neighbours that is in range or -999, every member of every output point gets the value of the
same member at its neighbour, or the missing value where an index is -999. -/
theorem c93_field {Y X E nY nX nE : Nat} {ifield ofield : FieldC K} (hi : Sized Y X E ifield) (ho : Sized nY nX nE ofield)
    {near : List (List (Int × Int))} (hnear : Rect nY nX near) (hE : nE ≤ E)
    (hin : ∀ y x c, cell? near y x = some c → c.1 = -999 ∨ c.2 = -999 ∨ ∃ i j : Nat, c = ((i : Int), (j : Int)) ∧ i < Y ∧ j < X) :
    ∃ out, nearestField near ifield ofield = ok out ∧ Sized nY nX nE out ∧ ∀ y < nY, ∀ x < nX, ∀ e < nE, ∃ c, cell? near y x = some c ∧
      (c.1 = -999 ∨ c.2 = -999 → out.get y x e = ok (fin (-999))) ∧
      ∀ i j : Nat, c = ((i : Int), (j : Int)) → out.get y x e = ifield.get i j e :=
  nearestField_spec hi ho hnear hE hin

/-- **C93** (the whole downscaler), for a distance that separates as in C91. Every member of every output point with coordinates gets
the value of the nearest input point that has coordinates; a point without coordinates gets the missing value, unless the two grids are
the same: then it gets the value of the same point. -/
theorem c93_downscale_partial [HasArcC K] (hsep : KD.Separates K) (hpos : ∀ a b c d : K, 0 ≤ HasArcC.arc a b c d)
    {sort : Bool → List (Site K) → List (Site K)} (hsort : KD.Sorts sort) {Y X E nY nX nE : Nat}
    {ilats ilons olats olons : List (List (Fl K))} (hlat : Rect Y X ilats) (hlon : Rect Y X ilons) (hoa : Rect nY nX olats)
    (hoo : Rect nY nX olons) (hn : 0 < nY) (hglobe : ∀ i j c d, PlaceAt ilats ilons i j c d → OnGlobe c d)
    (hoglobe : ∀ i j c d, PlaceAt olats olons i j c d → OnGlobe c d) (hsome : ∃ i j c d, PlaceAt ilats ilons i j c d)
    {ifields ofields : List (FieldC K)} (hi : Series Y X E ifields) (ho : Series nY nX nE ofields) (hl : ifields.length = ofields.length)
    (hE : nE ≤ E) :
    ∃ out, downscale (nearestCore sort ilats ilons olats olons ifields ofields) ifields ofields = ok (some out) ∧ Series nY nX nE out ∧
      out.length = ifields.length ∧ ∀ t < ifields.length, ∀ y < nY, ∀ x < nX, ∀ e < nE,
        (∀ a b, PlaceAt olats olons y x a b → ∃ i j c d v, PlaceAt ilats ilons i j c d ∧
          (∀ i' j' c' d', PlaceAt ilats ilons i' j' c' d' → gap a b c d ≤ gap a b c' d') ∧ At ifields t i j e v ∧ At out t y x e v) ∧
        ((¬ ∃ a b, PlaceAt olats olons y x a b) → At out t y x e (fin (-999)) ∨
          SameGrid ilats ilons olats olons ∧ ∃ v, At ifields t y x e v ∧ At out t y x e v) := by
  obtain ⟨near, h1, h2, h3, h4⟩ := c92_tree_grid_partial hsep hpos hsort hlat hlon hoa hoo hn hglobe hoglobe hsome
  have hin : ∀ y x c, cell? near y x = some c → c.1 = -999 ∨ c.2 = -999 ∨ ∃ i j : Nat, c = ((i : Int), (j : Int)) ∧ i < Y ∧ j < X := by
    intro y x c hc
    obtain ⟨hy, hx⟩ := cell?_lt h2 hc
    by_cases hp : ∃ a b, PlaceAt olats olons y x a b
    · obtain ⟨a, b, hp⟩ := hp
      obtain ⟨i, j, c', d', e1, e2, -⟩ := h3 y hy x hx a b hp
      rw [hc, Option.some.injEq] at e1
      have := cell?_lt hlat e2.1
      exact .inr (.inr ⟨i, j, e1, this.1, this.2⟩)
    · rcases h4 y hy x hx hp with e | ⟨⟨Y', X', g1, g2, -⟩, e⟩
      · rw [hc, Option.some.injEq] at e
        exact .inl (by rw [e])
      · rw [hc, Option.some.injEq] at e
        have hyl : y < Y := by
          have : Y = nY := by rw [← hlat.1, g1.1, ← g2.1, hoa.1]
          omega
        obtain ⟨v, hv⟩ := h2.cell?_some hy hx
        have hxl : x < X := by
          have e1 : X = X' := by
            have h0 : 0 < ilats.length := by rw [hlat.1]; omega
            rw [← hlat.2 _ (List.getElem_mem h0), g1.2 _ (List.getElem_mem h0)]
          have e2 : nX = X' := by
            have h0 : 0 < olats.length := by rw [hoa.1]; omega
            rw [← hoa.2 _ (List.getElem_mem h0), g2.2 _ (List.getElem_mem h0)]
          omega
        exact .inr (.inr ⟨y, x, e, hyl, hxl⟩)
  obtain ⟨out, g1, g2, g3⟩ := eachStep_spec (body := nearestField near) (P := fun f g r => Sized nY nX nE r ∧
      ∀ y < nY, ∀ x < nX, ∀ e < nE, ∃ c, cell? near y x = some c ∧ (c.1 = -999 ∨ c.2 = -999 → r.get y x e = ok (fin (-999))) ∧
      ∀ i j : Nat, c = ((i : Int), (j : Int)) → r.get y x e = f.get i j e) hl (by
    intro t f g hf hg
    exact nearestField_spec (hi f (List.mem_of_getElem? hf)) (ho g (List.mem_of_getElem? hg)) h2 hE hin)
  have hr : ∀ t < ifields.length, ∃ f r, ifields[t]? = some f ∧ out[t]? = some r ∧ Sized Y X E f ∧ Sized nY nX nE r ∧
      ∀ y < nY, ∀ x < nX, ∀ e < nE, ∃ c, cell? near y x = some c ∧ (c.1 = -999 ∨ c.2 = -999 → r.get y x e = ok (fin (-999))) ∧
      ∀ i j : Nat, c = ((i : Int), (j : Int)) → r.get y x e = f.get i j e := by
    intro t ht
    have e1 : ifields[t]? = some ifields[t] := List.getElem?_eq_getElem ht
    have e2 : ofields[t]? = some (ofields[t]'(hl ▸ ht)) := List.getElem?_eq_getElem (hl ▸ ht)
    obtain ⟨r, k1, k2, k3⟩ := g3 t _ _ e1 e2
    exact ⟨_, r, e1, k1, hi _ (List.getElem_mem ht), k2, k3⟩
  refine ⟨out, ?_, ?_, g2, ?_⟩
  · unfold downscale nearestCore
    rw [if_neg (by simpa using hl), h1, ok_bind, g1]
    rfl
  · rw [series_iff]
    intro t ht
    obtain ⟨f, r, -, k2, -, k4, -⟩ := hr t (g2 ▸ ht)
    exact ⟨r, k2, k4⟩
  · intro t ht y hy x hx e he
    obtain ⟨f, r, k1, k2, k3, k4, k5⟩ := hr t ht
    obtain ⟨c, m1, m2, m3⟩ := k5 y hy x hx e he
    refine ⟨fun a b hp => ?_, fun hno => ?_⟩
    · obtain ⟨i, j, c', d', e1, e2, e3⟩ := h3 y hy x hx a b hp
      rw [m1, Option.some.injEq] at e1
      have hb := cell?_lt hlat e2.1
      obtain ⟨v, hv⟩ := k3.exists_get hb.1 hb.2 (show e < E by omega)
      exact ⟨i, j, c', d', v, e2, e3, ⟨f, k1, hv⟩, ⟨r, k2, by rw [m3 i j e1, hv]⟩⟩
    · rcases h4 y hy x hx hno with e1 | ⟨hs, e1⟩
      · rw [m1, Option.some.injEq] at e1
        exact .inl ⟨r, k2, m2 (by rw [e1]; exact .inl rfl)⟩
      · rw [m1, Option.some.injEq] at e1
        obtain ⟨i, j, e2, hiY, hjX⟩ : ∃ i j : Nat, c = ((i : Int), (j : Int)) ∧ i < Y ∧ j < X := by
          rcases hin y x c m1 with h | h | h
          · rw [e1] at h; simp at h
          · rw [e1] at h; simp at h
          · exact h
        obtain ⟨v, hv⟩ := k3.exists_get hiY hjX (show e < E by omega)
        rw [e1] at e2
        simp only [Prod.mk.injEq, Nat.cast_inj] at e2
        obtain ⟨rfl, rfl⟩ := e2
        exact .inr ⟨hs, v, ⟨f, k1, hv⟩, ⟨r, k2, by rw [m3 y x e1, hv]⟩⟩

/-- **C93** (refusal). With different numbers of time steps nothing is done. -/
theorem c93_times (core : Res (List (FieldC K))) {ifields ofields : List (FieldC K)} (h : ifields.length ≠ ofields.length) :
    downscale core ifields ofields = ok none := by
  unfold downscale
  rw [if_pos h]

/-- **C93** (refusal). If the output has more members than the input and some output point has a neighbour, the program ends with a
failed assertion. -/
theorem c93_members {Y X E nY nX nE : Nat} {ifield ofield : FieldC K} (hi : Sized Y X E ifield) (ho : Sized nY nX nE ofield)
    {near : List (List (Int × Int))} (hnear : Rect nY nX near) (hE : E < nE) {y0 x0 : Nat} {c0 : Int × Int} (hc0 : cell? near y0 x0 = some c0)
    (hv0 : c0.1 ≠ -999 ∧ c0.2 ≠ -999) : nearestField near ifield ofield = .abort := by
  have hget : ∀ (c : Int × Int) e, (∃ v, nearestValue ifield c e = ok v) ∨ nearestValue ifield c e = .abort := by
    intro c e
    unfold nearestValue FieldC.getInt
    split_ifs
    · exact .inr rfl
    · by_cases h : c.1.toNat < Y ∧ c.2.toNat < X ∧ e < E
      · exact .inl (hi.exists_get h.1 h.2.1 h.2.2)
      · exact .inr (hi.get_abort h)
    · exact .inl ⟨_, rfl⟩
  have hbody : ∀ (c : Int × Int), ∀ y < nY, ∀ x < nX, ∀ f : FieldC K, Sized nY nX nE f → ∀ e < nE, (∃ f', (do
      let v ← nearestValue ifield c e
      f.set y x e v) = ok f' ∧ Sized nY nX nE f') ∨ (do
      let v ← nearestValue ifield c e
      f.set y x e v) = .abort := by
    intro c y hy x hx f hf e he
    rcases hget c e with ⟨v, hv⟩ | hv
    · obtain ⟨f', e1, e2, -⟩ := hf.set hy hx he v
      exact .inl ⟨f', by rw [hv]; exact e1, e2⟩
    · exact .inr (by rw [hv]; rfl)
  obtain ⟨hy0, hx0⟩ := cell?_lt hnear hc0
  unfold nearestField FieldC.forCells
  rw [ho.nY, ho.nX, ho.nE]
  refine foldM_abort (WF := Sized nY nX nE) (i0 := y0) (fun s hs y hy => foldM_ok_or_abort (fun s hs x hx => ?_) hs)
    (List.mem_range.mpr hy0) (fun s hs => ?_) ho
  · obtain ⟨c, -, hc⟩ := vget2_of_rect hnear (List.mem_range.mp hy) (List.mem_range.mp hx)
    simp only [hc, ok_bind]
    exact foldM_ok_or_abort (fun s hs e he => hbody c y (List.mem_range.mp hy) x (List.mem_range.mp hx) s hs e (List.mem_range.mp he)) hs
  · refine foldM_abort (WF := Sized nY nX nE) (i0 := x0) (fun s hs x hx => ?_) (List.mem_range.mpr hx0) (fun s hs => ?_) hs
    · obtain ⟨c, -, hc⟩ := vget2_of_rect hnear hy0 (List.mem_range.mp hx)
      simp only [hc, ok_bind]
      exact foldM_ok_or_abort (fun s hs e he => hbody c y0 hy0 x (List.mem_range.mp hx) s hs e (List.mem_range.mp he)) hs
    · simp only [vget2_of_cell? hc0, ok_bind]
      refine foldM_abort (WF := Sized nY nX nE) (i0 := E) (fun s hs e he => hbody c0 y0 hy0 x0 hx0 s hs e (List.mem_range.mp he))
        (List.mem_range.mpr hE) (fun s hs => ?_) hs
      have : nearestValue ifield c0 E = .abort := by
        unfold nearestValue FieldC.getInt isValidInt
        rw [if_pos (by simp [hv0.1, hv0.2])]
        split_ifs
        · rfl
        · exact hi.get_abort (by omega)
      rw [this]
      rfl

/-- **C93** (`downscaleVec`). With all neighbours in range the result has the value of the neighbour everywhere. -/
theorem c93_vec {Y X nY nX : Nat} {input olats : List (List (Fl K))} {near : List (List (Int × Int))} (hi : Rect Y X input)
    (ho : Rect nY nX olats) (hn : Rect nY nX near) (hY : 0 < nY)
    (hin : ∀ y x c, cell? near y x = some c → ∃ i j : Nat, c = ((i : Int), (j : Int)) ∧ i < Y ∧ j < X) :
    ∃ out, nearestVec input olats near = ok out ∧ Rect nY nX out ∧ ∀ y < nY, ∀ x < nX, ∃ i j : Nat, cell? near y x = some ((i : Int), (j : Int)) ∧
      cell? out y x = cell? input i j := by
  unfold nearestVec
  have h0 : 0 < near.length := by rw [hn.1]; exact hY
  rw [numX_rect ho hY, ok_bind, hn.1, ho.1, show vget near 0 = ok near[0] from vget_eq_ok_of_lt (n := 0) h0]
  simp only [decide_true, assert_true, ok_bind]
  rw [hn.2 _ (List.getElem_mem h0)]
  simp only [decide_true, assert_true, ok_bind]
  obtain ⟨out, g1, g2, g3⟩ := grid2_exists (Y := nY) (X := nX) (f := fun i j => do
      let row ← vget near i
      assert (decide (j < row.length))
      let c ← vget row j
      assert (decide (0 ≤ c.1) && decide (c.1 < input.length))
      let r ← vget input c.1
      assert (decide (0 ≤ c.2) && decide (c.2 < r.length))
      if isValidInt c.1 && isValidInt c.2 then vget r c.2 else ok Client.MV)
    (P := fun y x v => ∃ i j : Nat, cell? near y x = some ((i : Int), (j : Int)) ∧ some v = cell? input i j) (by
      intro y hy x hx
      have hyl : y < near.length := by rw [hn.1]; exact hy
      have hxl : x < near[y].length := by rw [hn.2 _ (List.getElem_mem hyl)]; exact hx
      have hc : cell? near y x = some near[y][x] := by
        unfold cell?
        rw [List.getElem?_eq_getElem hyl, Option.bind_some, List.getElem?_eq_getElem hxl]
      obtain ⟨i, j, e, hiY, hjX⟩ := hin y x _ hc
      have hil : i < input.length := by rw [hi.1]; exact hiY
      have hjl : j < input[i].length := by rw [hi.2 _ (List.getElem_mem hil)]; exact hjX
      rw [vget_eq_ok_of_lt hyl, ok_bind]
      simp only [Nat.cast_lt, hxl, decide_true, assert_true, ok_bind]
      rw [vget_eq_ok_of_lt hxl, ok_bind, e]
      simp only [Nat.cast_lt, hil, decide_true, Nat.cast_nonneg, Bool.and_self, assert_true, ok_bind]
      rw [vget_eq_ok_of_lt hil, ok_bind]
      simp only [hjl, decide_true, Bool.and_self, assert_true, ok_bind]
      rw [if_pos (by simp [isValidInt]), vget_eq_ok_of_lt hjl]
      refine ⟨_, rfl, i, j, by rw [hc, e], ?_⟩
      unfold cell?
      rw [List.getElem?_eq_getElem hil, Option.bind_some, List.getElem?_eq_getElem hjl])
  refine ⟨out, g1, g2, fun y hy x hx => ?_⟩
  obtain ⟨v, e1, -, i, j, e2, e3⟩ := g3 y hy x hx
  exact ⟨i, j, e2, by rw [e1, e3]⟩

/-- **C93** is false of `downscaleVec`: where a neighbour is missing the result is not the missing value; the program ends with a failed
assertion, which comes before the test. -/
theorem c93_vec_missing_false {nY nX : Nat} {input olats : List (List (Fl K))} {near : List (List (Int × Int))}
    (ho : Rect nY nX olats) (hn : Rect nY nX near) {y0 x0 : Nat} {c0 : Int × Int} (hc0 : cell? near y0 x0 = some c0) (hm : c0.1 < 0 ∨ c0.2 < 0) :
    nearestVec input olats near = .abort := by
  obtain ⟨hy0, hx0⟩ := cell?_lt hn hc0
  have hY : 0 < nY := by omega
  unfold nearestVec
  have h0 : 0 < near.length := by rw [hn.1]; exact hY
  rw [numX_rect ho hY, ok_bind, hn.1, ho.1, show vget near 0 = ok near[0] from vget_eq_ok_of_lt (n := 0) h0]
  simp only [decide_true, assert_true, ok_bind]
  rw [hn.2 _ (List.getElem_mem h0)]
  simp only [decide_true, assert_true, ok_bind]
  have hrow : ∀ y < nY, ∀ x < nX, ∃ c, cell? near y x = some c ∧ ∀ k : Int × Int → Res (Fl K), (do
      let row ← vget near (y : Nat)
      assert (decide (((x : Nat) : Int) < row.length))
      let c ← vget row (x : Nat)
      k c) = k c := by
    intro y hy x hx
    have hyl : y < near.length := by rw [hn.1]; exact hy
    have hxl : x < near[y].length := by rw [hn.2 _ (List.getElem_mem hyl)]; exact hx
    refine ⟨near[y][x], ?_, fun k => ?_⟩
    · unfold cell?
      rw [List.getElem?_eq_getElem hyl, Option.bind_some, List.getElem?_eq_getElem hxl]
    · rw [vget_eq_ok_of_lt hyl, ok_bind]
      simp only [Nat.cast_lt, hxl, decide_true, assert_true, ok_bind]
      rw [vget_eq_ok_of_lt hxl, ok_bind]
  have hcont : ∀ c : Int × Int, (∃ v, (do
      assert (decide (0 ≤ c.1) && decide (c.1 < input.length))
      let r ← vget input c.1
      assert (decide (0 ≤ c.2) && decide (c.2 < r.length))
      if isValidInt c.1 && isValidInt c.2 then vget r c.2 else ok Client.MV) = ok v) ∨ (do
      assert (decide (0 ≤ c.1) && decide (c.1 < input.length))
      let r ← vget input c.1
      assert (decide (0 ≤ c.2) && decide (c.2 < r.length))
      if isValidInt c.1 && isValidInt c.2 then vget r c.2 else ok Client.MV) = .abort := by
    rintro ⟨I, J⟩
    by_cases h1 : 0 ≤ I ∧ I < input.length
    swap
    · right
      have : (decide (0 ≤ I) && decide (I < input.length)) = false := by simpa [not_and_or] using h1
      simp only [this, assert_false, abort_bind]
    obtain ⟨i, rfl⟩ := Int.eq_ofNat_of_zero_le h1.1
    have hil : i < input.length := by omega
    by_cases h2 : 0 ≤ J ∧ J < input[i].length
    · left
      obtain ⟨j, rfl⟩ := Int.eq_ofNat_of_zero_le h2.1
      have hjl : j < input[i].length := by omega
      simp only [Nat.cast_lt, hil, decide_true, Nat.cast_nonneg, Bool.and_self, assert_true, ok_bind, vget_eq_ok_of_lt hil, hjl,
        vget_eq_ok_of_lt hjl]
      split_ifs <;> exact ⟨_, rfl⟩
    · right
      have : (decide (0 ≤ J) && decide (J < input[i].length)) = false := by simpa [not_and_or] using h2
      simp only [Nat.cast_lt, hil, decide_true, Nat.cast_nonneg, Bool.and_self, assert_true, ok_bind, vget_eq_ok_of_lt hil, this,
        assert_false, abort_bind]
  refine grid2_abort (fun y hy x hx => ?_) hy0 hx0 ?_
  · obtain ⟨c, -, hk⟩ := hrow y hy x hx
    rw [hk]
    exact hcont c
  · obtain ⟨c, e, hk⟩ := hrow y0 hy0 x0 hx0
    rw [hc0, Option.some.injEq] at e
    subst e
    rw [hk]
    rcases hm with h | h
    · have : (decide (0 ≤ c0.1) && decide (c0.1 < input.length)) = false := by simp [not_le.mpr h]
      simp only [this, assert_false, abort_bind]
    · by_cases h1 : 0 ≤ c0.1 ∧ c0.1 < input.length
      · obtain ⟨i, hi⟩ := Int.eq_ofNat_of_zero_le h1.1
        have hil : i < input.length := by omega
        rw [hi]
        have : ∀ r : List (Fl K), (decide (0 ≤ c0.2) && decide (c0.2 < r.length)) = false := by intro r; simp [not_le.mpr h]
        simp only [Nat.cast_lt, hil, decide_true, Nat.cast_nonneg, Bool.and_self, assert_true, ok_bind, vget_eq_ok_of_lt hil, this,
          assert_false, abort_bind]
      · have : (decide (0 ≤ c0.1) && decide (c0.1 < input.length)) = false := by simpa [not_and_or] using h1
        simp only [this, assert_false, abort_bind]

/-- The hypotheses of `c93_vec_missing_false`, and a case in which `c93_vec` applies. -/
example : nearestVec [[(fin 1 : Fl ℚ), fin 2]] [[fin 3, fin 4]] [[(0, 1), (-999, -999)]] = .abort ∧
    nearestVec [[(fin 1 : Fl ℚ), fin 2]] [[fin 3, fin 4]] [[(0, 1), (0, 0)]] = ok [[fin 2, fin 1]] ∧
    cell? [[((0, 1) : Int × Int), (-999, -999)]] 0 1 = some (-999, -999) := by decide +kernel

/-- A field of two members at two points, to one output point with a neighbour and one without. -/
example : nearestField [[(0, 1), (-999, -999)]] ⟨[(fin 1 : Fl ℚ), fin 2, fin 3, fin 4], 1, 2, 2⟩ ⟨[fin 0, fin 0, fin 0, fin 0], 1, 2, 2⟩ =
      ok ⟨[fin 3, fin 4, fin (-999), fin (-999)], 1, 2, 2⟩ ∧
    Sized 1 2 2 (⟨[(fin 1 : Fl ℚ), fin 2, fin 3, fin 4], 1, 2, 2⟩ : FieldC ℚ) ∧
    nearestField [[(0, 1), (-999, -999)]] ⟨[(fin 1 : Fl ℚ), fin 2], 1, 2, 1⟩ ⟨[fin 0, fin 0, fin 0, fin 0], 1, 2, 2⟩ = .abort :=
  ⟨by decide +kernel, ⟨rfl, rfl, rfl, rfl⟩, by decide +kernel⟩

section
local instance flatNearest : HasArcC ℚ := ⟨fun a b c d => |a - c| + |b - d|⟩

/-- The whole downscaler with the distance of `flat_separates`, which meets the hypotheses of `c93_downscale_partial`. -/
example : downscale (nearestCore insertSort [[fin 0, fin 4]] [[fin 5, (fin 6 : Fl ℚ)]] [[fin 3, fin (-999)]] [[fin 5, fin 6]]
      [⟨[fin 1, fin 2], 1, 2, 1⟩] [⟨[fin 0, fin 0], 1, 2, 1⟩]) [⟨[fin 1, fin 2], 1, 2, 1⟩] [⟨[fin 0, fin 0], 1, 2, 1⟩] =
    ok (some [⟨[fin 2, fin (-999)], 1, 2, 1⟩]) := by decide +kernel

end

end Gridpp.Props
