import Verif.Lemmas.Client.Stencil
import Verif.Props.Client.Neighbours
import Verif.Props.Client.Stat

/-! # C96, C97, C98: the downscalers pressure, upscale and smart of the client -/

set_option linter.unusedSectionVars false

namespace Gridpp.Props
open Fl hiding MV isValid
open Res Client Spec

variable {K : Type} [Field K] [LinearOrder K] [IsStrictOrderedRing K]

/-- Two grids whose coordinates are on the globe, with a distance that separates as in C91. Every point of the output grid has
coordinates; at least one of the input grid has. -/
structure GridPair [HasArcC K] (sort : Bool → List (Site K) → List (Site K)) (Y X nY nX : Nat) (ilats ilons olats olons : List (List (Fl K))) :
    Prop where
  sep : KD.Separates K
  pos : ∀ a b c d : K, 0 ≤ HasArcC.arc a b c d
  sorts : KD.Sorts sort
  ilat : Rect Y X ilats
  ilon : Rect Y X ilons
  olat : Rect nY nX olats
  olon : Rect nY nX olons
  rows : 0 < nY
  globe : ∀ i j c d, PlaceAt ilats ilons i j c d → OnGlobe c d
  oglobe : ∀ i j c d, PlaceAt olats olons i j c d → OnGlobe c d
  has : ∃ i j c d, PlaceAt ilats ilons i j c d
  all : ∀ y < nY, ∀ x < nX, ∃ a b, PlaceAt olats olons y x a b

/-- The input point `i`, `j` is nearest to the output point `y`, `x`. -/
def Nearest [HasArcC K] (ilats ilons olats olons : List (List (Fl K))) (y x i j : Nat) : Prop :=
  ∃ a b c d, PlaceAt olats olons y x a b ∧ PlaceAt ilats ilons i j c d ∧
    ∀ i' j' c' d', PlaceAt ilats ilons i' j' c' d' → gap a b c d ≤ gap a b c' d'

theorem GridPair.near [HasArcC K] {sort : Bool → List (Site K) → List (Site K)} {Y X nY nX : Nat} {ilats ilons olats olons : List (List (Fl K))}
    (h : GridPair sort Y X nY nX ilats ilons olats olons) :
    ∃ near, treeGrid sort ilats ilons olats olons = ok near ∧ Rect nY nX near ∧ ∀ y x c, cell? near y x = some c →
      ∃ i j : Nat, c = ((i : Int), (j : Int)) ∧ i < Y ∧ j < X ∧ Nearest ilats ilons olats olons y x i j := by
  obtain ⟨near, h1, h2, h3, -⟩ := c92_tree_grid_partial h.sep h.pos h.sorts h.ilat h.ilon h.olat h.olon h.rows h.globe h.oglobe h.has
  refine ⟨near, h1, h2, fun y x c hc => ?_⟩
  obtain ⟨hy, hx⟩ := cell?_lt h2 hc
  obtain ⟨a, b, hab⟩ := h.all y hy x hx
  obtain ⟨i, j, p, q, e1, e2, e3⟩ := h3 y hy x hx a b hab
  rw [hc, Option.some.injEq] at e1
  have := cell?_lt h.ilat e2.1
  exact ⟨i, j, e1, this.1, this.2, a, b, p, q, hab, e2, e3⟩

/-! ### C96: pressure -/

/-- `v` is the pressure `p` of an input point moved from the elevation there to the elevation of the output point; it is `p` itself if one
of the elevations is missing, and the missing value if only the pressure is. -/
def Moved [HasExp K] (oelev ielev p v : Fl K) : Prop :=
  (∀ z z0 q : K, oelev = fin z → z ≠ -999 → ielev = fin z0 → z0 ≠ -999 → p = fin q → q ≠ -999 →
    v = fin (q * HasExp.exp (-(121 / 1000000) * (z - z0)))) ∧
  (Present oelev → Present ielev → ¬ Present p → v = fin (-999)) ∧ (¬ (Present oelev ∧ Present ielev) → v = p)

theorem moved [HasExp K] (oelev ielev p : Fl K) :
    Moved oelev ielev p (if !Client.isValid oelev || !Client.isValid ielev then p else calcPressure ielev p oelev) := by
  by_cases h : Present oelev ∧ Present ielev
  · have h1 := isValid_iff_present.mpr h.1
    have h2 := isValid_iff_present.mpr h.2
    rw [h1, h2]
    simp only [Bool.not_true, Bool.or_self, Bool.false_eq_true, if_false]
    unfold calcPressure
    refine ⟨?_, ?_, fun hn => absurd h hn⟩
    · rintro z z0 q rfl - rfl - rfl hq
      rw [h1, h2, isValid_iff_present.mpr ⟨q, rfl, hq⟩]
      simp only [Bool.and_self, if_true, fin_sub, fin_mul, Fl.exp]
    · intro _ _ hp
      rw [isValid_false_iff.mpr hp]
      simp [Client.MV]
  · rw [if_pos]
    · refine ⟨?_, fun h1 h2 => absurd ⟨h1, h2⟩ h, fun _ => rfl⟩
      rintro z z0 q rfl hz rfl hz0 - -
      exact absurd ⟨⟨z, rfl, hz⟩, ⟨z0, rfl, hz0⟩⟩ h
    · rw [Bool.or_eq_true, Bool.not_eq_true', Bool.not_eq_true', isValid_false_iff, isValid_false_iff]
      tauto

/-- **C96** (one field). With a table of neighbours in range each member of each output point gets the pressure of the same member at its
neighbour, moved to the elevation of the output point. -/
theorem c96_field [HasExp K] {Y X E nY nX nE : Nat} {ifield ofield : FieldC K} (hi : Sized Y X E ifield) (ho : Sized nY nX nE ofield)
    {ielevs oelevs : List (List (Fl K))} (hie : Rect Y X ielevs) (hoe : Rect nY nX oelevs) {near : List (List (Int × Int))} (hnear : Rect nY nX near)
    (hE : nE ≤ E) (hin : ∀ y x c, cell? near y x = some c → ∃ i j : Nat, c = ((i : Int), (j : Int)) ∧ i < Y ∧ j < X) :
    ∃ out, pressureField near ielevs oelevs ifield ofield = ok out ∧ Sized nY nX nE out ∧ ∀ y < nY, ∀ x < nX, ∀ e < nE,
      ∃ v, out.get y x e = ok v ∧ ∃ (i j : Nat) (z z0 p : Fl K), cell? near y x = some ((i : Int), (j : Int)) ∧ cell? oelevs y x = some z ∧
        cell? ielevs i j = some z0 ∧ ifield.get i j e = ok p ∧ Moved z z0 p v := by
  refine fill_spec (setup := pressureSetup near ielevs) ?_ ho
  intro y hy x hx
  obtain ⟨c, hc, hc'⟩ := vget2_of_rect hnear hy hx
  obtain ⟨i, j, rfl, hiY, hjX⟩ := hin y x c hc
  obtain ⟨z, hz, hz'⟩ := vget2_of_rect hoe hy hx
  obtain ⟨z0, hz0, hz0'⟩ := vget2_of_rect hie hiY hjX
  refine ⟨(y, x, (i : Int), (j : Int)), ?_, fun e he => ?_⟩
  · have hl : i < ielevs.length := by rw [hie.1]; exact hiY
    unfold pressureSetup
    rw [hc', ok_bind]
    simp only
    rw [show (decide ((0 : Int) ≤ (i : Int)) && decide ((i : Int) < (ielevs.length : Int))) = true by simp [hl], assert_true, ok_bind,
      vget_eq_ok_of_lt hl, ok_bind, hie.2 _ (List.getElem_mem hl),
      show (decide ((0 : Int) ≤ (j : Int)) && decide ((j : Int) < (X : Int))) = true by simp [hjX], assert_true, ok_bind]
  · obtain ⟨p, hp, hp'⟩ := getInt_nat hi hiY hjX (show e < E by omega)
    refine ⟨_, ?_, i, j, z, z0, p, hc, hz, hz0, hp', moved z z0 p⟩
    unfold pressureValue
    simp only [hz', hz0', hp, ok_bind]

/-- **C96** is false for an output point without a neighbour: the downscaler does not set the missing value but ends the program. -/
theorem c96_missing_false [HasExp K] {Y X E nY nX nE : Nat} {ifield ofield : FieldC K} (hi : Sized Y X E ifield) (ho : Sized nY nX nE ofield)
    {ielevs oelevs : List (List (Fl K))} (hie : Rect Y X ielevs) (hoe : Rect nY nX oelevs) {near : List (List (Int × Int))} (hnear : Rect nY nX near)
    (hE : nE ≤ E) (hin : ∀ y x c, cell? near y x = some c → c = (-999, -999) ∨ ∃ i j : Nat, c = ((i : Int), (j : Int)) ∧ i < Y ∧ j < X)
    (hex : ∃ y x, cell? near y x = some (-999, -999)) : pressureField near ielevs oelevs ifield ofield = .abort := by
  have habort : ∀ y x : Nat, vget2 near y x = ok (-999, -999) → pressureSetup near ielevs y x = .abort := by
    intro y x h
    unfold pressureSetup
    rw [h]
    rfl
  refine fill_abort (setup := pressureSetup near ielevs) ?_ ?_ ho
  · intro y hy x hx
    obtain ⟨c, hc, hc'⟩ := vget2_of_rect hnear hy hx
    rcases hin y x c hc with rfl | ⟨i, j, rfl, hiY, hjX⟩
    · exact .inr (habort y x hc')
    · obtain ⟨z, hz, hz'⟩ := vget2_of_rect hoe hy hx
      obtain ⟨z0, hz0, hz0'⟩ := vget2_of_rect hie hiY hjX
      refine .inl ⟨(y, x, (i : Int), (j : Int)), ?_, fun e he => ?_⟩
      · have hl : i < ielevs.length := by rw [hie.1]; exact hiY
        unfold pressureSetup
        rw [hc', ok_bind]
        simp only
        rw [show (decide ((0 : Int) ≤ (i : Int)) && decide ((i : Int) < (ielevs.length : Int))) = true by simp [hl], assert_true, ok_bind,
          vget_eq_ok_of_lt hl, ok_bind, hie.2 _ (List.getElem_mem hl),
          show (decide ((0 : Int) ≤ (j : Int)) && decide ((j : Int) < (X : Int))) = true by simp [hjX], assert_true, ok_bind]
      · obtain ⟨p, hp, hp'⟩ := getInt_nat hi hiY hjX (show e < E by omega)
        refine ⟨if !Client.isValid z || !Client.isValid z0 then p else calcPressure z0 p z, ?_⟩
        unfold pressureValue
        simp only [hz', hz0', hp, ok_bind]
  · obtain ⟨y, x, h⟩ := hex
    obtain ⟨hy, hx⟩ := cell?_lt hnear h
    exact ⟨y, hy, x, hx, habort y x (vget2_of_cell? h)⟩

/-- **C96** (the whole downscaler). -/
theorem c96_downscale_partial [HasArcC K] [HasExp K] {sort : Bool → List (Site K) → List (Site K)} {Y X E nY nX nE : Nat}
    {ilats ilons ielevs olats olons oelevs : List (List (Fl K))} (h : GridPair sort Y X nY nX ilats ilons olats olons) (hie : Rect Y X ielevs)
    (hoe : Rect nY nX oelevs) {ifields ofields : List (FieldC K)} (hi : Series Y X E ifields) (ho : Series nY nX nE ofields)
    (hl : ifields.length = ofields.length) (hE : nE ≤ E) :
    ∃ out, pressureCore sort ilats ilons ielevs olats olons oelevs ifields ofields = ok out ∧ Series nY nX nE out ∧
      out.length = ifields.length ∧ ∀ t < ifields.length, ∀ y < nY, ∀ x < nX, ∀ e < nE, ∃ (i j : Nat) (z z0 p v : Fl K),
        Nearest ilats ilons olats olons y x i j ∧ cell? oelevs y x = some z ∧ cell? ielevs i j = some z0 ∧ At ifields t i j e p ∧
        At out t y x e v ∧ Moved z z0 p v := by
  obtain ⟨near, n1, n2, n3⟩ := h.near
  obtain ⟨out, g1, g2, g3⟩ := eachStep_spec (body := pressureField near ielevs oelevs) (P := fun f _ r => Sized nY nX nE r ∧
      ∀ y < nY, ∀ x < nX, ∀ e < nE, ∃ v, r.get y x e = ok v ∧ ∃ (i j : Nat) (z z0 p : Fl K), cell? near y x = some ((i : Int), (j : Int)) ∧
        cell? oelevs y x = some z ∧ cell? ielevs i j = some z0 ∧ f.get i j e = ok p ∧ Moved z z0 p v) hl (by
    intro t f g hf hg
    exact c96_field (hi f (List.mem_of_getElem? hf)) (ho g (List.mem_of_getElem? hg)) hie hoe n2 hE fun y x c hc => by
      obtain ⟨i, j, e1, e2, e3, -⟩ := n3 y x c hc
      exact ⟨i, j, e1, e2, e3⟩)
  have hr : ∀ t < ifields.length, ∃ f r, ifields[t]? = some f ∧ out[t]? = some r ∧ Sized nY nX nE r ∧
      ∀ y < nY, ∀ x < nX, ∀ e < nE, ∃ v, r.get y x e = ok v ∧ ∃ (i j : Nat) (z z0 p : Fl K), cell? near y x = some ((i : Int), (j : Int)) ∧
        cell? oelevs y x = some z ∧ cell? ielevs i j = some z0 ∧ f.get i j e = ok p ∧ Moved z z0 p v := by
    intro t ht
    have e1 : ifields[t]? = some ifields[t] := List.getElem?_eq_getElem ht
    have e2 : ofields[t]? = some (ofields[t]'(hl ▸ ht)) := List.getElem?_eq_getElem (hl ▸ ht)
    obtain ⟨r, k1, k2, k3⟩ := g3 t _ _ e1 e2
    exact ⟨_, r, e1, k1, k2, k3⟩
  refine ⟨out, ?_, ?_, g2, ?_⟩
  · unfold pressureCore
    rw [n1, ok_bind, g1]
  · intro r hr'
    obtain ⟨t, ht⟩ := List.mem_iff_getElem?.mp hr'
    obtain ⟨f, r', -, e2, e3, -⟩ := hr t (by rw [← g2]; exact (List.getElem?_eq_some_iff.mp ht).1)
    rw [ht, Option.some.injEq] at e2
    rw [e2]
    exact e3
  · intro t ht y hy x hx e he
    obtain ⟨f, r, k1, k2, -, k3⟩ := hr t ht
    obtain ⟨v, e1, i, j, z, z0, p, e2, e3, e4, e5, e6⟩ := k3 y hy x hx e he
    obtain ⟨i', j', h1, -, -, h2⟩ := n3 y x _ e2
    rw [Prod.mk.injEq, Nat.cast_inj, Nat.cast_inj] at h1
    rw [← h1.1, ← h1.2] at h2
    exact ⟨i, j, z, z0, p, v, h2, e3, e4, ⟨f, k1, e5⟩, ⟨r, k2, e1⟩, e6⟩

/-- **C96** (atmosphere). A positive pressure falls with the elevation. -/
theorem c96_falls [LawfulExp K] {z0 z z' q a b : K} (hq : 0 < q) (hz : z < z') (h : Moved (fin z) (fin z0) (fin q) (fin a))
    (h' : Moved (fin z') (fin z0) (fin q) (fin b)) (h1 : z ≠ -999) (h2 : z' ≠ -999) (h3 : z0 ≠ -999) : b < a := by
  have e1 := h.1 z z0 q rfl h1 rfl h3 rfl (by intro h; rw [h] at hq; norm_num at hq)
  have e2 := h'.1 z' z0 q rfl h2 rfl h3 rfl (by intro h; rw [h] at hq; norm_num at hq)
  rw [Fl.fin.injEq] at e1 e2
  rw [e1, e2]
  refine mul_lt_mul_of_pos_left ?_ hq
  have hs : -(121 / 1000000) * (z' - z0) = -(121 / 1000000) * (z - z0) + -(121 / 1000000) * (z' - z) := by ring
  rw [hs, LawfulExp.exp_add]
  have hpos := LawfulExp.exp_pos (-(121 / 1000000) * (z - z0))
  have hlt : HasExp.exp (-(121 / 1000000) * (z' - z)) < 1 := by
    have hu : 0 < (121 / 1000000 : K) * (z' - z) := mul_pos (by norm_num) (by linarith)
    have h1 := LawfulExp.add_one_le_exp ((121 / 1000000 : K) * (z' - z))
    have h2 := LawfulExp.exp_add ((121 / 1000000 : K) * (z' - z)) (-(121 / 1000000) * (z' - z))
    rw [show (121 / 1000000 : K) * (z' - z) + -(121 / 1000000) * (z' - z) = 0 by ring, LawfulExp.exp_zero] at h2
    have h3 := LawfulExp.exp_pos (-(121 / 1000000) * (z' - z))
    nlinarith
  exact mul_lt_of_lt_one_right hpos hlt

/-- **C96** (atmosphere). Moving a positive pressure to another elevation and back gives the pressure again. -/
theorem c96_back [LawfulExp K] {z0 z q : K} (hq : 0 < q) (h1 : z ≠ -999) (h3 : z0 ≠ -999) :
    ∃ a, calcPressure (fin z0) (fin q) (fin z) = fin a ∧ 0 < a ∧ calcPressure (fin z) (fin a) (fin z0) = fin q := by
  have hval : ∀ {u q v : K}, u ≠ -999 → v ≠ -999 → 0 < q → calcPressure (fin u) (fin q) (fin v) = fin (q * HasExp.exp (-(121 / 1000000) * (v - u))) := by
    intro u q v hu hv hq
    unfold calcPressure
    rw [isValid_iff_present.mpr ⟨u, rfl, hu⟩, isValid_iff_present.mpr ⟨v, rfl, hv⟩, isValid_iff_present.mpr ⟨q, rfl, by intro h; rw [h] at hq; norm_num at hq⟩]
    simp only [Bool.and_self, if_true, fin_sub, fin_mul, Fl.exp]
  have hpos : 0 < q * HasExp.exp (-(121 / 1000000) * (z - z0)) := mul_pos hq (LawfulExp.exp_pos _)
  refine ⟨_, hval h3 h1 hq, hpos, ?_⟩
  rw [hval h1 h3 hpos, mul_assoc, ← LawfulExp.exp_add, show -(121 / 1000000) * (z - z0) + -(121 / 1000000) * (z0 - z) = (0 : K) by ring,
    LawfulExp.exp_zero, mul_one]

example : ∃ a, calcPressure (fin 100) (fin 101325) (fin (1000 : ℝ)) = fin a ∧ 0 < a ∧ calcPressure (fin 1000) (fin a) (fin 100) = fin 101325 :=
  c96_back (by norm_num) (by norm_num) (by norm_num)

/-! ### C97: upscale -/

/-- **C97** (one field). Each member of each output point gets the statistic of the values present among the input points that are
assigned to it by the table, the missing value if there are none. -/
theorem c97_field [FloorRing K] [LawfulSqrt K] {Y X E nY nX nE : Nat} {ifield ofield : FieldC K} (hi : Sized Y X E ifield) (ho : Sized nY nX nE ofield)
    {table : List (List (Int × Int))} (ht : Rect Y X table) (hE : nE ≤ E) (s : StatType) (q : Fl K) (level : K)
    (hq : s = .quantile → q = fin level ∧ 0 ≤ level ∧ level ≤ 1) :
    ∃ out, upscaleField s q table ifield ofield = ok out ∧ Sized nY nX nE out ∧ ∀ y < nY, ∀ x < nX, ∀ e < nE, ∃ v, out.get y x e = ok v ∧
      ∃ (places : List (Nat × Nat)) (vals : List (Fl K)), places.Nodup ∧
        (∀ p, p ∈ places ↔ cell? table p.1 p.2 = some ((y : Int), (x : Int))) ∧
        List.Forall₂ (fun (p : Nat × Nat) u => ifield.get p.1 p.2 e = ok u) places vals ∧
        (present vals = [] → v = fin (-999)) ∧ (present vals ≠ [] → ∃ w, v = fin w ∧ StatOf s level (present vals) w) := by
  refine fill_spec ?_ ho
  intro y hy x hx
  refine ⟨(y, x), rfl, fun e he => ?_⟩
  obtain ⟨places, vals, h1, h2, h3, h4⟩ := upscaleValues_spec hi ht y x (show e < E by omega)
  simp only [h1, ok_bind]
  by_cases hp : present vals = []
  · refine ⟨_, c89_missing _ s q (by rw [present_filter]; exact hp), places, vals, h2, h3, h4, fun _ => rfl, fun h => absurd hp h⟩
  · obtain ⟨w, e1, e2⟩ := c89_value (vals.filter Client.isValid) s q level (by rw [present_filter]; exact hp) hq
    rw [present_filter] at e2
    exact ⟨_, e1, places, vals, h2, h3, h4, fun h => absurd h hp, fun _ => ⟨w, rfl, e2⟩⟩

/-- **C97** (the whole downscaler). Each input point with coordinates contributes to exactly one output point, the nearest one (`table`
says which); input points without coordinates contribute to none. -/
theorem c97_upscale_partial [FloorRing K] [HasArcC K] [LawfulSqrt K] (hsep : KD.Separates K) {sort : Bool → List (Site K) → List (Site K)}
    (hsort : KD.Sorts sort) {Y X E nY nX nE : Nat} {ilats ilons olats olons : List (List (Fl K))} (hlat : Rect Y X ilats) (hlon : Rect Y X ilons)
    (hY : 0 < Y) (hoa : Rect nY nX olats) (hoo : Rect nY nX olons) (hglobe : ∀ i j c d, PlaceAt ilats ilons i j c d → OnGlobe c d)
    (hoglobe : ∀ i j c d, PlaceAt olats olons i j c d → OnGlobe c d) (hsome : ∃ i j c d, PlaceAt olats olons i j c d)
    {ifields ofields : List (FieldC K)} (hi : Series Y X E ifields) (ho : Series nY nX nE ofields) (hl : ifields.length = ofields.length)
    (hE : nE ≤ E) (s : StatType) (q : Fl K) (level : K) (hq : s = .quantile → q = fin level ∧ 0 ≤ level ∧ level ≤ 1) :
    ∃ (out : List (FieldC K)) (owner : Nat × Nat → Option (Nat × Nat)), upscaleCore sort s q ilats ilons olats olons ifields ofields = ok out ∧
      Series nY nX nE out ∧ out.length = ifields.length ∧
      (∀ p c, owner p = some c → Nearest olats olons ilats ilons p.1 p.2 c.1 c.2) ∧
      (∀ (i j : Nat) a b, PlaceAt ilats ilons i j a b → (owner (i, j)).isSome) ∧
      ∀ t < ifields.length, ∀ y < nY, ∀ x < nX, ∀ e < nE, ∃ (v : Fl K) (places : List (Nat × Nat)) (vals : List (Fl K)),
        At out t y x e v ∧ places.Nodup ∧ (∀ p, p ∈ places ↔ owner p = some (y, x)) ∧
        List.Forall₂ (fun (p : Nat × Nat) u => At ifields t p.1 p.2 e u) places vals ∧
        (present vals = [] → v = fin (-999)) ∧ (present vals ≠ [] → ∃ w, v = fin w ∧ StatOf s level (present vals) w) := by
  obtain ⟨root, table, b1, b2, b3, b4⟩ := c91_grid_partial hsep hsort hoa hoo hoglobe hsome hlat hlon hglobe
  obtain ⟨out, g1, g2, g3⟩ := eachStep_spec (body := upscaleField s q table) (P := fun f _ r => Sized nY nX nE r ∧
      ∀ y < nY, ∀ x < nX, ∀ e < nE, ∃ v, r.get y x e = ok v ∧
      ∃ (places : List (Nat × Nat)) (vals : List (Fl K)), places.Nodup ∧
        (∀ p, p ∈ places ↔ cell? table p.1 p.2 = some ((y : Int), (x : Int))) ∧
        List.Forall₂ (fun (p : Nat × Nat) u => f.get p.1 p.2 e = ok u) places vals ∧
        (present vals = [] → v = fin (-999)) ∧ (present vals ≠ [] → ∃ w, v = fin w ∧ StatOf s level (present vals) w)) hl (by
    intro t f g hf hg
    exact c97_field (hi f (List.mem_of_getElem? hf)) (ho g (List.mem_of_getElem? hg)) b3 hE s q level hq)
  have hr : ∀ t < ifields.length, ∃ f r, ifields[t]? = some f ∧ out[t]? = some r ∧ Sized nY nX nE r ∧
      ∀ y < nY, ∀ x < nX, ∀ e < nE, ∃ v, r.get y x e = ok v ∧
      ∃ (places : List (Nat × Nat)) (vals : List (Fl K)), places.Nodup ∧
        (∀ p, p ∈ places ↔ cell? table p.1 p.2 = some ((y : Int), (x : Int))) ∧
        List.Forall₂ (fun (p : Nat × Nat) u => f.get p.1 p.2 e = ok u) places vals ∧
        (present vals = [] → v = fin (-999)) ∧ (present vals ≠ [] → ∃ w, v = fin w ∧ StatOf s level (present vals) w) := by
    intro t ht
    have e1 : ifields[t]? = some ifields[t] := List.getElem?_eq_getElem ht
    have e2 : ofields[t]? = some (ofields[t]'(hl ▸ ht)) := List.getElem?_eq_getElem (hl ▸ ht)
    obtain ⟨r, k1, k2, k3⟩ := g3 t _ _ e1 e2
    exact ⟨_, r, e1, k1, k2, k3⟩
  -- who owns an input point
  have howner : ∀ p : Nat × Nat, ∃ o : Option (Nat × Nat), ∀ c : Nat × Nat, o = some c ↔ cell? table p.1 p.2 = some ((c.1 : Int), (c.2 : Int)) := by
    intro p
    by_cases h : ∃ c : Nat × Nat, cell? table p.1 p.2 = some ((c.1 : Int), (c.2 : Int))
    · obtain ⟨c, hc⟩ := h
      refine ⟨some c, fun d => ⟨fun h => ?_, fun h => ?_⟩⟩
      · rw [Option.some.injEq] at h
        rw [← h]
        exact hc
      · rw [hc, Option.some.injEq, Prod.mk.injEq, Nat.cast_inj, Nat.cast_inj] at h
        rw [Option.some.injEq]
        exact Prod.ext h.1 h.2
    · exact ⟨none, fun c => ⟨fun h => by simp at h, fun hc => absurd ⟨c, hc⟩ h⟩⟩
  choose owner howner using howner
  refine ⟨out, owner, ?_, ?_, g2, ?_, ?_, ?_⟩
  · unfold upscaleCore
    rw [b1, ok_bind, numX_rect hlat hY, ok_bind, hlat.1, b2, ok_bind, g1]
  · intro r hr'
    obtain ⟨t, ht⟩ := List.mem_iff_getElem?.mp hr'
    obtain ⟨f, r', -, e2, e3, -⟩ := hr t (by rw [← g2]; exact (List.getElem?_eq_some_iff.mp ht).1)
    rw [ht, Option.some.injEq] at e2
    rw [e2]
    exact e3
  · intro p c hc
    have h1 := (howner p c).mp hc
    obtain ⟨hy, hx⟩ := cell?_lt b3 h1
    obtain ⟨I, J, k1, k2, k3⟩ := b4 p.1 hy p.2 hx
    rw [h1, Option.some.injEq, Prod.mk.injEq] at k1
    by_cases hp : ∃ a b, PlaceAt ilats ilons p.1 p.2 a b
    · obtain ⟨a, b, hp⟩ := hp
      obtain ⟨i, j, c', d', m1, m2, m3, m4⟩ := k3 a b hp
      rw [← k1.1, Nat.cast_inj] at m1
      rw [← k1.2, Nat.cast_inj] at m2
      rw [← m1, ← m2] at m3
      exact ⟨a, b, c', d', hp, m3, m4⟩
    · have := (k2 hp).1
      rw [← k1.1] at this
      omega
  · intro i j a b hp
    obtain ⟨hy, hx⟩ := cell?_lt hlat hp.1
    obtain ⟨I, J, k1, -, k3⟩ := b4 i hy j hx
    obtain ⟨i', j', c', d', rfl, rfl, -, -⟩ := k3 a b hp
    rw [(howner (i, j) (i', j')).mpr k1]
    rfl
  · intro t ht y hy x hx e he
    obtain ⟨f, r, k1, k2, -, k3⟩ := hr t ht
    obtain ⟨v, e1, places, vals, e2, e3, e4, e5⟩ := k3 y hy x hx e he
    refine ⟨v, places, vals, ⟨r, k2, e1⟩, e2, fun p => ?_, ?_, e5⟩
    · rw [e3, howner p (y, x)]
    · exact e4.imp fun p u h => ⟨f, k1, h⟩

/-! ### C98: smart -/

/-- **C98** (which points). The output point has an elevation, and the neighbour is not within the tolerance (or a value that is needed for
the test is missing): at most `num` points at most `radius` rows and columns from the neighbour are used, those with the least differences
of elevation, each once. -/
theorem c98_points {sort : List (Nat × Fl K) → List (Nat × Fl K)} (hsort : SortsSecond sort) {Y X : Nat} {ielevs oelevs : List (List (Fl K))}
    (hie : Rect Y X ielevs) {near : List (List (Int × Int))} {i j ci cj : Nat} (hc : cell? near i j = some ((ci : Int), (cj : Int)))
    (hci : ci < Y) (hcj : cj < X) {o : K} (ho : cell? oelevs i j = some (fin o)) (hm : o ≠ -999) {radius num : Int} (hr : 0 ≤ radius) (hn : 0 ≤ num)
    {minElevDiff : Fl K} (hfar : ∀ q m, cell? ielevs ci cj = some (fin q) → q ≠ -999 → minElevDiff = fin m → m ≠ -999 → m < |o - q|) :
    ∃ out, smartPoints sort radius num minElevDiff Y X ielevs oelevs near i j = ok out ∧ Chosen ielevs Y X radius num ((ci : Int), (cj : Int)) o out :=
  smartPoints_far hsort hie hc hci hcj ho hm hr hn hfar

/-- **C98** (nearest). Only the neighbour is used if the elevation of the output point is missing or the neighbour is within the
tolerance. -/
theorem c98_nearest (sort : List (Nat × Fl K) → List (Nat × Fl K)) {Y X : Nat} {ielevs oelevs : List (List (Fl K))} (hie : Rect Y X ielevs)
    {near : List (List (Int × Int))} {i j ci cj : Nat} (hc : cell? near i j = some ((ci : Int), (cj : Int))) (hci : ci < Y) (hcj : cj < X)
    {z : Fl K} (ho : cell? oelevs i j = some z) (radius num : Int) {minElevDiff : Fl K}
    (h : ¬ Present z ∨ ∃ o q m, z = fin o ∧ o ≠ -999 ∧ cell? ielevs ci cj = some (fin q) ∧ q ≠ -999 ∧ minElevDiff = fin m ∧ m ≠ -999 ∧ |o - q| ≤ m) :
    smartPoints sort radius num minElevDiff Y X ielevs oelevs near i j = ok [((ci : Int), (cj : Int))] := by
  obtain ⟨u, hu, hu'⟩ := vget2_of_rect hie hci hcj
  unfold smartPoints
  rw [vget2_of_cell? hc, ok_bind, vget2_of_cell? ho, ok_bind]
  simp only [hu', ok_bind]
  rw [if_pos]
  rw [Bool.or_eq_true]
  rcases h with h | ⟨o, q, m, rfl, h1, h2, h3, rfl, h4, h5⟩
  · left
    rw [isValid_false_iff.mpr h]
    rfl
  · right
    rw [hu, Option.some.injEq] at h2
    rw [h2, isValid_iff_present.mpr ⟨o, rfl, h1⟩, isValid_iff_present.mpr ⟨q, rfl, h3⟩, isValid_iff_present.mpr ⟨m, rfl, h4⟩, fin_sub,
      show Fl.abs (fin (o - q) : Fl K) = fin |o - q| from rfl, le_fin]
    simp [h5]

/-- **C98** is false for an output point without a neighbour: the elevations are read outside of the array. -/
theorem c98_missing_false (sort : List (Nat × Fl K) → List (Nat × Fl K)) {Y X : Nat} {ielevs oelevs : List (List (Fl K))}
    {near : List (List (Int × Int))} {i j : Nat} (hc : cell? near i j = some (-999, -999)) {z : Fl K} (ho : cell? oelevs i j = some z)
    (radius num : Int) (minElevDiff : Fl K) : smartPoints sort radius num minElevDiff Y X ielevs oelevs near i j = .ub := by
  unfold smartPoints
  rw [vget2_of_cell? hc, ok_bind, vget2_of_cell? ho, ok_bind]
  simp only [vget2, vget_neg (show (-999 : Int) < 0 by norm_num)]
  rfl

/-- **C98** (value). Each member is the mean of what is present among the values of the points used, the missing value if nothing is. -/
theorem c98_value {Y X E : Nat} {ifield : FieldC K} (hi : Sized Y X E ifield) {e : Nat} (he : e < E) (points : List (Int × Int))
    (hp : ∀ p ∈ points, ∃ i j : Nat, p = ((i : Int), (j : Int)) ∧ i < Y ∧ j < X) :
    ∃ (vals : List (Fl K)) (v : Fl K), smartValue ifield points e = ok v ∧
      List.Forall₂ (fun p v => ∃ i j : Nat, p = ((i : Int), (j : Int)) ∧ ifield.get i j e = ok v) points vals ∧
      (present vals = [] → v = fin (-999)) ∧ (present vals ≠ [] → v = fin (mean (present vals))) :=
  smartValue_spec hi he points hp

/-- The points used for an output point with elevation `z` whose nearest input point is `c`. -/
def Used (ielevs : List (List (Fl K))) (Y X : Nat) (radius num : Int) (minElevDiff z : Fl K) (ci cj : Nat) (points : List (Int × Int)) : Prop :=
  (points = [((ci : Int), (cj : Int))] ∧ (¬ Present z ∨ ∃ o q m, z = fin o ∧ o ≠ -999 ∧ cell? ielevs ci cj = some (fin q) ∧ q ≠ -999 ∧
    minElevDiff = fin m ∧ m ≠ -999 ∧ |o - q| ≤ m)) ∨
  ∃ o, z = fin o ∧ o ≠ -999 ∧ (∀ q m, cell? ielevs ci cj = some (fin q) → q ≠ -999 → minElevDiff = fin m → m ≠ -999 → m < |o - q|) ∧
    Chosen ielevs Y X radius num ((ci : Int), (cj : Int)) o points

/-- **C98** (the whole downscaler). -/
theorem c98_downscale_partial [HasArcC K] {sortSites : Bool → List (Site K) → List (Site K)} {sort : List (Nat × Fl K) → List (Nat × Fl K)}
    (hsort : SortsSecond sort) {Y X E nY nX nE : Nat} {ilats ilons ielevs olats olons oelevs : List (List (Fl K))}
    (h : GridPair sortSites Y X nY nX ilats ilons olats olons) (hie : Rect Y X ielevs) (hoe : Rect nY nX oelevs)
    {ifields ofields : List (FieldC K)} (hi : Series Y X E ifields) (ho : Series nY nX nE ofields)
    (hl : ifields.length = ofields.length) (hE : nE ≤ E) {radius num : Int} (hr : 0 ≤ radius) (hn : 0 ≤ num) (minElevDiff : Fl K) :
    ∃ out, smartCore sortSites sort radius num minElevDiff ilats ilons ielevs olats olons oelevs ifields ofields = ok out ∧ Series nY nX nE out ∧
      out.length = ifields.length ∧ ∀ y < nY, ∀ x < nX, ∃ (i j : Nat) (z : Fl K) (points : List (Int × Int)),
        Nearest ilats ilons olats olons y x i j ∧ cell? oelevs y x = some z ∧ Used ielevs Y X radius num minElevDiff z i j points ∧
        ∀ t < ifields.length, ∀ e < nE, ∃ (vals : List (Fl K)) (v : Fl K), At out t y x e v ∧
          List.Forall₂ (fun p v => ∃ i j : Nat, p = ((i : Int), (j : Int)) ∧ At ifields t i j e v) points vals ∧
          (present vals = [] → v = fin (-999)) ∧ (present vals ≠ [] → v = fin (mean (present vals))) := by
  obtain ⟨near, n1, n2, n3⟩ := h.near
  have hY : 0 < Y := by
    obtain ⟨i, j, c, d, hp⟩ := h.has
    exact rect_pos h.ilat hp.1
  obtain ⟨table, t1, t2, t3⟩ := grid2_exists (Y := nY) (X := nX) (f := fun i j => smartPoints sort radius num minElevDiff Y X ielevs oelevs near i j)
    (P := fun y x points => ∃ (i j : Nat) (z : Fl K), Nearest ilats ilons olats olons y x i j ∧ cell? oelevs y x = some z ∧
      Used ielevs Y X radius num minElevDiff z i j points ∧ ∀ p ∈ points, ∃ i j : Nat, p = ((i : Int), (j : Int)) ∧ i < Y ∧ j < X) (by
    intro y hy x hx
    obtain ⟨c, hc, -⟩ := vget2_of_rect n2 hy hx
    obtain ⟨z, hz, -⟩ := vget2_of_rect hoe hy hx
    obtain ⟨i, j, rfl, hiY, hjX, hnr⟩ := n3 y x c hc
    by_cases hnear : ¬ Present z ∨ ∃ o q m, z = fin o ∧ o ≠ -999 ∧ cell? ielevs i j = some (fin q) ∧ q ≠ -999 ∧ minElevDiff = fin m ∧ m ≠ -999 ∧ |o - q| ≤ m
    · refine ⟨_, c98_nearest sort hie hc hiY hjX hz radius num hnear, i, j, z, hnr, hz, .inl ⟨rfl, hnear⟩, ?_⟩
      intro p hp
      rw [List.mem_singleton] at hp
      exact ⟨i, j, hp, hiY, hjX⟩
    · rw [not_or, not_not] at hnear
      obtain ⟨⟨o, rfl, ho'⟩, hnot⟩ := hnear
      have hfar : ∀ q m, cell? ielevs i j = some (fin q) → q ≠ -999 → minElevDiff = fin m → m ≠ -999 → m < |o - q| := by
        intro q m e1 e2 e3 e4
        by_contra hc
        exact hnot ⟨o, q, m, rfl, ho', e1, e2, e3, e4, not_lt.mp hc⟩
      obtain ⟨out, e1, e2⟩ := c98_points hsort hie hc hiY hjX hz ho' hr hn hfar
      refine ⟨out, e1, i, j, _, hnr, hz, .inr ⟨o, rfl, ho', hfar, e2⟩, ?_⟩
      intro p hp
      obtain ⟨a1, a2, a3, a4, -⟩ := e2.near p hp
      exact ⟨p.1.toNat, p.2.toNat, Prod.ext (by simp only; omega) (by simp only; omega), by omega, by omega⟩)
  obtain ⟨out, g1, g2, g3⟩ := eachStep_spec (body := fun ifield ofield => FieldC.fill ofield.nY ofield.nX ofield.nE (fun i j => vget2 table i j) (smartValue ifield) ofield)
      (P := fun f _ r => Sized nY nX nE r ∧ ∀ y < nY, ∀ x < nX, ∀ e < nE, ∃ v, r.get y x e = ok v ∧ ∃ points vals, cell? table y x = some points ∧
        List.Forall₂ (fun p v => ∃ i j : Nat, p = ((i : Int), (j : Int)) ∧ f.get i j e = ok v) points vals ∧
        (present vals = [] → v = fin (-999)) ∧ (present vals ≠ [] → v = fin (mean (present vals)))) hl (by
    intro t f g hf hg
    refine fill_spec ?_ (ho g (List.mem_of_getElem? hg))
    intro y hy x hx
    obtain ⟨points, e1, e2, i, j, z, -, -, -, e3⟩ := t3 y hy x hx
    refine ⟨points, vget2_of_cell? e1, fun e he => ?_⟩
    obtain ⟨vals, v, k1, k2, k3⟩ := c98_value (hi f (List.mem_of_getElem? hf)) (show e < E by omega) points e3
    exact ⟨v, k1, points, vals, e1, k2, k3⟩)
  have hrr : ∀ t < ifields.length, ∃ f r, ifields[t]? = some f ∧ out[t]? = some r ∧ Sized nY nX nE r ∧
      ∀ y < nY, ∀ x < nX, ∀ e < nE, ∃ v, r.get y x e = ok v ∧ ∃ points vals, cell? table y x = some points ∧
        List.Forall₂ (fun p v => ∃ i j : Nat, p = ((i : Int), (j : Int)) ∧ f.get i j e = ok v) points vals ∧
        (present vals = [] → v = fin (-999)) ∧ (present vals ≠ [] → v = fin (mean (present vals))) := by
    intro t ht
    have e1 : ifields[t]? = some ifields[t] := List.getElem?_eq_getElem ht
    have e2 : ofields[t]? = some (ofields[t]'(hl ▸ ht)) := List.getElem?_eq_getElem (hl ▸ ht)
    obtain ⟨r, k1, k2, k3⟩ := g3 t _ _ e1 e2
    exact ⟨_, r, e1, k1, k2, k3⟩
  refine ⟨out, ?_, ?_, g2, ?_⟩
  · unfold smartCore
    rw [n1, ok_bind, numX_rect h.ilat hY, ok_bind, numX_rect h.olat h.rows, ok_bind, h.olat.1, h.ilat.1, t1, ok_bind, g1]
  · intro r hr'
    obtain ⟨t, ht⟩ := List.mem_iff_getElem?.mp hr'
    obtain ⟨f, r', -, e2, e3, -⟩ := hrr t (by rw [← g2]; exact (List.getElem?_eq_some_iff.mp ht).1)
    rw [ht, Option.some.injEq] at e2
    rw [e2]
    exact e3
  · intro y hy x hx
    obtain ⟨points, e1, e2, i, j, z, e3, e4, e5, -⟩ := t3 y hy x hx
    refine ⟨i, j, z, points, e3, e4, e5, fun t ht e he => ?_⟩
    obtain ⟨f, r, k1, k2, -, k3⟩ := hrr t ht
    obtain ⟨v, m1, points', vals, m2, m3, m4⟩ := k3 y hy x hx e he
    rw [e1, Option.some.injEq] at m2
    rw [← m2] at m3
    exact ⟨vals, v, ⟨r, k2, m1⟩, m3.imp fun p v ⟨a, b, h1, h2⟩ => ⟨a, b, h1, f, k1, h2⟩, m4⟩

/-! ### Examples -/

/-- A flat distance; only for the examples. -/
local instance flatStencil : HasArcC ℚ := ⟨fun a b c d => |a - c| + |b - d|⟩

/-- Sorting by the second component. -/
def insertSecond (l : List (Nat × Fl K)) : List (Nat × Fl K) := l.insertionSort fun s t => num s.2 ≤ num t.2

theorem insertSecond_sorts : SortsSecond (insertSecond (K := K)) := by
  intro l _
  have ht : Std.Total fun (s t : Nat × Fl K) => num s.2 ≤ num t.2 := ⟨fun a b => le_total _ _⟩
  have htr : IsTrans (Nat × Fl K) fun s t => num s.2 ≤ num t.2 := ⟨fun a b c h h' => le_trans h h'⟩
  exact ⟨List.perm_insertionSort _ l, List.pairwise_insertionSort _ l⟩

/-- Two grids in the setting of the theorems about whole downscalers; one input point is without coordinates. -/
theorem gridPair_example : GridPair (K := ℚ) insertSort 1 3 1 2 [[fin 0, fin 4, fin (-999)]] [[fin 5, fin 6, fin 7]] [[fin 3, fin 1]] [[fin 5, fin 6]] := by
  refine ⟨flat_separates, fun a b c d => add_nonneg (abs_nonneg _) (abs_nonneg _), insertSort_sorts, ⟨rfl, by simp⟩, ⟨rfl, by simp⟩, ⟨rfl, by simp⟩,
    ⟨rfl, by simp⟩, by norm_num, ?_, ?_, ⟨0, 0, 0, 5, by decide +kernel, by decide +kernel, by decide +kernel, by decide +kernel⟩, ?_⟩
  · rintro i j c d ⟨h1, h2, h3, -⟩
    rcases i with _ | i
    · rcases j with _ | _ | _ | j <;> simp [cell?] at h1 h2 <;> subst h1 <;> subst h2 <;> first | (unfold OnGlobe; norm_num; done) | simp at h3
    · simp [cell?] at h1
  · rintro i j c d ⟨h1, h2, -, -⟩
    rcases i with _ | i
    · rcases j with _ | _ | j <;> simp [cell?] at h1 h2 <;> subst h1 <;> subst h2 <;> (unfold OnGlobe; norm_num)
    · simp [cell?] at h1
  · intro y hy x hx
    obtain rfl : y = 0 := by omega
    rcases x with _ | _ | x
    · exact ⟨3, 5, by decide +kernel, by decide +kernel, by decide +kernel, by decide +kernel⟩
    · exact ⟨1, 6, by decide +kernel, by decide +kernel, by decide +kernel, by decide +kernel⟩
    · omega

/-- Mean of the two nearest of a field with one member. -/
example : smartCore insertSort (insertSecond (K := ℚ)) 1 2 (fin (-999)) [[fin 0, fin 4, fin 5]] [[fin 5, fin 6, fin 6]] [[fin 10, fin 20, fin 80]]
    [[fin 3, fin 1]] [[fin 5, fin 6]] [[fin 70, fin (-999)]] [⟨[fin 1, fin 2, fin 3], 1, 3, 1⟩] [⟨[fin 0, fin 0], 1, 2, 1⟩] =
    ok [⟨[fin (5 / 2), fin 1], 1, 2, 1⟩] := by decide +kernel

example : upscaleField .mean (fin 0) [[(0, 0), (0, 1), (0, 1)]] ⟨[fin 1, fin 2, fin 3], 1, 3, 1⟩ ⟨[fin 0, (fin 0 : Fl ℚ)], 1, 2, 1⟩ =
    ok ⟨[fin 1, fin (5 / 2)], 1, 2, 1⟩ := by decide +kernel

/-- The second point of the first row has no elevation. -/
example : smartPoints (insertSecond (K := ℚ)) 1 2 (fin (-999)) 2 2 [[fin 10, fin (-999)], [fin 50, fin 30]] [[fin 40]] [[(0, 0)]] 0 0 =
    ok [(1, 0), (1, 1)] := by decide +kernel

example : upscaleValues [[(0, 0), (0, 1)], [(-999, -999), (0, 0)]] (⟨[fin 1, fin 2, fin 3, (fin 4 : Fl ℚ)], 2, 2, 1⟩ : FieldC ℚ) 0 0 0 = ok [fin 1, fin 4] := by
  decide +kernel

end Gridpp.Props
