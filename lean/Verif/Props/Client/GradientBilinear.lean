import Verif.Model.Client.GradientBilinear
import Verif.Props.Client.Gradient
import Verif.Props.Client.BilinearGrid

/-! # C101 with `downscaler=bilinear` -/

set_option linter.unusedSectionVars false

namespace Gridpp.Props
open Fl hiding MV isValid
open Res Client Spec

variable {K : Type} [Field K] [LinearOrder K] [IsStrictOrderedRing K]

/-- The value is limited to the range of the values of the input around `i`, `j`, if there are any. -/
def LimitedIfAny (ifield : FieldC K) (Y X : Nat) (R : Int) (e i j : Nat) (w : K) (v : Fl K) : Prop :=
  ∃ (places : List (Nat × Nat)) (vals : List (Fl K)), Around Y X R i j places ∧ List.Forall₂ (fun (p : Nat × Nat) u => ifield.get p.1 p.2 e = ok u) places vals ∧
    (present vals ≠ [] → (∀ q ∈ present vals, -999 < q) → ∃ u lo, v = fin u ∧ MinOf lo (present vals) ∧ lo ≤ u ∧ (∃ hi ∈ present vals, u ≤ hi) ∧
      (w ≤ lo → u = lo) ∧ (u = w ∨ u ∈ present vals))

/-- As `GradientRule` of C101, but the value, the elevation and the land area fraction to start from are those of other fields at `y`, `x`. The gradients are
those at the neighbour `i`, `j`. -/
def BlendRule [HasExp K] (o : GradientOptions K) (dE mL g0 dL fS : K) (ws : List K) (Y X nY nX : Nat) (ielevs ilafs elevs lafs oelevs olafs : List (List (Fl K)))
    (minAllowed maxAllowed : Fl K) (ifield gfield : FieldC K) (y x e i j : Nat) (b v : Fl K) : Prop :=
  (¬ Present b → v = b) ∧
  ∀ q, b = fin q → q ≠ -999 → ∃ eg lg, ElevationGradient o dE mL g0 Y X ielevs ilafs gfield e i j eg ∧
    FractionGradient o dL fS ws Y X ielevs ilafs ifield e i j eg lg ∧ (o.save = .elev → v = fin eg) ∧ (o.save = .laf → v = lg) ∧
    (o.save = .value → ∃ z z0 l l0 w, cell? oelevs y x = some z ∧ cell? elevs y x = some z0 ∧ Smoothed olafs nY nX o.lafRadius y x l ∧ cell? lafs y x = some l0 ∧
      OrBase minAllowed maxAllowed q (liftedBy o.logTransform q eg (known z) (known z0) + coastal (known l) (known l0) (known lg)) w ∧
      (o.limit = false → v = fin w) ∧ (o.limit = true → LimitedIfAny ifield Y X o.elevRadius e i j w v))

/-- The loops of the downscaler from any fields to start from. -/
theorem gradientLoop_rule [HasExp K] {o : GradientOptions K} {dE mL g0 dL fS : K} {ws : List K} (hopt : PlainOptions o dE mL g0 dL fS ws) {Y X E nY nX nE : Nat}
    {ielevs ilafs elevs lafs oelevs olafs : List (List (Fl K))} (hel : Rect Y X ielevs) (hla : Rect Y X ilafs) (a2 : Rect nY nX elevs) (b2 : Rect nY nX lafs)
    (hoe : Rect nY nX oelevs) (hol : Rect nY nX olafs) {ifield gfield base : FieldC K} (hi : Sized Y X E ifield) (hg : Sized Y X E gfield)
    (d2 : Sized nY nX nE base) (hE : nE ≤ E) {near : List (List (Int × Int))} (hnear : Rect nY nX near)
    (hin : ∀ y x c, cell? near y x = some c → ∃ i j : Nat, c = ((i : Int), (j : Int)) ∧ i < Y ∧ j < X)
    (hsea : fS ≤ 0 ∨ ∀ i j e l t, cell? ilafs i j = some l → ifield.get i j e = ok t → Present t → Present l) (minAllowed maxAllowed : Fl K) :
    ∃ out, gradientLoop o ⟨ielevs, ilafs, oelevs, olafs, elevs, lafs, ifield, gfield, minAllowed, maxAllowed⟩ near base = ok out ∧ Sized nY nX nE out ∧
      ∀ y < nY, ∀ x < nX, ∀ (i j : Nat), cell? near y x = some ((i : Int), (j : Int)) → ∀ e < nE, ∀ b, base.get y x e = ok b → ∃ v, out.get y x e = ok v ∧
        BlendRule o dE mL g0 dL fS ws Y X nY nX ielevs ilafs elevs lafs oelevs olafs minAllowed maxAllowed ifield gfield y x e i j b v := by
  unfold gradientLoop
  rw [d2.nY, d2.nX]
  -- one member
  have hmember : ∀ y < nY, ∀ x < nX, ∀ (i j : Nat), cell? near y x = some ((i : Int), (j : Int)) → ∀ f, Sized nY nX nE f → ∀ e < nE,
      ∃ f', gradientMember o ⟨ielevs, ilafs, oelevs, olafs, elevs, lafs, ifield, gfield, minAllowed, maxAllowed⟩ nY nX y x ((i : Int), (j : Int)) f e = ok f' ∧
        Sized nY nX nE f' ∧ (∀ b, f.get y x e = ok b → ∃ v, f'.get y x e = ok v ∧
          BlendRule o dE mL g0 dL fS ws Y X nY nX ielevs ilafs elevs lafs oelevs olafs minAllowed maxAllowed ifield gfield y x e i j b v) ∧
        ∀ y' x' e', ¬ (y' = y ∧ x' = x ∧ e' = e) → f'.get y' x' e' = f.get y' x' e' := by
    intro y hy x hx i j hc f hf e he
    obtain ⟨i', j', hij, hiY, hjX⟩ := hin y x _ hc
    rw [Prod.mk.injEq, Nat.cast_inj, Nat.cast_inj] at hij
    rw [← hij.1] at hiY
    rw [← hij.2] at hjX
    obtain ⟨l, l1, l2⟩ := smoothLaf_spec hol o.lafRadius hy hx
    obtain ⟨b, hb⟩ := hf.exists_get hy hx he
    unfold gradientMember
    simp only [l1, ok_bind, hb]
    by_cases hp : Present b
    · rw [isValid_iff_present.mpr hp]
      simp only [Bool.not_true, Bool.false_eq_true, if_false]
      obtain ⟨eg, g1, g2⟩ := c99_gradient_partial hopt.elevDiff hopt.minLaf hopt.default hel hla hg (show e < E by omega) i j
      obtain ⟨lg, k1, k2⟩ := c100_gradient_partial hopt hel hla hi (show e < E by omega) (by
        rcases hsea with h | h
        · exact .inl h
        · exact .inr fun i j l t => h i j e l t) eg i j
      obtain ⟨q, rfl, hq⟩ := hp
      -- the value
      have hval : ∃ v, gradientValue o ⟨ielevs, ilafs, oelevs, olafs, elevs, lafs, ifield, gfield, minAllowed, maxAllowed⟩ l (fin q) y x e ((i : Int), (j : Int)) = ok v ∧
          (o.save = .elev → v = fin eg) ∧ (o.save = .laf → v = lg) ∧
          (o.save = .value → ∃ z z0 l0 w, cell? oelevs y x = some z ∧ cell? elevs y x = some z0 ∧ cell? lafs y x = some l0 ∧
            OrBase minAllowed maxAllowed q (liftedBy o.logTransform q eg (known z) (known z0) + coastal (known l) (known l0) (known lg)) w ∧
            (o.limit = false → v = fin w) ∧ (o.limit = true → ∃ (places : List (Nat × Nat)) (vals : List (Fl K)), Around Y X o.elevRadius i j places ∧
              List.Forall₂ (fun (p : Nat × Nat) u => ifield.get p.1 p.2 e = ok u) places vals ∧
              (present vals ≠ [] → (∀ q ∈ present vals, -999 < q) → ∃ u lo, v = fin u ∧ MinOf lo (present vals) ∧ lo ≤ u ∧ (∃ hi ∈ present vals, u ≤ hi) ∧
                (w ≤ lo → u = lo) ∧ (u = w ∨ u ∈ present vals)))) := by
        unfold gradientValue
        simp only [hi.nY, hi.nX, g1, ok_bind, k1]
        cases hs : o.save with
        | elev => exact ⟨_, rfl, fun _ => rfl, fun h => by simp at h, fun h => by simp at h⟩
        | laf => exact ⟨_, rfl, fun h => by simp at h, fun _ => rfl, fun h => by simp at h⟩
        | value =>
          simp only
          obtain ⟨z0, z1, z2⟩ := vget2_of_rect a2 hy hx
          obtain ⟨l0, m1, m2⟩ := vget2_of_rect b2 hy hx
          obtain ⟨z, w1, w2⟩ := vget2_of_rect hoe hy hx
          simp only [z2, m2, w2, ok_bind, applyGradients_spec]
          obtain ⟨w, u1, u2⟩ := inDomain_spec minAllowed maxAllowed q
            (liftedBy o.logTransform q eg (known z) (known z0) + coastal (known l) (known l0) (known lg))
          rw [u1]
          cases hlim : o.limit with
          | false =>
            exact ⟨fin w, by simp, fun h => by simp at h, fun h => by simp at h, fun _ => ⟨z, z0, l0, w, w1, z1, m1, u2, fun _ => rfl, fun h => by simp at h⟩⟩
          | true =>
            obtain ⟨places, vals, v, x1, x2, x3, x4⟩ := limitValue_spec hi (show e < E by omega) o.elevRadius i j w
            exact ⟨v, by simpa using x1, fun h => by simp at h, fun h => by simp at h, fun _ => ⟨z, z0, l0, w, w1, z1, m1, u2, fun h => by simp at h,
              fun _ => ⟨places, vals, x2, x3, x4⟩⟩⟩
      obtain ⟨v, v1, v2, v3, v4⟩ := hval
      obtain ⟨f', f1, f2, f3, f4⟩ := hf.set hy hx he v
      refine ⟨f', by simp only [v1, ok_bind, f1], f2, ?_, f4⟩
      intro b' hb''
      rw [Res.ok.injEq] at hb''
      refine ⟨v, f3, fun hnp => absurd ⟨q, hb''.symm, hq⟩ hnp, ?_⟩
      intro q' e1 _
      rw [← hb'', Fl.fin.injEq] at e1
      rw [← e1]
      refine ⟨eg, lg, g2, k2, v2, v3, fun hs => ?_⟩
      obtain ⟨z, z0, l0, w, c1, c2, c3, c4, c5, c6⟩ := v4 hs
      exact ⟨z, z0, l, l0, w, c1, c2, l2, c3, c4, c5, c6⟩
    · rw [isValid_false_iff.mpr hp]
      refine ⟨f, by simp, hf, fun b' hb'' => ⟨b, hb, ?_⟩, fun _ _ _ _ => rfl⟩
      rw [Res.ok.injEq] at hb''
      rw [← hb'']
      exact ⟨fun _ => rfl, fun q e1 e2 => absurd ⟨q, e1, e2⟩ hp⟩
  -- the loops
  obtain ⟨out, r1, r2, r3⟩ := forCells_spec (Y := nY) (X := nX) (E := nE)
    (gradientCell o ⟨ielevs, ilafs, oelevs, olafs, elevs, lafs, ifield, gfield, minAllowed, maxAllowed⟩ near)
    (fun y x old new => ∀ i j : Nat, cell? near y x = some ((i : Int), (j : Int)) → ∀ e < nE, ∀ b, old e = ok b → ∃ v, new e = ok v ∧
      BlendRule o dE mL g0 dL fS ws Y X nY nX ielevs ilafs elevs lafs oelevs olafs minAllowed maxAllowed ifield gfield y x e i j b v) (by
    intro f hf y hy x hx
    obtain ⟨c, hc, hc'⟩ := vget2_of_rect hnear hy hx
    obtain ⟨i, j, rfl, hiY, hjX⟩ := hin y x c hc
    obtain ⟨f', f1, f2, f3, f4, f5⟩ := forMembers_spec (Y := nY) (X := nX) (E := nE) y x nE
      (gradientMember o ⟨ielevs, ilafs, oelevs, olafs, elevs, lafs, ifield, gfield, minAllowed, maxAllowed⟩ nY nX y x ((i : Int), (j : Int)))
      (fun e old new => ∀ b, old = ok b → ∃ v, new = ok v ∧
        BlendRule o dE mL g0 dL fS ws Y X nY nX ielevs ilafs elevs lafs oelevs olafs minAllowed maxAllowed ifield gfield y x e i j b v)
      (hmember y hy x hx i j hc) f hf
    refine ⟨f', ?_, f2, ?_, f5⟩
    · have hl : i < ielevs.length := by rw [hel.1]; exact hiY
      unfold gradientCell
      simp only [hc', ok_bind]
      rw [show (decide ((0 : Int) ≤ (i : Int)) && decide ((i : Int) < (ielevs.length : Int))) = true by simp [hl], assert_true, ok_bind,
        vget_eq_ok_of_lt hl, ok_bind, hel.2 _ (List.getElem_mem hl),
        show (decide ((0 : Int) ≤ (j : Int)) && decide ((j : Int) < (X : Int))) = true by simp [hjX], assert_true, ok_bind, hf.nE, hf.nY, hf.nX]
      exact f1
    · intro i' j' hc2 e he b hold
      rw [hc, Option.some.injEq, Prod.mk.injEq, Nat.cast_inj, Nat.cast_inj] at hc2
      rw [← hc2.1, ← hc2.2]
      exact f3 e he b hold) base d2
  exact ⟨out, r1, r2, fun y hy x hx i j hc e he b hb => r3 y hy x hx i j hc e he b hb⟩

/-- The interpolation of a matrix in the cell at (r, c): the bilinear value, or the value of the neighbour if one of the four values is missing. -/
def InterpolatesPlace (a : List (List (Fl K))) (r c i j : Nat) (α β : K) (v : Fl K) : Prop :=
  ∃ vA vB vC vD, (cell? a r c = some vA ∧ cell? a (r + 1) c = some vB ∧ cell? a (r + 1) (c + 1) = some vC ∧ cell? a r (c + 1) = some vD) ∧
    (∀ a b c d : K, vA = fin a ∧ a ≠ -999 → vB = fin b ∧ b ≠ -999 → vC = fin c ∧ c ≠ -999 → vD = fin d ∧ d ≠ -999 → v = fin (bilinearValue α β a b c d)) ∧
    (¬ (Present vA ∧ Present vB ∧ Present vC ∧ Present vD) → cell? a i j = some v)

/-- What the place `y`, `x` starts from: the neighbour, or interpolations of value, elevation and land area fraction in the same cell at the same coordinates. -/
def StartsFrom (Y X nE : Nat) (ielevs ilafs : List (List (Fl K))) (ifield : FieldC K) (i j : Nat) (z0 l0 : Fl K) (b : Nat → Res (Fl K)) : Prop :=
  (cell? ielevs i j = some z0 ∧ cell? ilafs i j = some l0 ∧ ∀ e < nE, b e = ifield.get i j e) ∨
  ∃ r c : Nat, r + 1 < Y ∧ c + 1 < X ∧ (i = r ∨ i = r + 1) ∧ (j = c ∨ j = c + 1) ∧ ∃ α β : K, 0 ≤ α ∧ α ≤ 1 ∧ 0 ≤ β ∧ β ≤ 1 ∧
    InterpolatesPlace ielevs r c i j α β z0 ∧ InterpolatesPlace ilafs r c i j α β l0 ∧ ∀ e < nE, Interpolates ifield r c e α β (b e)

theorem bilinearPlace_some [HasSqrt K] {Y X : Nat} {a : List (List (Fl K))} (ha : Rect Y X a) {i j : Nat} (hi : i < Y) (hj : j < X) {lat lon : Fl K} {r c : Nat}
    (hr1 : r + 1 < Y) (hc1 : c + 1 < X) {q : Quad K} {α β : K} (hst : calcST lon lat q = ok (fin α, fin (1 - β)))
    (hr : -(20 / 100) ≤ α ∧ α ≤ 117 / 100 ∧ -(17 / 100) ≤ β ∧ β ≤ 120 / 100) {v : Fl K}
    (h : bilinearPlace a i j lat lon (some (⟨r, c, (r : Int) + 1, (c : Int) + 1⟩, q)) = ok v) : InterpolatesPlace a r c i j (toUnit α) (toUnit β) v := by
  obtain ⟨vA, a1, a2⟩ := vget2_of_rect ha (show r < Y by omega) (show c < X by omega)
  obtain ⟨vB, b1, b2⟩ := vget2_of_rect ha (show r + 1 < Y by omega) (show c < X by omega)
  obtain ⟨vC, c1, c2⟩ := vget2_of_rect ha (show r + 1 < Y by omega) (show c + 1 < X by omega)
  obtain ⟨vD, d1, d2⟩ := vget2_of_rect ha (show r < Y by omega) (show c + 1 < X by omega)
  obtain ⟨n, n1, n2⟩ := vget2_of_rect ha hi hj
  unfold bilinearPlace at h
  simp only at h
  rw [show (r : Int) + 1 = ((r + 1 : Nat) : Int) by push_cast; rfl, show (c : Int) + 1 = ((c + 1 : Nat) : Int) by push_cast; rfl,
    a2, ok_bind, b2, ok_bind, d2, ok_bind, c2, ok_bind, n2] at h
  refine ⟨vA, vB, vC, vD, ⟨a1, b1, c1, d1⟩, ?_, ?_⟩
  · rintro a b c d ⟨rfl, ha⟩ ⟨rfl, hb⟩ ⟨rfl, hc⟩ ⟨rfl, hd⟩
    have p : ∀ z : K, z ≠ -999 → Client.isValid (fin z) = true := fun z hz => isValid_iff_present.mpr ⟨z, rfl, hz⟩
    rw [p a ha, p b hb, p c hc, p d hd, if_pos (by simp), bilinearC_of_st hst hr a b c d, Res.ok.injEq] at h
    exact h.symm
  · intro hn
    rw [if_neg, Res.ok.injEq] at h
    · rw [n1, h]
    · simp only [Bool.and_eq_true, isValid_iff_present]
      tauto

/-- **C101** (one field, `downscaler=bilinear`). If the interpolations of `DownscalerBilinear` do not fail (see C116 for when they do), each member of each
output point gets its interpolated value, moved from the interpolated elevation and land area fraction to those of the point with the gradients at the nearest input
point; the three interpolations use the same cell and the same coordinates. Missing: as for `c101_field_partial`. -/
theorem c101_bilinear_partial [HasExp K] [HasSqrt K] {fall : Res Unit} {o : GradientOptions K} {dE mL g0 dL fS : K} {ws : List K} (hopt : PlainOptions o dE mL g0 dL fS ws)
    {Y X E nY nX nE : Nat} {ilats ilons ielevs ilafs olats olons oelevs olafs : List (List (Fl K))} (hlat : Rect Y X ilats) (hlon : Rect Y X ilons)
    (hel : Rect Y X ielevs) (hla : Rect Y X ilafs) (holat : Rect nY nX olats) (hoe : Rect nY nX oelevs) (hol : Rect nY nX olafs)
    (hn : 0 < nY) {ifield gfield ofield : FieldC K} (hi : Sized Y X E ifield) (hg : Sized Y X E gfield) (ho : Sized nY nX nE ofield)
    (hE : nE ≤ E) {near : List (List (Int × Int))} (hnear : Rect nY nX near)
    (hin : ∀ y x c, cell? near y x = some c → ∃ i j : Nat, c = ((i : Int), (j : Int)) ∧ i < Y ∧ j < X)
    (hsea : fS ≤ 0 ∨ ∀ i j e l t, cell? ilafs i j = some l → ifield.get i j e = ok t → Present t → Present l) (minAllowed maxAllowed : Fl K)
    {elevs lafs : List (List (Fl K))} {base : FieldC K} (h1 : bilinearVec fall ielevs ilats ilons olats olons near = ok elevs)
    (h2 : bilinearVec fall ilafs ilats ilons olats olons near = ok lafs) (h3 : bilinearField fall ilats ilons olats olons near ifield ofield = ok base) :
    ∃ out, gradientFieldBilinear fall o near ilats ilons ielevs ilafs olats olons oelevs olafs minAllowed maxAllowed ifield gfield ofield = ok out ∧
      Sized nY nX nE out ∧ ∀ y < nY, ∀ x < nX, ∃ (i j : Nat) (z0 l0 : Fl K), cell? near y x = some ((i : Int), (j : Int)) ∧
        cell? elevs y x = some z0 ∧ cell? lafs y x = some l0 ∧ StartsFrom Y X nE ielevs ilafs ifield i j z0 l0 (base.get y x) ∧
        ∀ e < nE, ∃ b v, base.get y x e = ok b ∧ out.get y x e = ok v ∧
          BlendRule o dE mL g0 dL fS ws Y X nY nX ielevs ilafs elevs lafs oelevs olafs minAllowed maxAllowed ifield gfield y x e i j b v := by
  have hvec : ∀ {a res : List (List (Fl K))}, bilinearVec fall a ilats ilons olats olons near = ok res → Rect nY nX res ∧ ∀ y < nY, ∀ x < nX, ∃ v,
      cell? res y x = some v ∧ (do
        let c ← vget2 near y x
        let lat ← vget2 olats y x
        let lon ← vget2 olons y x
        let cell ← findQuad fall lat lon ilats ilons c.1 c.2
        bilinearPlace a c.1 c.2 lat lon cell) = ok v := by
    intro a res h
    unfold bilinearVec at h
    rw [numX_rect holat hn, ok_bind, holat.1] at h
    exact grid2_eq_ok h
  obtain ⟨e1, e2⟩ := hvec h1
  obtain ⟨f1, f2⟩ := hvec h2
  have hbase : Sized nY nX nE base ∧ ∀ y < nY, ∀ x < nX, ∃ c lat lon cell, vget2 near (y : Int) (x : Int) = ok c ∧ vget2 olats (y : Int) (x : Int) = ok lat ∧
      vget2 olons (y : Int) (x : Int) = ok lon ∧ findQuad fall lat lon ilats ilons c.1 c.2 = ok cell ∧
      ∀ e < nE, ∃ v, bilinearMember ifield c.1 c.2 lat lon cell e = ok v ∧ base.get y x e = ok v := by
    have h := h3
    unfold bilinearField at h
    rw [ho.nY, ho.nX, ho.nE] at h
    refine forCells_partial _ (fun y x w => ∃ c lat lon cell, vget2 near (y : Int) (x : Int) = ok c ∧ vget2 olats (y : Int) (x : Int) = ok lat ∧
      vget2 olons (y : Int) (x : Int) = ok lon ∧ findQuad fall lat lon ilats ilons c.1 c.2 = ok cell ∧
      ∀ e < nE, ∃ v, bilinearMember ifield c.1 c.2 lat lon cell e = ok v ∧ w e = ok v) ?_ ofield base ho h
    intro f f' hf y hy x hx hb
    obtain ⟨cc, hcc, hb⟩ := bind_eq_ok.mp hb
    obtain ⟨lat, hlatv, hb⟩ := bind_eq_ok.mp hb
    obtain ⟨lon, hlonv, hb⟩ := bind_eq_ok.mp hb
    obtain ⟨cell, hcell, hb⟩ := bind_eq_ok.mp hb
    obtain ⟨hs, hval, hframe⟩ := storeMembers_partial hy hx _ f f' hf hb
    exact ⟨hs, ⟨cc, lat, lon, cell, hcc, hlatv, hlonv, hcell, hval⟩, hframe⟩
  obtain ⟨k1, k2⟩ := hbase
  obtain ⟨out, o1, o2, o3⟩ := gradientLoop_rule hopt hel hla e1 f1 hoe hol hi hg k1 hE hnear hin hsea minAllowed maxAllowed
  refine ⟨out, by unfold gradientFieldBilinear; rw [h1, ok_bind, h2, ok_bind, h3, ok_bind, o1], o2, ?_⟩
  intro y hy x hx
  obtain ⟨c, hc, hc'⟩ := vget2_of_rect hnear hy hx
  obtain ⟨i, j, rfl, hiY, hjX⟩ := hin y x c hc
  obtain ⟨z0, z1, z2⟩ := e2 y hy x hx
  obtain ⟨l0, l1, l2⟩ := f2 y hy x hx
  obtain ⟨c, lat, lon, cell, m1, m2, m3, m4, m5⟩ := k2 y hy x hx
  rw [hc', Res.ok.injEq] at m1
  subst m1
  rw [hc', ok_bind, m2, ok_bind, m3, ok_bind, m4, ok_bind] at z2 l2
  refine ⟨i, j, z0, l0, hc, z1, l1, ?_, fun e he => ?_⟩
  · unfold findQuad at m4
    obtain ⟨r, hr, hcell⟩ := bind_eq_ok.mp m4
    obtain ⟨-, hgood⟩ := findCoords_ok hlat hlon hr
    cases r with
    | none =>
      simp only [Res.ok.injEq] at hcell
      subst hcell
      refine .inl ⟨?_, ?_, fun e he => ?_⟩
      · obtain ⟨u, u1, u2⟩ := vget2_of_rect hel hiY hjX
        have : vget2 ielevs (i : Int) (j : Int) = ok z0 := z2
        rw [u2, Res.ok.injEq] at this
        rw [u1, this]
      · obtain ⟨u, u1, u2⟩ := vget2_of_rect hla hiY hjX
        have : vget2 ilafs (i : Int) (j : Int) = ok l0 := l2
        rw [u2, Res.ok.injEq] at this
        rw [u1, this]
      · obtain ⟨v, w1, w2⟩ := m5 e he
        have : ifield.getInt (i : Int) (j : Int) e = ok v := w1
        rw [getInt_cast] at this
        rw [w2, this]
    | some b =>
      simp only at hcell
      obtain ⟨q, hq, hcell⟩ := bind_eq_ok.mp hcell
      rw [Res.ok.injEq] at hcell
      subst hcell
      obtain ⟨r, c, q', s, t, rfl, hr1, hc1, hir, hjc, hq', hst, s0, s1, t0, t1⟩ := hgood b rfl
      rw [hq, Res.ok.injEq] at hq'
      subst hq'
      have hst' : calcST lon lat q = ok (fin s, fin (1 - (1 - t))) := by rw [hst]; congr 3; ring
      have htol : -(20 / 100) ≤ s ∧ s ≤ 117 / 100 ∧ -(17 / 100) ≤ 1 - t ∧ 1 - t ≤ 120 / 100 := by
        refine ⟨?_, ?_, ?_, ?_⟩ <;> linarith
      have hs' := toUnit_range s
      have ht' := toUnit_range (1 - t)
      refine .inr ⟨r, c, hr1, hc1, by simp only at hir; omega, by simp only at hjc; omega, toUnit s, toUnit (1 - t), hs'.1, hs'.2, ht'.1, ht'.2,
        bilinearPlace_some hel hiY hjX hr1 hc1 hst' htol z2, bilinearPlace_some hla hiY hjX hr1 hc1 hst' htol l2, fun e he => ?_⟩
      obtain ⟨v, w1, w2⟩ := m5 e he
      obtain ⟨vA, g1⟩ := hi.exists_get (show r < Y by omega) (show c < X by omega) (show e < E by omega)
      obtain ⟨vB, g2⟩ := hi.exists_get (show r + 1 < Y by omega) (show c < X by omega) (show e < E by omega)
      obtain ⟨vC, g3⟩ := hi.exists_get (show r + 1 < Y by omega) (show c + 1 < X by omega) (show e < E by omega)
      obtain ⟨vD, g4⟩ := hi.exists_get (show r < Y by omega) (show c + 1 < X by omega) (show e < E by omega)
      have := bilinearMember_some (I := (i : Int)) (J := (j : Int)) hst' htol (⟨g1, g2, g3, g4⟩ : CellHas ifield r c e vA vB vC vD)
      rw [w2, ← w1]
      exact this
  · obtain ⟨b, -, hb⟩ := m5 e he
    obtain ⟨v, v1, v2⟩ := o3 y hy x hx i j hc e he b hb
    exact ⟨b, v, hb, v1, v2⟩

/-- **C101** (`downscaler=bilinear`, `limit`). If a value to start from is not missing, neither is that of the neighbour, so that the range of `LimitedIfAny` is
not empty for a radius that is not negative. -/
theorem c101_bilinear_limit {Y X nE : Nat} {ielevs ilafs : List (List (Fl K))} {ifield : FieldC K} {i j : Nat} {z0 l0 : Fl K} {b : Nat → Res (Fl K)}
    (h : StartsFrom Y X nE ielevs ilafs ifield i j z0 l0 b) {e : Nat} (he : e < nE) {w : Fl K} (hb : b e = ok w) (hw : Present w) :
    ∃ u, ifield.get i j e = ok u ∧ Present u := by
  obtain ⟨-, -, h⟩ | ⟨r, c, -, -, hi, hj, α, β, -, -, -, -, -, -, h⟩ := h
  · exact ⟨w, by rw [← h e he, hb], hw⟩
  · obtain ⟨vA, vB, vC, vD, ⟨g1, g2, g3, g4⟩, -, h2⟩ := h e he
    by_cases hp : Present vA ∧ Present vB ∧ Present vC ∧ Present vD
    · obtain ⟨p1, p2, p3, p4⟩ := hp
      rcases hi with rfl | rfl <;> rcases hj with rfl | rfl
      · exact ⟨_, g1, p1⟩
      · exact ⟨_, g4, p4⟩
      · exact ⟨_, g2, p2⟩
      · exact ⟨_, g3, p3⟩
    · have := h2 hp
      rw [hb, Res.ok.injEq] at this
      obtain ⟨q, rfl, hq⟩ := hw
      rw [Fl.fin.injEq] at this
      exact absurd this hq

/-- A place in the middle of a cell with elevations 0 and 100: the interpolated value 3 at the interpolated elevation 50 is moved to 150 with the constant
gradient 1/100. The interpolations that `c101_bilinear_partial` supposes give results. -/
theorem c101_case_bilinear :
    bilinearVec (K := ℚ) (ok ()) [[fin 0, fin 100], [fin 0, fin 100]] [[fin 0, fin 0], [fin 1, fin 1]] [[fin 0, fin 1], [fin 0, fin 1]]
      [[fin (1 / 2)]] [[fin (1 / 2)]] [[(1, 0)]] = ok [[fin 50]] ∧
    bilinearField (K := ℚ) (ok ()) [[fin 0, fin 0], [fin 1, fin 1]] [[fin 0, fin 1], [fin 0, fin 1]] [[fin (1 / 2)]] [[fin (1 / 2)]]
      [[(1, 0)]] ⟨[fin 5, fin 5, fin 1, fin 1], 2, 2, 1⟩ ⟨[fin 0], 1, 1, 1⟩ = ok ⟨[fin 3], 1, 1, 1⟩ ∧
    gradientFieldBilinear (K := ℚ) (ok ()) ⟨1, fin (-999), fin (-999), false, fin (1 / 100), fin 0, fin 30, fin 0, 2, 0, fin (1 / 10), fin 0, [], [], .value, false⟩
      [[(1, 0)]] [[fin 0, fin 0], [fin 1, fin 1]] [[fin 0, fin 1], [fin 0, fin 1]] [[fin 0, fin 100], [fin 0, fin 100]] [[fin 1, fin 1], [fin 1, fin 1]]
      [[fin (1 / 2)]] [[fin (1 / 2)]] [[fin 150]] [[fin 1]] (fin (-999)) (fin (-999)) ⟨[fin 5, fin 5, fin 1, fin 1], 2, 2, 1⟩
      ⟨[fin 5, fin 5, fin 1, fin 1], 2, 2, 1⟩ ⟨[fin 0], 1, 1, 1⟩ = ok ⟨[fin 4], 1, 1, 1⟩ := by decide +kernel

/-- The options of this case are plain. -/
theorem c101_case_options : PlainOptions (K := ℚ)
    ⟨1, fin (-999), fin (-999), false, fin (1 / 100), fin 0, fin 30, fin 0, 2, 0, fin (1 / 10), fin 0, [], [], .value, false⟩ 30 0 0 (1 / 10) 0 [] where
  elevDiff := rfl
  minLaf := rfl
  default := rfl
  lafDiff := rfl
  lafPos := by norm_num
  sea := rfl
  sorted := List.Pairwise.nil
  weights := rfl
  len := rfl
  pos := by simp

end Gridpp.Props
