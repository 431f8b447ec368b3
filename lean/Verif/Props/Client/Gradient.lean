import Verif.Lemmas.Client.Gradient
import Verif.Props.Client.Stencil
import Verif.Props.Client.NearestDownscaler

/-! # C99, C100, C101: the gradient downscaler of the client -/

set_option linter.unusedSectionVars false

namespace Gridpp.Props
open Fl hiding MV isValid
open Res Client Spec

variable {K : Type} [Field K] [LinearOrder K] [IsStrictOrderedRing K]

/-- The options hold numbers, the radii do not decrease, and there is a positive weight for each radius. -/
structure PlainOptions (o : GradientOptions K) (dE mL g0 dL fS : K) (ws : List K) : Prop where
  elevDiff : o.minElevDiff = fin dE
  minLaf : o.minLafForElevGradient = fin mL
  default : o.defaultElevGradient = fin g0
  lafDiff : o.minLafDiff = fin dL
  lafPos : 0 < dL
  sea : o.minFracSeaPoints = fin fS
  sorted : o.lafSearchRadii.Pairwise (· ≤ ·)
  weights : o.lafWeights = ws.map fin
  len : ws.length = o.lafSearchRadii.length
  pos : ∀ w ∈ ws, 0 < w

/-! ### C99: the elevation gradient -/

/-- The elevation gradient `eg` around the input point `i`, `j`: the constant gradient if there is one; otherwise the slope of the
regression of the value (or its logarithm) on the elevation over the points that count, if there are enough of them and they span a
sufficient range of elevations; otherwise the default. In each case it is brought into the bounds that are given. The regression is not
used either if the sum of the squares of the elevations is the square of their sum. -/
def ElevationGradient [HasExp K] (o : GradientOptions K) (dE mL g0 : K) (Y X : Nat) (ielevs ilafs : List (List (Fl K))) (gfield : FieldC K) (e i j : Nat)
    (eg : K) : Prop :=
  (∀ q, o.constantElevGradient = fin q → q ≠ -999 → Bounded o.minElevGradient o.maxElevGradient q eg) ∧
  (¬ Present o.constantElevGradient → ∃ (places : List (Nat × Nat)) (points : List (Fl K × Fl K × Fl K)), Around Y X o.elevRadius i j places ∧
    List.Forall₂ (fun (p : Nat × Nat) b => cell? ielevs p.1 p.2 = some b.1 ∧ gfield.get p.1 p.2 e = ok b.2.1 ∧ cell? ilafs p.1 p.2 = some b.2.2) places points ∧
    ∃ ps, ps = points.filterMap (usable o.logTransform mL) ∧
      (Fits o.minNumPoints dE ps ∧ (ps.map fun p => p.1 * p.1).sum ≠ (ps.map Prod.fst).sum * (ps.map Prod.fst).sum ∧ slope ps ≠ -999 →
        Bounded o.minElevGradient o.maxElevGradient (slope ps) eg) ∧
      (¬ (Fits o.minNumPoints dE ps ∧ (ps.map fun p => p.1 * p.1).sum ≠ (ps.map Prod.fst).sum * (ps.map Prod.fst).sum ∧ slope ps ≠ -999) →
        Bounded o.minElevGradient o.maxElevGradient g0 eg))

/-- **C99.** -/
theorem c99_gradient_partial [HasExp K] {o : GradientOptions K} {dE mL g0 : K} (hd : o.minElevDiff = fin dE) (hm : o.minLafForElevGradient = fin mL)
    (h0 : o.defaultElevGradient = fin g0) {Y X E : Nat} {ielevs ilafs : List (List (Fl K))} (hel : Rect Y X ielevs) (hl : Rect Y X ilafs)
    {gfield : FieldC K} (hg : Sized Y X E gfield) {e : Nat} (he : e < E) (i j : Nat) :
    ∃ eg, calcElevGradient o Y X ielevs ilafs gfield e ((i : Int), (j : Int)) = ok (fin eg) ∧ ElevationGradient o dE mL g0 Y X ielevs ilafs gfield e i j eg := by
  unfold calcElevGradient
  by_cases hc : Present o.constantElevGradient
  · rw [if_pos (isValid_iff_present.mpr hc)]
    obtain ⟨q, hq, hq'⟩ := hc
    obtain ⟨v, h1, h2⟩ := elevCheck_bounded (o := o) (g := o.constantElevGradient) (q := q) (by
      rw [isValid_iff_present.mpr ⟨q, hq, hq'⟩, hq]
      rfl)
    refine ⟨v, by rw [h1], fun q' e1 _ => ?_, fun hn => absurd ⟨q, hq, hq'⟩ hn⟩
    rw [hq, Fl.fin.injEq] at e1
    rw [← e1]
    exact h2
  · rw [if_neg (by rw [isValid_iff_present]; exact hc)]
    obtain ⟨bs, b1, b2⟩ := stencil_read (read := elevRead ielevs ilafs gfield e) (P := fun m n b => cell? ielevs m n = some b.1 ∧
      gfield.get m n e = ok b.2.1 ∧ cell? ilafs m n = some b.2.2) (fun m hm n hn => elevRead_spec hel hl hg he hm hn) o.elevRadius ((i : Int), (j : Int))
    obtain ⟨places, p1, p2⟩ := stencil_places b2
    have hloop : elevLoop o Y X ielevs ilafs gfield e ((i : Int), (j : Int)) = ok (bs.foldl (elevUpdate o) ⟨0, 0, 0, 0, 0, Client.MV, Client.MV⟩) :=
      foldM_read b1 _
    rw [hloop, ok_bind]
    have hinv := elevFold_inv hm bs
    obtain ⟨g, g1, g2, g3⟩ := elevFit_spec hd hinv
    rw [g1, ok_bind]
    generalize hps : bs.filterMap (usable o.logTransform mL) = ps at *
    by_cases hf : Fits o.minNumPoints dE ps ∧ (ps.map fun p => p.1 * p.1).sum ≠ (ps.map Prod.fst).sum * (ps.map Prod.fst).sum ∧ slope ps ≠ -999
    · obtain ⟨v, k1, k2⟩ := elevCheck_bounded (o := o) (g := g) (q := slope ps) (by
        rw [g2 ⟨hf.1, hf.2.1⟩, isValid_iff_present.mpr ⟨_, rfl, hf.2.2⟩]
        rfl)
      exact ⟨v, by rw [k1], fun q e1 e2 => absurd ⟨q, e1, e2⟩ hc, fun _ => ⟨places, bs, p1, p2, ps, hps.symm, fun _ => k2, fun hn => absurd hf hn⟩⟩
    · have hmiss : ¬ Present g := by
        by_cases hf' : Fits o.minNumPoints dE ps ∧ (ps.map fun p => p.1 * p.1).sum ≠ (ps.map Prod.fst).sum * (ps.map Prod.fst).sum
        · rw [g2 hf']
          rintro ⟨q, e1, e2⟩
          rw [Fl.fin.injEq] at e1
          rw [← e1] at e2
          exact hf ⟨hf'.1, hf'.2, e2⟩
        · rw [g3 hf']
          exact not_present_MV
      obtain ⟨v, k1, k2⟩ := elevCheck_bounded (o := o) (g := g) (q := g0) (by
        rw [isValid_false_iff.mpr hmiss, h0]
        rfl)
      exact ⟨v, by rw [k1], fun q e1 e2 => absurd ⟨q, e1, e2⟩ hc, fun _ => ⟨places, bs, p1, p2, ps, hps.symm, fun hn => absurd hn hf, fun _ => k2⟩⟩

/-- **C99** (a lapse rate is found). If the value depends affinely on the elevation at the points that count, the regression gives that
dependence. -/
theorem c99_lapse {ps : List (K × K)} {a g : K} {n : Int} {d : K} (hf : Fits n d ps) (hlin : ∀ p ∈ ps, p.2 = a + g * p.1) : slope ps = g :=
  slope_affine hf.2.2 hlin

/-! ### C100: the gradient of the land area fraction -/

/-- The gradient of the land area fraction around the input point `i`, `j`: the weighted mean of the gradients of those neighbourhoods that
have one; the missing value if none has (or if the weighted sum happens to be -999). -/
def FractionGradient (o : GradientOptions K) (dL fS : K) (ws : List K) (Y X : Nat) (ielevs ilafs : List (List (Fl K))) (ifield : FieldC K) (e i j : Nat)
    (eg : K) (lg : Fl K) : Prop :=
  ∃ gs : List (Option K), gs.length = o.lafSearchRadii.length ∧
    (∀ (k : Nat) R, o.lafSearchRadii[k]? = some R → ∃ (g : Option K) (places : List (Nat × Nat)) (points : List (Fl K × Fl K × Fl K)), gs[k]? = some g ∧
      Around Y X R i j places ∧
      List.Forall₂ (fun (p : Nat × Nat) b => cell? ilafs p.1 p.2 = some b.1 ∧ cell? ielevs p.1 p.2 = some b.2.1 ∧ ifield.get p.1 p.2 e = ok b.2.2) places points ∧
      FractionRule dL fS eg points g) ∧
    (weighted gs ws = [] ∨ ((weighted gs ws).map fun p => p.1 * p.2).sum = -999 → lg = fin (-999)) ∧
    (weighted gs ws ≠ [] → ((weighted gs ws).map fun p => p.1 * p.2).sum ≠ -999 →
      lg = fin (((weighted gs ws).map fun p => p.1 * p.2).sum / ((weighted gs ws).map Prod.snd).sum))

/-- **C100.** -/
theorem c100_gradient_partial {o : GradientOptions K} {dE mL g0 dL fS : K} {ws : List K} (ho : PlainOptions o dE mL g0 dL fS ws) {Y X E : Nat}
    {ielevs ilafs : List (List (Fl K))} (hel : Rect Y X ielevs) (hl : Rect Y X ilafs) {ifield : FieldC K} (hi : Sized Y X E ifield) {e : Nat}
    (he : e < E) (hsea : fS ≤ 0 ∨ ∀ i j l t, cell? ilafs i j = some l → ifield.get i j e = ok t → Present t → Present l) (eg : K) (i j : Nat) :
    ∃ lg, lafGradientOf o Y X ielevs ilafs ifield e ((i : Int), (j : Int)) (fin eg) = ok lg ∧
      FractionGradient o dL fS ws Y X ielevs ilafs ifield e i j eg lg := by
  obtain ⟨t, gs, h1, h2, h3, h4, h5, h6, -⟩ := lafRadii_spec (eg := eg) ho.lafDiff ho.lafPos ho.sea hel hl hi he ((i : Int), (j : Int)) (by
    rcases hsea with h | h
    · exact .inl h
    · exact .inr fun i j l t e1 e2 hg => given_iff.mpr (h i j l t e1 e2 (given_iff.mp hg))) ho.sorted ho.weights ho.len _ le_rfl
  rw [List.take_of_length_le (by rw [ho.len])] at h4 h5 h6
  have hcalc : lafGradientOf o Y X ielevs ilafs ifield e ((i : Int), (j : Int)) (fin eg) =
      ok (if decide (t.n = 0) || !Client.isValid t.value then Client.MV else t.value / t.weight) := by
    unfold lafGradientOf
    by_cases hlen : 0 < o.lafSearchRadii.length
    · rw [if_pos hlen]
      unfold calcLafGradient
      rw [h1, ok_bind]
    · rw [if_neg hlen]
      have hgs : gs = [] := by
        rw [← List.length_eq_zero_iff]
        omega
      rw [h6, hgs]
      rfl
  refine ⟨_, hcalc, gs, h2, ?_, ?_, ?_⟩
  · intro k R hR
    obtain ⟨R', g, e1, e2, bs, e3, e4⟩ := h3 k (List.getElem?_eq_some_iff.mp hR).1
    rw [hR, Option.some.injEq] at e1
    rw [← e1] at e3
    obtain ⟨places, p1, p2⟩ := stencil_places (P := fun m n (b : Fl K × Fl K × Fl K) => cell? ilafs m n = some b.1 ∧ cell? ielevs m n = some b.2.1 ∧ ifield.get m n e = ok b.2.2) e3
    exact ⟨g, places, bs, e2, p1, p2, e4⟩
  · intro hc
    rw [if_pos]
    · rfl
    · rw [Bool.or_eq_true]
      rcases hc with hc | hc
      · left
        rw [h6, hc]
        rfl
      · right
        rw [h4, hc]
        simp [Client.isValid]
  · intro hne hns
    have hpos : 0 < ((weighted gs ws).map Prod.snd).sum := by
      have : ∀ p ∈ weighted gs ws, 0 < p.2 := by
        intro p hp
        unfold weighted at hp
        obtain ⟨a, ha, hb⟩ := List.mem_filterMap.mp hp
        obtain ⟨g, -, rfl⟩ := Option.map_eq_some_iff.mp hb
        exact ho.pos _ (List.of_mem_zip ha).2
      refine List.sum_pos _ ?_ (by simpa using hne)
      intro x hx
      obtain ⟨p, hp, rfl⟩ := List.mem_map.mp hx
      exact this p hp
    rw [if_neg, h4, h5, fin_div_of_ne _ (ne_of_gt hpos)]
    rw [h6, h4, isValid_iff_present.mpr ⟨_, rfl, hns⟩]
    simpa using hne

/-! ### C101: the value -/

/-- The land area fraction of the output point `y`, `x`, averaged over a neighbourhood if there is a radius. -/
def Smoothed (olafs : List (List (Fl K))) (nY nX : Nat) (R : Int) (y x : Nat) (l : Fl K) : Prop :=
  (R = 0 → cell? olafs y x = some l) ∧
  (R ≠ 0 → ∃ (places : List (Nat × Nat)) (vals : List (Fl K)), Around nY nX R y x places ∧
    List.Forall₂ (fun (p : Nat × Nat) u => cell? olafs p.1 p.2 = some u) places vals ∧
    (present vals = [] → l = fin (-999)) ∧ (present vals ≠ [] → l = fin (mean (present vals))))

/-- `v` is `w` brought into the range of the values of the input around `i`, `j`, or at least to one of these values. -/
def Limited (ifield : FieldC K) (Y X : Nat) (R : Int) (e i j : Nat) (w : K) (v : Fl K) : Prop :=
  ∃ (places : List (Nat × Nat)) (vals : List (Fl K)), Around Y X R i j places ∧ List.Forall₂ (fun (p : Nat × Nat) u => ifield.get p.1 p.2 e = ok u) places vals ∧
    ((∀ q ∈ present vals, -999 < q) → ∃ u lo, v = fin u ∧ MinOf lo (present vals) ∧ lo ≤ u ∧ (∃ hi ∈ present vals, u ≤ hi) ∧ (w ≤ lo → u = lo) ∧
      (u = w ∨ u ∈ present vals))

/-- What becomes of the value `b` of the neighbour `i`, `j` at the output point `y`, `x`. -/
def GradientRule [HasExp K] (o : GradientOptions K) (dE mL g0 dL fS : K) (ws : List K) (Y X nY nX : Nat) (ielevs ilafs oelevs olafs : List (List (Fl K)))
    (minAllowed maxAllowed : Fl K) (ifield gfield : FieldC K) (y x e i j : Nat) (b v : Fl K) : Prop :=
  (¬ Present b → v = b) ∧
  ∀ q, b = fin q → q ≠ -999 → ∃ eg lg, ElevationGradient o dE mL g0 Y X ielevs ilafs gfield e i j eg ∧
    FractionGradient o dL fS ws Y X ielevs ilafs ifield e i j eg lg ∧ (o.save = .elev → v = fin eg) ∧ (o.save = .laf → v = lg) ∧
    (o.save = .value → ∃ z z0 l l0 w, cell? oelevs y x = some z ∧ cell? ielevs i j = some z0 ∧ Smoothed olafs nY nX o.lafRadius y x l ∧ cell? ilafs i j = some l0 ∧
      OrBase minAllowed maxAllowed q (liftedBy o.logTransform q eg (known z) (known z0) + coastal (known l) (known l0) (known lg)) w ∧
      (o.limit = false → v = fin w) ∧ (o.limit = true → 0 ≤ o.elevRadius → Limited ifield Y X o.elevRadius e i j w v))

/-- **C101** (one field). -/
theorem c101_field_partial [HasExp K] {o : GradientOptions K} {dE mL g0 dL fS : K} {ws : List K} (hopt : PlainOptions o dE mL g0 dL fS ws) {Y X E nY nX nE : Nat}
    {ielevs ilafs olats oelevs olafs : List (List (Fl K))} (hel : Rect Y X ielevs) (hla : Rect Y X ilafs) (holat : Rect nY nX olats) (hoe : Rect nY nX oelevs)
    (hol : Rect nY nX olafs) (hn : 0 < nY) {ifield gfield ofield : FieldC K} (hi : Sized Y X E ifield) (hg : Sized Y X E gfield) (ho : Sized nY nX nE ofield)
    (hE : nE ≤ E) {near : List (List (Int × Int))} (hnear : Rect nY nX near)
    (hin : ∀ y x c, cell? near y x = some c → ∃ i j : Nat, c = ((i : Int), (j : Int)) ∧ i < Y ∧ j < X)
    (hsea : fS ≤ 0 ∨ ∀ i j e l t, cell? ilafs i j = some l → ifield.get i j e = ok t → Present t → Present l) (minAllowed maxAllowed : Fl K) :
    ∃ out, gradientField o near ielevs ilafs olats oelevs olafs minAllowed maxAllowed ifield gfield ofield = ok out ∧ Sized nY nX nE out ∧
      ∀ y < nY, ∀ x < nX, ∀ e < nE, ∃ (i j : Nat) (b v : Fl K), cell? near y x = some ((i : Int), (j : Int)) ∧ ifield.get i j e = ok b ∧
        out.get y x e = ok v ∧
        GradientRule o dE mL g0 dL fS ws Y X nY nX ielevs ilafs oelevs olafs minAllowed maxAllowed ifield gfield y x e i j b v := by
  obtain ⟨elevs, a1, a2, a3⟩ := c93_vec hel holat hnear hn hin
  obtain ⟨lafs, b1, b2, b3⟩ := c93_vec hla holat hnear hn hin
  obtain ⟨base, d1, d2, d3⟩ := c93_field hi ho hnear hE fun y x c hc => .inr (.inr (hin y x c hc))
  unfold gradientField
  rw [a1, ok_bind, b1, ok_bind, d1, ok_bind]
  unfold gradientLoop
  rw [d2.nY, d2.nX]
  -- one member
  have hmember : ∀ y < nY, ∀ x < nX, ∀ (i j : Nat), cell? near y x = some ((i : Int), (j : Int)) → ∀ f, Sized nY nX nE f → ∀ e < nE,
      ∃ f', gradientMember o ⟨ielevs, ilafs, oelevs, olafs, elevs, lafs, ifield, gfield, minAllowed, maxAllowed⟩ nY nX y x ((i : Int), (j : Int)) f e = ok f' ∧
        Sized nY nX nE f' ∧ (∀ b, ifield.get i j e = ok b → f.get y x e = ok b → ∃ v, f'.get y x e = ok v ∧
          GradientRule o dE mL g0 dL fS ws Y X nY nX ielevs ilafs oelevs olafs minAllowed maxAllowed ifield gfield y x e i j b v) ∧
        ∀ y' x' e', ¬ (y' = y ∧ x' = x ∧ e' = e) → f'.get y' x' e' = f.get y' x' e' := by
    intro y hy x hx i j hc f hf e he
    obtain ⟨i', j', hij, hiY, hjX⟩ := hin y x _ hc
    rw [Prod.mk.injEq, Nat.cast_inj, Nat.cast_inj] at hij
    rw [← hij.1] at hiY
    rw [← hij.2] at hjX
    obtain ⟨l, l1, l2⟩ := smoothLaf_spec hol o.lafRadius hy hx
    obtain ⟨b, hb⟩ := hf.exists_get hy hx he
    unfold gradientMember
    simp only [l1, ok_bind, hb]
    by_cases hp : Present b
    · rw [isValid_iff_present.mpr hp]
      simp only [Bool.not_true, Bool.false_eq_true, if_false]
      obtain ⟨eg, g1, g2⟩ := c99_gradient_partial hopt.elevDiff hopt.minLaf hopt.default hel hla hg (show e < E by omega) i j
      obtain ⟨lg, k1, k2⟩ := c100_gradient_partial hopt hel hla hi (show e < E by omega) (by
        rcases hsea with h | h
        · exact .inl h
        · exact .inr fun i j l t => h i j e l t) eg i j
      obtain ⟨q, rfl, hq⟩ := hp
      -- the value
      have hval : ∃ v, gradientValue o ⟨ielevs, ilafs, oelevs, olafs, elevs, lafs, ifield, gfield, minAllowed, maxAllowed⟩ l (fin q) y x e ((i : Int), (j : Int)) = ok v ∧
          (o.save = .elev → v = fin eg) ∧ (o.save = .laf → v = lg) ∧
          (o.save = .value → ∃ z z0 l0 w, cell? oelevs y x = some z ∧ cell? ielevs i j = some z0 ∧ cell? ilafs i j = some l0 ∧
            OrBase minAllowed maxAllowed q (liftedBy o.logTransform q eg (known z) (known z0) + coastal (known l) (known l0) (known lg)) w ∧
            (o.limit = false → v = fin w) ∧ (o.limit = true → ∃ (places : List (Nat × Nat)) (vals : List (Fl K)), Around Y X o.elevRadius i j places ∧
              List.Forall₂ (fun (p : Nat × Nat) u => ifield.get p.1 p.2 e = ok u) places vals ∧
              (present vals ≠ [] → (∀ q ∈ present vals, -999 < q) → ∃ u lo, v = fin u ∧ MinOf lo (present vals) ∧ lo ≤ u ∧ (∃ hi ∈ present vals, u ≤ hi) ∧
                (w ≤ lo → u = lo) ∧ (u = w ∨ u ∈ present vals)))) := by
        unfold gradientValue
        simp only [hi.nY, hi.nX, g1, ok_bind, k1]
        cases hs : o.save with
        | elev => exact ⟨_, rfl, fun _ => rfl, fun h => by simp at h, fun h => by simp at h⟩
        | laf => exact ⟨_, rfl, fun h => by simp at h, fun _ => rfl, fun h => by simp at h⟩
        | value =>
          simp only
          obtain ⟨z0, z1, z2⟩ := vget2_of_rect a2 hy hx
          obtain ⟨l0, m1, m2⟩ := vget2_of_rect b2 hy hx
          obtain ⟨z, w1, w2⟩ := vget2_of_rect hoe hy hx
          obtain ⟨i2, j2, s1, s2⟩ := a3 y hy x hx
          obtain ⟨i3, j3, t1, t2⟩ := b3 y hy x hx
          rw [hc, Option.some.injEq, Prod.mk.injEq, Nat.cast_inj, Nat.cast_inj] at s1 t1
          rw [← s1.1, ← s1.2, z1] at s2
          rw [← t1.1, ← t1.2, m1] at t2
          simp only [z2, m2, w2, ok_bind, applyGradients_spec]
          obtain ⟨w, u1, u2⟩ := inDomain_spec minAllowed maxAllowed q
            (liftedBy o.logTransform q eg (known z) (known z0) + coastal (known l) (known l0) (known lg))
          rw [u1]
          cases hlim : o.limit with
          | false =>
            exact ⟨fin w, by simp, fun h => by simp at h, fun h => by simp at h, fun _ => ⟨z, z0, l0, w, w1, s2.symm, t2.symm, u2, fun _ => rfl, fun h => by simp at h⟩⟩
          | true =>
            obtain ⟨places, vals, v, x1, x2, x3, x4⟩ := limitValue_spec hi (show e < E by omega) o.elevRadius i j w
            exact ⟨v, by simpa using x1, fun h => by simp at h, fun h => by simp at h, fun _ => ⟨z, z0, l0, w, w1, s2.symm, t2.symm, u2, fun h => by simp at h,
              fun _ => ⟨places, vals, x2, x3, x4⟩⟩⟩
      obtain ⟨v, v1, v2, v3, v4⟩ := hval
      obtain ⟨f', f1, f2, f3, f4⟩ := hf.set hy hx he v
      refine ⟨f', by simp only [v1, ok_bind, f1], f2, ?_, f4⟩
      intro b' hb' hb''
      rw [Res.ok.injEq] at hb''
      rw [← hb''] at hb'
      refine ⟨v, f3, fun hnp => absurd ⟨q, hb''.symm, hq⟩ hnp, ?_⟩
      intro q' e1 _
      rw [← hb'', Fl.fin.injEq] at e1
      rw [← e1]
      refine ⟨eg, lg, g2, k2, v2, v3, fun hs => ?_⟩
      obtain ⟨z, z0, l0, w, c1, c2, c3, c4, c5, c6⟩ := v4 hs
      refine ⟨z, z0, l, l0, w, c1, c2, l2, c3, c4, c5, fun hlim hR => ?_⟩
      obtain ⟨places, vals, y1, y2, y3⟩ := c6 hlim
      refine ⟨places, vals, y1, y2, y3 ?_⟩
      -- the neighbour itself has a value
      have hmem : (i, j) ∈ places := (y1.2 (i, j)).mpr ⟨hiY, hjX, by simpa using hR, by simpa using hR⟩
      obtain ⟨k, hk, hk'⟩ := List.mem_iff_getElem.mp hmem
      have hlen := y2.length_eq
      have hget := (List.forall₂_iff_get.mp y2).2 k hk (by omega)
      simp only [List.get_eq_getElem, hk'] at hget
      rw [hb', Res.ok.injEq] at hget
      have : fin q ∈ vals := by
        rw [hget]
        exact List.getElem_mem _
      intro hnil
      have hq2 : q ∈ present vals := by
        unfold present
        rw [List.mem_filter]
        exact ⟨Fl.mem_vals.mpr this, by simpa using hq⟩
      rw [hnil] at hq2
      simp at hq2
    · rw [isValid_false_iff.mpr hp]
      refine ⟨f, by simp, hf, fun b' _ hb'' => ⟨b, hb, ?_⟩, fun _ _ _ _ => rfl⟩
      rw [Res.ok.injEq] at hb''
      rw [← hb'']
      exact ⟨fun _ => rfl, fun q e1 e2 => absurd ⟨q, e1, e2⟩ hp⟩
  -- the loops
  obtain ⟨out, r1, r2, r3⟩ := forCells_spec (Y := nY) (X := nX) (E := nE)
    (gradientCell o ⟨ielevs, ilafs, oelevs, olafs, elevs, lafs, ifield, gfield, minAllowed, maxAllowed⟩ near)
    (fun y x old new => ∀ i j : Nat, cell? near y x = some ((i : Int), (j : Int)) → ∀ e < nE, ∀ b, ifield.get i j e = ok b → old e = ok b → ∃ v, new e = ok v ∧
      GradientRule o dE mL g0 dL fS ws Y X nY nX ielevs ilafs oelevs olafs minAllowed maxAllowed ifield gfield y x e i j b v) (by
    intro f hf y hy x hx
    obtain ⟨c, hc, hc'⟩ := vget2_of_rect hnear hy hx
    obtain ⟨i, j, rfl, hiY, hjX⟩ := hin y x c hc
    obtain ⟨f', f1, f2, f3, f4, f5⟩ := forMembers_spec (Y := nY) (X := nX) (E := nE) y x nE
      (gradientMember o ⟨ielevs, ilafs, oelevs, olafs, elevs, lafs, ifield, gfield, minAllowed, maxAllowed⟩ nY nX y x ((i : Int), (j : Int)))
      (fun e old new => ∀ b, ifield.get i j e = ok b → old = ok b → ∃ v, new = ok v ∧
        GradientRule o dE mL g0 dL fS ws Y X nY nX ielevs ilafs oelevs olafs minAllowed maxAllowed ifield gfield y x e i j b v)
      (hmember y hy x hx i j hc) f hf
    refine ⟨f', ?_, f2, ?_, f5⟩
    · have hl : i < ielevs.length := by rw [hel.1]; exact hiY
      unfold gradientCell
      simp only [hc', ok_bind]
      rw [show (decide ((0 : Int) ≤ (i : Int)) && decide ((i : Int) < (ielevs.length : Int))) = true by simp [hl], assert_true, ok_bind,
        vget_eq_ok_of_lt hl, ok_bind, hel.2 _ (List.getElem_mem hl),
        show (decide ((0 : Int) ≤ (j : Int)) && decide ((j : Int) < (X : Int))) = true by simp [hjX], assert_true, ok_bind, hf.nE, hf.nY, hf.nX]
      exact f1
    · intro i' j' hc2 e he b hb hold
      rw [hc, Option.some.injEq, Prod.mk.injEq, Nat.cast_inj, Nat.cast_inj] at hc2
      rw [← hc2.1, ← hc2.2] at hb ⊢
      exact f3 e he b hb hold) base d2
  refine ⟨out, r1, r2, ?_⟩
  intro y hy x hx e he
  obtain ⟨c, hc, -⟩ := vget2_of_rect hnear hy hx
  obtain ⟨i, j, rfl, hiY, hjX⟩ := hin y x c hc
  obtain ⟨b, hb⟩ := hi.exists_get hiY hjX (show e < E by omega)
  obtain ⟨c', hc', -, hbase⟩ := d3 y hy x hx e he
  rw [hc, Option.some.injEq] at hc'
  have hb2 := hbase i j hc'.symm
  rw [hb] at hb2
  obtain ⟨v, hv, hrule⟩ := r3 y hy x hx i j hc e he b hb hb2
  exact ⟨i, j, b, v, hc, hb, hv, hrule⟩

/-- **C101** (the whole downscaler). -/
theorem c101_downscale_partial [HasArcC K] [HasExp K] {sort : Bool → List (Site K) → List (Site K)} {o : GradientOptions K} {dE mL g0 dL fS : K} {ws : List K}
    (hopt : PlainOptions o dE mL g0 dL fS ws) {Y X E nY nX nE : Nat} {ilats ilons ielevs ilafs olats olons oelevs olafs : List (List (Fl K))}
    (h : GridPair sort Y X nY nX ilats ilons olats olons) (hel : Rect Y X ielevs) (hla : Rect Y X ilafs) (hoe : Rect nY nX oelevs)
    (hol : Rect nY nX olafs) {ifields gfields ofields : List (FieldC K)} (hi : Series Y X E ifields) (hg : Series Y X E gfields) (ho : Series nY nX nE ofields)
    (hgl : gfields.length = ifields.length) (hl : ofields.length = ifields.length) (hE : nE ≤ E)
    (hsea : fS ≤ 0 ∨ ∀ t i j e l u, cell? ilafs i j = some l → At ifields t i j e u → Present u → Present l) (minAllowed maxAllowed : Fl K) :
    ∃ out, gradientCore sort o ilats ilons ielevs ilafs olats olons oelevs olafs minAllowed maxAllowed ifields gfields ofields = ok out ∧ Series nY nX nE out ∧
      out.length = ifields.length ∧ ∀ (t : Nat) f g, ifields[t]? = some f → gfields[t]? = some g → ∀ y < nY, ∀ x < nX, ∀ e < nE, ∃ (i j : Nat) (b v : Fl K),
        Nearest ilats ilons olats olons y x i j ∧ At ifields t i j e b ∧ At out t y x e v ∧
        GradientRule o dE mL g0 dL fS ws Y X nY nX ielevs ilafs oelevs olafs minAllowed maxAllowed f g y x e i j b v := by
  obtain ⟨near, n1, n2, n3⟩ := h.near
  obtain ⟨out, r1, r2, r3⟩ := mapM_range_exists (n := ifields.length) (f := fun t : Nat => do
    let ifield ← vget ifields t
    let ofield ← vget ofields t
    let gfield ← vget gfields t
    gradientField o near ielevs ilafs olats oelevs olafs minAllowed maxAllowed ifield gfield ofield)
    (P := fun t r => Sized nY nX nE r ∧ ∀ f g, ifields[t]? = some f → gfields[t]? = some g → ∀ y < nY, ∀ x < nX, ∀ e < nE, ∃ (i j : Nat) (b v : Fl K),
      cell? near y x = some ((i : Int), (j : Int)) ∧ f.get i j e = ok b ∧ r.get y x e = ok v ∧
      GradientRule o dE mL g0 dL fS ws Y X nY nX ielevs ilafs oelevs olafs minAllowed maxAllowed f g y x e i j b v) (by
    intro t ht
    obtain ⟨f, f1, f2, f3⟩ := hi.get? ht
    obtain ⟨g, g1, g2, g3⟩ := hg.get? (show t < gfields.length by omega)
    obtain ⟨u, u1, u2, u3⟩ := ho.get? (show t < ofields.length by omega)
    obtain ⟨r, k1, k2, k3⟩ := c101_field_partial hopt hel hla h.olat hoe hol h.rows f3 g3 u3 hE n2 (fun y x c hc => by
      obtain ⟨i, j, e1, e2, e3, -⟩ := n3 y x c hc
      exact ⟨i, j, e1, e2, e3⟩) (by
      rcases hsea with hs | hs
      · exact .inl hs
      · exact .inr fun i j e l v e1 e2 e3 => hs t i j e l v e1 ⟨f, f1, e2⟩ e3) minAllowed maxAllowed
    refine ⟨r, by simp only [f2, u2, g2, ok_bind, k1], k2, fun f' g' e1 e2 => ?_⟩
    rw [f1, Option.some.injEq] at e1
    rw [g1, Option.some.injEq] at e2
    rw [← e1, ← e2]
    exact k3)
  refine ⟨out, ?_, ?_, r2, ?_⟩
  · unfold gradientCore
    rw [n1, ok_bind, r1]
  · intro r hr
    obtain ⟨t, ht⟩ := List.mem_iff_getElem?.mp hr
    obtain ⟨r', k1, k2, -⟩ := r3 t (by rw [← r2]; exact (List.getElem?_eq_some_iff.mp ht).1)
    rw [ht, Option.some.injEq] at k1
    rw [k1]
    exact k2
  · intro t f g hf hg' y hy x hx e he
    obtain ⟨r, k1, -, k3⟩ := r3 t (List.getElem?_eq_some_iff.mp hf).1
    obtain ⟨i, j, b, v, e1, e2, e3, e4⟩ := k3 f g hf hg' y hy x hx e he
    obtain ⟨i', j', h1, -, -, h2⟩ := n3 y x _ e1
    rw [Prod.mk.injEq, Nat.cast_inj, Nat.cast_inj] at h1
    rw [← h1.1, ← h1.2] at h2
    exact ⟨i, j, b, v, h2, ⟨f, hf, e2⟩, ⟨r, k1, e3⟩, e4⟩

/-- **C101** (nothing to correct). At the elevation and land area fraction of the neighbour the value of the neighbour is kept. -/
theorem c101_same [LawfulExp K] (log : Bool) (lo hi : Fl K) (b eg : K) (z l lg : Fl K) :
    inDomain lo hi (fin b) (applyGradients log (fin b) z z (fin eg) l l lg) = fin b := by
  rw [applyGradients_spec]
  have h1 : liftedBy log b eg (known z) (known z) = b := by
    cases known z with
    | none => rfl
    | some q => cases log <;> simp [liftedBy, LawfulExp.exp_zero]
  have h2 : coastal (known l) (known l) (known lg) = 0 := by
    cases known l with
    | none => rfl
    | some q => cases known lg <;> simp [coastal]
  rw [h1, h2, add_zero]
  obtain ⟨v, e1, e2, e3⟩ := inDomain_spec lo hi b b
  rw [e1]
  by_cases h : InBounds lo hi b
  · rw [e2 h]
  · rw [e3 h]

/-- **C101** (domain). If the value of the neighbour is in the domain of the variable then so is the result. -/
theorem c101_domain [HasExp K] (log : Bool) (lo hi : Fl K) (b eg : K) (z z0 l l0 lg : Fl K) (hb : InBounds lo hi b) :
    ∃ v, inDomain lo hi (fin b) (applyGradients log (fin b) z z0 (fin eg) l l0 lg) = fin v ∧ InBounds lo hi v := by
  rw [applyGradients_spec]
  obtain ⟨v, e1, e2, e3⟩ := inDomain_spec lo hi b (liftedBy log b eg (known z) (known z0) + coastal (known l) (known l0) (known lg))
  refine ⟨v, e1, ?_⟩
  by_cases h : InBounds lo hi (liftedBy log b eg (known z) (known z0) + coastal (known l) (known l0) (known lg))
  · rw [e2 h]
    exact h
  · rw [e3 h]
    exact hb

/-! ### Where the claims are false, and examples -/

/-- Options as in the constructor, with a radius of 1 and with bounds. -/
def gradientOptions (radii : List Int) (weights : List (Fl ℚ)) (sea : ℚ) (limit : Bool) : GradientOptions ℚ :=
  ⟨1, fin (-999), fin 5, false, fin (-999), fin 0, fin 30, fin 0, 2, 0, fin (1 / 10), fin sea, radii, weights, .value, limit⟩

theorem gradientOptions_plain : PlainOptions (gradientOptions [1, 2] [fin 1, fin 3] 0 true) 30 0 0 (1 / 10) 0 [1, 3] :=
  ⟨rfl, rfl, rfl, rfl, by norm_num, rfl, by simp [gradientOptions], rfl, rfl, by simp⟩

/-- **C99** is false where the sums of the elevations are such: two points at elevations 0 and 30 are enough for a regression, the value
falls by 1/10 per metre, but the default gradient 0 is used. One metre higher the regression is used. -/
theorem c99_island_false : Fits 2 30 [((0 : ℚ), (10 : ℚ)), (30, 7)] ∧ slope [((0 : ℚ), (10 : ℚ)), (30, 7)] = -1 / 10 ∧
    calcElevGradient (gradientOptions [] [] 0 false) 1 2 [[fin 0, fin 30]] [[fin 1, fin 1]] ⟨[fin 10, fin 7], 1, 2, 1⟩ 0 (0, 0) = ok (fin 0) ∧
    calcElevGradient (gradientOptions [] [] 0 false) 1 2 [[fin 1, fin 31]] [[fin 1, fin 1]] ⟨[fin 10, fin 7], 1, 2, 1⟩ 0 (0, 0) = ok (fin (-1 / 10)) := by
  refine ⟨⟨by decide, ⟨(0, 10), by simp, (30, 7), by simp, by norm_num⟩, by decide +kernel⟩, by decide +kernel, by decide +kernel, by decide +kernel⟩

/-- **C100** is false if the radii decrease: the same radii with the same weights give another gradient in another order, because the extreme
points of the previous radius are kept. -/
theorem c100_order_false :
    calcLafGradient (gradientOptions [1, 2] [fin 1, fin 1] 0 false) 1 5 [[fin 0, fin 0, fin 0, fin 0, fin 0]]
      [[fin 0, fin (2 / 5), fin (1 / 2), fin (3 / 5), fin 1]] ⟨[fin 0, fin 4, fin 5, fin 16, fin 10], 1, 5, 1⟩ 0 (0, 2) (fin 0) = ok (fin 35) ∧
    calcLafGradient (gradientOptions [2, 1] [fin 1, fin 1] 0 false) 1 5 [[fin 0, fin 0, fin 0, fin 0, fin 0]]
      [[fin 0, fin (2 / 5), fin (1 / 2), fin (3 / 5), fin 1]] ⟨[fin 0, fin 4, fin 5, fin 16, fin 10], 1, 5, 1⟩ 0 (0, 2) (fin 0) = ok (fin 10) := by
  decide +kernel

/-- **C100** is false where the fraction is missing: such a point is counted as sea. Here no point is known to be sea, a quarter is asked for,
and still there is a gradient; with the rule there is none. -/
theorem c100_sea_false :
    calcLafGradient (gradientOptions [1] [fin 1] (1 / 4) false) 1 3 [[fin 0, fin 0, fin 0]] [[fin (-999), fin (3 / 5), fin 1]]
      ⟨[fin 1, fin 2, fin 4], 1, 3, 1⟩ 0 (0, 1) (fin 0) = ok (fin 5) ∧
    ∀ g, FractionRule (1 / 10 : ℚ) (1 / 4) 0 [(fin (-999), fin 0, fin 1), (fin (3 / 5), fin 0, fin 2), (fin 1, fin 0, fin 4)] g → g = none := by
  refine ⟨by decide +kernel, fun g hg => ?_⟩
  have hne : withFraction [((fin (-999) : Fl ℚ), (fin 0 : Fl ℚ), (fin 1 : Fl ℚ)), (fin (3 / 5), fin 0, fin 2), (fin 1, fin 0, fin 4)] ≠ [] := by decide +kernel
  obtain ⟨lo, -, hi, -, -, -, h⟩ := hg.2 hne
  refine h fun hc => ?_
  have : ((withFraction [((fin (-999) : Fl ℚ), (fin 0 : Fl ℚ), (fin 1 : Fl ℚ)), (fin (3 / 5), fin 0, fin 2), (fin 1, fin 0, fin 4)]).filter
      fun a => decide (number a.1 < 1 / 2)).length = 0 := by decide +kernel
  have h4 := hc.2.2.2
  rw [this] at h4
  norm_num at h4

/-- **C101** is false with `limit`: the value 2 lies between the values 1 and 3 of the neighbourhood and is still changed, because the first
value is never taken as the maximum. -/
theorem c101_limit_false : limitValue 1 (⟨[fin 3, fin 2, fin 1], 1, 3, 1⟩ : FieldC ℚ) (0, 1) 0 (fin 2) = ok (fin 1) := by decide +kernel

/-- A field with two members; the second output point has no elevation, and its neighbour has no value for the second member. -/
example : gradientField (gradientOptions [1, 2] [fin 1, fin 3] 0 false) [[(0, 1), (0, 0)]] [[fin 10, fin 50, fin 90]] [[fin 0, fin (1 / 2), fin 1]]
    [[fin 1, fin 2]] [[fin 70, fin (-999)]] [[fin (1 / 2), fin 1]] (fin 0) (fin (-999)) ⟨[fin 1, fin (-999), fin 3, fin 1, fin 5, fin 1], 1, 3, 2⟩
    ⟨[fin 1, fin 2, fin 3, fin 2, fin 5, fin 2], 1, 3, 2⟩ ⟨[fin 0, fin 0, fin 0, fin 0], 1, 2, 2⟩ = ok ⟨[fin 4, fin 1, fin 1, fin (-999)], 1, 2, 2⟩ := by
  decide +kernel

end Gridpp.Props
