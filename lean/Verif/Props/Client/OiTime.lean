import Verif.Lemmas.Client.OiTime
import Verif.Props.Client.OiEnsemble
import Verif.Props.Client.OiDelta
import Verif.Props.Client.OiTransform

/-! # C140: one time of the calibrator `oi` in ensemble mode -/

set_option linter.unusedSectionVars false

namespace Gridpp.Props
open Fl hiding MV isValid
open Res Client Matrix

variable {K : Type} [Field K] [LinearOrder K] [IsStrictOrderedRing K]

/-- The numbers that go into one time: the transform and its inverse, the values of the members, the stations with observation, relative
variance and elevation, the elevation of the grid points, the gradient (-999 for none), the bias and the inflation factor of the last time with missing
values, and the options `mu` and `delta`. -/
structure OiNumbers (K : Type) where
  T : K → K
  Ti : K → K
  u : Nat → Nat → Nat → K
  st : Nat → OiStation K
  obs : Nat → K
  ci : Nat → K
  elev : Nat → K
  gridElev : Nat → Nat → K
  gradient : K
  bias : Option (Nat → Nat → Option K)
  mu : K
  delta : Option (Nat → Nat → Option K)
  delta0 : K

namespace OiNumbers
variable (N : OiNumbers K)

/-- The background, transformed. -/
def back (y x e : Nat) : K := N.T (N.u y x e)

/-- The forecast of a member at a station: the background at the nearest grid point, moved to the elevation of the station. -/
def atStation (i e : Nat) : K :=
  N.back (N.st i).y (N.st i).x e + if N.gradient = -999 then 0 else N.gradient * (N.elev i - N.gridElev (N.st i).y (N.st i).x)

/-- The bias, which fades by the factor `mu` and is 0 where it is missing. -/
def startBias : Option (Nat → Nat → K) := N.bias.map fun b y x => ((b y x).map (· * N.mu)).getD 0

/-- The inflation factor: from the file, 1 where it is missing there; without a field the option `delta`. -/
def startDelta (y x : Nat) : K := match N.delta with
  | none => N.delta0
  | some d => (d y x).getD 1

/-- A field with missing values as the program has it. -/
def coded (b : Option (Nat → Nat → Option K)) : Option (Nat → Nat → Fl K) := b.map fun b y x => fin ((b y x).getD (-999))

/-- The difference between observation and mean forecast without bias at a station. -/
def gap (M : Finset Nat) (i : Nat) : K := N.obs i - (Spec.ensMean M (N.atStation i) - ((N.startBias.map fun b => b (N.st i).y (N.st i).x).getD 0))

end OiNumbers

section
variable [FloorRing K] [LawfulSqrt K] [HasExp K]

/-- What is assumed of one time: the members `M` have values at all grid points, the other members none; no number is -999. -/
structure OiStep (o : OiOptions K) (nY nX nE : Nat) (M : Finset Nat) (N : OiNumbers K) (grid : Nat → Nat → OiPlace K) (S : OiSetup K)
    (f : Nat → Nat → Nat → Fl K) : Prop where
  nY_pos : 0 < nY
  nX_pos : 0 < nX
  member_lt : ∀ e ∈ M, e < nE
  value : ∀ y < nY, ∀ x < nX, ∀ e ∈ M, f y x e = fin (N.u y x e) ∧ N.u y x e ≠ -999 ∧ N.back y x e ≠ -999
  missing : ∀ y < nY, ∀ x < nX, ∀ e < nE, e ∉ M → f y x e = Client.MV
  forward : ∀ v, oiTransform o (fin v) = fin (N.T v)
  inverse : ∀ v, oiInvTransform o (fin v) = fin (N.Ti v)
  station : ∀ i < S.stations.length, S.stations[i]? = some (N.st i)
  place : ∀ i < S.stations.length, (N.st i).y < nY ∧ (N.st i).x < nX
  obs : ∀ i < S.stations.length, (N.st i).obs = fin (N.obs i)
  ci : ∀ i < S.stations.length, (N.st i).ci = fin (N.ci i)
  elev : ∀ i < S.stations.length, (N.st i).elev = fin (N.elev i) ∧ N.elev i ≠ -999
  gridElev : ∀ y < nY, ∀ x < nX, (grid y x).elev = fin (N.gridElev y x) ∧ N.gridElev y x ≠ -999
  gradient : o.elevGradient = fin N.gradient
  corrected : ∀ i < S.stations.length, (∀ e ∈ M, N.atStation i e ≠ -999) ∧ Spec.ensMean M (N.atStation i) ≠ -999
  bias : ∀ b ∈ N.bias, ∀ y x, b y x ≠ some (-999)
  mu : o.mu = fin N.mu
  delta : ∀ d ∈ N.delta, ∀ y x, d y x ≠ some (-999)
  delta0 : o.delta = fin N.delta0

variable {o : OiOptions K} {nY nX nE : Nat} {M : Finset Nat} {N : OiNumbers K} {grid : Nat → Nat → OiPlace K} {S : OiSetup K} {f : Nat → Nat → Nat → Fl K}

theorem OiStep.back (h : OiStep o nY nX nE M N grid S f) {y x : Nat} (hy : y < nY) (hx : x < nX) {e : Nat} (he : e < nE) :
    oiBackground o f y x e = fin (if e ∈ M then N.back y x e else -999) := by
  unfold oiBackground
  by_cases hm : e ∈ M
  · obtain ⟨h1, h2, -⟩ := h.value y hy x hx e hm
    rw [h1, if_pos (by simp [Client.isValid, h2]), h.forward, if_pos hm]
    rfl
  · rw [h.missing y hy x hx e he hm, if_neg (by simp [Client.isValid, Client.MV]), if_neg hm]
    rfl

theorem OiStep.members (h : OiStep o nY nX nE M N grid S f) : oiValidEns nY nX nE (oiBackground o f) = oiMembers nE M :=
  oiValidEns_eq h.nY_pos h.nX_pos (fun y hy x hx e he => by
    rw [h.back hy hx (h.member_lt e he), if_pos he]
    simp [Client.isValid, (h.value y hy x hx e he).2.2])
    (fun y hy x hx e he hm => by rw [h.back hy hx he, if_neg hm]; rfl)

theorem OiStep.startBias (h : OiStep o nY nX nE M N grid S f) :
    (OiNumbers.coded N.bias).map (fun c y x => oiBias o (c y x)) = N.startBias.map fun b y x => fin (b y x) := by
  unfold OiNumbers.coded OiNumbers.startBias
  rw [Option.map_map, Option.map_map]
  cases hb : N.bias with
  | none => rfl
  | some b =>
    simp only [Option.map_some, Function.comp]
    congr 1
    funext y x
    unfold oiBias
    rw [h.mu]
    have := h.bias b (by rw [hb]; rfl) y x
    cases hv : b y x with
    | none => simp [Client.isValid, zero_def]
    | some v =>
      rw [hv] at this
      have hv' : v ≠ -999 := fun hc => this (by rw [hc])
      simp [Client.isValid, hv', fin_mul]

theorem OiStep.startDelta (h : OiStep o nY nX nE M N grid S f) (y x : Nat) :
    ((((OiNumbers.coded N.delta).map fun d y x => oiDelta (d y x)).map fun d => d y x).getD o.delta) = fin (N.startDelta y x) := by
  unfold OiNumbers.coded OiNumbers.startDelta
  cases hb : N.delta with
  | none => simp [h.delta0]
  | some d =>
    have := h.delta d (by rw [hb]; rfl) y x
    simp only [Option.map_some, Option.getD_some]
    unfold oiDelta
    cases hv : d y x with
    | none => simp [Client.isValid, one_def]
    | some v =>
      rw [hv] at this
      have hv' : v ≠ -999 := fun hc => this (by rw [hc])
      simp [Client.isValid, hv']

/-- The forecast at a station. -/
theorem OiStep.forecast (h : OiStep o nY nX nE M N grid S f) (hM : M.Nonempty) {i : Nat} (hi : i < S.stations.length) :
    ∃ row, oiForecast o (N.st i).elev (grid (N.st i).y (N.st i).x).elev ((N.startBias.map fun b y x => fin (b y x)).map fun b => b (N.st i).y (N.st i).x)
        ((List.range nE).map (oiBackground o f (N.st i).y (N.st i).x)) =
        ok (row, fin (Spec.ensMean M (N.atStation i) - (N.startBias.map fun b => b (N.st i).y (N.st i).x).getD 0)) ∧
      ∀ e ∈ M, row[e]? = some (fin (N.atStation i e - Spec.ensMean M (N.atStation i))) := by
  obtain ⟨hy, hx⟩ := h.place i hi
  obtain ⟨e1, e2⟩ := h.elev i hi
  obtain ⟨g1, g2⟩ := h.gridElev _ hy _ hx
  have hb : (List.range nE).map (oiBackground o f (N.st i).y (N.st i).x) =
      ((List.range nE).map fun e => if e ∈ M then N.back (N.st i).y (N.st i).x e else -999).map fin := by
    rw [List.map_map]
    apply List.map_congr_left
    intro e he
    exact h.back hy hx (List.mem_range.mp he)
  generalize hc : (if N.gradient = -999 then 0 else N.gradient * (N.elev i - N.gridElev (N.st i).y (N.st i).x)) = c
  have hat : ∀ e, N.atStation i e = N.back (N.st i).y (N.st i).x e + c := fun e => by unfold OiNumbers.atStation; rw [hc]
  have hf : ((List.range nE).map fun e => if e ∈ M then N.back (N.st i).y (N.st i).x e else -999).filter (fun x => decide (x ≠ -999)) =
      (oiMembers nE M).map (N.back (N.st i).y (N.st i).x) := by
    rw [List.filter_map]
    have : (List.range nE).filter ((fun x => decide (x ≠ -999)) ∘ fun e => if e ∈ M then N.back (N.st i).y (N.st i).x e else -999) = oiMembers nE M := by
      unfold oiMembers
      apply List.filter_congr
      intro e _
      by_cases hm : e ∈ M
      · simp [hm, (h.value _ hy _ hx e hm).2.2]
      · simp [hm]
    rw [this]
    apply List.map_congr_left
    intro e he
    rw [if_pos ((mem_oiMembers h.member_lt).mp he)]
  have hcard : M.card ≠ 0 := by rw [Finset.card_ne_zero]; exact hM
  have hB : ((N.startBias.map fun b y x => (fin (b y x) : Fl K)).map fun b => b (N.st i).y (N.st i).x) =
      (N.startBias.map fun b => b (N.st i).y (N.st i).x).map fin := by
    rw [Option.map_map, Option.map_map]; rfl
  obtain ⟨row, m, r1, r2, -, r4⟩ := c134_forecast (o := o) (elev := (N.st i).elev) (gridElev := (grid (N.st i).y (N.st i).x).elev) (c := c)
    (by rw [e1, g1, ← hc]; exact oiElevCorr_fin o e2 g2 h.gradient) (N.startBias.map fun b => b (N.st i).y (N.st i).x)
    (v := (List.range nE).map fun e => if e ∈ M then N.back (N.st i).y (N.st i).x e else -999)
    (by
      rw [hf]
      intro hn
      have := congrArg List.length hn
      rw [List.length_map, oiMembers_length h.member_lt] at this
      exact hcard this)
    (by
      intro x hx' hne
      obtain ⟨e, -, rfl⟩ := List.mem_map.mp hx'
      by_cases hm : e ∈ M
      · rw [if_pos hm, ← hat]; exact (h.corrected i hi).1 e hm
      · rw [if_neg hm] at hne; exact absurd rfl hne)
    (m := Spec.ensMean M (N.atStation i))
    (by
      rw [hf, List.map_map, List.length_map, oiMembers_length h.member_lt]
      unfold Spec.ensMean
      rw [← oiMembers_sum h.member_lt]
      congr 2
      apply List.map_congr_left
      intro e _
      exact hat e)
    (h.corrected i hi).2
  refine ⟨row, by rw [hb, hB, r1, r2], fun e he => ?_⟩
  obtain ⟨d, d1, d2, -⟩ := r4 e (N.back (N.st i).y (N.st i).x e) (by simp [h.member_lt e he, he]) (h.value _ hy _ hx e he).2.2
  rw [d1, d2, hat]

/-- The results of the grid points. -/
theorem OiStep.cells {A : ArmaE K} (hA : A.Lawful) (dist : Fl K → Fl K → Fl K → Fl K → Res (Fl K)) (h : OiStep o nY nX nE M N grid S f)
    (hmode : o.useEns = true) (hmin : o.minEns ≤ (M.card : Int)) (h2 : 2 ≤ M.card) {sg gamma : K} (hsg : o.sigma = fin sg) (hsg0 : sg ≠ 0)
    (hci : ∀ i < S.stations.length, 0 < N.ci i) (hg : N.bias ≠ none → o.gamma = fin gamma ∧ 0 < 1 + gamma) (hδ : ∀ y x, 0 < N.startDelta y x)
    {G : Nat → Nat → Nat → K} {sel : Nat → Nat → List Nat}
    (hsel : ∀ y < nY, ∀ x < nX, oiLocal A.toArma o dist S.regular nY nX S.stations (grid y x) (S.assigned y x) = ok (rhoPairs (G y x) (sel y x)) ∧
      ∀ i ∈ sel y x, i < S.stations.length ∧ 0 < G y x i) :
    ∃ rows, rows.length = S.stations.length ∧ (∀ i < S.stations.length, ∃ row, rows[i]? = some (row, fin (Spec.ensMean M (N.atStation i) -
          (N.startBias.map fun b => b (N.st i).y (N.st i).x).getD 0)) ∧ ∀ e ∈ M, row[e]? = some (fin (N.atStation i e - Spec.ensMean M (N.atStation i)))) ∧
      ∃ cell : Nat → Nat → OiResult K,
        oiCells A o dist 2 nY nX nE grid S (oiBackground o f) (N.startBias.map fun b y x => fin (b y x)) ((OiNumbers.coded N.delta).map fun d y x => oiDelta (d y x)) =
          ok ((List.range nY).map fun y => (List.range nX).map (cell y), rows) ∧
        ∀ y < nY, ∀ x < nX, (cell y x).out.length = nE ∧
          (sel y x = [] → cell y x = ⟨if o.saveDiff then List.replicate nE Client.MV else (List.range nE).map (oiBackground o f y x), List.replicate nE 0, 0⟩) ∧
          (sel y x ≠ [] → ∃ a, (∀ e < nE, e ∉ M → (cell y x).out[e]? = some Client.MV) ∧
            (cell y x).bias = oiBiasAfter (N.startBias.map fun b => b y x) gamma (Spec.ensMean M a - Spec.ensMean M (N.back y x)) ∧
            Spec.InflatedUpdate M (N.back y x) (fun i => N.atStation ((sel y x).get i)) (oiInflation (N.startDelta y x) (N.bias.map fun _ => gamma))
              (fun i j => if i = j then sg * sg * N.ci ((sel y x).get i) / G y x ((sel y x).get i) else 0)
              (fun i => if o.diagnose then 1 else N.gap M ((sel y x).get i)) a ∧
            ∀ k : Fin (oiMembers nE M).length, ∃ v, (cell y x).out[(oiMembers nE M).get k]? = some v ∧
              OiSaved o (oiMembers nE M) (sel y x) N.obs
                (fun i => Spec.ensMean M (N.atStation i) - (N.startBias.map fun b => b (N.st i).y (N.st i).x).getD 0)
                (fun i e => N.atStation i e - Spec.ensMean M (N.atStation i)) (N.back y x) a k v) := by
  have hM : M.Nonempty := Finset.card_pos.mp (by omega)
  have hlen := oiMembers_length h.member_lt
  have hfs := oiMembers_toFinset h.member_lt
  have hfor : ∀ i : Fin S.stations.length, ∃ row, oiForecast o (N.st i).elev (grid (N.st i).y (N.st i).x).elev ((N.startBias.map fun b y x => fin (b y x)).map fun b => b (N.st i).y (N.st i).x)
        ((List.range nE).map (oiBackground o f (N.st i).y (N.st i).x)) =
        ok (row, fin (Spec.ensMean M (N.atStation i) - (N.startBias.map fun b => b (N.st i).y (N.st i).x).getD 0)) ∧
      ∀ e ∈ M, row[e]? = some (fin (N.atStation i e - Spec.ensMean M (N.atStation i))) := fun i => h.forecast hM i.2
  choose row hrow1 hrow2 using hfor
  have hst : ∀ i : Fin S.stations.length, S.stations.get i = N.st i := fun i => by
    have := h.station i i.2
    rw [List.getElem?_eq_getElem i.2] at this
    exact Option.some.inj this
  have hgY : mapM (fun s : OiStation K => oiForecast o s.elev (grid s.y s.x).elev ((N.startBias.map fun b y x => fin (b y x)).map fun b => b s.y s.x)
      ((List.range nE).map (oiBackground o f s.y s.x))) S.stations =
      ok (List.ofFn fun i : Fin S.stations.length => (row i, (fin (Spec.ensMean M (N.atStation i) - (N.startBias.map fun b => b (N.st i).y (N.st i).x).getD 0) : Fl K))) :=
    mapM_getElem _ _ fun i => by rw [hst i]; exact hrow1 i
  generalize hrows : (List.ofFn fun i : Fin S.stations.length => (row i, (fin (Spec.ensMean M (N.atStation i) -
    (N.startBias.map fun b => b (N.st i).y (N.st i).x).getD 0) : Fl K))) = rows at *
  have hrows' : ∀ i < S.stations.length, ∃ row, rows[i]? = some (row, fin (Spec.ensMean M (N.atStation i) -
      (N.startBias.map fun b => b (N.st i).y (N.st i).x).getD 0)) ∧ ∀ e ∈ M, row[e]? = some (fin (N.atStation i e - Spec.ensMean M (N.atStation i))) := by
    intro i hi
    refine ⟨row ⟨i, hi⟩, ?_, hrow2 ⟨i, hi⟩⟩
    rw [← hrows, List.getElem?_ofFn, dif_pos hi]
  refine ⟨rows, by rw [← hrows]; simp, hrows', ?_⟩
  have hcell : ∀ y x, ∃ c : OiResult K, y < nY → x < nX → oiCellC A o dist 2 S.stations rows (oiMembers nE M) (grid y x) ((List.range nE).map (oiBackground o f y x))
        ((N.startBias.map fun b y x => (fin (b y x) : Fl K)).map fun b => b y x) (fin (N.startDelta y x)) (rhoPairs (G y x) (sel y x)) = ok c ∧ c.out.length = nE ∧
          (sel y x = [] → c = ⟨if o.saveDiff then List.replicate nE Client.MV else (List.range nE).map (oiBackground o f y x), List.replicate nE 0, 0⟩) ∧
          (sel y x ≠ [] → ∃ a, (∀ e < nE, e ∉ M → c.out[e]? = some Client.MV) ∧
            c.bias = oiBiasAfter (N.startBias.map fun b => b y x) gamma (Spec.ensMean M a - Spec.ensMean M (N.back y x)) ∧
            Spec.InflatedUpdate M (N.back y x) (fun i => N.atStation ((sel y x).get i)) (oiInflation (N.startDelta y x) (N.bias.map fun _ => gamma))
              (fun i j => if i = j then sg * sg * N.ci ((sel y x).get i) / G y x ((sel y x).get i) else 0)
              (fun i => if o.diagnose then 1 else N.gap M ((sel y x).get i)) a ∧
            ∀ k : Fin (oiMembers nE M).length, ∃ v, c.out[(oiMembers nE M).get k]? = some v ∧
              OiSaved o (oiMembers nE M) (sel y x) N.obs
                (fun i => Spec.ensMean M (N.atStation i) - (N.startBias.map fun b => b (N.st i).y (N.st i).x).getD 0)
                (fun i e => N.atStation i e - Spec.ensMean M (N.atStation i)) (N.back y x) a k v) := by
    intro y x
    by_cases hin : y < nY ∧ x < nX
    swap
    · exact ⟨⟨[], [], 0⟩, fun hy hx => absurd ⟨hy, hx⟩ hin⟩
    obtain ⟨hy, hx⟩ := hin
    obtain ⟨hs1, hs2⟩ := hsel y hy x hx
    by_cases hs : sel y x = []
    · refine ⟨_, fun _ _ => ⟨?_, ?_, fun _ => rfl, fun hc => absurd hs hc⟩⟩
      · rw [hs]
        have := c134_alone A o dist 2 S.stations rows (oiMembers nE M) (grid y x) ((List.range nE).map (oiBackground o f y x))
          ((N.startBias.map fun b y x => (fin (b y x) : Fl K)).map fun b => b y x) (fin (N.startDelta y x))
        rw [List.length_map, List.length_range] at this
        exact this
      · show (if o.saveDiff = true then _ else _ : List (Fl K)).length = nE
        split <;> simp
    · have hmode' : OiEnsembleMode o (oiMembers nE M) (sel y x) N.atStation (fun i e => N.atStation i e - Spec.ensMean M (N.atStation i)) :=
        ⟨hmode, by rw [hlen]; exact hmin, oiMembers_nodup nE M, by rw [hlen]; exact h2, hs, fun i _ e _ => by rw [hfs]⟩
      have hH : OiSelected S.stations rows (oiMembers nE M) (sel y x) N.st N.obs N.ci
          (fun i => Spec.ensMean M (N.atStation i) - (N.startBias.map fun b => b (N.st i).y (N.st i).x).getD 0)
          (fun i e => N.atStation i e - Spec.ensMean M (N.atStation i)) :=
        ⟨fun i hi => h.station i (hs2 i hi).1, fun i hi => h.obs i (hs2 i hi).1, fun i hi => h.ci i (hs2 i hi).1, fun i hi => by
          obtain ⟨row, r1, r2⟩ := hrows' i (hs2 i hi).1
          exact ⟨row, r1, fun e he => r2 e ((mem_oiMembers h.member_lt).mp he)⟩⟩
      have hE : OiErrors o (sel y x) sg N.ci (G y x) := ⟨hsg, hsg0, fun i hi => hci i (hs2 i hi).1, fun i hi => (hs2 i hi).2⟩
      have hbn : (N.startBias.map fun b => b y x) ≠ none → N.bias ≠ none := by
        intro hc hn
        apply hc
        unfold OiNumbers.startBias
        rw [hn]
        rfl
      obtain ⟨out, a, c1, c2, c3, c4, c5⟩ := oiCell_ensemble hA dist 2 hmode' hH (grid y x) (G y x) hE.precision
        (oiRinvAll_two A hE.sigma hE.sigma_ne dist (fun i hi => ⟨hH.ci i hi, hE.ci_pos i hi⟩) _ _ (G y x))
        (b := (List.range nE).map (oiBackground o f y x)) (x := N.back y x)
        (fun e he => by
          have he' := (mem_oiMembers h.member_lt).mp he
          have hlt := h.member_lt e he'
          rw [List.getElem?_map, List.getElem?_range hlt, Option.map_some, h.back hy hx hlt, if_pos he'])
        (N.startBias.map fun b => b y x) (gamma := gamma) (fun hc => hg (hbn hc)) (hδ y x)
      rw [hfs, List.length_map, List.length_range] at *
      have hB : ((N.startBias.map fun b y x => (fin (b y x) : Fl K)).map fun b => b y x) = (N.startBias.map fun b => b y x).map fin := by
        rw [Option.map_map, Option.map_map]; rfl
      refine ⟨_, fun _ _ => ⟨by rw [hB]; exact c1, c2, fun hc => absurd hc hs, fun _ => ⟨a, fun e he hm => c3 e he (fun hc => hm ((mem_oiMembers h.member_lt).mp hc)), rfl, ?_, c5⟩⟩⟩
      have e1 : (diagonal fun a : Fin (sel y x).length => sg * sg * N.ci ((sel y x).get a) / G y x ((sel y x).get a)) =
          fun i j => if i = j then sg * sg * N.ci ((sel y x).get i) / G y x ((sel y x).get i) else 0 := by
        funext i j
        rw [Matrix.diagonal_apply]
      have e2 : ((N.startBias.map fun b => b y x).map fun _ => gamma) = N.bias.map fun _ => gamma := by
        unfold OiNumbers.startBias
        rw [Option.map_map, Option.map_map]
        rfl
      rw [e1, e2] at c4
      exact c4
  choose cell hcell using hcell
  refine ⟨cell, ?_, fun y hy x hx => (hcell y x hy hx).2⟩
  unfold oiCells
  rw [hgY, ok_bind, h.members]
  dsimp only
  rw [mapM_ok (g := fun y => (List.range nX).map (cell y)) (fun y hy => mapM_ok fun x hx => by
    have hy' := List.mem_range.mp hy
    have hx' := List.mem_range.mp hx
    rw [(hsel y hy' x hx').1, ok_bind, h.startDelta]
    exact (hcell y x hy' hx').1)]
  rfl

/-- One time from the results of the grid points. -/
theorem OiStep.time {A : ArmaE K} (dist : Fl K → Fl K → Fl K → Fl K → Res (Fl K)) (h : OiStep o nY nX nE M N grid S f)
    (hmode : o.useEns = true) (hmin : o.minEns ≤ (M.card : Int)) {rows : List (List (Fl K) × Fl K)} {cell : Nat → Nat → OiResult K} (np : Nat)
    (hc : oiCells A o dist np nY nX nE grid S (oiBackground o f) (N.startBias.map fun b y x => fin (b y x)) ((OiNumbers.coded N.delta).map fun d y x => oiDelta (d y x)) =
          ok ((List.range nY).map fun y => (List.range nX).map (cell y), rows)) (hd : N.delta = none ∨ rows ≠ []) :
    ∃ r, oiTime A o dist np nY nX nE grid S f (OiNumbers.coded N.bias) (OiNumbers.coded N.delta) = ok r ∧
      (∀ y < nY, ∀ x < nX, (∀ e < nE, r.1.get y x e = ok (if Client.isValid ((cell y x).out.getD e nan) then oiInvTransform o ((cell y x).out.getD e nan)
        else (cell y x).out.getD e nan)) ∧ r.2.1.map (fun b => b y x) = N.startBias.map fun _ => (cell y x).bias) ∧
      ∀ d ∈ N.delta, ∃ v, oiCalcDelta o (fin ((d 0 0).getD 1)) (rows.map Prod.fst) = ok v ∧ r.2.2 = some v := by
  have hlen := oiMembers_length h.member_lt
  have hsingle : (!o.useEns || decide (((oiMembers nE M).length : Int) < o.minEns)) = false := by
    rw [hlen, hmode]
    simp
    exact hmin
  have hcell : ∀ {y x : Nat}, y < nY → x < nX →
      ((((List.range nY).map fun y => (List.range nX).map (cell y)).getD y [])[x]?).getD ⟨[], [], 0⟩ = cell y x := by
    intro y x hy hx
    simp [List.getD, hy, hx]
  obtain ⟨nd, hnd, hnd'⟩ : ∃ nd, ((((OiNumbers.coded N.delta).map fun d y x => oiDelta (d y x)) = none ∧ nd = none) ∨
      ∃ d v, ((OiNumbers.coded N.delta).map fun d y x => oiDelta (d y x)) = some d ∧ oiCalcDelta o (d 0 0) (rows.map Prod.fst) = ok v ∧ nd = some v) ∧
      ∀ d ∈ N.delta, ∃ v, oiCalcDelta o (fin ((d 0 0).getD 1)) (rows.map Prod.fst) = ok v ∧ nd = some v := by
    have hsd := h.startDelta 0 0
    unfold OiNumbers.startDelta at hsd
    cases hdd : N.delta with
    | none => exact ⟨none, .inl ⟨rfl, rfl⟩, by simp⟩
    | some d =>
      rw [hdd] at hsd
      have hre : ¬ (rows.map Prod.fst).isEmpty = true := by
        rw [List.isEmpty_iff, List.map_eq_nil_iff]
        exact hd.resolve_left (by rw [hdd]; simp)
      obtain ⟨v, hv⟩ : ∃ v, oiCalcDelta o (fin ((d 0 0).getD 1)) (rows.map Prod.fst) = ok v := by
        unfold oiCalcDelta
        rw [if_neg hre]
        exact ⟨_, rfl⟩
      simp only [OiNumbers.coded, Option.map_some, Option.getD_some] at hsd
      refine ⟨some v, .inr ⟨_, v, rfl, ?_, rfl⟩, ?_⟩
      · dsimp only
        rw [hsd]
        exact hv
      · intro d' hd'
        cases hd'
        exact ⟨v, hv, rfl⟩
  have ht : oiTime A o dist np nY nX nE grid S f (OiNumbers.coded N.bias) (OiNumbers.coded N.delta) =
      ok (oiField nY nX nE (fun y x e =>
          if Client.isValid ((((((List.range nY).map fun y => (List.range nX).map (cell y)).getD y [])[x]?).getD ⟨[], [], 0⟩).out.getD e nan) then
            oiInvTransform o ((((((List.range nY).map fun y => (List.range nX).map (cell y)).getD y [])[x]?).getD ⟨[], [], 0⟩).out.getD e nan)
          else (((((List.range nY).map fun y => (List.range nX).map (cell y)).getD y [])[x]?).getD ⟨[], [], 0⟩).out.getD e nan),
        (N.startBias.map fun b y x => (fin (b y x) : Fl K)).map (fun _ y x => (((((List.range nY).map fun y => (List.range nX).map (cell y)).getD y [])[x]?).getD ⟨[], [], 0⟩).bias), nd) := by
    unfold oiTime
    dsimp only
    rw [h.startBias, hc, ok_bind, h.members, hsingle]
    dsimp only
    rw [if_neg (by simp), ok_bind]
    rcases hnd with ⟨e1, e2⟩ | ⟨d, v, e1, e2, e3⟩
    · rw [e1, e2]
      rfl
    · rw [e1, e3]
      dsimp only
      rw [e2]
      rfl
  refine ⟨_, ht, fun y hy x hx => ⟨fun e he => ?_, ?_⟩, hnd'⟩
  · rw [oiField_get _ hy hx he, hcell hy hx]
  · rw [Option.map_map, Option.map_map]
    simp only [Function.comp_def, hcell hy hx]

/-- C140: one time in ensemble mode with two parameters, for any sizes of the grid and numbers of stations and members. The members that have values
everywhere are transformed and used. At a grid point with stations the result is the Kalman update `a` of the transformed members, with the forecasts
at the grid points nearest to the stations, moved to the elevations of the stations, and without the bias, as it was at the last time multiplied by `mu`; the factor of the
covariances is that of the last time, 1 if missing. The analysis (`OiSaved`: see C135 and C136) is transformed back. At a grid point without stations the
transformed values are transformed back. Members with missing values stay missing. Partial: a member is assumed to have values everywhere or nowhere. -/
theorem c140_step_partial {A : ArmaE K} (hA : A.Lawful) (dist : Fl K → Fl K → Fl K → Fl K → Res (Fl K)) (h : OiStep o nY nX nE M N grid S f)
    (hmode : o.useEns = true) (hmin : o.minEns ≤ (M.card : Int)) (h2 : 2 ≤ M.card) {sg gamma : K} (hsg : o.sigma = fin sg) (hsg0 : sg ≠ 0)
    (hci : ∀ i < S.stations.length, 0 < N.ci i) (hg : N.bias ≠ none → o.gamma = fin gamma ∧ 0 < 1 + gamma) (hδ : ∀ y x, 0 < N.startDelta y x)
    (hd : N.delta = none ∨ S.stations ≠ []) {G : Nat → Nat → Nat → K} {sel : Nat → Nat → List Nat}
    (hsel : ∀ y < nY, ∀ x < nX, oiLocal A.toArma o dist S.regular nY nX S.stations (grid y x) (S.assigned y x) = ok (rhoPairs (G y x) (sel y x)) ∧
      ∀ i ∈ sel y x, i < S.stations.length ∧ 0 < G y x i) :
    ∃ r, oiTime A o dist 2 nY nX nE grid S f (OiNumbers.coded N.bias) (OiNumbers.coded N.delta) = ok r ∧
      ∀ y < nY, ∀ x < nX, (∀ e < nE, e ∉ M → r.1.get y x e = ok Client.MV) ∧
        (sel y x = [] → (∀ e ∈ M, r.1.get y x e = ok (if o.saveDiff then Client.MV else fin (N.Ti (N.back y x e)))) ∧
          r.2.1.map (fun b => b y x) = N.bias.map fun _ => fin 0) ∧
        (sel y x ≠ [] → ∃ a,
          Spec.InflatedUpdate M (N.back y x) (fun i => N.atStation ((sel y x).get i)) (oiInflation (N.startDelta y x) (N.bias.map fun _ => gamma))
            (fun i j => if i = j then sg * sg * N.ci ((sel y x).get i) / G y x ((sel y x).get i) else 0)
            (fun i => if o.diagnose then 1 else N.gap M ((sel y x).get i)) a ∧
          (∀ k : Fin (oiMembers nE M).length, ∃ v,
            OiSaved o (oiMembers nE M) (sel y x) N.obs (fun i => Spec.ensMean M (N.atStation i) - (N.startBias.map fun b => b (N.st i).y (N.st i).x).getD 0)
              (fun i e => N.atStation i e - Spec.ensMean M (N.atStation i)) (N.back y x) a k (fin v) ∧
            r.1.get y x ((oiMembers nE M).get k) = ok (if v = -999 then Client.MV else fin (N.Ti v))) ∧
          r.2.1.map (fun b => b y x) = N.startBias.map fun b => fin (b y x - gamma / (1 + gamma) * (Spec.ensMean M a - Spec.ensMean M (N.back y x)))) := by
  obtain ⟨rows, rl, -, cell, c1, c2⟩ := h.cells hA dist hmode hmin h2 hsg hsg0 hci hg hδ hsel
  have hlen := oiMembers_length h.member_lt
  obtain ⟨r, r1, r2, -⟩ := h.time dist hmode hmin 2 c1 (hd.imp id fun hne hc => hne (List.length_eq_zero_iff.mp (by rw [← rl, hc]; rfl)))
  have hnv : Client.isValid (Client.MV : Fl K) = false := by simp [Client.isValid, Client.MV]
  refine ⟨r, r1, fun y hy x hx => ⟨fun e he hm => ?_, fun hs => ⟨fun e he => ?_, ?_⟩, fun hs => ?_⟩⟩
  · have hv : (cell y x).out.getD e nan = Client.MV := by
      by_cases hs : sel y x = []
      · rw [(c2 y hy x hx).2.1 hs]
        dsimp only
        split
        · simp [List.getD, he]
        · simp only [List.getD, List.getElem?_map, List.getElem?_range he, Option.map_some, Option.getD_some]
          rw [h.back hy hx he, if_neg hm]
          rfl
      · obtain ⟨a, a1, -⟩ := (c2 y hy x hx).2.2 hs
        rw [List.getD, a1 e he hm]
        rfl
    rw [(r2 y hy x hx).1 e he, hv, hnv]
    rfl
  · have he' := h.member_lt e he
    rw [(r2 y hy x hx).1 e he', (c2 y hy x hx).2.1 hs]
    dsimp only
    by_cases hsd : o.saveDiff = true
    · rw [if_pos hsd, if_pos hsd]
      simp only [List.getD, List.getElem?_replicate_of_lt he', Option.getD_some, hnv]
      rfl
    · rw [if_neg hsd, if_neg hsd]
      simp only [List.getD, List.getElem?_map, List.getElem?_range he', Option.map_some, Option.getD_some]
      rw [h.back hy hx he', if_pos he, if_pos (by simp [Client.isValid, (h.value y hy x hx e he).2.2]), h.inverse]
  · rw [(r2 y hy x hx).2, (c2 y hy x hx).2.1 hs]
    unfold OiNumbers.startBias
    rw [Option.map_map]
    rfl
  · obtain ⟨a, -, a2, a3, a4⟩ := (c2 y hy x hx).2.2 hs
    refine ⟨a, a3, fun k => ?_, ?_⟩
    · obtain ⟨v, v1, v2⟩ := a4 k
      obtain ⟨w, rfl⟩ : ∃ w, v = fin w := by
        by_cases hsd : o.saveDiff = true
        · exact ⟨_, v2.1 hsd⟩
        · by_cases hex : o.extrapolate = true
          · exact ⟨_, v2.2.1 (by simpa using hsd) hex⟩
          · obtain ⟨r, _, _, hv, -⟩ := v2.2.2 (by simpa using hsd) (by simpa using hex)
            exact ⟨_, hv⟩
      refine ⟨w, v2, ?_⟩
      have he' : (oiMembers nE M).get k < nE := h.member_lt _ ((mem_oiMembers h.member_lt).mp (List.get_mem _ _))
      have hv : (cell y x).out.getD ((oiMembers nE M).get k) nan = fin w := by rw [List.getD, v1]; rfl
      rw [(r2 y hy x hx).1 _ he', hv]
      by_cases hw : w = -999
      · subst hw
        simp [Client.isValid, Client.MV]
      · rw [if_pos (by simp [Client.isValid, hw]), if_neg hw, h.inverse]
    · rw [(r2 y hy x hx).2, a2]
      cases hb : N.startBias with
      | none => rfl
      | some b => rfl

/-- C140: where there are no stations, values keep, if the transform keeps them (C132: values that are not negative). -/
theorem c140_unchanged {A : ArmaE K} (hA : A.Lawful) (dist : Fl K → Fl K → Fl K → Fl K → Res (Fl K)) (h : OiStep o nY nX nE M N grid S f)
    (hmode : o.useEns = true) (hmin : o.minEns ≤ (M.card : Int)) (h2 : 2 ≤ M.card) {sg gamma : K} (hsg : o.sigma = fin sg) (hsg0 : sg ≠ 0)
    (hci : ∀ i < S.stations.length, 0 < N.ci i) (hg : N.bias ≠ none → o.gamma = fin gamma ∧ 0 < 1 + gamma) (hδ : ∀ y x, 0 < N.startDelta y x)
    (hd : N.delta = none ∨ S.stations ≠ []) {G : Nat → Nat → Nat → K} {sel : Nat → Nat → List Nat}
    (hsel : ∀ y < nY, ∀ x < nX, oiLocal A.toArma o dist S.regular nY nX S.stations (grid y x) (S.assigned y x) = ok (rhoPairs (G y x) (sel y x)) ∧
      ∀ i ∈ sel y x, i < S.stations.length ∧ 0 < G y x i) (hdiff : o.saveDiff = false) :
    ∃ r, oiTime A o dist 2 nY nX nE grid S f (OiNumbers.coded N.bias) (OiNumbers.coded N.delta) = ok r ∧
      ∀ y < nY, ∀ x < nX, sel y x = [] → ∀ e < nE, (e ∈ M → N.Ti (N.T (N.u y x e)) = N.u y x e) → r.1.get y x e = ok (f y x e) := by
  obtain ⟨r, r1, r2⟩ := c140_step_partial hA dist h hmode hmin h2 hsg hsg0 hci hg hδ hd hsel
  refine ⟨r, r1, fun y hy x hx hs e he hT => ?_⟩
  by_cases hm : e ∈ M
  · rw [((r2 y hy x hx).2.1 hs).1 e hm, hdiff, (h.value y hy x hx e hm).1]
    simp only [OiNumbers.back, hT hm]
    rfl
  · rw [(r2 y hy x hx).1 e he hm, h.missing y hy x hx e he hm]

/-- C140: the new inflation factor, the same for all grid points, if all members have values: as in C139, from the factor at the first grid point. -/
theorem c140_delta_partial {A : ArmaE K} (hA : A.Lawful) (dist : Fl K → Fl K → Fl K → Fl K → Res (Fl K)) (h : OiStep o nY nX nE (Finset.range nE) N grid S f)
    (hmode : o.useEns = true) (hmin : o.minEns ≤ (nE : Int)) (h2 : 2 ≤ nE) {sg eps c v gamma : K} (hsg : o.sigma = fin sg) (hsg0 : sg ≠ 0)
    (heps : o.epsilon = fin eps) (heps0 : eps ≠ 0) (hc : o.c = fin c) (hv : o.newDeltaVar = fin v) (hc1 : 1 < c) (hv0 : 0 < v)
    (hci : ∀ i < S.stations.length, 0 < N.ci i) (hg : N.bias ≠ none → o.gamma = fin gamma ∧ 0 < 1 + gamma) (hδ : ∀ y x, 0 < N.startDelta y x)
    (hs : S.stations ≠ []) {d : Nat → Nat → Option K} (hd : N.delta = some d) {G : Nat → Nat → Nat → K} {sel : Nat → Nat → List Nat}
    (hsel : ∀ y < nY, ∀ x < nX, oiLocal A.toArma o dist S.regular nY nX S.stations (grid y x) (S.assigned y x) = ok (rhoPairs (G y x) (sel y x)) ∧
      ∀ i ∈ sel y x, i < S.stations.length ∧ 0 < G y x i)
    (hdev : ∀ i < S.stations.length, ∀ e < nE, N.atStation i e - Spec.ensMean (Finset.range nE) (N.atStation i) ≠ -999)
    (hvar : meanVariance nE S.stations.length N.atStation ≠ 0) :
    ∃ r nd ratio, oiTime A o dist 2 nY nX nE grid S f (OiNumbers.coded N.bias) (OiNumbers.coded N.delta) = ok r ∧ r.2.2 = some (fin nd) ∧
      ratio = (sg / eps) ^ 2 / meanVariance nE S.stations.length N.atStation ∧
      nd = (v * ((d 0 0).getD 1) + (c - 1) * ratio) / (v + (c - 1)) := by
  obtain ⟨rows, rl, rr, cell, c1, -⟩ := h.cells hA dist hmode (by simpa using hmin) (by simpa using h2) hsg hsg0 hci hg hδ hsel
  have hrows : rows ≠ [] := fun hc => hs (List.length_eq_zero_iff.mp (by rw [← rl, hc]; rfl))
  obtain ⟨r, r1, -, r3⟩ := h.time dist hmode (by simpa using hmin) 2 c1 (.inr hrows)
  obtain ⟨w, w1, w2⟩ := r3 d (by rw [hd]; rfl)
  have hlen : ∀ i < S.stations.length, ∀ row q, rows[i]? = some (row, q) → row.length = nE := by
    intro i hi row q hq
    unfold oiCells at c1
    cases hm : mapM (fun s : OiStation K => oiForecast o s.elev (grid s.y s.x).elev ((N.startBias.map fun b y x => fin (b y x)).map fun b => b s.y s.x)
      ((List.range nE).map (oiBackground o f s.y s.x))) S.stations with
    | throw e => rw [hm] at c1; cases c1
    | abort => rw [hm] at c1; cases c1
    | ub => rw [hm] at c1; cases c1
    | ok g =>
      rw [hm, ok_bind] at c1
      dsimp only at c1
      obtain ⟨z, hz, hz'⟩ := Res.bind_eq_ok.mp c1
      have : g = rows := congrArg Prod.snd (Res.ok.inj hz')
      subst this
      have hf := (List.forall₂_iff_get.mp (mapM_eq_ok hm)).2 i hi (by rw [rl]; exact hi)
      have hgi : g.get ⟨i, by rw [rl]; exact hi⟩ = (row, q) := by
        have hlt : i < g.length := by rw [rl]; exact hi
        rw [List.getElem?_eq_getElem hlt] at hq
        exact Option.some.inj hq
      rw [hgi] at hf
      unfold oiForecast at hf
      obtain ⟨cc, -, hf'⟩ := Res.bind_eq_ok.mp hf
      have := congrArg Prod.fst (Res.ok.inj hf')
      dsimp only at this
      rw [← this]
      simp
  have hfst : rows.map Prod.fst = (List.range S.stations.length).map fun i => (List.range nE).map fun e =>
      fin (N.atStation i e - Spec.ensMean (Finset.range nE) (N.atStation i)) := by
    apply List.ext_getElem?
    intro i
    by_cases hi : i < S.stations.length
    · obtain ⟨row, q1, q2⟩ := rr i hi
      have hl := hlen i hi row _ q1
      simp only [List.getElem?_map, q1, List.getElem?_range hi, Option.map_some]
      congr 1
      apply List.ext_getElem?
      intro e
      by_cases he : e < nE
      · rw [q2 e (by simpa using he)]
        simp [he]
      · rw [List.getElem?_eq_none (by omega), List.getElem?_eq_none (by simp; omega)]
    · rw [List.getElem?_eq_none (by simp; omega), List.getElem?_eq_none (by simp; omega)]
  obtain ⟨nd, ratio, d1, d2, d3, -⟩ := c139_delta_partial hsg heps heps0 hc hv hc1 hv0 h2 (List.length_pos_of_ne_nil hs) N.atStation hdev hvar ((d 0 0).getD 1)
  rw [← hfst, w1] at d1
  exact ⟨r, nd, ratio, r1, by rw [w2, Res.ok.inj d1], d2, d3⟩

end

section
variable [FloorRing K] [HasExp K]

/-- C140: a station has the transformed observation, the variance 1 unless it has two parameters, and is a radar station if it has a third one. -/
theorem c140_station (o : OiOptions K) (near : Fl K → Fl K → Res (Nat × Nat)) (grid : Nat → Nat → OiPlace K) (lat lon elev a b c : Fl K) {y x : Nat}
    (hn : near lat lon = ok (y, x)) :
    oiStation o near grid lat lon elev [a] = ok ⟨lat, lon, elev, oiTransform o a, 1, 0, y, x, (grid y x).laf⟩ ∧
    oiStation o near grid lat lon elev [a, b] = ok ⟨lat, lon, elev, oiTransform o a, b, 0, y, x, (grid y x).laf⟩ ∧
    oiStation o near grid lat lon elev [a, b, c] = ok ⟨lat, lon, elev, oiTransform o a, 1, c, y, x, (grid y x).laf⟩ ∧
    oiStation o near grid lat lon elev [] = .abort := by
  refine ⟨?_, ?_, ?_, rfl⟩ <;> simp [oiStation, hn, assert, vget]

end

/-- C140: a member is used if it has values at all grid points. -/
theorem c140_members (nY nX nE : Nat) (f : Nat → Nat → Nat → Fl K) (e : Nat) :
    e ∈ oiValidEns nY nX nE f ↔ e < nE ∧ ∀ y < nY, ∀ x < nX, Client.isValid (f y x e) = true := by
  unfold oiValidEns
  rw [List.mem_filter, List.mem_range]
  refine and_congr_right fun _ => ?_
  simp only [List.all_eq_true, List.mem_range]
  exact ⟨fun h y hy x hx => h x hx y hy, fun h x hx y hy => h y hy x hx⟩

/-- C140: it is false that only the members used count: here member 2 has no value at the second grid point and is not used. But the forecasts at a station at the first
grid point have the mean 5, that of all members, and the deviations of the members used are -3 and -1; their mean is 3. -/
theorem c140_dropped_false :
    oiValidEns 1 2 3 (fun _ x e => if x = 1 ∧ e = 2 then Client.MV else fin ([2, 4, 9].getD e 0 : ℚ)) = [0, 1] ∧
    oiForecast oiDefault (fin 50) (fin 50) none [fin 2, fin 4, fin 9] = ok ([fin (-3), fin (-1), fin 4], fin 5) ∧ ((2 : ℚ) + 4) / 2 = 3 := by
  refine ⟨by decide +kernel, by decide +kernel, by norm_num⟩

/-! ### The assumptions can be met -/

namespace OiCase

/-- Two grid points with three members, the second one missing, and one station at the first grid point. -/
noncomputable def numbers : OiNumbers ℝ :=
  { T := id, Ti := id, u := fun _ x e => (x + e : Nat), st := fun _ => ⟨fin 60, fin 10, fin 50, fin 3, fin 1, 0, 0, 0, fin 1⟩, obs := fun _ => 3, ci := fun _ => 1,
    elev := fun _ => 50, gridElev := fun _ _ => 40, gradient := -999, bias := some fun _ x => if x = 0 then some 1 else none, mu := 9 / 10,
    delta := some fun _ x => if x = 0 then none else some 2, delta0 := 1 }

noncomputable def setup : OiSetup ℝ := ⟨false, [⟨fin 60, fin 10, fin 50, fin 3, fin 1, 0, 0, 0, fin 1⟩], fun _ x => if x = 0 then [0] else []⟩

noncomputable def field (_ x e : Nat) : Fl ℝ := if e = 1 then Client.MV else fin (x + e : Nat)

theorem step : OiStep oiReal 1 2 3 {0, 2} numbers (fun _ _ => ⟨fin 60, fin 10, fin 40, fin 1⟩) setup field := by
  have hat : ∀ i e, numbers.atStation i e = e := by
    intro i e
    simp [OiNumbers.atStation, OiNumbers.back, numbers]
  refine ⟨by omega, by omega, by simp, ?_, ?_, ?_, ?_, ?_, ?_, ?_, ?_, ?_, ?_, rfl, ?_, ?_, rfl, ?_, rfl⟩
  · intro y _ x _ e he
    have he1 : e ≠ 1 := by rintro rfl; simp at he
    have : ((x + e : Nat) : ℝ) ≠ -999 := by
      have : (0 : ℝ) ≤ ((x + e : Nat) : ℝ) := Nat.cast_nonneg _
      intro hc; rw [hc] at this; norm_num at this
    exact ⟨by rw [field, if_neg he1]; rfl, this, this⟩
  · intro y _ x _ e he hm
    have : e = 1 := by simp at hm; omega
    rw [field, if_pos this]
  · intro v; simp [oiTransform, oiReal, numbers]
  · intro v; simp [oiInvTransform, oiReal, numbers]
  · intro i hi
    have : i = 0 := by simp [setup] at hi; omega
    subst this; rfl
  · intro i _; simp [numbers]
  · intro i _; rfl
  · intro i _; rfl
  · intro i _; exact ⟨rfl, by norm_num [numbers]⟩
  · intro y _ x _; exact ⟨rfl, by norm_num [numbers]⟩
  · intro i _
    have hf : numbers.atStation i = fun e : Nat => (e : ℝ) := funext (hat i)
    refine ⟨fun e _ => ?_, ?_⟩
    · rw [hat]
      have : (0 : ℝ) ≤ (e : ℝ) := Nat.cast_nonneg _
      intro hc; rw [hc] at this; norm_num at this
    · rw [hf]
      norm_num [Spec.ensMean]
  · intro b hb y x
    simp only [numbers, Option.mem_def, Option.some.injEq] at hb
    subst hb
    dsimp only
    split <;> first | exact fun hc => Option.noConfusion rfl (heq_of_eq hc) | norm_num
  · intro d hd y x
    simp only [numbers, Option.mem_def, Option.some.injEq] at hd
    subst hd
    dsimp only
    split <;> first | exact fun hc => Option.noConfusion rfl (heq_of_eq hc) | norm_num

theorem scales : OiScales oiReal 30000 (some 100) none (some (1 / 5)) :=
  ⟨rfl, rfl, rfl, rfl, by norm_num, by norm_num, by simp, by norm_num⟩

/-- The station is used at the first grid point, with the correlation `exp (-1/200)` for the difference in elevation. -/
theorem chosen (x : Nat) : ∃ g : ℝ, 0 < g ∧ oiLocal ArmaE.exact.toArma oiReal (fun _ _ _ _ => ok (fin 0)) setup.regular 1 2 setup.stations ⟨fin 60, fin 10, fin 40, fin 1⟩ (setup.assigned 0 x) =
    ok (rhoPairs (fun _ => g) (if x = 0 then [0] else [])) := by
  have hr := calcRho_eq scales 0 (some 10) (by norm_num) 0
  rw [oiCorrelation_some, show oiReal.soar = false from rfl] at hr
  have hb : Spec.barnes ((10 : ℝ) / 100) = Real.exp (-1 / 200) := by
    show HasExp.exp _ = Real.exp _
    show Real.exp _ = Real.exp _
    congr 1
    norm_num
  have hg : oiFunction false ((0 : ℝ) / 30000) * Spec.factor Spec.barnes (some 100) 10 * Spec.landFactor none 0 * Spec.factor Spec.barnes (some (1 / 5)) 0 = Real.exp (-1 / 200) := by
    rw [zero_div, oiFunction_zero]
    simp only [Spec.factor, Spec.landFactor, hb]
    rw [zero_div, barnes_zero]
    ring
  rw [hg, Option.getD_some] at hr
  have hlt : (13 / 10000 : ℝ) < Real.exp (-1 / 200) := by
    have := Real.add_one_le_exp (-1 / 200 : ℝ)
    linarith
  refine ⟨Real.exp (-1 / 200), Real.exp_pos _, ?_⟩
  by_cases hx : x = 0
  · have hv : oiVdist (fin (50 : ℝ)) (fin 40) = fin 10 := by
      have : (fin (50 : ℝ)).fne 0 = true := by
        show (fin (50 : ℝ)).fne (fin 0) = true
        simp [Fl.fne, Fl.feq]
      rw [oiVdist, this]
      simp [Client.isValid, Fl.fin_sub, one_def]
      norm_num
    have hl : oiCandidates oiReal (fun _ _ _ _ => ok (fin 0)) setup.regular 1 2 setup.stations ⟨fin 60, fin 10, fin 40, fin 1⟩ [0] = ok [(fin (Real.exp (-1 / 200)), 0)] := by
      unfold oiCandidates oiRhoGrid
      simp only [mapM_cons, mapM_nil, setup]
      rw [vget_some (a := (⟨fin 60, fin 10, fin 50, fin 3, fin 1, 0, 0, 0, fin 1⟩ : OiStation ℝ)) rfl, ok_bind]
      dsimp only
      rw [ok_bind, hv, show (if Client.isValid (fin (1 : ℝ)) && Client.isValid (fin (1 : ℝ)) then fin 1 - fin 1 else 0) = (fin 0 : Fl ℝ) by
        rw [show Client.isValid (fin (1 : ℝ)) = true by norm_num [Client.isValid]]; simp [Fl.fin_sub], hr]
      have : (fin (Real.exp (-1 / 200))).gt oiReal.minRho = true := by
        show (fin (Real.exp (-1 / 200))).gt (fin (13 / 10000)) = true
        simpa using hlt
      simp [this, oiInside]
    unfold oiLocal
    rw [show setup.assigned 0 x = [0] by simp [setup, hx], hl, ok_bind, if_pos hx]
    simp [oiDropBest, oiReal, oiLimitLocations, rhoPairs]
  · rw [show setup.assigned 0 x = [] by simp [setup, hx], if_neg hx]
    simp [oiLocal, oiCandidates, oiDropBest, oiReal, oiLimitLocations, rhoPairs]

/-- The assumptions of `c140_step_partial`. -/
example : ∃ r, oiTime ArmaE.exact oiReal (fun _ _ _ _ => ok (fin 0)) 2 1 2 3 (fun _ _ => ⟨fin 60, fin 10, fin 40, fin 1⟩) setup field
    (OiNumbers.coded numbers.bias) (OiNumbers.coded numbers.delta) = ok r ∧ r.1.get 0 1 2 = ok (fin 3) := by
  choose g g1 g2 using chosen
  obtain ⟨r, r1, r2⟩ := c140_step_partial (gamma := 1 / 4) (sg := 1 / 2) ArmaE.exact_lawful (fun _ _ _ _ => ok (fin 0)) step rfl (by simp [oiReal]) (by simp) rfl (by norm_num) (by simp [numbers])
    (fun _ => ⟨rfl, by norm_num⟩) (by intro y x; simp only [OiNumbers.startDelta, numbers]; split <;> norm_num) (.inr (by simp [setup]))
    (G := fun _ x _ => g x) (sel := fun _ x => if x = 0 then [0] else [])
    (by
      intro y hy x hx
      have : y = 0 := by omega
      subst this
      refine ⟨g2 x, fun i hi => ⟨?_, g1 x⟩⟩
      split at hi
      · simp at hi; simp [setup, hi]
      · simp at hi)
  refine ⟨r, r1, ?_⟩
  have := ((r2 0 (by omega) 1 (by omega)).2.1 rfl).1 2 (by simp)
  rw [this]
  simp [oiReal, OiNumbers.back, numbers]
  norm_num

end OiCase

end Gridpp.Props
