import Verif.Lemmas.Client.OiStations
import Verif.Props.Client.OiRho

/-! # C133: the stations used at a grid point by the calibrator `oi` -/

set_option linter.unusedSectionVars false

namespace Gridpp.Props
open Fl hiding MV isValid
open Res Client

variable {K : Type} [Field K] [LinearOrder K] [IsStrictOrderedRing K]

/-- The facts `f` about the station `s`; a missing value is -999. -/
structure OiKnown (grid : Nat → Nat → OiPlace K) (s : OiStation K) (f : Spec.OiFacts K) : Prop where
  obs : s.obs = fin (f.obs.getD (-999))
  obs_ne : f.obs ≠ some (-999)
  elev : s.elev = fin (f.elev.getD (-999))
  elev_ne : f.elev ≠ some (-999)
  y : s.y = f.y
  x : s.x = f.x
  gridElev : (grid f.y f.x).elev = fin f.gridElev
  laf : s.laf = fin (f.land.getD (-999))
  land : f.land ≠ some (-999)

theorem isValid_getD (a : Option K) (h : a ≠ some (-999)) : Client.isValid (fin (a.getD (-999))) = a.isSome := by
  cases a with
  | none => simp [Client.isValid]
  | some x =>
    have : x ≠ -999 := fun e => h (by rw [e])
    simp [Client.isValid, this]

theorem oiInside_iff (regular : Bool) (nY nX : Nat) {grid : Nat → Nat → OiPlace K} {s : OiStation K} {f : Spec.OiFacts K} (h : OiKnown grid s f) :
    oiInside regular nY nX s = true ↔ (regular = true → Spec.OiInterior nY nX f) := by
  unfold oiInside Spec.OiInterior
  rw [← h.y, ← h.x]
  cases regular
  · simp
  · simp only [Bool.not_true, Bool.false_or, Bool.and_eq_true, decide_eq_true_eq, forall_true_left]
    omega

theorem oiKept_iff {o : OiOptions K} {limit : Option K} (hlim : o.maxElevDiff = fin (limit.getD (-999))) (hl0 : ∀ m ∈ limit, 0 ≤ m) (regular : Bool) (nY nX : Nat)
    {grid : Nat → Nat → OiPlace K} {s : OiStation K} {f : Spec.OiFacts K} (h : OiKnown grid s f) :
    oiKept o regular nY nX grid s = true ↔ (regular = true → Spec.OiInterior nY nX f) ∧ Spec.OiAcceptable limit o.landOnly f := by
  unfold oiKept
  rw [Bool.and_eq_true, Bool.and_eq_true, Bool.and_eq_true, oiInside_iff regular nY nX h, h.obs, isValid_getD _ h.obs_ne]
  have e1 : oiElevOk o s.elev (grid s.y s.x).elev = true ↔ ∀ m ∈ limit, ∃ e ∈ f.elev, |e - f.gridElev| < m := by
    unfold oiElevOk
    rw [hlim, valid_getD limit hl0, h.elev, isValid_getD _ h.elev_ne, h.y, h.x, h.gridElev]
    cases limit with
    | none => simp
    | some m =>
      cases f.elev with
      | none => simp
      | some e => simp [Fl.abs]
  have e2 : (!(Client.isValid s.laf && o.landOnly && s.laf.feq 0)) = true ↔ (o.landOnly = true → f.land ≠ some 0) := by
    rw [h.laf, isValid_getD _ h.land]
    cases f.land with
    | none => simp
    | some v =>
      show (!((Option.isSome (some v)) && o.landOnly && (fin v : Fl K).feq (fin 0))) = true ↔ _
      cases o.landOnly <;> simp [Fl.feq]
  rw [e1, e2]
  constructor
  · rintro ⟨⟨⟨a, b⟩, c⟩, d⟩
    exact ⟨a, ⟨(fun hh => by rw [hh] at b; cases b), c, d⟩⟩
  · rintro ⟨a, ⟨b, c, d⟩⟩
    exact ⟨⟨⟨a, Option.isSome_iff_ne_none.mpr b⟩, c⟩, d⟩

theorem oiCovers_iff (r : Int) {nY nX : Nat} {grid : Nat → Nat → OiPlace K} {s : OiStation K} {f : Spec.OiFacts K} (h : OiKnown grid s f) {y x : Nat}
    (hy : y < nY) (hx : x < nX) : oiCovers r nY nX s y x = true ↔ Spec.OiWindow r f y x := by
  unfold oiCovers Spec.OiWindow
  rw [h.y, h.x]
  simp only [Bool.and_eq_true, decide_eq_true_eq]
  omega

section
variable [HasExp K]

/-- What follows the assignment of stations to the grid point. -/
theorem oiLocal_spec {A : Arma K} (hA : A.Lawful) {o : OiOptions K} {m : K} (hm : o.minRho = fin m) (hm0 : 0 ≤ m)
    (dist : Fl K → Fl K → Fl K → Fl K → Res (Fl K)) (regular : Bool) (nY nX : Nat) {grid : Nat → Nat → OiPlace K} (st : List (OiStation K)) (f : Nat → Spec.OiFacts K)
    (hf : ∀ i s, st[i]? = some s → OiKnown grid s (f i)) (g : OiPlace K) (rho : Nat → K)
    (hrho : ∀ i s, st[i]? = some s → oiRhoGrid o dist g s = ok (fin (rho i))) (p : Nat → Bool)
    (hp : ∀ i < st.length, p i = true → regular = true → Spec.OiInterior nY nX (f i)) :
    ∃ sel, oiLocal A o dist regular nY nX st g ((List.range st.length).filter p) = ok (rhoPairs rho sel) ∧
      Spec.StationChoice o.crossValidate (fun i => i < st.length ∧ p i = true ∧ m < rho i) rho
        (if 0 ≤ o.maxLocations then some o.maxLocations.toNat else none) sel := by
  have h1 : oiCandidates o dist regular nY nX st g ((List.range st.length).filter p) =
      ok (rhoPairs rho (((List.range st.length).filter p).filter fun i => decide (m < rho i))) := by
    unfold oiCandidates
    rw [mapM_ok (g := fun i => if (decide (m < rho i)) = true then some (fin (rho i), i) else none)]
    · rw [ok_bind, filterMap_ite]
    · intro i hi
      obtain ⟨hi1, hi2⟩ := List.mem_filter.mp hi
      have hi3 := List.mem_range.mp hi1
      have hs := List.getElem?_eq_getElem hi3
      rw [vget_some hs, ok_bind, hrho i _ hs, ok_bind, (oiInside_iff regular nY nX (hf i _ hs)).mpr (hp i hi3 hi2), hm]
      simp
  have hn : (((List.range st.length).filter p).filter fun i => decide (m < rho i)).Nodup := (List.nodup_range.filter _).filter _
  have hmem : ∀ i, i ∈ (((List.range st.length).filter p).filter fun i => decide (m < rho i)) ↔ i < st.length ∧ p i = true ∧ m < rho i := by
    intro i; simp only [List.mem_filter, List.mem_range, decide_eq_true_eq, and_assoc]
  obtain ⟨idx', h2, h3, h4, h5⟩ := oiDropBest_eq o.crossValidate rho _ hn (fun i hi => hm0.trans_lt ((hmem i).mp hi).2.2)
  obtain ⟨sel, h6, h7⟩ := oiLimitLocations_eq hA o.maxLocations rho idx' h3
  have hu : (· ∈ (((List.range st.length).filter p).filter fun i => decide (m < rho i))) = fun i => i < st.length ∧ p i = true ∧ m < rho i :=
    funext fun i => propext (hmem i)
  refine ⟨sel, ?_, (· ∈ idx'), fun hc => ?_, fun hc => ?_, h7⟩
  · unfold oiLocal
    rw [h1, ok_bind, h2, h6]
  · rw [h4 hc]; exact hu
  · have := h5 hc
    rwa [hu] at this

variable [HasSqrt K]

/-- C133: the stations used at the grid point `(y, x)` of a regular grid, for any number of stations: those accepted, with the nearest
grid point not at the edge of the grid, with the grid point in their square, and with a correlation above the limit `m`; at most
`maxLocations` of them, the best correlated ones, or all if the option is negative. With cross-validation, the best correlated one is left out
first. Partial: the square has one point less after the station than before it, see `c133_window_false`. -/
theorem c133_regular_partial {A : Arma K} (hA : A.Lawful) {o : OiOptions K} {m : K} (hm : o.minRho = fin m) (hm0 : 0 ≤ m)
    {limit : Option K} (hlim : o.maxElevDiff = fin (limit.getD (-999))) (hl0 : ∀ a ∈ limit, 0 ≤ a)
    (dist : Fl K → Fl K → Fl K → Fl K → Res (Fl K)) (r : Int) {nY nX : Nat} {grid : Nat → Nat → OiPlace K} (st : List (OiStation K)) (f : Nat → Spec.OiFacts K)
    (hf : ∀ i s, st[i]? = some s → OiKnown grid s (f i)) {y x : Nat} (hy : y < nY) (hx : x < nX) (rho : Nat → K)
    (hrho : ∀ i s, st[i]? = some s → oiRhoGrid o dist (grid y x) s = ok (fin (rho i))) :
    ∃ idx sel, oiAssigned o dist (some r) nY nX grid st y x = ok idx ∧ oiLocal A o dist true nY nX st (grid y x) idx = ok (rhoPairs rho sel) ∧
      Spec.StationChoice o.crossValidate (fun i => i < st.length ∧ (Spec.OiInterior nY nX (f i) ∧ Spec.OiAcceptable limit o.landOnly (f i) ∧
        Spec.OiWindow r (f i) y x) ∧ m < rho i) rho (if 0 ≤ o.maxLocations then some o.maxLocations.toNat else none) sel := by
  classical
  let p : Nat → Bool := fun i => decide (Spec.OiInterior nY nX (f i) ∧ Spec.OiAcceptable limit o.landOnly (f i) ∧ Spec.OiWindow r (f i) y x)
  obtain ⟨sel, h1, h2⟩ := oiLocal_spec hA hm hm0 dist true nY nX st f hf (grid y x) rho hrho p (fun i _ hi _ => (of_decide_eq_true hi).1)
  refine ⟨(List.range st.length).filter p, sel, ?_, h1, ?_⟩
  · unfold oiAssigned
    rw [mapM_ok (g := fun i => if p i = true then some i else none)]
    · rw [ok_bind, filterMap_ite, List.map_id']
    · intro i hi
      have hs := List.getElem?_eq_getElem (List.mem_range.mp hi)
      have hk := oiKept_iff hlim hl0 true nY nX (hf i _ hs)
      have hc := oiCovers_iff r (hf i _ hs) hy hx
      rw [vget_some hs, ok_bind]
      simp only [forall_true_left] at hk
      by_cases h3 : Spec.OiInterior nY nX (f i) ∧ Spec.OiAcceptable limit o.landOnly (f i)
      · rw [if_pos (by exact hk.mpr h3)]
        by_cases h4 : Spec.OiWindow r (f i) y x
        · simp only [if_pos (hc.mpr h4)]
          rw [if_pos (decide_eq_true ⟨h3.1, h3.2, h4⟩)]
        · simp only [if_neg (fun hh => h4 (hc.mp hh))]
          rw [if_neg (fun hh => h4 (of_decide_eq_true hh).2.2)]
      · rw [if_neg (by exact fun hh => h3 (hk.mp hh)), if_neg (fun hh => h3 ⟨(of_decide_eq_true hh).1, (of_decide_eq_true hh).2.1⟩)]
  · have : (fun i => i < st.length ∧ p i = true ∧ m < rho i) = (fun i => i < st.length ∧ (Spec.OiInterior nY nX (f i) ∧ Spec.OiAcceptable limit o.landOnly (f i) ∧
        Spec.OiWindow r (f i) y x) ∧ m < rho i) := funext fun i => propext (by simp only [p, decide_eq_true_eq])
    rwa [this] at h2

/-- C133: the same in a grid that is not regular: here the distance `d i` of the station must be less than the radius `R`, made from
the horizontal scale and the least correlation. -/
theorem c133_irregular_partial {A : Arma K} (hA : A.Lawful) {o : OiOptions K} {m : K} (hm : o.minRho = fin m) (hm0 : 0 ≤ m)
    {limit : Option K} (hlim : o.maxElevDiff = fin (limit.getD (-999))) (hl0 : ∀ a ∈ limit, 0 ≤ a)
    (dist : Fl K → Fl K → Fl K → Fl K → Res (Fl K)) {R : K} (hR : oiRadiusFactor o * o.hLength = fin R) {nY nX : Nat} {grid : Nat → Nat → OiPlace K}
    (st : List (OiStation K)) (f : Nat → Spec.OiFacts K) (hf : ∀ i s, st[i]? = some s → OiKnown grid s (f i)) (y x : Nat) (d rho : Nat → K)
    (hd : ∀ i s, st[i]? = some s → dist s.lat s.lon (grid y x).lat (grid y x).lon = ok (fin (d i)))
    (hrho : ∀ i s, st[i]? = some s → oiRhoGrid o dist (grid y x) s = ok (fin (rho i))) :
    ∃ idx sel, oiAssigned o dist none nY nX grid st y x = ok idx ∧ oiLocal A o dist false nY nX st (grid y x) idx = ok (rhoPairs rho sel) ∧
      Spec.StationChoice o.crossValidate (fun i => i < st.length ∧ (Spec.OiAcceptable limit o.landOnly (f i) ∧ d i < R) ∧ m < rho i) rho
        (if 0 ≤ o.maxLocations then some o.maxLocations.toNat else none) sel := by
  classical
  let p : Nat → Bool := fun i => decide (Spec.OiAcceptable limit o.landOnly (f i) ∧ d i < R)
  obtain ⟨sel, h1, h2⟩ := oiLocal_spec hA hm hm0 dist false nY nX st f hf (grid y x) rho hrho p (fun i _ hi h => by cases h)
  refine ⟨(List.range st.length).filter p, sel, ?_, h1, ?_⟩
  · unfold oiAssigned
    rw [mapM_ok (g := fun i => if p i = true then some i else none)]
    · rw [ok_bind, filterMap_ite, List.map_id']
    · intro i hi
      have hs := List.getElem?_eq_getElem (List.mem_range.mp hi)
      have hk := oiKept_iff hlim hl0 false nY nX (hf i _ hs)
      simp only [Bool.false_eq_true, false_imp_iff, true_and] at hk
      rw [vget_some hs, ok_bind]
      by_cases h3 : Spec.OiAcceptable limit o.landOnly (f i)
      · rw [if_pos (by exact hk.mpr h3)]
        simp only [hd i _ hs, ok_bind, hR]
        by_cases h4 : d i < R
        · rw [if_pos (show p i = true from decide_eq_true ⟨h3, h4⟩), if_pos (show (fin (d i) : Fl K).lt (fin R) = true by simpa using h4)]
        · rw [if_neg (show ¬ p i = true from fun hh => h4 (of_decide_eq_true hh).2),
            if_neg (show ¬ (fin (d i) : Fl K).lt (fin R) = true by simpa using h4)]
      · rw [if_neg (by exact fun hh => h3 (hk.mp hh)), if_neg (fun hh => h3 (of_decide_eq_true hh).1)]
  · have : (fun i => i < st.length ∧ p i = true ∧ m < rho i) = (fun i => i < st.length ∧ (Spec.OiAcceptable limit o.landOnly (f i) ∧ d i < R) ∧ m < rho i) :=
      funext fun i => propext (by simp only [p, decide_eq_true_eq])
    rwa [this] at h2

end

omit [IsStrictOrderedRing K] in
/-- C133: it is false that a station is offered to the grid points on all sides in the same way: of two grid points at the same number of
rows before and after its own, the second one is not in its square. -/
theorem c133_window_false (r : Nat) (hr : 0 < r) (s : OiStation K) (nY nX : Nat) (hx : s.x < nX) (h1 : r ≤ s.y) (h2 : s.y + r < nY) :
    oiCovers r nY nX s (s.y - r) s.x = true ∧ oiCovers r nY nX s (s.y + r) s.x = false := by
  unfold oiCovers
  constructor
  · simp only [Bool.and_eq_true, decide_eq_true_eq]; omega
  · rw [Bool.eq_false_iff]
    simp only [ne_eq, Bool.and_eq_true, decide_eq_true_eq]; omega

/-- C133: it is false that all stations with a correlation above the limit are found: the radius belongs to the function `gauss`. With
`soar`, which falls more slowly, a station at that distance is not offered to the grid point, and its correlation is above the limit. -/
theorem c133_soar_false [LawfulSqrt K] [LawfulExp K] {o : OiOptions K} {H m : K} (h : OiScales o H none none none) (hs : o.soar = true)
    (hm : o.minRho = fin m) (hm0 : 0 < m) (hm1 : m < HasExp.exp (-1 / 2)) (dist : Fl K → Fl K → Fl K → Fl K → Res (Fl K)) (nY nX : Nat) (grid : Nat → Nat → OiPlace K)
    (s : OiStation K) (y x : Nat) : ∃ R rho : K, (0 < R ∧ (dist s.lat s.lon (grid y x).lat (grid y x).lon = ok (fin R) →
      oiAssigned o dist none nY nX grid [s] y x = ok [] ∧ ∀ v l, v ≠ -999 → calcRho o (fin R) (fin v) (fin l) = fin rho)) ∧ m < rho := by
  have hlog : HasExp.log m < -1 / 2 := by
    have := log_strictMono hm0 hm1
    rwa [LawfulExp.log_exp] at this
  have h0 : 0 ≤ -2 * HasExp.log m := by linarith
  have hu0 := LawfulSqrt.sqrt_nonneg _ h0
  have huu := LawfulSqrt.sqrt_mul_self _ h0
  have hR : oiRadiusFactor o = fin (HasSqrt.sqrt (-2 * HasExp.log m)) := by
    unfold oiRadiusFactor
    rw [hm]
    show Fl.sqrt (fin (-2) * (if 0 < m then fin (HasExp.log m) else _)) = _
    rw [if_pos hm0, Fl.fin_mul, Fl.sqrt_fin h0]
  generalize hu : HasSqrt.sqrt (-2 * HasExp.log m) = u at hu0 huu hR
  have hu1 : 1 < u := by nlinarith
  refine ⟨u * H, Spec.soar u, ⟨mul_pos (by linarith) h.H_pos, fun hd => ⟨?_, fun v l hv => ?_⟩⟩, ?_⟩
  · have e1 : mapM (fun i : Nat => do
        let s ← vget [s] (i : Int)
        if oiKept o false nY nX grid s then do
          let d ← dist s.lat s.lon (grid y x).lat (grid y x).lon
          ok (if d.lt (oiRadiusFactor o * o.hLength) then some i else none)
        else ok none) (List.range 1) = ok [none] := by
      show mapM _ [0] = _
      rw [mapM_cons, mapM_nil]
      have e2 : (vget [s] ((0 : Nat) : Int)) = ok s := rfl
      simp only [e2, ok_bind, hd, hR, h.hLength, Fl.fin_mul, Fl.lt_fin, lt_irrefl, decide_false, Bool.false_eq_true, if_false]
      split_ifs <;> rfl
    unfold oiAssigned
    exact congrArg (fun t => t >>= fun bs => ok (bs.filterMap id)) e1
  · have := calcRho_eq h (u * H) (some v) (fun x hx => by cases hx; exact hv) l
    rw [Option.getD_some] at this
    rw [this]
    unfold Spec.oiCorrelation
    rw [mul_div_cancel_right₀ _ h.H_pos.ne']
    simp [Spec.elevFactor, Spec.landFactor, Spec.factor, oiFunction, hs]
  · unfold Spec.soar
    have e1 : m = HasExp.exp (-(u * u / 2)) := by
      rw [huu, show -(-2 * HasExp.log m / 2) = HasExp.log m by ring, LawfulExp.exp_log m hm0]
    have e2 := LawfulExp.add_one_le_exp (u * u / 2 - u)
    have e3 : HasExp.exp (-u) = HasExp.exp (u * u / 2 - u) * (HasExp.exp (-(u * u / 2)) : K) := by
      rw [← LawfulExp.exp_add]; congr 1; ring
    rw [e3, ← e1, ← mul_assoc]
    have e4 : 1 < (1 + u) * HasExp.exp (u * u / 2 - u) := by
      refine lt_of_lt_of_le ?_ (mul_le_mul_of_nonneg_left e2 (by linarith))
      nlinarith [mul_pos (mul_pos (show 0 < u by linarith) (show 0 < u by linarith)) (show 0 < u - 1 by linarith)]
    nlinarith

/-- A station in the middle of a grid of 5 times 5 points meets the assumptions, and the point (1, 1) is in its square for the radius 2. -/
example : OiKnown (fun _ _ => (⟨0, 0, fin 10, fin 1⟩ : OiPlace ℚ)) ⟨fin 60, fin 10, fin 50, fin 3, fin 1, 0, 2, 2, fin 1⟩ ⟨some 3, some 50, 2, 2, 10, some 1⟩ ∧
    Spec.OiAcceptable (some (200 : ℚ)) false ⟨some 3, some 50, 2, 2, 10, some 1⟩ ∧ Spec.OiInterior 5 5 (⟨some 3, some 50, 2, 2, 10, some 1⟩ : Spec.OiFacts ℚ) ∧
    Spec.OiWindow 2 (⟨some 3, some 50, 2, 2, 10, some 1⟩ : Spec.OiFacts ℚ) 1 1 :=
  ⟨⟨rfl, by norm_num, rfl, by norm_num, rfl, rfl, rfl, rfl, by norm_num⟩,
    ⟨by simp, fun m hm => ⟨50, rfl, by cases hm; norm_num⟩, by simp⟩, by simp [Spec.OiInterior], by simp [Spec.OiWindow]⟩

end Gridpp.Props
