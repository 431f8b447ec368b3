import Verif.Lemmas.Client.Qq
import Verif.Spec.ClientStat
import Verif.Base.Inst
import Mathlib.Algebra.Order.Ring.Rat
import Mathlib.Algebra.Field.Rat

/-! # C106: quantile mapping in the client (src/client/Calibrator/Qq.cpp) -/

set_option linter.unusedSectionVars false

namespace Gridpp.Props
open Fl hiding MV isValid
open Res Client Spec

variable {K : Type} [Field K] [LinearOrder K] [IsStrictOrderedRing K]

/-- **C106** (partial: the slopes must be regular, see `c106_zero_false` and `c106_nearest_false`; the curve is finite).
With an even number of parameters, and at each point either a curve or a missing value in it: points with a missing
value in the curve are left as they are; elsewhere a missing member becomes -999 and any other is corrected by the
curve. -/
theorem c106_qq_partial (Y X E : Nat) (p : Extrapolation) (extraObs extraFcst : List (Fl K)) (n : Nat) (hn : n % 2 = 0)
    (params : Nat → Nat → Nat → List (Fl K)) (fields : List (FieldC K)) (hs : Series Y X E fields)
    (hp : ∀ t < fields.length, ∀ y < Y, ∀ x < X, QqMissing extraObs extraFcst (params t y x) ∨
      ∃ os fs, QqCurve extraObs extraFcst (params t y x) os fs ∧ QqRegular p fs) :
    ∃ out, qq Y X E p extraObs extraFcst n params fields = ok out ∧ out.length = fields.length ∧ Series Y X E out ∧
      ∀ t < fields.length, ∀ y < Y, ∀ x < X, ∀ e < E, ∃ v w, At fields t y x e v ∧ At out t y x e w ∧
        (QqMissing extraObs extraFcst (params t y x) → w = v) ∧
        (∀ os fs, QqCurve extraObs extraFcst (params t y x) os fs → QqRegular p fs →
          (∀ q, v = fin q → q ≠ -999 → ∃ r, w = fin r ∧ QqCorrected p os fs q r) ∧ (¬ Present v → w = fin (-999))) := by
  obtain ⟨out, h1, h2, h3, h4⟩ := qq_spec (E := E) (p := p) hn hs hp
  refine ⟨out, h1, h2, h3, fun t ht y hy x hx e he => ?_⟩
  obtain ⟨v, w, g1, g2, g3, g4⟩ := h4 t ht y hy x hx e he
  refine ⟨v, w, g1, g2, g3, fun os fs hc hr => ⟨fun q hv hq => ?_, (g4 os fs hc).2⟩⟩
  obtain ⟨r, hw, hr'⟩ := (g4 os fs hc).1 q hv hq
  obtain ⟨r', e1, e2⟩ := qqValue_spec hc.pos hc.len hc.fcst hc.sorted hr q
  rw [hr', Res.ok.injEq, Fl.fin.injEq] at e1
  exact ⟨r, hw, e1 ▸ e2⟩

/-- **C106** (order). If the observations of the curve are sorted too, members keep their order. -/
theorem c106_order (Y X E : Nat) (p : Extrapolation) (extraObs extraFcst : List (Fl K)) (n : Nat) (hn : n % 2 = 0)
    (params : Nat → Nat → Nat → List (Fl K)) (fields : List (FieldC K)) (hs : Series Y X E fields)
    (hp : ∀ t < fields.length, ∀ y < Y, ∀ x < X, QqMissing extraObs extraFcst (params t y x) ∨
      ∃ os fs, QqCurve extraObs extraFcst (params t y x) os fs ∧ QqRegular p fs)
    (out : List (FieldC K)) (hout : qq Y X E p extraObs extraFcst n params fields = ok out)
    (t y x : Nat) (ht : t < fields.length) (hy : y < Y) (hx : x < X) (os fs : List K)
    (hc : QqCurve extraObs extraFcst (params t y x) os fs) (ho : os.Pairwise (· ≤ ·)) (e e' : Nat) (he : e < E) (he' : e' < E)
    (v v' : K) (hv : At fields t y x e (fin v)) (hv' : At fields t y x e' (fin v')) (hm : v ≠ -999) (hm' : v' ≠ -999) (hle : v ≤ v') :
    ∃ w w', At out t y x e (fin w) ∧ At out t y x e' (fin w') ∧ w ≤ w' := by
  obtain ⟨out', h1, -, -, h4⟩ := qq_spec (E := E) (p := p) hn hs hp
  rw [hout, Res.ok.injEq] at h1
  subst h1
  obtain ⟨u, w, g1, g2, g3, g4⟩ := h4 t ht y hy x hx e he
  obtain ⟨u', w', k1, k2, k3, k4⟩ := h4 t ht y hy x hx e' he'
  obtain rfl := g1.unique hv
  obtain rfl := k1.unique hv'
  obtain ⟨r, rfl, hr⟩ := (g4 os fs hc).1 v rfl hm
  obtain ⟨r', rfl, hr'⟩ := (k4 os fs hc).1 v' rfl hm'
  refine ⟨r, r', g2, k2, ?_⟩
  rcases hp t ht y hy x hx with hmiss | ⟨os', fs', hc', hreg⟩
  · have a := g3 hmiss
    have b := k3 hmiss
    rw [Fl.fin.injEq] at a b
    rw [a, b]
    exact hle
  · have e1 := separate_curve hc
    rw [separate_curve hc', Res.ok.injEq, Prod.mk.injEq] at e1
    obtain rfl := (List.map_injective_iff.mpr Client.fin_injective) e1.2
    exact qqValue_mono hc.pos hc.len hc.fcst hc.sorted ho hreg hle hr hr'

/-- Two curves: one of three points, one with a missing observation. -/
example : QqCurve [] [] [fin 1, fin 2, fin 2, fin 4, fin 5, fin 6] ([1, 2, 5] : List ℚ) [2, 4, 6] ∧
    QqRegular .nearestSlope ([2, 4, 6] : List ℚ) ∧
    qq 1 1 3 .nearestSlope [] [] 6 (fun _ _ _ => [fin 1, fin 2, fin 2, fin 4, fin 5, fin 6]) [⟨[fin 0, fin 5, fin (-999)], 1, 1, 3⟩]
      = (ok [⟨[fin 0, fin (7/2), fin (-999)], 1, 1, 3⟩] : Res (List (FieldC ℚ))) := by
  refine ⟨⟨by decide, by decide, by decide +kernel, by decide +kernel, by decide +kernel, Or.inl ⟨rfl, rfl, rfl⟩⟩,
    ⟨by decide, by decide, by decide, fun _ _ => ⟨by norm_num, by norm_num⟩⟩, by decide +kernel⟩

example : QqMissing [fin 3] [fin 4] ([fin 1, fin 2, fin (-999), fin 4] : List (Fl ℚ)) :=
  ⟨by simp, rfl, ⟨fin (-999), by simp [firsts, seconds], by rintro ⟨q, h, hq⟩; cases h; exact hq rfl⟩, fun _ => by
    simp [firsts, seconds]⟩

/-- With an extra point the observations and the forecasts are sorted by themselves. -/
example : QqCurve [fin 0] [fin 3] [fin 1, fin 2, fin 5, fin 6] ([0, 1, 5] : List ℚ) [2, 3, 6] := by
  refine ⟨by decide, by decide, by decide +kernel, by decide +kernel, by decide +kernel, Or.inr ⟨by decide, rfl, by decide +kernel, ?_, ?_⟩⟩
  · exact (List.perm_append_comm (l₁ := [fin 0]) (l₂ := [fin 1, fin 5]))
  · exact List.Perm.cons _ (List.Perm.swap _ _ [])

/-- **C106** (errors). An odd number of parameters, and a point without parameters, end the process; with extra points, a
NaN among the parameters makes the sort undefined. -/
theorem c106_errors (Y X E : Nat) (p : Extrapolation) (extraObs extraFcst : List (Fl K)) (n : Nat)
    (params : Nat → Nat → Nat → List (Fl K)) (f : FieldC K) (fields : List (FieldC K)) (hY : 0 < Y) (hX : 0 < X) :
    (n % 2 = 1 → qq Y X E p extraObs extraFcst n params (f :: fields) = .abort) ∧
    (n % 2 = 0 → (params 0 0 0).length < 2 → extraObs = [] → qq Y X E p extraObs extraFcst n params (f :: fields) = .abort) ∧
    (n % 2 = 0 → extraObs ≠ [] → extraObs.length = extraFcst.length → nan ∈ firsts (params 0 0 0) →
      qq Y X E p extraObs extraFcst n params (f :: fields) = .ub) := by
  have first : ∀ r : Res (FieldC K), qqCell E p extraObs extraFcst (params 0 0 0) f 0 0 = r → (r = .abort ∨ r = .ub) → n % 2 = 0 →
      qq Y X E p extraObs extraFcst n params (f :: fields) = (match r with | .abort => .abort | _ => .ub) := by
    intro r hr hcase hn
    obtain ⟨Y, rfl⟩ : ∃ m, Y = m + 1 := ⟨Y - 1, by omega⟩
    obtain ⟨X, rfl⟩ : ∃ m, X = m + 1 := ⟨X - 1, by omega⟩
    have e0 : vget (f :: fields) ((0 : Nat) : Int) = ok f := vget_eq_ok_of_lt (n := 0) (by simp)
    unfold qq eachTime
    rw [if_neg (by omega), List.length_cons, List.range_succ_eq_map, mapM_cons, e0, ok_bind]
    simp only [FieldC.forCells, List.range_succ_eq_map, foldM_cons, hr]
    rcases hcase with rfl | rfl <;> rfl
  refine ⟨fun hn => by unfold qq; rw [if_pos (by omega)]; rfl, fun hn hl he => ?_, fun hn he hlen hnan => ?_⟩
  · have h0 : firsts (params 0 0 0) = [] := by
      cases hq : params 0 0 0 with
      | nil => rfl
      | cons a t =>
        cases t with
        | nil => rfl
        | cons b u => rw [hq] at hl; simp at hl
    refine first .abort ?_ (Or.inl rfl) hn
    simp only [qqCell, separate_eq, withExtra, he, h0, List.length_nil, lt_self_iff_false, if_false, ok_bind, Nat.lt_one_iff, if_true]
    rfl
  · refine first .ub ?_ (Or.inr rfl) hn
    have h1 : stdSort (firsts (params 0 0 0) ++ extraObs) = .ub := stdSort_nan _ (List.mem_append_left _ hnan)
    simp only [qqCell, separate_eq, withExtra, List.length_pos_iff.mpr he, if_true]
    rw [hlen, mapM_vget_all]
    simp only [ok_bind, h1]
    rfl

example : nan ∈ firsts ([nan, fin 1] : List (Fl ℚ)) := by simp [firsts]

/-- **C106** (training). Without quantiles the parameters are the curve through the sorted observations and the sorted
ensemble means of the usable cases, with the extra points. -/
theorem c106_train (eo ef : List K) (hl : eo.length = ef.length) (data : List (Fl K × List (Fl K))) :
    ∃ (vals : List (Fl K)) (os fs : List K), train [] (eo.map fin) (ef.map fin) data = ok vals ∧ vals.length = 2 * os.length ∧ os.length = fs.length ∧
      firsts vals = os.map fin ∧ seconds vals = fs.map fin ∧ os.Pairwise (· ≤ ·) ∧ fs.Pairwise (· ≤ ·) ∧
      os.Perm ((usableCases data).map Prod.fst ++ eo) ∧ fs.Perm ((usableCases data).map Prod.snd ++ ef) := by
  obtain ⟨vals, h1, h2, h3, h4⟩ := train_plain hl data
  refine ⟨vals, _, _, h1, ?_, ?_, h2, h3, pairwise_sorted _, pairwise_sorted _, sorted_perm _, sorted_perm _⟩
  · simpa [length_sorted] using h4
  · simp [length_sorted, hl]

example : train [] [fin 9] [fin 8] ([(fin 2, [fin 1, fin 3]), (fin (-999), [fin 1]), (fin 1, [fin 5, nan]), (fin 3, [])] : List (Fl ℚ × List (Fl ℚ)))
    = ok [fin 1, fin 2, fin 2, fin 5, fin 9, fin 8] := by decide +kernel

/-- **C106** (training with quantiles). With at least two usable cases and levels in [0, 1] the parameters are the
quantiles of the observations and of the ensemble means. -/
theorem c106_train_quantiles (qs : List K) (hne : qs ≠ []) (hq : ∀ q ∈ qs, 0 ≤ q ∧ q ≤ 1) (data : List (Fl K × List (Fl K)))
    (h2 : 2 ≤ (usableCases data).length) :
    ∃ vals, train (qs.map fin) [] [] data = ok vals ∧ vals.length = 2 * qs.length ∧
      ∀ k, (hk : k < qs.length) → ∃ o f, vals[2 * k]? = some (fin o) ∧ vals[2 * k + 1]? = some (fin f) ∧
        StatOf .quantile qs[k] ((usableCases data).map Prod.fst) o ∧ StatOf .quantile qs[k] ((usableCases data).map Prod.snd) f := by
  obtain ⟨vals, os, fs, h1, h3, h4, h5, h6, h7⟩ := train_quantiles hne hq data h2
  refine ⟨vals, h1, h5, fun k hk => ?_⟩
  have ho : k < os.length := by rw [← h6.length_eq]; exact hk
  have hf : k < fs.length := by rw [← h7.length_eq]; exact hk
  refine ⟨os[k], fs[k], ?_, ?_, ?_, ?_⟩
  · rw [firsts_get? vals k (by rw [h3]; simpa using ho), h3]
    simp [ho]
  · rw [seconds_get? vals k (by rw [h4]; simpa using hf), h4]
    simp [hf]
  · have := (List.forall₂_iff_get.mp h6).2 k hk ho
    simpa [StatOf] using this
  · have := (List.forall₂_iff_get.mp h7).2 k hk hf
    simpa [StatOf] using this

example : train [fin 0, fin (1/4)] [] [] ([(fin 2, [fin 1, fin 3]), (fin 1, [fin 4]), (fin 7, [fin 6])] : List (Fl ℚ × List (Fl ℚ)))
    = ok [fin 1, fin 2, fin (3/2), fin 3] := by decide +kernel

/-- **C106** is false for training with quantiles from one usable case: the levels are 0/0 and the process is terminated. -/
theorem c106_train_single_false : ∃ (qs : List (Fl ℚ)) (data : List (Fl ℚ × List (Fl ℚ))), (usableCases data).length = 1 ∧
    train qs [] [] data = .abort :=
  ⟨[fin (1/2)], [(fin 2, [fin 1])], by decide +kernel⟩

/-- **C106** is false for policy `zero` with one point: the value is shifted one to one instead of kept constant. -/
theorem c106_zero_false : ∃ (os fs : List ℚ) (v w : ℚ), QqCurve [] [] [fin 1, fin 2] os fs ∧
    qqValue .zero (os.map fin) (fs.map fin) (fin v) = ok (fin w) ∧ ¬ QqCorrected .zero os fs v w := by
  refine ⟨[1], [2], 0, -1, ⟨by decide, by decide, by decide +kernel, by decide +kernel, by decide +kernel, Or.inl ⟨rfl, rfl, rfl⟩⟩,
    by decide +kernel, fun h => ?_⟩
  obtain ⟨s, hs, hw⟩ := h.below (by decide) (by decide) (by decide)
  rcases hs with ⟨-, hs⟩ | ⟨hs, -⟩ | ⟨hs, -⟩ | ⟨hs, -⟩ | ⟨hs, -⟩
  · subst hs
    exact absurd hw (by decide +kernel)
  · exact absurd hs (by decide)
  · exact absurd hs (by decide)
  · exact absurd hs (by decide)
  · exact absurd hs (by decide)

/-- **C106** is false for `nearestSlope` with equal forecasts at the end: the result is infinite. -/
theorem c106_nearest_false : ∃ (os fs : List ℚ), QqCurve [] [] [fin 0, fin 1, fin 1, fin 1, fin 2, fin 2] os fs ∧
    qqValue .nearestSlope (os.map fin) (fs.map fin) (fin 0) = ok ninf :=
  ⟨[0, 1, 2], [1, 1, 2], ⟨by decide, by decide, by decide +kernel, by decide +kernel, by decide +kernel, Or.inl ⟨rfl, rfl, rfl⟩⟩,
    by decide +kernel⟩

/-- **C106** (finding). The extra points are added when training and again when calibrating with the same options; an extra
point at the end then has an equal neighbour, and with `nearestSlope` the result is NaN, although every training case
and every extra point has its own forecast. -/
theorem c106_twice_false : ∃ (eo ef params : List (Fl ℚ)) (out : FieldC ℚ),
    train [] eo ef [(fin 1, [fin 1]), (fin 3, [fin 2])] = ok params ∧ ef = [fin 0] ∧
    qq 1 1 1 .nearestSlope eo ef params.length (fun _ _ _ => params) [⟨[fin (-1)], 1, 1, 1⟩] = ok [out] ∧ out.values = [nan] :=
  ⟨[fin 0], [fin 0], [fin 0, fin 0, fin 1, fin 1, fin 3, fin 2], ⟨[nan], 1, 1, 1⟩, by decide +kernel⟩

end Gridpp.Props
