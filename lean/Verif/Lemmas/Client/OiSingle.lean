import Verif.Model.Client.OiAnalysis
import Verif.Lemmas.OI2
import Verif.Lemmas.EnsiEtkf

/-! Lemmas about the analysis of the calibrator `oi` in single-member mode. -/

set_option linter.unusedSectionVars false

namespace Gridpp.Client
open Fl hiding MV isValid
open Res Client Matrix

variable {K : Type} [Field K] [LinearOrder K] [IsStrictOrderedRing K]

theorem mapM_getElem {α β : Type} {f : α → Res β} (l : List α) (g : Fin l.length → β) (h : ∀ a, f (l.get a) = ok (g a)) :
    mapM f l = ok (List.ofFn g) := by
  induction l with
  | nil => rfl
  | cons a t ih =>
    rw [mapM_cons, show f a = ok (g 0) from h 0, ok_bind, ih (fun i => g i.succ) (fun i => h i.succ), ok_bind]
    rw [List.ofFn_succ]

/-- What is known of the selected stations: the station, its observation, its relative variance, the forecast of the members there minus
`h`, and `h`. -/
structure OiSelected (stations : List (OiStation K)) (gY : List (List (Fl K) × Fl K)) (members : List Nat) (sel : List Nat)
    (st : Nat → OiStation K) (obs ci h : Nat → K) (Y : Nat → Nat → K) : Prop where
  station : ∀ i ∈ sel, stations[i]? = some (st i)
  obs : ∀ i ∈ sel, (st i).obs = fin (obs i)
  ci : ∀ i ∈ sel, (st i).ci = fin (ci i)
  forecast : ∀ i ∈ sel, ∃ row, gY[i]? = some (row, fin (h i)) ∧ ∀ e ∈ members, row[e]? = some (fin (Y i e))

/-- The rows of the selected stations. -/
def oiRowsOf (rho : Nat → K) (members sel : List Nat) (st : Nat → OiStation K) (h : Nat → K) (Y : Nat → Nat → K) : List (OiRow K) :=
  List.ofFn fun a : Fin sel.length => ⟨fin (rho (sel.get a)), st (sel.get a), List.ofFn fun k : Fin members.length => fin (Y (sel.get a) (members.get k)),
    fin (h (sel.get a))⟩

theorem oiRows_eq {stations : List (OiStation K)} {gY : List (List (Fl K) × Fl K)} {members sel : List Nat} {st : Nat → OiStation K}
    {obs ci h : Nat → K} {Y : Nat → Nat → K} (H : OiSelected stations gY members sel st obs ci h Y) (rho : Nat → K) :
    oiRows stations gY members (rhoPairs rho sel) = ok (oiRowsOf rho members sel st h Y) := by
  have e : ∀ a : Fin sel.length, (do
      let s ← vget stations ((sel.get a : Nat) : Int)
      let g ← vget gY ((sel.get a : Nat) : Int)
      let y ← mapM (fun ei : Nat => vget g.1 (ei : Int)) members
      ok (⟨fin (rho (sel.get a)), s, y, g.2⟩ : OiRow K)) = ok ⟨fin (rho (sel.get a)), st (sel.get a),
        List.ofFn fun k : Fin members.length => fin (Y (sel.get a) (members.get k)), fin (h (sel.get a))⟩ := by
    intro a
    have ha : sel.get a ∈ sel := List.get_mem _ _
    obtain ⟨row, h1, h2⟩ := H.forecast _ ha
    rw [vget_some (H.station _ ha), ok_bind, vget_some h1, ok_bind,
      mapM_getElem members (fun k => fin (Y (sel.get a) (members.get k))) (fun k => vget_some (h2 _ (List.get_mem _ _))), ok_bind]
  unfold oiRows rhoPairs
  have key : ∀ (l : List Nat) (f : Fl K × Nat → Res (OiRow K)), mapM f (l.map fun i => (fin (rho i), i)) = mapM (fun i => f (fin (rho i), i)) l := by
    intro l f
    induction l with
    | nil => rfl
    | cons a t ih => rw [List.map_cons, mapM_cons, mapM_cons, ih]
  rw [key]
  exact mapM_getElem sel _ e

theorem oiMatrices_eq [HasExp K] {o : OiOptions K} {dist : Fl K → Fl K → Fl K → Fl K → Res (Fl K)} {g : OiPlace K} {members sel : List Nat} {st : Nat → OiStation K}
    {ci h G : Nat → K} {Y P : Nat → Nat → K} (rho : Nat → K) (hci : ∀ i ∈ sel, (st i).ci = fin (ci i)) (hG : ∀ i ∈ sel, oiRhoGrid o dist g (st i) = ok (fin (G i)))
    (hP : ∀ i ∈ sel, ∀ j ∈ sel, oiRhoStations o dist g.laf (st i) (st j) = ok (fin (P i j))) :
    oiMatrices o dist g (oiRowsOf rho members sel st h Y) = ok (List.ofFn fun a : Fin sel.length => fin (G (sel.get a)),
      toRows (Matrix.of fun a b : Fin sel.length => P (sel.get a) (sel.get b)), List.ofFn fun a : Fin sel.length => fin (ci (sel.get a))) := by
  have lift : ∀ {β : Type} (f : OiRow K → Res β) (c : Fin sel.length → β), (∀ a : Fin sel.length, ∀ r : OiRow K, r.station = st (sel.get a) → f r = ok (c a)) →
      mapM f (oiRowsOf rho members sel st h Y) = ok (List.ofFn c) := by
    intro β f c hc
    have hl : (oiRowsOf rho members sel st h Y).length = sel.length := by simp [oiRowsOf]
    rw [mapM_getElem (oiRowsOf rho members sel st h Y) (fun a => c (a.cast hl)) (fun a => hc (a.cast hl) _ (by
      rw [List.get_eq_getElem]; simp only [oiRowsOf, List.getElem_ofFn]; rfl))]
    congr 1
    apply List.ext_getElem <;> simp [hl]
  unfold oiMatrices
  rw [lift _ (fun a => fin (G (sel.get a))) (fun a r hr => by rw [hr]; exact hG _ (List.get_mem _ _)), ok_bind,
    lift _ (fun a => List.ofFn fun b : Fin sel.length => fin (P (sel.get a) (sel.get b))) (fun a r hr => by
      refine lift _ _ fun b r' hr' => ?_
      rw [hr, hr']; exact hP _ (List.get_mem _ _) _ (List.get_mem _ _)), ok_bind]
  have e : (oiRowsOf rho members sel st h Y).map (fun r => r.station.ci) = List.ofFn fun a : Fin sel.length => fin (ci (sel.get a)) := by
    unfold oiRowsOf
    rw [List.map_ofFn]
    congr 1
    funext a
    exact hci _ (List.get_mem _ _)
  rw [e]
  rfl

/-- The factor of the error variances of the observations. -/
def oiRatio (eps : K) (gamma : Option K) : K := match gamma with
  | none => eps * eps
  | some c => 1 / (1 + c) * eps * eps

theorem oiSystem_eq {o : OiOptions K} {eps : K} (he : o.epsilon = fin eps) {gamma : Option K} (hg : ∀ c ∈ gamma, o.gamma = fin c ∧ 1 + c ≠ 0) {n : Nat}
    (P : Matrix (Fin n) (Fin n) K) (ci : Fin n → K) :
    oiSystem o gamma.isSome (toRows P) (List.ofFn fun a => fin (ci a)) =
      toRows (Matrix.of fun a b => P a b + if a = b then oiRatio eps gamma * ci a else 0) := by
  have ef : (if gamma.isSome = true then 1 / (1 + o.gamma) * o.epsilon * o.epsilon else o.epsilon * o.epsilon : Fl K) = fin (oiRatio eps gamma) := by
    cases gamma with
    | none => simp [he, oiRatio]
    | some c =>
      obtain ⟨h1, h2⟩ := hg c rfl
      simp only [Option.isSome_some, if_true, he, h1, oiRatio]
      rw [show (1 + fin c : Fl K) = fin (1 + c) from rfl, show (1 / fin (1 + c) : Fl K) = fin (1 / (1 + c)) from fin_div_of_ne 1 h2]
      rfl
  unfold oiSystem
  simp only [ef]
  unfold toRows
  apply List.ext_getElem
  · simp
  · intro i h1 h2
    simp only [List.getElem_mapIdx, List.getElem_ofFn]
    apply List.ext_getElem
    · simp
    · intro j h3 h4
      have hi : i < n := by simpa using h1
      simp only [List.getElem_mapIdx, List.getElem_ofFn, Matrix.of_apply, zero_def]
      by_cases hij : i = j
      · have e1 : (List.ofFn fun a => fin (ci a)).getD i nan = fin (ci ⟨i, hi⟩) := getD_ofFn (fun a => fin (ci a)) ⟨i, hi⟩
        rw [if_pos hij, if_pos (by simpa using hij)]
        exact congrArg (fun t => fin (P ⟨i, hi⟩ ⟨j, hij ▸ hi⟩) + fin (oiRatio eps gamma) * t) e1
      · rw [if_neg hij, if_neg (by simpa using hij)]
        simp

theorem oiInnovation_eq {members sel : List Nat} {st : Nat → OiStation K} {obs h : Nat → K} {Y : Nat → Nat → K} (rho : Nat → K)
    (hobs : ∀ i ∈ sel, (st i).obs = fin (obs i)) (k : Fin members.length) :
    oiInnovation (oiRowsOf rho members sel st h Y) k = List.ofFn fun a : Fin sel.length =>
      fin (obs (sel.get a) - (Y (sel.get a) (members.get k) + h (sel.get a))) := by
  unfold oiInnovation oiRowsOf
  rw [List.map_ofFn]
  congr 1
  funext a
  simp only [Function.comp]
  rw [hobs _ (List.get_mem _ _), getD_ofFn, fin_add, fin_sub]

/-- The variance in transformed space. -/
theorem oiSigma_eq {o : OiOptions K} {eps : K} (he : o.epsilon = fin eps) {n : Nat} (hn : 0 < n) (G w d ci : Fin n → K) (P N : Matrix (Fin n) (Fin n) K)
    (hci : ∑ a, eps * eps * ci a ≠ 0) :
    oiSigma o (List.ofFn fun a => fin (G a)) (toRows P) (toRows N) (List.ofFn fun a => fin (ci a)) (List.ofFn fun a => fin (w a)) (List.ofFn fun a => fin (d a)) =
      fin (max (1 / 1000) (d ⬝ᵥ (d - P *ᵥ (N *ᵥ d)) / (∑ a, eps * eps * ci a) * (1 - w ⬝ᵥ G))) := by
  have hn0 : (n : K) ≠ 0 := by exact_mod_cast hn.ne'
  have rowD : ∀ (M : Matrix (Fin n) (Fin n) K) (v : Fin n → K), ((List.range n).map fun i => dot ((toRows M).getD i []) (List.ofFn fun a => fin (v a))) =
      List.ofFn fun a => fin ((M *ᵥ v) a) := by
    intro M v
    apply List.ext_getElem
    · simp
    · intro i h1 h2
      have hi : i < n := by simpa using h1
      simp only [List.getElem_map, List.getElem_range, List.getElem_ofFn]
      have : (toRows M).getD i [] = List.ofFn fun j => fin (M ⟨i, hi⟩ j) := by simp [toRows, List.getD, hi]
      rw [this, dot_ofFn]
      rfl
  unfold oiSigma
  simp only [List.length_ofFn, rowD]
  rw [sumTo_fin (g := fun s => d s * (d s - (P *ᵥ (N *ᵥ d)) s)) (fun s => by rw [getD_ofFn, getD_ofFn, fin_sub, fin_mul]),
    sumTo_fin (g := fun s => eps * eps * ci s) (fun s => by rw [he, getD_ofFn, fin_mul, fin_mul]),
    sumTo_fin (g := fun s => w s * G s) (fun s => by rw [getD_ofFn, getD_ofFn, fin_mul]), ofNat_def, fin_div_of_ne _ hn0, fin_div_of_ne _ hn0,
    fin_div_of_ne _ (div_ne_zero hci hn0), one_def, fin_sub, fin_mul, Fl.lt_fin]
  have e1 : (∑ s, d s * (d s - (P *ᵥ (N *ᵥ d)) s)) = d ⬝ᵥ (d - P *ᵥ (N *ᵥ d)) := rfl
  have e2 : (∑ s, w s * G s) = w ⬝ᵥ G := rfl
  rw [e1, e2, div_div_div_cancel_right₀ hn0]
  generalize d ⬝ᵥ (d - P *ᵥ (N *ᵥ d)) / (∑ a, eps * eps * ci a) * (1 - w ⬝ᵥ G) = v
  rcases lt_or_ge (1 / 1000) v with h | h
  · rw [if_pos (by simpa using h), max_eq_right h.le]
  · rw [if_neg (by simpa using h), max_eq_left h]

end Gridpp.Client
