import Verif.Props.Client.Interp
import Verif.Model.Client.Qq
import Verif.Spec.ClientQq
import Verif.Lemmas.Quantile
import Verif.Lemmas.Elementwise
import Verif.Lemmas.Client.Stat

/-! Lemmas about the quantile mapping of the client. -/

set_option linter.unusedSectionVars false

namespace Gridpp.Client
open Fl hiding MV isValid
open Res Spec

variable {K : Type} [Field K] [LinearOrder K] [IsStrictOrderedRing K]

/-- Changing each grid point of each time by itself. -/
theorem eachTime_cells {Y X E : Nat} {body : Nat → FieldC K → Nat → Nat → Res (FieldC K)} {fields : List (FieldC K)}
    (hs : Series Y X E fields) {P : Nat → Nat → Nat → Nat → Fl K → Fl K → Prop}
    (hb : ∀ t < fields.length, ∀ f, Sized Y X E f → ∀ y < Y, ∀ x < X, ∃ f', body t f y x = ok f' ∧ Sized Y X E f' ∧
      (∀ e < E, ∀ v, f.get y x e = ok v → ∃ w, f'.get y x e = ok w ∧ P t y x e v w) ∧
      ∀ y' x', ¬ (y' = y ∧ x' = x) → f'.get y' x' = f.get y' x') :
    ∃ out, eachTime (fun t => FieldC.forCells Y X (body t)) fields = ok out ∧ out.length = fields.length ∧ Series Y X E out ∧
      ∀ t < fields.length, ∀ y < Y, ∀ x < X, ∀ e < E, ∃ v w, At fields t y x e v ∧ At out t y x e w ∧ P t y x e v w := by
  obtain ⟨out, h1, h2, h3⟩ := eachTime_spec (body := fun t => FieldC.forCells Y X (body t)) (fields := fields)
    (P := fun t f g => Sized Y X E g ∧ ∀ y < Y, ∀ x < X, ∀ e < E, ∃ v w, f.get y x e = ok v ∧ g.get y x e = ok w ∧ P t y x e v w) (by
      intro t f hf
      have ht := (List.getElem?_eq_some_iff.mp hf).1
      have hsz : Sized Y X E f := hs f (List.mem_of_getElem? hf)
      obtain ⟨g, g1, g2, g3⟩ := forCells_spec (Y := Y) (X := X) (E := E) (body t)
        (fun y x u u' => ∀ e < E, ∀ v, u e = ok v → ∃ w, u' e = ok w ∧ P t y x e v w) (by
          intro f hf y hy x hx
          obtain ⟨f', g1, g2, g3, g4⟩ := hb t ht f hf y hy x hx
          exact ⟨f', g1, g2, g3, g4⟩) f hsz
      refine ⟨g, g1, g2, fun y hy x hx e he => ?_⟩
      obtain ⟨v, hv⟩ := hsz.exists_get hy hx he
      obtain ⟨w, hw, hP⟩ := g3 y hy x hx e he v hv
      exact ⟨v, w, hv, hw, hP⟩)
  refine ⟨out, h1, h2, series_iff.mpr fun t ht => ?_, fun t ht y hy x hx e he => ?_⟩
  · obtain ⟨g, g1, g2, -⟩ := h3 t fields[t] (List.getElem?_eq_getElem (by omega))
    exact ⟨g, g1, g2⟩
  · obtain ⟨g, g1, -, g2⟩ := h3 t fields[t] (List.getElem?_eq_getElem ht)
    obtain ⟨v, w, g3, g4, g5⟩ := g2 y hy x hx e he
    exact ⟨v, w, ⟨_, List.getElem?_eq_getElem ht, g3⟩, ⟨g, g1, g4⟩, g5⟩

theorem qqSlope_spec {p : Extrapolation} {os fs : List K} (hpos : 0 < os.length) (hlen : os.length = fs.length)
    (hr : QqRegular p fs) (below : Bool) :
    ∃ s, qqSlope p (os.map fin) (fs.map fin) below = ok (fin s) ∧
      ContinuesWith p fs os (if below then 0 else fs.length - 2) (if below then 1 else fs.length - 1) s ∧
      (os.Pairwise (· ≤ ·) → 0 ≤ s) := by
  have hposf : 0 < fs.length := by omega
  unfold qqSlope
  simp only [List.length_map, vget_map_fin_zero hpos, vget_map_fin_zero hposf, vget_map_fin_last hpos le_rfl,
    vget_map_fin_last hposf le_rfl, ok_bind]
  by_cases h1 : os.length ≤ 1
  · refine ⟨1, by rw [if_pos (Or.inr (by omega))]; rfl, ?_, fun _ => zero_le_one⟩
    have hz : p ≠ .zero := fun h => by have := hr.zero h; omega
    cases p with
    | oneToOne => exact Or.inr (Or.inl ⟨rfl, rfl⟩)
    | meanSlope => exact Or.inr (Or.inr (Or.inl ⟨Or.inl rfl, by omega, rfl⟩))
    | nearestSlope => exact Or.inr (Or.inr (Or.inl ⟨Or.inr rfl, by omega, rfl⟩))
    | zero => exact absurd rfl hz
    | unchanged => exact absurd rfl hr.client.1
    | other => exact absurd rfl (hr.client.2)
  have h1' : 1 < os.length := by omega
  have h1f : 1 < fs.length := by omega
  have hn : ¬ ((os.length : Int) ≤ 1) := by omega
  cases p with
  | oneToOne => exact ⟨1, by simp [hn, one_def], Or.inr (Or.inl ⟨rfl, rfl⟩), fun _ => zero_le_one⟩
  | zero => exact ⟨0, by simp [hn, zero_def], Or.inl ⟨rfl, rfl⟩, fun _ => le_rfl⟩
  | unchanged => exact absurd rfl hr.client.1
  | other => exact absurd rfl (hr.client.2)
  | meanSlope =>
    have hd := hr.mean rfl h1f
    have hd' : fs[fs.length - 1] - fs[0] ≠ 0 := sub_ne_zero.mpr hd.ne'
    refine ⟨(os[os.length - 1] - os[0]) / (fs[fs.length - 1] - fs[0]), ?_, ?_, fun ho => ?_⟩
    · simp [hn, fin_sub, fin_div_of_ne _ hd']
    · refine Or.inr (Or.inr (Or.inr (Or.inl ⟨rfl, h1f, h1', ?_⟩)))
      field_simp
    · exact div_nonneg (sub_nonneg.mpr (sorted_le ho (Nat.zero_le _) (by omega))) (sub_nonneg.mpr hd.le)
  | nearestSlope =>
    obtain ⟨hd1, hd2⟩ := hr.nearest rfl h1f
    cases below with
    | true =>
      have hd' : fs[1] - fs[0] ≠ 0 := sub_ne_zero.mpr hd1.ne'
      refine ⟨(os[1] - os[0]) / (fs[1] - fs[0]), ?_, ?_, fun ho => ?_⟩
      · have e1 : vget (os.map fin) 1 = ok (fin os[1]) := vget_map_fin h1'
        have e2 : vget (fs.map fin) 1 = ok (fin fs[1]) := vget_map_fin h1f
        simp only [reduceCtorEq, hn, or_self, if_false, if_true, e1, e2, ok_bind, fin_sub, fin_div_of_ne _ hd']
      · refine Or.inr (Or.inr (Or.inr (Or.inr ⟨rfl, h1f, hposf, h1f, hpos, h1', ?_⟩)))
        simp only [if_true]
        field_simp
      · exact div_nonneg (sub_nonneg.mpr (sorted_le ho (Nat.zero_le _) (by omega))) (sub_nonneg.mpr hd1.le)
    | false =>
      have hd' : fs[fs.length - 1] - fs[fs.length - 2] ≠ 0 := sub_ne_zero.mpr hd2.ne'
      refine ⟨((os[os.length - 1]) - (os[os.length - 2])) / (fs[fs.length - 1] - fs[fs.length - 2]), ?_, ?_, fun ho => ?_⟩
      · have c2 : (os.length : Int) - 2 = ((os.length - 2 : Nat) : Int) := by omega
        have e1 : vget (os.map fin) ((os.length : Int) - 2) = ok (fin os[os.length - 2]) := by rw [c2]; exact vget_map_fin (by omega)
        have e2 : vget (fs.map fin) ((os.length : Int) - 2) = ok (fin fs[fs.length - 2]) := by
          rw [c2, vget_map_fin (by omega)]; simp only [hlen]
        have e3 : vget (fs.map fin) ((os.length : Int) - 1) = ok (fin fs[fs.length - 1]) := by
          rw [vget_map_fin_last hpos hlen.le]; simp only [hlen]
        simp only [reduceCtorEq, hn, or_self, if_false, if_true, e1, e2, e3, Bool.false_eq_true, ok_bind, fin_sub, fin_div_of_ne _ hd']
      · refine Or.inr (Or.inr (Or.inr (Or.inr ⟨rfl, h1f, by simp; omega, by simp; omega, by simp; omega, by simp; omega, ?_⟩)))
        simp only [Bool.false_eq_true, if_false]
        simp only [hlen]
        field_simp
      · exact div_nonneg (sub_nonneg.mpr (sorted_le ho (by omega) (by omega))) (sub_nonneg.mpr hd2.le)

/-- The three cases of `qqValue`. -/
theorem qqValue_cases {p : Extrapolation} {os fs : List K} (hpos : 0 < os.length) (hlen : os.length = fs.length)
    (hv : ∀ v ∈ fs, v ≠ -999) (hs : fs.Pairwise (· ≤ ·)) (hr : QqRegular p fs) (v : K) :
    (fs[0] < v ∧ v < fs[fs.length - 1] ∧ ∃ w, qqValue p (os.map fin) (fs.map fin) (fin v) = ok (fin w) ∧
      interpolate (fin v) (fs.map fin) (os.map fin) = ok (fin w)) ∨
    (v ≤ fs[0] ∧ ∃ s, qqSlope p (os.map fin) (fs.map fin) true = ok (fin s) ∧ ContinuesWith p fs os 0 1 s ∧
      (os.Pairwise (· ≤ ·) → 0 ≤ s) ∧ qqValue p (os.map fin) (fs.map fin) (fin v) = ok (fin (os[0] + s * (v - fs[0])))) ∨
    (fs[0] < v ∧ fs[fs.length - 1] ≤ v ∧ ∃ s, qqSlope p (os.map fin) (fs.map fin) false = ok (fin s) ∧
      ContinuesWith p fs os (fs.length - 2) (fs.length - 1) s ∧ (os.Pairwise (· ≤ ·) → 0 ≤ s) ∧
      qqValue p (os.map fin) (fs.map fin) (fin v) = ok (fin (os[os.length - 1] + s * (v - fs[fs.length - 1])))) := by
  have hposf : 0 < fs.length := by omega
  have hunf : qqValue p (os.map fin) (fs.map fin) (fin v) =
      (if decide (fs[0] < v) && decide (v < fs[fs.length - 1]) then interpolate (fin v) (fs.map fin) (os.map fin)
      else do
        let slope ← qqSlope p (os.map fin) (fs.map fin) (decide (v ≤ fs[0]))
        ok ((if decide (v ≤ fs[0]) then fin os[0] else fin os[os.length - 1]) + slope *
          (fin v - (if decide (v ≤ fs[0]) then fin fs[0] else fin fs[fs.length - 1])))) := by
    unfold qqValue
    simp only [List.length_map, vget_map_fin_zero hpos, vget_map_fin_zero hposf, vget_map_fin_last hpos le_rfl,
      vget_map_fin_last hposf le_rfl, ok_bind, gt_fin, lt_fin, le_fin]
  rw [hunf]
  by_cases h0 : v ≤ fs[0]
  · right; left
    obtain ⟨s, s1, s2, s3⟩ := qqSlope_spec hpos hlen hr true
    refine ⟨h0, s, s1, by simpa using s2, s3, ?_⟩
    simp only [not_lt.mpr h0, decide_false, Bool.false_and, Bool.false_eq_true, if_false, h0, decide_true, s1, ok_bind, if_true,
      fin_sub, fin_mul, fin_add]
  · push Not at h0
    by_cases h1 : v < fs[fs.length - 1]
    · left
      refine ⟨h0, h1, ?_⟩
      simp only [h0, h1, decide_true, Bool.and_self, if_true]
      obtain ⟨w, hw, -⟩ := Props.c105_interpolate_partial fs os hv hlen.symm hs hposf v
      exact ⟨w, hw, hw⟩
    · right; right
      obtain ⟨s, s1, s2, s3⟩ := qqSlope_spec hpos hlen hr false
      refine ⟨h0, not_lt.mp h1, s, s1, by simpa using s2, s3, ?_⟩
      simp only [h1, decide_false, Bool.and_false, Bool.false_eq_true, if_false, not_le.mpr h0, s1, ok_bind,
        fin_sub, fin_mul, fin_add]

theorem qqValue_spec {p : Extrapolation} {os fs : List K} (hpos : 0 < os.length) (hlen : os.length = fs.length)
    (hv : ∀ v ∈ fs, v ≠ -999) (hs : fs.Pairwise (· ≤ ·)) (hr : QqRegular p fs) (v : K) :
    ∃ w, qqValue p (os.map fin) (fs.map fin) (fin v) = ok (fin w) ∧ QqCorrected p os fs v w := by
  have hposf : 0 < fs.length := by omega
  rcases qqValue_cases hpos hlen hv hs hr v with ⟨h0, h1, w, hw, hi⟩ | ⟨h0, s, -, s2, -, hw⟩ | ⟨h0, h1, s, -, s2, -, hw⟩
  · refine ⟨w, hw, ?_⟩
    obtain ⟨r, hr', -, -, h3, h4, -⟩ := Props.c105_interpolate_partial fs os hv hlen.symm hs hposf v
    rw [hi, Res.ok.injEq, Fl.fin.injEq] at hr'
    subst hr'
    exact ⟨fun i h _ a b => h4 i h a b, fun i j hij hj _ _ _ hk => h3 i j hij hj hk, fun _ _ h => absurd h0 (not_lt.mpr h),
      fun _ _ _ h => absurd h1 (not_lt.mpr h)⟩
  · refine ⟨_, hw, ?_, ?_, fun _ _ _ => ⟨s, s2, rfl⟩, fun _ _ h => absurd h (not_lt.mpr h0)⟩
    · intro i h _ a _
      exact absurd (lt_of_le_of_lt (sorted_le hs (Nat.zero_le i) (by omega)) a) (not_lt.mpr h0)
    · intro i j hij hj _ hi0 _ hrun
      have h1 := (hrun i (by omega)).mpr ⟨le_rfl, hij⟩
      have h2 := sorted_le hs (Nat.zero_le i) (by omega)
      have h3 := (hrun 0 hposf).mp (le_antisymm (h1 ▸ h2) h0)
      omega
  · refine ⟨_, hw, ?_, ?_, fun _ _ h => absurd h0 (not_lt.mpr h), fun _ _ _ _ => ⟨s, s2, rfl⟩⟩
    · intro i h _ _ b
      exact absurd (lt_of_lt_of_le b (sorted_le hs (show i + 1 ≤ fs.length - 1 by omega) (by omega))) (not_lt.mpr h1)
    · intro i j hij hj _ _ hjl hrun
      have h4 := (hrun j (by omega)).mpr ⟨hij, le_rfl⟩
      have h2 := sorted_le hs (show j ≤ fs.length - 1 by omega) (by omega)
      have h3 := (hrun (fs.length - 1) (by omega)).mp (le_antisymm h1 (h4 ▸ h2))
      omega

theorem qqValue_mono {p : Extrapolation} {os fs : List K} (hpos : 0 < os.length) (hlen : os.length = fs.length)
    (hv : ∀ v ∈ fs, v ≠ -999) (hs : fs.Pairwise (· ≤ ·)) (ho : os.Pairwise (· ≤ ·)) (hr : QqRegular p fs) {v v' w w' : K} (h : v ≤ v')
    (hw : qqValue p (os.map fin) (fs.map fin) (fin v) = ok (fin w))
    (hw' : qqValue p (os.map fin) (fs.map fin) (fin v') = ok (fin w')) : w ≤ w' := by
  have hposf : 0 < fs.length := by omega
  have hrange : ∀ u r, interpolate (fin u) (fs.map fin) (os.map fin) = ok (fin r) → os[0] ≤ r ∧ r ≤ os[os.length - 1] := by
    intro u r hur
    obtain ⟨r', hr', -, -, -, -, h5⟩ := Props.c105_interpolate_partial fs os hv hlen.symm hs hposf u
    rw [hur, Res.ok.injEq, Fl.fin.injEq] at hr'
    subst hr'
    apply h5
    intro y hy
    obtain ⟨k, hk, rfl⟩ := List.mem_iff_getElem.mp hy
    exact ⟨sorted_le ho (Nat.zero_le k) hk, sorted_le ho (by omega) (by omega)⟩
  have hends : os[0] ≤ os[os.length - 1] := sorted_le ho (Nat.zero_le _) (by omega)
  rcases qqValue_cases hpos hlen hv hs hr v with ⟨h0, h1, u, hu, hi⟩ | ⟨h0, s, t1, -, t3, hu⟩ | ⟨h0, h1, s, t1, -, t3, hu⟩ <;>
    rw [hw, Res.ok.injEq, Fl.fin.injEq] at hu <;> subst hu <;>
    rcases qqValue_cases hpos hlen hv hs hr v' with ⟨h0', h1', u', hu', hi'⟩ | ⟨h0', s', t1', -, t3', hu'⟩ | ⟨h0', h1', s', t1', -, t3', hu'⟩ <;>
    rw [hw', Res.ok.injEq, Fl.fin.injEq] at hu' <;> subst hu'
  · exact interpolate_mono hv hlen.symm hs ho h hi hi'
  · exact absurd (lt_of_lt_of_le h0 h) (not_lt.mpr h0')
  · have := mul_nonneg (t3' ho) (sub_nonneg.mpr h1')
    linarith [(hrange _ _ hi).2]
  · have := mul_nonneg (t3 ho) (sub_nonneg.mpr h0)
    linarith [(hrange _ _ hi').1]
  · rw [t1, Res.ok.injEq, Fl.fin.injEq] at t1'
    subst t1'
    have := mul_le_mul_of_nonneg_left (sub_le_sub_right h fs[0]) (t3 ho)
    linarith
  · have h2 := mul_nonneg (t3 ho) (sub_nonneg.mpr h0)
    have h3 := mul_nonneg (t3' ho) (sub_nonneg.mpr h1')
    linarith
  · exact absurd (lt_of_lt_of_le h1' h1) (not_lt.mpr h)
  · exact absurd (lt_of_lt_of_le h0 h) (not_lt.mpr h0')
  · rw [t1, Res.ok.injEq, Fl.fin.injEq] at t1'
    subst t1'
    have := mul_le_mul_of_nonneg_left (sub_le_sub_right h fs[fs.length - 1]) (t3 ho)
    linarith

/-! ### the curve -/

theorem mapM_firsts {α : Type} : ∀ params : List α,
    mapM (fun i : Nat => vget params (2 * i)) (List.range (params.length / 2)) = ok (firsts params)
  | [] => by simp [firsts]
  | [a] => by simp [firsts]
  | a :: b :: t => by
    have hl : (a :: b :: t).length / 2 = t.length / 2 + 1 := by simp only [List.length_cons]; omega
    have e : (vget (a :: b :: t) (2 * ((0 : Nat) : Int))) = ok a := vget_eq_ok_of_lt (n := 0) (by simp)
    rw [hl, List.range_succ_eq_map, mapM_cons, e, ok_bind, mapM_map]
    have := mapM_firsts t
    rw [show (fun i : Nat => vget (a :: b :: t) (2 * ((i.succ : Nat) : Int))) = fun i : Nat => vget t (2 * (i : Int)) from ?_, this]
    · rfl
    · funext i
      unfold vget
      have e1 : ¬ (2 * ((i.succ : Nat) : Int) < 0) := by omega
      have e2 : ¬ (2 * (i : Int) < 0) := by omega
      have e3 : (2 * ((i.succ : Nat) : Int)).toNat = (2 * (i : Int)).toNat + 2 := by omega
      rw [if_neg e1, if_neg e2, e3]
      rfl

theorem mapM_seconds {α : Type} : ∀ params : List α,
    mapM (fun i : Nat => vget params (2 * i + 1)) (List.range (params.length / 2)) = ok (seconds params)
  | [] => by simp [seconds]
  | [a] => by simp [seconds]
  | a :: b :: t => by
    have hl : (a :: b :: t).length / 2 = t.length / 2 + 1 := by simp only [List.length_cons]; omega
    have e : (vget (a :: b :: t) (2 * ((0 : Nat) : Int) + 1)) = ok b := vget_eq_ok_of_lt (n := 1) (by simp)
    rw [hl, List.range_succ_eq_map, mapM_cons, e, ok_bind, mapM_map]
    have := mapM_seconds t
    rw [show (fun i : Nat => vget (a :: b :: t) (2 * ((i.succ : Nat) : Int) + 1)) = fun i : Nat => vget t (2 * (i : Int) + 1) from ?_, this]
    · rfl
    · funext i
      unfold vget
      have e1 : ¬ (2 * ((i.succ : Nat) : Int) + 1 < 0) := by omega
      have e2 : ¬ (2 * (i : Int) + 1 < 0) := by omega
      have e3 : (2 * ((i.succ : Nat) : Int) + 1).toNat = (2 * (i : Int) + 1).toNat + 2 := by omega
      rw [if_neg e1, if_neg e2, e3]
      rfl

theorem length_firsts_seconds {α : Type} : ∀ l : List α, (firsts l).length = (seconds l).length
  | [] => rfl
  | [_] => rfl
  | _ :: _ :: t => by simp [firsts, seconds, length_firsts_seconds t]

theorem mapM_vget_all {α : Type} (l : List α) : mapM (fun i : Nat => vget l i) (List.range l.length) = ok l := by
  obtain ⟨out, h1, h2, h3⟩ := mapM_range_exists (n := l.length) (f := fun i : Nat => vget l i) (P := fun i v => l[i]? = some v)
    (fun k hk => ⟨l[k], vget_eq_ok_of_lt hk, List.getElem?_eq_getElem hk⟩)
  rw [h1]
  congr 1
  apply List.ext_getElem? 
  intro i
  by_cases hi : i < l.length
  · obtain ⟨v, g1, g2⟩ := h3 i hi
    rw [g1, g2]
  · rw [List.getElem?_eq_none (by omega), List.getElem?_eq_none (by omega)]

theorem exists_map_fin {l : List (Fl K)} (h : ∀ v ∈ l, ∃ q, v = fin q) : ∃ xs : List K, l = xs.map fin := by
  induction l with
  | nil => exact ⟨[], rfl⟩
  | cons a t ih =>
    obtain ⟨q, rfl⟩ := h a (by simp)
    obtain ⟨xs, rfl⟩ := ih fun v hv => h v (by simp [hv])
    exact ⟨q :: xs, rfl⟩

theorem fin_injective : Function.Injective (fin : K → Fl K) := fun _ _ h => Fl.fin.inj h

theorem stdSort_perm {os : List K} {l : List (Fl K)} (hs : os.Pairwise (· ≤ ·)) (hp : (os.map fin).Perm l) :
    stdSort l = ok (os.map fin) := by
  obtain ⟨xs, rfl⟩ := exists_map_fin (l := l) (fun v hv => by
    obtain ⟨q, -, rfl⟩ := List.mem_map.mp (hp.mem_iff.mpr hv)
    exact ⟨q, rfl⟩)
  have hp' : os.Perm xs := (List.map_perm_map_iff fin_injective).mp hp
  rw [stdSort_map_fin, List.Perm.eq_of_pairwise (le := (· ≤ ·)) (fun a b _ _ => le_antisymm) (pairwise_sorted xs) hs
    ((sorted_perm xs).trans hp'.symm)]

theorem stdSort_ok {l : List (Fl K)} (h : ∀ v ∈ l, v ≠ nan) : ∃ s, stdSort l = ok s ∧ s.Perm l := by
  have hn : l.any Fl.isNan = false := by
    rw [List.any_eq_false]
    intro v hv
    have := h v hv
    cases v <;> simp_all [Fl.isNan]
  exact ⟨l.insertionSort (fun a b => Fl.le a b = true), by simp [stdSort, hn], List.perm_insertionSort _ _⟩

theorem separate_eq (extraObs extraFcst params : List (Fl K)) :
    separate extraObs extraFcst params = withExtra extraObs extraFcst (firsts params) (seconds params) := by
  unfold separate
  rw [mapM_firsts, ok_bind, mapM_seconds, ok_bind]

theorem separate_curve {extraObs extraFcst params : List (Fl K)} {os fs : List K} (h : QqCurve extraObs extraFcst params os fs) :
    separate extraObs extraFcst params = ok (os.map fin, fs.map fin) := by
  rw [separate_eq]
  unfold withExtra
  rcases h.points with ⟨h1, h2, h3⟩ | ⟨h1, h2, h3, h4, h5⟩
  · simp only [h1, h2, h3, List.length_nil, lt_self_iff_false, if_false]
  · rw [if_pos (List.length_pos_iff.mpr h1), h2, mapM_vget_all]
    simp only [ok_bind, stdSort_perm h3 h4, stdSort_perm h.sorted h5]

/-- A point or extra point has a missing value; there is a point; with extra points nothing is NaN. -/
structure QqMissing (extraObs extraFcst params : List (Fl K)) : Prop where
  some : firsts params ++ extraObs ≠ []
  len : extraObs.length = extraFcst.length
  missing : ∃ v ∈ (firsts params ++ extraObs) ++ (seconds params ++ extraFcst), ¬ Present v
  nan : extraObs ≠ [] → ∀ v ∈ (firsts params ++ extraObs) ++ (seconds params ++ extraFcst), v ≠ nan

theorem separate_missing {extraObs extraFcst params : List (Fl K)} (h : QqMissing extraObs extraFcst params) :
    ∃ o f, separate extraObs extraFcst params = ok (o, f) ∧ o ≠ [] ∧ ∃ v, (v ∈ o ∨ v ∈ f) ∧ ¬ Present v := by
  obtain ⟨v, hv, hp⟩ := h.missing
  rw [separate_eq]
  unfold withExtra
  by_cases he : extraObs = []
  · have hf : extraFcst = [] := List.length_eq_zero_iff.mp (by rw [← h.len, he]; rfl)
    refine ⟨firsts params, seconds params, by simp [he], by simpa [he] using h.some, v, ?_, hp⟩
    simpa [he, hf] using hv
  · rw [if_pos (List.length_pos_iff.mpr he), h.len, mapM_vget_all]
    obtain ⟨s, h1, h2⟩ := stdSort_ok (l := firsts params ++ extraObs) fun w hw => h.nan he w (List.mem_append_left _ hw)
    obtain ⟨s', h3, h4⟩ := stdSort_ok (l := seconds params ++ extraFcst) fun w hw => h.nan he w (List.mem_append_right _ hw)
    refine ⟨s, s', by simp only [ok_bind, h1, h3], ?_, v, ?_, hp⟩
    · rintro rfl
      exact h.some (List.Perm.nil_eq h2).symm
    · rw [h2.mem_iff, h4.mem_iff]
      exact List.mem_append.mp hv

theorem qqCell_missing {E : Nat} {p : Extrapolation} {extraObs extraFcst params : List (Fl K)} (h : QqMissing extraObs extraFcst params)
    (f : FieldC K) (y x : Nat) : qqCell E p extraObs extraFcst params f y x = ok f := by
  obtain ⟨o, g, h1, h2, v, hv, hp⟩ := separate_missing h
  have hpos : ¬ (o.length < 1) := by have := List.length_pos_iff.mpr h2; omega
  have hall : (o.all isValid && g.all isValid) = false := by
    rw [← isValid_false_iff] at hp
    rw [Bool.and_eq_false_iff]
    rcases hv with hv | hv
    · exact Or.inl (List.all_eq_false.mpr ⟨v, hv, by simp [hp]⟩)
    · exact Or.inr (List.all_eq_false.mpr ⟨v, hv, by simp [hp]⟩)
  simp only [qqCell, h1, ok_bind, hpos, if_false, hall, Bool.false_eq_true]

theorem all_isValid_map_fin {l : List K} (h : ∀ v ∈ l, v ≠ -999) : (l.map fin).all isValid = true := by
  rw [List.all_eq_true]
  intro v hv
  obtain ⟨q, hq, rfl⟩ := List.mem_map.mp hv
  exact isValid_fin_of_ne (h q hq)

theorem qqCell_curve {Y X E : Nat} {p : Extrapolation} {extraObs extraFcst params : List (Fl K)} {os fs : List K}
    (h : QqCurve extraObs extraFcst params os fs) (hr : QqRegular p fs) (f : FieldC K) (hf : Sized Y X E f) {y x : Nat} (hy : y < Y)
    (hx : x < X) :
    ∃ f', qqCell E p extraObs extraFcst params f y x = ok f' ∧ Sized Y X E f' ∧
      (∀ e < E, ∀ v, f.get y x e = ok v → ∃ w, f'.get y x e = ok w ∧
        ((∀ q, v = fin q → q ≠ -999 → ∃ r, w = fin r ∧ qqValue p (os.map fin) (fs.map fin) (fin q) = ok (fin r)) ∧
        (¬ Present v → w = MV))) ∧
      ∀ y' x', ¬ (y' = y ∧ x' = x) → f'.get y' x' = f.get y' x' := by
  have hpos : ¬ ((os.map fin).length < 1) := by have := h.pos; rw [List.length_map]; omega
  simp only [qqCell, separate_curve h, ok_bind, hpos, if_false, all_isValid_map_fin h.obs, all_isValid_map_fin h.fcst, Bool.and_self,
    if_true]
  obtain ⟨out, h1, h2, h3, -, h5⟩ := forMembers_spec (Y := Y) (X := X) (E := E) y x E
    (qqMember p (os.map fin) (fs.map fin) y x)
    (fun e u u' => ∀ v, u = ok v → ∃ w, u' = ok w ∧
      ((∀ q, v = fin q → q ≠ -999 → ∃ r, w = fin r ∧ qqValue p (os.map fin) (fs.map fin) (fin q) = ok (fin r)) ∧
        (¬ Present v → w = MV))) (by
      intro f hf e he
      obtain ⟨v, hv⟩ := hf.exists_get hy hx he
      by_cases hp : isValid v = true
      · obtain ⟨q, rfl, hq⟩ := isValid_iff_present.mp hp
        obtain ⟨w, hw, -⟩ := qqValue_spec h.pos h.len h.fcst h.sorted hr q
        obtain ⟨f', g1, g2, g3, g4⟩ := hf.set hy hx he (fin w)
        refine ⟨f', by simp only [qqMember, hv, ok_bind, hp, if_true, hw]; exact g1, g2, ?_, g4⟩
        intro v' hv'
        rw [hv, Res.ok.injEq] at hv'
        subst hv'
        refine ⟨fin w, g3, fun q' hq' _ => ?_, fun hn => absurd (isValid_iff_present.mp hp) hn⟩
        cases hq'
        exact ⟨w, rfl, hw⟩
      · obtain ⟨f', g1, g2, g3, g4⟩ := hf.set hy hx he MV
        refine ⟨f', by simp only [qqMember, hv, ok_bind, hp]; exact g1, g2, ?_, g4⟩
        intro v' hv'
        rw [hv, Res.ok.injEq] at hv'
        subst hv'
        refine ⟨MV, g3, fun q' hq' hq'' => ?_, fun _ => rfl⟩
        exact absurd (isValid_iff_present.mpr ⟨q', hq', hq''⟩) hp) f hf
  exact ⟨out, h1, h2, h3, h5⟩

/-- The whole calibration: every point has a curve or a missing parameter. -/
theorem qq_spec {Y X E : Nat} {p : Extrapolation} {extraObs extraFcst : List (Fl K)} {n : Nat} (hn : n % 2 = 0)
    {params : Nat → Nat → Nat → List (Fl K)} {fields : List (FieldC K)} (hs : Series Y X E fields)
    (hp : ∀ t < fields.length, ∀ y < Y, ∀ x < X, QqMissing extraObs extraFcst (params t y x) ∨
      ∃ os fs, QqCurve extraObs extraFcst (params t y x) os fs ∧ QqRegular p fs) :
    ∃ out, qq Y X E p extraObs extraFcst n params fields = ok out ∧ out.length = fields.length ∧ Series Y X E out ∧
      ∀ t < fields.length, ∀ y < Y, ∀ x < X, ∀ e < E, ∃ v w, At fields t y x e v ∧ At out t y x e w ∧
        (QqMissing extraObs extraFcst (params t y x) → w = v) ∧
        (∀ os fs, QqCurve extraObs extraFcst (params t y x) os fs →
          (∀ q, v = fin q → q ≠ -999 → ∃ r, w = fin r ∧ qqValue p (os.map fin) (fs.map fin) (fin q) = ok (fin r)) ∧
          (¬ Present v → w = MV)) := by
  unfold qq
  rw [if_neg (by omega)]
  refine eachTime_cells hs ?_
  intro t ht f hf y hy x hx
  rcases hp t ht y hy x hx with hm | ⟨os, fs, hc, hr⟩
  · refine ⟨f, qqCell_missing hm f y x, hf, fun e _ v hv => ⟨v, hv, fun _ => rfl, fun os fs hc => ?_⟩, fun _ _ _ => rfl⟩
    obtain ⟨o, g, h1, -, w, hw, hwp⟩ := separate_missing hm
    rw [separate_curve hc, Res.ok.injEq, Prod.mk.injEq] at h1
    exfalso
    apply hwp
    rw [← h1.1, ← h1.2] at hw
    rcases hw with hw | hw
    · obtain ⟨q, hq, rfl⟩ := List.mem_map.mp hw
      exact ⟨q, rfl, hc.obs q hq⟩
    · obtain ⟨q, hq, rfl⟩ := List.mem_map.mp hw
      exact ⟨q, rfl, hc.fcst q hq⟩
  · obtain ⟨f', h1, h2, h3, h4⟩ := qqCell_curve hc hr f hf hy hx
    refine ⟨f', h1, h2, fun e he v hv => ?_, h4⟩
    obtain ⟨w, hw, g1, g2⟩ := h3 e he v hv
    refine ⟨w, hw, fun hm => ?_, fun os' fs' hc' => ?_⟩
    · obtain ⟨o, g, e1, -, u, hu, hup⟩ := separate_missing hm
      rw [separate_curve hc, Res.ok.injEq, Prod.mk.injEq] at e1
      exfalso
      apply hup
      rw [← e1.1, ← e1.2] at hu
      rcases hu with hu | hu
      · obtain ⟨q, hq, rfl⟩ := List.mem_map.mp hu
        exact ⟨q, rfl, hc.obs q hq⟩
      · obtain ⟨q, hq, rfl⟩ := List.mem_map.mp hu
        exact ⟨q, rfl, hc.fcst q hq⟩
    · have e1 := separate_curve hc
      rw [separate_curve hc', Res.ok.injEq, Prod.mk.injEq] at e1
      rw [e1.1, e1.2]
      exact ⟨g1, g2⟩

/-! ### training -/

theorem ensMean_eq (a : List (Fl K)) : ensMean a = if present a = [] then MV else fin (mean (present a)) := by
  unfold ensMean
  rw [sumCount_eq]
  by_cases h : present a = []
  · simp [h]
  · have hp : 0 < (present a).length := List.length_pos_iff.mpr h
    have hne : (((present a).length : Nat) : K) ≠ 0 := by exact_mod_cast hp.ne'
    simp only [hp, if_true, h, if_false, ofNat_def, fin_div_of_ne _ hne, mean]

theorem isValid_ensMean (a : List (Fl K)) : isValid (ensMean a) = decide (present a ≠ [] ∧ mean (present a) ≠ -999) := by
  rw [ensMean_eq]
  by_cases h : present a = []
  · simp [h, isValid, MV]
  · by_cases h2 : mean (present a) = -999 <;> simp [h, isValid, h2]

theorem trainPairs_eq (data : List (Fl K × List (Fl K))) :
    trainPairs data = (usableCases data).map fun p => (fin p.1, fin p.2) := by
  induction data with
  | nil => rfl
  | cons d t ih =>
    have hstep : trainPairs (d :: t) = if isValid d.1 && isValid (ensMean d.2) then (d.1, ensMean d.2) :: trainPairs t else trainPairs t := by
      simp only [trainPairs, List.map_cons, List.filter_cons]
    rw [hstep, ih, isValid_ensMean]
    obtain ⟨o, ens⟩ := d
    cases o with
    | fin q =>
      by_cases h : q ≠ -999 ∧ present ens ≠ [] ∧ mean (present ens) ≠ -999
      · have h1 : isValid (fin q) = true := isValid_fin_of_ne h.1
        simp only [usableCases, h, h1, if_true, ne_eq, not_false_eq_true, and_self, decide_true, Bool.and_self, List.map_cons, ensMean_eq, if_false]
      · have h1 : (isValid (fin q) && decide (present ens ≠ [] ∧ mean (present ens) ≠ -999)) = false := by
          simp only [isValid]
          rw [← Bool.decide_and, decide_eq_false_iff_not]
          exact h
        simp only [usableCases, h, h1, if_false, Bool.false_eq_true]
    | nan => simp [usableCases, isValid]
    | pinf => simp [usableCases, isValid]
    | ninf => simp [usableCases, isValid]

theorem withExtra_perm {os fs eo ef : List K} (hl : eo.length = ef.length) (ho : os.Pairwise (· ≤ ·)) (hf : fs.Pairwise (· ≤ ·)) :
    withExtra (eo.map fin) (ef.map fin) (os.map fin) (fs.map fin) = ok ((sorted (os ++ eo)).map fin, (sorted (fs ++ ef)).map fin) := by
  have self : ∀ l : List K, l.Pairwise (· ≤ ·) → sorted l = l := fun l h =>
    List.Perm.eq_of_pairwise (le := (· ≤ ·)) (fun a b _ _ => le_antisymm) (pairwise_sorted l) h (sorted_perm l)
  unfold withExtra
  by_cases he : eo = []
  · have hf' : ef = [] := List.length_eq_zero_iff.mp (by rw [← hl, he]; rfl)
    subst he hf'
    simp only [List.append_nil, self _ ho, self _ hf, List.map_nil, List.length_nil, lt_self_iff_false, if_false]
  · rw [if_pos (by simpa using List.length_pos_iff.mpr he), List.length_map, hl, ← List.length_map (f := fin), mapM_vget_all]
    simp only [ok_bind, ← List.map_append, stdSort_map_fin]

theorem withExtra_unsorted {os fs eo ef : List K} (hl : eo.length = ef.length) (he : eo ≠ []) :
    withExtra (eo.map fin) (ef.map fin) (os.map fin) (fs.map fin) = ok ((sorted (os ++ eo)).map fin, (sorted (fs ++ ef)).map fin) := by
  unfold withExtra
  rw [if_pos (by simpa using List.length_pos_iff.mpr he), List.length_map, hl, ← List.length_map (f := fin), mapM_vget_all]
  simp only [ok_bind, ← List.map_append, stdSort_map_fin]

theorem interleave_eq {o f : List (Fl K)} (hl : o.length = f.length) :
    ∃ vals, mapM (fun i : Nat => do
      let a ← vget o i
      let b ← vget f i
      ok [a, b]) (List.range o.length) = ok vals ∧ firsts vals.flatten = o ∧ seconds vals.flatten = f ∧
        vals.flatten.length = 2 * o.length := by
  induction o generalizing f with
  | nil =>
    have : f = [] := List.length_eq_zero_iff.mp (by simpa using hl.symm)
    subst this
    exact ⟨[], rfl, rfl, rfl, rfl⟩
  | cons a t ih =>
    cases f with
    | nil => simp at hl
    | cons b u =>
      obtain ⟨vals, h1, h2, h3, h4⟩ := ih (f := u) (by simpa using hl)
      refine ⟨[a, b] :: vals, ?_, by simp [firsts, h2], by simp [seconds, h3], by simp only [List.flatten_cons, List.length_append, h4, List.length_cons, List.length_nil]; omega⟩
      rw [List.length_cons, List.range_succ_eq_map, mapM_cons, mapM_map]
      have e1 : vget (a :: t) ((0 : Nat) : Int) = ok a := vget_eq_ok_of_lt (n := 0) (by simp)
      have e2 : vget (b :: u) ((0 : Nat) : Int) = ok b := vget_eq_ok_of_lt (n := 0) (by simp)
      have e : ∀ (z : Fl K) (l : List (Fl K)) (i : Nat), vget (z :: l) ((Nat.succ i : Nat) : Int) = vget l (i : Int) := by
        intro z l i
        unfold vget
        have g1 : ¬ (((Nat.succ i : Nat) : Int) < 0) := by omega
        have g2 : ¬ ((i : Int) < 0) := by omega
        have g3 : (((Nat.succ i : Nat) : Int)).toNat = (i : Int).toNat + 1 := by omega
        rw [if_neg g1, if_neg g2, g3]
        rfl
      simp only [e1, e2, ok_bind, e, h1]

theorem train_plain {eo ef : List K} (hl : eo.length = ef.length) (data : List (Fl K × List (Fl K))) :
    ∃ vals, train [] (eo.map fin) (ef.map fin) data = ok vals ∧
      firsts vals = (sorted ((usableCases data).map Prod.fst ++ eo)).map fin ∧
      seconds vals = (sorted ((usableCases data).map Prod.snd ++ ef)).map fin ∧
      vals.length = 2 * ((usableCases data).length + eo.length) := by
  have e1 : (trainPairs data).map Prod.fst = ((usableCases data).map Prod.fst).map fin := by
    rw [trainPairs_eq, List.map_map, List.map_map]; rfl
  have e2 : (trainPairs data).map Prod.snd = ((usableCases data).map Prod.snd).map fin := by
    rw [trainPairs_eq, List.map_map, List.map_map]; rfl
  have e3 : trainPoints [] ((sorted ((usableCases data).map Prod.fst)).map fin) ((sorted ((usableCases data).map Prod.snd)).map fin) =
      ok ((sorted ((usableCases data).map Prod.fst)).map fin, (sorted ((usableCases data).map Prod.snd)).map fin) := by
    unfold trainPoints
    by_cases h : usableCases data = []
    · simp [h, sorted]
    · rw [if_neg (by simpa [length_sorted] using h)]
      simp
  have c1 : sorted (sorted ((usableCases data).map Prod.fst) ++ eo) = sorted ((usableCases data).map Prod.fst ++ eo) :=
    sorted_congr ((sorted_perm _).append_right _)
  have c2 : sorted (sorted ((usableCases data).map Prod.snd) ++ ef) = sorted ((usableCases data).map Prod.snd ++ ef) :=
    sorted_congr ((sorted_perm _).append_right _)
  obtain ⟨vals, h1, h2, h3, h4⟩ := interleave_eq (o := (sorted ((usableCases data).map Prod.fst ++ eo)).map (fin : K → Fl K))
    (f := (sorted ((usableCases data).map Prod.snd ++ ef)).map (fin : K → Fl K)) (by simp [length_sorted, hl])
  refine ⟨vals.flatten, ?_, h2, h3, by simpa [length_sorted] using h4⟩
  unfold train
  simp only [e1, e2, stdSort_map_fin, ok_bind, e3, withExtra_perm hl (pairwise_sorted _) (pairwise_sorted _), c1, c2, h1]

/-- Interpolation at equally spaced knots in [0, 1] is reading off the polyline through the values. -/
theorem interpolate_levels {ys : List K} (h2 : 2 ≤ ys.length) {q : K} (h0 : 0 ≤ q) (h1 : q ≤ 1) :
    ∃ r, interpolate (fin q) ((List.range ys.length).map fun i => Fl.ofNat i / Fl.ofInt ((ys.length : Int) - 1)) (ys.map fin) = ok (fin r) ∧
      OnPolyline ys (q * ((ys.length : K) - 1)) r := by
  have hd : (0 : K) < (ys.length : K) - 1 := by
    have : ((2 : Nat) : K) ≤ (ys.length : K) := Nat.cast_le.mpr h2
    push_cast at this
    linarith
  have hx : ((List.range ys.length).map fun i => Fl.ofNat i / Fl.ofInt ((ys.length : Int) - 1) : List (Fl K)) =
      ((List.range ys.length).map fun i => ((i : Nat) : K) / ((ys.length : K) - 1)).map fin := by
    rw [List.map_map]
    apply List.map_congr_left
    intro i _
    have : (((ys.length : Int) - 1 : Int) : K) ≠ 0 := by push_cast; exact hd.ne'
    simp only [Function.comp, ofNat_def, Fl.ofInt, fin_div_of_ne _ this]
    push_cast
    rfl
  rw [hx]
  generalize hxs : ((List.range ys.length).map fun i => ((i : Nat) : K) / ((ys.length : K) - 1)) = xs
  have hlen : xs.length = ys.length := by rw [← hxs]; simp
  have hg : ∀ i, (h : i < xs.length) → xs[i] = (i : K) / ((ys.length : K) - 1) := by
    intro i h
    subst hxs
    simp
  have hlt : ∀ i j, (hi : i < xs.length) → (hj : j < xs.length) → (xs[i] < xs[j] ↔ i < j) := by
    intro i j hi hj
    rw [hg i hi, hg j hj, div_lt_div_iff_of_pos_right hd, Nat.cast_lt]
  have hs : xs.Pairwise (· ≤ ·) := by
    rw [List.pairwise_iff_getElem]
    intro i j hi hj hij
    exact ((hlt i j hi hj).mpr hij).le
  have hv : ∀ v ∈ xs, v ≠ -999 := by
    intro v hv
    obtain ⟨i, hi, rfl⟩ := List.mem_iff_getElem.mp hv
    rw [hg i hi]
    have : (0 : K) ≤ (i : K) / ((ys.length : K) - 1) := div_nonneg (Nat.cast_nonneg _) hd.le
    intro h
    rw [h] at this
    norm_num at this
  have hmul : ∀ i, (h : i < xs.length) → xs[i] * ((ys.length : K) - 1) = i := by
    intro i h
    rw [hg i h]
    exact div_mul_cancel₀ _ hd.ne'
  rcases interpolate_cases hv hlen hs q (by omega) with ⟨h, -⟩ | ⟨h, -⟩ | ⟨-, -, i, j, hi, hj, h⟩
  · rw [hg 0 (by omega)] at h
    simp at h
    exact absurd h (not_lt.mpr h0)
  · rw [hg _ (by omega)] at h
    have e : ((xs.length - 1 : Nat) : K) = (ys.length : K) - 1 := by
      rw [hlen, Nat.cast_sub (by omega)]; simp
    rw [e, div_self hd.ne'] at h
    exact absurd h (not_lt.mpr h1)
  · refine ⟨_, h, ?_⟩
    rcases eq_or_lt_of_le hi.le with heq | hlo
    · have hij : i = j := by
        rcases Nat.lt_trichotomy i j with hc | hc | hc
        · have := hj.before (lt_of_eq_of_lt heq.symm ((hlt i j hi.lt hj.lt).mpr hc)) i hc
          exact absurd heq this.ne
        · exact hc
        · have := hi.le_upper hj
          omega
      subst hij
      left
      refine ⟨i, hlen ▸ hi.lt, ?_, ?_⟩
      · rw [← heq, hmul i hi.lt]
      · unfold knotValue
        rw [if_pos rfl]
        ring
    · obtain ⟨hji, hup⟩ := hi.next hj hlo
      subst hji
      right
      have hjl : i + 1 < ys.length := hlen ▸ hj.lt
      have m1 := hmul i hi.lt
      have m2 := hmul (i + 1) hj.lt
      push_cast at m2
      refine ⟨i, hjl, ?_, ?_, ?_⟩
      · rw [← m1]; exact mul_lt_mul_of_pos_right hlo hd
      · rw [← m2]; exact mul_lt_mul_of_pos_right hup hd
      · unfold knotValue
        have hne : xs[i]'hi.lt ≠ xs[i + 1]'hj.lt := (hlo.trans hup).ne
        rw [if_neg hne, hg i hi.lt, hg (i + 1) hj.lt]
        push_cast
        have : ((i : K) + 1) / ((ys.length : K) - 1) - (i : K) / ((ys.length : K) - 1) = 1 / ((ys.length : K) - 1) := by ring
        rw [this]
        field_simp

theorem mapM_fin_exists {f : Fl K → Res (Fl K)} {P : K → K → Prop} {qs : List K} (h : ∀ q ∈ qs, ∃ r, f (fin q) = ok (fin r) ∧ P q r) :
    ∃ rs : List K, mapM f (qs.map fin) = ok (rs.map fin) ∧ List.Forall₂ P qs rs := by
  induction qs with
  | nil => exact ⟨[], rfl, List.Forall₂.nil⟩
  | cons q t ih =>
    obtain ⟨r, h1, h2⟩ := h q (by simp)
    obtain ⟨rs, h3, h4⟩ := ih fun q hq => h q (by simp [hq])
    refine ⟨r :: rs, ?_, List.Forall₂.cons h2 h4⟩
    rw [List.map_cons, mapM_cons, h1, ok_bind, h3]
    rfl

theorem firsts_get? {α : Type} : ∀ (l : List α) (k : Nat), k < (firsts l).length → l[2 * k]? = (firsts l)[k]?
  | [], k, h => by simp [firsts] at h
  | [_], k, h => by simp [firsts] at h
  | a :: b :: t, 0, _ => by simp [firsts]
  | a :: b :: t, k + 1, h => by
    have := firsts_get? t k (by simpa [firsts] using h)
    simpa [firsts, show 2 * (k + 1) = 2 * k + 1 + 1 by omega] using this

theorem seconds_get? {α : Type} : ∀ (l : List α) (k : Nat), k < (seconds l).length → l[2 * k + 1]? = (seconds l)[k]?
  | [], k, h => by simp [seconds] at h
  | [_], k, h => by simp [seconds] at h
  | a :: b :: t, 0, _ => by simp [seconds]
  | a :: b :: t, k + 1, h => by
    have := seconds_get? t k (by simpa [seconds] using h)
    simpa [seconds, show 2 * (k + 1) + 1 = 2 * k + 1 + 1 + 1 by omega] using this

theorem train_quantiles {qs : List K} (hne : qs ≠ []) (hq : ∀ q ∈ qs, 0 ≤ q ∧ q ≤ 1) (data : List (Fl K × List (Fl K)))
    (h2 : 2 ≤ (usableCases data).length) :
    ∃ vals os fs, train (qs.map fin) [] [] data = ok vals ∧ firsts vals = os.map fin ∧ seconds vals = fs.map fin ∧
      vals.length = 2 * qs.length ∧
      List.Forall₂ (fun q r => OnPolyline (sorted ((usableCases data).map Prod.fst)) (q * (((usableCases data).length : K) - 1)) r) qs os ∧
      List.Forall₂ (fun q r => OnPolyline (sorted ((usableCases data).map Prod.snd)) (q * (((usableCases data).length : K) - 1)) r) qs fs := by
  have e1 : (trainPairs data).map Prod.fst = ((usableCases data).map Prod.fst).map fin := by
    rw [trainPairs_eq, List.map_map, List.map_map]; rfl
  have e2 : (trainPairs data).map Prod.snd = ((usableCases data).map Prod.snd).map fin := by
    rw [trainPairs_eq, List.map_map, List.map_map]; rfl
  have l1 : (sorted ((usableCases data).map Prod.fst)).length = (usableCases data).length := by simp [length_sorted]
  have l2 : (sorted ((usableCases data).map Prod.snd)).length = (usableCases data).length := by simp [length_sorted]
  obtain ⟨os, o1, o2⟩ := mapM_fin_exists (qs := qs) (f := fun q => interpolate q
      ((List.range (usableCases data).length).map fun i => Fl.ofNat i / Fl.ofInt (((usableCases data).length : Int) - 1))
      ((sorted ((usableCases data).map Prod.fst)).map fin))
    (P := fun q r => OnPolyline (sorted ((usableCases data).map Prod.fst)) (q * (((usableCases data).length : K) - 1)) r) (by
      intro q hq'
      have := interpolate_levels (ys := sorted ((usableCases data).map Prod.fst)) (by omega) (hq q hq').1 (hq q hq').2
      rwa [l1] at this)
  obtain ⟨fs, f1, f2⟩ := mapM_fin_exists (qs := qs) (f := fun q => interpolate q
      ((List.range (usableCases data).length).map fun i => Fl.ofNat i / Fl.ofInt (((usableCases data).length : Int) - 1))
      ((sorted ((usableCases data).map Prod.snd)).map fin))
    (P := fun q r => OnPolyline (sorted ((usableCases data).map Prod.snd)) (q * (((usableCases data).length : K) - 1)) r) (by
      intro q hq'
      have := interpolate_levels (ys := sorted ((usableCases data).map Prod.snd)) (by omega) (hq q hq').1 (hq q hq').2
      rwa [l2] at this)
  obtain ⟨vals, h1, h2', h3, h4⟩ := interleave_eq (o := os.map (fin : K → Fl K)) (f := fs.map (fin : K → Fl K))
    (by simp [← o2.length_eq, ← f2.length_eq])
  have hpts : trainPoints (qs.map fin) ((sorted ((usableCases data).map Prod.fst)).map fin) ((sorted ((usableCases data).map Prod.snd)).map fin) =
      ok (os.map fin, fs.map fin) := by
    unfold trainPoints
    rw [if_neg (by rw [List.length_map, l1]; omega), if_pos (by simpa using List.length_pos_iff.mpr hne)]
    simp only [List.length_map, l1, o1, f1, ok_bind]
  refine ⟨vals.flatten, os, fs, ?_, h2', h3, by rw [h4, List.length_map, ← o2.length_eq], o2, f2⟩
  unfold train
  simp only [e1, e2, stdSort_map_fin, ok_bind, hpts, withExtra, List.length_nil, lt_self_iff_false, if_false, h1]

end Gridpp.Client
