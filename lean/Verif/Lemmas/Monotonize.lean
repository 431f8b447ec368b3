import Verif.Model.Curve
import Verif.Lemmas.Curve
import Mathlib.Data.List.Sort
import Mathlib.Data.List.GetD

/-! Lemmas about `monotonize_curve`. -/

set_option linter.unusedSectionVars false

namespace Gridpp
open Fl Res

section
variable {K : Type} [Field K] [LinearOrder K] [IsStrictOrderedRing K]

theorem map_getD_sublist {α : Type} (l : List α) (d : α) (is : List Nat) (h : is.Pairwise (· < ·)) (hb : ∀ i ∈ is, i < l.length) :
    (is.map fun i => l.getD i d).Sublist l := by
  have key : is.map (fun i => l.getD i d) = (is.pmap (fun i hi => (⟨i, hi⟩ : Fin l.length)) hb).map (fun i => l[i]) := by
    rw [List.map_pmap]
    refine List.ext_getElem (by simp) fun k h1 h2 => ?_
    have h3 : k < is.length := by simpa using h1
    simp only [List.getElem_map, List.getElem_pmap, Fin.getElem_fin]
    rw [List.getD_eq_getElem _ _ (hb _ (List.getElem_mem h3))]
  rw [key]
  refine List.map_getElem_sublist ?_
  exact List.Pairwise.pmap h hb (fun a ha b hb' hab => hab)

theorem filter_zip (ref fcst : List (Fl K)) :
    (ref.zip fcst).filter (fun p => p.2.isValid && p.1.isValid) =
      (finitePairs ref fcst).map fun p => (fin p.1, fin p.2) := by
  unfold finitePairs
  generalize ref.zip fcst = l
  induction l with
  | nil => rfl
  | cons a t ih =>
    obtain ⟨r, f⟩ := a
    cases r <;> cases f <;> simp_all [isValid]

/-- Invariant of the main loop at index `i`; `fv` are the abscissas. -/
structure MonoInv (fv : Nat → K) (i : Nat) (s : MonoState K) : Prop where
  desc : s.idx.Pairwise (· > ·)
  lt : ∀ k ∈ s.idx, k < i
  gaps : s.idx.Pairwise fun a b => fv b + 1 / 10 < fv a
  top : ∃ t rest, s.idx = t :: rest ∧ s.xmax = fin (fv t) ∧ s.prev = fin (fv t)
  xmin : ∃ m, s.xmin = fin m

theorem monoTol_def : (monoTol : Fl K) = fin (1 / 10) := rfl

theorem monoPop_ok (fs : List K) (m : K) (st : List Nat) (h : ∀ k ∈ st, k < fs.length) :
    ∃ st', monoPop (fs.map fin) (fin m) st = ok st' ∧ st' <:+ st := by
  induction st with
  | nil => exact ⟨[], rfl, List.suffix_refl _⟩
  | cons i t ih =>
    have hi := h i (by simp)
    obtain ⟨t', ht, hs⟩ := ih (fun k hk => h k (by simp [hk]))
    simp only [monoPop, vget_map_fin fs i hi, ok_bind, monoTol_def, fin_sub, lt_fin]
    by_cases hc : fs[i] < m - 1 / 10
    · exact ⟨i :: t, by simp only [hc, decide_true, if_true], List.suffix_refl _⟩
    · refine ⟨t', by simp only [hc, decide_false, Bool.false_eq_true, if_false, ht], hs.trans (List.suffix_cons _ _)⟩

theorem monoStep_ok (rs fs : List K) (hl : rs.length = fs.length) (i : Nat) (hi : i < fs.length) (s : MonoState K)
    (hs : MonoInv (fun k => fs.getD k 0) i s) :
    ∃ s', monoStep (rs.map fin) (fs.map fin) s i = ok s' ∧ MonoInv (fun k => fs.getD k 0) (i + 1) s' := by
  have hg : fs.getD i 0 = fs[i] := List.getD_eq_getElem _ _ hi
  obtain ⟨t, rest, htop, hmax, hprev⟩ := hs.top
  obtain ⟨m, hm⟩ := hs.xmin
  unfold monoStep
  simp only [vget_map_fin fs i hi, vget_map_fin rs i (by omega), ok_bind, isValid_fin, assert_true, hmax, hprev, hm,
    gt_fin, le_fin, monoTol_def, fin_add]
  have hlt : ∀ k ∈ s.idx, k < i + 1 := fun k hk => Nat.lt_succ_of_lt (hs.lt k hk)
  have push : ∀ st : List Nat, st <:+ s.idx → fs.getD t 0 + 1 / 10 < fs[i] → ∀ d xm, (∃ m, xm = fin m) →
      MonoInv (fun k => fs.getD k 0) (i + 1) { dev := d, xmin := xm, xmax := fin fs[i], prev := fin fs[i], idx := i :: st } := by
    intro st hsuf hc d xm hxm
    have hsub := hsuf.sublist
    refine ⟨List.pairwise_cons.mpr ⟨fun k hk => hs.lt k (hsub.subset hk), hs.desc.sublist hsub⟩, ?_,
      List.pairwise_cons.mpr ⟨fun k hk => ?_, hs.gaps.sublist hsub⟩, ⟨i, st, rfl, by rw [hg], by rw [hg]⟩, hxm⟩
    · intro k hk
      rcases List.mem_cons.mp hk with rfl | hk
      · omega
      · exact hlt k (hsub.subset hk)
    · have hk' := hsub.subset hk
      rw [hg]
      rw [htop] at hk'
      rcases List.mem_cons.mp hk' with rfl | hk'
      · exact hc
      · have hgap := hs.gaps
        rw [htop] at hgap
        have h1 := (List.pairwise_cons.mp hgap).1 k hk'
        have h10 : (0 : K) < 1 / 10 := by norm_num
        have : fs.getD t 0 < fs.getD t 0 + 1 / 10 := lt_add_of_pos_right _ h10
        exact h1.trans (this.trans hc)
  cases hd : s.dev with
  | true =>
    have hxm : ∃ m', (if Fl.lt (fin fs[i]) (fin m) = true then (fin fs[i] : Fl K) else fin m) = fin m' := by
      split_ifs
      · exact ⟨_, rfl⟩
      · exact ⟨_, rfl⟩
    obtain ⟨m', hm'⟩ := hxm
    simp only [hm', if_true]
    by_cases hc : fs.getD t 0 + 1 / 10 < fs[i]
    · simp only [hc, decide_true, if_true]
      obtain ⟨st', hst, hsuf⟩ := monoPop_ok fs m' s.idx (fun k hk => lt_trans (hs.lt k hk) hi)
      rw [hst]
      exact ⟨_, rfl, push st' hsuf hc false _ ⟨_, rfl⟩⟩
    · simp only [hc, decide_false, Bool.false_eq_true, if_false]
      exact ⟨_, rfl, hs.desc, hlt, hs.gaps, ⟨t, rest, htop, rfl, rfl⟩, ⟨_, rfl⟩⟩
  | false =>
    simp only [Bool.false_eq_true, if_false]
    by_cases hc : fs[i] ≤ fs.getD t 0 + 1 / 10
    · simp only [hc, decide_true, if_true]
      exact ⟨_, rfl, hs.desc, hlt, hs.gaps, ⟨t, rest, htop, rfl, rfl⟩, ⟨_, rfl⟩⟩
    · simp only [hc, decide_false, Bool.false_eq_true, if_false]
      refine ⟨_, rfl, ?_⟩
      have := push s.idx (List.suffix_refl _) (not_le.mp hc) s.dev s.xmin ⟨m, hm⟩
      rw [hd] at this
      rw [← hm]
      exact this

theorem monoLoop_ok (rs fs : List K) (hl : rs.length = fs.length) (n : Nat) :
    ∀ i s, i + n ≤ fs.length → MonoInv (fun k => fs.getD k 0) i s →
      ∃ s', foldM (monoStep (rs.map fin) (fs.map fin)) s (List.range' i n) = ok s' ∧
        MonoInv (fun k => fs.getD k 0) (i + n) s' := by
  induction n with
  | zero => intro i s _ hs; exact ⟨s, rfl, hs⟩
  | succ n ih =>
    intro i s hle hs
    obtain ⟨s1, h1, hs1⟩ := monoStep_ok rs fs hl i (by omega) s hs
    obtain ⟨s2, h2, hs2⟩ := ih (i + 1) s1 (by omega) hs1
    refine ⟨s2, ?_, ?_⟩
    · rw [List.range'_succ, foldM_cons, h1]; exact h2
    · rw [show i + (n + 1) = i + 1 + n by omega]; exact hs2

theorem monoFinish_ok (fs : List K) (m : K) (n : Nat) (st : List Nat) (hn : n = st.length) (h : ∀ k ∈ st, k < fs.length)
    (hg : st.Pairwise fun a b => fs.getD b 0 + 1 / 10 < fs.getD a 0) :
    ∃ st', monoFinish (fs.map fin) (fin m) n st = ok st' ∧ st' <:+ st := by
  -- once a value below the minimum is seen, all the deeper ones are below too
  have keep : ∀ (l st : List Nat) (n : Nat), n ≤ st.length → (∀ k ∈ st, k < fs.length) →
      (∀ j, (hj : j < n) → fs.getD (st.reverse.getD j 0) 0 < m) → monoFinish (fs.map fin) (fin m) n st = ok st := by
    intro _ st n
    induction n with
    | zero => intro _ _ _; rfl
    | succ j ih =>
      intro hn hb hk
      have hj : j < st.reverse.length := by simp; omega
      have hjm : st.reverse[j] < fs.length := hb _ (List.mem_reverse.mp (List.getElem_mem hj))
      have hlt := hk j (by omega)
      rw [List.getD_eq_getElem _ _ hj, List.getD_eq_getElem _ _ hjm] at hlt
      simp only [monoFinish]
      rw [vget_eq_ok_of_lt hj]
      simp only [ok_bind, vget_map_fin fs _ hjm, ge_fin, not_le.mpr hlt, decide_false, Bool.false_eq_true, if_false]
      exact ih (by omega) hb (fun k hk' => hk k (by omega))
  induction st generalizing n with
  | nil => subst hn; exact ⟨[], rfl, List.suffix_refl _⟩
  | cons a t ih =>
    subst hn
    have hrev : (a :: t).reverse = t.reverse ++ [a] := by simp
    have ha := h a (by simp)
    have h1 : vget (a :: t).reverse ((t.length : Nat) : Int) = ok a := by
      rw [vget_eq_ok_of_lt (by simp)]; simp
    by_cases hc : m ≤ fs[a]
    · obtain ⟨st', he, hsuf⟩ := ih t.length rfl (fun k hk => h k (by simp [hk])) (List.pairwise_cons.mp hg).2
      refine ⟨st', ?_, hsuf.trans (List.suffix_cons _ _)⟩
      simp only [List.length_cons, monoFinish, h1, ok_bind, vget_map_fin fs a ha, ge_fin, hc, decide_true, if_true,
        List.tail_cons]
      exact he
    · refine ⟨a :: t, ?_, List.suffix_refl _⟩
      refine keep [] _ _ (le_refl _) h fun j hj => ?_
      have hlt := not_le.mp hc
      have hj' : j < (a :: t).reverse.length := by simpa using hj
      rw [List.getD_eq_getElem _ _ hj']
      have hmem : (a :: t).reverse[j] ∈ a :: t := List.mem_reverse.mp (List.getElem_mem hj')
      rcases List.mem_cons.mp hmem with he | he
      · rw [he, List.getD_eq_getElem _ _ ha]; exact hlt
      · have h2 := (List.pairwise_cons.mp hg).1 _ he
        rw [List.getD_eq_getElem _ _ ha] at h2
        have h10 : (0 : K) < 1 / 10 := by norm_num
        exact (lt_add_of_pos_right _ h10).trans (h2.trans hlt)

/-- `monotonize_curve` when at least one pair is valid. -/
theorem monotonizeCurve_ok (ref fcst : List (Fl K)) (hl : ref.length = fcst.length) (hp : finitePairs ref fcst ≠ []) :
    ∃ is : List Nat, is.Pairwise (· < ·) ∧ (∀ i ∈ is, i < (finitePairs ref fcst).length) ∧
      (is.Pairwise fun a b => ((finitePairs ref fcst).map Prod.snd).getD a 0 + 1 / 10 <
        ((finitePairs ref fcst).map Prod.snd).getD b 0) ∧
      monotonizeCurve ref fcst = ok (is.map fun i => fin (((finitePairs ref fcst).map Prod.fst).getD i 0),
        is.map fun i => fin (((finitePairs ref fcst).map Prod.snd).getD i 0)) := by
  have hne : ref.length ≠ 0 := by
    intro h0
    have : ref = [] := List.length_eq_zero_iff.mp h0
    subst this
    exact hp rfl
  unfold monotonizeCurve
  rw [if_neg (by simpa using hl), if_neg hne]
  simp only [filter_zip]
  set P := finitePairs ref fcst with hP
  have e1 : (P.map fun p => ((fin p.1 : Fl K), (fin p.2 : Fl K))).map Prod.fst = (P.map Prod.fst).map fin := by simp
  have e2 : (P.map fun p => ((fin p.1 : Fl K), (fin p.2 : Fl K))).map Prod.snd = (P.map Prod.snd).map fin := by simp
  rw [e1, e2]
  set rs := P.map Prod.fst with hrs
  set fs := P.map Prod.snd with hfs
  have hrl : rs.length = P.length := by simp [hrs]
  have hfl : fs.length = P.length := by simp [hfs]
  have hpos : 0 < P.length := List.length_pos_iff.mpr hp
  have h0 : vget (fs.map (fin : K → Fl K)) 0 = ok (fin fs[0]) := vget_map_fin fs 0 (by omega)
  have hr : (List.range (P.map fun p => ((fin p.1 : Fl K), (fin p.2 : Fl K))).length).drop 1 = List.range' 1 (P.length - 1) := by
    rw [List.length_map, List.range_eq_range', List.drop_range']
  obtain ⟨s, hs1, hs2⟩ := monoLoop_ok rs fs (by omega) (P.length - 1) 1
    { dev := false, xmin := fin fs[0], xmax := fin fs[0], prev := fin fs[0], idx := [0] } (by omega)
    ⟨by simp, by simp, by simp, ⟨0, [], rfl, by rw [List.getD_eq_getElem _ _ (by omega)], by rw [List.getD_eq_getElem _ _ (by omega)]⟩, ⟨_, rfl⟩⟩
  have hb : ∀ k ∈ s.idx, k < fs.length := fun k hk => by have := hs2.lt k hk; omega
  have hfin : ∃ st, (if s.dev then monoFinish (fs.map fin) s.xmin s.idx.length s.idx else ok s.idx : Res (List Nat)) = ok st ∧
      st <:+ s.idx := by
    obtain ⟨m, hm⟩ := hs2.xmin
    by_cases hd : s.dev = true
    · rw [if_pos hd, hm]
      exact monoFinish_ok fs m _ s.idx rfl hb hs2.gaps
    · rw [if_neg hd]; exact ⟨_, rfl, List.suffix_refl _⟩
  obtain ⟨st, hst, hsuf⟩ := hfin
  have hsub := hsuf.sublist
  have hbst : ∀ k ∈ st.reverse, k < P.length := fun k hk => by
    have := hb k (hsub.subset (List.mem_reverse.mp hk)); omega
  refine ⟨st.reverse, ?_, hbst, ?_, ?_⟩
  · rw [List.pairwise_reverse]; exact hs2.desc.sublist hsub
  · rw [List.pairwise_reverse]; exact hs2.gaps.sublist hsub
  · rw [h0, ok_bind, hr, hs1, ok_bind, hst, ok_bind]
    rw [mapM_ok (g := fun i : Nat => fin (rs.getD i 0)), mapM_ok (g := fun i : Nat => fin (fs.getD i 0))]
    · rfl
    · intro i hi
      have := hbst i hi
      rw [vget_map_fin fs i (by omega), List.getD_eq_getElem _ _ (by omega)]
    · intro i hi
      have := hbst i hi
      rw [vget_map_fin rs i (by omega), List.getD_eq_getElem _ _ (by omega)]

theorem monoLoop_sep (rs fs : List K) (hl : rs.length = fs.length)
    (hsep : ∀ k, (h : k + 1 < fs.length) → fs[k] + 1 / 10 < fs[k + 1]) (xm : Fl K) (n : Nat) :
    ∀ i, (hi : 0 < i) → (hin : i + n ≤ fs.length) →
      foldM (monoStep (rs.map fin) (fs.map fin))
        { dev := false, xmin := xm, xmax := fin (fs.getD (i - 1) 0), prev := fin (fs.getD (i - 1) 0), idx := (List.range i).reverse }
        (List.range' i n) =
      ok { dev := false, xmin := xm, xmax := fin (fs.getD (i + n - 1) 0), prev := fin (fs.getD (i + n - 1) 0),
           idx := (List.range (i + n)).reverse } := by
  induction n with
  | zero => intro i _ _; rfl
  | succ n ih =>
    intro i hi hin
    have h1 : i < fs.length := by omega
    have hs := hsep (i - 1) (by omega)
    simp only [Nat.sub_add_cancel hi] at hs
    have hst : monoStep (rs.map fin) (fs.map fin)
        { dev := false, xmin := xm, xmax := fin (fs.getD (i - 1) 0), prev := fin (fs.getD (i - 1) 0), idx := (List.range i).reverse } i =
        ok { dev := false, xmin := xm, xmax := fin (fs.getD (i + 1 - 1) 0), prev := fin (fs.getD (i + 1 - 1) 0),
             idx := (List.range (i + 1)).reverse } := by
      unfold monoStep
      simp only [vget_map_fin fs i h1, vget_map_fin rs i (by omega), ok_bind, isValid_fin, assert_true, Bool.false_eq_true,
        if_false, monoTol_def, fin_add, le_fin]
      rw [List.getD_eq_getElem _ _ (show i - 1 < fs.length by omega)]
      simp only [not_le.mpr hs, decide_false, Bool.false_eq_true, if_false, Nat.add_sub_cancel]
      rw [List.getD_eq_getElem _ _ h1, List.range_succ]
      simp
    rw [List.range'_succ, foldM_cons, hst]
    have := ih (i + 1) (by omega) (by omega)
    rw [ok_bind, this, show i + 1 + n = i + (n + 1) by omega]

/-- A curve whose valid points are already separated is returned unchanged (without its invalid points). -/
theorem monotonizeCurve_sep (ref fcst : List (Fl K)) (hl : ref.length = fcst.length) (hp : finitePairs ref fcst ≠ [])
    (hsep : (finitePairs ref fcst).Pairwise fun a b => a.2 + 1 / 10 < b.2) :
    monotonizeCurve ref fcst = ok ((finitePairs ref fcst).map fun p => fin p.1, (finitePairs ref fcst).map fun p => fin p.2) := by
  have hne : ref.length ≠ 0 := by
    intro h0
    have : ref = [] := List.length_eq_zero_iff.mp h0
    subst this
    exact hp rfl
  unfold monotonizeCurve
  rw [if_neg (by simpa using hl), if_neg hne]
  simp only [filter_zip]
  set P := finitePairs ref fcst with hP
  have e1 : (P.map fun p => ((fin p.1 : Fl K), (fin p.2 : Fl K))).map Prod.fst = (P.map Prod.fst).map fin := by simp
  have e2 : (P.map fun p => ((fin p.1 : Fl K), (fin p.2 : Fl K))).map Prod.snd = (P.map Prod.snd).map fin := by simp
  rw [e1, e2]
  set rs := P.map Prod.fst with hrs
  set fs := P.map Prod.snd with hfs
  have hrl : rs.length = P.length := by simp [hrs]
  have hfl : fs.length = P.length := by simp [hfs]
  have hpos : 0 < P.length := List.length_pos_iff.mpr hp
  have h0 : vget (fs.map (fin : K → Fl K)) 0 = ok (fin fs[0]) := vget_map_fin fs 0 (by omega)
  have hr : (List.range (P.map fun p => ((fin p.1 : Fl K), (fin p.2 : Fl K))).length).drop 1 = List.range' 1 (P.length - 1) := by
    rw [List.length_map, List.range_eq_range', List.drop_range']
  have hsep' : ∀ k, (h : k + 1 < fs.length) → fs[k] + 1 / 10 < fs[k + 1] := by
    intro k h
    have := List.pairwise_iff_getElem.mp hsep k (k + 1) (by omega) (by omega) (by omega)
    simpa [hfs] using this
  have hloop := monoLoop_sep rs fs (by omega) hsep' (fin fs[0]) (P.length - 1) 1 (by omega) (by omega)
  have hg0 : fs.getD (1 - 1) 0 = fs[0] := List.getD_eq_getElem _ _ (by omega)
  rw [hg0, show (List.range 1).reverse = [0] from rfl] at hloop
  rw [h0, ok_bind, hr, hloop, ok_bind]
  simp only [Bool.false_eq_true, if_false, ok_bind, List.reverse_reverse]
  rw [show 1 + (P.length - 1) = P.length by omega]
  have hm : ∀ l : List K, l.length = P.length → mapM (fun i : Nat => vget (l.map (fin : K → Fl K)) (i : Int)) (List.range P.length) = ok (l.map fin) := by
    intro l hl'
    rw [mapM_ok (g := fun i : Nat => fin (l.getD i 0))]
    · congr 1
      refine List.ext_getElem (by simp [hl']) fun k h1 h2 => ?_
      have h3 : k < l.length := by simpa using h2
      simp [h3]
    · intro i hi
      have := List.mem_range.mp hi
      rw [vget_map_fin l i (by omega), List.getD_eq_getElem _ _ (by omega)]
  rw [hm rs hrl, hm fs hfl]
  simp [hrs, hfs]

end
end Gridpp
