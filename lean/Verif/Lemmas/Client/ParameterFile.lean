import Verif.Model.Client.ParameterFile
import Verif.Spec.ClientParameters
import Verif.Lemmas.Client.Series
import Verif.Lemmas.Client.KDTree
import Mathlib.Tactic.Linarith
import Mathlib.Tactic.Tauto

/-! # Lemmas for the parameters by place and time -/

set_option linter.unusedSectionVars false

namespace Gridpp.Client
open Fl hiding MV isValid
open Res Spec

variable {K : Type} [Field K] [LinearOrder K] [IsStrictOrderedRing K]

/-- Two locations at the same place, whatever their elevations. -/
def Loc.Same (a b : Loc K) : Prop := a.lat = b.lat ∧ a.lon = b.lon

theorem Loc.before_iff (a b : Loc K) : a.before b = true ↔ a.lat < b.lat ∨ a.lat = b.lat ∧ a.lon < b.lon := by
  unfold Loc.before
  by_cases h : b.lat = a.lat
  · rw [if_pos h]
    simp [h]
  · rw [if_neg h]
    have : ¬ a.lat = b.lat := fun h' => h h'.symm
    simp [this]

theorem Loc.before_trans {a b c : Loc K} (h : a.before b = true) (h' : b.before c = true) : a.before c = true := by
  rw [Loc.before_iff] at *
  rcases h with h | ⟨h1, h2⟩ <;> rcases h' with h' | ⟨h1', h2'⟩
  · exact .inl (h.trans h')
  · exact .inl (h1' ▸ h)
  · exact .inl (h1 ▸ h')
  · exact .inr ⟨h1.trans h1', h2.trans h2'⟩

theorem Loc.not_same_of_before {a b : Loc K} (h : a.before b = true) : ¬ a.Same b := by
  rintro ⟨h1, h2⟩
  rw [Loc.before_iff, h1, h2] at h
  rcases h with h | ⟨-, h⟩ <;> exact lt_irrefl _ h

theorem Loc.same_iff (a b : Loc K) : (!a.before b && !b.before a) = true ↔ a.Same b := by
  constructor
  · intro h
    simp only [Bool.and_eq_true, Bool.not_eq_true', ← Bool.not_eq_true, Loc.before_iff] at h
    obtain ⟨h1, h2⟩ := h
    push Not at h1 h2
    have e : a.lat = b.lat := le_antisymm h2.1 h1.1
    exact ⟨e, le_antisymm (h2.2 e.symm) (h1.2 e)⟩
  · intro h
    have h1 : ¬ a.before b = true := fun h' => Loc.not_same_of_before h' h
    have h2 : ¬ b.before a = true := fun h' => Loc.not_same_of_before h' ⟨h.1.symm, h.2.symm⟩
    simp [h1, h2]

theorem Loc.trichotomy (a b : Loc K) : a.before b = true ∨ a.Same b ∨ b.before a = true := by
  by_cases h : (!a.before b && !b.before a) = true
  · exact .inr (.inl ((Loc.same_iff a b).mp h))
  · cases h1 : a.before b <;> cases h2 : b.before a <;> simp_all

theorem Loc.Same.symm {a b : Loc K} (h : a.Same b) : b.Same a := ⟨h.1.symm, h.2.symm⟩
theorem Loc.Same.trans {a b c : Loc K} (h : a.Same b) (h' : b.Same c) : a.Same c := ⟨h.1.trans h'.1, h.2.trans h'.2⟩

theorem Loc.before_congr {a b c : Loc K} (h : a.Same b) : a.before c = b.before c := by
  unfold Loc.before; rw [h.1, h.2]

namespace ParMap

/-- The keys come in order. -/
def SortedKeys (m : ParMap K) : Prop := m.Pairwise fun x y => x.1.before y.1 = true

theorem find_some {l : Loc K} {m : ParMap K} {e : Loc K × List (Pars K)} (h : find l m = some e) : e ∈ m ∧ e.1.Same l := by
  induction m with
  | nil => simp [find] at h
  | cons x m ih =>
    rw [find] at h
    split_ifs at h with hc
    · cases h
      exact ⟨by simp, (Loc.same_iff _ _).mp hc⟩
    · obtain ⟨h1, h2⟩ := ih h
      exact ⟨by simp [h1], h2⟩

theorem find_none {l : Loc K} {m : ParMap K} : find l m = none ↔ ∀ e ∈ m, ¬ e.1.Same l := by
  induction m with
  | nil => simp [find]
  | cons x m ih =>
    rw [find]
    split_ifs with hc
    · simp only [false_iff]
      exact fun h => h x (by simp) ((Loc.same_iff _ _).mp hc)
    · rw [ih]
      rw [Loc.same_iff] at hc
      simp [hc]

theorem SortedKeys.unique {m : ParMap K} (hs : m.SortedKeys) {x y : Loc K × List (Pars K)} (hx : x ∈ m) (hy : y ∈ m)
    (h : x.1.Same y.1) : x = y := by
  induction m with
  | nil => simp at hx
  | cons z m ih =>
    obtain ⟨h1, h2⟩ := List.pairwise_cons.mp hs
    rcases List.mem_cons.mp hx with hx | hx <;> rcases List.mem_cons.mp hy with hy | hy
    · exact hx.trans hy.symm
    · exact absurd (hx ▸ h) (Loc.not_same_of_before (h1 _ hy))
    · exact absurd (hy ▸ h.symm) (Loc.not_same_of_before (h1 _ hx))
    · exact ih h2 hx hy

theorem find_mem {m : ParMap K} (hs : m.SortedKeys) {l : Loc K} {e : Loc K × List (Pars K)} (he : e ∈ m) (h : e.1.Same l) :
    find l m = some e := by
  cases hf : find l m with
  | none => exact absurd h (find_none.mp hf e he)
  | some e' =>
    obtain ⟨h1, h2⟩ := find_some hf
    rw [hs.unique h1 he (h2.trans h.symm)]

/-- The entries after `update`. -/
theorem mem_update {m : ParMap K} (hs : m.SortedKeys) (l : Loc K) (g : List (Pars K) → List (Pars K)) (e : Loc K × List (Pars K)) :
    e ∈ update l g m ↔ (e ∈ m ∧ ¬ e.1.Same l) ∨ (∃ x ∈ m, x.1.Same l ∧ e = (x.1, g x.2)) ∨ ((∀ x ∈ m, ¬ x.1.Same l) ∧ e = (l, g [])) := by
  induction m with
  | nil => simp [update]
  | cons z m ih =>
    obtain ⟨h1, h2⟩ := List.pairwise_cons.mp hs
    rw [update]
    rcases Loc.trichotomy l z.1 with h | h | h
    · rw [if_pos h]
      have hno : ∀ x ∈ z :: m, ¬ x.1.Same l := by
        intro x hx hsame
        rcases List.mem_cons.mp hx with rfl | hx
        · exact Loc.not_same_of_before h hsame.symm
        · exact Loc.not_same_of_before (Loc.before_trans h (h1 x hx)) hsame.symm
      constructor
      · intro he
        rcases List.mem_cons.mp he with he | he
        · exact .inr (.inr ⟨hno, he⟩)
        · exact .inl ⟨he, hno e he⟩
      · rintro (⟨he, -⟩ | ⟨x, hx, hsame, -⟩ | ⟨-, rfl⟩)
        · exact List.mem_cons_of_mem _ he
        · exact absurd hsame (hno x hx)
        · simp
    · have hb1 : ¬ l.before z.1 = true := fun h' => Loc.not_same_of_before h' h
      have hb2 : ¬ z.1.before l = true := fun h' => Loc.not_same_of_before h' h.symm
      rw [if_neg hb1, if_neg hb2]
      have hno : ∀ x ∈ m, ¬ x.1.Same l := fun x hx hsame => Loc.not_same_of_before (h1 x hx) (h.symm.trans hsame.symm)
      constructor
      · intro he
        rcases List.mem_cons.mp he with he | he
        · exact .inr (.inl ⟨z, by simp, h.symm, he⟩)
        · exact .inl ⟨by simp [he], hno e he⟩
      · rintro (⟨he, hn⟩ | ⟨x, hx, hsame, rfl⟩ | ⟨hn, -⟩)
        · rcases List.mem_cons.mp he with rfl | he
          · exact absurd h.symm hn
          · exact List.mem_cons_of_mem _ he
        · rcases List.mem_cons.mp hx with rfl | hx
          · simp
          · exact absurd hsame (hno x hx)
        · exact absurd h.symm (hn z (by simp))
    · have hb1 : ¬ l.before z.1 = true := fun h' => Loc.not_same_of_before (Loc.before_trans h h') ⟨rfl, rfl⟩
      rw [if_neg hb1, if_pos h]
      have hz : ¬ z.1.Same l := Loc.not_same_of_before h
      rw [List.mem_cons, ih h2]
      constructor
      · rintro (rfl | ⟨he, hn⟩ | ⟨x, hx, hx'⟩ | ⟨hn, rfl⟩)
        · exact .inl ⟨by simp, hz⟩
        · exact .inl ⟨by simp [he], hn⟩
        · exact .inr (.inl ⟨x, by simp [hx], hx'⟩)
        · exact .inr (.inr ⟨by simpa [hz] using hn, rfl⟩)
      · rintro (⟨he, hn⟩ | ⟨x, hx, hx'⟩ | ⟨hn, rfl⟩)
        · rcases List.mem_cons.mp he with rfl | he
          · exact .inl rfl
          · exact .inr (.inl ⟨he, hn⟩)
        · rcases List.mem_cons.mp hx with rfl | hx
          · exact absurd hx'.1 hz
          · exact .inr (.inr (.inl ⟨x, hx, hx'⟩))
        · exact .inr (.inr (.inr ⟨fun x hx => hn x (by simp [hx]), rfl⟩))

theorem sorted_update {m : ParMap K} (hs : m.SortedKeys) (l : Loc K) (g : List (Pars K) → List (Pars K)) : (update l g m).SortedKeys := by
  induction m with
  | nil => simp [update, SortedKeys]
  | cons z m ih =>
    obtain ⟨h1, h2⟩ := List.pairwise_cons.mp hs
    rw [update]
    rcases Loc.trichotomy l z.1 with h | h | h
    · rw [if_pos h]
      refine List.pairwise_cons.mpr ⟨?_, hs⟩
      intro x hx
      rcases List.mem_cons.mp hx with rfl | hx
      · exact h
      · exact Loc.before_trans h (h1 x hx)
    · have hb1 : ¬ l.before z.1 = true := fun h' => Loc.not_same_of_before h' h
      have hb2 : ¬ z.1.before l = true := fun h' => Loc.not_same_of_before h' h.symm
      rw [if_neg hb1, if_neg hb2]
      exact List.pairwise_cons.mpr ⟨h1, h2⟩
    · have hb1 : ¬ l.before z.1 = true := fun h' => Loc.not_same_of_before (Loc.before_trans h h') ⟨rfl, rfl⟩
      rw [if_neg hb1, if_pos h]
      refine List.pairwise_cons.mpr ⟨?_, ih h2⟩
      intro x hx
      rcases (mem_update h2 l g x).mp hx with ⟨hx, -⟩ | ⟨y, hy, -, rfl⟩ | ⟨-, rfl⟩
      · exact h1 x hx
      · exact h1 y hy
      · exact h

end ParMap

/-- The location of a setting. -/
def settingLoc (w : Setting K) : Loc K := ⟨w.lat, w.lon, w.elev⟩

/-- A file into which the settings have been written one after the other. -/
def written (cycling : Bool) (ws : List (Setting K)) : Res (ParFile K) :=
  foldM (fun f w => f.setParameters w.pars w.time (settingLoc w)) (ParFile.empty cycling) ws

theorem latest_append (ws : List (Setting K)) (w : Setting K) : latest (ws ++ [w]) = max (latest ws) w.time := by
  induction ws with
  | nil => simp [latest]
  | cons x ws ih =>
    have e : ∀ l : List (Setting K), latest (x :: l) = max x.time (latest l) := fun _ => rfl
    rw [List.cons_append, e, e, ih, max_assoc]

theorem lastSetting_append (ws : List (Setting K)) (w : Setting K) (a b : K) (t : Nat) :
    lastSetting (ws ++ [w]) a b t = if w.lat = a ∧ w.lon = b ∧ w.time = t then w.pars else lastSetting ws a b t := by
  by_cases h : w.lat = a ∧ w.lon = b ∧ w.time = t
  · rw [if_pos h, lastSetting, settingsFor, List.filter_append]
    simp [h]
  · rw [if_neg h, lastSetting, settingsFor, List.filter_append]
    have : List.filter (fun w : Setting K => decide (w.lat = a ∧ w.lon = b ∧ w.time = t)) [w] = [] := by simp [h]
    rw [this, List.append_nil]
    rfl

theorem lastSetting_eq_nil {ws : List (Setting K)} {a b : K} {t : Nat} (h : ∀ w ∈ ws, ¬ (w.lat = a ∧ w.lon = b)) :
    lastSetting ws a b t = [] := by
  have : settingsFor ws a b t = [] := by
    rw [settingsFor, List.filter_eq_nil_iff]
    intro w hw
    have := h w hw
    simp only [decide_eq_true_eq]
    tauto
  rw [lastSetting, this]
  rfl

theorem lastSetting_late {ws : List (Setting K)} {a b : K} {t : Nat} (h : latest ws < t) : lastSetting ws a b t = [] := by
  have hle : ∀ w ∈ ws, w.time ≤ latest ws := by
    clear h
    induction ws with
    | nil => simp
    | cons x ws ih =>
      have e : latest (x :: ws) = max x.time (latest ws) := rfl
      intro w hw
      rw [e]
      rcases List.mem_cons.mp hw with rfl | hw
      · exact le_max_left _ _
      · exact (ih w hw).trans (le_max_right _ _)
  have : settingsFor ws a b t = [] := by
    rw [settingsFor, List.filter_eq_nil_iff]
    intro w hw
    have := hle w hw
    simp only [decide_eq_true_eq]
    rintro ⟨-, -, h3⟩
    omega
  rw [lastSetting, this]
  rfl

namespace ParFile

/-- The file `f` holds the settings `ws`. -/
structure Holds (f : ParFile K) (cycling : Bool) (ws : List (Setting K)) : Prop where
  sorted : f.pars.SortedKeys
  keys : ∀ a b, (∃ e ∈ f.pars, e.1.lat = a ∧ e.1.lon = b) ↔ ∃ w ∈ ws, w.lat = a ∧ w.lon = b
  short : ∀ e ∈ f.pars, e.2.length ≤ latest ws + 1
  long : ws ≠ [] → ∃ e ∈ f.pars, e.2.length = latest ws + 1
  value : ∀ e ∈ f.pars, ∀ t, e.2.getD t [] = lastSetting ws e.1.lat e.1.lon t
  elev : ∀ e ∈ f.pars, ∃ w, (ws.find? fun w => w.lat = e.1.lat ∧ w.lon = e.1.lon) = some w ∧ e.1.elev = w.elev
  maxTime : f.maxTime = latest ws
  timeDependent : f.timeDependent = decide (0 < latest ws)
  cycling : f.cycling = cycling

theorem getD_resize (n t : Nat) (v : List (Pars K)) (h : v.length ≤ n) : (resize n v).getD t [] = v.getD t [] := by
  unfold resize
  rw [List.take_of_length_le h]
  simp only [List.getD_eq_getElem?_getD, List.getElem?_append, List.getElem?_replicate]
  split_ifs with h1 h2
  · rfl
  · rw [List.getElem?_eq_none (by omega)]
    rfl
  · rw [List.getElem?_eq_none (by omega)]

theorem length_resize (n : Nat) (v : List (Pars K)) : (resize n v).length = n := by
  unfold resize
  simp only [List.length_append, List.length_take, List.length_replicate]
  omega

theorem written_holds (cycling : Bool) (ws : List (Setting K)) :
    ∃ f, written cycling ws = ok f ∧ f.Holds cycling ws ∧ f.locations = [] ∧ f.tree = .nil := by
  induction ws using List.reverseRecOn with
  | nil =>
    refine ⟨ParFile.empty cycling, rfl, ⟨by simp [empty, ParMap.SortedKeys], by simp [empty], by simp [empty],
      by simp, by simp [empty], by simp [empty], rfl, rfl, rfl⟩,
      rfl, rfl⟩
  | append_singleton ws w ih =>
    obtain ⟨f, h1, h2, h3, h4⟩ := ih
    have hm : max f.maxTime (w.time : Int) = ((max (latest ws) w.time : Nat) : Int) := by rw [h2.maxTime]; push_cast; rfl
    let g : List (Pars K) → List (Pars K) := fun v =>
      (if v.length ≤ w.time then resize (max (latest ws) w.time + 1) v else v).set w.time w.pars
    let f' : ParFile K := { f with
      pars := ParMap.update (settingLoc w) g f.pars
      maxTime := max f.maxTime (w.time : Int)
      timeDependent := f.timeDependent || decide ((0 : Int) < w.time) }
    have hrun : written cycling (ws ++ [w]) = ok f' := by
      unfold written at h1 ⊢
      rw [foldM_append, h1, ok_bind, foldM_cons]
      have hneg : ¬ ((w.time : Int) < 0) := by omega
      have hn : (max f.maxTime (w.time : Int) + 1).toNat = max (latest ws) w.time + 1 := by rw [hm]; omega
      simp only [setParameters, if_neg hneg, Int.toNat_natCast, hn, ok_bind, foldM_nil]
      rfl
    -- the array of a place after the write
    have hg : ∀ (v : List (Pars K)), v.length ≤ latest ws + 1 → (g v).length ≤ max (latest ws) w.time + 1 ∧
        ∀ t, (g v).getD t [] = if w.time = t then w.pars else v.getD t [] := by
      intro v hv
      have hcase : ∃ u : List (Pars K), g v = u.set w.time w.pars ∧ w.time < u.length ∧ u.length ≤ max (latest ws) w.time + 1 ∧
          ∀ t, u.getD t [] = v.getD t [] := by
        by_cases hlt : v.length ≤ w.time
        · refine ⟨resize (max (latest ws) w.time + 1) v, ?_, ?_, ?_, fun t => getD_resize _ t v (by omega)⟩
          · simp only [g, if_pos hlt]
          · rw [length_resize]; omega
          · rw [length_resize]
        · refine ⟨v, ?_, by omega, by omega, fun t => rfl⟩
          simp only [g, if_neg hlt]
      obtain ⟨u, hu1, hu2, hu3, hu4⟩ := hcase
      rw [hu1]
      refine ⟨by rw [List.length_set]; exact hu3, fun t => ?_⟩
      rw [← hu4 t]
      simp only [List.getD_eq_getElem?_getD, List.getElem?_set]
      split_ifs with h5
      · rfl
      · rfl
    have hg2 : ∀ (v : List (Pars K)), (g v).length = if v.length ≤ w.time then max (latest ws) w.time + 1 else v.length := by
      intro v
      by_cases hlt : v.length ≤ w.time
      · simp only [g, if_pos hlt, List.length_set, length_resize]
      · simp only [g, if_neg hlt, List.length_set]
    refine ⟨f', hrun, ⟨ParMap.sorted_update h2.sorted _ _, ?_, ?_, ?_, ?_, ?_, ?_, ?_, h2.cycling⟩, h3, h4⟩
    · intro a b
      constructor
      · rintro ⟨e, he, rfl, rfl⟩
        rcases (ParMap.mem_update h2.sorted _ _ _).mp he with ⟨he, -⟩ | ⟨x, hx, -, rfl⟩ | ⟨-, rfl⟩
        · obtain ⟨w', hw, hw'⟩ := (h2.keys _ _).mp ⟨e, he, rfl, rfl⟩
          exact ⟨w', by simp [hw], hw'⟩
        · obtain ⟨w', hw, hw'⟩ := (h2.keys _ _).mp ⟨x, hx, rfl, rfl⟩
          exact ⟨w', by simp [hw], hw'⟩
        · exact ⟨w, by simp, rfl, rfl⟩
      · rintro ⟨w', hw, rfl, rfl⟩
        by_cases hsame : w'.lat = w.lat ∧ w'.lon = w.lon
        · by_cases hex : ∃ x ∈ f.pars, x.1.Same (settingLoc w)
          · obtain ⟨x, hx, hx'⟩ := hex
            exact ⟨(x.1, g x.2), (ParMap.mem_update h2.sorted _ _ _).mpr (.inr (.inl ⟨x, hx, hx', rfl⟩)), hx'.1.trans hsame.1.symm,
              hx'.2.trans hsame.2.symm⟩
          · push Not at hex
            exact ⟨(settingLoc w, g []), (ParMap.mem_update h2.sorted _ _ _).mpr (.inr (.inr ⟨hex, rfl⟩)), hsame.1.symm, hsame.2.symm⟩
        · have hw2 : w' ∈ ws := by
            rcases List.mem_append.mp hw with hw | hw
            · exact hw
            · rw [List.mem_singleton] at hw
              exact absurd ⟨by rw [hw], by rw [hw]⟩ hsame
          obtain ⟨e, he, he1, he2⟩ := (h2.keys w'.lat w'.lon).mpr ⟨w', hw2, rfl, rfl⟩
          refine ⟨e, (ParMap.mem_update h2.sorted _ _ _).mpr (.inl ⟨he, ?_⟩), he1, he2⟩
          rintro ⟨h5, h6⟩
          exact hsame ⟨he1.symm.trans h5, he2.symm.trans h6⟩
    · intro e he
      rw [latest_append]
      rcases (ParMap.mem_update h2.sorted _ _ _).mp he with ⟨he, -⟩ | ⟨x, hx, -, rfl⟩ | ⟨-, rfl⟩
      · have := h2.short e he
        omega
      · exact (hg x.2 (h2.short x hx)).1
      · exact (hg [] (by simp)).1
    · intro _
      rw [latest_append]
      by_cases hold : ∃ x ∈ f.pars, ¬ x.1.Same (settingLoc w) ∧ x.2.length = max (latest ws) w.time + 1
      · obtain ⟨x, hx, hx1, hx2⟩ := hold
        exact ⟨x, (ParMap.mem_update h2.sorted _ _ _).mpr (.inl ⟨hx, hx1⟩), hx2⟩
      · by_cases hex : ∃ x ∈ f.pars, x.1.Same (settingLoc w)
        · obtain ⟨x, hx, hx'⟩ := hex
          refine ⟨(x.1, g x.2), (ParMap.mem_update h2.sorted _ _ _).mpr (.inr (.inl ⟨x, hx, hx', rfl⟩)), ?_⟩
          show (g x.2).length = _
          rw [hg2]
          split_ifs with h5
          · rfl
          · have hne : ws ≠ [] := by
              obtain ⟨w', hw', -⟩ := (h2.keys _ _).mp ⟨x, hx, rfl, rfl⟩
              exact List.ne_nil_of_mem hw'
            obtain ⟨y, hy, hy'⟩ := h2.long hne
            have hshort := h2.short x hx
            by_cases hyx : y.1.Same (settingLoc w)
            · rw [← h2.sorted.unique hy hx (hyx.trans hx'.symm)] at h5 hshort ⊢
              omega
            · exact absurd ⟨y, hy, hyx, by omega⟩ hold
        · push Not at hex
          refine ⟨(settingLoc w, g []), (ParMap.mem_update h2.sorted _ _ _).mpr (.inr (.inr ⟨hex, rfl⟩)), ?_⟩
          show (g []).length = _
          rw [hg2, if_pos (by simp)]
    · intro e he t
      rw [lastSetting_append]
      rcases (ParMap.mem_update h2.sorted _ _ _).mp he with ⟨he, hn⟩ | ⟨x, hx, hx', rfl⟩ | ⟨hno, rfl⟩
      · rw [if_neg, h2.value e he t]
        rintro ⟨h5, h6, -⟩
        exact hn ⟨h5.symm, h6.symm⟩
      · rw [(hg x.2 (h2.short x hx)).2 t, h2.value x hx t]
        have h5 : w.lat = x.1.lat := hx'.1.symm
        have h6 : w.lon = x.1.lon := hx'.2.symm
        simp only [h5, h6, true_and]
      · rw [(hg [] (by simp)).2 t]
        have hnil : lastSetting ws (settingLoc w).lat (settingLoc w).lon t = [] := by
          apply lastSetting_eq_nil
          intro w' hw' hh
          obtain ⟨e, he, he'⟩ := (h2.keys _ _).mpr ⟨w', hw', hh⟩
          exact hno e he he'
        rw [hnil]
        simp [settingLoc]
    · intro e he
      rw [List.find?_append]
      rcases (ParMap.mem_update h2.sorted _ _ _).mp he with ⟨he, -⟩ | ⟨x, hx, -, rfl⟩ | ⟨hno, rfl⟩
      · obtain ⟨v, hv, hv'⟩ := h2.elev e he
        exact ⟨v, by rw [hv]; rfl, hv'⟩
      · obtain ⟨v, hv, hv'⟩ := h2.elev x hx
        exact ⟨v, by rw [hv]; rfl, hv'⟩
      · have hnone : (ws.find? fun v => v.lat = (settingLoc w).lat ∧ v.lon = (settingLoc w).lon) = none := by
          rw [List.find?_eq_none]
          intro w' hw' hh
          obtain ⟨e, he, he'⟩ := (h2.keys _ _).mpr ⟨w', hw', of_decide_eq_true hh⟩
          exact hno e he he'
        exact ⟨w, by rw [hnone]; simp [settingLoc], rfl⟩
    · rw [latest_append]
      exact hm
    · rw [latest_append]
      show (f.timeDependent || decide ((0 : Int) < w.time)) = _
      rw [h2.timeDependent, ← Bool.decide_or]
      congr 1
      rw [eq_iff_iff]
      omega

/-- The time index of a file that holds settings. -/
theorem timeIndex_spec {f : ParFile K} {cycling : Bool} {ws : List (Setting K)} (h : f.Holds cycling ws) (t : Int) :
    (t < 0 → f.timeIndex t = .abort) ∧ ∀ n : Nat, t = n → (latest ws < usedTime ws cycling n → f.timeIndex t = .abort) ∧
      (usedTime ws cycling n ≤ latest ws → f.timeIndex t = ok ((usedTime ws cycling n : Nat) : Int)) := by
  refine ⟨fun ht => by rw [timeIndex, if_pos ht]; rfl, ?_⟩
  rintro n rfl
  have hn : ¬ ((n : Int) < 0) := by omega
  have key : f.timeIndex n = if latest ws < usedTime ws cycling n then .abort else ok ((usedTime ws cycling n : Nat) : Int) := by
    unfold timeIndex usedTime
    rw [if_neg hn, h.timeDependent, h.maxTime, h.cycling]
    by_cases h0 : latest ws = 0
    · rw [h0]
      simp
    · have hp : 0 < latest ws := by omega
      have hp' : (latest ws : Int) > 0 := by omega
      simp only [hp, decide_true, if_true, hp', true_and, if_neg h0]
      cases cycling with
      | false =>
        simp only [Bool.false_eq_true, false_and, if_false, gt_iff_lt, Nat.cast_lt]
        rfl
      | true =>
        simp only [true_and, if_true]
        have hm : n % (latest ws + 1) < latest ws + 1 := Nat.mod_lt _ (by omega)
        rw [if_neg (show ¬ latest ws < n % (latest ws + 1) by omega)]
        have e : (if (n : Int) ≥ (latest ws : Int) + 1 then (n : Int).tmod (latest ws + 1) else n) = ((n % (latest ws + 1) : Nat) : Int) := by
          split_ifs with h5
          · rw [Int.tmod_eq_emod_of_nonneg (by omega)]
            push_cast
            rfl
          · rw [Nat.mod_eq_of_lt (by omega)]
        rw [e, if_neg (by omega)]
  rw [key]
  exact ⟨fun h5 => by rw [if_pos h5], fun h5 => by rw [if_neg (by omega)]⟩

theorem atTime_eq (v : List (Pars K)) (t : Nat) : atTime v t = ok (v.getD t []) := by
  unfold atTime
  by_cases h : t < v.length
  · rw [if_pos (by exact_mod_cast h), vget_eq_ok_of_lt h]
    simp [List.getD_eq_getElem?_getD, h]
  · rw [if_neg (by exact_mod_cast h)]
    rw [List.getD_eq_getElem?_getD, List.getElem?_eq_none (l := v) (i := t) (by omega)]
    rfl

theorem hasAt_eq (v : List (Pars K)) (t : Nat) : hasAt v t = ok (decide (v.getD t [] ≠ [])) := by
  unfold hasAt
  by_cases h : t < v.length
  · rw [if_pos ⟨by omega, by exact_mod_cast h⟩, vget_eq_ok_of_lt h]
    simp only [ok_bind]
    congr 1
    rw [List.getD_eq_getElem?_getD, List.getElem?_eq_getElem h, Option.getD_some]
    cases v[t] <;> simp
  · rw [if_neg (by rintro ⟨-, h'⟩; exact h (by exact_mod_cast h'))]
    rw [List.getD_eq_getElem?_getD, List.getElem?_eq_none (l := v) (i := t) (by omega)]
    rfl

end ParFile

end Gridpp.Client
