import Verif.Model.Client.FilePoint
import Verif.Spec.FilePoint
import Verif.Props.Client.FileTextWrite

/-! # C143: forecasts for one place read from a text file -/

set_option linter.unusedSectionVars false

namespace Gridpp.Props
open Fl hiding MV isValid
open Res Client Spec

variable {K : Type} [Field K] [LinearOrder K] [IsStrictOrderedRing K] [FloorRing K]

theorem scanValues_eq {ws : List Str} {vs : List (Fl K)} (hv : List.Forall₂ (fun w v => ∃ q : K, Numeral w q ∧ v = fin q) ws vs) :
    ∀ (n : Nat) {rest : Str}, RestOf rest ws → rest.length < n → scanValues n rest = ok vs := by
  induction hv with
  | nil =>
    intro n rest hr hn
    cases n with
    | zero => omega
    | succ n => rw [hr.nil, scanValues]; rfl
  | @cons w v ws vs h1 _ ih =>
    intro n rest hr hn
    cases n with
    | zero => omega
    | succ n =>
      obtain ⟨q, hq, rfl⟩ := h1
      obtain ⟨rest', e1, e2, e3⟩ := scan_float hr.line hq
      rw [scanValues, e1]
      simp only
      rw [ih n e2 (by omega)]
      rfl

theorem pointRow_eq {line : Str} {r : PointReport K} (h : PointIn line r) : pointRow line = ok (r.time, r.values) := by
  obtain ⟨wt, ws, hl, ht, hv⟩ := h
  obtain ⟨r1, e1, k1, l1⟩ := scan_float hl ht
  unfold pointRow
  rw [if_neg (by intro h; rw [h] at e1; have := (eats_float e1).2; simp at this), e1]
  simp only
  rw [scanValues_eq hv _ k1 (by omega)]
  rfl

theorem pointRows_eq {content : Str} {lines : List Str} {rs : List (PointReport K)} (ht : TextOf content lines)
    (hr : List.Forall₂ PointIn (plainLines lines) rs) : pointRows (some content) = ok (rs.map fun r => (r.time, r.values)) := by
  unfold pointRows
  simp only
  rw [textLines_of ht]
  change mapM pointRow (plainLines lines) = _
  generalize plainLines lines = rows at hr
  induction hr with
  | nil => rfl
  | cons h1 _ ih => rw [mapM_cons, pointRow_eq h1, ok_bind, ih]; rfl

theorem putReport_all {n : Nat} {f : FieldC K} (hf : Sized 1 1 n f) {v : List (Fl K)} (hv : v.length = n) :
    ∃ out, putReport (v.length : Int) f 0 v = ok out ∧ Sized 1 1 n out ∧ ∀ e < n, ∃ x, v[e]? = some x ∧ out.get 0 0 e = ok x := by
  obtain ⟨out, h1, h2, h3, -⟩ := putReport_spec hf (i := 0) (by omega) hv
  refine ⟨out, by rw [hv]; exact h1, h2, fun e he => ?_⟩
  exact ⟨_, List.getElem?_eq_getElem (by omega), h3 e _ (List.getElem?_eq_getElem (by omega))⟩

/-- The loop over rows that all have the right number of members for the time. -/
theorem pointPut_loop {n : Nat} {t : Int} {rs : List (PointReport K)} (hn : ∀ r ∈ rs, r.time = (t : K) → r.values.length = n) {f : FieldC K}
    (hf : Sized 1 1 n f) :
    ∃ out, foldM (pointPut n t) f (rs.map fun r => (r.time, r.values)) = ok out ∧ Sized 1 1 n out ∧
      (lastAt rs t = none → out = f) ∧ ∀ v, lastAt rs t = some v → ∀ e < n, ∃ x, v[e]? = some x ∧ out.get 0 0 e = ok x := by
  induction rs using List.reverseRecOn with
  | nil => exact ⟨f, rfl, hf, fun _ => rfl, fun v hv => by simp [lastAt] at hv⟩
  | append_singleton rs r ih =>
    obtain ⟨g, h1, h2, h3, h4⟩ := ih fun x hx => hn x (by simp [hx])
    rw [List.map_append, foldM_append, h1, ok_bind, List.map_singleton, foldM_cons]
    by_cases ht : r.time = (t : K)
    · have hlen := hn r (by simp) ht
      obtain ⟨out, k1, k2, k3⟩ := putReport_all h2 hlen
      have hl : lastAt (rs ++ [r]) t = some r.values := by
        unfold lastAt
        rw [List.filter_append, List.filter_cons_of_pos (by simpa using ht), List.filter_nil, List.getLast?_concat]
        rfl
      refine ⟨out, ?_, k2, fun h => by rw [hl] at h; simp at h, fun v hv => ?_⟩
      · unfold pointPut
        rw [if_pos ht, if_neg (by simp only; omega), k1, ok_bind, if_neg (by simp only; omega)]
        rfl
      · rw [hl] at hv
        cases hv
        exact k3
    · have hl : lastAt (rs ++ [r]) t = lastAt rs t := by
        unfold lastAt
        rw [List.filter_append, List.filter_cons_of_neg (by simpa using ht), List.filter_nil, List.append_nil]
      refine ⟨g, ?_, h2, by rw [hl]; exact h3, by rw [hl]; exact h4⟩
      unfold pointPut
      rw [if_neg ht]
      rfl

/-- A place in range. -/
theorem newPoint_place {a b h : K} (ha : -90 ≤ a ∧ a ≤ 90) (hb : -360 ≤ b ∧ b ≤ 360 ∧ b ≠ 0) (tag next : Nat) (ens time : Option Int)
    (content : Option Str) : ∃ (g : GridFile K) (b' : K) (k : Int), g.lats = [[fin a]] ∧ g.lons = [[fin b']] ∧ -180 ≤ b' ∧ b' ≤ 180 ∧
      b' = b + 360 * k ∧
      newPoint ⟨[], [], tag⟩ next ⟨some (fin a), some (fin b), some (fin h), ens, time⟩ content = (do
        let rows ← pointRows (K := K) content
        let times ← pointTimes (⟨some (fin a), some (fin b), some (fin h), ens, time⟩ : PointOptions K)
        let n : Int := ens.getD (match rows.getLast? with
          | none => -999
          | some r => r.2.length)
        if n = -999 then Client.error else ok (⟨g, [[fin h]], n, times⟩ : PointFile K)) := by
  have one : ∀ v : Fl K, Rect 1 1 [[v]] := fun v => ⟨rfl, by simp⟩
  obtain ⟨g1, n1, h1, h2, h3⟩ := c94_lats (f := (⟨[], [], tag⟩ : GridFile K)) next (.inl rfl) (one (fin a)) (by
    simp only [List.mem_singleton]; rintro r rfl v hv; rw [List.mem_singleton.mp hv]; exact ⟨a, rfl, ha⟩)
  obtain ⟨g2, n2, h4, h5, h6, h7⟩ := c94_lons_partial (f := g1) n1 (.inl h3) (one (fin b)) (by
    simp only [List.mem_singleton]; rintro r rfl v hv; rw [List.mem_singleton.mp hv]; exact ⟨b, rfl, hb⟩)
  obtain ⟨b', k, k1, k2, k3, k4⟩ := h7 0 0 b rfl
  have hl2 : g2.lats = [[fin a]] := h5.trans h2
  refine ⟨g2, b', k, hl2, ?_, k2, k3, k4, ?_⟩
  · obtain ⟨e1, e2⟩ := h6
    obtain ⟨x, hx⟩ := List.length_eq_one_iff.mp e1
    have e3 := e2 x (by rw [hx]; simp)
    obtain ⟨y, hy⟩ := List.length_eq_one_iff.mp e3
    rw [hx, hy] at k1 ⊢
    cases k1
    rfl
  · unfold newPoint
    simp only
    rw [if_neg (by simp [lt_fin, gt_fin, ha.1, ha.2]), h1, ok_bind]
    simp only
    rw [h4, ok_bind]
    simp only
    have he : setElevs g2.lats [[(fin h : Fl K)]] = ok (some [[fin h]]) := by rw [hl2]; rfl
    rw [he, ok_bind]
    rfl

/-- **C143**: a place in range whose longitude is not zero, a number of times, and lines with the same number of members. The file then has
the place as its grid and the times 0, 1, 2, …; the value of a member for a time is that of the last line for it, or missing if there is none.
Missing from the full claim: files with other times, and those without the option for the number of times. -/
theorem c143_read_partial {a b h : K} (ha : -90 ≤ a ∧ a ≤ 90) (hb : -360 ≤ b ∧ b ≤ 360 ∧ b ≠ 0) (tag next T : Nat) {ens : Option Int} {n : Nat}
    (hens : ens = none ∨ ens = some (n : Int)) {content : Str} {lines : List Str} {rs : List (PointReport K)} (ht : TextOf content lines)
    (hr : List.Forall₂ PointIn (plainLines lines) rs) (hne : ens ≠ none ∨ rs ≠ []) (hn : ∀ r ∈ rs, r.values.length = n) :
    ∃ p : PointFile K, newPoint ⟨[], [], tag⟩ next ⟨some (fin a), some (fin b), some (fin h), ens, some (T : Int)⟩ (some content) = ok p ∧
      p.grid.lats = [[fin a]] ∧ p.elevs = [[fin h]] ∧ p.nEns = n ∧ p.times = (List.range T).map (fun k : Nat => (k : Int)) ∧
      (∃ (b' : K) (k : Int), p.grid.lons = [[fin b']] ∧ -180 ≤ b' ∧ b' ≤ 180 ∧ b' = b + 360 * k) ∧
      ∀ t : Int, ∃ d, p.getFieldCore (some content) t = ok d ∧ d.nY = 1 ∧ d.nX = 1 ∧ d.nE = n ∧
        (∀ v, lastAt rs t = some v → ∀ e < n, ∃ x, v[e]? = some x ∧ d.get 0 0 e = ok x) ∧
        (lastAt rs t = none → ∀ e < n, d.get 0 0 e = ok (fin (-999))) := by
  obtain ⟨g, b', k, g1, g2, g3, g4, g5, g6⟩ := newPoint_place (h := h) ha hb tag next ens (some (T : Int)) (some content)
  have hrows := pointRows_eq ht hr
  have htimes : pointTimes (⟨some (fin a), some (fin b), some (fin h), ens, some (T : Int)⟩ : PointOptions K) = ok (upto T) := by
    unfold pointTimes
    simp only
    rw [if_neg (by omega), Int.toNat_natCast]
  have hnum : ens.getD (match (rs.map fun r : PointReport K => (r.time, r.values)).getLast? with
          | none => -999
          | some r => r.2.length) = (n : Int) := by
    rcases hens with rfl | rfl
    · rcases hne with h0 | h0
      · exact absurd rfl h0
      · rw [Option.getD_none, List.getLast?_map, List.getLast?_eq_getLast_of_ne_nil h0]
        simp [hn _ (List.getLast_mem h0)]
    · rfl
  rw [hrows, ok_bind, htimes, ok_bind] at g6
  simp only [hnum] at g6
  rw [if_neg (by omega)] at g6
  refine ⟨_, g6, g1, rfl, rfl, rfl, ⟨b', k, g2, g3, g4, g5⟩, fun t => ?_⟩
  obtain ⟨f0, k1, k2, k3⟩ := FieldC.new_sized (K := K) 1 1 n Client.MV
  obtain ⟨d, m1, m2, m3, m4⟩ := pointPut_loop (t := t) (fun r hr _ => hn r hr) k2
  refine ⟨d, ?_, m2.1, m2.2, m2.3, m4, fun h0 e he => ?_⟩
  · unfold PointFile.getFieldCore
    simp only [g1]
    rw [show numX [[(fin a : Fl K)]] = ok 1 from rfl, ok_bind]
    have : FieldC.new (([[(fin a : Fl K)]].length : Nat) : Int) ((1 : Nat) : Int) (n : Int) Client.MV = ok f0 := k1
    rw [this, ok_bind, hrows, ok_bind]
    exact m1
  · rw [m3 h0]
    exact k3 0 (by omega) 0 (by omega) e he

/-- **C143** is false for a file with UNIX times, or any others not before the number of times: all its values are missing. -/
theorem c143_unix_false {a b h : K} (ha : -90 ≤ a ∧ a ≤ 90) (hb : -360 ≤ b ∧ b ≤ 360 ∧ b ≠ 0) (tag next T : Nat) {ens : Option Int} {n : Nat}
    (hens : ens = none ∨ ens = some (n : Int)) {content : Str} {lines : List Str} {rs : List (PointReport K)} (ht : TextOf content lines)
    (hr : List.Forall₂ PointIn (plainLines lines) rs) (hne : ens ≠ none ∨ rs ≠ []) (hn : ∀ r ∈ rs, r.values.length = n)
    (hu : ∀ r ∈ rs, (T : K) ≤ r.time) :
    ∃ p : PointFile K, newPoint ⟨[], [], tag⟩ next ⟨some (fin a), some (fin b), some (fin h), ens, some (T : Int)⟩ (some content) = ok p ∧
      p.times = (List.range T).map (fun k : Nat => (k : Int)) ∧
      ∀ t ∈ p.times, ∃ d, p.getFieldCore (some content) t = ok d ∧ d.nE = n ∧ ∀ e < n, d.get 0 0 e = ok (fin (-999)) := by
  obtain ⟨p, h1, -, -, -, h2, -, h3⟩ := c143_read_partial (h := h) ha hb tag next T hens ht hr hne hn
  refine ⟨p, h1, h2, fun t hmem => ?_⟩
  obtain ⟨d, g1, -, -, g2, -, g3⟩ := h3 t
  refine ⟨d, g1, g2, g3 ?_⟩
  unfold lastAt
  rw [Option.map_eq_none_iff, List.getLast?_eq_none_iff, List.filter_eq_nil_iff]
  intro r hr' hc
  rw [h2] at hmem
  obtain ⟨k, hk, rfl⟩ := List.mem_map.mp hmem
  have h4 := hu r hr'
  rw [of_decide_eq_true hc] at h4
  have : (T : K) ≤ (k : K) := by exact_mod_cast h4
  have := Nat.cast_le.mp this
  have := List.mem_range.mp hk
  omega

theorem scanValues_ok (n : Nat) (s : Str) (h : s.length < n) : ∃ l, (scanValues n s : Res (List (Fl K))) = ok l := by
  induction n generalizing s with
  | zero => omega
  | succ n ih =>
    rw [scanValues]
    cases hv : scanFloat (K := K) (skipSpace s) with
    | none => exact ⟨_, rfl⟩
    | some v =>
      have h1 : (skipSpace s).length ≤ s.length := (List.dropWhile_sublist _).length_le
      have h2 := (eats_float hv).2
      obtain ⟨l, hl⟩ := ih v.2 (by omega)
      simp only
      rw [hl]
      exact ⟨_, rfl⟩

theorem pointRow_ok (line : Str) : (pointRow line : Res (K × List (Fl K))) = .ub ∨ ∃ r, (pointRow line : Res (K × List (Fl K))) = ok r := by
  unfold pointRow
  split
  · exact .inl rfl
  refine .inr ?_
  cases hv : scanFloat (K := K) (skipSpace line) with
  | none => exact ⟨_, rfl⟩
  | some v =>
    have h1 : (skipSpace line).length ≤ line.length := (List.dropWhile_sublist _).length_le
    have h2 := (eats_float hv).2
    obtain ⟨l, hl⟩ := scanValues_ok (K := K) (line.length + 1) v.2 (by omega)
    simp only
    rw [hl]
    exact ⟨_, rfl⟩

theorem pointRows_ok (content : Option Str) :
    (pointRows content : Res (List (K × List (Fl K)))) = .ub ∨ ∃ rows, (pointRows content : Res (List (K × List (Fl K)))) = ok rows := by
  unfold pointRows
  cases content with
  | none => exact .inr ⟨_, rfl⟩
  | some s =>
    simp only
    generalize (textLines s).filter _ = ls
    induction ls with
    | nil => exact .inr ⟨_, rfl⟩
    | cons l ls ih =>
      rcases pointRow_ok (K := K) l with hr | ⟨r, hr⟩
      · rw [mapM_cons, hr]
        exact .inl rfl
      · rw [mapM_cons, hr, ok_bind]
        rcases ih with h | ⟨rows, h⟩
        · rw [h]
          exact .inl rfl
        · rw [h]
          exact .inr ⟨_, rfl⟩

/-- **C143** is false without the option for the number of times, whatever is in the file. -/
theorem c143_time_false {a b h : K} (ha : -90 ≤ a ∧ a ≤ 90) (hb : -360 ≤ b ∧ b ≤ 360 ∧ b ≠ 0) (tag next : Nat) (ens : Option Int)
    (content : Option Str) : newPoint ⟨[], [], tag⟩ next ⟨some (fin a), some (fin b), some (fin h), ens, none⟩ content = .ub := by
  obtain ⟨g, b', k, -, -, -, -, -, g6⟩ := newPoint_place (h := h) ha hb tag next ens none content
  rcases pointRows_ok (K := K) content with hrows | ⟨rows, hrows⟩
  · rw [g6, hrows]
    rfl
  · rw [g6, hrows]
    rfl

/-- **C143**: a place of which something is not given, or with a latitude out of range, is refused, and so is a file without lines if the
number of members is not given. -/
theorem c143_refused (g : GridFile K) (next : Nat) (o : PointOptions K) (content : Option Str) :
    (o.lat = none ∨ o.lon = none ∨ o.elev = none → newPoint g next o content = .abort) ∧
    (∀ a, o.lat = some (fin a) → a < -90 ∨ 90 < a → newPoint g next o content = .abort) ∧
    (∀ (a b h : K) (tag T : Nat), -90 ≤ a ∧ a ≤ 90 → -360 ≤ b ∧ b ≤ 360 ∧ b ≠ 0 →
      newPoint ⟨[], [], tag⟩ next ⟨some (fin a), some (fin b), some (fin h), none, some (T : Int)⟩ none = .abort) := by
  refine ⟨fun h => ?_, fun a h1 h2 => ?_, fun a b h tag T ha hb => ?_⟩
  · unfold newPoint
    rcases h with h | h | h
    · rw [h]; rfl
    · rw [h]; cases o.lat <;> rfl
    · rw [h]; cases o.lat <;> cases o.lon <;> rfl
  · unfold newPoint
    rw [h1]
    cases o.lon with
    | none => rfl
    | some b =>
      cases o.elev with
      | none => rfl
      | some h =>
        simp only
        rw [if_pos (by simpa [lt_fin, gt_fin] using h2)]
        rfl
  · obtain ⟨g, b', k, -, -, -, -, -, g6⟩ := newPoint_place (h := h) ha hb tag next none (some (T : Int)) none
    rw [g6]
    unfold pointTimes
    simp only [pointRows, ok_bind]
    rw [if_neg (by omega)]
    rfl

/-- **C143** is false for a longitude of zero. -/
theorem c143_zero_false {a h : K} (ha : -90 ≤ a ∧ a ≤ 90) (tag next : Nat) (ens time : Option Int) (content : Option Str) :
    newPoint ⟨[], [], tag⟩ next ⟨some (fin a), some (fin 0), some (fin h), ens, time⟩ content = .ub := by
  have one : ∀ v : Fl K, Rect 1 1 [[v]] := fun v => ⟨rfl, by simp⟩
  obtain ⟨g1, n1, h1, h2, h3⟩ := c94_lats (f := (⟨[], [], tag⟩ : GridFile K)) next (.inl rfl) (one (fin a)) (by
    simp only [List.mem_singleton]; rintro r rfl v hv; rw [List.mem_singleton.mp hv]; exact ⟨a, rfl, ha⟩)
  unfold newPoint
  simp only
  rw [if_neg (by simp [lt_fin, gt_fin, ha.1, ha.2]), h1, ok_bind]
  simp only
  rw [c94_zero_false (f := g1) n1 (.inl h3) (one (fin 0)) (by
    simp only [List.mem_singleton]; rintro r rfl v hv; rw [List.mem_singleton.mp hv]
    exact ⟨0, rfl, by norm_num, by norm_num⟩) ⟨_, List.mem_singleton.mpr rfl, List.mem_singleton.mpr rfl⟩]
  rfl

/-- **C143**: a line for the time that has another number of members ends the program when the values for the time are asked for. -/
theorem c143_number {p : PointFile K} {v : Fl K} {n : Nat} (hp : p.grid.lats = [[v]]) (hnE : p.nEns = n) {content : Str} {lines : List Str}
    {rs : List (PointReport K)} (ht : TextOf content lines) (hr : List.Forall₂ PointIn (plainLines lines) rs) {t : Int}
    (h : ∃ r ∈ rs, r.time = (t : K) ∧ r.values.length ≠ n) : p.getFieldCore (some content) t = .abort := by
  obtain ⟨f0, k1, k2, -⟩ := FieldC.new_sized (K := K) 1 1 n Client.MV
  have key : ∀ (rs : List (PointReport K)) (f : FieldC K), Sized 1 1 n f → (∃ r ∈ rs, r.time = (t : K) ∧ r.values.length ≠ n) →
      foldM (pointPut n t) f (rs.map fun r => (r.time, r.values)) = .abort := by
    intro rs
    induction rs with
    | nil => rintro f _ ⟨r, hr, -⟩; simp at hr
    | cons x rs ih =>
      rintro f hf ⟨r, hr, h1, h2⟩
      rw [List.map_cons, foldM_cons]
      by_cases hx : x.time = (t : K)
      · by_cases hl : x.values.length = n
        · obtain ⟨out, m1, m2, -⟩ := putReport_all hf hl
          have hs : pointPut n t f (x.time, x.values) = ok out := by
            unfold pointPut
            rw [if_pos hx, if_neg (by simp only; omega), m1, ok_bind, if_neg (by simp only; omega)]
          rw [hs, ok_bind]
          refine ih out m2 ?_
          rcases List.mem_cons.mp hr with rfl | hr
          · exact absurd hl h2
          · exact ⟨r, hr, h1, h2⟩
        · have hs : pointPut n t f (x.time, x.values) = .abort := by
            unfold pointPut
            rw [if_pos hx]
            by_cases hlt : (n : Int) < x.values.length
            · rw [if_pos hlt]; rfl
            · rw [if_neg hlt]
              have : ∃ out, putReport (x.values.length : Int) f 0 x.values = ok out := by
                unfold putReport
                obtain ⟨out, q1, -⟩ := forMembers_spec (Y := 1) (X := 1) (E := n) 0 0 x.values.length
                  (fun f e => do let y ← vget x.values e; f.set 0 0 e y) (fun _ _ _ => True) (by
                    intro s hs e he
                    obtain ⟨s', w1, w2, -, w4⟩ := hs.set (by omega : 0 < 1) (by omega : 0 < 1) (by omega : e < n) x.values[e]
                    exact ⟨s', by rw [vget_eq_ok_of_lt he, ok_bind, w1], w2, trivial, w4⟩) f hf
                exact ⟨out, by rw [Int.toNat_natCast]; exact q1⟩
              obtain ⟨out, ho⟩ := this
              simp only
              rw [ho, ok_bind, if_pos (by omega)]
              rfl
          rw [hs]
          rfl
      · have hs : pointPut n t f (x.time, x.values) = ok f := by
          unfold pointPut
          rw [if_neg hx]
        rw [hs, ok_bind]
        refine ih f hf ?_
        rcases List.mem_cons.mp hr with rfl | hr
        · exact absurd h1 hx
        · exact ⟨r, hr, h1, h2⟩
  unfold PointFile.getFieldCore
  rw [hp, show numX [[v]] = ok 1 from rfl, ok_bind, hnE]
  have : FieldC.new (([[v]].length : Nat) : Int) ((1 : Nat) : Int) (n : Int) Client.MV = ok f0 := k1
  rw [this, ok_bind, pointRows_eq ht hr, ok_bind]
  exact key rs f0 k2 h

/-- **C143** (read again): what is written for the times 0, 1, 2, … is read again, as it is shown. -/
theorem c143_roundtrip {display : Fl K → Str} {shown : K → K} {L : Nat} (hs : Shows display shown L) {T n : Nat} (hT : T ≤ 2147483647)
    {fs : List (FieldC K)} (rest : List (List (Option (FieldC K)))) (hf : ∀ f ∈ fs, Sized 1 1 n f) (ms : List (List K))
    (hms : List.Forall₂ (fun f qs => qs.length = n ∧ FirstMembers f qs) fs ms) (hTf : fs.length = T) (hL : n * (L + 1) ≤ 9988)
    {a b h : K} (ha : -90 ≤ a ∧ a ≤ 90) (hb : -360 ≤ b ∧ b ≤ 360 ∧ b ≠ 0) (tag next : Nat) :
    ∃ content, writeForecast display ((upto T).map fun t : Int => fin (t : K)) n (fs.map some :: rest) = ok content ∧
      ∃ p : PointFile K, newPoint ⟨[], [], tag⟩ next ⟨some (fin a), some (fin b), some (fin h), some (n : Int), some (T : Int)⟩ (some content) = ok p ∧
        p.times = upto T ∧ ∀ (t : Nat) qs, ms[t]? = some qs → ∃ d, p.getFieldCore (some content) t = ok d ∧
          ∀ (e : Nat) q, qs[e]? = some q → d.get 0 0 e = ok (fin (shown q)) := by
  have hms' : ms.length = T := by rw [← hms.length_eq, hTf]
  have hut : (upto T).length = T := by simp [upto]
  obtain ⟨content, lines, h1, h2, h3, h4, h5⟩ := c142_write_partial hs (times := upto T) rest (by omega : 0 < 1) (by omega : 0 < 1)
    (by rw [hut, hTf]) hf ms hms (by
      intro t ht
      obtain ⟨k, hk, rfl⟩ := List.mem_map.mp ht
      have := List.mem_range.mp hk
      constructor <;> omega) hL
  have hutj : ∀ j < T, (upto T)[j]? = some (j : Int) := by
    intro j hj
    rw [upto, List.getElem?_map, List.getElem?_range hj]
    rfl
  have hlen : ∀ qs ∈ ms, qs.length = n := by
    intro qs hq
    obtain ⟨f, -, hfq⟩ := forall₂_right hms qs hq
    exact hfq.1
  have hrs : List.Forall₂ PointIn (plainLines lines) (ms.zipIdx.map fun p : List K × Nat => (⟨(p.2 : K), p.1.map fun q => fin (shown q)⟩ : PointReport K)) := by
    rw [h3]
    refine List.forall₂_iff_get.mpr ⟨by simp [h4, hut, hms'], fun j hj hj' => ?_⟩
    have hjT : j < T := by rw [h4, hut] at hj; exact hj
    have hjm : j < ms.length := by omega
    obtain ⟨l, wt, ws, e1, e2, e3, e4⟩ := h5 j j ms[j] (hutj j hjT) (List.getElem?_eq_getElem hjm)
    have el : lines.get ⟨j, hj⟩ = l := (List.getElem?_eq_some_iff.mp e1).2
    rw [el]
    refine ⟨wt, ws, e2, ?_, ?_⟩
    · obtain ⟨sg, ds, g, q1, q2, q3, q4, q5⟩ := e3
      refine ⟨sg, ds, [], [], [], g, 0, q1, q3, .none, .none, by simp [q2], by simp [q4], ?_⟩
      have : ((j : Int) : K) = (g : K) * (decimal ds : K) := by
        rw [q5]
        push_cast
        rfl
      rw [show decimal [] = 0 from by decide]
      simp only [List.get_eq_getElem, List.getElem_map, List.getElem_zipIdx]
      rw [show ((0 + j : Nat) : K) = ((j : Int) : K) by simp, this]
      simp
    · simp only [List.get_eq_getElem, List.getElem_map, List.getElem_zipIdx]
      rw [List.forall₂_map_right_iff]
      exact e4.imp fun w q hw => ⟨_, hw, rfl⟩
  obtain ⟨p, g1, -, -, -, g2, -, g3⟩ := c143_read_partial (h := h) ha hb tag next T (ens := some (n : Int)) (.inr rfl) h2 hrs (.inl (by simp)) (by
    intro r hr
    obtain ⟨x, hx, rfl⟩ := List.mem_map.mp hr
    obtain ⟨qs, i⟩ := x
    rw [List.length_map]
    exact hlen _ (List.mem_of_getElem? (List.mem_zipIdx_iff_getElem?.mp hx)))
  refine ⟨content, h1, p, g1, g2, fun t qs hq => ?_⟩
  obtain ⟨d, k1, -, -, -, k2, -⟩ := g3 t
  refine ⟨d, k1, fun e q he => ?_⟩
  have htm : t < ms.length := (List.getElem?_eq_some_iff.mp hq).1
  have hlast : lastAt (ms.zipIdx.map fun p : List K × Nat => (⟨(p.2 : K), p.1.map fun q => fin (shown q)⟩ : PointReport K)) (t : Int) =
      some (qs.map fun q => fin (shown q)) := by
    unfold lastAt
    rw [List.filter_map, List.getLast?_map, Option.map_map]
    have hfil : List.filter ((fun r : PointReport K => decide (r.time = ((t : Int) : K))) ∘ fun p : List K × Nat =>
        (⟨(p.2 : K), p.1.map fun q => fin (shown q)⟩ : PointReport K)) ms.zipIdx = [(qs, t)] := by
      have hc : ((fun r : PointReport K => decide (r.time = ((t : Int) : K))) ∘ fun p : List K × Nat =>
          (⟨(p.2 : K), p.1.map fun q => fin (shown q)⟩ : PointReport K)) = fun p => decide (p.2 = t) := by
        funext p
        simp
      rw [hc]
      have none : ∀ (l : List (List K)) (k : Nat), t < k → (l.zipIdx k).filter (fun p => decide (p.2 = t)) = [] := by
        intro l k hk
        rw [List.filter_eq_nil_iff]
        rintro ⟨x, i⟩ hx hc
        have := (List.mem_zipIdx hx).1
        have := of_decide_eq_true hc
        simp only at this
        omega
      have : ∀ (l : List (List K)) (k i : Nat), k + i = t → l[i]? = some qs → (l.zipIdx k).filter (fun p => decide (p.2 = t)) = [(qs, t)] := by
        intro l
        induction l with
        | nil => intro k i _ h; simp at h
        | cons x l ih =>
          intro k i hki h
          rw [List.zipIdx_cons]
          cases i with
          | zero =>
            rw [List.getElem?_cons_zero] at h
            cases h
            rw [List.filter_cons_of_pos (by simpa using hki), none l (k + 1) (by omega)]
            rw [← hki]
            rfl
          | succ i =>
            rw [List.filter_cons_of_neg (by simp; omega)]
            exact ih (k + 1) i (by omega) (by simpa using h)
      exact this ms 0 t (by omega) hq
    rw [hfil]
    rfl
  obtain ⟨x, hx1, hx2⟩ := k2 _ hlast e (by rw [← hlen qs (List.mem_of_getElem? hq)]; exact (List.getElem?_eq_some_iff.mp he).1)
  rw [List.getElem?_map, he] at hx1
  cases hx1
  exact hx2

/-- **C143** is false for a line of white space: a variable without a value is used, if the lines before it can be read or not. -/
theorem c143_white_false {a b h : K} (ha : -90 ≤ a ∧ a ≤ 90) (hb : -360 ≤ b ∧ b ≤ 360 ∧ b ≠ 0) (tag next : Nat) (ens time : Option Int)
    {content : Str} {lines : List Str} (ht : TextOf content lines) (hw : ∃ l ∈ lines, ∀ c ∈ l, White c) :
    newPoint ⟨[], [], tag⟩ next ⟨some (fin a), some (fin b), some (fin h), ens, time⟩ (some content) = .ub := by
  obtain ⟨g, b', k, -, -, -, -, -, g6⟩ := newPoint_place (h := h) ha hb tag next ens time (some content)
  have : (pointRows (some content) : Res (List (K × List (Fl K)))) = .ub := by
    unfold pointRows
    simp only
    rw [textLines_of ht]
    obtain ⟨l, hl, hw⟩ := hw
    have hmem : l ∈ lines.filter fun l => decide (l.head? ≠ some '#') := by
      refine List.mem_filter.mpr ⟨hl, decide_eq_true fun hc => ?_⟩
      have := hw _ (List.mem_of_mem_head? hc)
      revert this
      unfold White
      decide
    generalize lines.filter _ = ls at hmem
    induction ls with
    | nil => simp at hmem
    | cons x ls ih =>
      rw [mapM_cons]
      rcases List.mem_cons.mp hmem with rfl | hmem
      · have : (pointRow l : Res (K × List (Fl K))) = .ub := by
          unfold pointRow
          rw [if_pos]
          have := skipSpace_eq (s := []) hw (by simp)
          rwa [List.append_nil] at this
        rw [this]
        rfl
      · rcases pointRow_ok (K := K) x with hr | ⟨r, hr⟩
        · rw [hr]
          rfl
        · rw [hr, ok_bind, ih hmem]
          rfl
  rw [g6, this]
  rfl

/-! ### An example and counterexamples -/

/-- The options of the examples. -/
def pointOptions (ens time : Option Int) : PointOptions ℚ := ⟨some (fin 60), some (fin 10), some (fin 100), ens, time⟩

/-- The example: a comment, then times 0, 2, 5 and 2 again. -/
def pointText : Str := "# x\n0 1 -2.5\n2\t3e2 +4\n5 0 0\n2 7 8\n".toList

set_option synthInstance.maxSize 1024 in
/-- What is read for time 0, 1 and 2. -/
example : (do
    let p ← newPoint ⟨[], [], 0⟩ 1 (pointOptions none (some 3)) (some pointText)
    let a ← p.getFieldCore (some pointText) 0
    let b ← p.getFieldCore (some pointText) 1
    let c ← p.getFieldCore (some pointText) 2
    ok (p.times, p.nEns, p.grid.lats, p.grid.lons, p.elevs, [a.values, b.values, c.values])) =
      ok ([0, 1, 2], 2, [[fin 60]], [[fin 10]], [[fin 100]], [[fin 1, fin (-5 / 2)], [fin (-999), fin (-999)], [fin 7, fin 8]]) := by decide +kernel

section
local instance (c : Char) : Decidable (White c) := by unfold White; infer_instance

/-- A line of this kind is a report. -/
example : PointIn "3e2 3e2 -2.5".toList (⟨300, [fin 300, fin (-5 / 2)]⟩ : PointReport ℚ) := by
  refine ⟨"3e2".toList, ["3e2".toList, "-2.5".toList], ?_, exampleNumeral.2.1, .cons ⟨_, exampleNumeral.2.1, rfl⟩ (.cons ⟨_, exampleNumeral.1, rfl⟩ .nil)⟩
  rw [show "3e2 3e2 -2.5".toList = [] ++ "3e2".toList ++ ["3e2".toList, "-2.5".toList].flatMap fun x => ' ' :: x from by decide]
  exact wordLine_of [] _ _ (by simp) (by decide)

end

/-- **C143**: a line with a word counts as a line for time zero without members: with one at the end of the file the number of members is zero,
and one before the end makes time zero unreadable, while all other times can be read. -/
theorem c143_line_false :
    (do let p ← newPoint ⟨[], [], 0⟩ 1 (pointOptions none (some 2)) (some "0 5\n1 6\nx\n".toList); ok p.nEns) = ok 0 ∧
    (do let p ← newPoint ⟨[], [], 0⟩ 1 (pointOptions none (some 2)) (some "x\n0 5\n1 6\n".toList); p.getFieldCore (some "x\n0 5\n1 6\n".toList) 0) = .abort ∧
    (do let p ← newPoint ⟨[], [], 0⟩ 1 (pointOptions none (some 2)) (some "x\n0 5\n1 6\n".toList)
        let f ← p.getFieldCore (some "x\n0 5\n1 6\n".toList) 1
        ok f.values) = ok [fin 6] := by decide +kernel

/-- **C143**: the number of members is that of the last line; the lines before it are not compared with it. -/
theorem c143_last_false :
    (do let p ← newPoint ⟨[], [], 0⟩ 1 (pointOptions none (some 2)) (some "0 5 7\n1 6\n".toList); ok p.nEns) = ok 1 ∧
    (do let p ← newPoint ⟨[], [], 0⟩ 1 (pointOptions none (some 2)) (some "0 5 7\n1 6\n".toList); p.getFieldCore (some "0 5 7\n1 6\n".toList) 0) = .abort := by
  decide +kernel

/-- **C143**: what follows a value that is no number is left out. -/
theorem c143_rest_false :
    (do let p ← newPoint ⟨[], [], 0⟩ 1 (pointOptions none (some 1)) (some "0 5 x 7\n".toList)
        let f ← p.getFieldCore (some "0 5 x 7\n".toList) 0
        ok f.values) = ok [fin 5] := by decide +kernel

end Gridpp.Props
