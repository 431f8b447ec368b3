import Verif.Lemmas.Client.DownscaleFile
import Verif.Lemmas.Client.Downscaler
import Verif.Props.Client.FieldStore
import Verif.Props.Client.NearestDownscaler

/-! # C166: what a downscaler leaves in the output file -/

set_option linter.unusedSectionVars false

namespace Gridpp.Props
open Fl hiding MV isValid
open Res Client

variable {K : Type} [Field K] [LinearOrder K] [IsStrictOrderedRing K]

/-- The fields of the variable `w` are in memory for the times before `m`, and not for the time `m`, unless this is the end. There is always
one such number, see `loaded_exists`; 0 if the variable has not been used. -/
def LoadedUpTo (d : FileData K) (s : FileState K) (w : String) (m : Nat) : Prop :=
  m ≤ d.nT ∧ (∀ u < m, s.ptr w u ≠ none) ∧ (m < d.nT → s.ptr w m = none)

theorem loaded_exists (d : FileData K) (s : FileState K) (w : String) : ∃ m, LoadedUpTo d s w m := by
  have key : ∀ n, n ≤ d.nT → (∃ m, LoadedUpTo d s w m) ∨ ∀ u < n, s.ptr w u ≠ none := by
    intro n
    induction n with
    | zero => intro _; exact .inr fun u hu => absurd hu (Nat.not_lt_zero u)
    | succ n ih =>
      intro hn
      rcases ih (by omega) with h | h
      · exact .inl h
      · by_cases hp : s.ptr w n = none
        · exact .inl ⟨n, by omega, h, fun _ => hp⟩
        · refine .inr fun u hu => ?_
          by_cases hu' : u = n
          · rw [hu']; exact hp
          · exact h u (by omega)
  rcases key d.nT (Nat.le_refl _) with h | h
  · exact h
  · exact ⟨d.nT, Nat.le_refl _, h, fun h => absurd h (Nat.lt_irrefl _)⟩

/-- The field of the output that is handed to the downscaler: the present one, and from time `m` on missing values. -/
def handed (m : Nat) (old : Nat → FieldC K) (miss : FieldC K) (t : Nat) : FieldC K := if t < m then old t else miss

/-- The states after the times before `n`. -/
theorem downscale_upto {di dt : FileData K} {si so : FileState K} (hi : StoreInv di si) (ho : StoreInv dt so) (v w : String)
    (g : Nat → FieldC K → FieldC K → Res (FieldC K)) (hT : di.nT = dt.nT) {m : Nat} (hm : LoadedUpTo dt so w m) (z : Nat → FieldC K) (n : Nat)
    (hn : n ≤ di.nT) (hg : ∀ t < n, g t (si.view di v t) (handed m (so.view dt w) dt.missing t) = ok (z t)) :
    ∃ si' so', foldM (downscaleTime di dt v w g) (si, so) (List.range n) = ok (si', so') ∧ StoreInv di si' ∧ StoreInv dt so' ∧
      (∀ x u, u < di.nT → si'.view di x u = si.view di x u) ∧ (∀ x u, x ≠ w → so'.view dt x u = so.view dt x u) ∧
      (n ≤ m → ∀ u, (so'.ptr w u = none ↔ so.ptr w u = none) ∧ so'.view dt w u = if u < n then z u else so.view dt w u) ∧
      (m < n → ∀ u < dt.nT, so'.ptr w u ≠ none ∧ so'.view dt w u = if m ≤ u ∧ u < n then z u else dt.missing) := by
  induction n with
  | zero => exact ⟨si, so, rfl, hi, ho, fun _ _ _ => rfl, fun _ _ _ => rfl, fun _ u => ⟨Iff.rfl, by simp⟩, fun h => absurd h (Nat.not_lt_zero _)⟩
  | succ n ih =>
    obtain ⟨si1, so1, h1, h2, h3, h4, h5, h6, h7⟩ := ih (by omega) fun t ht => hg t (by omega)
    obtain ⟨si2, so2, q, a1, a2, a3, a4, a5, a6, a7, a8⟩ := downscaleTime_spec h2 h3 v w g (t := n) (by omega) (by omega)
    have hzn := hg n (by omega)
    obtain ⟨w1, w2, w3, w4⟩ := write_spec a3 a4 (z n)
    have hviews : so2.view dt w n = handed m (so.view dt w) dt.missing n := by
      unfold handed
      by_cases hlt : n < m
      · have hp : so1.ptr w n ≠ none := fun e => hm.2.1 n hlt (((h6 (by omega)) n).1.mp e)
        rw [if_pos hlt, (a6 hp n).2, (h6 (by omega) n).2, if_neg (by omega)]
      · rw [if_neg hlt]
        by_cases he : n = m
        · have hp : so1.ptr w n = none := ((h6 (by omega)) n).1.mpr (by rw [he]; exact hm.2.2 (by omega))
          exact (a5 hp n (by omega)).2
        · have hp := (h7 (by omega) n (by omega))
          rw [(a6 hp.1 n).2, hp.2, if_neg (by omega)]
    refine ⟨si2, { so2 with heap := so2.heap.set q (z n) }, ?_, a1, w1, fun x u hu => by rw [a2 x u hu, h4 x u hu], fun x u hx => ?_,
      fun hnm u => ?_, fun hmn u hu => ?_⟩
    · rw [List.range_succ, foldM_append, h1, ok_bind, foldM_cons, a8, h4 v n (by omega), hviews, hzn, ok_bind, ok_bind, foldM_nil]
    · rw [w4 x u (fun e => hx e.1), (a7 x u hx).2, h5 x u hx]
    · have hp : so1.ptr w n ≠ none := fun e => hm.2.1 n (by omega) (((h6 (by omega)) n).1.mp e)
      refine ⟨?_, ?_⟩
      · rw [w2, (a6 hp u).1, (h6 (by omega) u).1]
      · by_cases hun : u = n
        · rw [hun, w3, if_pos (by omega)]
        · rw [w4 w u (fun e => hun e.2), (a6 hp u).2, (h6 (by omega) u).2]
          by_cases hlt : u < n
          · rw [if_pos hlt, if_pos (by omega)]
          · rw [if_neg hlt, if_neg (by omega)]
    · by_cases he : n = m
      · have hp : so1.ptr w n = none := ((h6 (by omega)) n).1.mpr (by rw [he]; exact hm.2.2 (by omega))
        obtain ⟨⟨r, hr⟩, hv⟩ := a5 hp u hu
        refine ⟨by rw [w2, hr]; simp, ?_⟩
        by_cases hun : u = n
        · rw [hun, w3, if_pos (by omega)]
        · rw [w4 w u (fun e => hun e.2), hv, if_neg (by omega)]
      · have hp := h7 (by omega)
        have hpn := (hp n (by omega)).1
        refine ⟨by rw [w2, (a6 hpn u).1]; exact (hp u hu).1, ?_⟩
        by_cases hun : u = n
        · rw [hun, w3, if_pos (by omega)]
        · rw [w4 w u (fun e => hun e.2), (a6 hpn u).2, (hp u hu).2]
          by_cases hlt : m ≤ u ∧ u < n
          · rw [if_pos hlt, if_pos (by omega)]
          · rw [if_neg hlt, if_neg (by omega)]

/-- **C166** (what happens in all cases). Let the output variable be in memory for the times before `m` only. At every time the downscaler gets
the input field of this time, and the output field of this time, made missing from time `m` on. Afterwards every time from `m` on has the
field that the downscaler made; so do the times before `m`, if all times were in memory; otherwise they are missing. No other variable of the
output changes and nothing of the input. -/
theorem c166_files {di dt : FileData K} {si so : FileState K} (hi : StoreInv di si) (ho : StoreInv dt so) (v w : String)
    (g : Nat → FieldC K → FieldC K → Res (FieldC K)) (hT : di.nT = dt.nT) {m : Nat} (hm : LoadedUpTo dt so w m) {miss : FieldC K}
    (hmiss : FieldC.new dt.nY dt.nX dt.nE (fin (-999)) = ok miss) (z : Nat → FieldC K)
    (hg : ∀ t < di.nT, g t (si.view di v t) (if t < m then so.view dt w t else miss) = ok (z t)) :
    ∃ si' so', downscaleFiles di dt v w g si so = ok ((si', so'), true) ∧ StoreInv di si' ∧ StoreInv dt so' ∧
      (∀ x u, u < di.nT → si'.view di x u = si.view di x u) ∧ (∀ x u, x ≠ w → so'.view dt x u = so.view dt x u) ∧
      ∀ t < dt.nT, so'.view dt w t = if m < dt.nT ∧ t < m then miss else z t := by
  have hmi : miss = dt.missing := by
    have := dt.missing_eq
    rw [show FieldC.new dt.nY dt.nX dt.nE Client.MV = ok miss from hmiss, Res.ok.injEq] at this
    exact this
  subst hmi
  obtain ⟨si', so', h1, h2, h3, h4, h5, h6, h7⟩ := downscale_upto hi ho v w g hT hm z di.nT (Nat.le_refl _) hg
  refine ⟨si', so', ?_, h2, h3, h4, h5, fun t ht => ?_⟩
  · unfold downscaleFiles
    rw [if_neg (by simp [hT]), h1, ok_bind]
  · by_cases hlt : m < dt.nT
    · rw [(h7 (by omega) t ht).2]
      by_cases htm : t < m
      · rw [if_neg (by omega), if_pos ⟨hlt, htm⟩]
      · rw [if_pos (by omega), if_neg (by omega)]
    · rw [(h6 (by omega) t).2, if_pos (by omega), if_neg (by omega)]

/-- **C166** (the output variable has the downscaled fields). If the first field of the output variable is not in memory, or all of them are,
the output variable has for every time the field that is made from the input field of the same time, and nothing else that can be read
changes. Missing: the other case, see `c166_lost_false`. -/
theorem c166_output_partial {di dt : FileData K} {si so : FileState K} (hi : StoreInv di si) (ho : StoreInv dt so) (v w : String)
    (g : Nat → FieldC K → FieldC K → Res (FieldC K)) (hT : di.nT = dt.nT) (hmem : so.ptr w 0 = none ∨ ∀ u < dt.nT, so.ptr w u ≠ none)
    (z : Nat → FieldC K) (hg : ∀ t < di.nT, ∀ o : FieldC K, o = so.view dt w t ∨ FieldC.new dt.nY dt.nX dt.nE (fin (-999)) = ok o →
      g t (si.view di v t) o = ok (z t)) :
    ∃ si' so', downscaleFiles di dt v w g si so = ok ((si', so'), true) ∧ (∀ x u, u < di.nT → si'.view di x u = si.view di x u) ∧
      (∀ x u, x ≠ w → so'.view dt x u = so.view dt x u) ∧ ∀ t < dt.nT, so'.view dt w t = z t := by
  have hone : ∃ m, LoadedUpTo dt so w m ∧ ¬ (m < dt.nT ∧ 0 < m) := by
    rcases hmem with h | h
    · exact ⟨0, ⟨Nat.zero_le _, fun u hu => absurd hu (Nat.not_lt_zero _), fun _ => h⟩, by omega⟩
    · exact ⟨dt.nT, ⟨Nat.le_refl _, h, fun h => absurd h (Nat.lt_irrefl _)⟩, by omega⟩
  obtain ⟨m, hm, hm'⟩ := hone
  obtain ⟨si', so', h1, -, -, h4, h5, h6⟩ := c166_files hi ho v w g hT hm dt.missing_eq z (fun t ht => hg t ht _ (by
    by_cases htm : t < m
    · rw [if_pos htm]; exact .inl rfl
    · rw [if_neg htm]; exact .inr dt.missing_eq))
  refine ⟨si', so', h1, h4, h5, fun t ht => ?_⟩
  rw [h6 t ht, if_neg (by omega)]

/-- **C166** (failure). If the downscaler fails on a time, and on no time before, the whole fails in the same way. -/
theorem c166_failure {di dt : FileData K} {si so : FileState K} (hi : StoreInv di si) (ho : StoreInv dt so) (v w : String)
    (g : Nat → FieldC K → FieldC K → Res (FieldC K)) (hT : di.nT = dt.nT) {m : Nat} (hm : LoadedUpTo dt so w m) {miss : FieldC K}
    (hmiss : FieldC.new dt.nY dt.nX dt.nE (fin (-999)) = ok miss) {n : Nat} (hn : n < di.nT)
    (hg : ∀ t < n, ∃ z, g t (si.view di v t) (if t < m then so.view dt w t else miss) = ok z) :
    (g n (si.view di v n) (if n < m then so.view dt w n else miss) = .abort → downscaleFiles di dt v w g si so = .abort) ∧
    (g n (si.view di v n) (if n < m then so.view dt w n else miss) = .ub → downscaleFiles di dt v w g si so = .ub) ∧
    ∀ e, g n (si.view di v n) (if n < m then so.view dt w n else miss) = .throw e → downscaleFiles di dt v w g si so = .throw e := by
  have hmi : miss = dt.missing := by
    have := dt.missing_eq
    rw [show FieldC.new dt.nY dt.nX dt.nE Client.MV = ok miss from hmiss, Res.ok.injEq] at this
    exact this
  subst hmi
  have hz : ∃ z : Nat → FieldC K, ∀ t < n, g t (si.view di v t) (handed m (so.view dt w) dt.missing t) = ok (z t) :=
    ⟨fun t => if h : t < n then (hg t h).choose else dt.missing, fun t ht => by simp only [dif_pos ht]; exact (hg t ht).choose_spec⟩
  obtain ⟨z, hz⟩ := hz
  obtain ⟨si1, so1, h1, h2, h3, h4, h5, h6, h7⟩ := downscale_upto hi ho v w g hT hm z n (by omega) hz
  obtain ⟨si2, so2, q, a1, a2, a3, a4, a5, a6, a7, a8⟩ := downscaleTime_spec h2 h3 v w g (t := n) (by omega) (by omega)
  have hviews : so2.view dt w n = if n < m then so.view dt w n else dt.missing := by
    by_cases hlt : n < m
    · have hp : so1.ptr w n ≠ none := fun e => hm.2.1 n hlt (((h6 (by omega)) n).1.mp e)
      rw [if_pos hlt, (a6 hp n).2, (h6 (by omega) n).2, if_neg (by omega)]
    · rw [if_neg hlt]
      by_cases he : n = m
      · have hp : so1.ptr w n = none := ((h6 (by omega)) n).1.mpr (by rw [he]; exact hm.2.2 (by omega))
        exact (a5 hp n (by omega)).2
      · have hp := (h7 (by omega) n (by omega))
        rw [(a6 hp.1 n).2, hp.2, if_neg (by omega)]
  have hsplit : List.range di.nT = List.range n ++ (n :: (List.range (di.nT - n - 1)).map fun i => n + 1 + i) := by
    conv_lhs => rw [show di.nT = n + 1 + (di.nT - n - 1) by omega, List.range_add, List.range_succ]
    simp
  have hrun : ∀ r, downscaleTime di dt v w g (si1, so1) n = r → (∀ x, r ≠ ok x) →
      downscaleFiles di dt v w g si so = (r >>= fun _ => .ub) := by
    intro r hr hne
    unfold downscaleFiles
    rw [if_neg (by simp [hT]), hsplit, foldM_append, h1, ok_bind, foldM_cons, hr]
    cases r with
    | ok x => exact absurd rfl (hne x)
    | throw e => rfl
    | abort => rfl
    | ub => rfl
  rw [hviews, h4 v n hn] at a8
  refine ⟨fun h => ?_, fun h => ?_, fun e h => ?_⟩ <;> rw [h] at a8 <;> rw [hrun _ a8 (by intro x; simp)] <;> rfl

/-- **C166** (times). With different numbers of times nothing is done and the result is false. -/
theorem c166_times {di dt : FileData K} (v w : String) (g : Nat → FieldC K → FieldC K → Res (FieldC K)) (si so : FileState K)
    (h : di.nT ≠ dt.nT) : downscaleFiles di dt v w g si so = ok ((si, so), false) ∧ downscaleBypass di dt w so = ok (so, false) := by
  unfold downscaleFiles downscaleBypass
  exact ⟨if_pos h, if_pos h⟩

/-- The files of the witnesses: two times and one value; the second has the variable "t" too. -/
def witnessIn : FileData ℚ := ⟨2, 1, 1, 1, fun v => if v = "t" then some fun t => ⟨[fin ((t : ℚ) + 10)], 1, 1, 1⟩ else none⟩

/-- **C166** is false if only the first time of the output variable is in memory, as after reading it: the downscaled field of this time is
lost when the second time is asked for. -/
theorem c166_lost_false :
    (do let a ← fileStep tinyFile (FileState.start ["t"]) (.read "t" 0)
        let b ← downscaleFiles witnessIn tinyFile "t" "t" (fun _ x _ => ok x) (FileState.start ["t"]) a.1
        let c ← fileStep tinyFile b.1.2 (.read "t" 0)
        let e ← fileStep tinyFile c.1 (.read "t" 1)
        ok (b.2, c.2, e.2)) = ok (true, some ⟨[fin (-999)], 1, 1, 1⟩, some ⟨[fin 11], 1, 1, 1⟩) := by decide +kernel

/-- Without the read before, both times are there. -/
theorem c166_case :
    (do let b ← downscaleFiles witnessIn tinyFile "t" "t" (fun _ x _ => ok x) (FileState.start ["t"]) (FileState.start ["t"])
        let c ← fileStep tinyFile b.1.2 (.read "t" 0)
        let e ← fileStep tinyFile c.1 (.read "t" 1)
        ok (b.2, c.2, e.2)) = ok (true, some ⟨[fin 10], 1, 1, 1⟩, some ⟨[fin 11], 1, 1, 1⟩) := by decide +kernel

/-- **C166** (one object). The same for an input file that is also the output file, with another variable: only the output variable changes. -/
theorem c166_self {d : FileData K} {s : FileState K} (h : StoreInv d s) {v w : String} (hvw : v ≠ w)
    (g : Nat → FieldC K → FieldC K → Res (FieldC K)) {m : Nat} (hm : LoadedUpTo d s w m) {miss : FieldC K}
    (hmiss : FieldC.new d.nY d.nX d.nE (fin (-999)) = ok miss) (z : Nat → FieldC K)
    (hg : ∀ t < d.nT, g t (s.view d v t) (if t < m then s.view d w t else miss) = ok (z t)) :
    ∃ s', downscaleSelf d v w g s = ok (s', true) ∧ StoreInv d s' ∧ (∀ x u, u < d.nT → x ≠ w → s'.view d x u = s.view d x u) ∧
      ∀ t < d.nT, s'.view d w t = if m < d.nT ∧ t < m then miss else z t := by
  have hmi : miss = d.missing := by
    have := d.missing_eq
    rw [show FieldC.new d.nY d.nX d.nE Client.MV = ok miss from hmiss, Res.ok.injEq] at this
    exact this
  subst hmi
  have key : ∀ n, n ≤ d.nT → ∃ s', foldM (downscaleTimeSelf d v w g) s (List.range n) = ok s' ∧ StoreInv d s' ∧
      (∀ x u, u < d.nT → x ≠ w → s'.view d x u = s.view d x u) ∧
      (n ≤ m → ∀ u < d.nT, (s'.ptr w u = none ↔ s.ptr w u = none) ∧ s'.view d w u = if u < n then z u else s.view d w u) ∧
      (m < n → ∀ u < d.nT, s'.ptr w u ≠ none ∧ s'.view d w u = if m ≤ u ∧ u < n then z u else d.missing) := by
    intro n
    induction n with
    | zero => exact fun _ => ⟨s, rfl, h, fun _ _ _ _ => rfl, fun _ u _ => ⟨Iff.rfl, by simp⟩, fun h => absurd h (Nat.not_lt_zero _)⟩
    | succ n ih =>
      intro hn
      obtain ⟨s1, h1, h2, h4, h6, h7⟩ := ih (by omega)
      obtain ⟨s2, q, a1, a2, a4, a5, a6, a8⟩ := downscaleTimeSelf_spec h2 hvw g (t := n) (by omega)
      have hzn := hg n (by omega)
      obtain ⟨w1, w2, w3, w4⟩ := write_spec a1 a4 (z n)
      have hviews : s2.view d w n = if n < m then s.view d w n else d.missing := by
        by_cases hlt : n < m
        · have hp : s1.ptr w n ≠ none := fun e => hm.2.1 n hlt (((h6 (by omega)) n (by omega)).1.mp e)
          rw [if_pos hlt, (a6 hp n (by omega)).2.2, (h6 (by omega) n (by omega)).2, if_neg (by omega)]
        · rw [if_neg hlt]
          by_cases he : n = m
          · have hp : s1.ptr w n = none := ((h6 (by omega)) n (by omega)).1.mpr (by rw [he]; exact hm.2.2 (by omega))
            exact (a5 hp n (by omega)).2
          · have hp := (h7 (by omega) n (by omega))
            rw [(a6 hp.1 n (by omega)).2.2, hp.2, if_neg (by omega)]
      refine ⟨{ s2 with heap := s2.heap.set q (z n) }, ?_, w1, fun x u hu hx => ?_, fun hnm u hu => ?_, fun hmn u hu => ?_⟩
      · rw [List.range_succ, foldM_append, h1, ok_bind, foldM_cons, a8, h4 v n (by omega) hvw, hviews, hzn, ok_bind, ok_bind, foldM_nil]
      · rw [w4 x u (fun e => hx e.1), a2 x u hu hx, h4 x u hu hx]
      · have hp : s1.ptr w n ≠ none := fun e => hm.2.1 n (by omega) (((h6 (by omega)) n (by omega)).1.mp e)
        obtain ⟨c1, c2, c3⟩ := a6 hp u hu
        refine ⟨?_, ?_⟩
        · rw [w2, ← (h6 (by omega) u hu).1]
          exact ⟨fun e => by by_contra hne; exact c1 hne e, c2⟩
        · by_cases hun : u = n
          · rw [hun, w3, if_pos (by omega)]
          · rw [w4 w u (fun e => hun e.2), c3, (h6 (by omega) u hu).2]
            by_cases hlt : u < n
            · rw [if_pos hlt, if_pos (by omega)]
            · rw [if_neg hlt, if_neg (by omega)]
      · by_cases he : n = m
        · have hp : s1.ptr w n = none := ((h6 (by omega)) n (by omega)).1.mpr (by rw [he]; exact hm.2.2 (by omega))
          obtain ⟨⟨r, hr⟩, hv⟩ := a5 hp u hu
          refine ⟨by rw [w2, hr]; simp, ?_⟩
          by_cases hun : u = n
          · rw [hun, w3, if_pos (by omega)]
          · rw [w4 w u (fun e => hun e.2), hv, if_neg (by omega)]
        · have hp := h7 (by omega)
          have hpn := (hp n (by omega)).1
          obtain ⟨c1, -, c3⟩ := a6 hpn u hu
          refine ⟨by rw [w2]; exact c1 (hp u hu).1, ?_⟩
          by_cases hun : u = n
          · rw [hun, w3, if_pos (by omega)]
          · rw [w4 w u (fun e => hun e.2), c3, (hp u hu).2]
            by_cases hlt : m ≤ u ∧ u < n
            · rw [if_pos hlt, if_pos (by omega)]
            · rw [if_neg hlt, if_neg (by omega)]
  obtain ⟨s', h1, h2, h4, h6, h7⟩ := key d.nT (Nat.le_refl _)
  refine ⟨s', by unfold downscaleSelf; rw [h1, ok_bind], h2, h4, fun t ht => ?_⟩
  by_cases hlt : m < d.nT
  · rw [(h7 (by omega) t ht).2]
    by_cases htm : t < m
    · rw [if_neg (by omega), if_pos ⟨hlt, htm⟩]
    · rw [if_pos (by omega), if_neg (by omega)]
  · rw [(h6 (by omega) t ht).2, if_pos (by omega), if_neg (by omega)]

/-- **C166** (an instance: nearestNeighbour). With a table of neighbours inside the input grid, and fields of the sizes of the files, every
value of the output variable is the value of the neighbour in the input field of the same time, or missing where there is no neighbour. -/
theorem c166_nearest_partial {di dt : FileData K} {si so : FileState K} (hi : StoreInv di si) (ho : StoreInv dt so) (v w : String)
    (hT : di.nT = dt.nT) (hmem : so.ptr w 0 = none ∨ ∀ u < dt.nT, so.ptr w u ≠ none)
    (hsi : ∀ t < di.nT, Sized di.nY di.nX di.nE (si.view di v t)) (hso : ∀ t < dt.nT, Sized dt.nY dt.nX dt.nE (so.view dt w t))
    {near : List (List (Int × Int))} (hnear : Rect dt.nY dt.nX near) (hE : dt.nE ≤ di.nE)
    (hin : ∀ y x c, cell? near y x = some c → c.1 = -999 ∨ c.2 = -999 ∨ ∃ i j : Nat, c = ((i : Int), (j : Int)) ∧ i < di.nY ∧ j < di.nX) :
    ∃ si' so', downscaleFiles di dt v w (fun _ x y => nearestField near x y) si so = ok ((si', so'), true) ∧
      (∀ x u, u < di.nT → si'.view di x u = si.view di x u) ∧ (∀ x u, x ≠ w → so'.view dt x u = so.view dt x u) ∧
      ∀ t < dt.nT, Sized dt.nY dt.nX dt.nE (so'.view dt w t) ∧ ∀ y < dt.nY, ∀ x < dt.nX, ∀ e < dt.nE, ∃ c, cell? near y x = some c ∧
        (c.1 = -999 ∨ c.2 = -999 → (so'.view dt w t).get y x e = ok (fin (-999))) ∧
        ∀ i j : Nat, c = ((i : Int), (j : Int)) → (so'.view dt w t).get y x e = (si.view di v t).get i j e := by
  have hone : ∃ m, LoadedUpTo dt so w m ∧ ¬ (m < dt.nT ∧ 0 < m) := by
    rcases hmem with h | h
    · exact ⟨0, ⟨Nat.zero_le _, fun u hu => absurd hu (Nat.not_lt_zero _), fun _ => h⟩, by omega⟩
    · exact ⟨dt.nT, ⟨Nat.le_refl _, h, fun h => absurd h (Nat.lt_irrefl _)⟩, by omega⟩
  obtain ⟨m, hm, hm'⟩ := hone
  obtain ⟨miss, hmiss, hsm, -⟩ := FieldC.new_sized (K := K) dt.nY dt.nX dt.nE (fin (-999))
  have hstep : ∀ t < di.nT, ∃ out, nearestField near (si.view di v t) (if t < m then so.view dt w t else miss) = ok out ∧
      Sized dt.nY dt.nX dt.nE out ∧ ∀ y < dt.nY, ∀ x < dt.nX, ∀ e < dt.nE, ∃ c, cell? near y x = some c ∧
        (c.1 = -999 ∨ c.2 = -999 → out.get y x e = ok (fin (-999))) ∧
        ∀ i j : Nat, c = ((i : Int), (j : Int)) → out.get y x e = (si.view di v t).get i j e := by
    intro t ht
    refine c93_field (hsi t ht) ?_ hnear hE hin
    split_ifs
    · exact hso t (by omega)
    · exact hsm
  have hz : ∃ z : Nat → FieldC K, ∀ t < di.nT, nearestField near (si.view di v t) (if t < m then so.view dt w t else miss) = ok (z t) ∧
      Sized dt.nY dt.nX dt.nE (z t) ∧ ∀ y < dt.nY, ∀ x < dt.nX, ∀ e < dt.nE, ∃ c, cell? near y x = some c ∧
        (c.1 = -999 ∨ c.2 = -999 → (z t).get y x e = ok (fin (-999))) ∧
        ∀ i j : Nat, c = ((i : Int), (j : Int)) → (z t).get y x e = (si.view di v t).get i j e :=
    ⟨fun t => if h : t < di.nT then (hstep t h).choose else miss, fun t ht => by simp only [dif_pos ht]; exact (hstep t ht).choose_spec⟩
  obtain ⟨z, hz⟩ := hz
  obtain ⟨si', so', h1, -, -, h4, h5, h6⟩ := c166_files hi ho v w _ hT hm hmiss z fun t ht => (hz t ht).1
  refine ⟨si', so', h1, h4, h5, fun t ht => ?_⟩
  rw [h6 t ht, if_neg (by omega)]
  exact (hz t (by omega)).2

/-- **C166** (bypass). The downscaler bypass changes nothing that can be read, and afterwards the output has the variable. -/
theorem c166_bypass {di dt : FileData K} {so : FileState K} (ho : StoreInv dt so) (w : String) (hT : di.nT = dt.nT) (hpos : 0 < dt.nT) :
    ∃ so', downscaleBypass di dt w so = ok (so', true) ∧ hasVariable dt so' w = true ∧ StoreInv dt so' ∧
      ∀ x u, u < dt.nT → so'.view dt x u = so.view dt x u := by
  unfold downscaleBypass
  rw [if_neg (by simp [hT])]
  cases hh : hasVariable dt so w with
  | true => exact ⟨so, by simp, hh, ho, fun _ _ _ => rfl⟩
  | false =>
    simp only [Bool.not_false, if_true]
    have h0 := hh
    unfold hasVariable at h0
    rw [Bool.or_eq_false_iff] at h0
    have hcore : dt.core w = none := by cases hc : dt.core w <;> simp_all
    have hfind : so.find w = none := by cases hc : so.find w <;> simp_all
    obtain ⟨s', miss, b0, b1, b2, b3, b4, b5, b6⟩ := addMissing_spec ho.weak w
    have hmi : miss = dt.missing := by
      have := dt.missing_eq
      rw [b0, Res.ok.injEq] at this
      exact this
    refine ⟨s', by unfold initNewVariable; rw [hh]; simp only [Bool.false_eq_true, if_false]; rw [b1, ok_bind], ?_, ?_, fun x u hu => ?_⟩
    · obtain ⟨p, hp, -⟩ := b5 0 hpos
      unfold hasVariable
      rw [find_of_ptr hp, Bool.or_true]
    · refine ⟨b2.len, b2.bound, b2.inj, fun x hx hs u hu => ?_⟩
      by_cases hxw : x = w
      · rw [hxw]
        obtain ⟨p, hp, -⟩ := b5 u hu
        exact ⟨p, hp⟩
      · rw [b6 x hxw] at hs
        obtain ⟨p, hp⟩ := ho.full x hx hs u hu
        exact ⟨p, by rw [b3 x u hxw, hp]⟩
    · by_cases hxw : x = w
      · subst hxw
        obtain ⟨p, hp, hq⟩ := b5 u hu
        have hn : so.ptr x u = none := by unfold FileState.ptr; rw [hfind]; rfl
        rw [view_ptr hp hq, view_none hn, hmi]
        unfold FileData.initial
        rw [hcore]; rfl
      · exact view_congr (b3 x u hxw) fun p hp => b4 p (ho.bound x u p hp)

end Gridpp.Props
