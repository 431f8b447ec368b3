import Verif.Props.ProbabilityUnits
import Verif.Props.GradientLaws
import Verif.Props.Search

/-! C179 and C180 for `neighbourhood_search`. -/

set_option linter.unusedSectionVars false

namespace Gridpp.Props
open Fl Res Spec

section
variable {K : Type} [Field K] [LinearOrder K] [IsStrictOrderedRing K]

/-! ### Units -/

theorem inUnits_sum {c : K} (hc : c ≠ 0) (d e : K) (a v : Fl K) : inUnits c e a + inUnits c d v = inUnits c (e + d) (a + v) := by
  unfold inUnits
  rw [scale_add hc]
  generalize fin c * a = x
  generalize fin c * v = y
  cases x <;> cases y <;> try rfl
  simp only [fin_add]
  congr 1
  ring

theorem shift_div {n : K} (hn : n ≠ 0) (e : K) (x : Fl K) : (x + fin e) / fin n = x / fin n + fin (e / n) := by
  cases x with
  | fin q => rw [fin_add, fin_div_of_ne _ hn, fin_div_of_ne _ hn, fin_add, add_div]
  | nan => rfl
  | pinf =>
    show (pinf / fin n : Fl K) = pinf / fin n + fin (e / n)
    rcases lt_or_gt_of_ne hn with h | h
    · simp [h, not_lt.mpr h.le, HDiv.hDiv, Div.div, Fl.div]
      rfl
    · simp [h, not_lt.mpr h.le, HDiv.hDiv, Div.div, Fl.div]
      rfl
  | ninf =>
    show (ninf / fin n : Fl K) = ninf / fin n + fin (e / n)
    rcases lt_or_gt_of_ne hn with h | h
    · simp [h, not_lt.mpr h.le, HDiv.hDiv, Div.div, Fl.div]
      rfl
    · simp [h, not_lt.mpr h.le, HDiv.hDiv, Div.div, Fl.div]
      rfl

/-- The state of the search in other units. -/
def searchUnits (c d c' d' : K) (s : SearchState K) : SearchState K :=
  { s with nearest := inUnits c d s.nearest, accum := inUnits c' (s.counter * d') s.accum }

theorem targetDistance_units {c : K} (hc : 0 < c) (d : K) (tmin tmax v : Fl K) :
    targetDistance (inUnits c d tmin) (inUnits c d tmax) (inUnits c d v) = fin c * targetDistance tmin tmax v := by
  unfold targetDistance Fl.stdMin
  rw [inUnits_sub hc.ne', inUnits_sub hc.ne', scale_abs hc, scale_abs hc, scale_lt_pos hc]
  split <;> rfl

theorem searchStep_units {c c' : K} (hc : 0 < c) (hc' : c' ≠ 0) (d d' : K) (array search : List (List (Fl K))) (tmin tmax delta here : Fl K) (active : Bool)
    (s : SearchState K) (yy xx : Int) :
    searchStep (array.map (List.map (inUnits c' d'))) (search.map (List.map (inUnits c d))) (inUnits c d tmin) (inUnits c d tmax) (times c delta) (inUnits c d here) active
      (searchUnits c d c' d' s) yy xx = searchUnits c d c' d' <$> searchStep array search tmin tmax delta here active s yy xx := by
  unfold searchStep
  simp only [vget2_map, map_bind_eq, inUnits_isValid hc.ne', inUnits_isValid hc']
  rw [bind_map_eq]
  congr 1; funext sv
  cases hs : sv.isValid with
  | false => rfl
  | true =>
    simp only [Bool.not_true, Bool.false_eq_true, if_false, bind_map_eq]
    congr 1; funext av
    cases hv : av.isValid with
    | false => rfl
    | true =>
      simp only [Bool.not_true, Bool.false_eq_true, if_false, inUnits_ge hc, inUnits_le hc, inUnits_sub hc.ne', scale_abs hc, Fl.ge, scale_le_pos hc]
      cases active with
      | false => rfl
      | true =>
        simp only [if_true]
        by_cases h1 : (tmin.le sv && sv.le tmax) = true
        · simp only [h1, if_true, map_ok, searchUnits]
          congr 2
          rw [inUnits_sum hc']
          congr 1
          push_cast
          ring
        · simp only [h1, Bool.false_eq_true, if_false]
          by_cases h2 : 0 < s.counter
          · simp only [searchUnits, h2, if_true]
            rfl
          · simp only [searchUnits, h2, if_false]
            by_cases h3 : delta.le (Fl.abs (sv - here)) = true
            · simp only [h3, if_true, inUnits_isValid hc.ne', targetDistance_units hc, scale_lt_pos hc]
              by_cases h4 : s.nearest.isValid = true
              · simp only [h4, Bool.not_true, Bool.false_eq_true, if_false]
                by_cases h5 : (targetDistance tmin tmax sv).lt (targetDistance tmin tmax s.nearest) = true
                · simp only [h5, if_true]
                  rfl
                · simp only [h5]
                  rfl
              · simp only [h4]
                rfl
            · simp only [h3]
              rfl

theorem searchWindow_units {c c' : K} (hc : 0 < c) (hc' : c' ≠ 0) (d d' : K) (array search : List (List (Fl K))) (nY nX : Nat) (halfwidth : Int)
    (tmin tmax delta here : Fl K) (active : Bool) (y x : Int) :
    searchWindow (array.map (List.map (inUnits c' d'))) (search.map (List.map (inUnits c d))) nY nX halfwidth (inUnits c d tmin) (inUnits c d tmax) (times c delta)
      (inUnits c d here) active y x = inUnits c' d' <$> searchWindow array search nY nX halfwidth tmin tmax delta here active y x := by
  unfold searchWindow
  have h0 : ({ nearest := MV, pos := (0, 0), counter := 0, accum := fin 0 } : SearchState K) =
      searchUnits c d c' d' { nearest := MV, pos := (0, 0), counter := 0, accum := fin 0 } := by
    simp [searchUnits, inUnits]
  have e := foldM_sim2 (f := fun s yy => foldM (fun s xx => searchStep array search tmin tmax delta here active s yy xx) s
      (irange (max 0 (x - halfwidth)) (min ((nX : Int) - 1) (x + halfwidth))))
    (f' := fun s yy => foldM (fun s xx => searchStep (array.map (List.map (inUnits c' d'))) (search.map (List.map (inUnits c d))) (inUnits c d tmin) (inUnits c d tmax)
      (times c delta) (inUnits c d here) active s yy xx) s (irange (max 0 (x - halfwidth)) (min ((nX : Int) - 1) (x + halfwidth)))) (searchUnits c d c' d')
    (fun b a => foldM_sim2 (searchUnits c d c' d') (fun b' a' => searchStep_units hc hc' d d' array search tmin tmax delta here active b' a a') b _)
    { nearest := MV, pos := (0, 0), counter := 0, accum := fin 0 } (irange (max 0 (y - halfwidth)) (min ((nY : Int) - 1) (y + halfwidth)))
  rw [h0, e, map_bind_eq, bind_map_eq, ← h0]
  congr 1; funext s
  by_cases h1 : 0 < s.counter
  · have hn : (s.counter : K) ≠ 0 := by
      have : (0 : K) < s.counter := by exact_mod_cast h1
      exact this.ne'
    simp only [searchUnits, h1, if_true, map_ok]
    congr 1
    rw [ofNat_def]
    unfold inUnits
    rw [shift_div hn, scale_div_num hc', mul_div_cancel_left₀ _ hn]
  · simp only [searchUnits, h1, if_false, inUnits_isValid hc.ne', vget2_map]
    split <;> rfl

/-- **C179**: `neighbourhood_search` with the search values, the target range and the least difference in one unit and the values in another gives the values in the latter. -/
theorem c179_search (c d c' d' : K) (hc : 0 < c) (hc' : c' ≠ 0) (array search : List (List (Fl K))) (halfwidth : Int) (tmin tmax delta : Fl K) (apply : List (List Int)) :
    neighbourhoodSearch (array.map (List.map (inUnits c' d'))) (search.map (List.map (inUnits c d))) halfwidth (inUnits c d tmin) (inUnits c d tmax) (times c delta) apply =
      List.map (List.map (inUnits c' d')) <$> neighbourhoodSearch array search halfwidth tmin tmax delta apply := by
  have hcell : ∀ nY nX y x, searchCell (array.map (List.map (inUnits c' d'))) (search.map (List.map (inUnits c d))) nY nX halfwidth (inUnits c d tmin) (inUnits c d tmax)
      (times c delta) apply y x = inUnits c' d' <$> searchCell array search nY nX halfwidth tmin tmax delta apply y x := by
    intro nY nX y x
    unfold searchCell
    simp only [vget2_map, map_bind_eq, inUnits_isValid hc.ne', searchWindow_units hc hc']
    rw [bind_map_eq]
    congr 1; funext here
    split
    · rfl
    · split
      · rfl
      · rw [bind_map_eq]
        congr 1; funext a
        split <;> rfl
  have hrow : ∀ nY nX y, searchRow (array.map (List.map (inUnits c' d'))) (search.map (List.map (inUnits c d))) nY nX halfwidth (inUnits c d tmin) (inUnits c d tmax)
      (times c delta) apply y = List.map (inUnits c' d') <$> searchRow array search nY nX halfwidth tmin tmax delta apply y := by
    intro nY nX y
    unfold searchRow
    rw [vget_map, map_bind_eq, bind_map_eq]
    congr 1; funext row
    have : searchCell (array.map (List.map (inUnits c' d'))) (search.map (List.map (inUnits c d))) nY nX halfwidth (inUnits c d tmin) (inUnits c d tmax) (times c delta) apply y =
        fun x => inUnits c' d' <$> searchCell array search nY nX halfwidth tmin tmax delta apply y x := funext fun x => hcell nY nX y x
    rw [this, List.length_map, mapM_map_eq, map_bind_eq, bind_map_eq]
    congr 1; funext cells
    split
    · rfl
    · rw [map_ok, List.map_append, List.map_replicate]
      rfl
  have hs : searchSizeOk (array.map (List.map (inUnits c' d'))) (search.map (List.map (inUnits c d))) = searchSizeOk array search := by
    unfold searchSizeOk
    simp only [List.length_map, vget_map, map_bind_eq]
  have ha : applySizeOk (array.map (List.map (inUnits c' d'))) apply = applySizeOk array apply := by
    unfold applySizeOk
    simp only [List.length_map, vget_map, map_bind_eq]
  unfold neighbourhoodSearch
  rw [inUnits_gt hc, hs, ha, List.length_map]
  split
  · rfl
  · split
    · rfl
    · rw [bind_map_eq]
      congr 1; funext b1
      split
      · rfl
      · rw [bind_map_eq]
        congr 1; funext b2
        split
        · rfl
        · rw [vget_map, map_bind_eq, bind_map_eq]
          congr 1; funext row0
          rw [← mapM_map_eq, List.length_map]
          congr 1; funext y
          exact hrow _ _ y

/-! ### Mirror images -/

theorem firstClosest_least {tmin tmax : Fl K} {C : List (K × K)} {s a : K} (h : IsFirstClosest tmin tmax C s a) :
    (s, a) ∈ C ∧ ∀ p ∈ C, (rangeDist tmin tmax p.1).lt (rangeDist tmin tmax s) = false := by
  obtain ⟨l1, l2, rfl, h1, h2⟩ := h
  refine ⟨by simp, fun p hp => ?_⟩
  rcases List.mem_append.mp hp with hp | hp
  · exact fl_lt_asymm (h1 p hp)
  · rcases List.mem_cons.mp hp with rfl | hp
    · cases h : (rangeDist tmin tmax s).lt (rangeDist tmin tmax s) with
      | false => rfl
      | true => exact absurd h (by rw [fl_lt_asymm h]; simp)
    · exact h2 p hp

/-- Cells that are equally close to the target have the same value. -/
def NoTies (tmin tmax : Fl K) (P : List (K × K)) : Prop :=
  ∀ p ∈ P, ∀ q ∈ P, (rangeDist tmin tmax p.1).lt (rangeDist tmin tmax q.1) = false → (rangeDist tmin tmax q.1).lt (rangeDist tmin tmax p.1) = false → p.2 = q.2

theorem searchResult_unique {P Q : List (K × K)} (hp : P.Perm Q) {tmin tmax delta here own v w : Fl K} (hf : NoTies tmin tmax P)
    (h : IsSearchResult P tmin tmax delta here own v) (h' : IsSearchResult Q tmin tmax delta here own w) : v = w := by
  have ht := hp.filter (fun p => inTarget tmin tmax p.1)
  have hc := hp.filter (fun p => farEnough delta here p.1)
  by_cases h1 : P.filter (fun p => inTarget tmin tmax p.1) = []
  · have h1' : Q.filter (fun p => inTarget tmin tmax p.1) = [] := by rw [h1] at ht; exact ht.nil_eq.symm
    by_cases h2 : P.filter (fun p => farEnough delta here p.1) = []
    · have h2' : Q.filter (fun p => farEnough delta here p.1) = [] := by rw [h2] at hc; exact hc.nil_eq.symm
      rw [(h.2 h1).1 h2, (h'.2 h1').1 h2']
    · have h2' : Q.filter (fun p => farEnough delta here p.1) ≠ [] := by
        intro he
        rw [he] at hc
        exact h2 hc.eq_nil
      obtain ⟨s, a, k1, rfl⟩ := (h.2 h1).2 h2
      obtain ⟨s', a', k1', rfl⟩ := (h'.2 h1').2 h2'
      obtain ⟨m, l⟩ := firstClosest_least k1
      obtain ⟨m', l'⟩ := firstClosest_least k1'
      have m'' := hc.mem_iff.mpr m'
      have : a = a' := hf _ (List.mem_filter.mp m).1 _ (List.mem_filter.mp m'').1 (l' _ (hc.mem_iff.mp m)) (l _ m'')
      rw [this]
  · have h1' : Q.filter (fun p => inTarget tmin tmax p.1) ≠ [] := by
      intro he
      rw [he] at ht
      exact h1 ht.eq_nil
    rw [h.1 h1, h'.1 h1', mean_perm' (ht.map Prod.snd)]

theorem cell?_zip {α β : Type} {Y X : Nat} {a : List (List α)} {b : List (List β)} (ha : Rect Y X a) (hb : Rect Y X b) {y x : Nat} (hy : y < Y) (hx : x < X) :
    ∃ u v, cell? a y x = some u ∧ cell? b y x = some v ∧ cell? (List.zipWith List.zip a b) y x = some (u, v) := by
  obtain ⟨u, hu⟩ := ha.cell?_some hy hx
  obtain ⟨v, hv⟩ := hb.cell?_some hy hx
  refine ⟨u, v, hu, hv, ?_⟩
  unfold cell? at *
  cases h1 : a[y]? with
  | none => rw [h1] at hu; cases hu
  | some r =>
    cases h2 : b[y]? with
    | none => rw [h2] at hv; cases hv
    | some t =>
      rw [h1] at hu
      rw [h2] at hv
      have hu' : r[x]? = some u := hu
      have hv' : t[x]? = some v := hv
      simp [List.getElem?_zipWith, h1, h2, List.getElem?_zip_eq_some, hu', hv']

theorem Mirrored.cells {α : Type} {Y X Y' X' : Nat} {a b : List (List α)} {σ : Nat × Nat → Nat × Nat} (hm : Mirrored Y X a b Y' X' σ) {y x : Nat} (hy : y < Y) (hx : x < X) :
    cell? b (σ (y, x)).1 (σ (y, x)).2 = cell? a y x := by
  cases hm with
  | rows h => exact h y hy x hx
  | columns h => exact h y hy x hx
  | transposed h => exact h y hy x hx

/-- **C180**, for `neighbourhood_search` in all cells, if cells of one window that are equally close to the target have the same value. Otherwise the first of them counts:
`c180_search_first`. -/
theorem c180_search_partial {Y X Y' X' : Nat} {array search array' search' : List (List (Fl K))} {σ : Nat × Nat → Nat × Nat}
    (hm : Mirrored Y X (List.zipWith List.zip search array) (List.zipWith List.zip search' array') Y' X' σ) (ha : Rect Y X array) (hs : Rect Y X search)
    (ha' : Rect Y' X' array') (hs' : Rect Y' X' search') (hY : 0 < Y) (hX : 0 < X) (hw : Nat) (tmin tmax delta : Fl K) (ht : tmin.gt tmax = false)
    (hf : ∀ y < Y, ∀ x < X, NoTies tmin tmax (windowPairs search array hw y x)) :
    ∃ out out', neighbourhoodSearch array search hw tmin tmax delta [] = ok out ∧ neighbourhoodSearch array' search' hw tmin tmax delta [] = ok out' ∧
      Rect Y X out ∧ Rect Y' X' out' ∧ Mirrored Y X out out' Y' X' σ := by
  have hz := rect_pairField hs ha
  have hz' := rect_pairField hs' ha'
  obtain ⟨-, g1, g2⟩ := hm.perm hz hz' hw hY hX
  obtain ⟨out, h1, h2, h3⟩ := c64_search Y X array search ha hs hY hw tmin tmax delta ht [] (.inl rfl)
  obtain ⟨out', k1, k2, k3⟩ := c64_search Y' X' array' search' ha' hs' (by omega) hw tmin tmax delta ht [] (.inl rfl)
  refine ⟨out, out', h1, k1, h2, k2, hm.of_cells fun y hy x hx => ?_⟩
  obtain ⟨p1, p2, p3⟩ := hm.perm hz hz' hw hy hx
  obtain ⟨v, own, e1, e2, e3, e4⟩ := h3 y hy x hx
  obtain ⟨v', own', f1, f2, f3, f4⟩ := k3 _ p2 _ p3
  have hp : (windowPairs search' array' hw (σ (y, x)).1 (σ (y, x)).2).Perm (windowPairs search array hw y x) := bothValid_perm p1
  obtain ⟨u, w, c1, c2, c3⟩ := cell?_zip hs ha hy hx
  obtain ⟨u', w', d1, d2, d3⟩ := cell?_zip hs' ha' p2 p3
  rw [hm.cells hy hx, c3] at d3
  cases d3
  rw [e2] at c2; cases c2
  rw [f2] at d2; cases d2
  rw [e1, f1]
  congr 1
  by_cases hu : u.isValid = true
  · exact (searchResult_unique hp.symm (hf y hy x hx) (e3 u ⟨c1, hu, .inl rfl⟩) (f3 u ⟨d1, hu, .inl rfl⟩)).symm
  · rw [e4 fun here hh => hu (by rw [hh.1] at c1; cases c1; exact hh.2.1), f4 fun here hh => hu (by rw [hh.1] at d1; cases d1; exact hh.2.1)]

end

/-- **C180** is false in general for `neighbourhood_search`: of two cells equally close to the target the first counts. The middle cell of the mirror image gets another value. -/
theorem c180_search_first :
    neighbourhoodSearch [[fin (5 : ℚ), fin 6, fin 7]] [[fin 1, fin 0, fin 1]] 1 (fin 2) (fin 3) (fin 1) [] = ok [[fin 6, fin 5, fin 6]] ∧
    neighbourhoodSearch [[fin (7 : ℚ), fin 6, fin 5]] [[fin 1, fin 0, fin 1]] 1 (fin 2) (fin 3) (fin 1) [] = ok [[fin 6, fin 7, fin 6]] := by
  constructor <;> decide +kernel

/-- The hypotheses of `c180_search_partial`. -/
example : Mirrored 1 3 (List.zipWith List.zip [[fin (1 : ℚ), fin 0, nan]] [[fin (5 : ℚ), fin 6, fin 7]]) (List.zipWith List.zip [[nan, fin 0, fin 1]] [[fin 7, fin 6, fin 5]]) 1 3
      (fun p => (p.1, 3 - 1 - p.2)) ∧
    (∀ y < 1, ∀ x < 3, ∀ p ∈ windowPairs [[fin (1 : ℚ), fin 0, nan]] [[fin 5, fin 6, fin 7]] 1 y x, ∀ q ∈ windowPairs [[fin (1 : ℚ), fin 0, nan]] [[fin 5, fin 6, fin 7]] 1 y x,
      (rangeDist (fin 2) (fin 3) p.1).lt (rangeDist (fin 2) (fin 3) q.1) = false → (rangeDist (fin 2) (fin 3) q.1).lt (rangeDist (fin 2) (fin 3) p.1) = false → p.2 = q.2) ∧
    neighbourhoodSearch [[fin (5 : ℚ), fin 6, fin 7]] [[fin 1, fin 0, nan]] 1 (fin 2) (fin 3) (fin 1) [] = ok [[fin 6, fin 5, fin 7]] :=
  ⟨.columns (by decide +kernel), by decide +kernel, by decide +kernel⟩

/-- A search for land (more than one half) in percent, for temperatures in K instead of in degrees Celsius. -/
example : neighbourhoodSearch [[fin (5 : ℚ), fin 6, fin 8]] [[fin 1, fin 0, fin 1]] 1 (fin (1 / 2)) (fin 1) (fin 0) [] = ok [[fin 5, fin (13 / 2), fin 8]] ∧
    neighbourhoodSearch [[fin (5 + 273 : ℚ), fin (6 + 273), fin (8 + 273)]] [[fin 100, fin 0, fin 100]] 1 (fin 50) (fin 100) (fin 0) [] =
      ok [[fin 278, fin (13 / 2 + 273), fin 281]] := by
  constructor <;> decide +kernel

end Gridpp.Props
