import Verif.Props.Client.ParameterNetcdf
import Verif.Lemmas.Grid
import Verif.Lemmas.Client.Downscaler

/-! # C148: writing parameters to NetCDF files, and reading them again -/

set_option linter.unusedSectionVars false

namespace Gridpp.Props
open Fl hiding MV isValid
open Res Client Spec

variable {K : Type} [Field K] [LinearOrder K] [IsStrictOrderedRing K]

/-- The largest number of parameters of a place. -/
def largestSet (ws : List (Setting K)) (l : Loc K) : Nat :=
  ((List.range (latest ws + 1)).map fun t => (lastSetting ws l.lat l.lon t).length).foldr max 0

/-- What is written for a place and a time: missing values if there are no parameters. -/
def filledSet (ws : List (Setting K)) (n : Nat) (l : Loc K) (t : Nat) : Pars K :=
  if lastSetting ws l.lat l.lon t = [] then List.replicate n (fin (-999)) else lastSetting ws l.lat l.lon t

/-- The grid that is written: one column, and a row for every place. -/
def writtenGrid (ws : List (Setting K)) (ls : List (Loc K)) (n : Nat) : ParGrid K :=
  ⟨2, 1, 3, some 0, ls.length, 1, n, latest ws + 1, fun i _ => (ls[i]?.map Loc.lat).getD 0, fun i _ => (ls[i]?.map Loc.lon).getD 0,
    fun i _ => (ls[i]?.map Loc.elev).getD .nan, none, fun i _ t k => (ls[i]?.map fun l => (filledSet ws n l t).getD k .nan).getD .nan⟩

theorem usedTime_id {ws : List (Setting K)} {c : Bool} {t : Nat} (ht : t ≤ latest ws) : usedTime ws c t = t := by
  unfold usedTime
  split_ifs with h1
  · omega
  · exact Nat.mod_eq_of_lt (by omega)
  · rfl

theorem foldl_max_eq (l : List Nat) : ∀ a, l.foldl max a = max a (l.foldr max 0) := by
  induction l with
  | nil => intro a; simp
  | cons x l ih =>
    intro a
    rw [List.foldl_cons, ih, List.foldr_cons]
    omega

theorem writtenSet_eq [HasArcC K] {f : ParFile K} {c : Bool} {ws : List (Setting K)} (h : f.Holds c ws) (n t : Nat) (ht : t ≤ latest ws) (l : Loc K) :
    writtenSet f n t l = if (lastSetting ws l.lat l.lon t).length = n ∨ lastSetting ws l.lat l.lon t = [] then ok (filledSet ws n l t) else .abort := by
  have hg := ((store_of_holds h).2 l t).2 (by rw [usedTime_id ht]; exact ht)
  rw [usedTime_id ht] at hg
  unfold writtenSet filledSet
  rw [hg, ok_bind]
  by_cases h1 : (lastSetting ws l.lat l.lon t).length = n
  · rw [if_pos h1, if_pos (.inl h1)]
    by_cases h2 : lastSetting ws l.lat l.lon t = []
    · rw [if_pos h2, h2]
      rw [h2] at h1
      rw [← h1]
      rfl
    · rw [if_neg h2]
  · rw [if_neg h1]
    by_cases h2 : lastSetting ws l.lat l.lon t = []
    · rw [if_pos (by rw [h2]; rfl), if_pos (.inr h2), if_pos h2]
      rfl
    · rw [if_neg (by rwa [List.length_eq_zero_iff]), if_neg (by tauto)]
      rfl

/-- **C148**: `write` succeeds exactly if the first place has parameters at some time, and every place has at every time as many as the first place has
at most, or none; and the name of the variable is not one that is used for another variable. The file has then the grid with one column. -/
theorem c148_write [HasArcC K] {f : ParFile K} {c : Bool} {ws : List (Setting K)} (h : f.Holds c ws) (hne : ws ≠ []) {l0 : Loc K} {ls : List (Loc K)}
    (hloc : f.locations = l0 :: ls) (varName : Str) :
    (largestSet ws l0 ≠ 0 → varName ∉ ["latitude".toList, "longitude".toList, "altitude".toList, "time".toList] →
      (∀ l ∈ l0 :: ls, ∀ t ≤ latest ws, (lastSetting ws l.lat l.lon t).length = largestSet ws l0 ∨ lastSetting ws l.lat l.lon t = []) →
      ∃ nc, writeNetcdf f varName = ok nc ∧ (varName ∉ ["lat".toList, "lon".toList] →
        (writtenGrid ws (l0 :: ls) (largestSet ws l0)).Of nc "coeff".toList varName [] [])) ∧
    ((largestSet ws l0 = 0 ∨ varName ∈ ["latitude".toList, "longitude".toList, "altitude".toList, "time".toList] ∨
      ∃ l ∈ l0 :: ls, ∃ t ≤ latest ws, (lastSetting ws l.lat l.lon t).length ≠ largestSet ws l0 ∧ lastSetting ws l.lat l.lon t ≠ []) →
      writeNetcdf f varName = .abort) := by
  have htimes : f.getTimes = List.range (latest ws + 1) := by rw [times_of_holds h, if_neg hne]
  have hcoeff : foldM (fun n (t : Nat) => do
      let p ← f.getParameters t l0 false
      ok (max n p.length)) 0 f.getTimes = ok (largestSet ws l0) := by
    rw [foldM_ok (g := fun n t => max n (lastSetting ws l0.lat l0.lon t).length)]
    · congr 1
      unfold largestSet
      rw [htimes, ← List.foldl_map (f := fun t => (lastSetting ws l0.lat l0.lon t).length) (g := max), foldl_max_eq]
      simp
    · intro b t ht
      rw [htimes, List.mem_range] at ht
      have hg := ((store_of_holds h).2 l0 t).2 (by rw [usedTime_id (by omega)]; omega)
      rw [usedTime_id (by omega)] at hg
      rw [hg, ok_bind]
  have hne' : f.getTimes ≠ [] := by
    rw [htimes]
    apply List.ne_nil_of_length_pos
    simp
  have hset := fun t (ht : t ≤ latest ws) l => writtenSet_eq h (largestSet ws l0) t ht l
  have hw : writeNetcdf f varName = if largestSet ws l0 = 0 then .abort else
      if varName ∈ ["latitude".toList, "longitude".toList, "altitude".toList, "time".toList] then .abort else
        (mapM (fun t => mapM (writtenSet f (largestSet ws l0) t) f.locations) f.getTimes).bind fun values =>
          ok (ncFileOf f varName (largestSet ws l0) values) := by
    unfold writeNetcdf
    rw [hloc]
    simp only
    rw [if_neg hne', hcoeff, ok_bind]
    rfl
  constructor
  · intro hn hname hall
    rw [hw, if_neg hn, if_neg hname]
    have hmap : mapM (fun t => mapM (writtenSet f (largestSet ws l0) t) f.locations) f.getTimes =
        ok ((List.range (latest ws + 1)).map fun t => (l0 :: ls).map fun l => filledSet ws (largestSet ws l0) l t) := by
      rw [htimes, hloc]
      refine mapM_ok fun t ht => mapM_ok fun l hl => ?_
      have ht := List.mem_range.mp ht
      rw [hset t (by omega) l, if_pos (hall l hl t (by omega))]
    rw [hmap]
    refine ⟨_, rfl, fun hname2 => ?_⟩
    have hlen : ∀ l ∈ l0 :: ls, ∀ t ≤ latest ws, (filledSet ws (largestSet ws l0) l t).length = largestSet ws l0 := by
      intro l hl t ht
      unfold filledSet
      split_ifs with h1
      · simp
      · exact (hall l hl t ht).resolve_right h1
    -- the array of values
    have hrow : ∀ t ≤ latest ws, Rect (l0 :: ls).length (largestSet ws l0) ((l0 :: ls).map fun l => filledSet ws (largestSet ws l0) l t) := by
      intro t ht
      refine ⟨by simp, fun r hr => ?_⟩
      obtain ⟨l, hl, rfl⟩ := List.mem_map.mp hr
      exact hlen l hl t ht
    have hrect : Rect (latest ws + 1) ((l0 :: ls).length * largestSet ws l0)
        (((List.range (latest ws + 1)).map fun t => (l0 :: ls).map fun l => filledSet ws (largestSet ws l0) l t).map List.flatten) := by
      refine ⟨by simp, fun r hr => ?_⟩
      obtain ⟨q, hq, rfl⟩ := List.mem_map.mp hr
      obtain ⟨t, ht, rfl⟩ := List.mem_map.mp hq
      have ht := List.mem_range.mp ht
      exact flatten_length (hrow t (by omega))
    have hvalue : ∀ i < (l0 :: ls).length, ∀ t < latest ws + 1, ∀ k < largestSet ws l0,
        (((List.range (latest ws + 1)).map fun t => (l0 :: ls).map fun l => filledSet ws (largestSet ws l0) l t).map List.flatten).flatten[
          t * ((l0 :: ls).length * largestSet ws l0) + (i * largestSet ws l0 + k)]? =
        some (((l0 :: ls)[i]?.map fun l => (filledSet ws (largestSet ws l0) l t).getD k .nan).getD .nan) := by
      intro i hi t ht k hk
      have hik : i * largestSet ws l0 + k < (l0 :: ls).length * largestSet ws l0 := by
        calc i * largestSet ws l0 + k < i * largestSet ws l0 + largestSet ws l0 := by omega
          _ = (i + 1) * largestSet ws l0 := by ring
          _ ≤ _ := Nat.mul_le_mul_right _ hi
      rw [flatten_getElem? hrect hik]
      unfold cell?
      rw [List.getElem?_map, List.getElem?_map, List.getElem?_range ht]
      simp only [Option.map_some, Option.bind_some]
      rw [flatten_getElem? (hrow t (by omega)) hk]
      unfold cell?
      rw [List.getElem?_map, List.getElem?_eq_getElem hi]
      simp only [Option.map_some, Option.bind_some, Option.getD_some]
      have hl := hlen _ (List.getElem_mem hi) t (by omega)
      rw [List.getD_eq_getElem?_getD, List.getElem?_eq_getElem (by omega)]
      rfl
    have hgrid : ∀ (name : Str) (x : Loc K → Fl K) (d : Fl K) (nc : NcFile K), nc.dims = [("time".toList, latest ws + 1), ("lon".toList, 1),
        ("lat".toList, (l0 :: ls).length), ("coeff".toList, largestSet ws l0)] → GridVar nc 2 1 ⟨name, [2, 1], (l0 :: ls).map x, none⟩ ∧
        ∀ i < (l0 :: ls).length, ∀ j < 1, ValueAt nc ⟨name, [2, 1], (l0 :: ls).map x, none⟩ (gridPos 2 1 i j) (((l0 :: ls)[i]?.map x).getD d) := by
      intro name x d nc hd
      have d2 : dimLength nc 2 = (l0 :: ls).length := by
        unfold dimLength
        rw [hd]
        rfl
      have d1 : dimLength nc 1 = 1 := by
        unfold dimLength
        rw [hd]
        rfl
      refine ⟨⟨⟨?_, ?_⟩, by simp, ?_, .inr (.inr ⟨by simp, by simp⟩)⟩, fun i hi j hj => ?_⟩
      · intro e he
        rw [hd]
        simp only [List.mem_cons, List.not_mem_nil, or_false] at he
        rcases he with rfl | rfl <;> simp
      · simp only [List.map_cons, List.map_nil, List.prod_cons, List.prod_nil, d1, d2]
        simp
      · intro e he h1 h2
        simp only [List.mem_cons, List.not_mem_nil, or_false] at he
        tauto
      · obtain rfl : j = 0 := by omega
        unfold ValueAt
        simp only [List.map_cons, List.map_nil, d1, d2, rowMajor, gridPos, List.foldl_cons, List.foldl_nil, if_true, OfNat.one_ne_ofNat, if_false]
        simp only [Nat.zero_mul, Nat.zero_add, Nat.mul_one, Nat.add_zero]
        rw [← List.map_cons, List.getElem?_map, List.getElem?_eq_getElem hi]
        rfl
    have htl : f.getTimes.length = latest ws + 1 := by rw [htimes]; simp
    unfold ncFileOf
    rw [hloc, htl]
    have v1 : varName ≠ "latitude".toList := fun e => hname (by rw [e]; exact List.mem_cons_self)
    have v2 : varName ≠ "longitude".toList := fun e => hname (by rw [e]; exact List.mem_cons_of_mem _ List.mem_cons_self)
    have v3 : varName ≠ "altitude".toList := fun e => hname (by rw [e]; exact List.mem_cons_of_mem _ (List.mem_cons_of_mem _ List.mem_cons_self))
    have v4 : varName ≠ "time".toList := fun e => hname (by
      rw [e]; exact List.mem_cons_of_mem _ (List.mem_cons_of_mem _ (List.mem_cons_of_mem _ List.mem_cons_self)))
    have v5 : varName ≠ "lat".toList := fun e => hname2 (by rw [e]; exact List.mem_cons_self)
    have v6 : varName ≠ "lon".toList := fun e => hname2 (by rw [e]; exact List.mem_cons_of_mem _ List.mem_cons_self)
    refine {
      names := ⟨by show (["time".toList, "lon".toList, "lat".toList, "coeff".toList] : List Str).Nodup; decide, ?_⟩
      dimLat := ⟨[], "lat".toList, ["latitude".toList, "y".toList], (l0 :: ls).length, rfl, by simp, rfl⟩
      dimLon := ⟨[], "lon".toList, ["longitude".toList, "x".toList], 1, rfl, by simp, rfl⟩
      dimCoeff := rfl
      nLat := rfl
      nLon := rfl
      different := ⟨(by decide : (2 : Nat) ≠ 1), (by decide : (3 : Nat) ≠ 2), (by decide : (3 : Nat) ≠ 1), (by decide : some (0 : Nat) ≠ some 2),
        (by decide : some (0 : Nat) ≠ some 1), (by decide : some (0 : Nat) ≠ some 3)⟩
      positive := ⟨Nat.succ_pos _, Nat.one_pos, Nat.pos_of_ne_zero hn, Nat.succ_pos _⟩
      time := .inr ⟨0, _, rfl, rfl, List.mem_cons_of_mem _ (List.mem_cons_of_mem _ (List.mem_cons_of_mem _ (List.mem_cons_of_mem _ List.mem_cons_self))), rfl, ?_⟩
      lats := ⟨_, ⟨["lat".toList], "latitude".toList, [], rfl, ?_, List.mem_cons_of_mem _ List.mem_cons_self, rfl⟩, (hgrid _ _ (fin 0) _ rfl).1, ?_⟩
      lons := ⟨_, ⟨["lon".toList], "longitude".toList, [], rfl, ?_, List.mem_cons_of_mem _ (List.mem_cons_of_mem _ List.mem_cons_self), rfl⟩,
        (hgrid _ _ (fin 0) _ rfl).1, ?_⟩
      elevs := .inl ⟨_, List.mem_cons_of_mem _ (List.mem_cons_of_mem _ (List.mem_cons_of_mem _ List.mem_cons_self)), rfl, (hgrid _ _ .nan _ rfl).1,
        (hgrid _ _ .nan _ rfl).2⟩
      values := ⟨_, List.mem_cons_self, rfl, rfl, ⟨?_, ?_⟩, ?_, ?_, ?_, ?_, ?_, ?_⟩ }
    · show ([varName, "latitude".toList, "longitude".toList, "altitude".toList, "time".toList] : List Str).Nodup
      rw [List.nodup_cons]
      exact ⟨hname, by decide⟩
    · show (f.getTimes.map fun t : Nat => fin (t : K)).length ≤ latest ws + 1
      rw [List.length_map, htl]
    · intro m hm
      rw [List.mem_singleton] at hm
      subst hm
      show "lat".toList ∉ ([varName, "latitude".toList, "longitude".toList, "altitude".toList, "time".toList] : List Str)
      rw [List.mem_cons]
      rintro (e | e)
      · exact v5 e.symm
      · revert e
        decide
    · intro i hi j hj
      have := (hgrid "latitude".toList (fun l => fin l.lat) (fin 0) ⟨[("time".toList, latest ws + 1), ("lon".toList, 1),
        ("lat".toList, (l0 :: ls).length), ("coeff".toList, largestSet ws l0)], []⟩ rfl).2 i hi j hj
      have e : ((l0 :: ls)[i]?.map fun l : Loc K => (fin l.lat : Fl K)).getD (fin 0) = fin (((l0 :: ls)[i]?.map Loc.lat).getD 0) := by
        cases (l0 :: ls)[i]? <;> rfl
      rw [e] at this
      exact this
    · intro m hm
      rw [List.mem_singleton] at hm
      subst hm
      show "lon".toList ∉ ([varName, "latitude".toList, "longitude".toList, "altitude".toList, "time".toList] : List Str)
      rw [List.mem_cons]
      rintro (e | e)
      · exact v6 e.symm
      · revert e
        decide
    · intro i hi j hj
      have := (hgrid "longitude".toList (fun l => fin l.lon) (fin 0) ⟨[("time".toList, latest ws + 1), ("lon".toList, 1),
        ("lat".toList, (l0 :: ls).length), ("coeff".toList, largestSet ws l0)], []⟩ rfl).2 i hi j hj
      have e : ((l0 :: ls)[i]?.map fun l : Loc K => (fin l.lon : Fl K)).getD (fin 0) = fin (((l0 :: ls)[i]?.map Loc.lon).getD 0) := by
        cases (l0 :: ls)[i]? <;> rfl
      rw [e] at this
      exact this
    · show ∀ d ∈ [0, 2, 1, 3], d < 4
      decide
    · show (List.flatten _).length = ([latest ws + 1, (l0 :: ls).length, 1, largestSet ws l0] : List Nat).prod
      rw [flatten_length hrect]
      simp
    · show [0, 2, 1, 3].Nodup
      decide
    · show [0, 2, 1, 3].length ≤ 4
      decide
    · show 2 ∈ [0, 2, 1, 3]
      decide
    · show 1 ∈ [0, 2, 1, 3]
      decide
    · show 3 ∈ [0, 2, 1, 3]
      decide
    · intro i hi j hj t ht k hk
      have hj : j < 1 := hj
      obtain rfl : j = 0 := by omega
      have := hvalue i hi t ht k hk
      unfold ValueAt
      have hr : rowMajor [(latest ws + 1, t), ((l0 :: ls).length, i), (1, 0), (largestSet ws l0, k)] =
          t * ((l0 :: ls).length * largestSet ws l0) + (i * largestSet ws l0 + k) := by
        simp only [rowMajor, List.foldl_cons, List.foldl_nil]
        ring
      rw [← hr] at this
      exact this
  · intro hbad
    rw [hw]
    by_cases h1 : largestSet ws l0 = 0
    · rw [if_pos h1]
    · rw [if_neg h1]
      by_cases h2 : varName ∈ ["latitude".toList, "longitude".toList, "altitude".toList, "time".toList]
      · rw [if_pos h2]
      · rw [if_neg h2]
        obtain ⟨l, hl, t, ht, h3, h4⟩ := (hbad.resolve_left h1).resolve_left h2
        have hr : ∀ t ∈ f.getTimes, ∀ l ∈ f.locations, (∃ b, writtenSet f (largestSet ws l0) t l = ok b) ∨ writtenSet f (largestSet ws l0) t l = .abort := by
          intro t ht l _
          rw [htimes, List.mem_range] at ht
          rw [hset t (by omega) l]
          split_ifs
          · exact .inl ⟨_, rfl⟩
          · exact .inr rfl
        have : mapM (fun t => mapM (writtenSet f (largestSet ws l0) t) f.locations) f.getTimes = .abort := by
          refine mapM_abort (a0 := t) (fun t' ht' => mapM_ok_or_abort (hr t' ht')) (by rw [htimes, List.mem_range]; omega) ?_
          refine mapM_abort (a0 := l) (hr t (by rw [htimes, List.mem_range]; omega)) (by rw [hloc]; exact hl) ?_
          rw [hset t ht l, if_neg (by tauto)]
        rw [this]
        rfl

theorem meaning_id {x : Fl K} (h : x ≠ fin (15 * 2 ^ 119)) : meaning none x = x := by
  unfold meaning
  exact if_neg fun hc => h hc.2

/-- The parameters of row `i` of the file that is written. -/
theorem writtenGrid_pars {ws : List (Setting K)} {ls : List (Loc K)} {n i t : Nat} {l : Loc K} (hl : ls[i]? = some l)
    (hlen : (filledSet ws n l t).length = n) :
    (writtenGrid ws ls n).pars i 0 t = (filledSet ws n l t).map (meaning none) := by
  unfold ParGrid.pars writtenGrid
  simp only [hl, Option.map_some, Option.getD_some]
  apply List.ext_getElem
  · simp [hlen]
  · intro k h1 h2
    rw [List.getElem_map, List.getElem_map, List.getElem_range]
    have hk : k < (filledSet ws n l t).length := by simpa using h2
    rw [List.getD_eq_getElem?_getD, List.getElem?_eq_getElem hk, Option.getD_some]

/-- **C148**, writing and reading, as far as it holds: if the places are on the globe and the file can be written, then it can be read again, with the same
times, and parameters got for a place and a time are the same as before. Missing: a parameter that is the fill value comes back as a
missing value (`c148_fill_false`); no parameters for a time come back as missing values; and what can be written is limited (`c148_write`,
`c148_first_false`, `c148_dim_name_false`). -/
theorem c148_round_partial [HasArcC K] {sort : Bool → List (Site K) → List (Site K)} (hsort : KD.Sorts sort) (cycling : Bool) (ws : List (Setting K))
    (hne : ws ≠ []) (hglobe : ∀ w ∈ ws, OnGlobe w.lat w.lon) {varName : Str} (hname : varName ∉ ["lat".toList, "lon".toList]) :
    ∃ f f', written cycling ws = ok f ∧ f.recomputeTree sort = ok f' ∧ ∀ nc, writeNetcdf f' varName = ok nc →
      ∃ F, readNetcdf sort ⟨"coeff".toList, varName, [], [], cycling⟩ nc = ok F ∧ F.getTimes = f'.getTimes ∧ ∀ (l : Loc K) (n : Nat),
        (f'.getParameters n l false = .abort → F.getParameters n l false = .abort) ∧
        ∀ p, f'.getParameters n l false = ok p →
          (p ≠ [] → (∀ x ∈ p, x ≠ fin (15 * 2 ^ 119)) → F.getParameters n l false = ok p) ∧
          ((∀ w ∈ ws, ¬ (w.lat = l.lat ∧ w.lon = l.lon)) → F.getParameters n l false = ok []) ∧
          (p = [] → (∃ w ∈ ws, w.lat = l.lat ∧ w.lon = l.lon) → ∃ k, 0 < k ∧ F.getParameters n l false = ok (List.replicate k (fin (-999)))) := by
  obtain ⟨f, h1, h2, h3, -⟩ := ParFile.written_holds cycling ws
  have hm : ∀ e ∈ f.pars, OnGlobe e.1.lat e.1.lon := by
    intro e he
    obtain ⟨w, hw, h4, h5⟩ := (h2.keys _ _).mp ⟨e, he, rfl, rfl⟩
    rw [← h4, ← h5]
    exact hglobe w hw
  have hpne : f.pars ≠ [] := by
    obtain ⟨w, hw⟩ := List.exists_mem_of_ne_nil _ hne
    obtain ⟨e, he, -⟩ := (h2.keys _ _).mpr ⟨w, hw, rfl, rfl⟩
    exact List.ne_nil_of_mem he
  obtain ⟨tree, htree⟩ := recomputeTreeAlways_ok hsort hm hpne
  rw [recomputeTree_eq hm hpne, h3, List.nil_append] at htree
  refine ⟨f, _, h1, htree, fun nc hnc => ?_⟩
  have hH : ParFile.Holds { f with locations := f.pars.map Prod.fst, tree := tree } cycling ws :=
    ⟨h2.sorted, h2.keys, h2.short, h2.long, h2.value, h2.elev, h2.maxTime, h2.timeDependent, h2.cycling⟩
  generalize hf' : ({ f with locations := f.pars.map Prod.fst, tree := tree } : ParFile K) = f' at *
  have hloc : f'.locations = f.pars.map Prod.fst := by rw [← hf']
  obtain ⟨l0, ls, hcons⟩ : ∃ l0 ls, f.pars.map Prod.fst = l0 :: ls := by
    cases hp : f.pars with
    | nil => exact absurd hp hpne
    | cons e m => exact ⟨_, _, rfl⟩
  rw [hcons] at hloc
  obtain ⟨w1, w2⟩ := c148_write hH hne hloc varName
  have hgood : ¬ (largestSet ws l0 = 0 ∨ varName ∈ ["latitude".toList, "longitude".toList, "altitude".toList, "time".toList] ∨
      ∃ l ∈ l0 :: ls, ∃ t ≤ latest ws, (lastSetting ws l.lat l.lon t).length ≠ largestSet ws l0 ∧ lastSetting ws l.lat l.lon t ≠ []) := by
    intro hbad
    rw [w2 hbad] at hnc
    cases hnc
  have hall : ∀ l ∈ l0 :: ls, ∀ t ≤ latest ws, (lastSetting ws l.lat l.lon t).length = largestSet ws l0 ∨ lastSetting ws l.lat l.lon t = [] := by
    intro l hl t ht
    by_contra hc
    rw [not_or] at hc
    exact hgood (.inr (.inr ⟨l, hl, t, ht, hc.1, hc.2⟩))
  have hn0 : largestSet ws l0 ≠ 0 := fun e => hgood (.inl e)
  obtain ⟨nc', v1, v2⟩ := w1 hn0 (fun e => hgood (.inr (.inl e))) hall
  rw [hnc] at v1
  cases v1
  have hof := v2 hname
  generalize hN : largestSet ws l0 = N at *
  have hpars : ∀ (i : Nat) (l : Loc K), (l0 :: ls)[i]? = some l → ∃ e, f.pars[i]? = some e ∧ e.1 = l := by
    intro i l hl
    rw [← hcons, List.getElem?_map] at hl
    obtain ⟨e, he, rfl⟩ := Option.map_eq_some_iff.mp hl
    exact ⟨e, he, rfl⟩
  have hrow : ∀ i < (l0 :: ls).length, ∃ l, (l0 :: ls)[i]? = some l ∧ l ∈ l0 :: ls ∧ (writtenGrid ws (l0 :: ls) N).lat i 0 = l.lat ∧
      (writtenGrid ws (l0 :: ls) N).lon i 0 = l.lon := by
    intro i hi
    have hl : (l0 :: ls)[i]? = some (l0 :: ls)[i] := List.getElem?_eq_getElem hi
    refine ⟨_, hl, List.getElem_mem hi, ?_, ?_⟩
    · show ((l0 :: ls)[i]?.map Loc.lat).getD 0 = _
      rw [hl]
      rfl
    · show ((l0 :: ls)[i]?.map Loc.lon).getD 0 = _
      rw [hl]
      rfl
  have honGlobe : ∀ i < (writtenGrid ws (l0 :: ls) N).nLat, ∀ j < (writtenGrid ws (l0 :: ls) N).nLon,
      OnGlobe ((writtenGrid ws (l0 :: ls) N).lat i j) ((writtenGrid ws (l0 :: ls) N).lon i j) := by
    intro i hi j hj
    have hj : j < 1 := hj
    obtain rfl : j = 0 := by omega
    obtain ⟨l, r1, -, r2, r3⟩ := hrow i hi
    obtain ⟨e, he, rfl⟩ := hpars i l r1
    rw [r2, r3]
    exact hm e (List.mem_of_getElem? he)
  obtain ⟨F, q1, q2, -, q3⟩ := c147_read_partial (o := ⟨"coeff".toList, varName, [], [], cycling⟩) hof hsort honGlobe
  have hnt : (writtenGrid ws (l0 :: ls) N).nTime = latest ws + 1 := rfl
  rw [hnt] at q2 q3
  have htime : ∀ n, timeUsed (latest ws + 1) cycling n = usedTime ws cycling n := by
    intro n
    unfold timeUsed usedTime
    have : latest ws + 1 = 1 ↔ latest ws = 0 := by omega
    simp only [this]
  simp only [htime] at q3
  refine ⟨F, q1, by rw [q2, times_of_holds hH, if_neg hne], fun l n => ?_⟩
  obtain ⟨s1, s2⟩ := (store_of_holds hH).2 l n
  obtain ⟨t1, t2⟩ := q3 l n
  by_cases hu : latest ws < usedTime ws cycling n
  · refine ⟨fun _ => t1 (by omega), fun p hp => ?_⟩
    rw [s1 hu] at hp
    cases hp
  · have hu' : usedTime ws cycling n ≤ latest ws := by omega
    rw [s2 hu']
    refine ⟨fun hp => (by cases hp), fun p hp => ?_⟩
    have hp := Res.ok.inj hp
    obtain ⟨-, t3, t4⟩ := t2 (by omega)
    -- the row of a place of the settings
    have hplace : (∃ w ∈ ws, w.lat = l.lat ∧ w.lon = l.lon) → F.getParameters n l false = ok ((filledSet ws N l (usedTime ws cycling n)).map (meaning none)) := by
      rintro ⟨w, hw, e1, e2⟩
      obtain ⟨e, he, e3, e4⟩ := (h2.keys _ _).mpr ⟨w, hw, e1, e2⟩
      obtain ⟨i, hi⟩ := List.mem_iff_getElem?.mp he
      have hil : (l0 :: ls)[i]? = some e.1 := by rw [← hcons, List.getElem?_map, hi]; rfl
      have hlt : i < (l0 :: ls).length := (List.getElem?_eq_some_iff.mp hil).1
      obtain ⟨l', r1, r2, r3, r4⟩ := hrow i hlt
      rw [hil] at r1
      cases r1
      have := t4 i hlt 0 Nat.one_pos (r3.trans e3) (r4.trans e4) (by
        intro i' hi' j' hj' x1 x2
        have hj' : j' < 1 := hj'
        obtain rfl : j' = 0 := by omega
        refine ⟨?_, rfl⟩
        obtain ⟨l', y1, -, y3, y4⟩ := hrow i' hi'
        obtain ⟨e', he', rfl⟩ := hpars i' l' y1
        rw [y3, r3] at x1
        rw [y4, r4] at x2
        have hs : f.pars.Pairwise _ := h2.sorted
        rw [List.pairwise_iff_getElem] at hs
        obtain ⟨a1, a2⟩ := List.getElem?_eq_some_iff.mp hi
        obtain ⟨b1, b2⟩ := List.getElem?_eq_some_iff.mp he'
        rcases Nat.lt_trichotomy i' i with hlt | heq | hgt
        · have := hs i' i b1 a1 hlt
          rw [a2, b2] at this
          exact absurd ⟨x1, x2⟩ (Loc.not_same_of_before this)
        · exact heq
        · have := hs i i' a1 b1 hgt
          rw [a2, b2] at this
          exact absurd ⟨x1.symm, x2.symm⟩ (Loc.not_same_of_before this))
      rw [this]
      have hfl : filledSet ws N e.1 (usedTime ws cycling n) = filledSet ws N l (usedTime ws cycling n) := by
        unfold filledSet
        rw [e3, e4]
      rw [writtenGrid_pars hil (by
        unfold filledSet
        split_ifs with hc
        · simp
        · exact (hall _ r2 _ hu').resolve_right hc), hfl]
    refine ⟨fun hpn hfill => ?_, fun hno => ?_, fun hpe hex => ?_⟩
    · have hex : ∃ w ∈ ws, w.lat = l.lat ∧ w.lon = l.lon := by
        by_contra hc
        push Not at hc
        apply hpn
        rw [← hp, lastSetting_eq_nil]
        intro w hw hh
        exact hc w hw hh.1 hh.2
      rw [hplace hex]
      have : filledSet ws N l (usedTime ws cycling n) = p := by
        unfold filledSet
        rw [hp, if_neg hpn]
      rw [this]
      congr 1
      conv_rhs => rw [← List.map_id p]
      exact List.map_congr_left fun x hx => meaning_id (hfill x hx)
    · refine t3 fun i hi j hj hc => ?_
      have hj : j < 1 := hj
      obtain rfl : j = 0 := by omega
      obtain ⟨l', r1, -, r2, r3⟩ := hrow i hi
      obtain ⟨e, he, rfl⟩ := hpars i l' r1
      obtain ⟨w, hw, h4, h5⟩ := (h2.keys _ _).mp ⟨e, List.mem_of_getElem? he, rfl, rfl⟩
      exact hno w hw ⟨h4.trans (r2.symm.trans hc.1), h5.trans (r3.symm.trans hc.2)⟩
    · refine ⟨N, Nat.pos_of_ne_zero hn0, ?_⟩
      rw [hplace hex]
      have : filledSet ws N l (usedTime ws cycling n) = List.replicate N (fin (-999)) := by
        unfold filledSet
        rw [if_pos (hp.trans hpe)]
      rw [this, List.map_replicate, meaning_id]
      intro hc
      have := Fl.fin.inj hc
      norm_num at this

/-- **C148**: without a call of `recomputeTree` there is nothing to write. -/
theorem c148_without_tree [HasArcC K] (f : ParFile K) (h : f.locations = []) (varName : Str) : writeNetcdf f varName = .abort := by
  unfold writeNetcdf
  rw [h]
  rfl

/-! ### An example and counterexamples -/

section
local instance flatNetcdfWrite : HasArcC ℚ := ⟨fun a b c d => |a - c| + |b - d|⟩

/-- The settings, written and read with the name `dim` for the dimension; the parameters of the places 10, 30 and 20, 30 at the times 0 and 1. -/
def roundTrip (dim : Str) (ws : List (Setting ℚ)) : Res (List (Pars ℚ)) := do
  let f ← written false ws
  let f' ← f.recomputeTree insertSort
  let nc ← writeNetcdf f' "coefficient".toList
  let F ← readNetcdf insertSort ⟨dim, "coefficient".toList, [], [], false⟩ nc
  mapM (fun (p : Nat × ℚ) => F.getParameters p.1 ⟨p.2, 30, fin 0⟩ false) [(0, 10), (1, 10), (0, 20), (1, 20)]

/-- The hypotheses of `c148_round_partial` hold and the file can be written; the second place has no parameters for the second time. -/
example : roundTrip "coeff".toList [⟨20, 30, fin 5, 0, [fin 3, fin 4]⟩, ⟨10, 30, fin 6, 1, [fin 5, fin 6]⟩, ⟨10, 30, fin 6, 0, [fin 1, fin 2]⟩] =
    ok [[fin 1, fin 2], [fin 5, fin 6], [fin 3, fin 4], [fin (-999), fin (-999)]] ∧ OnGlobe (20 : ℚ) 30 ∧ OnGlobe (10 : ℚ) 30 := by
  refine ⟨by decide +kernel, ?_, ?_⟩ <;> constructor <;> norm_num

/-- **C148**: the number of parameters is taken from the first place alone; if it has none, nothing is written though the second has some. -/
theorem c148_first_false : roundTrip "coeff".toList [⟨10, 30, fin 6, 0, []⟩, ⟨20, 30, fin 5, 0, [fin 3, fin 4]⟩] = .abort ∧
    roundTrip "coeff".toList [⟨10, 30, fin 6, 0, [fin 3, fin 4]⟩, ⟨20, 30, fin 5, 0, []⟩] =
      ok [[fin 3, fin 4], [fin 3, fin 4], [fin (-999), fin (-999)], [fin (-999), fin (-999)]] := by decide +kernel

/-- **C148**: the option for the name of the dimension is used for reading only: a file written with it cannot be read with it. -/
theorem c148_dim_name_false : roundTrip "parameter".toList [⟨10, 30, fin 6, 0, [fin 3, fin 4]⟩] = .abort := by decide +kernel

/-- **C148**: a parameter that is the fill value comes back as a missing value. -/
theorem c148_fill_false : roundTrip "coeff".toList [⟨10, 30, fin 6, 0, [fin (15 * 2 ^ 119), fin 4]⟩] =
    ok [[fin (-999), fin 4], [fin (-999), fin 4], [], []] := by decide +kernel

end

end Gridpp.Props
