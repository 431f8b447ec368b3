import Verif.Props.ExceptionsMore

/-!
C67, continued: the functions of grids and points. `BuiltGrid` and `BuiltPoints` say that the object is the result of its
constructor.
-/

set_option linter.unusedSectionVars false

namespace Gridpp.Props
open Fl Res

/-- The size check of a field: no rows, or the rows of the grid with a first row of its columns. -/
def FieldFits {α : Type} (Y X : Nat) (v : List (List α)) : Prop := v = [] ∨ (v.length = Y ∧ ∀ r ∈ v.head?, r.length = X)

/-- The coordinates of a location are usable: numbers, and a latitude between -90.001 and 90.001 degrees. -/
def LocationOk {K : Type} [Field K] [LinearOrder K] (type : CoordType) (lat lon : Fl K) : Prop :=
  ∃ a o, lat = fin a ∧ lon = fin o ∧ (type = .geodetic → -(90001 / 1000) ≤ a ∧ a ≤ 90001 / 1000)

theorem raises_mapM {α β : Type} {f : α → Res β} {l : List α} (h : ∀ a ∈ l, (∃ b, f a = ok b) ∨ Raises (f a)) :
    Raises (mapM f l) ↔ ∃ a ∈ l, Raises (f a) := by
  induction l with
  | nil => simp [mapM, not_raises_ok]
  | cons a t ih =>
    rw [mapM_cons]
    have ih := ih fun b hb => h b (List.mem_cons_of_mem _ hb)
    rcases h a (by simp) with ⟨b, hb⟩ | hr
    · rw [hb, ok_bind]
      have h1 : ¬ Raises (f a) := by rw [hb]; exact not_raises_ok _
      have h2 : Raises (do let bs ← mapM f t; ok (b :: bs)) ↔ Raises (mapM f t) := by
        cases mapM f t with
        | ok v => exact ⟨fun h => absurd h (not_raises_ok _), fun h => absurd h (not_raises_ok _)⟩
        | throw e => exact ⟨fun _ => ⟨e, rfl⟩, fun _ => ⟨e, rfl⟩⟩
        | abort => exact ⟨fun h => absurd h not_raises_abort, fun h => absurd h not_raises_abort⟩
        | ub => exact ⟨fun h => absurd h not_raises_ub, fun h => absurd h not_raises_ub⟩
      rw [h2, ih]
      simp [h1]
    · obtain ⟨e, he⟩ := hr
      constructor
      · intro _; exact ⟨a, by simp, e, he⟩
      · intro _; rw [he]; exact ⟨e, rfl⟩

section
variable {K : Type} [Field K] [LinearOrder K] [IsStrictOrderedRing K] [FloorRing K]

theorem raises_convert [HasGeo K] (lat lon : Fl K) (type : CoordType) :
    (LocationOk type lat lon → ∃ p, convertCoordinates lat lon type = ok p) ∧
    (¬ LocationOk type lat lon → Raises (convertCoordinates lat lon type)) := by
  constructor
  · rintro ⟨a, o, rfl, rfl, h⟩
    unfold convertCoordinates
    rw [if_neg]
    · exact ⟨_, rfl⟩
    · cases type
      · obtain ⟨h1, h2⟩ := h rfl
        simp [isValidLat, isValidLon, h1, h2]
      · simp [isValidLat, isValidLon]
  · intro h
    unfold convertCoordinates
    rw [raises_if]
    left
    by_contra hc
    apply h
    simp only [Bool.or_eq_true, Bool.not_eq_true', not_or, Bool.not_eq_false] at hc
    obtain ⟨h1, h2⟩ := hc
    cases lon with
    | fin o =>
      cases lat with
      | fin a =>
        refine ⟨a, o, rfl, rfl, ?_⟩
        rintro rfl
        simpa [isValidLat] using h1
      | _ => cases type <;> simp [isValidLat] at h1
    | _ => simp [isValidLon] at h2

/-- The constructor of `Points` raises an exception exactly for sizes that do not fit and for unusable locations; it never
terminates the process and reads nothing outside its arguments. -/
theorem c67_points [HasGeo K] (lats lons elevs lafs : List (Fl K)) (type : CoordType) :
    (Raises (Points.new lats lons elevs lafs type) ↔
      lons.length ≠ lats.length ∨ (elevs.length ≠ 0 ∧ elevs.length ≠ lats.length) ∨ (lafs.length ≠ 0 ∧ lafs.length ≠ lats.length) ∨
        ∃ (i : Nat) (la lo : Fl K), lats[i]? = some la ∧ lons[i]? = some lo ∧ ¬ LocationOk type la lo) ∧
    (Raises (Points.new lats lons elevs lafs type) ∨ ∃ p, Points.new lats lons elevs lafs type = ok p) := by
  by_cases hl : lons.length = lats.length
  · have hcell : ∀ (i : Nat) (h1 : i < lats.length) (h2 : i < lons.length), (do
        let lat ← vget lats (i : Int)
        let lon ← vget lons (i : Int)
        convertCoordinates lat lon type) = convertCoordinates lats[i] lons[i] type := by
      intro i h1 h2
      rw [vget_eq_ok_of_lt h1, ok_bind, vget_eq_ok_of_lt h2, ok_bind]
    have hm := raises_mapM (f := fun i : Nat => do
        let lat ← vget lats (i : Int)
        let lon ← vget lons (i : Int)
        convertCoordinates lat lon type) (l := List.range lats.length) (by
      intro i hi
      have h1 : i < lats.length := List.mem_range.mp hi
      rw [hcell i h1 (by omega)]
      by_cases hok : LocationOk type lats[i] (lons[i]'(by omega))
      · exact Or.inl ((raises_convert _ _ _).1 hok)
      · exact Or.inr ((raises_convert _ _ _).2 hok))
    have hex : (∃ a ∈ List.range lats.length, Raises (do
        let lat ← vget lats (a : Int)
        let lon ← vget lons (a : Int)
        convertCoordinates lat lon type)) ↔
        ∃ (i : Nat) (la lo : Fl K), lats[i]? = some la ∧ lons[i]? = some lo ∧ ¬ LocationOk type la lo := by
      constructor
      · rintro ⟨i, hi, hr⟩
        have h1 : i < lats.length := List.mem_range.mp hi
        rw [hcell i h1 (by omega)] at hr
        refine ⟨i, lats[i], lons[i]'(by omega), by simp [h1], by simp, fun hok => ?_⟩
        obtain ⟨p, hp⟩ := (raises_convert _ _ _).1 hok
        rw [hp] at hr
        exact not_raises_ok _ hr
      · rintro ⟨i, la, lo, e1, e2, hn⟩
        obtain ⟨h1, rfl⟩ := List.getElem?_eq_some_iff.mp e1
        obtain ⟨h2, rfl⟩ := List.getElem?_eq_some_iff.mp e2
        exact ⟨i, List.mem_range.mpr h1, by rw [hcell i h1 h2]; exact (raises_convert _ _ _).2 hn⟩
    have hall : (∀ a ∈ List.range lats.length, ¬ Raises (do
        let lat ← vget lats (a : Int)
        let lon ← vget lons (a : Int)
        convertCoordinates lat lon type)) → ∃ v, mapM (fun i : Nat => do
        let lat ← vget lats (i : Int)
        let lon ← vget lons (i : Int)
        convertCoordinates lat lon type) (List.range lats.length) = ok v := by
      intro h
      apply mapM_exists
      intro i hi
      have h1 : i < lats.length := List.mem_range.mp hi
      have := h i hi
      rw [hcell i h1 (by omega)] at this ⊢
      by_contra hc
      exact this ((raises_convert _ _ _).2 fun hok => hc ((raises_convert _ _ _).1 hok))
    unfold Points.new KDTree.new
    rw [← hex]
    rw [raises_if, raises_if, raises_if]
    have hb : ∀ r : Res (List (Pt3 K)), (Raises (do
        let tree ← (do let pts ← r; ok (⟨lats, lons, pts, type⟩ : KDTree K))
        ok ({ lats, lons, elevs := if elevs.length ≠ lats.length then List.replicate lats.length MV else elevs,
              lafs := if lafs.length ≠ lats.length then List.replicate lats.length MV else lafs, tree } : Points K)) ↔ Raises r) := by
      intro r
      cases r with
      | ok v => exact ⟨fun h => absurd h (not_raises_ok _), fun h => absurd h (not_raises_ok _)⟩
      | throw e => exact ⟨fun _ => ⟨e, rfl⟩, fun _ => ⟨e, rfl⟩⟩
      | abort => exact ⟨fun h => absurd h not_raises_abort, fun h => absurd h not_raises_abort⟩
      | ub => exact ⟨fun h => absurd h not_raises_ub, fun h => absurd h not_raises_ub⟩
    constructor
    · rw [hb, hm]
    · rw [hb, hm]
      by_cases c2 : elevs.length ≠ 0 ∧ elevs.length ≠ lats.length
      · exact Or.inl (Or.inr (Or.inl c2))
      · by_cases c3 : lafs.length ≠ 0 ∧ lafs.length ≠ lats.length
        · exact Or.inl (Or.inr (Or.inr (Or.inl c3)))
        · by_cases c4 : ∃ a ∈ List.range lats.length, Raises (do
              let lat ← vget lats (a : Int)
              let lon ← vget lons (a : Int)
              convertCoordinates lat lon type)
          · exact Or.inl (Or.inr (Or.inr (Or.inr c4)))
          · right
            push Not at c4
            obtain ⟨v, hv⟩ := hall c4
            rw [if_neg (by simp [hl]), if_neg c2, if_neg c3, hv]
            exact ⟨_, rfl⟩
  · unfold Points.new
    rw [raises_if]
    exact ⟨by simp [hl], Or.inl (Or.inl hl)⟩

/-! ## Distances and gridding -/

theorem not_raises_getIndices (g : Grid K) (i : Nat) : ¬ Raises (g.getIndices i) := by
  unfold Grid.getIndices
  no_raise

theorem not_raises_size (g : Grid K) : ¬ Raises g.size := by
  unfold Grid.size
  split
  · exact not_raises_bind (not_raises_getIndices _ _) fun _ => not_raises_ok _
  · exact not_raises_ok _

/-- The distance functions raise an exception exactly for different coordinate types. -/
theorem c67_distance [HasGeo K] [HasSqrt K] [HasArc K] (T : RTree K) (g h : Grid K) (p q : Points K) (num : Int) :
    (Raises (distanceGP T g p num) ↔ g.type ≠ p.type) ∧ (Raises (distanceGG T g h num) ↔ g.type ≠ h.type) ∧
    (Raises (distancePG T p g num) ↔ p.type ≠ g.type) ∧ (Raises (distancePP T p q num) ↔ p.type ≠ q.type) := by
  refine ⟨?_, ?_, ?_, ?_⟩
  · unfold distanceGP; rw [raises_if, raises_iff_of_not (c67_parallel _)]
  · unfold distanceGG; rw [raises_if, raises_iff_of_not (not_raises_bind (not_raises_size _) fun _ => c67_parallel _)]
  · unfold distancePG; rw [raises_if, raises_iff_of_not (not_raises_bind (not_raises_size _) fun _ => c67_parallel _)]
  · unfold distancePP; rw [raises_if, raises_iff_of_not (c67_parallel _)]

theorem raises_bind_unit {α : Type} {r : Res Unit} {s : Res α} (h : ¬ Raises s) : Raises (do r; s) ↔ Raises r := by
  cases r with
  | ok v => exact ⟨fun h' => absurd h' h, fun h' => absurd h' (not_raises_ok _)⟩
  | throw e => exact ⟨fun _ => ⟨e, rfl⟩, fun _ => ⟨e, rfl⟩⟩
  | abort => exact ⟨fun h => absurd h not_raises_abort, fun h => absurd h not_raises_abort⟩
  | ub => exact ⟨fun h => absurd h not_raises_ub, fun h => absurd h not_raises_ub⟩

/-- `gridding` raises an exception exactly for a wrong number of values, an unusable radius and a negative minimum; not for a
statistic (`c67_gridding`: that terminates the process). -/
theorem c67_gridding_raises [HasGeo K] [HasSqrt K] (T : RTree K) (rnd : Rnd K) (g : Grid K) (p q : Points K) (values : List (Fl K))
    (radius : Fl K) (minNum : Int) (s : Statistic) :
    (Raises (griddingG T rnd g p values radius minNum s) ↔
      p.lats.length ≠ values.length ∨ (radius.isValid = false ∨ radius.lt 0 = true) ∨ minNum < 0) ∧
    (Raises (griddingP T rnd q p values radius minNum s) ↔
      p.lats.length ≠ values.length ∨ (radius.isValid = false ∨ radius.lt 0 = true) ∨ minNum < 0) := by
  have hc : Raises (griddingChecks p values radius minNum) ↔
      p.lats.length ≠ values.length ∨ (radius.isValid = false ∨ radius.lt 0 = true) ∨ minNum < 0 := by
    unfold griddingChecks
    rw [raises_if, raises_if, raises_if, raises_iff_of_not (not_raises_ok _)]
    unfold compatibleSizeP1
    rw [decide_eq_false_iff_not]
    rfl
  rw [← hc]
  constructor
  · unfold griddingG
    exact raises_bind_unit (not_raises_bind (not_raises_size _) fun _ => c67_parallel _)
  · unfold griddingP
    exact raises_bind_unit (c67_parallel _)

/-! ## Searches for usable locations -/

theorem not_raises_indices (g : Grid K) (l : List Nat) : ¬ Raises (g.getIndicesVec l) :=
  not_raises_mapM _ fun _ => not_raises_getIndices _ _

theorem not_raises_neighbours [HasGeo K] [HasSqrt K] (T : RTree K) {g : Grid K} {la lo : Fl K} (r : Fl K) (b : Bool)
    (h : LocationOk g.type la lo) : ¬ Raises (g.getNeighbours T la lo r b) := by
  unfold Grid.getNeighbours KDTree.getNeighbours
  obtain ⟨p, hp⟩ := (raises_convert la lo g.type).1 h
  unfold Grid.type at hp
  rw [hp]
  exact not_raises_indices _ _

theorem not_raises_nearestCell [HasGeo K] (T : RTree K) {g : Grid K} {la lo : Fl K} (h : LocationOk g.type la lo) :
    ¬ Raises (nearestCell T g la lo) := by
  unfold nearestCell Grid.getNearestNeighbour Grid.getClosestNeighbours KDTree.getClosestNeighbours
  obtain ⟨p, hp⟩ := (raises_convert la lo g.type).1 h
  unfold Grid.type at hp
  rw [hp, ok_bind]
  refine not_raises_bind (not_raises_bind (not_raises_bind ?_ fun _ => not_raises_indices _ _) fun _ => not_raises_ok _) fun _ => ?_
  · no_raise
  · split
    · exact not_raises_ub
    · exact not_raises_ok _

theorem not_raises_vget_bind {α β : Type} (v : List α) (i : Int) {f : α → Res β} (h : ∀ n : Nat, i = n → ∀ a, v[n]? = some a → ¬ Raises (f a)) :
    ¬ Raises (do let a ← vget v i; f a) := by
  cases hr : vget v i with
  | ok a =>
    rw [ok_bind]
    unfold vget at hr
    split_ifs at hr with h0
    obtain ⟨n, rfl⟩ := Int.eq_ofNat_of_zero_le (not_lt.mp h0)
    cases hv : v[n]? with
    | none => simp [hv] at hr
    | some b =>
      simp only [Int.toNat_natCast, hv, ok.injEq] at hr
      subst hr
      exact h n rfl b hv
  | throw e => exact absurd (⟨e, hr⟩ : Raises (vget v i)) (not_raises_vget _ _)
  | abort => exact not_raises_abort
  | ub => exact not_raises_ub

theorem not_raises_paint (f : Int → Int → Res (Option (Fl K))) (hf : ∀ y x, ¬ Raises (f y x)) (o : List (List (Fl K))) (cells : List (Int × Int)) :
    ¬ Raises (paint f o cells) := by
  unfold paint
  refine not_raises_foldM _ _ fun _ _ => not_raises_bind (hf _ _) fun v => ?_
  cases v
  · exact not_raises_ok _
  · exact not_raises_vset2 _ _ _ _

theorem compatible_iff [HasGeo K] {α : Type} {g : Grid K} {Y X : Nat} {lats lons : List (List (Fl K))} {type : CoordType}
    (hg : BuiltGrid g Y X lats lons type) (v : List (List α)) : ∃ c, compatibleSizeG2 g v = ok c ∧ (c = false ↔ ¬ FieldFits Y X v) := by
  cases v with
  | nil => exact ⟨true, rfl, by simp [FieldFits]⟩
  | cons r t =>
    refine ⟨_, by unfold compatibleSizeG2; rw [hg.wf.1.size]; rfl, ?_⟩
    simp only [FieldFits, List.head?_cons, Option.mem_def, Option.some.injEq, forall_eq', reduceCtorEq, false_or]
    rw [Bool.and_eq_false_iff, decide_eq_false_iff_not, decide_eq_false_iff_not, not_and_or, eq_comm (a := Y), eq_comm (a := X)]

/-- Every point of the list has a location that is usable in the coordinate type. -/
def AllUsable (type : CoordType) (p : Points K) : Prop :=
  ∀ (i : Nat) (la lo : Fl K), p.lats[i]? = some la → p.lons[i]? = some lo → LocationOk type la lo

/-- `fill`, `doping_square` and `doping_circle` raise an exception exactly for sizes that do not fit and negative radii, widths
and elevation differences, if the locations of the points are usable in the coordinate type of the grid. -/
theorem c67_fill [HasGeo K] [HasSqrt K] (T : RTree K) {g : Grid K} {Y X : Nat} {glats glons : List (List (Fl K))} {type : CoordType}
    (hg : BuiltGrid g Y X glats glons type) (field : List (List (Fl K))) (p : Points K) (hp : AllUsable type p) (obs radii : List (Fl K))
    (widths : List Int) (value maxDiff : Fl K) (outside : Bool) :
    (Raises (fill T g field p radii value outside) ↔
      ¬ FieldFits Y X field ∨ p.lats.length ≠ radii.length ∨ ∃ r ∈ radii, r.lt 0 = true) ∧
    (Raises (dopingSquare T g field p obs widths maxDiff) ↔
      ¬ FieldFits Y X field ∨ p.lats.length ≠ obs.length ∨ p.lats.length ≠ widths.length ∨
        (maxDiff.isValid = true ∧ maxDiff.lt 0 = true) ∨ ∃ w ∈ widths, w < 0) ∧
    (Raises (dopingCircle T g field p obs radii maxDiff) ↔
      ¬ FieldFits Y X field ∨ p.lats.length ≠ obs.length ∨ p.lats.length ≠ radii.length ∨
        (maxDiff.isValid = true ∧ maxDiff.lt 0 = true) ∨ ∃ r ∈ radii, r.lt 0 = true) := by
  obtain ⟨c, hc, hcf⟩ := compatible_iff hg field
  obtain ⟨hw, -, -, ht⟩ := hg.wf
  have hgt : g.type = type := ht
  have hdope : ∀ curr (i y x : Int), ¬ Raises (dopeValue g.elevs p.elevs maxDiff curr i y x) := by
    intro curr i y x
    unfold dopeValue
    no_raise
  refine ⟨?_, ?_, ?_⟩
  · unfold fill
    rw [hc, ok_bind, raises_if, raises_if, raises_if, raises_iff_of_not, hcf]
    · simp [Points.size]
    · refine not_raises_foldM _ _ fun o i => ?_
      unfold fillPoint
      refine not_raises_vget_bind _ _ fun n hn la hla => not_raises_vget_bind _ _ fun m hm lo hlo => ?_
      obtain rfl : m = n := by omega
      refine not_raises_bind (not_raises_vget _ _) fun r => not_raises_bind ?_ fun I => ?_
      · exact not_raises_neighbours T r true (by rw [hgt]; exact hp m la lo hla hlo)
      · refine not_raises_paint _ (fun y x => ?_) _ _
        unfold fillValue
        no_raise
  · unfold dopingSquare
    rw [hc, ok_bind, raises_if, raises_if, raises_if, raises_if, hw.size, ok_bind, raises_if, raises_iff_of_not, hcf]
    · simp [Points.size]
    · refine not_raises_foldM _ _ fun o i => ?_
      unfold dopeSquarePoint
      refine not_raises_vget_bind _ _ fun n hn la hla => not_raises_vget_bind _ _ fun m hm lo hlo => ?_
      obtain rfl : m = n := by omega
      refine not_raises_bind ?_ fun I => not_raises_bind (not_raises_vget _ _) fun r => not_raises_bind (not_raises_vget _ _) fun _ => ?_
      · exact not_raises_nearestCell T (by rw [hgt]; exact hp m la lo hla hlo)
      · exact not_raises_paint _ (hdope _ _) _ _
  · unfold dopingCircle
    rw [hc, ok_bind, raises_if, raises_if, raises_if, raises_if, raises_if, raises_iff_of_not, hcf]
    · simp [Points.size]
    · refine not_raises_foldM _ _ fun o i => ?_
      unfold dopeCirclePoint
      refine not_raises_vget_bind _ _ fun n hn la hla => not_raises_vget_bind _ _ fun m hm lo hlo => ?_
      obtain rfl : m = n := by omega
      refine not_raises_bind (not_raises_vget _ _) fun r => not_raises_bind ?_ fun I => not_raises_bind (not_raises_vget _ _) fun _ => ?_
      · exact not_raises_neighbours T r true (by rw [hgt]; exact hp m la lo hla hlo)
      · exact not_raises_paint _ (hdope _ _) _ _

/-! ## Downscaling -/

/-- `nearest`, `bilinear` and `downscaling` of a field raise an exception exactly for a field that does not fit (and
`downscaling` for an unknown method); unusable locations of the output are not among them. -/
theorem c67_downscaling [HasGeo K] [HasSqrt K] (T : RTree K) {g : Grid K} {Y X : Nat} {glats glons : List (List (Fl K))} {type : CoordType}
    (hg : BuiltGrid g Y X glats glons type) (og : Grid K) (op : Points K) (field : List (List (Fl K))) (d : Downscaler) :
    (Raises (nearestGG2 T g og field) ↔ ¬ FieldFits Y X field) ∧ (Raises (nearestGP2 T g op field) ↔ ¬ FieldFits Y X field) ∧
    (Raises (bilinearGG2 T g og field) ↔ ¬ FieldFits Y X field) ∧ (Raises (bilinearGP2 T g op field) ↔ ¬ FieldFits Y X field) ∧
    (Raises (downscalingGG2 T d g og field) ↔ ¬ FieldFits Y X field ∨ d = .other) ∧
    (Raises (downscalingGP2 T d g op field) ↔ ¬ FieldFits Y X field ∨ d = .other) := by
  obtain ⟨c, hc, hcf⟩ := compatible_iff hg field
  obtain ⟨hw, -, -, ht⟩ := hg.wf
  have h1 : Raises (nearestGG2 T g og field) ↔ ¬ FieldFits Y X field := by
    unfold nearestGG2
    rw [hc, ok_bind, raises_if, raises_iff_of_not, hcf]
    exact not_raises_bind (not_raises_vget _ _) fun _ => not_raises_bind (not_raises_size _) fun _ => by no_raise
  have h2 : Raises (nearestGP2 T g op field) ↔ ¬ FieldFits Y X field := by
    unfold nearestGP2
    rw [hc, ok_bind, raises_if, raises_iff_of_not, hcf]
    exact not_raises_bind (not_raises_size _) fun _ => by no_raise
  have h3 : Raises (bilinearGG2 T g og field) ↔ ¬ FieldFits Y X field := by
    unfold bilinearGG2
    rw [hc, ok_bind, raises_if, raises_iff_of_not, hcf]
    exact not_raises_bind (not_raises_vget _ _) fun _ => not_raises_bind (not_raises_size _) fun _ => by no_raise
  have h4 : Raises (bilinearGP2 T g op field) ↔ ¬ FieldFits Y X field := by
    unfold bilinearGP2
    rw [hc, ok_bind, raises_if, raises_iff_of_not, hcf]
    exact not_raises_bind (not_raises_size _) fun _ => by no_raise
  refine ⟨h1, h2, h3, h4, ?_, ?_⟩
  · unfold downscalingGG2
    rw [hc, ok_bind, raises_if, hcf]
    cases d
    · simp [h1]
    · simp [h3]
    · simp only [or_true, iff_true]
      exact Or.inr ⟨_, rfl⟩
  · unfold downscalingGP2
    rw [hc, ok_bind, raises_if, hcf]
    cases d
    · simp [h2]
    · simp [h4]
    · simp only [or_true, iff_true]
      exact Or.inr ⟨_, rfl⟩

/-- An output location that is unusable in the coordinate type of the input grid terminates the process: `nearest` from a grid
to points ends that way exactly if one of the points has such a location, if the field fits and is a rectangle. -/
theorem c67_nearest_terminates [HasGeo K] [LawfulSqrt K] {T : RTree K} (hT : T.Lawful) {g : Grid K} {Y X : Nat} {glats glons : List (List (Fl K))}
    {type : CoordType} (hg : BuiltGrid g Y X glats glons type) {op : Points K} {lats lons : List (Fl K)} {otype : CoordType}
    (hp : BuiltPoints op lats lons otype) {field : List (List (Fl K))} (hf : Rect Y X field) :
    nearestGP2 T g op field = abort ↔ ∃ (i : Nat) (la lo : Fl K), lats[i]? = some la ∧ lons[i]? = some lo ∧ ¬ LocationOk type la lo := by
  obtain ⟨c, hc, hcf⟩ := compatible_iff hg field
  obtain ⟨hw, h1, h2, ht⟩ := hg.wf
  obtain ⟨p1, p2, -, -, -, -, p7⟩ := hp.wf
  have hcell : ∀ (i : Nat) (hi : i < lats.length) (hi2 : i < lons.length), ∀ r, (do
      let la ← vget op.lats (i : Int)
      let lo ← vget op.lons (i : Int)
      let c ← nearestCell T g la lo
      vget2 field c.1 c.2) = r → (LocationOk type lats[i] lons[i] → ∃ b, r = ok b) ∧ (¬ LocationOk type lats[i] lons[i] → Raises r) := by
    rintro i hi hi2 r rfl
    rw [p1, p2, vget_eq_ok_of_lt hi, ok_bind, vget_eq_ok_of_lt hi2, ok_bind]
    constructor
    · intro hok
      obtain ⟨cc, hcc, hy, hx, -⟩ := nearestCell_to hT hg ((raises_convert lats[i] lons[i] type).1 hok)
      rw [hcc, ok_bind]
      obtain ⟨v, -, hv⟩ := vget2_of_rect hf hy hx
      exact ⟨v, hv⟩
    · intro hn
      obtain ⟨e, he⟩ := (raises_convert lats[i] lons[i] type).2 hn
      unfold nearestCell Grid.getNearestNeighbour Grid.getClosestNeighbours KDTree.getClosestNeighbours
      rw [ht, he]
      exact ⟨e, rfl⟩
  have hfit : FieldFits Y X field := by
    right
    refine ⟨hf.1, fun r hr => hf.2 r ?_⟩
    cases field with
    | nil => simp at hr
    | cons a t => simp at hr; simp [hr]
  unfold nearestGP2
  rw [hc, ok_bind, if_neg (by rw [hcf]; simpa using hfit), hw.size, ok_bind, if_neg (by have := hw.hY; have := hw.hX; simp; omega)]
  have hmem : ∀ a : Int, a ∈ upto lats.length ↔ ∃ i : Nat, i < lats.length ∧ a = i := by
    intro a
    simp only [upto, List.mem_map, List.mem_range]
    constructor
    · rintro ⟨i, hi, rfl⟩; exact ⟨i, hi, rfl⟩
    · rintro ⟨i, hi, rfl⟩; exact ⟨i, hi, rfl⟩
  rw [p1] at hcell ⊢
  rw [(c67_loop _ _ ?_).1]
  · constructor
    · rintro ⟨a, ha, hr⟩
      obtain ⟨i, hi, rfl⟩ := (hmem a).mp ha
      refine ⟨i, lats[i], lons[i]'(by omega), by simp [hi], by simp, fun hok => ?_⟩
      obtain ⟨b, hb⟩ := (hcell i hi (by omega) _ rfl).1 hok
      rw [hb] at hr
      exact not_raises_ok _ hr
    · rintro ⟨i, la, lo, e1, e2, hn⟩
      obtain ⟨h1, rfl⟩ := List.getElem?_eq_some_iff.mp e1
      obtain ⟨h2, rfl⟩ := List.getElem?_eq_some_iff.mp e2
      exact ⟨i, (hmem _).mpr ⟨i, h1, rfl⟩, (hcell i h1 h2 _ rfl).2 hn⟩
  · intro a ha
    obtain ⟨i, hi, rfl⟩ := (hmem a).mp ha
    by_cases hok : LocationOk type lats[i] (lons[i]'(by omega))
    · exact Or.inl ((hcell i hi (by omega) _ rfl).1 hok)
    · exact Or.inr ((hcell i hi (by omega) _ rfl).2 hok)

/-! ## Observations -/

theorem not_raises_bind_ok {α β : Type} {r : Res α} {f : α → Res β} (hr : ¬ Raises r) (hf : ∀ a, r = ok a → ¬ Raises (f a)) :
    ¬ Raises (do let a ← r; f a) := by
  cases r with
  | ok a => exact hf a rfl
  | throw e => exact absurd ⟨e, rfl⟩ hr
  | abort => rintro ⟨e, h⟩; cases h
  | ub => rintro ⟨e, h⟩; cases h

theorem not_raises_getPoint (p : Points K) (i : Int) : ¬ Raises (p.getPoint i) := by
  unfold Points.getPoint
  no_raise

/-- The functions of observations at points raise an exception exactly for a negative number of points, different coordinate
types and sizes that do not fit. What goes wrong for an output point (a structure function that rejects its arguments, a matrix
without inverse) is not among them. The size of `pbackground` is not looked at. -/
theorem c67_oi [HasGeo K] [HasSqrt K] [HasExp K] (T : RTree K) (A : Arma K) (bp points : Points K)
    (background bvar pobs obsVar ratios pbg bvarAt var0 : List (Fl K)) (s : SF K) (maxPoints : Int) (extrap : Bool) :
    (Raises (oiFullPoints T A bp background bvar points pobs obsVar pbg bvarAt s maxPoints var0 extrap) ↔
      maxPoints < 0 ∨ bp.type ≠ points.type ∨ background.length ≠ bp.size ∨ background.length ≠ bvar.length ∨ pobs.length ≠ points.size ∨
        obsVar.length ≠ points.size ∨ bvarAt.length ≠ points.size) ∧
    (Raises (oiPoints T A bp background points pobs ratios pbg s maxPoints extrap) ↔
      maxPoints < 0 ∨ bp.type ≠ points.type ∨ background.length ≠ bp.size ∨ pobs.length ≠ points.size ∨ ratios.length ≠ points.size) ∧
    (Raises (staticcorrPoints T A bp points s maxPoints) ↔ maxPoints < 0 ∨ bp.type ≠ points.type) := by
  have hfull : ∀ bvar obsVar bvarAt var0, Raises (oiFullPoints T A bp background bvar points pobs obsVar pbg bvarAt s maxPoints var0 extrap) ↔
      maxPoints < 0 ∨ bp.type ≠ points.type ∨ background.length ≠ bp.size ∨ background.length ≠ bvar.length ∨ pobs.length ≠ points.size ∨
        obsVar.length ≠ points.size ∨ bvarAt.length ≠ points.size := by
    intro bvar obsVar bvarAt var0
    unfold oiFullPoints
    rw [raises_if, raises_if, raises_if, raises_if, raises_if, raises_if, raises_if, raises_iff_of_not]
    split
    · exact not_raises_ok _
    · refine not_raises_bind (by no_raise) fun _ => not_raises_bind (not_raises_mapM _ fun _ => not_raises_getPoint _ _) fun _ => ?_
      exact not_raises_bind (c67_parallel _) fun _ => not_raises_ok _
  refine ⟨hfull _ _ _ _, ?_, ?_⟩
  · unfold oiPoints
    rw [raises_if, raises_if, raises_if, raises_if, raises_if]
    by_cases hr : Raises (oiFullPoints T A bp background (List.replicate background.length 1) points pobs ratios pbg
      (List.replicate ratios.length 1) s maxPoints [] extrap)
    · rw [hfull] at hr
      simp only [List.length_replicate, ne_eq, not_true_eq_false, false_or] at hr
      constructor
      · rintro (h | h | h | h | h | h)
        · exact Or.inl h
        · exact Or.inr (Or.inl h)
        · exact Or.inr (Or.inr (Or.inl h))
        · exact Or.inr (Or.inr (Or.inr (Or.inl h)))
        · exact Or.inr (Or.inr (Or.inr (Or.inr h)))
        · rcases hr with h | h | h | h | h | h
          · exact Or.inl h
          · exact Or.inr (Or.inl h)
          · exact Or.inr (Or.inr (Or.inl h))
          · exact Or.inr (Or.inr (Or.inr (Or.inl h)))
          · exact Or.inr (Or.inr (Or.inr (Or.inr h)))
          · exact Or.inr (Or.inr (Or.inr (Or.inr h)))
      · rintro (h | h | h | h | h)
        · exact Or.inl h
        · exact Or.inr (Or.inl h)
        · exact Or.inr (Or.inr (Or.inl h))
        · exact Or.inr (Or.inr (Or.inr (Or.inl h)))
        · exact Or.inr (Or.inr (Or.inr (Or.inr (Or.inl h))))
    · rw [raises_iff_of_not (not_raises_bind hr fun _ => not_raises_ok _)]
  · unfold staticcorrPoints
    rw [raises_if, raises_if, raises_iff_of_not]
    exact not_raises_bind (not_raises_mapM _ fun _ => not_raises_getPoint _ _) fun _ => c67_parallel _

/-- `optimal_interpolation` of a field of at least one row: the exceptions. -/
theorem c67_oi_grid [HasGeo K] [HasSqrt K] [HasExp K] (T : RTree K) (A : Arma K) {g : Grid K} {Y X : Nat} {glats glons : List (List (Fl K))}
    {type : CoordType} (hg : BuiltGrid g Y X glats glons type) (row : List (Fl K)) (rows : List (List (Fl K))) (points : Points K)
    (pobs ratios pbg : List (Fl K)) (s : SF K) (maxPoints : Int) (extrap : Bool) :
    Raises (oiGrid T A g (row :: rows) points pobs ratios pbg s maxPoints extrap) ↔
      maxPoints < 0 ∨ type ≠ points.type ∨ (rows.length + 1 ≠ Y ∨ row.length ≠ X) ∨ pobs.length ≠ points.size ∨ ratios.length ≠ points.size ∨
        pbg.length ≠ points.size := by
  obtain ⟨hw, h1, h2, ht⟩ := hg.wf
  have hgt : g.type = type := ht
  unfold oiGrid oiCheckSize
  rw [raises_if, raises_if, hgt, hw.size]
  by_cases hmp : maxPoints < 0
  · simp [hmp]
  simp only [hmp, false_or]
  by_cases hty : type ≠ points.type
  · simp [hty]
  refine or_congr_right ?_
  simp only [ok_bind]
  have hv0 : vget (row :: rows) 0 = ok row := rfl
  rw [hv0]
  simp only [ok_bind, List.length_cons]
  by_cases hsz : rows.length + 1 ≠ Y ∨ row.length ≠ X
  · rw [if_pos hsz]
    exact ⟨fun _ => Or.inl hsz, fun _ => ⟨_, rfl⟩⟩
  · rw [if_neg hsz, ok_bind, raises_if, raises_if, raises_if]
    simp only [hsz, false_or]
    by_cases hob : pobs.length ≠ points.size
    · simp [hob]
    by_cases hra : ratios.length ≠ points.size
    · simp [hra]
    by_cases hbg : pbg.length ≠ points.size
    · simp [hbg]
    simp only [hob, hra, hbg, false_or, iff_false]
    push Not at hsz hob hra
    obtain ⟨rfl, rfl⟩ := hsz
    refine not_raises_bind_ok ?_ fun bp hbp => not_raises_bind_ok ?_ fun b1 hb1 => not_raises_bind ?_ fun o1 => ?_
    · unfold Grid.toPoints
      refine not_raises_bind (not_raises_size _) fun _ => ?_
      no_raise
    · no_raise
    · have hbt : bp.type = type ∧ bp.size = (rows.length + 1) * row.length := by
        unfold Grid.toPoints at hbp
        obtain ⟨n, -, hbp⟩ := bind_eq_ok.mp hbp
        obtain ⟨e, -, hbp⟩ := bind_eq_ok.mp hbp
        obtain ⟨l, -, hbp⟩ := bind_eq_ok.mp hbp
        cases hbp
        exact ⟨ht, hw.tree_size⟩
      have hlen := flatten_length (grid2_eq_ok hb1).1
      rw [(c67_oi T A bp points b1.flatten [] pobs [] ratios pbg [] [] s maxPoints extrap).2.1]
      rw [hbt.1, hbt.2, hlen]
      simp only [ne_eq, not_true_eq_false, hob, hra, or_false]
      rintro (h | h)
      · exact hmp h
      · exact hty h
    · unfold unflatten
      no_raise

/-- `gamma_inv` with vectors of the same size raises an exception exactly for a level outside [0, 1] and for a shape or scale
that is not positive. -/
theorem c67_gamma_inv (mk : Fl K → Fl K → Dist K) (levels shape scale : List (Fl K)) (h1 : levels.length = shape.length)
    (h2 : scale.length = shape.length) :
    Raises (gammaInv mk levels shape scale) ↔ ∃ (i : Nat) (l a s : Fl K), levels[i]? = some l ∧ shape[i]? = some a ∧ scale[i]? = some s ∧
      ((∀ q : K, l = fin q → q < 0 ∨ 1 < q) ∨ (∀ q : K, a = fin q → q ≤ 0) ∨ (∀ q : K, s = fin q → q ≤ 0)) := by
  have hchk : ∀ l a s : Fl K, (Raises (gammaInvCheck l a s) ↔
      ((∀ q : K, l = fin q → q < 0 ∨ 1 < q) ∨ (∀ q : K, a = fin q → q ≤ 0) ∨ (∀ q : K, s = fin q → q ≤ 0))) ∧
      ((∃ u, gammaInvCheck l a s = ok u) ∨ Raises (gammaInvCheck l a s)) := by
    intro l a s
    constructor
    · unfold gammaInvCheck
      rw [raises_if, raises_if, raises_if, raises_iff_of_not (not_raises_ok _)]
      refine or_congr ?_ (or_congr ?_ ?_)
      · cases l <;> simp
      · cases a <;> simp
      · cases s <;> simp
    · unfold gammaInvCheck
      split_ifs
      · exact Or.inr ⟨_, rfl⟩
      · exact Or.inr ⟨_, rfl⟩
      · exact Or.inr ⟨_, rfl⟩
      · exact Or.inl ⟨_, rfl⟩
  have hcell : ∀ (i : Nat) (hi : i < shape.length), (do
      let l ← vget levels i
      let a ← vget shape i
      let s ← vget scale i
      gammaInvCheck l a s) = gammaInvCheck (levels[i]'(by omega)) shape[i] (scale[i]'(by omega)) := by
    intro i hi
    rw [vget_eq_ok_of_lt (by omega), ok_bind, vget_eq_ok_of_lt hi, ok_bind, vget_eq_ok_of_lt (by omega), ok_bind]
  have hm := raises_mapM (f := fun i : Nat => do
      let l ← vget levels i
      let a ← vget shape i
      let s ← vget scale i
      gammaInvCheck l a s) (l := List.range shape.length) (by
    intro i hi
    rw [hcell i (List.mem_range.mp hi)]
    exact (hchk _ _ _).2)
  unfold gammaInv
  have hb : ∀ (r : Res (List Unit)) (t : Res (List (Fl K))), ¬ Raises t → (Raises (do let _ ← r; t) ↔ Raises r) := by
    intro r t htt
    cases r with
    | ok v => exact ⟨fun h' => absurd h' htt, fun h' => absurd h' (not_raises_ok _)⟩
    | throw e => exact ⟨fun _ => ⟨e, rfl⟩, fun _ => ⟨e, rfl⟩⟩
    | abort => exact ⟨fun h => absurd h not_raises_abort, fun h => absurd h not_raises_abort⟩
    | ub => exact ⟨fun h => absurd h not_raises_ub, fun h => absurd h not_raises_ub⟩
  rw [hb _ _ (c67_parallel _), hm]
  constructor
  · rintro ⟨i, hi, hr⟩
    have hi := List.mem_range.mp hi
    rw [hcell i hi] at hr
    exact ⟨i, _, _, _, List.getElem?_eq_getElem (by omega), List.getElem?_eq_getElem hi, List.getElem?_eq_getElem (by omega), (hchk _ _ _).1.mp hr⟩
  · rintro ⟨i, l, a, s, e1, e2, e3, h⟩
    obtain ⟨g1, rfl⟩ := List.getElem?_eq_some_iff.mp e1
    obtain ⟨g2, rfl⟩ := List.getElem?_eq_some_iff.mp e2
    obtain ⟨g3, rfl⟩ := List.getElem?_eq_some_iff.mp e3
    refine ⟨i, List.mem_range.mpr g2, ?_⟩
    rw [hcell i g2]
    exact (hchk _ _ _).1.mpr h

/-- `local_distribution_correction` with at least one background row, observation time and background time raises an exception
exactly for different numbers of times. -/
theorem c67_local_distribution [HasGeo K] [HasSqrt K] [HasExp K] (T : RTree K) (A : Arma K) (g : Grid K) (b0 : List (Fl K))
    (b : List (List (Fl K))) (points : Points K) (o0 p0 : List (Fl K)) (o p : List (List (Fl K))) (s : SF K) (mn mx : Fl K) (minPoints : Int) :
    Raises (localDistributionCorrection T A g (b0 :: b) points (o0 :: o) (p0 :: p) s mn mx minPoints) ↔ o.length ≠ p.length := by
  unfold localDistributionCorrection
  have h0 : vget (b0 :: b) 0 = ok b0 := rfl
  rw [h0, ok_bind]
  by_cases h : o.length = p.length
  · rw [if_neg (by simp [h])]
    exact ⟨fun h' => absurd h' (c67_parallel _), fun h' => absurd h h'⟩
  · rw [if_pos (by simpa using h)]
    exact ⟨fun _ => h, fun _ => ⟨_, rfl⟩⟩

end
/-! ## Concrete cases -/

/-- A geodetic grid and a point that is usable in the plane only: the field must fit, otherwise an exception; the point
terminates the process. -/
theorem c67_case_grids : (∃ g : Grid ℚ, BuiltGrid g 1 2 [[fin 0, fin 0]] [[fin 0, fin 10]] .geodetic) ∧
    (∃ p : Points ℚ, BuiltPoints p [fin 100] [fin 5] .cartesian) ∧
    (do
      let g ← Grid.new [[fin (0 : ℚ), fin 0]] [[fin 0, fin 10]] [] [] .geodetic
      let p ← Points.new [fin 100] [fin 5] [] [] .cartesian
      nearestGP2 RTree.scan g p [[fin 7, fin 8]]) = abort ∧
    (do
      let g ← Grid.new [[fin (0 : ℚ), fin 0]] [[fin 0, fin 10]] [] [] .geodetic
      let p ← Points.new [fin 100] [fin 5] [] [] .cartesian
      nearestGP2 RTree.scan g p [[fin 7]]) = .throw .invalidArgument ∧
    (do
      let _ ← Points.new [fin (91 : ℚ)] [fin 0] [] [] .geodetic
      ok ()) = .throw .invalidArgument := by
  refine ⟨?_, ?_, by decide +kernel, by decide +kernel, by decide +kernel⟩
  · have : (do
        let _ ← Grid.new [[fin (0 : ℚ), fin 0]] [[fin 0, fin 10]] [] [] .geodetic
        ok ()) = ok () := by decide +kernel
    obtain ⟨g, hg, -⟩ := bind_eq_ok.mp this
    exact ⟨g, by omega, by omega, ⟨rfl, by simp⟩, ⟨rfl, by simp⟩, [], [], Or.inl rfl, Or.inl rfl, hg⟩
  · exact ⟨_, [], [], rfl⟩

/-- Usable points for `c67_fill`, and one call of each kind. -/
theorem c67_case_fill : (∀ p : Points ℚ, p.lats = [fin 0] → p.lons = [fin 1] → AllUsable .cartesian p) ∧
    (do
      let g ← Grid.new [[fin (0 : ℚ), fin 0]] [[fin 0, fin 10]] [] [] .cartesian
      let p ← Points.new [fin 0] [fin 1] [] [] .cartesian
      fill RTree.scan g [[fin 7, fin 8]] p [fin (-1)] (fin 3) false) = .throw .invalidArgument ∧
    (do
      let g ← Grid.new [[fin (0 : ℚ), fin 0]] [[fin 0, fin 10]] [] [] .cartesian
      let p ← Points.new [fin 0] [fin 1] [] [] .cartesian
      dopingSquare RTree.scan g [[fin 7, fin 8]] p [fin 5] [0] nan) = ok [[fin 5, fin 8]] ∧
    gammaInvCheck (fin (2 : ℚ)) (fin 1) (fin 1) = .throw .invalidArgument := by
  refine ⟨?_, by decide +kernel, by decide +kernel, by decide +kernel⟩
  intro p h1 h2 i la lo e1 e2
  rw [h1] at e1
  rw [h2] at e2
  cases i with
  | zero =>
    simp only [List.getElem?_cons_zero, Option.some.injEq] at e1 e2
    exact ⟨0, 1, e1.symm, e2.symm, fun h => by cases h⟩
  | succ n => simp at e1

end Gridpp.Props
