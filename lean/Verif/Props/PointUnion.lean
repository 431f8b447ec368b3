import Verif.Props.PointOrder

/-! C185: points put together, and larger radii. -/

set_option linter.unusedSectionVars false

namespace Gridpp.Props
open Fl Res Spec

section
variable {K : Type} [Field K] [LinearOrder K] [IsStrictOrderedRing K] [HasGeo K]

theorem located_append {lats lons lats' lons' : List (Fl K)} (hl : lons.length = lats.length) (type : CoordType) (i : Nat) (q : Pt3 K) :
    Located (lats ++ lats') (lons ++ lons') type i q ↔
      Located lats lons type i q ∨ (lats.length ≤ i ∧ Located lats' lons' type (i - lats.length) q) := by
  unfold Located
  by_cases hi : i < lats.length
  · rw [List.getElem?_append_left hi, List.getElem?_append_left (by omega)]
    constructor
    · exact Or.inl
    · rintro (h | ⟨h, -⟩)
      · exact h
      · omega
  · rw [List.getElem?_append_right (by omega), List.getElem?_append_right (by omega), hl]
    constructor
    · exact fun h => Or.inr ⟨by omega, h⟩
    · rintro (⟨la, lo, h, -⟩ | ⟨-, h⟩)
      · exact absurd (List.getElem?_eq_some_iff.mp h).1 hi
      · exact h

theorem neighbours_append [HasSqrt K] {lats lons lats' lons' : List (Fl K)} (hl : lons.length = lats.length) {type : CoordType} {p : Pt3 K} {radius : Fl K}
    {l l' : List Nat} (h : IsNeighbours lats lons type p radius l) (h' : IsNeighbours lats' lons' type p radius l') :
    IsNeighbours (lats ++ lats') (lons ++ lons') type p radius (l ++ l'.map (· + lats.length)) := by
  have hlt : ∀ i ∈ l, i < lats.length := fun i hi => by
    obtain ⟨q, hq, -⟩ := (h.2 i).mp hi
    exact hq.lt
  refine ⟨?_, fun i => ?_⟩
  · refine List.nodup_append.mpr ⟨h.1, (List.nodup_map_iff_inj_on h'.1).mpr fun a _ b _ e => by omega, ?_⟩
    intro a ha b hb e
    obtain ⟨c, -, hc⟩ := List.mem_map.mp hb
    have := hlt a ha
    omega
  · rw [List.mem_append, List.mem_map, h.2]
    constructor
    · rintro (⟨q, a, b⟩ | ⟨j, hj, rfl⟩)
      · exact ⟨q, (located_append hl type i q).mpr (Or.inl a), b⟩
      · obtain ⟨q, a, b⟩ := (h'.2 j).mp hj
        exact ⟨q, (located_append hl type _ q).mpr (Or.inr ⟨by omega, by rw [Nat.add_sub_cancel]; exact a⟩), b⟩
    · rintro ⟨q, a, b⟩
      rcases (located_append hl type i q).mp a with a | ⟨a1, a2⟩
      · exact Or.inl ⟨q, a, b⟩
      · exact Or.inr ⟨i - lats.length, (h'.2 _).mpr ⟨q, a2, b⟩, by omega⟩

theorem neighbours_length [HasSqrt K] {lats lons : List (Fl K)} {type : CoordType} {p : Pt3 K} {radius : Fl K} {l l' : List Nat}
    (h : IsNeighbours lats lons type p radius l) (h' : IsNeighbours lats lons type p radius l') : l.length = l'.length :=
  ((List.perm_ext_iff_of_nodup h.1 h'.1).mpr fun i => by rw [h.2, h'.2]).length_eq

/-- What is found with a radius is found with a larger one. -/
theorem within_mono [LawfulSqrt K] {p q : Pt3 K} {r r' : Fl K} (hr : r.le r' = true) (h : Within p q r) : Within p q r' := by
  cases r with
  | nan => exact h.elim
  | ninf => exact h.elim
  | pinf =>
    cases r' with
    | pinf => trivial
    | nan => exact (Bool.false_ne_true hr).elim
    | ninf => exact (Bool.false_ne_true hr).elim
    | fin b => exact (Bool.false_ne_true hr).elim
  | fin a =>
    cases r' with
    | pinf => trivial
    | nan => exact (Bool.false_ne_true hr).elim
    | ninf => exact (Bool.false_ne_true hr).elim
    | fin b =>
      have hab : a ≤ b := by simpa using hr
      obtain ⟨h1, h2⟩ := h
      refine ⟨h1.trans hab, fun hx => ?_⟩
      rcases hab.lt_or_eq with hlt | rfl
      · have hs : 0 ≤ sqDist q p := by unfold sqDist; exact add_nonneg (add_nonneg (mul_self_nonneg _) (mul_self_nonneg _)) (mul_self_nonneg _)
        have d0 : 0 ≤ straightDistance q p := LawfulSqrt.sqrt_nonneg _ hs
        have dd : straightDistance q p * straightDistance q p = sqDist q p := LawfulSqrt.sqrt_mul_self _ hs
        have hb : straightDistance q p < b := lt_of_le_of_lt h1 hlt
        have hbb : straightDistance q p * straightDistance q p < b * b := mul_self_lt_mul_self d0 hb
        have hle : b * b ≤ sqDist q p := by
          unfold sqDist
          rcases hx with hx | hx | hx <;> rw [← hx, abs_mul_abs_self] <;>
            nlinarith [mul_self_nonneg (q.x - p.x), mul_self_nonneg (q.y - p.y), mul_self_nonneg (q.z - p.z)]
        rw [dd] at hbb
        exact absurd hle (not_le.mpr hbb)
      · exact h2 hx

end

section
variable {K : Type} [Field K] [LinearOrder K] [IsStrictOrderedRing K] [HasGeo K]
variable {T : RTree K} (hT : T.Lawful) [LawfulSqrt K] [FloorRing K]
include hT

/-- **C185**, counting: the numbers of two sets of points add up to the number of all points. -/
theorem c185_count {P Q R O : Points K} {lats lons lats' lons' olats olons : List (Fl K)} {type otype : CoordType}
    (hP : BuiltPoints P lats lons type) (hQ : BuiltPoints Q lats' lons' type) (hR : BuiltPoints R (lats ++ lats') (lons ++ lons') type)
    (hO : BuiltPoints O olats olons otype) {g : Grid K} {Y X : Nat} {glats glons : List (List (Fl K))} {gtype : CoordType}
    (hg : BuiltGrid g Y X glats glons gtype) (hvg : GridValidIn type glats glons) (hvo : PointsValidIn type olats olons) (radius : Fl K) :
    (∃ a b c, countPG T P g radius = ok a ∧ countPG T Q g radius = ok b ∧ countPG T R g radius = ok c ∧ Rect Y X c ∧
      ∀ y < Y, ∀ x < X, ∃ m n : Nat, cell? a y x = some (fin (m : K)) ∧ cell? b y x = some (fin (n : K)) ∧
        cell? c y x = some (fin ((m + n : Nat) : K))) ∧
    (∃ a b c, countPP T P O radius = ok a ∧ countPP T Q O radius = ok b ∧ countPP T R O radius = ok c ∧ c.length = olats.length ∧
      ∀ i < olats.length, ∃ m n : Nat, a[i]? = some (fin (m : K)) ∧ b[i]? = some (fin (n : K)) ∧ c[i]? = some (fin ((m + n : Nat) : K))) := by
  have hl := hP.wf.2.2.2.2.2.2
  obtain ⟨-, -, a1, a2⟩ := c42_count hT hg hg hP hO radius
  obtain ⟨-, -, b1, b2⟩ := c42_count hT hg hg hQ hO radius
  obtain ⟨-, -, c1, c2⟩ := c42_count hT hg hg hR hO radius
  have key : ∀ la lo u v w, CountsPoints lats lons type radius la lo u → CountsPoints lats' lons' type radius la lo v →
      CountsPoints (lats ++ lats') (lons ++ lons') type radius la lo w →
      ∃ m n : Nat, u = fin (m : K) ∧ v = fin (n : K) ∧ w = fin ((m + n : Nat) : K) := by
    rintro la lo u v w ⟨p, l, hp, hn, rfl⟩ ⟨p', l', hp', hn', rfl⟩ ⟨p'', l'', hp'', hn'', rfl⟩
    rw [hp] at hp' hp''
    cases hp'; cases hp''
    refine ⟨l.length, l'.length, rfl, rfl, ?_⟩
    have := neighbours_length hn'' (neighbours_append hl hn hn')
    rw [List.length_append, List.length_map] at this
    rw [this]
  constructor
  · obtain ⟨a, a3, a4⟩ := a1 hvg
    obtain ⟨b, b3, b4⟩ := b1 hvg
    obtain ⟨c, c3, c4⟩ := c1 hvg
    refine ⟨a, b, c, a3, b3, c3, c4.1, fun y hy x hx => ?_⟩
    obtain ⟨la, lo, u, k1, k2, k3, k4⟩ := a4.2 y hy x hx
    obtain ⟨la', lo', v, m1, m2, m3, m4⟩ := b4.2 y hy x hx
    obtain ⟨la'', lo'', w, n1, n2, n3, n4⟩ := c4.2 y hy x hx
    rw [k1] at m1 n1; rw [k2] at m2 n2
    cases m1; cases n1; cases m2; cases n2
    obtain ⟨m, n, rfl, rfl, rfl⟩ := key _ _ _ _ _ k4 m4 n4
    exact ⟨m, n, k3, m3, n3⟩
  · obtain ⟨a, a3, a4⟩ := a2 hvo
    obtain ⟨b, b3, b4⟩ := b2 hvo
    obtain ⟨c, c3, c4⟩ := c2 hvo
    refine ⟨a, b, c, a3, b3, c3, c4.1, fun i hi => ?_⟩
    obtain ⟨la, lo, u, k1, k2, k3, k4⟩ := a4.2 i hi
    obtain ⟨la', lo', v, m1, m2, m3, m4⟩ := b4.2 i hi
    obtain ⟨la'', lo'', w, n1, n2, n3, n4⟩ := c4.2 i hi
    rw [k1] at m1 n1; rw [k2] at m2 n2
    cases m1; cases n1; cases m2; cases n2
    obtain ⟨m, n, rfl, rfl, rfl⟩ := key _ _ _ _ _ k4 m4 n4
    exact ⟨m, n, k3, m3, n3⟩

/-- **C185**, counting: with a larger radius no cell and no output point has fewer points. -/
theorem c185_radius {P O : Points K} {lats lons olats olons : List (Fl K)} {type otype : CoordType} (hP : BuiltPoints P lats lons type)
    (hO : BuiltPoints O olats olons otype) {g : Grid K} {Y X : Nat} {glats glons : List (List (Fl K))} {gtype : CoordType}
    (hg : BuiltGrid g Y X glats glons gtype) (hvg : GridValidIn type glats glons) (hvo : PointsValidIn type olats olons)
    {radius radius' : Fl K} (hr : radius.le radius' = true) :
    (∃ a b, countPG T P g radius = ok a ∧ countPG T P g radius' = ok b ∧ Rect Y X a ∧ Rect Y X b ∧
      ∀ y < Y, ∀ x < X, ∃ m n : Nat, cell? a y x = some (fin (m : K)) ∧ cell? b y x = some (fin (n : K)) ∧ m ≤ n) ∧
    (∃ a b, countPP T P O radius = ok a ∧ countPP T P O radius' = ok b ∧ a.length = olats.length ∧ b.length = olats.length ∧
      ∀ i < olats.length, ∃ m n : Nat, a[i]? = some (fin (m : K)) ∧ b[i]? = some (fin (n : K)) ∧ m ≤ n) := by
  obtain ⟨-, -, a1, a2⟩ := c42_count hT hg hg hP hO radius
  obtain ⟨-, -, b1, b2⟩ := c42_count hT hg hg hP hO radius'
  have key : ∀ la lo u v, CountsPoints lats lons type radius la lo u → CountsPoints lats lons type radius' la lo v →
      ∃ m n : Nat, u = fin (m : K) ∧ v = fin (n : K) ∧ m ≤ n := by
    rintro la lo u v ⟨p, l, hp, hn, rfl⟩ ⟨p', l', hp', hn', rfl⟩
    rw [hp] at hp'
    cases hp'
    refine ⟨l.length, l'.length, rfl, rfl, (hn.1.subperm fun i hi => ?_).length_le⟩
    obtain ⟨q, hq, hw⟩ := (hn.2 i).mp hi
    exact (hn'.2 i).mpr ⟨q, hq, within_mono hr hw⟩
  constructor
  · obtain ⟨a, a3, a4⟩ := a1 hvg
    obtain ⟨b, b3, b4⟩ := b1 hvg
    refine ⟨a, b, a3, b3, a4.1, b4.1, fun y hy x hx => ?_⟩
    obtain ⟨la, lo, u, k1, k2, k3, k4⟩ := a4.2 y hy x hx
    obtain ⟨la', lo', v, m1, m2, m3, m4⟩ := b4.2 y hy x hx
    rw [k1] at m1; rw [k2] at m2
    cases m1; cases m2
    obtain ⟨m, n, rfl, rfl, h⟩ := key _ _ _ _ k4 m4
    exact ⟨m, n, k3, m3, h⟩
  · obtain ⟨a, a3, a4⟩ := a2 hvo
    obtain ⟨b, b3, b4⟩ := b2 hvo
    refine ⟨a, b, a3, b3, a4.1, b4.1, fun i hi => ?_⟩
    obtain ⟨la, lo, u, k1, k2, k3, k4⟩ := a4.2 i hi
    obtain ⟨la', lo', v, m1, m2, m3, m4⟩ := b4.2 i hi
    rw [k1] at m1; rw [k2] at m2
    cases m1; cases m2
    obtain ⟨m, n, rfl, rfl, h⟩ := key _ _ _ _ k4 m4
    exact ⟨m, n, k3, m3, h⟩

omit hT [FloorRing K] in
theorem covered_append {lats lons : List (List (Fl K))} {type : CoordType} {plats plons plats' plons' radii radii' : List (Fl K)}
    (hl : plons.length = plats.length) (hr : radii.length = plats.length) (y x : Nat) :
    Covered lats lons type (plats ++ plats') (plons ++ plons') (radii ++ radii') y x ↔
      Covered lats lons type plats plons radii y x ∨ Covered lats lons type plats' plons' radii' y x := by
  constructor
  · rintro ⟨i, la, lo, r, a, b, c, e⟩
    by_cases hi : i < plats.length
    · rw [List.getElem?_append_left (by omega)] at a b c
      exact Or.inl ⟨i, la, lo, r, a, b, c, e⟩
    · rw [List.getElem?_append_right (by omega)] at a b c
      rw [hl] at b
      rw [hr] at c
      exact Or.inr ⟨_, la, lo, r, a, b, c, e⟩
  · rintro (⟨i, la, lo, r, a, b, c, e⟩ | ⟨i, la, lo, r, a, b, c, e⟩)
    · have hi := (List.getElem?_eq_some_iff.mp a).1
      exact ⟨i, la, lo, r, by rw [List.getElem?_append_left hi]; exact a, by rw [List.getElem?_append_left (by omega)]; exact b,
        by rw [List.getElem?_append_left (by omega)]; exact c, e⟩
    · refine ⟨i + plats.length, la, lo, r, ?_, ?_, ?_, e⟩
      · rw [List.getElem?_append_right (by omega), Nat.add_sub_cancel]; exact a
      · rw [List.getElem?_append_right (by omega), hl, Nat.add_sub_cancel]; exact b
      · rw [List.getElem?_append_right (by omega), hr, Nat.add_sub_cancel]; exact c

omit hT in
theorem pointsValid_append {type : CoordType} {plats plons plats' plons' : List (Fl K)} (hl : plons.length = plats.length)
    (hv : PointsValidIn type plats plons) (hv' : PointsValidIn type plats' plons') : PointsValidIn type (plats ++ plats') (plons ++ plons') := by
  intro i la lo a b
  by_cases hi : i < plats.length
  · rw [List.getElem?_append_left (by omega)] at a b
    exact hv i la lo a b
  · rw [List.getElem?_append_right (by omega)] at a b
    rw [hl] at b
    exact hv' _ la lo a b

/-- **C185**, filling: filling the circles of all points is filling those of the first points, then those of the others; a negative radius
is reported either way. -/
theorem c185_fill {g : Grid K} {Y X : Nat} {lats lons : List (List (Fl K))} {type : CoordType} (hg : BuiltGrid g Y X lats lons type)
    {P Q R : Points K} {plats plons plats' plons' : List (Fl K)} {ptype : CoordType} (hP : BuiltPoints P plats plons ptype)
    (hQ : BuiltPoints Q plats' plons' ptype) (hR : BuiltPoints R (plats ++ plats') (plons ++ plons') ptype)
    (hv : PointsValidIn type plats plons) (hv' : PointsValidIn type plats' plons') (input : List (List (Fl K))) (hi : Rect Y X input)
    (radii radii' : List (Fl K)) (hr : radii.length = plats.length) (hr' : radii'.length = plats'.length) (value : Fl K) :
    fill T g input R (radii ++ radii') value false = (fill T g input P radii value false >>= fun f => fill T g f Q radii' value false) := by
  have hl := hP.wf.2.2.2.2.2.2
  by_cases h0 : ∃ r ∈ radii, r.lt 0 = true
  · obtain ⟨r, h1, h2⟩ := h0
    rw [c38_throws T hg R input _ value false (Or.inr (Or.inl ⟨r, List.mem_append_left _ h1, h2⟩)),
      c38_throws T hg P input _ value false (Or.inr (Or.inl ⟨r, h1, h2⟩))]
    rfl
  have h0 : ∀ r ∈ radii, r.lt 0 = false := fun r hm => Bool.eq_false_iff.mpr fun e => h0 ⟨r, hm, e⟩
  obtain ⟨o1, a1, a2, a3⟩ := c38_fill hT hg hP hv input hi radii hr h0 value false
  rw [a1]
  show _ = fill T g o1 Q radii' value false
  by_cases h0' : ∃ r ∈ radii', r.lt 0 = true
  · obtain ⟨r, h1, h2⟩ := h0'
    rw [c38_throws T hg R input _ value false (Or.inr (Or.inl ⟨r, List.mem_append_right _ h1, h2⟩)),
      c38_throws T hg Q o1 _ value false (Or.inr (Or.inl ⟨r, h1, h2⟩))]
  have h0' : ∀ r ∈ radii', r.lt 0 = false := fun r hm => Bool.eq_false_iff.mpr fun e => h0' ⟨r, hm, e⟩
  obtain ⟨o2, b1, b2, b3⟩ := c38_fill hT hg hQ hv' o1 a2 radii' hr' h0' value false
  obtain ⟨o3, c1, c2, c3⟩ := c38_fill hT hg hR (pointsValid_append hl hv hv') input hi (radii ++ radii')
    (by rw [List.length_append, List.length_append, hr, hr'])
    (fun r hm => (List.mem_append.mp hm).elim (h0 r) (h0' r)) value false
  rw [b1, c1]
  refine congrArg ok (c2.ext b2 fun y hy x hx => ?_)
  have hc := covered_append (lats := lats) (lons := lons) (type := type) (plats' := plats') (plons' := plons') (radii' := radii') hl hr y x
  by_cases h2 : Covered lats lons type plats' plons' radii' y x
  · rw [(b3 y hy x hx).1 h2, (c3 y hy x hx).1 (hc.mpr (Or.inr h2))]
    rfl
  · rw [(b3 y hy x hx).2 h2]
    by_cases h1 : Covered lats lons type plats plons radii y x
    · rw [(c3 y hy x hx).1 (hc.mpr (Or.inl h1))]
      exact ((a3 y hy x hx).1 h1).symm
    · rw [(c3 y hy x hx).2 (fun k => (hc.mp k).elim h1 h2)]
      exact ((a3 y hy x hx).2 h1).symm

/-- **C185**, filling: filling once more changes nothing, inside or outside. -/
theorem c185_fill_twice {g : Grid K} {Y X : Nat} {lats lons : List (List (Fl K))} {type : CoordType} (hg : BuiltGrid g Y X lats lons type)
    {P : Points K} {plats plons : List (Fl K)} {ptype : CoordType} (hP : BuiltPoints P plats plons ptype)
    (hv : PointsValidIn type plats plons) (input : List (List (Fl K))) (hi : Rect Y X input)
    (radii : List (Fl K)) (value : Fl K) (outside : Bool) :
    (fill T g input P radii value outside >>= fun f => fill T g f P radii value outside) = fill T g input P radii value outside := by
  have hsz : P.size = plats.length := congrArg List.length hP.wf.1
  by_cases hr : radii.length = plats.length
  case neg =>
    rw [c38_throws T hg P input radii value outside (Or.inl fun e => hr (by rw [← e, hsz]))]
    rfl
  by_cases h0 : ∃ r ∈ radii, r.lt 0 = true
  · rw [c38_throws T hg P input _ value outside (Or.inr (Or.inl h0))]
    rfl
  have h0 : ∀ r ∈ radii, r.lt 0 = false := fun r hm => Bool.eq_false_iff.mpr fun e => h0 ⟨r, hm, e⟩
  obtain ⟨o1, a1, a2, a3⟩ := c38_fill hT hg hP hv input hi radii hr h0 value outside
  obtain ⟨o2, b1, b2, b3⟩ := c38_fill hT hg hP hv o1 a2 radii hr h0 value outside
  rw [a1]
  show fill T g o1 P radii value outside = _
  rw [b1]
  refine congrArg ok (b2.ext a2 fun y hy x hx => ?_)
  by_cases h : Covered lats lons type plats plons radii y x
  · rw [(b3 y hy x hx).1 h]
    cases outside
    · exact ((a3 y hy x hx).1 h).symm
    · rfl
  · rw [(b3 y hy x hx).2 h]
    cases outside
    · rfl
    · exact ((a3 y hy x hx).2 h).symm

end

/-- Keeping the circles only (`outside`): the field outside the circles of all points is not what two calls give, since the second call also
removes the circles of the first points. -/
theorem c185_outside_false :
    (do let g ← Grid.new [[fin (0 : ℚ), fin 0, fin 0]] [[fin 0, fin 10, fin 20]] [] [] .cartesian
        let p ← Points.new [fin 0, fin 0] [fin 1, fin 19] [] [] .cartesian
        fill RTree.scan g [[fin 5, fin 6, fin 7]] p [fin 4, fin 4] (fin 9) true) = ok [[fin 5, fin 9, fin 7]] ∧
    (do let g ← Grid.new [[fin (0 : ℚ), fin 0, fin 0]] [[fin 0, fin 10, fin 20]] [] [] .cartesian
        let p ← Points.new [fin 0] [fin 1] [] [] .cartesian
        let q ← Points.new [fin 0] [fin 19] [] [] .cartesian
        let f ← fill RTree.scan g [[fin 5, fin 6, fin 7]] p [fin 4] (fin 9) true
        fill RTree.scan g f q [fin 4] (fin 9) true) = ok [[fin 9, fin 9, fin 9]] := by decide +kernel

/-- Three points, then one, then all four; and with a larger radius. -/
theorem c185_case :
    (do let g ← Grid.new [[fin (0 : ℚ), fin 0]] [[fin 0, fin 10]] [] [] .cartesian
        let p ← Points.new [fin 0, fin 0, fin 0] [fin 1, fin 9, fin 2] [] [] .cartesian
        countPG RTree.scan p g (fin 4)) = ok [[fin 2, fin 1]] ∧
    (do let g ← Grid.new [[fin (0 : ℚ), fin 0]] [[fin 0, fin 10]] [] [] .cartesian
        let p ← Points.new [fin 0] [fin 8] [] [] .cartesian
        countPG RTree.scan p g (fin 4)) = ok [[fin 0, fin 1]] ∧
    (do let g ← Grid.new [[fin (0 : ℚ), fin 0]] [[fin 0, fin 10]] [] [] .cartesian
        let p ← Points.new [fin 0, fin 0, fin 0, fin 0] [fin 1, fin 9, fin 2, fin 8] [] [] .cartesian
        countPG RTree.scan p g (fin 4)) = ok [[fin 2, fin 2]] ∧
    (do let g ← Grid.new [[fin (0 : ℚ), fin 0]] [[fin 0, fin 10]] [] [] .cartesian
        let p ← Points.new [fin 0, fin 0, fin 0, fin 0] [fin 1, fin 9, fin 2, fin 8] [] [] .cartesian
        countPG RTree.scan p g pinf) = ok [[fin 4, fin 4]] ∧ (fin (4 : ℚ)).le pinf = true := by decide +kernel

end Gridpp.Props
