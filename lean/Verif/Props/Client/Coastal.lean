import Verif.Lemmas.Client.Coastal
import Verif.Props.Client.WindDirection

/-! # C114: the coastal correction of the client -/

set_option linter.unusedSectionVars false

namespace Gridpp.Props
open Fl hiding MV isValid
open Res Client Spec

variable {K : Type} [Field K] [LinearOrder K] [IsStrictOrderedRing K]

theorem parAt_lt {p : List (Fl K)} {i : Nat} (h : i < p.length) : parAt p i = ok p[i] := by
  unfold parAt
  rw [if_neg (by omega)]
  exact vget_eq_ok_of_lt h

theorem parAt_cases (p : List (Fl K)) (i : Nat) : (∃ v, parAt p i = ok v) ∨ parAt p i = .abort := by
  by_cases h : i < p.length
  · exact Or.inl ⟨_, parAt_lt h⟩
  · right
    unfold parAt
    rw [if_pos (by omega)]
    rfl

theorem assert_cases (b : Bool) : Res.assert b = ok () ∨ Res.assert b = .abort := by
  cases b
  · exact Or.inr rfl
  · exact Or.inl rfl

/-- The loop over the points around always ends well. -/
theorem coastLoop_exists {Y X E : Nat} (r : Int) {lafs : List (List (Fl K))} (hl : Rect Y X lafs) {f : FieldC K} (hf : Sized Y X E f) {e : Nat}
    (he : e < E) (c : Int × Int) : ∃ s, coastLoop Y X r lafs f e c = ok s := by
  unfold coastLoop
  have : ∀ (l : List (Int × Int)) s, (∀ p ∈ l, p ∈ stencil Y X r c) → ∃ s', foldM (fun s (p : Int × Int) => do
      let laf ← vget2 lafs p.1 p.2
      let value ← f.getInt p.1 p.2 e
      ok (coastUpdate s laf value)) s l = ok s' := by
    intro l
    induction l with
    | nil => intro s _; exact ⟨s, rfl⟩
    | cons p l ih =>
      intro s hp
      have h1 := hp p (by simp)
      rw [mem_stencil] at h1
      obtain ⟨i, hi⟩ := Int.eq_ofNat_of_zero_le h1.1
      obtain ⟨j, hj⟩ := Int.eq_ofNat_of_zero_le h1.2.2.1
      have hi' : i < Y := by omega
      have hj' : j < X := by omega
      obtain ⟨u, -, hu⟩ := vget2_of_rect hl hi' hj'
      obtain ⟨w, hw, -⟩ := getInt_nat hf hi' hj' he
      rw [foldM_cons, hi, hj, hu, ok_bind, hw, ok_bind, ok_bind]
      exact ih _ (fun q hq => hp q (by simp [hq]))
  exact this _ _ (fun _ h => h)

/-- One member either gives a field of the same size or ends the program. -/
theorem coastMember_cases {Y X E : Nat} (r : Int) (d : Fl K) (useNN : Bool) {lafs : List (List (Fl K))} (hl : Rect Y X lafs) (p : List (Fl K))
    {f : FieldC K} (hf : Sized Y X E f) {y x e : Nat} (hy : y < Y) (hx : x < X) (he : e < E) :
    (∃ f', coastMember Y X r d useNN lafs p f y x e = ok f' ∧ Sized Y X E f') ∨ coastMember Y X r d useNN lafs p f y x e = .abort := by
  obtain ⟨nn, hnn⟩ := hf.exists_get hy hx he
  obtain ⟨s, hs⟩ := coastLoop_exists r hl hf he ((y : Int), (x : Int))
  unfold coastMember
  rw [hnn, ok_bind, hs, ok_bind]
  rcases parAt_cases p 0 with ⟨a, ha⟩ | ha
  · rcases parAt_cases p 1 with ⟨b, hb⟩ | hb
    · rcases parAt_cases p 2 with ⟨c, hc⟩ | hc
      · rw [ha, ok_bind, hb, ok_bind, hc, ok_bind]
        rcases assert_cases (Client.isValid (coastGradient d s)) with h1 | h1
        · rcases assert_cases (Client.isValid nn) with h2 | h2
          · rcases assert_cases (Client.isValid (a + b * (if useNN then nn else s.lower) + c * coastGradient d s)) with h3 | h3
            · obtain ⟨f', g1, g2, -⟩ := hf.set hy hx he (a + b * (if useNN then nn else s.lower) + c * coastGradient d s)
              left
              refine ⟨f', ?_, g2⟩
              simp only [h1, h2, h3, ok_bind]
              exact g1
            · right; simp only [h1, h2, h3, ok_bind]; rfl
          · right; simp only [h1, h2, ok_bind]; rfl
        · right; simp only [h1]; rfl
      · right; rw [ha, ok_bind, hb, ok_bind, hc]; rfl
    · right; rw [ha, ok_bind, hb]; rfl
  · right; rw [ha]; rfl

/-- What a member that ends well has done. -/
theorem coastMember_ok {Y X E : Nat} {r : Int} (hr : 0 ≤ r) {d : K} (hd : 0 ≤ d) (useNN : Bool) {lafs : List (List (Fl K))}
    (hl : Rect Y X lafs) {L : Nat → Nat → K} (hL : ∀ i < Y, ∀ j < X, cell? lafs i j = some (fin (L i j)) ∧ 0 ≤ L i j ∧ L i j ≤ 1)
    {a b c : K} {rest : List (Fl K)} {f f' : FieldC K} (hf : Sized Y X E f) {y x e : Nat} (hy : y < Y) (hx : x < X) (he : e < E)
    (h : coastMember Y X r (fin d) useNN lafs (fin a :: fin b :: fin c :: rest) f y x e = ok f') :
    Sized Y X E f' ∧ (∃ nn, f.get y x e = ok (fin nn) ∧ nn ≠ -999) ∧ (∃ w, f'.get y x e = ok (fin w) ∧ w ≠ -999 ∧
      ∀ v : Nat → Nat → K, (∀ i < Y, ∀ j < X, f.get i j e = ok (fin (v i j)) ∧ v i j ≠ -999) → CoastalValue useNN d a b c Y X r L v y x w) ∧
    ∀ y' x' e', ¬ (y' = y ∧ x' = x ∧ e' = e) → f'.get y' x' e' = f.get y' x' e' := by
  unfold coastMember at h
  rw [bind_eq_ok] at h
  obtain ⟨nn, hnn, h⟩ := h
  rw [bind_eq_ok] at h
  obtain ⟨s, hs, h⟩ := h
  rw [show parAt (fin a :: fin b :: fin c :: rest) 0 = ok (fin a) from parAt_lt (by simp), ok_bind,
    show parAt (fin a :: fin b :: fin c :: rest) 1 = ok (fin b) from parAt_lt (by simp), ok_bind,
    show parAt (fin a :: fin b :: fin c :: rest) 2 = ok (fin c) from parAt_lt (by simp), ok_bind] at h
  have hassert : ∀ (q : Bool) {β : Type} (k : Unit → Res β) (z : β), (Res.assert q >>= k) = ok z → q = true ∧ k () = ok z := by
    intro q β k z hz
    cases q
    · cases hz
    · exact ⟨rfl, hz⟩
  obtain ⟨-, h⟩ := hassert _ _ _ h
  obtain ⟨v2, h⟩ := hassert _ _ _ h
  obtain ⟨v3, h⟩ := hassert _ _ _ h
  obtain ⟨f'', g1, g2, g3, g4⟩ := hf.set hy hx he (fin a + fin b * (if useNN then nn else s.lower) + fin c * coastGradient (fin d) s)
  rw [g1, Res.ok.injEq] at h
  subst h
  rw [isValid_iff_present] at v2 v3
  obtain ⟨n, rfl, hn⟩ := v2
  obtain ⟨w, hw, hw9⟩ := v3
  refine ⟨g2, ⟨n, hnn, hn⟩, ⟨w, by rw [g3, hw], hw9, ?_⟩, g4⟩
  intro v hv
  obtain ⟨i, j, k, l, m1, m2, m3⟩ := coastLoop_ok hr hl hL hf he (fun i hi j hj => (hv i hi j hj).1) hy hx
  rw [hs, Res.ok.injEq] at m3
  subst m3
  have hn' : n = v y x := by
    have := (hv y hy x hx).1
    rw [hnn, Res.ok.injEq, Fl.fin.injEq] at this
    exact this
  refine ⟨i, j, k, l, m1, m2, ?_⟩
  have p1 : Client.isValid (fin (v i j)) = true := isValid_iff_present.mpr ⟨_, rfl, (hv i m1.1.1 j m1.1.2.1).2⟩
  have p2 : Client.isValid (fin (v k l)) = true := isValid_iff_present.mpr ⟨_, rfl, (hv k m2.1.1 l m2.1.2.1).2⟩
  have hg : coastGradient (fin d) ⟨fin (v i j), fin (v k l), fin (L i j), fin (L k l)⟩ =
      fin (if d < L k l - L i j then (v k l - v i j) / (L k l - L i j) else 0) := by
    unfold coastGradient
    simp only [p1, p2, fin_sub, gt_fin, Bool.and_self, Bool.true_and, decide_eq_true_eq]
    by_cases hlt : d < L k l - L i j
    · rw [if_pos hlt, if_pos hlt, fin_div_of_ne _ (by linarith : L k l - L i j ≠ 0)]
    · rw [if_neg hlt, if_neg hlt]; rfl
  rw [hg] at hw
  have hbase : (if useNN = true then fin n else fin (v i j)) = (fin (if useNN = true then v y x else v i j) : Fl K) := by
    rw [hn']; split_ifs <;> rfl
  rw [hbase, fin_mul, fin_add, fin_mul, fin_add, Fl.fin.injEq] at hw
  exact hw.symm

/-- The grid points, each once, in some order. -/
def Visits (Y X : Nat) (order : List (Nat × Nat)) : Prop := order.Nodup ∧ ∀ c, c ∈ order ↔ c.1 < Y ∧ c.2 < X

theorem coastField_ok {Y X E : Nat} {order : List (Nat × Nat)} (ho : Visits Y X order) {r : Int} (hr : 0 ≤ r) {d : K} (hd : 0 ≤ d) (useNN : Bool)
    {lafs : List (List (Fl K))} (hl : Rect Y X lafs) {L : Nat → Nat → K}
    (hL : ∀ i < Y, ∀ j < X, cell? lafs i j = some (fin (L i j)) ∧ 0 ≤ L i j ∧ L i j ≤ 1) {params : Nat → Nat → List (Fl K)} {a b c : Nat → Nat → K}
    {rest : Nat → Nat → List (Fl K)} (hp : ∀ y < Y, ∀ x < X, params y x = fin (a y x) :: fin (b y x) :: fin (c y x) :: rest y x)
    {f out : FieldC K} (hf : Sized Y X E f) (h : coastField order Y X E r (fin d) useNN lafs params f = ok out) :
    Sized Y X E out ∧ ∃ old new : Nat → Nat → Nat → K,
      (∀ y < Y, ∀ x < X, ∀ e < E, f.get y x e = ok (fin (old y x e)) ∧ old y x e ≠ -999 ∧ out.get y x e = ok (fin (new y x e)) ∧
        new y x e ≠ -999) ∧
      ∀ pre y x post, order = pre ++ (y, x) :: post → ∀ e < E, CoastalValue useNN d (a y x) (b y x) (c y x) Y X r L
        (fun i j => if (i, j) ∈ pre then new i j e else old i j e) y x (new y x e) := by
  let g : Nat × Nat → List (Nat × Nat × Nat) := fun q => (List.range E).map fun e => (q.1, q.2, e)
  have hmem : ∀ t, t ∈ order.flatMap g ↔ t.1 < Y ∧ t.2.1 < X ∧ t.2.2 < E := by
    rintro ⟨y, x, e⟩
    simp only [List.mem_flatMap, g, List.mem_map, List.mem_range, Prod.mk.injEq]
    constructor
    · rintro ⟨q, hq, e', he', rfl, rfl, rfl⟩
      exact ⟨((ho.2 q).mp hq).1, ((ho.2 q).mp hq).2, he'⟩
    · rintro ⟨hy, hx, he⟩
      exact ⟨(y, x), (ho.2 _).mpr ⟨hy, hx⟩, e, he, rfl, rfl, rfl⟩
  have hnd : (order.flatMap g).Nodup := by
    rw [List.nodup_flatMap]
    refine ⟨fun q _ => List.nodup_range.map (fun e e' h => by simpa using h), ?_⟩
    refine ho.1.imp ?_
    intro q q' hne t h1 h2
    simp only [g, List.mem_map] at h1 h2
    obtain ⟨e, -, rfl⟩ := h1
    obtain ⟨e', -, h2⟩ := h2
    simp only [Prod.mk.injEq] at h2
    exact hne (Prod.ext h2.1.symm h2.2.1.symm)
  have hfold : foldM (fun f (t : Nat × Nat × Nat) => coastMember Y X r (fin d) useNN lafs (params t.1 t.2.1) f t.1 t.2.1 t.2.2) f
      (order.flatMap g) = ok out := by
    rw [← h, ← foldM_flatMap]
    unfold coastField
    simp only [g, foldM_map']
  obtain ⟨k1, k2, -⟩ := foldM_sequential (Sized Y X E) (fun f (t : Nat × Nat × Nat) => f.get t.1 t.2.1 t.2.2)
    (fun f (t : Nat × Nat × Nat) => coastMember Y X r (fin d) useNN lafs (params t.1 t.2.1) f t.1 t.2.1 t.2.2)
    (fun t view u => (∃ nn, view t = ok (fin nn) ∧ nn ≠ -999) ∧ ∃ w, u = ok (fin w) ∧ w ≠ -999 ∧
      ∀ v : Nat → Nat → K, (∀ i < Y, ∀ j < X, view (i, j, t.2.2) = ok (fin (v i j)) ∧ v i j ≠ -999) →
        CoastalValue useNN d (a t.1 t.2.1) (b t.1 t.2.1) (c t.1 t.2.1) Y X r L v t.1 t.2.1 w)
    (order.flatMap g) hnd (by
      rintro s s' ⟨y, x, e⟩ hs ht hb
      obtain ⟨hy, hx, he⟩ := (hmem _).mp ht
      simp only at hy hx he hb ⊢
      rw [hp y hy x hx] at hb
      obtain ⟨m1, m2, m3, m4⟩ := coastMember_ok hr hd useNN hl hL hs hy hx he hb
      refine ⟨m1, ⟨m2, m3⟩, ?_⟩
      rintro ⟨y', x', e'⟩ hne
      exact m4 y' x' e' (by rintro ⟨rfl, rfl, rfl⟩; exact hne rfl)) f out hf hfold
  have hsplit : ∀ y < Y, ∀ x < X, ∀ e < E, ∃ pre post, order.flatMap g = pre ++ (y, x, e) :: post := by
    intro y hy x hx e he
    exact List.append_of_mem ((hmem (y, x, e)).mpr ⟨hy, hx, he⟩)
  have hold : ∀ y x e, ∃ q, y < Y → x < X → e < E → f.get y x e = ok (fin q) ∧ q ≠ -999 := by
    intro y x e
    by_cases hin : y < Y ∧ x < X ∧ e < E
    · obtain ⟨pre, post, hs⟩ := hsplit y hin.1 x hin.2.1 e hin.2.2
      obtain ⟨⟨nn, h1, h2⟩, -⟩ := k2 pre _ post hs
      have hnot : (y, x, e) ∉ pre := by
        rw [hs] at hnd
        exact fun hc => (List.nodup_append.mp hnd).2.2 _ hc _ (by simp) rfl
      simp only [if_neg hnot] at h1
      exact ⟨nn, fun _ _ _ => ⟨h1, h2⟩⟩
    · exact ⟨0, fun h1 h2 h3 => absurd ⟨h1, h2, h3⟩ hin⟩
  have hnew : ∀ y x e, ∃ q, y < Y → x < X → e < E → out.get y x e = ok (fin q) ∧ q ≠ -999 := by
    intro y x e
    by_cases hin : y < Y ∧ x < X ∧ e < E
    · obtain ⟨pre, post, hs⟩ := hsplit y hin.1 x hin.2.1 e hin.2.2
      obtain ⟨-, w, h1, h2, -⟩ := k2 pre _ post hs
      exact ⟨w, fun _ _ _ => ⟨h1, h2⟩⟩
    · exact ⟨0, fun h1 h2 h3 => absurd ⟨h1, h2, h3⟩ hin⟩
  choose old hold using hold
  choose new hnew using hnew
  refine ⟨k1, old, new, fun y hy x hx e he => ⟨(hold y x e hy hx he).1, (hold y x e hy hx he).2, (hnew y x e hy hx he).1, (hnew y x e hy hx he).2⟩, ?_⟩
  intro pre y x post hord e he
  have hyx : y < Y ∧ x < X := (ho.2 (y, x)).mp (by rw [hord]; simp)
  obtain ⟨s, t, hst⟩ := List.append_of_mem (List.mem_range.mpr he)
  have hes : e ∉ s := by
    have := List.nodup_range (n := E)
    rw [hst] at this
    exact fun hc => (List.nodup_append.mp this).2.2 _ hc _ (by simp) rfl
  have hs : order.flatMap g = (pre.flatMap g ++ s.map fun e => (y, x, e)) ++ (y, x, e) :: ((t.map fun e => (y, x, e)) ++ post.flatMap g) := by
    rw [hord, List.flatMap_append, List.flatMap_cons]
    simp only [g, hst, List.map_append, List.map_cons, List.append_assoc, List.cons_append]
  obtain ⟨-, w, h1, -, h3⟩ := k2 _ _ _ hs
  have hw : w = new y x e := by
    have := (hnew y x e hyx.1 hyx.2 he).1
    simp only at h1
    rw [h1, Res.ok.injEq, Fl.fin.injEq] at this
    exact this
  rw [← hw]
  apply h3
  intro i hi j hj
  have hin : ((i, j, e) ∈ pre.flatMap g ++ s.map fun e => (y, x, e)) ↔ (i, j) ∈ pre := by
    simp only [List.mem_append, List.mem_flatMap, g, List.mem_map, List.mem_range, Prod.mk.injEq]
    constructor
    · rintro (⟨q, hq, e', -, rfl, rfl, -⟩ | ⟨e', he', -, -, rfl⟩)
      · exact hq
      · exact absurd he' hes
    · intro hq
      exact Or.inl ⟨(i, j), hq, e, he, rfl, rfl, rfl⟩
  by_cases hc : (i, j) ∈ pre
  · simp only [if_pos hc, if_pos (hin.mpr hc)]
    exact hnew i j e hi hj he
  · simp only [if_neg hc, if_neg (fun h => hc (hin.mp h))]
    exact hold i j e hi hj he

/-- **C114** (partial). If the calibrator comes to its end, no value was missing and none is, and each value is the coastal formula of the
values around it. What is missing: these are not the values of the forecast; at the points that were handled before they are the new ones
already, and the order of the points is up to the threads (`c114_order`). -/
theorem c114_value_partial {Y X E : Nat} {order : Nat → List (Nat × Nat)} (ho : ∀ t, Visits Y X (order t)) {r : Int} (hr : 0 ≤ r) {d : K} (hd : 0 ≤ d)
    (useNN : Bool) (numParameters : Int) (dependent : Bool) {lafs : List (List (Fl K))} (hl : Rect Y X lafs) {L : Nat → Nat → K}
    (hL : ∀ i < Y, ∀ j < X, cell? lafs i j = some (fin (L i j)) ∧ 0 ≤ L i j ∧ L i j ≤ 1) {params : Nat → Nat → Nat → List (Fl K)}
    {a b c : Nat → Nat → Nat → K} {rest : Nat → Nat → Nat → List (Fl K)}
    (hp : ∀ t, ∀ y < Y, ∀ x < X, params t y x = fin (a t y x) :: fin (b t y x) :: fin (c t y x) :: rest t y x) {fields out : List (FieldC K)}
    (hs : Series Y X E fields) (h : coastal order Y X E r (fin d) useNN numParameters dependent lafs params fields = ok out) :
    out.length = fields.length ∧ Series Y X E out ∧ numParameters ≠ 0 ∧ dependent = true ∧
    ∀ t < fields.length, ∃ old new : Nat → Nat → Nat → K,
      (∀ y < Y, ∀ x < X, ∀ e < E, At fields t y x e (fin (old y x e)) ∧ old y x e ≠ -999 ∧ At out t y x e (fin (new y x e)) ∧ new y x e ≠ -999) ∧
      ∀ pre y x post, order t = pre ++ (y, x) :: post → ∀ e < E, CoastalValue useNN d (a t y x) (b t y x) (c t y x) Y X r L
        (fun i j => if (i, j) ∈ pre then new i j e else old i j e) y x (new y x e) := by
  unfold coastal at h
  by_cases h0 : numParameters = 0
  · rw [if_pos h0] at h; cases h
  rw [if_neg h0] at h
  cases dependent with
  | false => cases h
  | true =>
    simp only [Bool.not_true, Bool.false_eq_true, if_false] at h
    have hlen : out.length = fields.length := by
      have := mapM_length h
      simpa using this
    have hat : ∀ t (ht : t < fields.length), coastField (order t) Y X E r (fin d) useNN lafs (params t) fields[t] = ok (out[t]'(by omega)) := by
      intro t ht
      have h2 := List.forall₂_iff_get.mp (mapM_eq_ok h)
      have h3 := h2.2 t (by simpa using ht) (by omega)
      simp only [List.get_eq_getElem, List.getElem_range] at h3
      rw [vget_eq_ok_of_lt ht, ok_bind] at h3
      exact h3
    have hres := fun t (ht : t < fields.length) =>
      coastField_ok (ho t) hr hd useNN hl hL (hp t) (hs _ (List.getElem_mem ht)) (hat t ht)
    refine ⟨hlen, ?_, h0, rfl, ?_⟩
    · intro g hg
      obtain ⟨t, ht, rfl⟩ := List.getElem_of_mem hg
      exact (hres t (by omega)).1
    · intro t ht
      obtain ⟨-, old, new, g1, g2⟩ := hres t ht
      refine ⟨old, new, fun y hy x hx e he => ?_, g2⟩
      obtain ⟨k1, k2, k3, k4⟩ := g1 y hy x hx e he
      exact ⟨⟨_, List.getElem?_eq_getElem ht, k1⟩, k2, ⟨_, List.getElem?_eq_getElem (by omega), k3⟩, k4⟩

/-- **C114** (no other end). With whatever radius, land fractions and parameters, the calibrator comes to its end or stops with an error. -/
theorem c114_end {Y X E : Nat} {order : Nat → List (Nat × Nat)} (ho : ∀ t, Visits Y X (order t)) (r : Int) (d : Fl K) (useNN : Bool)
    (numParameters : Int) (dependent : Bool) {lafs : List (List (Fl K))} (hl : Rect Y X lafs) (params : Nat → Nat → Nat → List (Fl K))
    {fields : List (FieldC K)} (hs : Series Y X E fields) :
    (∃ out, coastal order Y X E r d useNN numParameters dependent lafs params fields = ok out) ∨
      coastal order Y X E r d useNN numParameters dependent lafs params fields = .abort := by
  have hfold : ∀ {ι : Type} (body : FieldC K → ι → Res (FieldC K)) (l : List ι),
      (∀ f, Sized Y X E f → ∀ i ∈ l, (∃ f', body f i = ok f' ∧ Sized Y X E f') ∨ body f i = .abort) → ∀ f, Sized Y X E f →
      (∃ f', foldM body f l = ok f' ∧ Sized Y X E f') ∨ foldM body f l = .abort := by
    intro ι body l
    induction l with
    | nil => intro _ f hf; exact Or.inl ⟨f, rfl, hf⟩
    | cons i l ih =>
      intro hb f hf
      rw [foldM_cons]
      rcases hb f hf i (by simp) with ⟨f', h1, h2⟩ | h1
      · rw [h1, ok_bind]
        exact ih (fun f hf j hj => hb f hf j (by simp [hj])) f' h2
      · rw [h1]; exact Or.inr rfl
  unfold coastal
  by_cases h0 : numParameters = 0
  · rw [if_pos h0]; exact Or.inr rfl
  rw [if_neg h0]
  cases dependent with
  | false => exact Or.inr rfl
  | true =>
    simp only [Bool.not_true, Bool.false_eq_true, if_false]
    unfold eachTime
    have : ∀ l : List Nat, (∀ t ∈ l, t < fields.length) → (∃ out, mapM (fun t : Nat => do
        let f ← vget fields t
        coastField (order t) Y X E r d useNN lafs (params t) f) l = ok out) ∨ mapM (fun t : Nat => do
        let f ← vget fields t
        coastField (order t) Y X E r d useNN lafs (params t) f) l = .abort := by
      intro l
      induction l with
      | nil => intro _; exact Or.inl ⟨[], rfl⟩
      | cons t l ih =>
        intro hl'
        have ht := hl' t (by simp)
        rw [mapM_cons, vget_eq_ok_of_lt ht, ok_bind]
        rcases hfold _ (order t) (fun f hf q hq => hfold _ (List.range E) (fun f hf e he =>
          coastMember_cases r d useNN hl (params t q.1 q.2) hf ((ho t).2 q |>.mp hq).1 ((ho t).2 q |>.mp hq).2 (List.mem_range.mp he)) f hf)
          fields[t] (hs _ (List.getElem_mem ht)) with ⟨f', h1, -⟩ | h1
        · have h2 : coastField (order t) Y X E r d useNN lafs (params t) fields[t] = ok f' := h1
          rw [h2, ok_bind]
          rcases ih (fun t ht => hl' t (by simp [ht])) with ⟨out, h3⟩ | h3
          · rw [h3]; exact Or.inl ⟨_, rfl⟩
          · rw [h3]; exact Or.inr rfl
        · have h2 : coastField (order t) Y X E r d useNN lafs (params t) fields[t] = .abort := h1
          rw [h2]; exact Or.inr rfl
    exact this _ (fun t ht => List.mem_range.mp ht)

/-- **C114** (the parameter file). One without parameters, or that is the same everywhere, ends the program. -/
theorem c114_errors (order : Nat → List (Nat × Nat)) (Y X E : Nat) (r : Int) (d : Fl K) (useNN : Bool) (numParameters : Int) (dependent : Bool)
    (lafs : List (List (Fl K))) (params : Nat → Nat → Nat → List (Fl K)) (fields : List (FieldC K)) (h : numParameters = 0 ∨ dependent = false) :
    coastal order Y X E r d useNN numParameters dependent lafs params fields = .abort := by
  unfold coastal
  rcases h with h | h
  · rw [if_pos h]; rfl
  · subst h
    by_cases h0 : numParameters = 0
    · rw [if_pos h0]; rfl
    · rw [if_neg h0]; rfl

/-- **C114** (the order matters). Two rows with a grid point each: the first is sea with the value 0, the second land with the value 10. The
formula is "value of the sea, plus 1". If the first row comes first, the second one gets 2, otherwise 1. -/
theorem c114_order : Visits 2 1 [(0, 0), (1, 0)] ∧ Visits 2 1 [(1, 0), (0, 0)] ∧
    coastal (fun _ => [(0, 0), (1, 0)]) 2 1 1 1 (fin (1 / 10)) false 3 true [[fin 0], [fin 1]] (fun _ _ _ => [fin 1, fin 1, fin 0])
      [⟨[fin 0, fin 10], 2, 1, 1⟩] = (ok [⟨[fin 1, fin 2], 2, 1, 1⟩] : Res (List (FieldC ℚ))) ∧
    coastal (fun _ => [(1, 0), (0, 0)]) 2 1 1 1 (fin (1 / 10)) false 3 true [[fin 0], [fin 1]] (fun _ _ _ => [fin 1, fin 1, fin 0])
      [⟨[fin 0, fin 10], 2, 1, 1⟩] = (ok [⟨[fin 1, fin 1], 2, 1, 1⟩] : Res (List (FieldC ℚ))) := by
  refine ⟨⟨by decide, ?_⟩, ⟨by decide, ?_⟩, by decide +kernel, by decide +kernel⟩ <;>
  · rintro ⟨y, x⟩
    simp only [List.mem_cons, Prod.mk.injEq, List.not_mem_nil, or_false]
    omega

/-- **C114** (land fractions that are missing). A missing land fraction, -999, counts as the least: the value there is taken for that of
the sea. -/
theorem c114_missing_laf :
    coastal (fun _ => [(0, 0), (1, 0)]) 2 1 1 1 (fin (1 / 10)) false 3 true [[fin 0], [fin (-999)]] (fun _ _ _ => [fin 0, fin 1, fin 0])
      [⟨[fin 5, fin 10], 2, 1, 1⟩] = (ok [⟨[fin 10, fin 10], 2, 1, 1⟩] : Res (List (FieldC ℚ))) := by
  decide +kernel

/-- **C114** (a negative radius). It is not refused. No point is found around, and the missing value -999 is used as a number. -/
theorem c114_negative_radius :
    coastal (fun _ => [(0, 0)]) 1 1 1 (-1) (fin (1 / 10)) false 3 true [[fin 0]] (fun _ _ _ => [fin 0, fin 2, fin 0])
      [⟨[fin 5], 1, 1, 1⟩] = (ok [⟨[fin (-1998)], 1, 1, 1⟩] : Res (List (FieldC ℚ))) := by
  decide +kernel

/-- The hypotheses of `c114_value_partial` hold in a case with a gradient, and the calibrator comes to its end. -/
example : Rect 1 2 [[(fin (1 / 2) : Fl ℚ), fin 0]] ∧ Sized 1 2 1 (⟨[fin 4, fin 2], 1, 2, 1⟩ : FieldC ℚ) ∧
    coastal (fun _ => [(0, 0), (0, 1)]) 1 2 1 1 (fin (1 / 10)) true 3 true [[fin (1 / 2), fin 0]] (fun _ _ _ => [fin 1, fin 2, fin 3])
      [⟨[fin 4, fin 2], 1, 2, 1⟩] = (ok [⟨[fin 21, fin 119], 1, 2, 1⟩] : Res (List (FieldC ℚ))) := by
  refine ⟨⟨rfl, by simp⟩, ⟨rfl, rfl, rfl, rfl⟩, by decide +kernel⟩

end Gridpp.Props
