import Verif.Model.Client.Grid
import Verif.Lemmas.Client.Downscaler

/-! # Lemmas about coordinates, tags and the cache of neighbours of the client -/

set_option linter.unusedSectionVars false

namespace Gridpp.Client
open Fl hiding MV isValid
open Res

variable {K : Type} [Field K] [LinearOrder K] [IsStrictOrderedRing K]

theorem eq_of_feq {u v : Fl K} (h : u.feq v = true) : u = v := by
  cases u <;> cases v <;> simp_all [Fl.feq]

theorem eq_of_eqVec {a b : List (Fl K)} (h : eqVec a b = true) : a = b := by
  obtain ⟨hl, h⟩ := eqVec_iff.mp h
  refine List.ext_getElem hl fun k h1 h2 => ?_
  exact eq_of_feq (h k _ _ (List.getElem?_eq_getElem h1) (List.getElem?_eq_getElem h2))

theorem eq_of_eqVec2 {a b : List (List (Fl K))} (h : eqVec2 a b = true) : a = b := by
  unfold eqVec2 at h
  rw [Bool.and_eq_true, decide_eq_true_eq, List.all_eq_true] at h
  refine List.ext_getElem h.1 fun k h1 h2 => ?_
  refine eq_of_eqVec (h.2 (a[k], b[k]) (List.mem_iff_getElem?.mpr ⟨k, ?_⟩))
  rw [List.getElem?_zip_eq_some]
  exact ⟨List.getElem?_eq_getElem h1, List.getElem?_eq_getElem h2⟩

section
variable [FloorRing K]

theorem sign_pos {q : K} (h : 0 < q) : Fl.truncInt ((fin q : Fl K) / Fl.abs (fin q)) = ok 1 := by
  have : (fin q : Fl K) / Fl.abs (fin q) = fin 1 := by
    have e : Fl.abs (fin q : Fl K) = fin q := by simp [Fl.abs, abs_of_pos h]
    rw [e, fin_div_of_ne q h.ne', div_self h.ne']
  rw [this]
  simp [Fl.truncInt]

theorem sign_neg {q : K} (h : q < 0) : Fl.truncInt ((fin q : Fl K) / Fl.abs (fin q)) = ok (-1) := by
  have : (fin q : Fl K) / Fl.abs (fin q) = fin (-1) := by
    have e : Fl.abs (fin q : Fl K) = fin (-q) := by simp [Fl.abs, abs_of_neg h]
    rw [e, fin_div_of_ne q (by simpa using h.ne), div_neg, div_self h.ne]
  rw [this]
  have h1 : ¬ ((0 : K) ≤ -1) := by norm_num
  have h2 : ⌈(-1 : K)⌉ = -1 := by
    have := Int.ceil_intCast (R := K) (-1)
    simpa using this
  simp [Fl.truncInt, h1, h2]

theorem fmod360_spec {q : K} (h : 0 ≤ q) : ∃ (r : K) (n : Int), fmod360 (fin q : Fl K) = fin r ∧ 0 ≤ r ∧ r < 360 ∧ r = q + 360 * n ∧ (q < 360 → r = q) := by
  refine ⟨q - 360 * (⌊q / 360⌋ : Int), -⌊q / 360⌋, by simp [fmod360, h], ?_, ?_, by push_cast; ring, fun hq => ?_⟩
  · have := Int.floor_le (q / 360)
    rw [le_div_iff₀ (by norm_num)] at this
    linarith
  · have := Int.lt_floor_add_one (q / 360)
    rw [div_lt_iff₀ (by norm_num)] at this
    linarith
  · have : ⌊q / 360⌋ = 0 := by
      rw [Int.floor_eq_zero_iff]
      exact ⟨by positivity, by rw [div_lt_one (by norm_num)]; exact hq⟩
    rw [this]
    simp

/-- What is kept of a longitude other than zero: an equal angle from -180 to 180, the same number if it is already there. -/
theorem standardLon_spec {q : K} (h0 : q ≠ 0) (hm : q ≠ -999) :
    ∃ (r : K) (n : Int), standardLon (fin q : Fl K) = ok (fin r) ∧ -180 ≤ r ∧ r ≤ 180 ∧ r = q + 360 * n ∧ (|q| ≤ 180 → r = q) := by
  have hv : isValid (fin q : Fl K) = true := isValid_iff_present.mpr ⟨q, rfl, hm⟩
  have key : ∀ (s : Int) (w : K), -360 < w → w < 360 → (Fl.ofInt s * fmod360 (Fl.abs (fin q)) : Fl K) = fin w →
      Fl.truncInt ((fin q : Fl K) / Fl.abs (fin q)) = ok s →
      standardLon (fin q : Fl K) = ok (fin (if 180 < w then w - 360 else if w < -180 then w + 360 else w)) := by
    intro s w h1 h2 hw hs
    unfold standardLon
    rw [if_pos hv, hs, ok_bind, hw]
    simp only [gt, lt_fin, decide_eq_true_eq, fin_sub, fin_add]
    have e : (if 180 < w then (fin (w - 360) : Fl K) else if w < -180 then fin (w + 360) else fin w) =
        fin (if 180 < w then w - 360 else if w < -180 then w + 360 else w) := by split_ifs <;> rfl
    rw [e]
    have hr : -180 ≤ (if 180 < w then w - 360 else if w < -180 then w + 360 else w) ∧
        (if 180 < w then w - 360 else if w < -180 then w + 360 else w) ≤ 180 := by
      split_ifs <;> constructor <;> linarith
    have ha : ((fin (if 180 < w then w - 360 else if w < -180 then w + 360 else w) : Fl K).ge (fin (-(1800001 / 10000))) &&
        (fin (if 180 < w then w - 360 else if w < -180 then w + 360 else w) : Fl K).le (fin (1800001 / 10000))) = true := by
      rw [Bool.and_eq_true, ge_fin, le_fin, decide_eq_true_eq, decide_eq_true_eq]
      constructor <;> linarith [hr.1, hr.2]
    rw [ha]
    rfl
  have fin_case : ∀ (w : K) (m : Int), -360 < w → w < 360 → w = q + 360 * m → (|q| < 360 → w = q) →
      ∃ n : Int, -180 ≤ (if 180 < w then w - 360 else if w < -180 then w + 360 else w) ∧
        (if 180 < w then w - 360 else if w < -180 then w + 360 else w) ≤ 180 ∧
        (if 180 < w then w - 360 else if w < -180 then w + 360 else w) = q + 360 * n ∧
        (|q| ≤ 180 → (if 180 < w then w - 360 else if w < -180 then w + 360 else w) = q) := by
    intro w m h1 h2 hw hq
    by_cases a : 180 < w
    · simp only [a, if_true]
      refine ⟨m - 1, by linarith, by linarith, by push_cast; linarith, fun h => ?_⟩
      have := hq (by linarith)
      have := (abs_le.mp h).2
      exact absurd a (by linarith)
    · simp only [a, if_false]
      by_cases b : w < -180
      · simp only [b, if_true]
        refine ⟨m + 1, by linarith, by linarith, by push_cast; linarith, fun h => ?_⟩
        have := hq (by linarith)
        have := (abs_le.mp h).1
        exact absurd b (by linarith)
      · simp only [b, if_false]
        exact ⟨m, by linarith, by linarith, hw, fun h => hq (by linarith)⟩
  rcases lt_or_gt_of_ne h0 with hneg | hpos
  · have e : Fl.abs (fin q : Fl K) = fin (-q) := by simp [Fl.abs, abs_of_neg hneg]
    obtain ⟨r, n, hr, h1, h2, h3, h4⟩ := fmod360_spec (q := -q) (by linarith)
    have hw : (Fl.ofInt (-1) * fmod360 (Fl.abs (fin q)) : Fl K) = fin (-r) := by
      rw [e, hr, ofInt_def, fin_mul]; push_cast; ring_nf
    obtain ⟨m, g1, g2, g3, g4⟩ := fin_case (-r) (-n) (by linarith) (by linarith) (by rw [h3]; push_cast; ring) (fun h => by
      rw [h4 (by rw [abs_of_neg hneg] at h; exact h)]; ring)
    exact ⟨_, m, key (-1) (-r) (by linarith) (by linarith) hw (sign_neg hneg), g1, g2, g3, g4⟩
  · have e : Fl.abs (fin q : Fl K) = fin q := by simp [Fl.abs, abs_of_pos hpos]
    obtain ⟨r, n, hr, h1, h2, h3, h4⟩ := fmod360_spec (q := q) hpos.le
    have hw : (Fl.ofInt 1 * fmod360 (Fl.abs (fin q)) : Fl K) = fin r := by
      rw [e, hr, ofInt_def, fin_mul]; push_cast; ring_nf
    obtain ⟨m, g1, g2, g3, g4⟩ := fin_case r n (by linarith) (by linarith) h3 (fun h => h4 (by rw [abs_of_pos hpos] at h; exact h))
    exact ⟨_, m, key 1 r (by linarith) (by linarith) hw (sign_pos hpos), g1, g2, g3, g4⟩

theorem standardLon_zero : standardLon (fin 0 : Fl K) = .ub := by
  have hv : isValid (fin 0 : Fl K) = true := isValid_iff_present.mpr ⟨0, rfl, by norm_num⟩
  have : (fin 0 : Fl K) / Fl.abs (fin 0) = nan := by
    have e : Fl.abs (fin 0 : Fl K) = fin 0 := by simp [Fl.abs]
    rw [e]
    show Fl.div _ _ = _
    simp [Fl.div, Fl.infOfSign]
  unfold standardLon
  rw [if_pos hv, this]
  rfl

theorem standardLon_missing {v : Fl K} (h : ¬ Present v) : standardLon v = ok v := by
  unfold standardLon
  rw [if_neg (by rw [isValid_iff_present]; exact h)]

/-- A longitude that has been kept stays the same when it is set again, or the behaviour is undefined. -/
theorem standardLon_again {v w y : Fl K} (h : standardLon v = ok w) (h' : standardLon w = ok y) : y = w := by
  by_cases hw : Present w
  swap
  · rw [standardLon_missing hw] at h'
    cases h'
    rfl
  obtain ⟨r, rfl, hr⟩ := hw
  by_cases h0 : r = 0
  · rw [h0, standardLon_zero] at h'
    exact absurd h' (by simp)
  obtain ⟨s, -, e1, -, -, -, e2⟩ := standardLon_spec h0 hr
  rw [e1] at h'
  cases h'
  have hr180 : |r| ≤ 180 := by
    by_cases hv : Present v
    · obtain ⟨q, rfl, hq⟩ := hv
      by_cases hq0 : q = 0
      · rw [hq0, standardLon_zero] at h
        exact absurd h (by simp)
      · obtain ⟨t, -, g1, g2, g3, -⟩ := standardLon_spec hq0 hq
        rw [g1] at h
        cases h
        exact abs_le.mpr ⟨g2, g3⟩
    · rw [standardLon_missing hv] at h
      cases h
      exact absurd ⟨r, rfl, hr⟩ hv
  rw [e2 hr180]

/-- Longitudes that are as `setLons` leaves them. -/
def Kept (lons : List (List (Fl K))) : Prop := ∀ r ∈ lons, ∀ v ∈ r, ∀ y, standardLon v = ok y → y = v

theorem forall₂_right {α β : Type} {R : α → β → Prop} {l : List α} {m : List β} (h : List.Forall₂ R l m) : ∀ b ∈ m, ∃ a ∈ l, R a b := by
  induction h with
  | nil => simp
  | cons h _ ih =>
    intro b hb
    rcases List.mem_cons.mp hb with rfl | hb
    · exact ⟨_, List.mem_cons_self, h⟩
    · obtain ⟨a, ha, hr⟩ := ih b hb
      exact ⟨a, List.mem_cons_of_mem _ ha, hr⟩

theorem kept_std {lons std : List (List (Fl K))} (h : mapM (fun r => mapM standardLon r) lons = ok std) : Kept std := by
  intro r hr v hv y hy
  obtain ⟨r', -, hr'⟩ := forall₂_right (mapM_eq_ok h) r hr
  obtain ⟨v', -, hv'⟩ := forall₂_right (mapM_eq_ok hr') v hv
  exact standardLon_again hv' hy

theorem mapM_fixed {α : Type} {f : α → Res α} {l out : List α} (h : mapM f l = ok out) (hf : ∀ a ∈ l, ∀ b, f a = ok b → b = a) : out = l := by
  have h2 := mapM_eq_ok h
  clear h
  induction h2 with
  | nil => rfl
  | cons h _ ih =>
    rw [hf _ List.mem_cons_self _ h, ih fun a ha => hf a (List.mem_cons_of_mem _ ha)]

theorem std_of_kept {lons std : List (List (Fl K))} (h : mapM (fun r => mapM standardLon r) lons = ok std) (hk : Kept lons) : std = lons :=
  mapM_fixed h fun r hr _ hb => mapM_fixed hb fun v hv y hy => hk r hr v hv y hy

/-! ### Tags -/

/-- A file after an operation: the same file, or one with the next tag. Its longitudes are kept ones. -/
theorem setLats_spec {f f' : GridFile K} {next n : Nat} {lats : List (List (Fl K))} (h : setLats f next lats = ok (some (f', n)))
    (hk : Kept f.lons) : Kept f'.lons ∧ (f' = f ∧ n = next ∨ f'.tag = next ∧ n = next + 1) := by
  unfold setLats at h
  obtain ⟨b, -, h1⟩ := bind_eq_ok.mp h
  cases b with
  | true => exact absurd h1 (by simp)
  | false =>
    simp only [Bool.false_eq_true, if_false] at h1
    obtain ⟨-, -, h2⟩ := bind_eq_ok.mp h1
    simp only [ok.injEq, Option.some.injEq] at h2
    cases he : eqVec2 f.lats lats with
    | true =>
      have := eq_of_eqVec2 he
      simp only [he, if_true, Prod.mk.injEq] at h2
      obtain ⟨rfl, rfl⟩ := h2
      exact ⟨hk, .inl ⟨by rw [← this], rfl⟩⟩
    | false =>
      simp only [he, Bool.false_eq_true, if_false, Prod.mk.injEq] at h2
      obtain ⟨rfl, rfl⟩ := h2
      exact ⟨hk, .inr ⟨rfl, rfl⟩⟩

theorem setLons_spec {f f' : GridFile K} {next n : Nat} {lons : List (List (Fl K))} (h : setLons f next lons = ok (some (f', n)))
    (hk : Kept f.lons) : Kept f'.lons ∧ (f' = f ∧ n = next ∨ f'.tag = next ∧ n = next + 1) := by
  unfold setLons at h
  obtain ⟨b, -, h1⟩ := bind_eq_ok.mp h
  cases b with
  | true => exact absurd h1 (by simp)
  | false =>
    simp only [Bool.false_eq_true, if_false] at h1
    obtain ⟨-, -, h2⟩ := bind_eq_ok.mp h1
    obtain ⟨std, hstd, h3⟩ := bind_eq_ok.mp h2
    simp only [ok.injEq, Option.some.injEq] at h3
    cases he : eqVec2 f.lons lons with
    | true =>
      have e1 := eq_of_eqVec2 he
      simp only [he, if_true, Prod.mk.injEq] at h3
      obtain ⟨rfl, rfl⟩ := h3
      have e2 : std = lons := std_of_kept hstd (e1 ▸ hk)
      exact ⟨kept_std hstd, .inl ⟨by rw [e2, ← e1], rfl⟩⟩
    | false =>
      simp only [he, Bool.false_eq_true, if_false, Prod.mk.injEq] at h3
      obtain ⟨rfl, rfl⟩ := h3
      exact ⟨kept_std hstd, .inr ⟨rfl, rfl⟩⟩

/-- What holds of every reachable state. `Allowed f g t` is to be true of every table in the cache under the tags of `f` and `g`. -/
structure Inv (Allowed : GridFile K → GridFile K → List (List (Int × Int)) → Prop) (w : World K) : Prop where
  below : ∀ f ∈ w.files, f.tag < w.next
  distinct : ∀ (i j : Nat) (f g : GridFile K), w.files[i]? = some f → w.files[j]? = some g → f.tag = g.tag → i = j
  kept : ∀ f ∈ w.files, Kept f.lons
  keys : ∀ p ∈ w.cache, p.1.1 < w.next ∧ p.1.2 < w.next
  tables : ∀ f ∈ w.files, ∀ g ∈ w.files, ∀ t, ((f.tag, g.tag), t) ∈ w.cache → Allowed f g t

/-- What no operation changes: a file whose tag is older than the next tag of the earlier state was there, and was the same. -/
def Older (w w' : World K) : Prop :=
  w.next ≤ w'.next ∧ ∀ (k : Nat) (g : GridFile K), w'.files[k]? = some g → g.tag < w.next → w.files[k]? = some g

theorem Older.refl (w : World K) : Older w w := ⟨le_rfl, fun _ _ h _ => h⟩

theorem Older.trans {a b c : World K} (h : Older a b) (h' : Older b c) : Older a c :=
  ⟨h.1.trans h'.1, fun k g hg ht => h.2 k g (h'.2 k g hg (ht.trans_le h.1)) ht⟩

/-- Replacing a file by itself, or by one with the next tag. -/
theorem Inv.replace {Allowed : GridFile K → GridFile K → List (List (Int × Int)) → Prop} {w : World K} (h : Inv Allowed w) {k n : Nat}
    {f f' : GridFile K} (hf : w.files[k]? = some f) (hk : Kept f'.lons) (hc : f' = f ∧ n = w.next ∨ f'.tag = w.next ∧ n = w.next + 1) :
    Inv Allowed { w with files := w.files.set k f', next := n } ∧ Older w { w with files := w.files.set k f', next := n } := by
  rcases hc with ⟨rfl, rfl⟩ | ⟨ht, rfl⟩
  · have : w.files.set k f' = w.files := by
      refine List.ext_getElem? fun m => ?_
      rw [List.getElem?_set]
      split_ifs with h1 h2
      · rw [← h1, hf]
      · rw [← h1]
        exact (List.getElem?_eq_none (by omega)).symm
      · rfl
    rw [this]
    exact ⟨h, Older.refl w⟩
  · have hklt : k < w.files.length := by
      by_contra hc
      rw [List.getElem?_eq_none (by omega)] at hf
      simp at hf
    have hget : ∀ m g, (w.files.set k f')[m]? = some g → (m = k ∧ g = f') ∨ (m ≠ k ∧ w.files[m]? = some g) := by
      intro m g hg
      rw [List.getElem?_set] at hg
      split_ifs at hg with h1
      · simp only [Option.some.injEq] at hg
        exact .inl ⟨h1.symm, hg.symm⟩
      · exact .inr ⟨Ne.symm h1, hg⟩
    have hmem : ∀ g ∈ w.files.set k f', g = f' ∨ g ∈ w.files := by
      intro g hg
      obtain ⟨m, hm⟩ := List.mem_iff_getElem?.mp hg
      rcases hget m g hm with ⟨-, rfl⟩ | ⟨-, h⟩
      · exact .inl rfl
      · exact .inr (List.mem_of_getElem? h)
    refine ⟨⟨?_, ?_, ?_, ?_, ?_⟩, ?_, ?_⟩
    · intro g hg
      rcases hmem g hg with rfl | hg
      · show g.tag < w.next + 1
        omega
      · exact (h.below g hg).trans (Nat.lt_succ_self _)
    · intro i j a b ha hb hab
      rcases hget i a ha with ⟨hi, ea⟩ | ⟨hi, ha2⟩ <;> rcases hget j b hb with ⟨hj, eb⟩ | ⟨hj, hb2⟩
      · rw [hi, hj]
      · have := h.below b (List.mem_of_getElem? hb2)
        rw [ea] at hab
        omega
      · have := h.below a (List.mem_of_getElem? ha2)
        rw [eb] at hab
        omega
      · exact h.distinct i j a b ha2 hb2 hab
    · intro g hg
      rcases hmem g hg with rfl | hg
      · exact hk
      · exact h.kept g hg
    · intro p hp
      have := h.keys p hp
      exact ⟨this.1.trans (Nat.lt_succ_self _), this.2.trans (Nat.lt_succ_self _)⟩
    · intro a ha b hb t htab
      have hkey := h.keys _ htab
      rcases hmem a ha with rfl | ha
      · exact absurd hkey.1 (by simp [ht])
      · rcases hmem b hb with rfl | hb
        · exact absurd hkey.2 (by simp [ht])
        · exact h.tables a ha b hb t htab
    · exact Nat.le_succ _
    · intro m g hg hlt
      rcases hget m g hg with ⟨-, rfl⟩ | ⟨-, hg⟩
      · omega
      · exact hg

/-- A lookup answers with a table that is allowed. -/
theorem Inv.lookup {Allowed : GridFile K → GridFile K → List (List (Int × Int)) → Prop} {w : World K} (h : Inv Allowed w) {a b : Nat}
    {compute : GridFile K → GridFile K → Res (List (List (Int × Int)))} {r : World K × List (List (Int × Int))}
    (hl : lookup w a b compute = ok r) (hc : ∀ f g t, compute f g = ok t → Allowed f g t) :
    Inv Allowed r.1 ∧ Older w r.1 ∧ ∃ f g, w.files[a]? = some f ∧ w.files[b]? = some g ∧ Allowed f g r.2 := by
  unfold Client.lookup at hl
  obtain ⟨f, hf, hl⟩ := bind_eq_ok.mp hl
  obtain ⟨g, hg, hl⟩ := bind_eq_ok.mp hl
  have hf' : w.files[a]? = some f := by
    rw [vget_nat] at hf
    cases hx : w.files[a]? with
    | none => rw [hx] at hf; exact absurd hf (by simp)
    | some v => rw [hx] at hf; cases hf; rfl
  have hg' : w.files[b]? = some g := by
    rw [vget_nat] at hg
    cases hx : w.files[b]? with
    | none => rw [hx] at hg; exact absurd hg (by simp)
    | some v => rw [hx] at hg; cases hg; rfl
  cases hcache : cached w.cache f.tag g.tag with
  | some t =>
    rw [hcache] at hl
    cases hl
    refine ⟨h, Older.refl w, f, g, hf', hg', ?_⟩
    unfold cached at hcache
    rw [Option.map_eq_some_iff] at hcache
    obtain ⟨p, hp, rfl⟩ := hcache
    have h1 := List.mem_of_find?_eq_some hp
    have h2 := List.find?_some hp
    rw [decide_eq_true_eq] at h2
    refine h.tables f (List.mem_of_getElem? hf') g (List.mem_of_getElem? hg') p.2 ?_
    rw [← h2]
    exact h1
  | none =>
    rw [hcache] at hl
    obtain ⟨t, ht, hl⟩ := bind_eq_ok.mp hl
    cases hl
    have hall := hc f g t ht
    refine ⟨⟨h.below, h.distinct, h.kept, ?_, ?_⟩, ⟨le_rfl, fun _ _ h _ => h⟩, f, g, hf', hg', hall⟩
    · intro p hp
      rcases List.mem_cons.mp hp with rfl | hp
      · exact ⟨h.below f (List.mem_of_getElem? hf'), h.below g (List.mem_of_getElem? hg')⟩
      · exact h.keys p hp
    · intro f1 hf1 g1 hg1 t1 ht1
      rcases List.mem_cons.mp ht1 with he | ht1
      · simp only [Prod.mk.injEq] at he
        obtain ⟨⟨e1, e2⟩, rfl⟩ := he
        have : ∀ u v : GridFile K, u ∈ w.files → v ∈ w.files → u.tag = v.tag → u = v := by
          intro u v hu hv huv
          obtain ⟨i, hi⟩ := List.mem_iff_getElem?.mp hu
          obtain ⟨j, hj⟩ := List.mem_iff_getElem?.mp hv
          have := h.distinct i j u v hi hj huv
          subst this
          rw [hi, Option.some.injEq] at hj
          exact hj
        rw [this f1 f hf1 (List.mem_of_getElem? hf') e1, this g1 g hg1 (List.mem_of_getElem? hg') e2]
        exact hall
      · exact h.tables f1 hf1 g1 hg1 t1 ht1

end

end Gridpp.Client
