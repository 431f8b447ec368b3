import Verif.Props.NeighbourhoodLaws
import Verif.Props.OIUnits
import Verif.Model.Gradient
import Verif.Lemmas.BilinearGrid
import Verif.Spec.Units

/-! C175: downscaling in other units. -/

set_option linter.unusedSectionVars false

namespace Gridpp.Props
open Fl Res Spec

/-! ### Lists of functions -/

theorem mapM_layers {φ α β γ : Type} {F : List φ} {l : List α} {f' : α → Res γ} {f : α → Res β} {h : φ → β → γ}
    (H : List.Forall₂ (fun u t => f' t = h u <$> f t) F l) : mapM f' l = List.zipWith h F <$> mapM f l := by
  induction H with
  | nil => rfl
  | cons e _ ih =>
    rw [mapM_cons, mapM_cons, e, ih]
    cases f _ with
    | ok v =>
      rw [map_ok, ok_bind, ok_bind]
      cases mapM f _ <;> rfl
    | _ => rfl

theorem mapM_layers_arg {φ α δ β γ : Type} {F : List φ} {l : List α} (g : φ → α → δ) {f' : δ → Res γ} {f : α → Res β} (h : φ → β → γ) (hl : F.length = l.length)
    (hf : ∀ u ∈ F, ∀ a, f' (g u a) = h u <$> f a) : mapM f' (List.zipWith g F l) = List.zipWith h F <$> mapM f l := by
  induction F generalizing l with
  | nil =>
    cases l with
    | nil => rfl
    | cons _ _ => cases hl
  | cons u F ih =>
    cases l with
    | nil => cases hl
    | cons a l =>
      rw [List.zipWith_cons_cons, mapM_cons, mapM_cons, hf u List.mem_cons_self, ih (by simpa using hl) fun v hv => hf v (List.mem_cons_of_mem _ hv)]
      cases f a with
      | ok v =>
        rw [map_ok, ok_bind, ok_bind]
        cases mapM f l <;> rfl
      | _ => rfl

theorem mapM_upto_layers {φ β γ : Type} {F : List φ} {n : Nat} (hl : F.length = n) {f' : Int → Res γ} {f : Int → Res β} (h : φ → β → γ)
    (hf : ∀ k (hk : k < F.length), f' (k : Int) = h F[k] <$> f (k : Int)) : mapM f' (upto n) = List.zipWith h F <$> mapM f (upto n) := by
  apply mapM_layers
  rw [List.forall₂_iff_get]
  refine ⟨by simp [upto, hl], fun i h1 h2 => ?_⟩
  simpa [upto] using hf i h1

theorem vget_zipWith {φ α β : Type} (g : φ → α → β) {F : List φ} {l : List α} (hl : F.length = l.length) (k : Nat) (hk : k < F.length) :
    vget (List.zipWith g F l) (k : Int) = g F[k] <$> vget l (k : Int) := by
  have h1 : k < l.length := hl ▸ hk
  have h2 : k < (List.zipWith g F l).length := by simp; omega
  rw [vget_some (List.getElem?_eq_getElem h2), vget_some (List.getElem?_eq_getElem h1), map_ok, List.getElem_zipWith]

theorem bind_congr_ok {α β : Type} {x : Res α} {f g : α → Res β} (h : ∀ a, x = ok a → f a = g a) : (x >>= f) = x >>= g := by
  cases x with
  | ok a => exact h a rfl
  | _ => rfl

theorem mem_of_vget {α : Type} {l : List α} {i : Int} {a : α} (h : vget l i = ok a) : a ∈ l := by
  obtain ⟨n, -, h⟩ := vget_eq_ok.mp h
  exact List.mem_of_getElem? h

theorem mapM_mem {α β : Type} {f : α → Res β} {l : List α} {r : List β} (h : mapM f l = ok r) {b : β} (hb : b ∈ r) : ∃ a, f a = ok b := by
  have H := mapM_eq_ok h
  obtain ⟨k, hk, rfl⟩ := List.getElem_of_mem hb
  rw [List.forall₂_iff_get] at H
  exact ⟨_, H.2 k (by omega) hk⟩

/-- Whatever is read from the result of a loop over a grid was computed by the body. -/
theorem grid2_read {β : Type} {Y X : Nat} {f : Int → Int → Res β} {out : List (List β)} (h : grid2 Y X f = ok out) {y x : Int} {v : β} (hv : vget2 out y x = ok v) :
    ∃ y x, f y x = ok v := by
  obtain ⟨r, hr, hv⟩ := bind_eq_ok.mp hv
  obtain ⟨y, hy⟩ := mapM_mem h (mem_of_vget hr)
  obtain ⟨x, hx⟩ := mapM_mem hy (mem_of_vget hv)
  exact ⟨y, x, hx⟩

section
variable {K : Type} [Field K] [LinearOrder K] [IsStrictOrderedRing K] [HasGeo K]

theorem compatibleSizeG2_map {α β : Type} (g : Grid K) (f : α → β) (v : List (List α)) : compatibleSizeG2 g (v.map (List.map f)) = compatibleSizeG2 g v := by
  cases v with
  | nil => rfl
  | cons r t => simp [compatibleSizeG2]

theorem compatibleSizeG3_layers {α β φ : Type} (g : Grid K) (h : φ → α → β) (F : List φ) (v : List (List (List α))) (hl : F.length = v.length) :
    compatibleSizeG3 g (List.zipWith (fun u => List.map (List.map (h u))) F v) = compatibleSizeG3 g v := by
  cases v with
  | nil => cases F <;> rfl
  | cons r t =>
    cases F with
    | nil => cases hl
    | cons u F =>
      cases r with
      | nil => rfl
      | cons a b => simp [compatibleSizeG3]

theorem compatibleSizeP2_layers {α β φ : Type} (p : Points K) (h : φ → α → β) (F : List φ) (v : List (List α)) (hl : F.length = v.length) :
    compatibleSizeP2 p (List.zipWith (fun u => List.map (h u)) F v) = compatibleSizeP2 p v := by
  cases v with
  | nil => cases F <;> rfl
  | cons r t =>
    cases F with
    | nil => cases hl
    | cons u F => simp [compatibleSizeP2]

theorem initVec2_map {α β : Type} (f : α → β) (Y X : Nat) (v : α) : (initVec2 Y X v).map (List.map f) = initVec2 Y X (f v) := by
  simp [initVec2]

theorem initVec3_layers {F : List (Fl K → Fl K)} {n : Nat} (hl : F.length = n) (hF : ∀ f ∈ F, f nan = nan) (Y X : Nat) :
    List.zipWith (fun f => List.map (List.map f)) F (initVec3 n Y X MV) = initVec3 n Y X MV := by
  subst hl
  unfold initVec3
  apply List.ext_getElem
  · simp
  · intro i h1 h2
    simp only [List.length_zipWith, List.length_replicate, Nat.min_self] at h1
    rw [List.getElem_zipWith, List.getElem_replicate, initVec2_map]
    exact congrArg (initVec2 Y X) (hF _ (List.getElem_mem h1))

theorem initVec2_layers {F : List (Fl K → Fl K)} {n : Nat} (hl : F.length = n) (hF : ∀ f ∈ F, f nan = nan) (X : Nat) :
    List.zipWith (fun f => List.map f) F (initVec2 n X MV) = initVec2 n X MV := by
  subst hl
  unfold initVec2
  apply List.ext_getElem
  · simp
  · intro i h1 h2
    simp only [List.length_zipWith, List.length_replicate, Nat.min_self] at h1
    rw [List.getElem_zipWith, List.getElem_replicate, List.map_replicate]
    exact congrArg (List.replicate X) (hF _ (List.getElem_mem h1))

/-! ### The nearest neighbour -/

theorem nearestGG2_map (T : RTree K) (f : Fl K → Fl K) (hf : f nan = nan) (ig : Grid K) (og : Grid K) (iv : List (List (Fl K))) :
    nearestGG2 T ig og (iv.map (List.map f)) = List.map (List.map f) <$> nearestGG2 T ig og iv := by
  unfold nearestGG2
  simp only [compatibleSizeG2_map, vget2_map, bind_map_eq]
  congr 1; funext c
  split
  · rfl
  simp only [← bind_map_eq, grid2_map_eq, omp_map]
  simp only [bind_map_eq]
  congr 1; funext r
  congr 1; funext s
  split
  · rw [map_ok, initVec2_map, show MV = (nan : Fl K) from rfl, hf]
  · rfl

theorem nearestGP2_map (T : RTree K) (f : Fl K → Fl K) (hf : f nan = nan) (ig : Grid K) (op : Points K) (iv : List (List (Fl K))) :
    nearestGP2 T ig op (iv.map (List.map f)) = List.map f <$> nearestGP2 T ig op iv := by
  unfold nearestGP2
  simp only [compatibleSizeG2_map, vget2_map, bind_map_eq]
  congr 1; funext c
  split
  · rfl
  simp only [← bind_map_eq, mapM_map_eq, omp_map]
  simp only [bind_map_eq]
  congr 1; funext s
  split
  · rw [map_ok, List.map_replicate, show MV = (nan : Fl K) from rfl, hf]
  · rfl

theorem nearestPG1_map (T : RTree K) (f : Fl K → Fl K) (hf : f nan = nan) (ip : Points K) (og : Grid K) (pv : List (Fl K)) :
    nearestPG1 T ip og (pv.map f) = List.map (List.map f) <$> nearestPG1 T ip og pv := by
  unfold nearestPG1
  simp only [List.length_map, vget_map]
  split
  · rfl
  simp only [← bind_map_eq, grid2_map_eq, omp_map]
  simp only [bind_map_eq]
  congr 1; funext s
  split
  · rw [map_ok, initVec2_map, show MV = (nan : Fl K) from rfl, hf]
  · rfl

theorem nearestPP1_map (T : RTree K) (f : Fl K → Fl K) (hf : f nan = nan) (ip : Points K) (op : Points K) (pv : List (Fl K)) :
    nearestPP1 T ip op (pv.map f) = List.map f <$> nearestPP1 T ip op pv := by
  unfold nearestPP1
  simp only [List.length_map, vget_map]
  split
  · rfl
  split
  · rw [map_ok, List.map_replicate, show MV = (nan : Fl K) from rfl, hf]
  · simp only [← bind_map_eq, mapM_map_eq, omp_map]

/-- **C175**: `nearest` takes any change of the values that keeps missing values to the output: fields and values at points. -/
theorem c175_nearest (T : RTree K) (f : Fl K → Fl K) (hf : f nan = nan) (ig og : Grid K) (ip op : Points K) (iv : List (List (Fl K))) (pv : List (Fl K)) :
    nearestGG2 T ig og (iv.map (List.map f)) = List.map (List.map f) <$> nearestGG2 T ig og iv ∧
    nearestGP2 T ig op (iv.map (List.map f)) = List.map f <$> nearestGP2 T ig op iv ∧
    nearestPG1 T ip og (pv.map f) = List.map (List.map f) <$> nearestPG1 T ip og pv ∧
    nearestPP1 T ip op (pv.map f) = List.map f <$> nearestPP1 T ip op pv :=
  ⟨nearestGG2_map T f hf ig og iv, nearestGP2_map T f hf ig op iv, nearestPG1_map T f hf ip og pv, nearestPP1_map T f hf ip op pv⟩

theorem nearestGG3_layers (T : RTree K) {F : List (Fl K → Fl K)} (hF : ∀ f ∈ F, f nan = nan) (ig : Grid K) (og : Grid K) (iv : List (List (List (Fl K)))) (hi : F.length = iv.length) :
    nearestGG3 T ig og (List.zipWith (fun f => List.map (List.map f)) F iv) = List.zipWith (fun f => List.map (List.map f)) F <$> nearestGG3 T ig og iv := by
  have e1 : ∀ (g : (Fl K → Fl K) → List (List (Fl K)) → List (List (Fl K))), (List.zipWith g F iv).length = iv.length := fun g => by simp [hi]
  unfold nearestGG3
  simp only [compatibleSizeG3_layers _ _ _ _ hi, e1, bind_map_eq]
  congr 1; funext c
  split
  · rfl
  rw [bind_map_eq]
  congr 1; funext r
  rw [bind_map_eq]
  congr 1; funext s
  split
  · rw [map_ok, initVec3_layers hi hF]
  rw [bind_map_eq]
  congr 1; funext IJ
  refine mapM_upto_layers hi _ fun k hk => ?_
  simp only [vget_zipWith _ hi k hk, map_bind_eq, vget2_map]
  simp only [← bind_map_eq, grid2_map_eq]

theorem nearestGP3_layers (T : RTree K) {F : List (Fl K → Fl K)} (hF : ∀ f ∈ F, f nan = nan) (ig : Grid K) (op : Points K) (iv : List (List (List (Fl K)))) (hi : F.length = iv.length) :
    nearestGP3 T ig op (List.zipWith (fun f => List.map (List.map f)) F iv) = List.zipWith (fun f => List.map f) F <$> nearestGP3 T ig op iv := by
  have e1 : ∀ (g : (Fl K → Fl K) → List (List (Fl K)) → List (List (Fl K))), (List.zipWith g F iv).length = iv.length := fun g => by simp [hi]
  unfold nearestGP3
  simp only [compatibleSizeG3_layers _ _ _ _ hi, e1, bind_map_eq]
  congr 1; funext c
  split
  · rfl
  rw [bind_map_eq]
  congr 1; funext s
  split
  · rw [map_ok, initVec2_layers hi hF]
  rw [bind_map_eq]
  congr 1; funext IJ
  unfold grid2
  refine mapM_upto_layers hi _ fun k hk => ?_
  simp only [vget_zipWith _ hi k hk, map_bind_eq, vget2_map]
  simp only [← bind_map_eq, mapM_map_eq]

theorem nearestPG2_layers (T : RTree K) {F : List (Fl K → Fl K)} (hF : ∀ f ∈ F, f nan = nan) (ip : Points K) (og : Grid K) (pv : List (List (Fl K))) (hp : F.length = pv.length) :
    nearestPG2 T ip og (List.zipWith (fun f => List.map f) F pv) = List.zipWith (fun f => List.map (List.map f)) F <$> nearestPG2 T ip og pv := by
  have e2 : ∀ (g : (Fl K → Fl K) → List (Fl K) → List (Fl K)), (List.zipWith g F pv).length = pv.length := fun g => by simp [hp]
  unfold nearestPG2
  simp only [compatibleSizeP2_layers _ _ _ _ hp, e2]
  split
  · rfl
  rw [bind_map_eq]
  congr 1; funext r
  split
  · rw [map_ok, initVec3_layers hp hF]
  rw [bind_map_eq]
  congr 1; funext I
  refine mapM_upto_layers hp _ fun k hk => ?_
  unfold vget2
  simp only [vget_zipWith _ hp k hk, map_bind_eq, vget_map]
  simp only [← bind_map_eq, grid2_map_eq]

theorem nearestPP2_layers (T : RTree K) {F : List (Fl K → Fl K)} (hF : ∀ f ∈ F, f nan = nan) (ip : Points K) (op : Points K) (pv : List (List (Fl K))) (hp : F.length = pv.length) :
    nearestPP2 T ip op (List.zipWith (fun f => List.map f) F pv) = List.zipWith (fun f => List.map f) F <$> nearestPP2 T ip op pv := by
  have e2 : ∀ (g : (Fl K → Fl K) → List (Fl K) → List (Fl K)), (List.zipWith g F pv).length = pv.length := fun g => by simp [hp]
  unfold nearestPP2
  simp only [compatibleSizeP2_layers _ _ _ _ hp, e2]
  split
  · rfl
  split
  · rw [map_ok, initVec2_layers hp hF]
  rw [bind_map_eq]
  congr 1; funext I
  unfold grid2
  refine mapM_upto_layers hp _ fun k hk => ?_
  unfold vget2
  simp only [vget_zipWith _ hp k hk, map_bind_eq, vget_map]
  simp only [← bind_map_eq, mapM_map_eq]

/-- **C175**: `nearest` for several times, with a change of its own for each time. -/
theorem c175_nearest_layers (T : RTree K) (F : List (Fl K → Fl K)) (hF : ∀ f ∈ F, f nan = nan) (ig og : Grid K) (ip op : Points K) (iv : List (List (List (Fl K))))
    (pv : List (List (Fl K))) (hi : F.length = iv.length) (hp : F.length = pv.length) :
    nearestGG3 T ig og (List.zipWith (fun f => List.map (List.map f)) F iv) = List.zipWith (fun f => List.map (List.map f)) F <$> nearestGG3 T ig og iv ∧
    nearestGP3 T ig op (List.zipWith (fun f => List.map (List.map f)) F iv) = List.zipWith (fun f => List.map f) F <$> nearestGP3 T ig op iv ∧
    nearestPG2 T ip og (List.zipWith (fun f => List.map f) F pv) = List.zipWith (fun f => List.map (List.map f)) F <$> nearestPG2 T ip og pv ∧
    nearestPP2 T ip op (List.zipWith (fun f => List.map f) F pv) = List.zipWith (fun f => List.map f) F <$> nearestPP2 T ip op pv :=
  ⟨nearestGG3_layers T hF ig og iv hi, nearestGP3_layers T hF ig op iv hi, nearestPG2_layers T hF ip og pv hp, nearestPP2_layers T hF ip op pv hp⟩

/-! ### Bilinear interpolation -/

variable [HasSqrt K]

theorem unitRange_fin {s t : Fl K} (h : unitRange s t = true) : ∃ p q, s = fin p ∧ t = fin q := by
  unfold unitRange at h
  simp only [Bool.and_eq_true] at h
  obtain ⟨⟨⟨a, b⟩, c⟩, d⟩ := h
  cases s with
  | fin p =>
    cases t with
    | fin q => exact ⟨p, q, rfl, rfl⟩
    | nan => cases c
    | pinf => cases d
    | ninf => cases c
  | nan => cases a
  | pinf => cases b
  | ninf => cases a

theorem isValid_fin {v : Fl K} (h : v.isValid = true) : ∃ q, v = fin q := by
  cases v <;> first | exact ⟨_, rfl⟩ | cases h

theorem boxValue_units {c : K} (hc : c ≠ 0) (d : K) (T : RTree K) (g : Grid K) (iv : List (List (Fl K))) (lat lon : Fl K) (b : Box) (q : Quad K) :
    boxValue T g (iv.map (List.map (inUnits c d))) lat lon b q = inUnits c d <$> boxValue T g iv lat lon b q := by
  unfold boxValue nearestValue
  simp only [vget2_map, map_bind_eq, bind_map_eq, inUnits_isValid hc]
  congr 1; funext v0
  congr 1; funext v1
  congr 1; funext v2
  congr 1; funext v3
  split
  · rename_i hv
    simp only [Bool.and_eq_true] at hv
    obtain ⟨a0, rfl⟩ := isValid_fin hv.1.1.1
    obtain ⟨a1, rfl⟩ := isValid_fin hv.1.1.2
    obtain ⟨a2, rfl⟩ := isValid_fin hv.1.2
    obtain ⟨a3, rfl⟩ := isValid_fin hv.2
    unfold bilinear4
    rw [bind_map_eq]
    congr 1; funext st
    dsimp only
    split
    · rename_i hu
      obtain ⟨p, r, e1, e2⟩ := unitRange_fin hu
      rw [e1, e2, map_ok]
      congr 1
      simp only [bilinearSum, inUnits, one_def, fin_mul, fin_add, fin_sub]
      congr 1
      ring
    · rfl
  · rw [bind_map_eq]

theorem bilinearAt_units {c : K} (hc : c ≠ 0) (d : K) (T : RTree K) (g : Grid K) (iv : List (List (Fl K))) (lat lon : Fl K) :
    bilinearAt T g (iv.map (List.map (inUnits c d))) lat lon = inUnits c d <$> bilinearAt T g iv lat lon := by
  unfold bilinearAt
  simp only [boxValue_units hc, nearestValue, vget2_map]
  rw [bind_map_eq]
  congr 1; funext box
  cases box with
  | none => dsimp only; rw [bind_map_eq]
  | some b => dsimp only; rw [bind_map_eq]

theorem unitChanges_nan {F : List (Fl K → Fl K)} (h : UnitChanges F) : ∀ f ∈ F, f nan = nan := by
  intro f hf
  obtain ⟨c, d, -, rfl⟩ := h f hf
  simp [inUnits]

theorem bilinearAt3_units {F : List (Fl K → Fl K)} (hF : UnitChanges F) (T : RTree K) (g : Grid K) (iv : List (List (List (Fl K)))) (hl : F.length = iv.length) (lat lon : Fl K) :
    bilinearAt3 T g (List.zipWith (fun f => List.map (List.map f)) F iv) lat lon = List.zipWith (fun f v => f v) F <$> bilinearAt3 T g iv lat lon := by
  unfold bilinearAt3
  rw [bind_map_eq]
  congr 1; funext box
  cases box with
  | none =>
    dsimp only
    rw [bind_map_eq]
    congr 1; funext k
    exact mapM_layers_arg _ _ hl fun f _ a => vget2_map f a _ _
  | some b =>
    dsimp only
    rw [bind_map_eq]
    congr 1; funext q
    refine mapM_layers_arg _ _ hl fun f hf a => ?_
    obtain ⟨c, d, hc, rfl⟩ := hF f hf
    exact boxValue_units hc d T g a lat lon b q

theorem bilinearGG2_units (T : RTree K) {c : K} (hc : c ≠ 0) (d : K) (ig : Grid K) (og : Grid K) (iv : List (List (Fl K))) :
    bilinearGG2 T ig og (iv.map (List.map (inUnits c d))) = List.map (List.map (inUnits c d)) <$> bilinearGG2 T ig og iv := by
  have hf : inUnits c d nan = nan := by simp [inUnits]
  unfold bilinearGG2
  simp only [compatibleSizeG2_map, bilinearAt_units hc, bind_map_eq]
  congr 1; funext c'
  split
  · rfl
  simp only [← bind_map_eq, grid2_map_eq, omp_map]
  simp only [bind_map_eq]
  congr 1; funext r
  congr 1; funext s
  split
  · rw [map_ok, initVec2_map, show MV = (nan : Fl K) from rfl, hf]
  · rfl

theorem bilinearGP2_units (T : RTree K) {c : K} (hc : c ≠ 0) (d : K) (ig : Grid K) (op : Points K) (iv : List (List (Fl K))) :
    bilinearGP2 T ig op (iv.map (List.map (inUnits c d))) = List.map (inUnits c d) <$> bilinearGP2 T ig op iv := by
  have hf : inUnits c d nan = nan := by simp [inUnits]
  unfold bilinearGP2
  simp only [compatibleSizeG2_map, bilinearAt_units hc, bind_map_eq]
  congr 1; funext c'
  split
  · rfl
  simp only [← bind_map_eq, mapM_map_eq, omp_map]
  simp only [bind_map_eq]
  congr 1; funext s
  split
  · rw [map_ok, List.map_replicate, show MV = (nan : Fl K) from rfl, hf]
  · rfl

/-- **C175**: bilinear interpolation in other units. -/
theorem c175_bilinear (T : RTree K) (c d : K) (hc : c ≠ 0) (ig og : Grid K) (op : Points K) (iv : List (List (Fl K))) :
    bilinearGG2 T ig og (iv.map (List.map (inUnits c d))) = List.map (List.map (inUnits c d)) <$> bilinearGG2 T ig og iv ∧
    bilinearGP2 T ig op (iv.map (List.map (inUnits c d))) = List.map (inUnits c d) <$> bilinearGP2 T ig op iv :=
  ⟨bilinearGG2_units T hc d ig og iv, bilinearGP2_units T hc d ig op iv⟩

/-- The list of the values of all times at one place has as many elements as there are times. -/
theorem bilinearAt3_length {T : RTree K} {ig : Grid K} {iv : List (List (List (Fl K)))} {la lo : Fl K} {r : List (Fl K)} (h : bilinearAt3 T ig iv la lo = ok r) :
    r.length = iv.length := by
  unfold bilinearAt3 at h
  obtain ⟨box, -, h⟩ := bind_eq_ok.mp h
  cases box with
  | none =>
    obtain ⟨k, -, h⟩ := bind_eq_ok.mp h
    exact mapM_length h
  | some b =>
    obtain ⟨k, -, h⟩ := bind_eq_ok.mp h
    exact mapM_length h

theorem bilinearGG3_layers (T : RTree K) {F : List (Fl K → Fl K)} (hF : UnitChanges F) (ig : Grid K) (og : Grid K) (iv : List (List (List (Fl K)))) (hi : F.length = iv.length) :
    bilinearGG3 T ig og (List.zipWith (fun f => List.map (List.map f)) F iv) = List.zipWith (fun f => List.map (List.map f)) F <$> bilinearGG3 T ig og iv := by
  have e1 : ∀ (g : (Fl K → Fl K) → List (List (Fl K)) → List (List (Fl K))), (List.zipWith g F iv).length = iv.length := fun g => by simp [hi]
  unfold bilinearGG3
  simp only [compatibleSizeG3_layers _ _ _ _ hi, e1, bilinearAt3_units hF T ig iv hi, bind_map_eq]
  congr 1; funext c
  split
  · rfl
  rw [bind_map_eq]
  congr 1; funext r
  rw [bind_map_eq]
  congr 1; funext s
  split
  · rw [map_ok, initVec3_layers hi (unitChanges_nan hF)]
  simp only [← bind_map_eq, grid2_map_eq, omp_map]
  rw [map_bind_eq, bind_map_eq]
  apply bind_congr_ok
  intro temp htemp
  refine mapM_upto_layers hi _ fun k hk => ?_
  rw [← grid2_map_eq]
  congr 1
  funext y x
  rw [vget2_map, map_bind_eq, bind_map_eq]
  apply bind_congr_ok
  intro v hv
  obtain ⟨y', x', h⟩ := grid2_read (Gridpp.omp_eq_ok.mp htemp) hv
  obtain ⟨la, -, h⟩ := bind_eq_ok.mp h
  obtain ⟨lo, -, h⟩ := bind_eq_ok.mp h
  exact vget_zipWith _ (hi.trans (bilinearAt3_length h).symm) k hk

theorem bilinearGP3_layers (T : RTree K) {F : List (Fl K → Fl K)} (hF : UnitChanges F) (ig : Grid K) (op : Points K) (iv : List (List (List (Fl K)))) (hi : F.length = iv.length) :
    bilinearGP3 T ig op (List.zipWith (fun f => List.map (List.map f)) F iv) = List.zipWith (fun f => List.map f) F <$> bilinearGP3 T ig op iv := by
  have e1 : ∀ (g : (Fl K → Fl K) → List (List (Fl K)) → List (List (Fl K))), (List.zipWith g F iv).length = iv.length := fun g => by simp [hi]
  unfold bilinearGP3
  simp only [compatibleSizeG3_layers _ _ _ _ hi, e1, bilinearAt3_units hF T ig iv hi, bind_map_eq]
  congr 1; funext c
  split
  · rfl
  rw [bind_map_eq]
  congr 1; funext s
  split
  · rw [map_ok, initVec2_layers hi (unitChanges_nan hF)]
  simp only [← bind_map_eq, mapM_map_eq, omp_map]
  rw [map_bind_eq, bind_map_eq]
  apply bind_congr_ok
  intro temp htemp
  unfold grid2
  refine mapM_upto_layers hi _ fun k hk => ?_
  rw [← mapM_map_eq]
  congr 1
  funext i
  dsimp only
  rw [vget_map, map_bind_eq, bind_map_eq]
  apply bind_congr_ok
  intro v hv
  obtain ⟨i', h⟩ := mapM_mem (Gridpp.omp_eq_ok.mp htemp) (mem_of_vget hv)
  obtain ⟨la, -, h⟩ := bind_eq_ok.mp h
  obtain ⟨lo, -, h⟩ := bind_eq_ok.mp h
  exact vget_zipWith _ (hi.trans (bilinearAt3_length h).symm) k hk

/-- **C175**: bilinear interpolation for several times, each in units of its own. -/
theorem c175_bilinear_layers (T : RTree K) (F : List (Fl K → Fl K)) (hF : UnitChanges F) (ig og : Grid K) (op : Points K) (iv : List (List (List (Fl K))))
    (hi : F.length = iv.length) :
    bilinearGG3 T ig og (List.zipWith (fun f => List.map (List.map f)) F iv) = List.zipWith (fun f => List.map (List.map f)) F <$> bilinearGG3 T ig og iv ∧
    bilinearGP3 T ig op (List.zipWith (fun f => List.map (List.map f)) F iv) = List.zipWith (fun f => List.map f) F <$> bilinearGP3 T ig op iv :=
  ⟨bilinearGG3_layers T hF ig og iv hi, bilinearGP3_layers T hF ig op iv hi⟩

/-! ### `downscaling` -/

theorem inUnits_nan (c d : K) : inUnits c d nan = (nan : Fl K) := by simp [inUnits]

theorem inUnits_zero (c : K) : inUnits c 0 = fun v : Fl K => fin c * v := by
  funext v
  unfold inUnits
  generalize fin c * v = u
  cases u <;> first | rfl | simp

theorem inUnits_one : inUnits (1 : K) 0 = fun v : Fl K => v := by
  funext v
  rw [inUnits_zero]
  obtain ⟨-, e1, e2⟩ | ⟨h', -⟩ := scale_cases (one_ne_zero (α := K))
  · cases v <;> simp only [e1, e2, mul_nan, fin_mul, one_mul]
  · exact absurd h' (not_lt.mpr zero_le_one)

theorem downscalingGG2_units (T : RTree K) (s : Downscaler) {c : K} (hc : c ≠ 0) (d : K) (ig og : Grid K) (iv : List (List (Fl K))) :
    downscalingGG2 T s ig og (iv.map (List.map (inUnits c d))) = List.map (List.map (inUnits c d)) <$> downscalingGG2 T s ig og iv := by
  unfold downscalingGG2
  rw [compatibleSizeG2_map, bind_map_eq]
  congr 1; funext b
  split
  · rfl
  cases s with
  | nearest => exact nearestGG2_map T _ (inUnits_nan c d) ig og iv
  | bilinear => exact bilinearGG2_units T hc d ig og iv
  | other => rfl

theorem downscalingGP2_units (T : RTree K) (s : Downscaler) {c : K} (hc : c ≠ 0) (d : K) (ig : Grid K) (op : Points K) (iv : List (List (Fl K))) :
    downscalingGP2 T s ig op (iv.map (List.map (inUnits c d))) = List.map (inUnits c d) <$> downscalingGP2 T s ig op iv := by
  unfold downscalingGP2
  rw [compatibleSizeG2_map, bind_map_eq]
  congr 1; funext b
  split
  · rfl
  cases s with
  | nearest => exact nearestGP2_map T _ (inUnits_nan c d) ig op iv
  | bilinear => exact bilinearGP2_units T hc d ig op iv
  | other => rfl

theorem downscalingGG3_layers (T : RTree K) (s : Downscaler) {F : List (Fl K → Fl K)} (hF : UnitChanges F) (ig og : Grid K) (iv : List (List (List (Fl K))))
    (hi : F.length = iv.length) :
    downscalingGG3 T s ig og (List.zipWith (fun f => List.map (List.map f)) F iv) = List.zipWith (fun f => List.map (List.map f)) F <$> downscalingGG3 T s ig og iv := by
  unfold downscalingGG3
  rw [compatibleSizeG3_layers _ _ _ _ hi, bind_map_eq]
  congr 1; funext b
  split
  · rfl
  cases s with
  | nearest => exact nearestGG3_layers T (unitChanges_nan hF) ig og iv hi
  | bilinear => exact bilinearGG3_layers T hF ig og iv hi
  | other => rfl

theorem downscalingGP3_layers (T : RTree K) (s : Downscaler) {F : List (Fl K → Fl K)} (hF : UnitChanges F) (ig : Grid K) (op : Points K) (iv : List (List (List (Fl K))))
    (hi : F.length = iv.length) :
    downscalingGP3 T s ig op (List.zipWith (fun f => List.map (List.map f)) F iv) = List.zipWith (fun f => List.map f) F <$> downscalingGP3 T s ig op iv := by
  unfold downscalingGP3
  rw [compatibleSizeG3_layers _ _ _ _ hi, bind_map_eq]
  congr 1; funext b
  split
  · rfl
  cases s with
  | nearest => exact nearestGP3_layers T (unitChanges_nan hF) ig op iv hi
  | bilinear => exact bilinearGP3_layers T hF ig op iv hi
  | other => rfl

theorem zipWith_replicate_map {α β φ : Type} (g : φ → α → β) (u : φ) (l : List α) : List.zipWith g (List.replicate l.length u) l = l.map (g u) := by
  induction l with
  | nil => rfl
  | cons a t ih => rw [List.length_cons, List.replicate_succ, List.zipWith_cons_cons, ih, List.map_cons]

theorem unitChanges_replicate {c : K} (hc : c ≠ 0) (d : K) (n : Nat) : UnitChanges (List.replicate n (inUnits c d)) :=
  fun _ hf => ⟨c, d, hc, List.eq_of_mem_replicate hf⟩

theorem downscalingGG3_length {T : RTree K} {s : Downscaler} {ig og : Grid K} {iv out : List (List (List (Fl K)))} (h : downscalingGG3 T s ig og iv = ok out) :
    out.length = iv.length := by
  unfold downscalingGG3 at h
  obtain ⟨b, -, h⟩ := bind_eq_ok.mp h
  split at h
  · cases h
  cases s with
  | nearest =>
    unfold nearestGG3 at h
    obtain ⟨b, -, h⟩ := bind_eq_ok.mp h
    split at h
    · cases h
    obtain ⟨r, -, h⟩ := bind_eq_ok.mp h
    obtain ⟨z, -, h⟩ := bind_eq_ok.mp h
    split at h
    · cases h
      simp [initVec3]
    · obtain ⟨IJ, -, h⟩ := bind_eq_ok.mp h
      simpa [upto] using mapM_length h
  | bilinear =>
    unfold bilinearGG3 at h
    obtain ⟨b, -, h⟩ := bind_eq_ok.mp h
    split at h
    · cases h
    obtain ⟨r, -, h⟩ := bind_eq_ok.mp h
    obtain ⟨z, -, h⟩ := bind_eq_ok.mp h
    split at h
    · cases h
      simp [initVec3]
    · obtain ⟨IJ, -, h⟩ := bind_eq_ok.mp h
      simpa [upto] using mapM_length h
  | other => cases h

theorem downscalingGG3_units (T : RTree K) (s : Downscaler) {c : K} (hc : c ≠ 0) (d : K) (ig og : Grid K) (iv : List (List (List (Fl K)))) :
    downscalingGG3 T s ig og (iv.map (List.map (List.map (inUnits c d)))) = List.map (List.map (List.map (inUnits c d))) <$> downscalingGG3 T s ig og iv := by
  have h := downscalingGG3_layers T s (unitChanges_replicate hc d iv.length) ig og iv (List.length_replicate)
  rw [zipWith_replicate_map] at h
  rw [h]
  cases e : downscalingGG3 T s ig og iv with
  | ok out => rw [map_ok, map_ok, ← downscalingGG3_length e, zipWith_replicate_map]
  | _ => rfl

theorem downscalingGP3_length {T : RTree K} {s : Downscaler} {ig : Grid K} {op : Points K} {iv : List (List (List (Fl K)))} {out : List (List (Fl K))}
    (h : downscalingGP3 T s ig op iv = ok out) : out.length = iv.length := by
  unfold downscalingGP3 at h
  obtain ⟨b, -, h⟩ := bind_eq_ok.mp h
  split at h
  · cases h
  cases s with
  | nearest =>
    unfold nearestGP3 at h
    obtain ⟨b, -, h⟩ := bind_eq_ok.mp h
    split at h
    · cases h
    obtain ⟨z, -, h⟩ := bind_eq_ok.mp h
    split at h
    · cases h
      simp [initVec2]
    · obtain ⟨IJ, -, h⟩ := bind_eq_ok.mp h
      simpa [upto] using mapM_length h
  | bilinear =>
    unfold bilinearGP3 at h
    obtain ⟨b, -, h⟩ := bind_eq_ok.mp h
    split at h
    · cases h
    obtain ⟨z, -, h⟩ := bind_eq_ok.mp h
    split at h
    · cases h
      simp [initVec2]
    · obtain ⟨IJ, -, h⟩ := bind_eq_ok.mp h
      simpa [upto] using mapM_length h
  | other => cases h

theorem downscalingGP3_units (T : RTree K) (s : Downscaler) {c : K} (hc : c ≠ 0) (d : K) (ig : Grid K) (op : Points K) (iv : List (List (List (Fl K)))) :
    downscalingGP3 T s ig op (iv.map (List.map (List.map (inUnits c d)))) = List.map (List.map (inUnits c d)) <$> downscalingGP3 T s ig op iv := by
  have h := downscalingGP3_layers T s (unitChanges_replicate hc d iv.length) ig op iv (List.length_replicate)
  rw [zipWith_replicate_map] at h
  rw [h]
  cases e : downscalingGP3 T s ig op iv with
  | ok out => rw [map_ok, map_ok, ← downscalingGP3_length e, zipWith_replicate_map]
  | _ => rfl

theorem compatibleSizeG3_map {α β : Type} (g : Grid K) (f : α → β) (v : List (List (List α))) :
    compatibleSizeG3 g (v.map (List.map (List.map f))) = compatibleSizeG3 g v := by
  have := compatibleSizeG3_layers g (fun (_ : Unit) => f) (List.replicate v.length ()) v (List.length_replicate)
  rwa [zipWith_replicate_map] at this

/-! ### Gradients -/

theorem gradient_units {c : K} (hc : c ≠ 0) (d : K) (v x g : Fl K) : inUnits c d v + x * (fin c * g) = inUnits c d (v + x * g) := by
  rw [inUnits_add hc, scale_mul_right hc]

/-- **C175**: `simple_gradient`, with the gradient in the other units for each metre. -/
theorem c175_simple_gradient (T : RTree K) (s : Downscaler) (c d : K) (hc : c ≠ 0) (ig og : Grid K) (op : Points K) (iv : List (List (Fl K))) (iv3 : List (List (List (Fl K))))
    (g : Fl K) :
    simpleGradientGG2 T s ig og (iv.map (List.map (inUnits c d))) (fin c * g) = List.map (List.map (inUnits c d)) <$> simpleGradientGG2 T s ig og iv g ∧
    simpleGradientGP2 T s ig op (iv.map (List.map (inUnits c d))) (fin c * g) = List.map (inUnits c d) <$> simpleGradientGP2 T s ig op iv g ∧
    simpleGradientGG3 T s ig og (iv3.map (List.map (List.map (inUnits c d)))) (fin c * g) = List.map (List.map (List.map (inUnits c d))) <$> simpleGradientGG3 T s ig og iv3 g ∧
    simpleGradientGP3 T s ig op (iv3.map (List.map (List.map (inUnits c d)))) (fin c * g) = List.map (List.map (inUnits c d)) <$> simpleGradientGP3 T s ig op iv3 g := by
  refine ⟨?_, ?_, ?_, ?_⟩
  · unfold simpleGradientGG2
    simp only [compatibleSizeG2_map, downscalingGG2_units T s hc, vget2_map, map_bind_eq, gradient_units hc, ← map_ok (f := inUnits c d)]
    simp only [← bind_map_eq, grid2_map_eq]
    simp only [bind_map_eq]
    congr 1; funext b
    split <;> first | rfl | simp only [bind_map_eq]
  · unfold simpleGradientGP2
    simp only [compatibleSizeG2_map, downscalingGP2_units T s hc, vget_map, map_bind_eq, gradient_units hc, ← map_ok (f := inUnits c d)]
    simp only [← bind_map_eq, mapM_map_eq]
    simp only [bind_map_eq]
    congr 1; funext b
    split <;> first | rfl | simp only [bind_map_eq]
  · unfold simpleGradientGG3
    simp only [compatibleSizeG3_map, downscalingGG3_units T s hc, List.length_map, vget_map, vget2_map, map_bind_eq, gradient_units hc, ← map_ok (f := inUnits c d)]
    simp only [← bind_map_eq, grid2_map_eq, mapM_map_eq, omp_map]
    simp only [bind_map_eq]
    congr 1; funext b
    split <;> first | rfl | simp only [bind_map_eq]
  · unfold simpleGradientGP3
    simp only [compatibleSizeG3_map, downscalingGP3_units T s hc, List.length_map, vget2_map, map_bind_eq, gradient_units hc, ← map_ok (f := inUnits c d)]
    simp only [← bind_map_eq, grid2_map_eq, omp_map]
    simp only [bind_map_eq]
    congr 1; funext b
    split <;> first | rfl | simp only [bind_map_eq]

theorem correction_units {c : K} (hc : c ≠ 0) (o i : Fl K) (g : Res (Fl K)) : correction o i (times c <$> g) = times c <$> correction o i g := by
  unfold correction
  split
  · rw [map_bind_eq, bind_map_eq]
    congr 1; funext v
    rw [map_ok, times, times, scale_mul hc]
  · rw [map_ok, times, scale_zero]

theorem correctionG_units {c : K} (hc : c ≠ 0) (dgrad dvals ovals : List (List (Fl K))) (y x : Int) :
    correctionG (dgrad.map (List.map (times c))) dvals ovals y x = times c <$> correctionG dgrad dvals ovals y x := by
  unfold correctionG
  simp only [vget2_map, correction_units hc, List.length_map]
  split
  · rw [map_ok, times, scale_zero]
  · simp only [bind_map_eq]

theorem correctionP_units {c : K} (hc : c ≠ 0) (dgrad dvals ovals : List (Fl K)) (i : Int) :
    correctionP (dgrad.map (times c)) dvals ovals i = times c <$> correctionP dgrad dvals ovals i := by
  unfold correctionP
  simp only [vget_map, correction_units hc, List.length_map]
  split
  · rw [map_ok, times, scale_zero]
  · simp only [bind_map_eq]

theorem correctionP2_units {c : K} (hc : c ≠ 0) (dgrad : List (List (Fl K))) (dvals ovals : List (Fl K)) (t i : Int) :
    correctionP2 (dgrad.map (List.map (times c))) dvals ovals t i = times c <$> correctionP2 dgrad dvals ovals t i := by
  unfold correctionP2
  simp only [vget2_map, correction_units hc, List.length_map]
  split
  · rw [map_ok, times, scale_zero]
  · simp only [bind_map_eq]

theorem correctionG3_units {c : K} (hc : c ≠ 0) (dgrad : List (List (List (Fl K)))) (dvals ovals : List (List (Fl K))) (t y x : Int) :
    correctionG3 (dgrad.map (List.map (List.map (times c)))) dvals ovals t y x = times c <$> correctionG3 dgrad dvals ovals t y x := by
  unfold correctionG3
  simp only [vget_map, map_bind_eq, vget2_map, List.length_map]
  simp only [← bind_map_eq, correction_units hc]
  split
  · rw [map_ok, times, scale_zero]
  · simp only [bind_map_eq]

theorem corrected_units {c : K} (hc : c ≠ 0) (d : K) (v l e : Fl K) : inUnits c d v + (fin c * l + fin c * e) = inUnits c d (v + (l + e)) := by
  rw [inUnits_add hc, scale_add hc]

theorem downscalingGP2_times (T : RTree K) (s : Downscaler) {c : K} (hc : c ≠ 0) (ig : Grid K) (op : Points K) (iv : List (List (Fl K))) :
    downscalingGP2 T s ig op (iv.map (List.map (times c))) = List.map (times c) <$> downscalingGP2 T s ig op iv := by
  have := downscalingGP2_units T s hc 0 ig op iv
  rwa [inUnits_zero] at this

theorem downscalingGG2_times (T : RTree K) (s : Downscaler) {c : K} (hc : c ≠ 0) (ig og : Grid K) (iv : List (List (Fl K))) :
    downscalingGG2 T s ig og (iv.map (List.map (times c))) = List.map (List.map (times c)) <$> downscalingGG2 T s ig og iv := by
  have := downscalingGG2_units T s hc 0 ig og iv
  rwa [inUnits_zero] at this

theorem downscalingGP3_times (T : RTree K) (s : Downscaler) {c : K} (hc : c ≠ 0) (ig : Grid K) (op : Points K) (iv : List (List (List (Fl K)))) :
    downscalingGP3 T s ig op (iv.map (List.map (List.map (times c)))) = List.map (List.map (times c)) <$> downscalingGP3 T s ig op iv := by
  have := downscalingGP3_units T s hc 0 ig op iv
  rwa [inUnits_zero] at this

theorem pairGP2_units (T : RTree K) (s : Downscaler) {c : K} (hc : c ≠ 0) (d : K) (ig : Grid K) (op : Points K) (grad vals iv : List (List (Fl K))) :
    pairGP2 T s ig op (grad.map (List.map (times c))) vals (iv.map (List.map (inUnits c d))) =
      (fun p => (p.1.map (times c), p.2)) <$> pairGP2 T s ig op grad vals iv := by
  unfold pairGP2
  simp only [List.length_map, vget_map, map_bind_eq, downscalingGP2_times T s hc]
  split
  · rfl
  · simp only [bind_map_eq, map_ok]

theorem pairGP3_units (T : RTree K) (s : Downscaler) {c : K} (hc : c ≠ 0) (ig : Grid K) (op : Points K) (grad : List (List (List (Fl K)))) (vals : List (List (Fl K))) :
    pairGP3 T s ig op (grad.map (List.map (List.map (times c)))) vals = (fun p => (p.1.map (List.map (times c)), p.2)) <$> pairGP3 T s ig op grad vals := by
  unfold pairGP3
  simp only [List.length_map, map_bind_eq, downscalingGP3_times T s hc]
  split
  · rfl
  · simp only [bind_map_eq, map_ok]

theorem pairGG2_units (T : RTree K) (s : Downscaler) {c : K} (hc : c ≠ 0) (ig og : Grid K) (grad vals : List (List (Fl K))) :
    pairGG2 T s ig og (grad.map (List.map (times c))) vals = (fun p => (p.1.map (List.map (times c)), p.2)) <$> pairGG2 T s ig og grad vals := by
  unfold pairGG2
  simp only [List.length_map, map_bind_eq, downscalingGG2_times T s hc]
  split
  · rfl
  · simp only [bind_map_eq, map_ok]

/-- **C175**: `full_gradient` to points, with both gradients in the other units for each unit of elevation and land fraction. -/
theorem c175_full_gradient_points (T : RTree K) (s : Downscaler) (c d : K) (hc : c ≠ 0) (ig : Grid K) (op : Points K) (iv ge gl : List (List (Fl K)))
    (iv3 ge3 gl3 : List (List (List (Fl K)))) :
    fullGradientGP2 T s ig op (iv.map (List.map (inUnits c d))) (ge.map (List.map (times c))) (gl.map (List.map (times c))) =
      List.map (inUnits c d) <$> fullGradientGP2 T s ig op iv ge gl ∧
    fullGradientGP3 T s ig op (iv3.map (List.map (List.map (inUnits c d)))) (ge3.map (List.map (List.map (times c)))) (gl3.map (List.map (List.map (times c)))) =
      List.map (List.map (inUnits c d)) <$> fullGradientGP3 T s ig op iv3 ge3 gl3 := by
  constructor
  · unfold fullGradientGP2
    simp only [downscalingGP2_units T s hc, pairGP2_units T s hc, correctionP_units hc, vget_map, map_bind_eq, corrected_units hc, ← map_ok (f := inUnits c d)]
    simp only [← bind_map_eq, mapM_map_eq]
  · unfold fullGradientGP3
    simp only [downscalingGP3_units T s hc, pairGP3_units T s hc, correctionP2_units hc, vget2_map, List.length_map, map_bind_eq, corrected_units hc, ← map_ok (f := inUnits c d)]
    simp only [← bind_map_eq, grid2_map_eq]

theorem correctionD_units {c : K} (hc : c ≠ 0) (dgrad : List (List (Fl K))) (o i : Fl K) (y x : Int) :
    correctionD (dgrad.map (List.map (times c))) o i y x = times c <$> correctionD dgrad o i y x := by
  unfold correctionD
  simp only [vget2_map, correction_units hc, List.length_map]
  split
  · rw [map_ok, times, scale_zero]
  · rfl

/-- **C175**: `full_gradient_debug`. -/
theorem c175_full_gradient_debug (T : RTree K) (s : Downscaler) (c d : K) (hc : c ≠ 0) (ig og : Grid K) (iv ge gl : List (List (Fl K))) :
    fullGradientDebug T s ig og (iv.map (List.map (inUnits c d))) (ge.map (List.map (times c))) (gl.map (List.map (times c))) =
      List.map (List.map (debugInUnits c d)) <$> fullGradientDebug T s ig og iv ge gl := by
  have hd : ∀ v l e a b o i : Fl K, [inUnits c d v + fin c * l + fin c * e, a, b, fin c * l, fin c * e, o, i, inUnits c d v + fin c * l, inUnits c d v + fin c * e] =
      debugInUnits c d [v + l + e, a, b, l, e, o, i, v + l, v + e] := by
    intro v l e a b o i
    simp only [debugInUnits, List.zipWith_cons_cons, List.zipWith_nil_left, inUnits_add hc, id, times]
  unfold fullGradientDebug
  simp only [downscalingGG2_units T s hc, pairGG2_units T s hc, correctionD_units hc, vget2_map, map_bind_eq, hd, ← map_ok (f := debugInUnits c d)]
  simp only [← bind_map_eq, grid2_map_eq]

end
end Gridpp.Props
