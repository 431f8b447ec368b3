import Verif.Props.AveragesMore
import Verif.Props.BilinearGrid
import Verif.Props.DownscalingUnits

/-! C188: downscaling keeps the order and the range of the values. -/

set_option linter.unusedSectionVars false

namespace Gridpp.Spec

/-- Two executions end in the same way: with results in the relation `R`, or with the same error. -/
def OutcomeRel {α β : Type} (R : α → β → Prop) : Res α → Res β → Prop
  | .ok a, .ok b => R a b
  | .throw e, .throw e' => e = e'
  | .abort, .abort => True
  | .ub, .ub => True
  | _, _ => False

/-- Two lists of the same length with elements in the relation, two fields, and two series of fields. -/
abbrev Vec1 {α β : Type} (R : α → β → Prop) : List α → List β → Prop := List.Forall₂ R
abbrev Vec2 {α β : Type} (R : α → β → Prop) : List (List α) → List (List β) → Prop := List.Forall₂ (Vec1 R)
abbrev Vec3 {α β : Type} (R : α → β → Prop) : List (List (List α)) → List (List (List β)) → Prop := List.Forall₂ (Vec2 R)

/-- A relation between values that downscaling keeps: missing values are missing in both, and means of numbers with the same weights are in the
relation if the numbers are. -/
structure KeptByMeans {K : Type} [Field K] [LinearOrder K] (R : Fl K → Fl K → Prop) : Prop where
  missing : R .nan .nan
  valid : ∀ u v, R u v → u.isValid = v.isValid
  mean : ∀ c0 c1 c2 c3 a0 a1 a2 a3 b0 b1 b2 b3 : K, 0 ≤ c0 → 0 ≤ c1 → 0 ≤ c2 → 0 ≤ c3 → c0 + c1 + c2 + c3 = 1 →
    R (.fin a0) (.fin b0) → R (.fin a1) (.fin b1) → R (.fin a2) (.fin b2) → R (.fin a3) (.fin b3) →
    R (.fin (c0 * a0 + c1 * a1 + c2 * a2 + c3 * a3)) (.fin (c0 * b0 + c1 * b1 + c2 * b2 + c3 * b3))

end Gridpp.Spec

namespace Gridpp.Props
open Fl Res Spec

/-! ### Executions that end in the same way -/

section
variable {α β γ δ ι : Type}

theorem _root_.Gridpp.Spec.OutcomeRel.value {R : α → β → Prop} {a : α} {b : β} (h : R a b) : OutcomeRel R (ok a) (ok b) := h

theorem _root_.Gridpp.Spec.OutcomeRel.bind {R : α → β → Prop} {S : γ → δ → Prop} {x : Res α} {y : Res β} {f : α → Res γ} {g : β → Res δ}
    (h : OutcomeRel R x y) (hf : ∀ a b, R a b → OutcomeRel S (f a) (g b)) : OutcomeRel S (x >>= f) (y >>= g) := by
  cases x <;> cases y <;> first | exact hf _ _ h | exact h | exact False.elim h

/-- The same first step in both executions. -/
theorem _root_.Gridpp.Spec.OutcomeRel.step {S : γ → δ → Prop} (x : Res α) {f : α → Res γ} {g : α → Res δ} (hf : ∀ a, OutcomeRel S (f a) (g a)) :
    OutcomeRel S (x >>= f) (x >>= g) := by
  cases x <;> first | exact hf _ | exact rfl | trivial

theorem _root_.Gridpp.Spec.OutcomeRel.omp {R : α → β → Prop} {x : Res α} {y : Res β} (h : OutcomeRel R x y) : OutcomeRel R (Res.omp x) (Res.omp y) := by
  cases x <;> cases y <;> first | exact h | trivial | exact False.elim h

theorem _root_.Gridpp.Spec.OutcomeRel.mapM {R : α → β → Prop} {f : ι → Res α} {g : ι → Res β} (h : ∀ i, OutcomeRel R (f i) (g i)) (l : List ι) :
    OutcomeRel (Vec1 R) (Res.mapM f l) (Res.mapM g l) := by
  induction l with
  | nil => exact List.Forall₂.nil
  | cons i l ih =>
    rw [mapM_cons, mapM_cons]
    exact (h i).bind fun a b hab => ih.bind fun as bs has => List.Forall₂.cons hab has

theorem _root_.Gridpp.Spec.OutcomeRel.mapM₂ {R : α → β → Prop} {S : γ → δ → Prop} {f : α → Res γ} {g : β → Res δ} (h : ∀ a b, R a b → OutcomeRel S (f a) (g b))
    {l : List α} {l' : List β} (hl : Vec1 R l l') : OutcomeRel (Vec1 S) (Res.mapM f l) (Res.mapM g l') := by
  induction hl with
  | nil => exact List.Forall₂.nil
  | cons hab _ ih =>
    rw [mapM_cons, mapM_cons]
    exact (h _ _ hab).bind fun a b hab => ih.bind fun as bs has => List.Forall₂.cons hab has

theorem _root_.Gridpp.Spec.OutcomeRel.grid2 {R : α → β → Prop} {f : Int → Int → Res α} {g : Int → Int → Res β} (h : ∀ y x, OutcomeRel R (f y x) (g y x)) (Y X : Nat) :
    OutcomeRel (Vec2 R) (Gridpp.grid2 Y X f) (Gridpp.grid2 Y X g) :=
  OutcomeRel.mapM (fun y => OutcomeRel.mapM (fun x => h y x) _) _

theorem _root_.Gridpp.Spec.OutcomeRel.vget {R : α → β → Prop} {a : List α} {b : List β} (h : Vec1 R a b) (i : Int) : OutcomeRel R (Gridpp.vget a i) (Gridpp.vget b i) := by
  unfold Gridpp.vget
  by_cases hi : i < 0
  · rw [if_pos hi, if_pos hi]; trivial
  · rw [if_neg hi, if_neg hi]
    have hlen := h.length_eq
    by_cases hl : i.toNat < a.length
    · rw [List.getElem?_eq_getElem hl, List.getElem?_eq_getElem (hlen ▸ hl)]
      exact h.get hl (hlen ▸ hl)
    · rw [List.getElem?_eq_none (by omega), List.getElem?_eq_none (by omega)]; trivial

theorem _root_.Gridpp.Spec.OutcomeRel.vget2 {R : α → β → Prop} {a : List (List α)} {b : List (List β)} (h : Vec2 R a b) (i j : Int) :
    OutcomeRel R (Gridpp.vget2 a i j) (Gridpp.vget2 b i j) :=
  (OutcomeRel.vget h i).bind fun _ _ hab => OutcomeRel.vget hab j

theorem vec1_replicate {R : α → β → Prop} {u : α} {v : β} (h : R u v) (n : Nat) : Vec1 R (List.replicate n u) (List.replicate n v) := by
  induction n with
  | zero => exact List.Forall₂.nil
  | succ n ih => exact List.Forall₂.cons h ih

theorem vec2_init {R : α → β → Prop} {u : α} {v : β} (h : R u v) (Y X : Nat) : Vec2 R (initVec2 Y X u) (initVec2 Y X v) :=
  vec1_replicate (vec1_replicate h X) Y

theorem vec3_init {R : α → β → Prop} {u : α} {v : β} (h : R u v) (T Y X : Nat) : Vec3 R (initVec3 T Y X u) (initVec3 T Y X v) :=
  vec1_replicate (vec2_init h Y X) T

end

section
variable {K : Type} [Field K] [LinearOrder K] [IsStrictOrderedRing K]

theorem compatibleSizeG2_rel {α β : Type} {R : α → β → Prop} (g : Grid K) {a : List (List α)} {b : List (List β)} (h : Vec2 R a b) :
    compatibleSizeG2 g a = compatibleSizeG2 g b := by
  cases h with
  | nil => rfl
  | cons hr ht =>
    unfold compatibleSizeG2
    simp only [List.length_cons, ht.length_eq, hr.length_eq]

theorem compatibleSizeG3_rel {α β : Type} {R : α → β → Prop} (g : Grid K) {a : List (List (List α))} {b : List (List (List β))} (h : Vec3 R a b) :
    compatibleSizeG3 g a = compatibleSizeG3 g b := by
  cases h with
  | nil => rfl
  | cons hr ht =>
    cases hr with
    | nil => rfl
    | cons hs hu =>
      unfold compatibleSizeG3
      simp only [hu.length_eq, hs.length_eq]

theorem compatibleSizeP2_rel {α β : Type} {R : α → β → Prop} (p : Points K) {a : List (List α)} {b : List (List β)} (h : Vec2 R a b) :
    compatibleSizeP2 p a = compatibleSizeP2 p b := by
  cases h with
  | nil => rfl
  | cons hr ht =>
    unfold compatibleSizeP2
    simp only [hr.length_eq]

variable [HasGeo K]

/-- **C188**, nearest neighbour: any relation between values that holds for two missing values is kept by all eight overloads; errors are the same. -/
theorem c188_nearest (T : RTree K) {R : Fl K → Fl K → Prop} (hR : R nan nan) (ig og : Grid K) (ip op : Points K) :
    (∀ a b, Vec2 R a b → OutcomeRel (Vec2 R) (nearestGG2 T ig og a) (nearestGG2 T ig og b) ∧ OutcomeRel (Vec1 R) (nearestGP2 T ig op a) (nearestGP2 T ig op b)) ∧
    (∀ a b, Vec1 R a b → OutcomeRel (Vec2 R) (nearestPG1 T ip og a) (nearestPG1 T ip og b) ∧ OutcomeRel (Vec1 R) (nearestPP1 T ip op a) (nearestPP1 T ip op b)) ∧
    (∀ a b, Vec3 R a b → OutcomeRel (Vec3 R) (nearestGG3 T ig og a) (nearestGG3 T ig og b) ∧ OutcomeRel (Vec2 R) (nearestGP3 T ig op a) (nearestGP3 T ig op b)) ∧
    (∀ a b, Vec2 R a b → OutcomeRel (Vec3 R) (nearestPG2 T ip og a) (nearestPG2 T ip og b) ∧ OutcomeRel (Vec2 R) (nearestPP2 T ip op a) (nearestPP2 T ip op b)) := by
  refine ⟨fun a b h => ⟨?_, ?_⟩, fun a b h => ⟨?_, ?_⟩, fun a b h => ⟨?_, ?_⟩, fun a b h => ⟨?_, ?_⟩⟩
  · unfold nearestGG2
    rw [compatibleSizeG2_rel ig h]
    refine OutcomeRel.step _ fun c => ?_
    split
    · exact rfl
    refine OutcomeRel.step _ fun row0 => OutcomeRel.step _ fun s => ?_
    split
    · exact vec2_init hR _ _
    · exact (OutcomeRel.grid2 (fun y x => OutcomeRel.step _ fun la => OutcomeRel.step _ fun lo => OutcomeRel.step _ fun c => OutcomeRel.vget2 h _ _) _ _).omp
  · unfold nearestGP2
    rw [compatibleSizeG2_rel ig h]
    refine OutcomeRel.step _ fun c => ?_
    split
    · exact rfl
    refine OutcomeRel.step _ fun s => ?_
    split
    · exact vec1_replicate hR _
    · exact (OutcomeRel.mapM (fun y => OutcomeRel.step _ fun la => OutcomeRel.step _ fun lo => OutcomeRel.step _ fun c => OutcomeRel.vget2 h _ _) _).omp
  · unfold nearestPG1
    rw [h.length_eq]
    split
    · exact rfl
    refine OutcomeRel.step _ fun row0 => ?_
    split
    · exact vec2_init hR _ _
    · exact (OutcomeRel.grid2 (fun y x => OutcomeRel.step _ fun la => OutcomeRel.step _ fun lo => OutcomeRel.step _ fun c => OutcomeRel.vget h _) _ _).omp
  · unfold nearestPP1
    rw [h.length_eq]
    split
    · exact rfl
    split
    · exact vec1_replicate hR _
    · exact (OutcomeRel.mapM (fun y => OutcomeRel.step _ fun la => OutcomeRel.step _ fun lo => OutcomeRel.step _ fun c => OutcomeRel.step _ fun _ =>
        OutcomeRel.step _ fun _ => OutcomeRel.vget h _) _).omp
  · unfold nearestGG3
    rw [compatibleSizeG3_rel ig h]
    refine OutcomeRel.step _ fun c => ?_
    split
    · exact rfl
    refine OutcomeRel.step _ fun row0 => OutcomeRel.step _ fun s => ?_
    rw [h.length_eq]
    split
    · exact vec3_init hR _ _ _
    · refine OutcomeRel.step _ fun IJ => OutcomeRel.mapM (fun t => ?_) _
      refine OutcomeRel.grid2 (fun y x => ?_) _ _
      refine OutcomeRel.step _ fun c => ?_
      exact OutcomeRel.bind (OutcomeRel.vget h t) fun _ _ h2 => OutcomeRel.vget2 h2 _ _
  · unfold nearestGP3
    rw [compatibleSizeG3_rel ig h]
    refine OutcomeRel.step _ fun c => ?_
    split
    · exact rfl
    refine OutcomeRel.step _ fun s => ?_
    rw [h.length_eq]
    split
    · exact vec2_init hR _ _
    · refine OutcomeRel.step _ fun IJ => OutcomeRel.grid2 (fun y x => ?_) _ _
      refine OutcomeRel.step _ fun c => ?_
      exact OutcomeRel.bind (OutcomeRel.vget h y) fun _ _ h2 => OutcomeRel.vget2 h2 _ _
  · unfold nearestPG2
    rw [compatibleSizeP2_rel ip h]
    split
    · exact rfl
    refine OutcomeRel.step _ fun row0 => ?_
    rw [h.length_eq]
    split
    · exact vec3_init hR _ _ _
    · exact OutcomeRel.step _ fun I => OutcomeRel.mapM (fun t => OutcomeRel.grid2 (fun y x => OutcomeRel.step _ fun c => OutcomeRel.vget2 h _ _) _ _) _
  · unfold nearestPP2
    rw [compatibleSizeP2_rel ip h]
    split
    · exact rfl
    rw [h.length_eq]
    split
    · exact vec2_init hR _ _
    · exact OutcomeRel.step _ fun I => OutcomeRel.grid2 (fun y x => OutcomeRel.step _ fun c => OutcomeRel.vget2 h _ _) _ _

variable [HasSqrt K]

theorem boxValue_rel {R : Fl K → Fl K → Prop} (hR : KeptByMeans R) (T : RTree K) (g : Grid K) {a b : List (List (Fl K))} (h : Vec2 R a b) (lat lon : Fl K) (bx : Box)
    (q : Quad K) : OutcomeRel R (boxValue T g a lat lon bx q) (boxValue T g b lat lon bx q) := by
  unfold boxValue nearestValue
  refine (OutcomeRel.vget2 h _ _).bind fun u0 v0 h0 => (OutcomeRel.vget2 h _ _).bind fun u1 v1 h1 => (OutcomeRel.vget2 h _ _).bind fun u2 v2 h2 =>
    (OutcomeRel.vget2 h _ _).bind fun u3 v3 h3 => ?_
  rw [hR.valid _ _ h0, hR.valid _ _ h1, hR.valid _ _ h2, hR.valid _ _ h3]
  split
  · rename_i hv
    have hu := hv
    rw [← hR.valid _ _ h0, ← hR.valid _ _ h1, ← hR.valid _ _ h2, ← hR.valid _ _ h3] at hu
    simp only [Bool.and_eq_true] at hv hu
    obtain ⟨a0, rfl⟩ := isValid_fin hu.1.1.1
    obtain ⟨a1, rfl⟩ := isValid_fin hu.1.1.2
    obtain ⟨a2, rfl⟩ := isValid_fin hu.1.2
    obtain ⟨a3, rfl⟩ := isValid_fin hu.2
    obtain ⟨b0, rfl⟩ := isValid_fin hv.1.1.1
    obtain ⟨b1, rfl⟩ := isValid_fin hv.1.1.2
    obtain ⟨b2, rfl⟩ := isValid_fin hv.1.2
    obtain ⟨b3, rfl⟩ := isValid_fin hv.2
    have key : ∀ u, bilinear4 lon lat q (fin a0) (fin a1) (fin a2) (fin a3) = ok u →
        OutcomeRel R (bilinear4 lon lat q (fin a0) (fin a1) (fin a2) (fin a3)) (bilinear4 lon lat q (fin b0) (fin b1) (fin b2) (fin b3)) := by
      intro u hu
      obtain ⟨c0, c1, c2, c3, p0, p1, p2, p3, hs, hall⟩ := c43_convex _ _ _ _ _ _ _ _ hu
      rw [hall, hall]
      exact hR.mean _ _ _ _ _ _ _ _ _ _ _ _ p0 p1 p2 p3 hs h0 h1 h2 h3
    cases hst : bilinearST lon lat q with
    | ok st =>
      by_cases hr : unitRange (snap st.1) (snap st.2) = true
      · refine key (bilinearSum (snap st.1) (snap st.2) (fin a0) (fin a1) (fin a2) (fin a3)) ?_
        unfold bilinear4
        rw [hst, ok_bind]
        dsimp only
        rw [if_pos hr]
      · unfold bilinear4
        rw [hst, ok_bind, ok_bind]
        dsimp only
        rw [if_neg hr, if_neg hr]
        exact rfl
    | throw e => unfold bilinear4; rw [hst]; exact rfl
    | abort => unfold bilinear4; rw [hst]; trivial
    | ub => unfold bilinear4; rw [hst]; trivial
  · exact OutcomeRel.step _ fun c => OutcomeRel.vget2 h _ _

theorem bilinearAt_rel {R : Fl K → Fl K → Prop} (hR : KeptByMeans R) (T : RTree K) (g : Grid K) {a b : List (List (Fl K))} (h : Vec2 R a b) (lat lon : Fl K) :
    OutcomeRel R (bilinearAt T g a lat lon) (bilinearAt T g b lat lon) := by
  unfold bilinearAt
  refine OutcomeRel.step _ fun bx => ?_
  cases bx with
  | none => exact OutcomeRel.step _ fun c => OutcomeRel.vget2 h _ _
  | some bx => exact OutcomeRel.step _ fun q => boxValue_rel hR T g h lat lon bx q

theorem bilinearAt3_rel {R : Fl K → Fl K → Prop} (hR : KeptByMeans R) (T : RTree K) (g : Grid K) {a b : List (List (List (Fl K)))} (h : Vec3 R a b) (lat lon : Fl K) :
    OutcomeRel (Vec1 R) (bilinearAt3 T g a lat lon) (bilinearAt3 T g b lat lon) := by
  unfold bilinearAt3
  refine OutcomeRel.step _ fun bx => ?_
  cases bx with
  | none => exact OutcomeRel.step _ fun c => OutcomeRel.mapM₂ (fun _ _ h2 => OutcomeRel.vget2 h2 _ _) h
  | some bx => exact OutcomeRel.step _ fun q => OutcomeRel.mapM₂ (R := Vec2 R) (fun _ _ h2 => boxValue_rel hR T g h2 lat lon bx q) h

/-- **C188**, bilinear interpolation: every relation that is kept by means is kept by all four overloads; errors are the same. -/
theorem c188_bilinear (T : RTree K) {R : Fl K → Fl K → Prop} (hR : KeptByMeans R) (ig og : Grid K) (op : Points K) :
    (∀ a b, Vec2 R a b → OutcomeRel (Vec2 R) (bilinearGG2 T ig og a) (bilinearGG2 T ig og b) ∧ OutcomeRel (Vec1 R) (bilinearGP2 T ig op a) (bilinearGP2 T ig op b)) ∧
    (∀ a b, Vec3 R a b → OutcomeRel (Vec3 R) (bilinearGG3 T ig og a) (bilinearGG3 T ig og b) ∧ OutcomeRel (Vec2 R) (bilinearGP3 T ig op a) (bilinearGP3 T ig op b)) := by
  refine ⟨fun a b h => ⟨?_, ?_⟩, fun a b h => ⟨?_, ?_⟩⟩
  · unfold bilinearGG2
    rw [compatibleSizeG2_rel ig h]
    refine OutcomeRel.step _ fun c => ?_
    split
    · exact rfl
    refine OutcomeRel.step _ fun row0 => OutcomeRel.step _ fun s => ?_
    split
    · exact vec2_init hR.missing _ _
    · exact (OutcomeRel.grid2 (fun y x => OutcomeRel.step _ fun la => OutcomeRel.step _ fun lo => bilinearAt_rel hR T ig h la lo) _ _).omp
  · unfold bilinearGP2
    rw [compatibleSizeG2_rel ig h]
    refine OutcomeRel.step _ fun c => ?_
    split
    · exact rfl
    refine OutcomeRel.step _ fun s => ?_
    split
    · exact vec1_replicate hR.missing _
    · exact (OutcomeRel.mapM (fun y => OutcomeRel.step _ fun la => OutcomeRel.step _ fun lo => bilinearAt_rel hR T ig h la lo) _).omp
  · unfold bilinearGG3
    rw [compatibleSizeG3_rel ig h]
    refine OutcomeRel.step _ fun c => ?_
    split
    · exact rfl
    refine OutcomeRel.step _ fun row0 => OutcomeRel.step _ fun s => ?_
    rw [h.length_eq]
    split
    · exact vec3_init hR.missing _ _ _
    · refine OutcomeRel.bind (OutcomeRel.omp (OutcomeRel.grid2 (fun y x => OutcomeRel.step _ fun la => OutcomeRel.step _ fun lo => bilinearAt3_rel hR T ig h la lo) _ _))
        fun t t' ht => ?_
      exact OutcomeRel.mapM (fun k => OutcomeRel.grid2 (fun y x => (OutcomeRel.vget2 ht y x).bind fun _ _ h1 => OutcomeRel.vget h1 k) _ _) _
  · unfold bilinearGP3
    rw [compatibleSizeG3_rel ig h]
    refine OutcomeRel.step _ fun c => ?_
    split
    · exact rfl
    refine OutcomeRel.step _ fun s => ?_
    rw [h.length_eq]
    split
    · exact vec2_init hR.missing _ _
    · refine OutcomeRel.bind (OutcomeRel.omp (OutcomeRel.mapM (fun y => OutcomeRel.step _ fun la => OutcomeRel.step _ fun lo => bilinearAt3_rel hR T ig h la lo) _))
        fun t t' ht => ?_
      exact OutcomeRel.grid2 (fun k x => (OutcomeRel.vget ht x).bind fun _ _ h1 => OutcomeRel.vget h1 k) _ _

/-- **C188**, downscaling with either scheme (and the error for any other). -/
theorem c188_downscaling (T : RTree K) (d : Downscaler) {R : Fl K → Fl K → Prop} (hR : KeptByMeans R) (ig og : Grid K) (op : Points K) :
    (∀ a b, Vec2 R a b →
      OutcomeRel (Vec2 R) (downscalingGG2 T d ig og a) (downscalingGG2 T d ig og b) ∧ OutcomeRel (Vec1 R) (downscalingGP2 T d ig op a) (downscalingGP2 T d ig op b)) ∧
    (∀ a b, Vec3 R a b →
      OutcomeRel (Vec3 R) (downscalingGG3 T d ig og a) (downscalingGG3 T d ig og b) ∧ OutcomeRel (Vec2 R) (downscalingGP3 T d ig op a) (downscalingGP3 T d ig op b)) := by
  obtain ⟨n2, -, n3, -⟩ := c188_nearest T hR.missing ig og op op
  obtain ⟨b2, b3⟩ := c188_bilinear T hR ig og op
  refine ⟨fun a b h => ⟨?_, ?_⟩, fun a b h => ⟨?_, ?_⟩⟩
  · unfold downscalingGG2
    rw [compatibleSizeG2_rel ig h]
    refine OutcomeRel.step _ fun c => ?_
    split
    · exact rfl
    · cases d
      · exact (n2 a b h).1
      · exact (b2 a b h).1
      · exact rfl
  · unfold downscalingGP2
    rw [compatibleSizeG2_rel ig h]
    refine OutcomeRel.step _ fun c => ?_
    split
    · exact rfl
    · cases d
      · exact (n2 a b h).2
      · exact (b2 a b h).2
      · exact rfl
  · unfold downscalingGG3
    rw [compatibleSizeG3_rel ig h]
    refine OutcomeRel.step _ fun c => ?_
    split
    · exact rfl
    · cases d
      · exact (n3 a b h).1
      · exact (b3 a b h).1
      · exact rfl
  · unfold downscalingGP3
    rw [compatibleSizeG3_rel ig h]
    refine OutcomeRel.step _ fun c => ?_
    split
    · exact rfl
    · cases d
      · exact (n3 a b h).2
      · exact (b3 a b h).2
      · exact rfl

end

section
variable {K : Type} [Field K] [LinearOrder K] [IsStrictOrderedRing K]

/-- The order of values is kept by means. -/
theorem c188_order : KeptByMeans (NotAbove (K := K)) where
  missing := Or.inl ⟨rfl, rfl⟩
  valid := by
    rintro u v (⟨h1, h2⟩ | ⟨q, r, rfl, rfl, -⟩)
    · rw [h1, h2]
    · exact rfl
  mean := by
    intro c0 c1 c2 c3 a0 a1 a2 a3 b0 b1 b2 b3 p0 p1 p2 p3 _ h0 h1 h2 h3
    have le : ∀ {a b : K}, NotAbove (fin a) (fin b) → a ≤ b := by
      rintro a b (⟨h, -⟩ | ⟨q, r, e1, e2, h⟩)
      · cases h
      · cases e1; cases e2; exact h
    refine Or.inr ⟨_, _, rfl, rfl, ?_⟩
    have := mul_le_mul_of_nonneg_left (le h0) p0
    have := mul_le_mul_of_nonneg_left (le h1) p1
    have := mul_le_mul_of_nonneg_left (le h2) p2
    have := mul_le_mul_of_nonneg_left (le h3) p3
    linarith

/-- The range of values is kept by means (the two fields are the same one). -/
theorem c188_range (lo hi : K) : KeptByMeans (fun u v : Fl K => u = v ∧ MissingOrIn lo hi u) where
  missing := ⟨rfl, Or.inl rfl⟩
  valid := by rintro u v ⟨rfl, -⟩; rfl
  mean := by
    intro c0 c1 c2 c3 a0 a1 a2 a3 b0 b1 b2 b3 p0 p1 p2 p3 hs h0 h1 h2 h3
    have bd : ∀ {a b : K}, (fin a = fin b ∧ MissingOrIn lo hi (fin a)) → a = b ∧ lo ≤ a ∧ a ≤ hi := by
      rintro a b ⟨e, h | ⟨q, e1, h⟩⟩
      · cases h
      · cases e; cases e1; exact ⟨rfl, h⟩
    obtain ⟨rfl, l0, k0⟩ := bd h0
    obtain ⟨rfl, l1, k1⟩ := bd h1
    obtain ⟨rfl, l2, k2⟩ := bd h2
    obtain ⟨rfl, l3, k3⟩ := bd h3
    have e : (c0 + c1 + c2 + c3) * lo = lo := by rw [hs, one_mul]
    have e' : (c0 + c1 + c2 + c3) * hi = hi := by rw [hs, one_mul]
    have := mul_le_mul_of_nonneg_left l0 p0
    have := mul_le_mul_of_nonneg_left l1 p1
    have := mul_le_mul_of_nonneg_left l2 p2
    have := mul_le_mul_of_nonneg_left l3 p3
    have := mul_le_mul_of_nonneg_left k0 p0
    have := mul_le_mul_of_nonneg_left k1 p1
    have := mul_le_mul_of_nonneg_left k2 p2
    have := mul_le_mul_of_nonneg_left k3 p3
    exact ⟨rfl, Or.inr ⟨_, rfl, by linarith, by linarith⟩⟩

theorem notAbove_add {u v : Fl K} (h : NotAbove u v) (x : Fl K) : NotAbove (u + x) (v + x) := by
  rcases h with ⟨h1, h2⟩ | ⟨q, r, rfl, rfl, h⟩
  · left
    constructor
    · cases u <;> cases x <;> first | rfl | cases h1
    · cases v <;> cases x <;> first | rfl | cases h2
  · cases x with
    | fin p => exact Or.inr ⟨_, _, rfl, rfl, by linarith⟩
    | nan => exact Or.inl ⟨rfl, rfl⟩
    | pinf => exact Or.inl ⟨rfl, rfl⟩
    | ninf => exact Or.inl ⟨rfl, rfl⟩

variable [HasGeo K] [HasSqrt K]

/-- **C188**, simple_gradient: the correction for the elevation is the same for both fields, so the order is kept by all four overloads. -/
theorem c188_simple_gradient (T : RTree K) (d : Downscaler) (ig og : Grid K) (op : Points K) (g : Fl K) :
    (∀ a b, Vec2 NotAbove a b →
      OutcomeRel (Vec2 NotAbove) (simpleGradientGG2 T d ig og a g) (simpleGradientGG2 T d ig og b g) ∧
      OutcomeRel (Vec1 NotAbove) (simpleGradientGP2 T d ig op a g) (simpleGradientGP2 T d ig op b g)) ∧
    (∀ a b, Vec3 NotAbove a b →
      OutcomeRel (Vec3 NotAbove) (simpleGradientGG3 T d ig og a g) (simpleGradientGG3 T d ig og b g) ∧
      OutcomeRel (Vec2 NotAbove) (simpleGradientGP3 T d ig op a g) (simpleGradientGP3 T d ig op b g)) := by
  obtain ⟨d2, d3⟩ := c188_downscaling T d (c188_order (K := K)) ig og op
  refine ⟨fun a b h => ⟨?_, ?_⟩, fun a b h => ⟨?_, ?_⟩⟩
  · unfold simpleGradientGG2
    rw [compatibleSizeG2_rel ig h]
    refine OutcomeRel.step _ fun c => ?_
    split
    · exact rfl
    refine OutcomeRel.step _ fun s => (d2 a b h).1.bind fun dv dv' hd => OutcomeRel.step _ fun de => ?_
    exact OutcomeRel.grid2 (fun y x => OutcomeRel.step _ fun oe => OutcomeRel.step _ fun ie => (OutcomeRel.vget2 hd y x).bind fun _ _ h1 => OutcomeRel.value (notAbove_add h1 ((oe - ie) * g))) _ _
  · unfold simpleGradientGP2
    rw [compatibleSizeG2_rel ig h]
    refine OutcomeRel.step _ fun c => ?_
    split
    · exact rfl
    refine (d2 a b h).2.bind fun dv dv' hd => OutcomeRel.step _ fun de => ?_
    exact OutcomeRel.mapM (fun y => OutcomeRel.step _ fun oe => OutcomeRel.step _ fun ie => (OutcomeRel.vget hd y).bind fun _ _ h1 => OutcomeRel.value (notAbove_add h1 ((oe - ie) * g))) _
  · unfold simpleGradientGG3
    rw [compatibleSizeG3_rel ig h]
    refine OutcomeRel.step _ fun c => ?_
    split
    · exact rfl
    refine OutcomeRel.step _ fun s => (d3 a b h).1.bind fun dv dv' hd => OutcomeRel.step _ fun de => ?_
    rw [h.length_eq]
    exact (OutcomeRel.mapM (fun t => OutcomeRel.grid2 (fun y x => OutcomeRel.step _ fun oe => OutcomeRel.step _ fun ie =>
      (OutcomeRel.vget hd t).bind fun _ _ h2 => (OutcomeRel.vget2 h2 y x).bind fun _ _ h1 => OutcomeRel.value (notAbove_add h1 ((oe - ie) * g))) _ _) _).omp
  · unfold simpleGradientGP3
    rw [compatibleSizeG3_rel ig h]
    refine OutcomeRel.step _ fun c => ?_
    split
    · exact rfl
    refine (d3 a b h).2.bind fun dv dv' hd => OutcomeRel.step _ fun de => ?_
    rw [h.length_eq]
    exact (OutcomeRel.grid2 (fun t y => OutcomeRel.step _ fun oe => OutcomeRel.step _ fun ie => (OutcomeRel.vget2 hd t y).bind fun _ _ h1 => OutcomeRel.value (notAbove_add h1 ((oe - ie) * g))) _ _).omp

theorem pairGP2_rel {R : Fl K → Fl K → Prop} (T : RTree K) (d : Downscaler) (ig : Grid K) (op : Points K) (grad vals : List (List (Fl K))) {a b : List (List (Fl K))} (h : Vec2 R a b) :
    pairGP2 T d ig op grad vals a = pairGP2 T d ig op grad vals b := by
  unfold pairGP2
  rw [h.length_eq]
  split
  · rfl
  · congr 1; funext _
    congr 1; funext g0
    cases h with
    | nil => rfl
    | cons hr _ =>
      have e : ∀ (r : List (Fl K)) t, vget (r :: t) 0 = ok r := fun _ _ => rfl
      rw [e, e, ok_bind, ok_bind, hr.length_eq]

/-- **C188**, full_gradient to points: the corrections do not depend on the values, so the order is kept by both overloads. -/
theorem c188_full_gradient_points (T : RTree K) (d : Downscaler) (ig : Grid K) (op : Points K) :
    (∀ a b, Vec2 NotAbove a b → ∀ ge gl, OutcomeRel (Vec1 NotAbove) (fullGradientGP2 T d ig op a ge gl) (fullGradientGP2 T d ig op b ge gl)) ∧
    (∀ a b, Vec3 NotAbove a b → ∀ ge gl, OutcomeRel (Vec2 NotAbove) (fullGradientGP3 T d ig op a ge gl) (fullGradientGP3 T d ig op b ge gl)) := by
  obtain ⟨d2, d3⟩ := c188_downscaling T d (c188_order (K := K)) ig ig op
  refine ⟨fun a b h ge gl => ?_, fun a b h ge gl => ?_⟩
  · unfold fullGradientGP2
    rw [pairGP2_rel T d ig op ge ig.elevs h, pairGP2_rel T d ig op gl ig.lafs h]
    refine (d2 a b h).2.bind fun o o' ho => OutcomeRel.step _ fun e => OutcomeRel.step _ fun l => ?_
    exact OutcomeRel.mapM (fun i => OutcomeRel.step _ fun lc => OutcomeRel.step _ fun ec => (OutcomeRel.vget ho i).bind fun _ _ h1 =>
      OutcomeRel.value (notAbove_add h1 (lc + ec))) _
  · unfold fullGradientGP3
    rw [h.length_eq]
    refine (d3 a b h).2.bind fun o o' ho => OutcomeRel.step _ fun e => OutcomeRel.step _ fun l => ?_
    exact OutcomeRel.grid2 (fun t i => OutcomeRel.step _ fun lc => OutcomeRel.step _ fun ec => (OutcomeRel.vget2 ho t i).bind fun _ _ h1 =>
      OutcomeRel.value (notAbove_add h1 (lc + ec))) _ _

end

/-- Two fields, the second nowhere below the first, interpolated inside, on a side, outside, and next to a missing corner; the values stay between
0 and 20. The value with a gradient leaves the range. -/
theorem c188_case :
    (do let g ← Grid.new [[fin (0 : ℚ), fin 0, fin 0], [fin 1, fin 1, fin 1]] [[fin 0, fin 1, fin 2], [fin 0, fin 1, fin 2]] [] [] .cartesian
        let p ← Points.new [fin (1 / 4), fin (1 / 4), fin (-1), fin (1 / 4)] [fin (1 / 2), fin 0, fin 0, fin (7 / 4)] [] [] .cartesian
        bilinearGP2 RTree.scan g p [[fin 0, fin 4, fin 8], [fin 16, fin 20, nan]]) = ok [fin 6, fin 4, fin 0, fin 8] ∧
    (do let g ← Grid.new [[fin (0 : ℚ), fin 0, fin 0], [fin 1, fin 1, fin 1]] [[fin 0, fin 1, fin 2], [fin 0, fin 1, fin 2]] [] [] .cartesian
        let p ← Points.new [fin (1 / 4), fin (1 / 4), fin (-1), fin (1 / 4)] [fin (1 / 2), fin 0, fin 0, fin (7 / 4)] [] [] .cartesian
        bilinearGP2 RTree.scan g p [[fin 4, fin 4, fin 9], [fin 16, fin 20, pinf]]) = ok [fin (15 / 2), fin 7, fin 4, fin 9] ∧
    Vec2 NotAbove [[fin (0 : ℚ), fin 4, fin 8], [fin 16, fin 20, nan]] [[fin 4, fin 4, fin 9], [fin 16, fin 20, pinf]] ∧
    (do let g ← Grid.new [[fin (0 : ℚ)]] [[fin 0]] [[fin 0]] [[fin 0]] .cartesian
        let p ← Points.new [fin 0] [fin 0] [fin 100] [fin 0] .cartesian
        simpleGradientGP2 RTree.scan .nearest g p [[fin 3]] (fin (-1))) = ok [fin (-97)] := by
  have n : ∀ {q r : ℚ}, q ≤ r → NotAbove (fin q) (fin r) := fun h => Or.inr ⟨_, _, rfl, rfl, h⟩
  refine ⟨by decide +kernel, by decide +kernel, ?_, by decide +kernel⟩
  exact .cons (.cons (n (by norm_num)) (.cons (n (by norm_num)) (.cons (n (by norm_num)) .nil)))
    (.cons (.cons (n (by norm_num)) (.cons (n (by norm_num)) (.cons (Or.inl ⟨rfl, rfl⟩) .nil))) .nil)

end Gridpp.Props
