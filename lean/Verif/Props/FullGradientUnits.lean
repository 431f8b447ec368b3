import Verif.Props.DownscalingUnits
import Verif.Props.FullGradient
import Verif.Base.Inst

/-! C175: `full_gradient` to grids (gradient.cpp:5-174), where values, gradients and elevations are downscaled as one stack of fields; concrete cases. -/

set_option linter.unusedSectionVars false

namespace Gridpp.Props
open Fl Res Spec

section
variable {K : Type} [Field K] [LinearOrder K] [IsStrictOrderedRing K] [HasGeo K] [HasSqrt K]

theorem sizeMismatch_map (s : Nat × Nat) (f : Fl K → Fl K) (a : List (List (Fl K))) : sizeMismatch s (a.map (List.map f)) = sizeMismatch s a := by
  unfold sizeMismatch
  simp only [List.length_map, vget_map, map_bind_eq]

theorem sizeMismatchOpt_map (s : Nat × Nat) (f : Fl K → Fl K) (a : List (List (Fl K))) : sizeMismatchOpt s (a.map (List.map f)) = sizeMismatchOpt s a := by
  unfold sizeMismatchOpt
  rw [List.length_map, sizeMismatch_map]

/-- The changes of the fields of the stack. -/
def stackChanges (c : K) (present : Bool) : List (Fl K → Fl K) := if present then [times c, fun v => v] else []

theorem unitChanges_stack {c : K} (hc : c ≠ 0) (d : K) (p q : Bool) : UnitChanges (inUnits c d :: (stackChanges c p ++ stackChanges c q)) := by
  have hs : ∀ p, ∀ f ∈ stackChanges c p, ∃ c d : K, c ≠ 0 ∧ f = inUnits c d := by
    intro p f hf
    unfold stackChanges at hf
    split at hf
    · rcases List.mem_cons.mp hf with rfl | hf
      · exact ⟨c, 0, hc, (inUnits_zero c).symm⟩
      · rw [List.mem_singleton] at hf
        exact ⟨1, 0, one_ne_zero, hf.trans inUnits_one.symm⟩
    · cases hf
  intro f hf
  rcases List.mem_cons.mp hf with rfl | hf
  · exact ⟨c, d, hc, rfl⟩
  · rcases List.mem_append.mp hf with hf | hf
    · exact hs _ f hf
    · exact hs _ f hf

theorem map_map_id (a : List (List (Fl K))) : a.map (List.map fun v => v) = a := by simp

/-- **C175**: `full_gradient` to a grid. -/
theorem c175_full_gradient_grid (T : RTree K) (s : Downscaler) (c d : K) (hc : c ≠ 0) (ig og : Grid K) (iv ge gl : List (List (Fl K))) :
    fullGradientGG2 T s ig og (iv.map (List.map (inUnits c d))) (ge.map (List.map (times c))) (gl.map (List.map (times c))) =
      List.map (List.map (inUnits c d)) <$> fullGradientGG2 T s ig og iv ge gl := by
  have hF := unitChanges_stack hc d (decide (ge.length ≠ 0)) (decide (gl.length ≠ 0))
  have hstack : (iv.map (List.map (inUnits c d)) :: (stackFields (ge.map (List.map (times c))) ig.elevs ++ stackFields (gl.map (List.map (times c))) ig.lafs)) =
      List.zipWith (fun f => List.map (List.map f)) (inUnits c d :: (stackChanges c (decide (ge.length ≠ 0)) ++ stackChanges c (decide (gl.length ≠ 0))))
        (iv :: (stackFields ge ig.elevs ++ stackFields gl ig.lafs)) := by
    unfold stackFields stackChanges
    by_cases h1 : ge.length = 0 <;> by_cases h2 : gl.length = 0 <;> simp [h1, h2]
  have hlen : (inUnits c d :: (stackChanges c (decide (ge.length ≠ 0)) ++ stackChanges c (decide (gl.length ≠ 0)))).length =
      (iv :: (stackFields ge ig.elevs ++ stackFields gl ig.lafs)).length := by
    unfold stackFields stackChanges
    by_cases h1 : ge.length = 0 <;> by_cases h2 : gl.length = 0 <;> simp [h1, h2]
  have hd := downscalingGG3_layers T s hF ig og _ hlen
  rw [← hstack] at hd
  unfold fullGradientGG2
  simp only [sizeMismatch_map, sizeMismatchOpt_map, hd, map_bind_eq, List.length_map]
  rw [bind_map_eq]
  congr 1; funext so
  rw [bind_map_eq]
  congr 1; funext si
  rw [bind_map_eq]
  congr 1; funext m
  split
  · rfl
  rw [bind_map_eq]
  congr 1; funext ml
  split
  · rfl
  rw [bind_map_eq]
  congr 1; funext me
  split
  · rfl
  rw [bind_map_eq]
  apply bind_congr_ok
  intro fields hfields
  have hl := downscalingGG3_length hfields
  rw [← hlen] at hl
  -- the stack read back, in other units
  have hread : ∀ (out : List (List (Fl K))) (e l : List (List (Fl K)) × List (List (Fl K))),
      omp (grid2 so.1 so.2 fun y x => do
        let lc ← correctionG (l.1.map (List.map (times c))) l.2 og.lafs y x
        let ec ← correctionG (e.1.map (List.map (times c))) e.2 og.elevs y x
        let v ← vget2 (out.map (List.map (inUnits c d))) y x
        ok (v + (lc + ec))) =
      List.map (List.map (inUnits c d)) <$> omp (grid2 so.1 so.2 fun y x => do
        let lc ← correctionG l.1 l.2 og.lafs y x
        let ec ← correctionG e.1 e.2 og.elevs y x
        let v ← vget2 out y x
        ok (v + (lc + ec))) := by
    intro out e l
    simp only [correctionG_units hc, vget2_map, map_bind_eq, times, corrected_units hc, ← map_ok (f := inUnits c d)]
    simp only [← bind_map_eq, grid2_map_eq, omp_map]
  by_cases h1 : ge.length = 0 <;> by_cases h2 : gl.length = 0 <;> simp only [h1, h2, stackChanges, ne_eq, not_true_eq_false, not_false_eq_true, decide_true, decide_false,
    if_true, if_false, Bool.false_eq_true, List.append_nil, List.nil_append, List.cons_append, List.length_cons, List.length_nil] at hl ⊢
  · obtain ⟨a, rfl⟩ := List.length_eq_one_iff.mp hl
    exact hread a ([], []) ([], [])
  · match fields, hl with
    | [a, b, e], _ =>
      simp only [List.zipWith_cons_cons, List.zipWith_nil_left, map_map_id]
      exact hread a ([], []) (b, e)
  · match fields, hl with
    | [a, b, e], _ =>
      simp only [List.zipWith_cons_cons, List.zipWith_nil_left, map_map_id]
      exact hread a (b, e) ([], [])
  · match fields, hl with
    | [a, b, e, b', e'], _ =>
      simp only [List.zipWith_cons_cons, List.zipWith_nil_left, map_map_id]
      exact hread a (b, e) (b', e')

/-! ### Several times -/

theorem compatibleSize33_maps (f g : Fl K → Fl K) (a b : List (List (List (Fl K)))) :
    compatibleSize33 (a.map (List.map (List.map f))) (b.map (List.map (List.map g))) = compatibleSize33 a b := by
  unfold compatibleSize33
  simp [Function.comp_def]

/-- The changes of the fields of the stack for `n` times. -/
def stackChanges3 (c : K) (n : Nat) (present : Bool) : List (Fl K → Fl K) := if present then List.replicate n (times c) ++ [fun v => v] else []

theorem unitChanges_stack3 {c : K} (hc : c ≠ 0) (d : K) (n : Nat) (p q : Bool) :
    UnitChanges (List.replicate n (inUnits c d) ++ (stackChanges3 c n p ++ stackChanges3 c n q)) := by
  have hs : ∀ p, ∀ f ∈ stackChanges3 c n p, ∃ c d : K, c ≠ 0 ∧ f = inUnits c d := by
    intro p f hf
    unfold stackChanges3 at hf
    split at hf
    · rcases List.mem_append.mp hf with hf | hf
      · exact ⟨c, 0, hc, (List.eq_of_mem_replicate hf).trans (inUnits_zero c).symm⟩
      · rw [List.mem_singleton] at hf
        exact ⟨1, 0, one_ne_zero, hf.trans inUnits_one.symm⟩
    · cases hf
  intro f hf
  rcases List.mem_append.mp hf with hf | hf
  · exact ⟨c, d, hc, List.eq_of_mem_replicate hf⟩
  · rcases List.mem_append.mp hf with hf | hf
    · exact hs _ f hf
    · exact hs _ f hf

theorem stackFields3_units (c d : K) (grad : List (List (List (Fl K)))) (vals : List (List (Fl K))) (iv : List (List (List (Fl K)))) :
    stackFields3 (grad.map (List.map (List.map (times c)))) vals (iv.map (List.map (List.map (inUnits c d)))) =
      List.zipWith (fun f => List.map (List.map f)) (stackChanges3 c iv.length (decide (grad.length ≠ 0))) <$> stackFields3 grad vals iv := by
  unfold stackFields3 stackChanges3
  simp only [List.length_map, compatibleSize33_maps, vget_map, mapM_map_eq]
  by_cases h : grad.length = 0
  · simp [h]
  · simp only [h, if_false, ne_eq, not_false_eq_true, decide_true, if_true, bind_map_eq, map_bind_eq, map_ok]
    congr 1; funext u
    apply bind_congr_ok
    intro gs hgs
    have hl : gs.length = iv.length := by simpa [upto] using mapM_length hgs
    rw [List.zipWith_append (by simp [hl]), ← hl, zipWith_replicate_map]
    simp

theorem stackFields3_length {grad : List (List (List (Fl K)))} {vals : List (List (Fl K))} {iv out : List (List (List (Fl K)))} (c : K) (h : stackFields3 grad vals iv = ok out) :
    out.length = (stackChanges3 c iv.length (decide (grad.length ≠ 0))).length := by
  unfold stackFields3 at h
  unfold stackChanges3
  by_cases hg : grad.length = 0
  · rw [if_pos hg] at h
    cases h
    simp [hg]
  · rw [if_neg hg] at h
    obtain ⟨u, -, h⟩ := bind_eq_ok.mp h
    obtain ⟨gs, hgs, h⟩ := bind_eq_ok.mp h
    cases h
    have hl : gs.length = iv.length := by simpa [upto] using mapM_length hgs
    simp [hg, hl]

/-- What is read back from the stack in other units. -/
theorem stackPair3_units (c : K) (present : Bool) (n k : Nat) (F : List (Fl K → Fl K)) (fields : List (List (List (Fl K)))) (hl : F.length = fields.length)
    (hF : present = true → ∃ tl, F.drop k = List.replicate n (times c) ++ (fun v => v) :: tl) :
    stackPair3 present n (List.zipWith (fun f => List.map (List.map f)) F fields) (k : Int) =
      (fun p => (p.1.map (List.map (List.map (times c))), p.2)) <$> stackPair3 present n fields (k : Int) := by
  unfold stackPair3
  cases present with
  | false => rfl
  | true =>
    obtain ⟨tl, htl⟩ := hF rfl
    have hlen : n < (F.drop k).length := by rw [htl]; simp
    rw [List.length_drop] at hlen
    have hget : ∀ t (ht : t < n) (h : k + t < F.length), F[k + t] = times c := by
      intro t ht h
      have : (F.drop k)[t]? = some (times c) := by
        rw [htl, List.getElem?_append_left (by simpa using ht), List.getElem?_replicate, if_pos ht]
      rw [List.getElem?_drop, List.getElem?_eq_getElem h] at this
      exact Option.some.inj this
    have hlast : F[k + n]'(by omega) = fun v => v := by
      have : (F.drop k)[n]? = some fun v => v := by
        rw [htl, List.getElem?_append_right (by simp)]
        simp
      rw [List.getElem?_drop, List.getElem?_eq_getElem (by omega)] at this
      exact Option.some.inj this
    rw [if_pos rfl, if_pos rfl]
    have e1 : mapM (fun t : Int => vget (List.zipWith (fun f => List.map (List.map f)) F fields) ((k : Int) + t)) (upto n) =
        List.map (List.map (List.map (times c))) <$> mapM (fun t : Int => vget fields ((k : Int) + t)) (upto n) := by
      rw [← mapM_map_eq]
      apply mapM_congr
      intro t ht
      obtain ⟨t, ht', rfl⟩ := List.mem_map.mp ht
      rw [List.mem_range] at ht'
      have := vget_zipWith (fun f => List.map (List.map f)) hl (k + t) (by omega)
      rw [hget t ht' (by omega)] at this
      push_cast at this
      exact this
    have e2 : vget (List.zipWith (fun f => List.map (List.map f)) F fields) ((k : Int) + n) = vget fields ((k : Int) + n) := by
      have := vget_zipWith (fun f => List.map (List.map f)) hl (k + n) (by omega)
      rw [hlast] at this
      push_cast at this
      rw [this]
      cases vget fields ((k : Int) + n) <;> simp
    rw [e1, e2]
    simp only [map_bind_eq, bind_map_eq, map_ok]

/-- **C175**: `full_gradient` to a grid for several times. -/
theorem c175_full_gradient_times (T : RTree K) (s : Downscaler) (c d : K) (hc : c ≠ 0) (ig og : Grid K) (iv ge gl : List (List (List (Fl K)))) :
    fullGradientGG3 T s ig og (iv.map (List.map (List.map (inUnits c d)))) (ge.map (List.map (List.map (times c)))) (gl.map (List.map (List.map (times c)))) =
      List.map (List.map (List.map (inUnits c d))) <$> fullGradientGG3 T s ig og iv ge gl := by
  unfold fullGradientGG3
  simp only [stackFields3_units, map_bind_eq, List.length_map, bind_map_eq]
  congr 1; funext so
  apply bind_congr_ok
  intro fe hfe
  apply bind_congr_ok
  intro fl hfl
  have l1 := stackFields3_length c hfe
  have l2 := stackFields3_length c hfl
  have hF := unitChanges_stack3 hc d iv.length (decide (ge.length ≠ 0)) (decide (gl.length ≠ 0))
  have hlen : (List.replicate iv.length (inUnits c d) ++ (stackChanges3 c iv.length (decide (ge.length ≠ 0)) ++ stackChanges3 c iv.length (decide (gl.length ≠ 0)))).length =
      (iv ++ (fe ++ fl)).length := by simp [l1, l2]
  have hd := downscalingGG3_layers T s hF ig og _ hlen
  rw [List.zipWith_append (by simp), List.zipWith_append (by simp [l1]), zipWith_replicate_map] at hd
  rw [hd, map_bind_eq]
  apply bind_congr_ok
  intro fields hfields
  have hl := (downscalingGG3_length hfields).trans hlen.symm
  have eo : mapM (fun t : Int => vget (List.zipWith (fun f => List.map (List.map f)) (List.replicate iv.length (inUnits c d) ++
        (stackChanges3 c iv.length (decide (ge.length ≠ 0)) ++ stackChanges3 c iv.length (decide (gl.length ≠ 0)))) fields) t) (upto iv.length) =
      List.map (List.map (List.map (inUnits c d))) <$> mapM (fun t : Int => vget fields t) (upto iv.length) := by
    rw [← mapM_map_eq]
    apply mapM_congr
    intro t ht
    obtain ⟨t, ht', rfl⟩ := List.mem_map.mp ht
    rw [List.mem_range] at ht'
    rw [vget_zipWith _ hl.symm t (by simp; omega)]
    congr 2
    rw [List.getElem_append_left (by simpa using ht'), List.getElem_replicate]
  have ee := stackPair3_units c (decide (ge.length ≠ 0)) iv.length iv.length _ fields hl.symm (fun h => ⟨stackChanges3 c iv.length (decide (gl.length ≠ 0)), by
    rw [List.drop_left' (by simp)]
    simp [stackChanges3, of_decide_eq_true h]⟩)
  have el := stackPair3_units c (decide (gl.length ≠ 0)) iv.length (if ge.length = 0 then iv.length else 2 * iv.length + 1) _ fields hl.symm (fun h => ⟨[], by
    rw [← List.append_assoc, List.drop_left' (by
      unfold stackChanges3
      by_cases hg : ge.length = 0
      · simp [hg]
      · simp [hg]; omega)]
    simp [stackChanges3, of_decide_eq_true h]⟩)
  have hk : (((if ge.length = 0 then iv.length else 2 * iv.length + 1 : Nat)) : Int) = if ge.length = 0 then (iv.length : Int) else 2 * iv.length + 1 := by
    split <;> push_cast <;> rfl
  rw [hk] at el
  simp only [eo, ee, el, map_bind_eq, correctionG3_units hc, vget_map, vget2_map, times, corrected_units hc, ← map_ok (f := inUnits c d)]
  simp only [← bind_map_eq, grid2_map_eq, mapM_map_eq, omp_map]

end

/-! ### Concrete cases -/

/-- A field in °C and in °F, with gradients of the elevation and of the land fraction: the corrected values 12 and 8 °C are 53.6 and 46.4 °F. -/
example : (do let g ← witnessGrid
              let o ← witnessOut
              fullGradientGG2 RTree.scan .nearest g o ([[fin 1, fin 2], [fin 3, fin 4]].map (List.map (inUnits (9 / 5) 32)))
                ([[fin 1, fin 1], [fin 1, fin 1]].map (List.map (times (9 / 5)))) ([[fin 2, fin 2], [fin 2, fin 4]].map (List.map (times (9 / 5))))) =
    ok [[fin (268 / 5), fin (232 / 5)]] := by decide +kernel

/-- The gradients must be given in the new units as well. -/
example : (do let g ← witnessGrid
              let o ← witnessOut
              fullGradientGG2 RTree.scan .nearest g o ([[fin 1, fin 2], [fin 3, fin 4]].map (List.map (inUnits (9 / 5) 32)))
                [[fin 1, fin 1], [fin 1, fin 1]] [[fin 2, fin 2], [fin 2, fin 4]]) ≠
    ok [[fin (268 / 5), fin (232 / 5)]] := by decide +kernel

/-- Bilinear interpolation of the same field with a missing value: inside, on a side, outside, and next to the missing corner. -/
example : (do let g ← Grid.new [[fin (0 : ℚ), fin 0, fin 0], [fin 1, fin 1, fin 1]] [[fin 0, fin 1, fin 2], [fin 0, fin 1, fin 2]] [] [] .cartesian
              let p ← Points.new [fin (1 / 4), fin (1 / 4), fin (-1), fin (1 / 4)] [fin (1 / 2), fin 0, fin 0, fin (7 / 4)] [] [] .cartesian
              bilinearGP2 RTree.scan g p ([[fin 0, fin 4, fin 8], [fin 16, fin 20, nan]].map (List.map (inUnits (9 / 5) 32)))) =
    ok ([fin 6, fin 4, fin 0, fin 8].map (inUnits (9 / 5) 32)) := by decide +kernel

/-- Two times of a stack in units of their own. -/
example : UnitChanges [inUnits (9 / 5 : ℚ) 32, inUnits 1 273] := by
  intro f hf
  simp only [List.mem_cons, List.not_mem_nil, or_false] at hf
  rcases hf with rfl | rfl
  · exact ⟨9 / 5, 32, by norm_num, rfl⟩
  · exact ⟨1, 273, one_ne_zero, rfl⟩

/-- Bilinear interpolation is not carried by every change of the values: squares. -/
theorem c175_bilinear_linear_only : ∃ (f : Fl ℚ → Fl ℚ) (v : List (List (Fl ℚ))), f nan = nan ∧
    (do let g ← Grid.new [[fin (0 : ℚ), fin 0], [fin 1, fin 1]] [[fin 0, fin 1], [fin 0, fin 1]] [] [] .cartesian
        let p ← Points.new [fin (1 / 2)] [fin (1 / 2)] [] [] .cartesian
        bilinearGP2 RTree.scan g p (v.map (List.map f))) ≠
    (do let g ← Grid.new [[fin (0 : ℚ), fin 0], [fin 1, fin 1]] [[fin 0, fin 1], [fin 0, fin 1]] [] [] .cartesian
        let p ← Points.new [fin (1 / 2)] [fin (1 / 2)] [] [] .cartesian
        List.map f <$> bilinearGP2 RTree.scan g p v) :=
  ⟨fun x => x * x, [[fin 0, fin 0], [fin 2, fin 2]], rfl, by decide +kernel⟩

end Gridpp.Props
