import Verif.Spec.NetcdfCore
import Verif.Props.Client.FileNetcdfAltitude
import Verif.Props.Client.FileNetcdfWrite

/-! # Steps in which a NetCDF file changes -/

set_option linter.unusedSectionVars false

namespace Gridpp.Props
open Fl hiding MV isValid
open Res Client Spec

variable {K : Type} [Field K] [LinearOrder K] [IsStrictOrderedRing K]

theorem onlyChanges_refl (S : List Str) (f : NcFile K) : OnlyChanges S f f := ⟨⟨[], by simp⟩, fun _ _ => Iff.rfl⟩

theorem onlyChanges_trans {S : List Str} {f g h : NcFile K} (h1 : OnlyChanges S f g) (h2 : OnlyChanges S g h) : OnlyChanges S f h := by
  obtain ⟨⟨m1, e1⟩, i1⟩ := h1
  obtain ⟨⟨m2, e2⟩, i2⟩ := h2
  exact ⟨⟨m1 ++ m2, by rw [e2, e1, List.append_assoc]⟩, fun w hw => (i2 w hw).trans (i1 w hw)⟩

theorem onlyChanges_mono {S T : List Str} {f g : NcFile K} (h : OnlyChanges S f g) (hs : ∀ n ∈ S, n ∈ T) : OnlyChanges T f g :=
  ⟨h.1, fun w hw => h.2 w fun hc => hw (hs _ hc)⟩

theorem dimLength_more {f g : NcFile K} (h : ∃ more, g.dims = f.dims ++ more) {d : Nat} (hd : d < f.dims.length) : dimLength g d = dimLength f d := by
  obtain ⟨more, h⟩ := h
  unfold dimLength
  rw [h, List.getElem?_append_left hd]

theorem dims_le {f g : NcFile K} (h : ∃ more, g.dims = f.dims ++ more) : f.dims.length ≤ g.dims.length := by
  obtain ⟨more, h⟩ := h
  rw [h]
  simp

theorem fineVar_more {f g : NcFile K} (h : ∃ more, g.dims = f.dims ++ more) {v : NcVar K} (hf : FineVar f v) : FineVar g v := by
  refine ⟨fun d hd => lt_of_lt_of_le (hf.1 d hd) (dims_le h), ?_⟩
  rw [hf.2]
  congr 1
  exact List.map_congr_left fun d hd => (dimLength_more h (hf.1 d hd)).symm

theorem addVar_fine {f : NcFile K} (hf : FineFile f) {v : NcVar K} (hv : FineVar f v) (hn : v.name ∉ f.vars.map NcVar.name) :
    FineFile (f.addVar v) ∧ OnlyChanges [v.name] f (f.addVar v) ∧ v ∈ (f.addVar v).vars := by
  refine ⟨⟨⟨hf.1.1, ?_⟩, ?_⟩, ⟨⟨[], by simp [NcFile.addVar]⟩, ?_⟩, by simp [NcFile.addVar]⟩
  · unfold NcFile.addVar
    simp only [List.map_append, List.map_cons, List.map_nil]
    rw [List.nodup_append]
    refine ⟨hf.1.2, by simp, ?_⟩
    intro a ha b hb
    rw [List.mem_singleton] at hb
    rintro rfl
    exact hn (hb ▸ ha)
  · intro w hw
    unfold NcFile.addVar at hw
    rcases List.mem_append.mp hw with hw | hw
    · exact hf.2 w hw
    · rw [List.mem_singleton] at hw
      rw [hw]
      exact hv
  · intro w hw
    unfold NcFile.addVar
    simp only [List.mem_append, List.mem_singleton]
    refine ⟨fun h => h.resolve_right ?_, .inl⟩
    rintro rfl
    exact hw (by simp)

theorem setVar_fine {f : NcFile K} (hf : FineFile f) {v : NcVar K} (hv : FineVar f v) (hn : v.name ∈ f.vars.map NcVar.name) :
    FineFile (f.setVar v) ∧ OnlyChanges [v.name] f (f.setVar v) ∧ v ∈ (f.setVar v).vars := by
  have hnames : (f.setVar v).vars.map NcVar.name = f.vars.map NcVar.name := by
    unfold NcFile.setVar
    simp only [List.map_map]
    apply List.map_congr_left
    intro w _
    simp only [Function.comp_apply]
    split_ifs with h
    · exact h.symm
    · rfl
  refine ⟨⟨⟨hf.1.1, by rw [hnames]; exact hf.1.2⟩, ?_⟩, ⟨⟨[], by simp [NcFile.setVar]⟩, ?_⟩, ?_⟩
  · intro w hw
    obtain ⟨u, hu, rfl⟩ := List.mem_map.mp hw
    split_ifs
    · exact hv
    · exact hf.2 u hu
  · intro w hw
    have hne : w.name ≠ v.name := fun hc => hw (by simp [hc])
    unfold NcFile.setVar
    simp only [List.mem_map]
    constructor
    · rintro ⟨u, hu, h⟩
      split_ifs at h with hc
      · exact absurd (by rw [h]) hne
      · exact h ▸ hu
    · intro h
      exact ⟨w, h, by rw [if_neg hne]⟩
  · obtain ⟨u, hu, he⟩ := List.mem_map.mp hn
    exact List.mem_map.mpr ⟨u, hu, by rw [if_pos he]⟩

theorem addDim_fine {f : NcFile K} (hf : FineFile f) {n : Str} (hn : n ∉ f.dims.map Prod.fst) (size : Nat) (S : List Str) :
    FineFile ({ f with dims := f.dims ++ [(n, size)] }) ∧ OnlyChanges S f { f with dims := f.dims ++ [(n, size)] } := by
  have hm : ∃ more, ({ f with dims := f.dims ++ [(n, size)] } : NcFile K).dims = f.dims ++ more := ⟨_, rfl⟩
  refine ⟨⟨⟨?_, hf.1.2⟩, fun v hv => fineVar_more hm (hf.2 v hv)⟩, hm, fun _ _ => Iff.rfl⟩
  simp only [List.map_append, List.map_cons, List.map_nil]
  rw [List.nodup_append]
  refine ⟨hf.1.1, by simp, ?_⟩
  intro a ha b hb
  rw [List.mem_singleton] at hb
  rintro rfl
  exact hn (hb ▸ ha)

/-- A variable as it is when it has just been defined. -/
def freshVar (f : NcFile K) (name : Str) (dims : List Nat) : NcVar K := ⟨name, dims, List.replicate (dims.map (dimLength f)).prod (.fin (15 * 2 ^ 119)), none⟩

theorem freshVar_fine {f : NcFile K} {dims : List Nat} (hd : ∀ d ∈ dims, d < f.dims.length) (name : Str) : FineVar f (freshVar f name dims) :=
  ⟨hd, by simp [freshVar]⟩

theorem ncDefVar_ok {f : NcFile K} {name : Str} (hn : name ∉ f.vars.map NcVar.name) {dims : List Nat} (hd : ∀ d ∈ dims, d < f.dims.length) :
    ncDefVar f name dims = ok (f.addVar (freshVar f name dims)) := by
  unfold ncDefVar
  rw [var_none hn]
  simp only
  rw [mapM_ok (fun d h => dimSize_ok (hd d h)), ok_bind]
  rfl

theorem ncDefDim_ok {f : NcFile K} {name : Str} (hn : name ∉ f.dims.map Prod.fst) (size : Nat) :
    ncDefDim f name size = ok ({ f with dims := f.dims ++ [(name, size)] }, f.dims.length) := by
  unfold ncDefDim
  rw [dimId_none hn]

theorem var_of_name {f : NcFile K} (hf : FineFile f) {n : Str} (h : n ∈ f.vars.map NcVar.name) : ∃ v ∈ f.vars, v.name = n ∧ f.var n = some v := by
  obtain ⟨v, hv, rfl⟩ := List.mem_map.mp h
  exact ⟨v, hv, rfl, var_some hf.1.2 hv⟩

theorem name_mem_iff {S : List Str} {f g : NcFile K} (h : OnlyChanges S f g) {n : Str} (hn : n ∉ S) : n ∈ g.vars.map NcVar.name ↔ n ∈ f.vars.map NcVar.name := by
  constructor
  · intro hm
    obtain ⟨v, hv, rfl⟩ := List.mem_map.mp hm
    exact List.mem_map.mpr ⟨v, (h.2 v hn).mp hv, rfl⟩
  · intro hm
    obtain ⟨v, hv, rfl⟩ := List.mem_map.mp hm
    exact List.mem_map.mpr ⟨v, (h.2 v hn).mpr hv, rfl⟩

/-- The definition of all variables with forecasts. -/
theorem defineFields_ok {L : NcLayout} (names : List Str) {f : NcFile K} (hf : FineFile f) (hL : ∀ d ∈ [L.time, L.ens, L.y, L.x].reduceOption, d < f.dims.length) :
    ∃ g, foldM (defineField L) f names = ok g ∧ FineFile g ∧ g.dims = f.dims ∧ OnlyChanges names f g ∧
      ∀ n ∈ names, ∃ v ∈ g.vars, v.name = n ∧ (v ∈ f.vars ∨ n ∉ f.vars.map NcVar.name ∧ v = freshVar f n [L.time, L.ens, L.y, L.x].reduceOption) := by
  induction names generalizing f with
  | nil => exact ⟨f, rfl, hf, rfl, onlyChanges_refl _ _, fun n hn => by cases hn⟩
  | cons n t ih =>
    have step : ∃ g, defineField L f n = ok g ∧ FineFile g ∧ g.dims = f.dims ∧ OnlyChanges [n] f g ∧
        ∃ v ∈ g.vars, v.name = n ∧ (v ∈ f.vars ∨ n ∉ f.vars.map NcVar.name ∧ v = freshVar f n [L.time, L.ens, L.y, L.x].reduceOption) := by
      unfold defineField
      by_cases hn : n ∈ f.vars.map NcVar.name
      · obtain ⟨v, hv, hvn, he⟩ := var_of_name hf hn
        rw [he]
        exact ⟨f, rfl, hf, rfl, onlyChanges_refl _ _, v, hv, hvn, .inl hv⟩
      · rw [var_none hn]
        simp only
        rw [ncDefVar_ok hn hL]
        obtain ⟨a, b, c⟩ := addVar_fine hf (freshVar_fine hL n) hn
        exact ⟨_, rfl, a, rfl, b, _, c, rfl, .inr ⟨hn, rfl⟩⟩
    obtain ⟨g, g1, g2, g3, g4, v, v1, v2, v3⟩ := step
    obtain ⟨h, h1, h2, h3, h4, h5⟩ := ih g2 (by rw [g3]; exact hL)
    have hfresh : ∀ m ds, freshVar g m ds = freshVar f m ds := by
      intro m ds
      unfold freshVar dimLength
      rw [g3]
    refine ⟨h, by rw [foldM_cons, g1, ok_bind, h1], h2, by rw [h3, g3],
      onlyChanges_trans (onlyChanges_mono g4 (by simp)) (onlyChanges_mono h4 (by intro m hm; simp [hm])), ?_⟩
    intro m hm
    by_cases hmt : m ∈ t
    · obtain ⟨w, w1, w2, w3⟩ := h5 m hmt
      refine ⟨w, w1, w2, ?_⟩
      by_cases hmn : m = n
      · rcases w3 with w3 | ⟨w3, -⟩
        · have : w = v := by
            have e1 := var_some g2.1.2 w3
            have e2 := var_some g2.1.2 v1
            rw [w2, hmn] at e1
            rw [v2, e1] at e2
            exact Option.some.inj e2
          rw [this, hmn]
          exact v3
        · exact absurd (List.mem_map.mpr ⟨v, v1, by rw [v2, hmn]⟩) w3
      · have hmn' : m ∉ [n] := by simpa using hmn
        rcases w3 with w3 | ⟨w3, w4⟩
        · exact .inl ((g4.2 w (by rw [w2]; exact hmn')).mp w3)
        · exact .inr ⟨fun hc => w3 ((name_mem_iff g4 hmn').mpr hc), by rw [w4, hfresh]⟩
    · have hmn : m = n := by
        rcases List.mem_cons.mp hm with h | h
        · exact h
        · exact absurd h hmt
      subst hmn
      exact ⟨v, (h4.2 v (by rw [v2]; exact hmt)).mpr v1, v2, v3⟩

/-- All variables of a list get new values, one after another. -/
theorem setAll_ok {body : NcFile K → Str → Res (NcFile K)} {new : Str → NcVar K} (names : List Str) (hnd : names.Nodup) {f : NcFile K} (hf : FineFile f)
    (hname : ∀ n ∈ names, (new n).name = n ∧ FineVar f (new n) ∧ n ∈ f.vars.map NcVar.name)
    (hb : ∀ n ∈ names, ∀ g : NcFile K, FineFile g → g.dims = f.dims → (∀ v, v.name = n → (v ∈ g.vars ↔ v ∈ f.vars)) → body g n = ok (g.setVar (new n))) :
    ∃ g, foldM body f names = ok g ∧ FineFile g ∧ g.dims = f.dims ∧ OnlyChanges names f g ∧ ∀ n ∈ names, new n ∈ g.vars := by
  induction names generalizing f with
  | nil => exact ⟨f, rfl, hf, rfl, onlyChanges_refl _ _, fun n hn => by cases hn⟩
  | cons n t ih =>
    obtain ⟨hnt, hnd⟩ := List.nodup_cons.mp hnd
    obtain ⟨a1, a2, a3⟩ := hname n (by simp)
    obtain ⟨b1, b2, b3⟩ := setVar_fine hf a2 (by rw [a1]; exact a3)
    rw [a1] at b2
    obtain ⟨g, g1, g2, g3, g4, g5⟩ := ih hnd (f := f.setVar (new n)) b1 (by
      intro m hm
      obtain ⟨c1, c2, c3⟩ := hname m (by simp [hm])
      refine ⟨c1, c2, (name_mem_iff b2 ?_).mpr c3⟩
      simp only [List.mem_singleton]
      rintro rfl
      exact hnt hm) (by
      intro m hm g hg hd hv
      refine hb m (by simp [hm]) g hg hd fun v hvn => (hv v hvn).trans (b2.2 v ?_)
      simp only [List.mem_singleton, hvn]
      rintro rfl
      exact hnt hm)
    refine ⟨g, by rw [foldM_cons, hb n (by simp) f hf rfl (fun _ _ => Iff.rfl), ok_bind, g1], g2, g3,
      onlyChanges_trans (onlyChanges_mono b2 (by simp)) (onlyChanges_mono g4 (by intro m hm; simp [hm])), ?_⟩
    intro m hm
    rcases List.mem_cons.mp hm with rfl | hm
    · exact (g4.2 _ (by rw [a1]; exact hnt)).mpr b3
    · exact g5 m hm

end Gridpp.Props
