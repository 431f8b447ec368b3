import Verif.Model.Client.FileText

/-!
# src/client/File/File.cpp: elevations, land fractions and sizes; src/client/File/Fake.cpp
-/

set_option linter.unusedSectionVars false

namespace Gridpp.Client
open Fl Res

variable {K : Type} [Field K] [LinearOrder K]

/-- The grids of class `File` (src/client/File/File.h:99, 114 and 116), without the longitudes. -/
structure FileGrids (K : Type) where
  lats : List (List (Fl K))
  elevs : List (List (Fl K))
  fractions : List (List (Fl K))

/-- `landFractions.resize(getNumY())` and `landFractions[i].resize(getNumX(), Util::MV)` (src/client/File/File.cpp:304-308 and 315-319). `getNumX` is only
called if there is a row. -/
def missingGrid (lats : List (List (Fl K))) : Res (List (List (Fl K))) :=
  if lats.length = 0 then ok []
  else do
    let n ← numX lats
    ok (List.replicate lats.length (List.replicate n MV))

/-- `File::getElevs` (src/client/File/File.cpp:301-312). -/
def getElevs (f : FileGrids K) : Res (List (List (Fl K))) := if f.elevs.length = 0 then missingGrid f.lats else ok f.elevs

/-- The test of sizes (src/client/File/File.cpp:290 and 314): whether they differ. -/
def otherSize (lats v : List (List (Fl K))) : Res Bool :=
  if v.length ≠ lats.length then ok true
  else do
    let r ← vget v 0
    let n ← numX lats
    ok (decide (r.length ≠ n))

/-- `File::getLandFractions` (src/client/File/File.cpp:313-322). -/
def getLandFractions (f : FileGrids K) : Res (List (List (Fl K))) := do
  let other ← otherSize f.lats f.fractions
  if other then missingGrid f.lats else ok f.fractions

/-- `File::setLandFractions` (src/client/File/File.cpp:289-294); `none` if the function returns false. -/
def setLandFractions (lats v : List (List (Fl K))) : Res (Option (List (List (Fl K)))) := do
  let other ← otherSize lats v
  ok (if other then none else some v)

/-- What a program does with these grids. -/
inductive GridOp (K : Type) where
  | elevs (v : List (List (Fl K)))
  | fractions (v : List (List (Fl K)))

/-- One of them; a refusal leaves the file as it is. -/
def gridStep (f : FileGrids K) : GridOp K → Res (FileGrids K)
  | .elevs v => do
    let r ← setElevs f.lats v
    ok { f with elevs := r.getD f.elevs }
  | .fractions v => do
    let r ← setLandFractions f.lats v
    ok { f with fractions := r.getD f.fractions }

/-- The sizes of a file (src/client/File/File.cpp:323-334). -/
structure FileSizes where
  nY : Nat
  nX : Nat
  nE : Int
  nT : Nat

/-- `File::hasSameDimensions` (src/client/File/File.cpp:167-174). -/
def sameDimensions (a b : FileSizes) : Bool := a.nY == b.nY && a.nX == b.nX && a.nE == b.nE && a.nT == b.nT

/-! ### File/Fake.cpp -/

/-- The latitudes (src/client/File/Fake.cpp:25-32). -/
def fakeLats (Y X : Nat) : List (List (Fl K)) :=
  (List.range Y).map fun (i : Nat) => (List.range X).map fun (_ : Nat) => fin (50 + 10 * (i : K) / (Y : K))

/-- The longitudes (src/client/File/Fake.cpp:33-40). -/
def fakeLons (Y X : Nat) : List (List (Fl K)) :=
  (List.range Y).map fun (_ : Nat) => (List.range X).map fun (j : Nat) => fin (0 + 10 * (j : K) / (X : K))

/-- The part of land (src/client/File/Fake.cpp:63-69). -/
def fakeFractions (Y X : Nat) : List (List (Fl K)) :=
  (List.range Y).map fun (i : Nat) => (List.range X).map fun (j : Nat) => fin ((i : K) / (Y : K) / 2 + (j : K) / (X : K))

/-- The constructor (src/client/File/Fake.cpp:2-74); the sizes are those of the options or their defaults. The elevations, which are 0, and the times, which
are numbered, are left out. -/
def fakeFile [FloorRing K] (tag next : Nat) (nLat nLon nEns nTime : Int) : Res (GridFile K × List (List (Fl K))) :=
  if nLat ≤ 0 then error
  else if nLon ≤ 0 then error
  else if nEns ≤ 0 then error
  else if nTime ≤ 0 then error
  else do
    let g1 ← setLats ⟨[], [], tag⟩ next (fakeLats nLat.toNat nLon.toNat)
    match g1 with
    | none => error
    | some (g1, n1) => do
      let g2 ← setLons g1 n1 (fakeLons nLat.toNat nLon.toNat)
      match g2 with
      | none => error
      | some (g2, _) => ok (g2, fakeFractions nLat.toNat nLon.toNat)

/-- `FileFake::getFieldCore` (src/client/File/Fake.cpp:76-87). -/
def fakeField (Y X E : Nat) : Res (FieldC K) := do
  let f ← FieldC.new Y X E MV
  FieldC.forAll Y X E (fun f i j e => f.set i j e (Fl.ofNat (i + j + e))) f

end Gridpp.Client
