import Verif.Model.Client.Downscaler

/-!
# src/client/File/File.cpp: coordinates and tags of files; the cache of neighbours of src/client/Downscaler/Downscaler.cpp

A file is reduced to its latitudes, its longitudes and its tag.
-/

set_option linter.unusedSectionVars false

namespace Gridpp.Client
open Fl Res

variable {K : Type} [Field K] [LinearOrder K] [FloorRing K]

/-- The part of class `File` that holds the grid (src/client/File/File.h:74-113). -/
structure GridFile (K : Type) where
  lats : List (List (Fl K))
  lons : List (List (Fl K))
  tag : Nat
  deriving DecidableEq

/-- `fmod(x, 360)` for a number. -/
def fmod360 : Fl K → Fl K
  | fin q => if 0 ≤ q then fin (q - 360 * (⌊q / 360⌋ : Int)) else fin (q - 360 * (⌈q / 360⌉ : Int))
  | _ => nan

/-- The longitude that is kept (src/client/File/File.cpp:261-273); the conversion to `int` of `lon / fabs(lon)` is undefined for a
longitude of zero. -/
def standardLon (lon : Fl K) : Res (Fl K) :=
  if isValid lon then do
    let sign ← Fl.truncInt (lon / Fl.abs lon)
    let l := Fl.ofInt sign * fmod360 (Fl.abs lon)
    let l' := if l.gt (fin 180) then l - fin 360 else if l.lt (fin (-180)) then l + fin 360 else l
    assert (l'.ge (fin (-(1800001 / 10000))) && l'.le (fin (1800001 / 10000)))
    ok l'
  else ok lon

/-- `for(i < v.size()) for(j < v[i].size())` with a check of each value (src/client/File/File.cpp:231-239 and 249-257): `Util::error`
if a value is less than `-b` or greater than `b`. -/
def checkRange (b : K) (v : List (List (Fl K))) : Res Unit :=
  if v.any fun r => r.any fun x => x.lt (fin (-b)) || x.gt (fin b) then error else ok ()

/-- The refusal of new coordinates (src/client/File/File.cpp:223-225 and 243-245): `own` are the present ones. The sizes of the file are
those of its latitudes. -/
def refuses (own lats new : List (List (Fl K))) : Res Bool :=
  if own.length = 0 then ok false
  else if new.length ≠ lats.length then ok true
  else do
    let r ← vget new 0
    let n ← numX lats
    ok (decide (r.length ≠ n))

/-- `File::setLats` (src/client/File/File.cpp:222-241). `next` is `mNextTag`. `none` if the function returns false. -/
def setLats (f : GridFile K) (next : Nat) (lats : List (List (Fl K))) : Res (Option (GridFile K × Nat)) := do
  let no ← refuses f.lats f.lats lats
  if no then ok none
  else do
    checkRange 90 lats
    ok (some (if eqVec2 f.lats lats then ({ f with lats := lats }, next) else ({ f with lats := lats, tag := next }, next + 1)))

/-- `File::setLons` (src/client/File/File.cpp:242-280). -/
def setLons (f : GridFile K) (next : Nat) (lons : List (List (Fl K))) : Res (Option (GridFile K × Nat)) := do
  let no ← refuses f.lons f.lats lons
  if no then ok none
  else do
    checkRange 360 lons
    let std ← mapM (fun r => mapM standardLon r) lons
    ok (some (if eqVec2 f.lons lons then ({ f with lons := std }, next) else ({ f with lons := std, tag := next }, next + 1)))

/-- The state of the program as far as the cache of neighbours is concerned: the files, `File::mNextTag` and
`Downscaler::mNeighbourCache`. -/
structure World (K : Type) where
  files : List (GridFile K)
  next : Nat
  cache : List ((Nat × Nat) × List (List (Int × Int)))

/-- What a program can do: open a file (the constructor of `File`), give it coordinates, clear the cache, ask for neighbours. -/
inductive Op (K : Type) where
  | new
  | lats (k : Nat) (v : List (List (Fl K)))
  | lons (k : Nat) (v : List (List (Fl K)))
  | clear
  | tree (a b : Nat)
  | brute (a b : Nat)

/-- `Downscaler::isCached`, `Downscaler::getFromCache` (src/client/Downscaler/Downscaler.cpp:207-217, 223-229). -/
def cached (c : List ((Nat × Nat) × List (List (Int × Int)))) (a b : Nat) : Option (List (List (Int × Int))) :=
  (c.find? fun p => p.1 = (a, b)).map (·.2)

/-- A lookup (src/client/Downscaler/Downscaler.cpp:53-57, 96-103 and 204): from the cache, or computed and added to the cache. -/
def lookup (w : World K) (a b : Nat) (compute : GridFile K → GridFile K → Res (List (List (Int × Int)))) :
    Res (World K × List (List (Int × Int))) := do
  let f ← vget w.files a
  let g ← vget w.files b
  match cached w.cache f.tag g.tag with
  | some t => ok (w, t)
  | none => do
    let t ← compute f g
    ok ({ w with cache := ((f.tag, g.tag), t) :: w.cache }, t)

/-- One operation; the second component is the answer of a lookup. -/
def step [HasArcC K] (sort : Bool → List (Site K) → List (Site K)) (w : World K) : Op K → Res (World K × Option (List (List (Int × Int))))
  | .new => ok ({ w with files := w.files ++ [⟨[], [], w.next⟩], next := w.next + 1 }, none)
  | .clear => ok ({ w with cache := [] }, none)
  | .lats k v => do
    let f ← vget w.files k
    let r ← setLats f w.next v
    match r with
    | none => ok (w, none)
    | some (f', n) => ok ({ w with files := w.files.set k f', next := n }, none)
  | .lons k v => do
    let f ← vget w.files k
    let r ← setLons f w.next v
    match r with
    | none => ok (w, none)
    | some (f', n) => ok ({ w with files := w.files.set k f', next := n }, none)
  | .tree a b => do
    let r ← lookup w a b fun f g => treeGrid sort f.lats f.lons g.lats g.lons
    ok (r.1, some r.2)
  | .brute a b => do
    let r ← lookup w a b fun f g => bruteForceGrid f.lats f.lons g.lats g.lons
    ok (r.1, some r.2)

/-- The program at its start. -/
def World.start : World K := ⟨[], 0, []⟩

/-- A sequence of operations. -/
def run [HasArcC K] (sort : Bool → List (Site K) → List (Site K)) (w : World K) (ops : List (Op K)) : Res (World K) :=
  foldM (fun w op => do
    let r ← step sort w op
    ok r.1) w ops

end Gridpp.Client
