import Verif.Model.Neighbourhood

/-! Model of neighbourhood_search.cpp. -/

set_option linter.unusedSectionVars false

namespace Gridpp
open Fl Res

section
variable {K : Type} [Field K] [LinearOrder K] [IsStrictOrderedRing K]

/-- `nearest_target`, its position, `counter` and `accum_temp` (neighbourhood_search.cpp:33-37). -/
structure SearchState (K : Type) where
  nearest : Fl K
  pos : Int × Int
  counter : Nat
  accum : Fl K

/-- `std::min(a, b)`. -/
def Fl.stdMin (a b : Fl K) : Fl K := if b.lt a then b else a

/-- Distance of a search value to the nearer end of the target range (neighbourhood_search.cpp:82-83). -/
def targetDistance (tmin tmax v : Fl K) : Fl K := Fl.stdMin (Fl.abs (v - tmin)) (Fl.abs (v - tmax))

/-- One iteration of the loops over the window (neighbourhood_search.cpp:54-92) for the search value `here` of the cell. `active` is
`!use_apply_array || apply_array[y][x] == 1`. -/
def searchStep (array search : List (List (Fl K))) (tmin tmax delta here : Fl K) (active : Bool) (s : SearchState K) (yy xx : Int) :
    Res (SearchState K) := do
  let sv ← vget2 search yy xx
  if !sv.isValid then ok s
  else do
    let av ← vget2 array yy xx
    if !av.isValid then ok s
    else if active then
      if sv.ge tmin && sv.le tmax then ok { s with counter := s.counter + 1, accum := s.accum + av }
      else if 0 < s.counter then ok s
      else if (Fl.abs (sv - here)).ge delta then
        if !s.nearest.isValid then ok { s with nearest := sv, pos := (yy, xx) }
        else if (targetDistance tmin tmax sv).lt (targetDistance tmin tmax s.nearest) then ok { s with nearest := sv, pos := (yy, xx) }
        else ok s
      else ok s
    else ok s

/-- The loops over the window and the choice of the output (neighbourhood_search.cpp:51-109). -/
def searchWindow (array search : List (List (Fl K))) (nY nX : Nat) (halfwidth : Int) (tmin tmax delta here : Fl K) (active : Bool) (y x : Int) :
    Res (Fl K) := do
  let s ← foldM (fun s yy => foldM (fun s xx => searchStep array search tmin tmax delta here active s yy xx) s
      (irange (max 0 (x - halfwidth)) (min ((nX : Int) - 1) (x + halfwidth))))
    { nearest := MV, pos := (0, 0), counter := 0, accum := fin 0 }
    (irange (max 0 (y - halfwidth)) (min ((nY : Int) - 1) (y + halfwidth)))
  if 0 < s.counter then ok (s.accum / Fl.ofNat s.counter)
  else if s.nearest.isValid then vget2 array s.pos.1 s.pos.2
  else vget2 array y x

/-- One cell (neighbourhood_search.cpp:33-109). `is_valid` of an integer is always true. -/
def searchCell (array search : List (List (Fl K))) (nY nX : Nat) (halfwidth : Int) (tmin tmax delta : Fl K) (apply : List (List Int)) (y x : Int) :
    Res (Fl K) := do
  let here ← vget2 search y x
  if !here.isValid then vget2 array y x
  else if apply.length = 0 then searchWindow array search nY nX halfwidth tmin tmax delta here true y x
  else do
    let a ← vget2 apply y x
    if a = 0 then vget2 array y x
    else searchWindow array search nY nX halfwidth tmin tmax delta here (decide (a = 1)) y x

/-- One row (neighbourhood_search.cpp:30-111): the loop runs over the cells of `array[y]`, the output row has the size of
`array[0]`. -/
def searchRow (array search : List (List (Fl K))) (nY nX : Nat) (halfwidth : Int) (tmin tmax delta : Fl K) (apply : List (List Int)) (y : Int) :
    Res (List (Fl K)) := do
  let row ← vget array y
  let cells ← mapM (searchCell array search nY nX halfwidth tmin tmax delta apply y) (upto row.length)
  if nX < row.length then ub
  else ok (cells ++ List.replicate (nX - row.length) MV)

/-- The size check of `search_array` (neighbourhood_search.cpp:16): true if the sizes fit. Empty fields are read outside. -/
def searchSizeOk (array search : List (List (Fl K))) : Res Bool :=
  if search.length ≠ array.length then ok false
  else do
    let s0 ← vget search 0
    let a0 ← vget array 0
    ok (decide (s0.length = a0.length))

/-- The size check of `apply_array` (neighbourhood_search.cpp:20): true if the sizes fit. An array of one row is not checked. -/
def applySizeOk (array : List (List (Fl K))) (apply : List (List Int)) : Res Bool :=
  if apply.length ≤ 1 then ok true
  else if apply.length ≠ array.length then ok false
  else do
    let p0 ← vget apply 0
    let a0 ← vget array 0
    ok (decide (p0.length = a0.length))

/-- `gridpp::neighbourhood_search` (neighbourhood_search.cpp:7-113). -/
def neighbourhoodSearch (array search : List (List (Fl K))) (halfwidth : Int) (tmin tmax delta : Fl K) (apply : List (List Int)) :
    Res (List (List (Fl K))) :=
  if tmin.gt tmax then .throw .invalidArgument
  else if halfwidth < 0 then .throw .invalidArgument
  else do
    let b1 ← searchSizeOk array search
    if b1 = false then .throw .invalidArgument
    else do
      let b2 ← applySizeOk array apply
      if b2 = false then .throw .invalidArgument
      else do
        let row0 ← vget array 0
        mapM (searchRow array search array.length row0.length halfwidth tmin tmax delta apply) (upto array.length)

end
end Gridpp
