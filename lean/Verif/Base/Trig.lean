import Verif.Model.Geo
import Verif.Base.Inst
import Mathlib.Analysis.SpecialFunctions.Trigonometric.Basic

/-! The sphere conversion over `ℝ` (util.cpp:607-612), and a stand-in over `ℚ` for examples with Cartesian coordinates. -/

namespace Gridpp

/-- util.cpp:607-612 with `radius_earth = 6.378137e6` (include/gridpp.h:55). -/
noncomputable instance : HasGeo ℝ where
  geo lat lon :=
    let lonr := Real.pi / 180 * lon
    let latr := Real.pi / 180 * lat
    ⟨Real.cos latr * Real.cos lonr * 6378137, Real.cos latr * Real.sin lonr * 6378137, Real.sin latr * 6378137⟩

/-- Not the sphere formula: a plate-carrée stand-in, only used in concrete examples. -/
instance : HasGeo ℚ where
  geo lat lon := ⟨lon, lat, 1⟩

end Gridpp
