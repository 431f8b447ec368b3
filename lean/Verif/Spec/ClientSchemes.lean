/-! # The options of the schemes of the client as the help text describes them

For every scheme the lines `key=default` of its function `description` (src/client/Calibrator/*.cpp and src/client/Downscaler/*.cpp), with the text
after `=`: `undef` where there is no default, `required` where the option must be given. -/

namespace Gridpp.Spec

/-- The calibrators. -/
def calibratorDocs : List (String × List (String × String)) := [
  ("zaga", [("fracThreshold", "0.5"), ("neighbourhoodSize", "0"), ("precipLowQuantile", "undef"), ("precipMiddleQuantile", "undef"),
    ("precipHighQuantile", "undef"), ("lowVariable", "undef"), ("middleVariable", "undef"), ("highVariable", "undef"), ("popVariable", "undef"),
    ("popThreshold", "0.5"), ("maxEnsMean", "100"), ("6h", "0")]),
  ("cloud", [("precipVariable", "undef"), ("value", "1")]),
  ("accumulate", []),
  ("deaccumulate", []),
  ("gaussian", [("neighbourhoodSize", "0")]),
  ("neighbourhood", [("radius", "3"), ("stat", "mean"), ("quantile", "undef"), ("fast", "1"), ("approx", "0")]),
  ("diagnoseHumidity", [("temperature", "required"), ("rh", "undef"), ("dewpoint", "undef"), ("pressure", "undef"), ("compute", "required")]),
  ("diagnoseWind", [("x", "undef"), ("y", "undef"), ("speed", "undef"), ("direction", "undef"), ("compute", "required")]),
  ("oi", [("transform", "none"), ("d", "30000"), ("h", "100"), ("w", "0.2"), ("dc", "10000"), ("maxLocations", "20"), ("sigma", "1"), ("sigmaC", "1"),
    ("delta", "1"), ("x", "undef"), ("y", "undef"), ("extrapolate", "0"), ("minRho", "0.0013"), ("maxBytes", "6442450944"), ("minEns", "5"),
    ("elevGradient", "0"), ("useEns", "1"), ("wmin", "0.5"), ("epsilon", "0.5"), ("epsilonC", "0.2916"), ("lambda", "0.5"),
    ("boxCoxThreshold", "undef"), ("rhoType", "gaussian"), ("diagnose", "0"), ("maxElevDiff", "200"), ("landOnly", "0"), ("diaFile", "undef"),
    ("crossValidate", "0")]),
  ("override", [("radius", "0"), ("maxElevDiff", "undef")]),
  ("phase", [("temperature", "required"), ("precipitation", "required"), ("minPrecip", "0.2"), ("snowThreshold", "273.15"),
    ("rainThreshold", "274.15")]),
  ("windDirection", [("directionVariable", "required")]),
  ("kriging", [("radius", "30000"), ("efoldDist", "30000"), ("maxElevDiff", "undef"), ("auxVariable", "undef"), ("range", "undef"), ("window", "0"),
    ("type", "cressman"), ("operator", "add"), ("approxDist", "true"), ("crossValidate", "false")]),
  ("window", [("length", "required"), ("before", "0"), ("stat", "mean"), ("quantile", "undef"), ("keepMissing", "0"), ("edgePolicy", "compute")]),
  ("qc", [("min", "undef"), ("max", "undef")]),
  ("qnh", []),
  ("qq", [("extrapolation", "1to1"), ("quantiles", "undef"), ("extraObs", "undef"), ("extraFcst", "undef")]),
  ("regression", [("order", "1"), ("variables", "undef"), ("intercept", "1")]),
  ("bct", [("maxEnsMean", "100")]),
  ("sort", []),
  ("altitude", []),
  ("mask", [("keep", "1")]),
  ("coastal", [("searchRadius", "3"), ("minLafDiff", "0.1"), ("useNN", "False")]),
  ("threshold", [("thresholds", "required"), ("values", "required"), ("equals", "undef")])]

/-- The downscalers. -/
def downscalerDocs : List (String × List (String × String)) := [
  ("nearestNeighbour", []),
  ("smart", [("radius", "3"), ("num", "5"), ("minElevDiff", "-999")]),
  ("bypass", []),
  ("pressure", []),
  ("gradient", [("constantElevGradient", "undef"), ("elevRadius", "3"), ("minElevDiff", "30"), ("defaultElevGradient", "0"),
    ("minElevGradient", "undef"), ("maxElevGradient", "undef"), ("minLafForElevGradient", "0"), ("minNumPoints", "2"),
    ("elevGradientVariable", "undef"), ("lafRadius", "1"), ("minLafDiff", "0.1"), ("minFracSeaPoints", "0"), ("minLafGradient", "undef"),
    ("maxLafGradient", "undef"), ("lafSearchRadii", "1,2,3"), ("lafWeights", "undef"), ("logTransform", "0"), ("averageNeighbourhood", "0"),
    ("saveGradient", ""), ("downscaler", "nearestNeighbour"), ("limit", "0")]),
  ("bilinear", []),
  ("upscale", [("stat", "mean"), ("quantile", "undef")])]

/-- The key has a value among the pairs. -/
def HasKey (ps : List (List Char × List Char)) (key : String) : Prop := ∃ v, (key.toList, v) ∈ ps

/-- An option that is described only applies to some settings: `quantile` with `stat=quantile`, and `range` and `window` of kriging with `auxVariable`. -/
def Applies (ps : List (List Char × List Char)) (scheme key : String) : Prop :=
  (key = "quantile" → ∃ v, ps.find? (fun p => p.1 = "stat".toList) = some v ∧ v.2 = "quantile".toList) ∧
  (scheme = "kriging" ∧ (key = "range" ∨ key = "window") → HasKey ps "auxVariable")

end Gridpp.Spec
