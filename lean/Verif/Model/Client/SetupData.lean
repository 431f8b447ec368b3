import Verif.Model.Client.Options

/-! # What the command line makes: the data of class `Setup` (src/client/Setup.h) -/

namespace Gridpp.Client

/-- A calibrator of a variable and its parameter file (src/client/Setup.h:21-27): the name and the options that `Calibrator::getScheme` gets,
and, unless the parameter file is `NULL`, the name of the type and the options that `ParameterFile::getScheme` gets. The objects themselves
are left out; so is which keys have been read. -/
structure CalibratorConf where
  name : Str
  options : List (Str × Str)
  parameters : Option (Str × List (Str × Str))
  deriving DecidableEq, Repr

/-- Where the input variable comes from (src/client/Setup.cpp:303-330): the input file, an alias, a variable made earlier by the same command,
or none of them. -/
inductive InputSource where
  | file
  | alias
  | earlier
  | none
  deriving DecidableEq, Repr

/-- `struct VariableConfiguration` (src/client/Setup.h:14-27). Of the two variables only the names are kept; of the downscaler the name and the
options. The three vectors for the calibrators are one list, as an entry is added to all of them together (src/client/Setup.cpp:713-715). -/
structure VariableConf where
  output : Str
  input : Str
  source : InputSource
  outputOptions : List (Str × Str)
  inputOptions : List (Str × Str)
  downscaler : Str
  downscalerOptions : List (Str × Str)
  downscalerParameters : Option (Str × List (Str × Str))
  calibrators : List CalibratorConf
  deriving DecidableEq, Repr

/-- What the constructor asks of the files and of the schemes: `inputFiles[0]->hasVariable` (src/client/Setup.cpp:304), whether the first
input file is the first output file (:316), whether a parameter file of this type with these options can be read (:705-706), and whether
`Calibrator::getScheme` (:350) and `Downscaler::getScheme` (:357) accept the name and the options. That the last two also see the variables
is left out. -/
structure SetupEnv where
  hasInput : Str → Bool
  sameFile : Bool
  readable : Str → List (Str × Str) → Bool
  calibratorOk : Str → List (Str × Str) → Bool
  downscalerOk : Str → List (Str × Str) → Bool

end Gridpp.Client
