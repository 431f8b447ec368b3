import Verif.Model.Client.Setup
import Verif.Model.Client.SetupFiles
import Verif.Model.Client.ParameterText

/-! # The program gridpp (src/client/Driver/Gridpp.cpp)

What is printed is left out, except which of the usage texts it is. The arguments are those after the name of the program. -/

namespace Gridpp.Client
open Res

/-- What `main` does with its arguments. -/
inductive MainAction where
  | version
  | help
  | usage
  | run (args : List Str) (debug : Str)
  deriving DecidableEq

/-- `--version` and `--help` (src/client/Driver/Gridpp.cpp:66-76). -/
def mainFlags : List Str → Option MainAction
  | [] => none
  | a :: t => if a = "--version".toList then some .version else if a = "--help".toList then some .help else mainFlags t

/-- The arguments without `--debug`, and the debug level (src/client/Driver/Gridpp.cpp:82-96). -/
def debugLoop (debug : Str) : List Str → Res (List Str × Str)
  | [] => ok ([], debug)
  | a :: t =>
    if a = "--debug".toList then
      match t with
      | [] => error
      | level :: t => debugLoop level t
    else do
      let r ← debugLoop debug t
      ok (a :: r.1, r.2)

/-- The beginning of `main` (src/client/Driver/Gridpp.cpp:66-96). -/
def mainAction (argv : List Str) : Res MainAction :=
  match mainFlags argv with
  | some a => ok a
  | none =>
    if argv.length < 2 then ok .usage
    else do
      let r ← debugLoop "warn".toList argv
      ok (.run r.1 r.2)

/-- What is shown (src/client/Driver/Gridpp.cpp:84, 98-117): errors, status, warnings, information. -/
structure Shown where
  error : Bool
  status : Bool
  warning : Bool
  info : Bool
  deriving DecidableEq

@[inherit_doc Shown] def shownAt (debug : Str) : Shown :=
  if debug = "quiet".toList then ⟨false, false, false, false⟩
  else if debug = "error".toList then ⟨true, false, false, false⟩
  else if debug = "warn".toList then ⟨true, true, true, false⟩
  else ⟨true, true, true, true⟩

/-- `Options::getValue` for `T = bool` (src/client/Options.h:49-61) with the value `s` of the option: a number other than zero, as without
`std::boolalpha`. Nothing to read leaves the variable as it is, something that is no number is false, and a number that does not fit into a `long` is
true. -/
def readBool (s : Str) (old : Bool) : Bool :=
  let t := skipSpace s
  if t = [] then old else decide (digitsVal ((takeSign t).2.takeWhile isDigit) ≠ 0)

/-- `write` (src/client/Driver/Gridpp.cpp:141-142). -/
def writeFlag (c : VariableConf) : Bool :=
  match c.outputOptions.find? (fun p => p.1 = "write".toList) with
  | none => true
  | some p => readBool p.2 true

/-- What the driver does to files of some kind: `setTimes`, `setNumEns` and `setReferenceTime` of the output with what the input has;
`initNewVariable`; the downscaler, which also changes the input file as it reads from it, and the same if both are one object; the calibrators; `write`,
and `clear`. -/
structure DriverOps (F : Type) where
  follow : F → F → F
  init : F → Str → Res F
  downscale : VariableConf → F → F → Res (F × F)
  downscaleSelf : VariableConf → F → Res F
  calibrate : VariableConf → CalibratorConf → F → Res F
  write : F → List Str → Str → Res F
  clear : F → F

/-- The files, by name: there is one object for each name (src/client/Setup.cpp:55-87). -/
abbrev Files (F : Type) := Str → F

/-- A file changes. -/
def Files.put {F : Type} (w : Files F) (n : Str) (f : F) : Files F := fun m => if m = n then f else w m

variable {F : Type}

/-- The downscaler (src/client/Driver/Gridpp.cpp:153). -/
def runDownscaler (ops : DriverOps F) (inp out : Str) (w : Files F) (c : VariableConf) : Res (Files F) :=
  if inp = out then do
    let f ← ops.downscaleSelf c (w out)
    ok (w.put out f)
  else do
    let r ← ops.downscale c (w inp) (w out)
    ok ((w.put inp r.1).put out r.2)

/-- One variable (src/client/Driver/Gridpp.cpp:135-183). -/
def runVariable (ops : DriverOps F) (inp out : Str) (w : Files F) (c : VariableConf) : Res (Files F) := do
  let f ← ops.init (w out) c.output
  let w ← runDownscaler ops inp out (w.put out f) c
  foldM (fun w k => do
    let f ← ops.calibrate c k (w out)
    ok (Files.put w out f)) w c.calibrators

/-- The text that is written with the data (src/client/Driver/Gridpp.cpp:186-191). -/
def joinArgs : List Str → Str
  | [] => []
  | [a] => a
  | a :: t => a ++ ' ' :: joinArgs t

/-- One pair of an output and an input file (src/client/Driver/Gridpp.cpp:123-204). -/
def runFile (ops : DriverOps F) (confs : List VariableConf) (message : Str) (w : Files F) (p : Str × Str) : Res (Files F) := do
  let w := w.put p.1 (ops.follow (w p.1) (w p.2))
  let w ← foldM (runVariable ops p.2 p.1) w confs
  let f ← ops.write (w p.1) ((confs.filter writeFlag).map VariableConf.output) message
  let w := w.put p.1 f
  let w := w.put p.2 (ops.clear (w p.2))
  ok (w.put p.1 (ops.clear (w p.1)))

/-- The loop over the files (src/client/Driver/Gridpp.cpp:123-204). -/
def runFiles (ops : DriverOps F) (confs : List VariableConf) (message : Str) (w : Files F) (pairs : List (Str × Str)) : Res (Files F) :=
  foldM (runFile ops confs message) w pairs

/-- What `main` has done. -/
inductive MainResult (F : Type) where
  | version
  | help
  | usage
  | done (w : Files F)

/-- `main` (src/client/Driver/Gridpp.cpp:62-206). `setup` is what `Setup` asks of the files, `opened` the file that `File::getScheme` makes. -/
def gridppMain (fenv : FileEnv) (setup : List (FileHandle × FileHandle) → SetupEnv) (ops : DriverOps F) (opened : FileHandle → F) (argv : List Str) :
    Res (MainResult F) := do
  let a ← mainAction argv
  match a with
  | .version => ok .version
  | .help => ok .help
  | .usage => ok .usage
  | .run args _ => do
    let fs ← setupFiles fenv args
    let vs ← commandLine (setup fs.1) fs.2
    let handles := fs.1.flatMap fun p => [p.1, p.2]
    let w : Files F := fun n => opened ((findFile handles n).getD ⟨n, [], true⟩)
    let w ← runFiles ops vs.1 (joinArgs argv) w (fs.1.map fun p => (p.1.name, p.2.name))
    ok (.done w)

end Gridpp.Client
