import Verif.Model.Client.SetupData
import Verif.Model.Client.Util

/-! # The command line of the client (src/client/Setup.cpp:89-752)

The index into the arguments only moves forward, so the arguments from the index on are kept instead. -/

namespace Gridpp.Client
open Res

/-- The arguments that the finite state machine looks for. -/
def flagV : Str := ['-', 'v']
@[inherit_doc flagV] def flagVi : Str := ['-', 'v', 'i']
@[inherit_doc flagV] def flagVa : Str := ['-', 'v', 'a']
@[inherit_doc flagV] def flagD : Str := ['-', 'd']
@[inherit_doc flagV] def flagC : Str := ['-', 'c']
@[inherit_doc flagV] def flagP : Str := ['-', 'p']

/-- `enum State` (src/client/Setup.cpp:90). `ERROR` is left out: nothing is done in it but to end the program (:747-751). -/
inductive SetupState where
  | start | var | varOpt | newVar | varI | varIOpt | varAlias | varAliasOpt | newVarAlias | down | downOpt | cal | newCal | calOpt
  | parDown | parOptDown | parCal | parOptCal | done
  deriving DecidableEq, Repr

/-- `Setup::defaultDownscaler` (src/client/Setup.cpp:774-776). -/
def defaultDownscaler : Str := "nearestNeighbour".toList

/-- The variables of the finite state machine (src/client/Setup.cpp:91-111), the arguments from `index` on, and the members
`variableConfigurations` and `variableAliases`. Of an alias the name and the options are kept. -/
structure SetupMachine where
  state : SetupState
  rest : List Str
  variableName : Str
  variableInputName : Str
  vOptions : Options
  viOptions : Options
  dOptions : Options
  pOptions : Options
  downscaler : Str
  calibrator : Str
  cOpt : Options
  parameterFile : Str
  calibrators : List CalibratorConf
  parameterFileDownscaler : Option (Str × List (Str × Str))
  variableAlias : Str
  aOptions : Options
  aliases : List (Str × List (Str × Str))
  confs : List VariableConf
  deriving DecidableEq, Repr

/-- The values before the loop (src/client/Setup.cpp:91-111). -/
def SetupMachine.init (args : List Str) : SetupMachine where
  state := .start
  rest := args
  variableName := []
  variableInputName := []
  vOptions := Options.empty
  viOptions := Options.empty
  dOptions := Options.empty
  pOptions := Options.empty
  downscaler := defaultDownscaler
  calibrator := []
  cOpt := Options.empty
  parameterFile := []
  calibrators := []
  parameterFileDownscaler := none
  variableAlias := []
  aOptions := Options.empty
  aliases := []
  confs := []

/-- To another state, with the arguments `rest` left. -/
def SetupMachine.goto (m : SetupMachine) (s : SetupState) (rest : List Str) : SetupMachine := { m with state := s, rest := rest }

/-- State `VAR` (src/client/Setup.cpp:137-179). The first character of an empty argument is the end of the text. -/
def stepVar (m : SetupMachine) : Res SetupMachine :=
  match m.rest with
  | [] => Client.error
  | a :: t =>
    if a.head? = some '-' then Client.error
    else
      let m := { m with variableName := a }
      match t with
      | [] => ok (m.goto .newVar [])
      | b :: u =>
        if b = flagV then ok (m.goto .newVar t)
        else if m.variableInputName = [] ∧ b = flagVi then ok (m.goto .varI u)
        else if b = flagVi then ok (m.goto .newVar t)
        else if b = flagD then ok (m.goto .down u)
        else if b = flagC then ok (m.goto .cal u)
        else if b = flagP then Client.error
        else ok (m.goto .varOpt t)

/-- State `VAROPT` (src/client/Setup.cpp:180-208). -/
def stepVarOpt (m : SetupMachine) : Res SetupMachine :=
  match m.rest with
  | [] => ok (m.goto .newVar [])
  | a :: t =>
    if a = flagD then ok (m.goto .down t)
    else if a = flagC then ok (m.goto .cal t)
    else if a = flagV then ok (m.goto .newVar m.rest)
    else if a = flagVi then ok (m.goto .varI t)
    else if a = flagP then Client.error
    else do
      let o ← addOptions m.vOptions a
      ok { m with vOptions := o, rest := t }

/-- State `VARI` (src/client/Setup.cpp:209-251). -/
def stepVarI (m : SetupMachine) : Res SetupMachine :=
  match m.rest with
  | [] => Client.error
  | a :: t =>
    if a.head? = some '-' then Client.error
    else
      let m := { m with variableInputName := a }
      match t with
      | [] => ok (m.goto .newVar [])
      | b :: u =>
        if b = flagVi then ok (m.goto .newVar t)
        else if m.variableName = [] ∧ b = flagV then ok (m.goto .var u)
        else if b = flagV then ok (m.goto .newVar t)
        else if b = flagD then ok (m.goto .down u)
        else if b = flagC then ok (m.goto .cal u)
        else if b = flagP then Client.error
        else ok (m.goto .varIOpt t)

/-- State `VARIOPT` (src/client/Setup.cpp:252-280). -/
def stepVarIOpt (m : SetupMachine) : Res SetupMachine :=
  match m.rest with
  | [] => ok (m.goto .newVar [])
  | a :: t =>
    if a = flagD then ok (m.goto .down t)
    else if a = flagC then ok (m.goto .cal t)
    else if a = flagVi then ok (m.goto .newVar m.rest)
    else if a = flagV then ok (m.goto .var t)
    else if a = flagP then Client.error
    else do
      let o ← addOptions m.viOptions a
      ok { m with viOptions := o, rest := t }

/-- Where the input variable comes from (src/client/Setup.cpp:304-330). -/
def findSource (env : SetupEnv) (m : SetupMachine) (name : Str) : InputSource :=
  if env.hasInput name then .file
  else if m.aliases.any (fun a => a.1 = name) then .alias
  else if env.sameFile && m.confs.any (fun c => c.output = name) then .earlier
  else .none

/-- The new configuration (src/client/Setup.cpp:287-367). The name of the output variable is the name on the command line: `getVariable` finds
by name and `Variable::add` does not change it. `none`: the variable is there already and only a warning is given. -/
def newConf (env : SetupEnv) (m : SetupMachine) : Res (Option VariableConf) :=
  if m.confs.any (fun c => c.output = m.variableName) then ok none
  else
    let name := if m.variableInputName = [] then m.variableName else m.variableInputName
    let options := if m.variableInputName = [] then m.vOptions else m.viOptions
    let source := findSource env m name
    if source = .none ∧ m.downscaler ≠ "bypass".toList then Client.error
    else if !m.calibrators.all (fun c => env.calibratorOk c.name c.options) then Client.error
    else if !env.downscalerOk m.downscaler m.dOptions.pairs then Client.error
    else ok (some {
      output := m.variableName
      input := name
      source := source
      outputOptions := m.vOptions.pairs
      inputOptions := options.pairs
      downscaler := m.downscaler
      downscalerOptions := m.dOptions.pairs
      downscalerParameters := m.parameterFileDownscaler
      calibrators := m.calibrators })

/-- The reset after a variable (src/client/Setup.cpp:368-378). -/
def SetupMachine.reset (m : SetupMachine) : SetupMachine :=
  { m with
    vOptions := clearOptions m.vOptions
    viOptions := clearOptions m.viOptions
    variableName := []
    variableInputName := []
    downscaler := defaultDownscaler
    parameterFileDownscaler := none
    dOptions := clearOptions m.dOptions
    calibrators := [] }

/-- What follows a variable or an alias (src/client/Setup.cpp:380-390 and :441-451). Anything else leaves the state as it is. -/
def nextVariable (m : SetupMachine) : SetupMachine :=
  match m.rest with
  | [] => m.goto .done []
  | a :: t => if a = flagV then m.goto .var t else if a = flagVi then m.goto .varI t else m

/-- State `NEWVAR` (src/client/Setup.cpp:281-392). -/
def stepNewVar (env : SetupEnv) (m : SetupMachine) : Res SetupMachine :=
  if m.variableName = [] then Client.error
  else do
    let c ← newConf env m
    ok (nextVariable { m.reset with confs := m.confs ++ c.toList })

/-- State `VARALIAS` (src/client/Setup.cpp:393-408). -/
def stepVarAlias (m : SetupMachine) : Res SetupMachine :=
  match m.rest with
  | [] => Client.error
  | a :: t => if a.head? = some '-' then Client.error else ok ({ m with variableAlias := a }.goto .varAliasOpt t)

/-- State `VARALIASOPT` (src/client/Setup.cpp:409-423). -/
def stepVarAliasOpt (m : SetupMachine) : Res SetupMachine :=
  match m.rest with
  | [] => ok (m.goto .newVarAlias [])
  | a :: t =>
    if a = flagV then ok (m.goto .newVarAlias m.rest)
    else if a = flagVi then ok (m.goto .newVarAlias m.rest)
    else do
      let o ← addOptions m.aOptions a
      ok { m with aOptions := o, rest := t }

/-- State `NEWVARALIAS` (src/client/Setup.cpp:424-452). -/
def stepNewVarAlias (m : SetupMachine) : Res SetupMachine :=
  if m.aliases.any (fun a => a.1 = m.variableAlias) then ok (nextVariable m)
  else if !(getValue m.aOptions "name".toList []).2.1 then Client.error
  else ok (nextVariable { m with
    aliases := m.aliases ++ [(m.variableAlias, m.aOptions.pairs)]
    variableAlias := []
    aOptions := clearOptions m.aOptions })

/-- State `DOWN` (src/client/Setup.cpp:453-487). -/
def stepDown (m : SetupMachine) : Res SetupMachine :=
  match m.rest with
  | [] => Client.error
  | a :: t =>
    let m := { m with downscaler := a }
    match t with
    | [] => ok (m.goto .newVar [])
    | b :: u =>
      if b = flagC then ok (m.goto .cal u)
      else if b = flagV then ok (m.goto .newVar t)
      else if b = flagVi then ok (m.goto .newVar t)
      else if b = flagD then ok (m.goto .down u)
      else if b = flagP then ok (m.goto .parDown t)
      else ok (m.goto .downOpt t)

/-- State `DOWNOPT` (src/client/Setup.cpp:488-510). -/
def stepDownOpt (m : SetupMachine) : Res SetupMachine :=
  match m.rest with
  | [] => ok (m.goto .newVar [])
  | a :: t =>
    if a = flagC then ok (m.goto .cal t)
    else if a = flagV then ok (m.goto .newVar m.rest)
    else if a = flagVi then ok (m.goto .newVar m.rest)
    else if a = flagP then ok (m.goto .parDown m.rest)
    else do
      let o ← addOptions m.dOptions a
      ok { m with dOptions := o, rest := t }

/-- State `PARDOWN` (src/client/Setup.cpp:511-548). -/
def stepParDown (m : SetupMachine) : Res SetupMachine :=
  match m.rest with
  | [] => Client.error
  | a :: t =>
    let m := { m with parameterFile := a }
    match t with
    | [] => ok (m.goto .newVar [])
    | b :: u =>
      if b = flagC then ok (m.goto .cal u)
      else if b = flagV then ok (m.goto .newVar t)
      else if b = flagVi then ok (m.goto .newVar t)
      else if b = flagD then ok (m.goto .down u)
      else if b = flagP then Client.error
      else ok (m.goto .parOptDown t)

/-- State `PAROPTDOWN` (src/client/Setup.cpp:549-572). -/
def stepParOptDown (m : SetupMachine) : Res SetupMachine :=
  match m.rest with
  | [] => ok (m.goto .newVar [])
  | a :: t =>
    if a = flagC then ok (m.goto .cal t)
    else if a = flagV then ok (m.goto .newVar m.rest)
    else if a = flagVi then ok (m.goto .newVar m.rest)
    else if a = flagP then Client.error
    else do
      let o ← addOptions m.pOptions a
      ok { m with pOptions := o, rest := t }

/-- State `CAL` (src/client/Setup.cpp:573-604). -/
def stepCal (m : SetupMachine) : Res SetupMachine :=
  match m.rest with
  | [] => Client.error
  | a :: t =>
    let m := { m with calibrator := a }
    match t with
    | [] => ok (m.goto .newCal [])
    | b :: _ =>
      if b = flagV then ok (m.goto .newCal t)
      else if b = flagVi then ok (m.goto .newCal t)
      else if b = flagC then ok (m.goto .newCal t)
      else if b = flagD then ok (m.goto .newCal t)
      else if b = flagP then ok (m.goto .parCal t)
      else ok (m.goto .calOpt t)

/-- State `CALOPT` (src/client/Setup.cpp:605-629). -/
def stepCalOpt (m : SetupMachine) : Res SetupMachine :=
  match m.rest with
  | [] => ok (m.goto .newCal [])
  | a :: t =>
    if a = flagC then ok (m.goto .newCal m.rest)
    else if a = flagV then ok (m.goto .newCal m.rest)
    else if a = flagVi then ok (m.goto .newCal m.rest)
    else if a = flagD then ok (m.goto .newCal m.rest)
    else if a = flagP then ok (m.goto .parCal m.rest)
    else do
      let o ← addOptions m.cOpt a
      ok { m with cOpt := o, rest := t }

/-- State `PARCAL` (src/client/Setup.cpp:630-666). The index is only moved in the branches for a flag; the branch at :638-641 is never taken. -/
def stepParCal (m : SetupMachine) : Res SetupMachine :=
  match m.rest with
  | [] => Client.error
  | a :: t =>
    let m := { m with parameterFile := a }
    if a = flagV then ok (m.goto .newCal t)
    else if a = flagVi then ok (m.goto .newCal t)
    else if a = flagC then ok (m.goto .newCal t)
    else if a = flagD then ok (m.goto .newCal t)
    else if a = flagP then ok (m.goto .parCal t)
    else ok (m.goto .parOptCal m.rest)

/-- State `PAROPTCAL` (src/client/Setup.cpp:667-691). -/
def stepParOptCal (m : SetupMachine) : Res SetupMachine :=
  match m.rest with
  | [] => ok (m.goto .newCal [])
  | a :: t =>
    if a = flagC then ok (m.goto .newCal m.rest)
    else if a = flagV then ok (m.goto .newCal m.rest)
    else if a = flagVi then ok (m.goto .newCal m.rest)
    else if a = flagD then ok (m.goto .newCal m.rest)
    else if a = flagP then ok (m.goto .parCal m.rest)
    else do
      let o ← addOptions m.pOptions a
      ok { m with pOptions := o, rest := t }

/-- The parameter file of a calibrator (src/client/Setup.cpp:696-711) and `ParameterFile::getScheme` (ParameterFile/ParameterFile.cpp:37-49):
the options with `file` added and what is opened, `none` if there is no file. `Setup::pOptions` is not emptied. -/
def openParameters (env : SetupEnv) (pOptions : Options) (file : Str) : Res (Options × Option (Str × List (Str × Str))) :=
  if file = [] then ok (pOptions, none)
  else
    let r := getValue pOptions "type".toList []
    if !r.2.1 then Client.error
    else
      let o := addOption pOptions "file".toList file
      if r.2.2 ≠ "text".toList ∧ r.2.2 ≠ "netcdf".toList then Client.error
      else if !env.readable r.2.2 o.pairs then Client.error
      else ok (o, some (r.2.2, o.pairs))

/-- State `NEWCAL` (src/client/Setup.cpp:692-743). -/
def stepNewCal (env : SetupEnv) (m : SetupMachine) : Res SetupMachine := do
  let p ← openParameters env m.pOptions m.parameterFile
  let m := { m with
    pOptions := p.1
    calibrators := m.calibrators ++ [CalibratorConf.mk m.calibrator m.cOpt.pairs p.2]
    calibrator := []
    cOpt := clearOptions m.cOpt
    parameterFile := [] }
  match m.rest with
  | [] => ok (m.goto .newVar [])
  | a :: t =>
    if a = flagC then ok (m.goto .cal t)
    else if a = flagV then ok (m.goto .newVar m.rest)
    else if a = flagVi then ok (m.goto .newVar m.rest)
    else if a = flagD then ok (m.goto .down t)
    else Client.error

/-- State `START` (src/client/Setup.cpp:119-136). -/
def stepStart (m : SetupMachine) : Res SetupMachine :=
  match m.rest with
  | [] => Client.error
  | a :: t =>
    if a = flagV then ok (m.goto .var t)
    else if a = flagVi then ok (m.goto .varI t)
    else if a = flagVa then ok (m.goto .varAlias t)
    else Client.error

/-- One turn of the loop (src/client/Setup.cpp:112-752). -/
def setupStep (env : SetupEnv) (m : SetupMachine) : Res SetupMachine :=
  match m.state with
  | .start => stepStart m
  | .var => stepVar m
  | .varOpt => stepVarOpt m
  | .newVar => stepNewVar env m
  | .varI => stepVarI m
  | .varIOpt => stepVarIOpt m
  | .varAlias => stepVarAlias m
  | .varAliasOpt => stepVarAliasOpt m
  | .newVarAlias => stepNewVarAlias m
  | .down => stepDown m
  | .downOpt => stepDownOpt m
  | .cal => stepCal m
  | .newCal => stepNewCal env m
  | .calOpt => stepCalOpt m
  | .parDown => stepParDown m
  | .parOptDown => stepParOptDown m
  | .parCal => stepParCal m
  | .parOptCal => stepParOptCal m
  | .done => ok m

/-- The loop `while(true)` (src/client/Setup.cpp:112-752) until the state `END`. The number bounds the turns; `ub` when it is used up stands
for a loop that never ends. -/
def setupLoop (env : SetupEnv) : Nat → SetupMachine → Res SetupMachine
  | 0, _ => ub
  | n + 1, m => if m.state = .done then ok m else do
      let m' ← setupStep env m
      setupLoop env n m'

/-- The variables of the command line (src/client/Setup.cpp:89-752), for the arguments after the file names: the configurations and the aliases.
That every command line ends within these turns is part of C129. -/
def commandLine (env : SetupEnv) (args : List Str) : Res (List VariableConf × List (Str × List (Str × Str))) := do
  let m ← setupLoop env (8 * args.length + 8) (SetupMachine.init args)
  ok (m.confs, m.aliases)

end Gridpp.Client
