import Verif.Model.Client.Driver

/-! # What the program is to do with its arguments and files -/

namespace Gridpp.Spec
open Gridpp.Client Res

/-- `args` are the arguments `argv` without each `--debug` and the word after it; `levels` are these words. -/
inductive WithoutDebug : List Str → List Str → List Str → Prop
  | nil : WithoutDebug [] [] []
  | keep {a argv args levels} : a ≠ "--debug".toList → WithoutDebug argv args levels → WithoutDebug (a :: argv) (a :: args) levels
  | debug {l argv args levels} : WithoutDebug argv args levels → WithoutDebug ("--debug".toList :: l :: argv) args (l :: levels)

variable {F : Type}

/-- Calibrators one after another make `f'` of `f`. -/
inductive Calibrated (ops : DriverOps F) (c : VariableConf) : List CalibratorConf → F → F → Prop
  | nil {f} : Calibrated ops c [] f f
  | cons {k ks f g h} : ops.calibrate c k f = ok g → Calibrated ops c ks g h → Calibrated ops c (k :: ks) f h

/-- The variables one after another, each of them made in the output, downscaled from the input and calibrated: the input and the output before and
after. -/
inductive Processed (ops : DriverOps F) : List VariableConf → F → F → F → F → Prop
  | nil {i o} : Processed ops [] i o i o
  | cons {c cs i o o1 i2 o2 o3 i' o'} : ops.init o c.output = ok o1 → ops.downscale c i o1 = ok (i2, o2) → Calibrated ops c c.calibrators o2 o3 →
      Processed ops cs i2 o3 i' o' → Processed ops (c :: cs) i o i' o'

/-- The same for a file that is input and output. -/
inductive ProcessedSelf (ops : DriverOps F) : List VariableConf → F → F → Prop
  | nil {o} : ProcessedSelf ops [] o o
  | cons {c cs o o1 o2 o3 o'} : ops.init o c.output = ok o1 → ops.downscaleSelf c o1 = ok o2 → Calibrated ops c c.calibrators o2 o3 →
      ProcessedSelf ops cs o3 o' → ProcessedSelf ops (c :: cs) o o'

/-- What is made of a pair of an input `i` and an output `o`: the files after the program. -/
def PairDone (ops : DriverOps F) (confs : List VariableConf) (vars : List Str) (message : Str) (i o i' o' : F) : Prop :=
  ∃ i1 o1 o2, Processed ops confs i (ops.follow o i) i1 o1 ∧ ops.write o1 vars message = ok o2 ∧ i' = ops.clear i1 ∧ o' = ops.clear o2

end Gridpp.Spec
