import Verif.Model.ParseThreads
/-! # What using a template while it is parsed should give -/

namespace Utg.Spec
open Py

/-- The texts that are parsed in a schedule, with the announced names. -/
def parsedTexts : List ParseEvent → List (Str × List Str)
  | [] => []
  | .parse text names :: es => (text, names) :: parsedTexts es
  | _ :: es => parsedTexts es

/-- How many steps reading call `i` is given. -/
def readTurns (i : Nat) : List ParseEvent → Nat
  | [] => 0
  | .runRead j :: es => (if j = i then 1 else 0) + readTurns i es
  | _ :: es => readTurns i es

/-- How many steps `parse` number `i` is given. -/
def parseTurns (i : Nat) : List ParseEvent → Nat
  | [] => 0
  | .runParse j :: es => (if j = i then 1 else 0) + parseTurns i es
  | _ :: es => parseTurns i es

/-- The call has ended. -/
def ReadEnded : ReadPc → Prop
  | .filled _ _ => True
  | .saved _ => True
  | .asked _ _ => True
  | _ => False

end Utg.Spec
