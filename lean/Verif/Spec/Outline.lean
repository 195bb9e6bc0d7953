import Verif.Model.SimObject

/-!
# What is left of a session without payloads, inversion and metadata
-/

namespace DRAMPower.Spec

/-- The same command without its payload; its length stays. -/
def bare (c : ICmd) : ICmd := { c with data := none }

/-- A call on the interface; switching inversion and metadata is disregarded. -/
def opOutline : IfOp → Option IfOp
  | .cmd c => some (.cmd (bare c))
  | .dbi _ | .metaData _ _ => none
  | op => some op

/-- A call on the simulator; switching inversion and metadata and calls that only ask are disregarded. -/
def outline : SimCall → Option SimCall
  | .command c => some (.command (bare c))
  | .coreCommand c => some (.coreCommand (bare c))
  | .iface op => (opOutline op).map .iface
  | .window t => some (.window t)
  | _ => none

/-- The figures other than those of the data wires and the inversion lines. -/
def otherFigures (s : SimStats) : SimStats := { s with readBus := {}, writeBus := {}, readDBI := {}, writeDBI := {} }

end DRAMPower.Spec
