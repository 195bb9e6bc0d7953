import Verif.Spec.SimSession

/-!
# The two halves of a session

A user may drive only the core (`doCoreCommand`), only the interface (`doInterfaceCommand`), or both (`doCommand`).
-/

namespace DRAMPower.Spec

/-- The calls of a session that concern the core, with commands given to the core alone. -/
def coreHalf (us : List SimCall) : List SimCall :=
  us.filterMap fun
    | .command c | .coreCommand c => some (.coreCommand c)
    | .window t => some (.window t)
    | _ => none

/-- The calls of a session that concern the interface, with commands given to the interface alone. -/
def wireHalf (us : List SimCall) : List SimCall :=
  us.filterMap fun
    | .command c => some (.iface (.cmd c))
    | .iface op => some (.iface op)
    | .setDBI e => some (.setDBI e)
    | .setMetaData a b => some (.setMetaData a b)
    | .window t => some (.window t)
    | _ => none

/-- The figures of banks and ranks. -/
def coreFigures (s : SimStats) : SimStats where
  bank := s.bank
  rankTotal := s.rankTotal.map fun r => { r with prepos := {} }

/-- The figures of the wires: the rest, with the transfers that follow each other closely, which are counted for each rank. -/
def wireFigures (s : SimStats) : SimStats :=
  { s with bank := [], rankTotal := s.rankTotal.map fun r => { prepos := r.prepos } }

end DRAMPower.Spec
