import Verif.Model.Core

/-!
# Sessions: commands mixed with statistics queries

Paths in comments are relative to `/repo/src/DRAMPower/DRAMPower/`.
-/

namespace DRAMPower

/-- Calls of the public interface (dram/dram_base.h): `doCoreCommand`/`doCommand` (56-67) and
`getWindowStats(t)` (110), which is also all that the energy queries (`getTotalEnergy` 78-80,
`calcCoreEnergy` 102-104) do to the simulator. Only the core half of `doCommand` is modelled here. -/
inductive Op
  | cmd (c : Cmd)
  | query (t : Nat)
deriving DecidableEq, Repr

/-- Time of a call. -/
def Op.time : Op → Nat
  | .cmd c => c.t
  | .query t => t

/-- A sequence of calls; returns the simulator and the answers of the queries in order. -/
def Core.session (std : Std) (ms : MemSpec) (c : Core) : List Op → Except Err (Core × List CoreStats)
  | [] => .ok (c, [])
  | .cmd cmd :: ops => match c.doCommand std ms cmd with
    | .ok c => c.session std ms ops
    | .error e => .error e
  | .query t :: ops =>
    match (c.getWindowStats std ms t).1.session std ms ops with
    | .ok (c', ans) => .ok (c', (c.getWindowStats std ms t).2 :: ans)
    | .error e => .error e

/-- `getLastCommandTime` (e.g. DDR4Core.cpp 62-64). The `getLastCommandTime` of a whole simulator is
the maximum of this one and the interface's (e.g. DDR4.h 71-73); the interface value is not
modelled. -/
def Core.lastCommandTime (c : Core) : Nat := c.last

/-- `getStats` (dram/dram_base.h 82-84) with the core's last command time. -/
def Core.getStats (std : Std) (ms : MemSpec) (c : Core) : Core × CoreStats :=
  c.getWindowStats std ms c.lastCommandTime

end DRAMPower
