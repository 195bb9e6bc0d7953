import Verif.Model.Simulator
import Verif.Model.InterfaceEnergy

/-!
# Queries of the simulator object

Paths in comments are relative to `/repo/src/DRAMPower/DRAMPower/`; line ranges are given in the order DDR4, DDR5, LPDDR4, LPDDR5,
LPDDR6.
-/

namespace DRAMPower

/-- A bank entry of the statistics as the core fills it (the entries of `prepos` stay zero). -/
def BankStats.toCycle (b : BankStats) : CycleStats := { counter := b.counter, cycles := b.cycles }

/-- The statistics after `m_core.getWindowStats(timestamp, stats)` (standards/ddr4/DDR4Core.cpp 294-333 and the same of the other
standards): in `rank_total` only `cycles` is assigned. -/
def CoreStats.toSim (c : CoreStats) : SimStats where
  bank := c.bank.map BankStats.toCycle
  rankTotal := c.rankTotal.map fun x => { cycles := x }

variable {std : Std} {N : Nat}

namespace Simulator

/-- `getWindowStats` (standards/ddr4/DDR4.cpp 60-65, ddr5/DDR5.cpp 43-48, lpddr4/LPDDR4.cpp 53-58, lpddr5/LPDDR5.cpp 54-59,
lpddr6/LPDDR6.cpp 60-65). Processing the implicit commands changes the core. -/
def getWindowStats (ms : MemSpec) (sp : IfSpec) (s : Simulator std N) (t : Nat) : Except Err (Simulator std N × SimStats) := do
  let (core, c) := s.core.getWindowStats std ms t
  let st ← s.interface.getWindowStats sp t c.toSim
  pure ({ s with core }, st)

/-- `getLastCommandTime` (standards/ddr4/DDR4.h 71-73, ddr5/DDR5.h 67-69, lpddr4/LPDDR4.h 70-72, lpddr5/LPDDR5.h 68-70,
lpddr6/LPDDR6.h 66-68). -/
def lastCommandTime (s : Simulator std N) : Nat := max s.core.last s.interface.lastCommandTime

/-- `getStats` (dram/dram_base.h 82-84). -/
def getStats (ms : MemSpec) (sp : IfSpec) (s : Simulator std N) : Except Err (Simulator std N × SimStats) :=
  s.getWindowStats ms sp s.lastCommandTime

/-- `calcCoreEnergy` (dram/dram_base.h 101-103, standards/ddr4/DDR4.cpp 49-52 and the same of the other standards). -/
def calcCoreEnergy (ms : MemSpec) (sp : IfSpec) (ps : PowerSpec) (s : Simulator std N) (t : Nat) :
    Except Err (Simulator std N × Energy) := do
  let (s, st) ← s.getWindowStats ms sp t
  let e ← PowerSpec.calcEnergy std ps st
  pure (s, e)

/-- `calcInterfaceEnergy` (dram/dram_base.h 105-107, standards/ddr4/DDR4.cpp 54-57 and the same of the other standards). -/
def calcInterfaceEnergy (ms : MemSpec) (sp : IfSpec) (ws : WireSpec) (s : Simulator std N) (t : Nat) :
    Except Err (Simulator std N × InterfaceInfo) := do
  let (s, st) ← s.getWindowStats ms sp t
  let e ← ws.calculateEnergy std st
  pure (s, e)

/-- `getTotalEnergy` (dram/dram_base.h 78-80). -/
def getTotalEnergy (ms : MemSpec) (sp : IfSpec) (ps : PowerSpec) (ws : WireSpec) (s : Simulator std N) (t : Nat) :
    Except Err (Simulator std N × Rat) := do
  let (s, a) ← s.calcCoreEnergy ms sp ps t
  let (s, b) ← s.calcInterfaceEnergy ms sp ws t
  pure (s, a.total + b.total)

end Simulator
end DRAMPower
