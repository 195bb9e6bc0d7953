import Verif.Model.SimulatorStats
import Verif.Model.Rounded
import Verif.Model.RoundedInterface

/-!
# Energy queries of the simulator object in floating point

`Model/SimulatorStats` with the calculations of `Model/Rounded` and `Model/RoundedInterface`; the statistics are integers. Paths and order of
line ranges as there.
-/

namespace DRAMPower.Arith

variable {std : Std} {N : Nat} (A : Arith)

/-- `calcCoreEnergy` (dram/dram_base.h 101-103, standards/ddr4/DDR4.cpp 49-52 and the same of the other standards). -/
def calcCoreEnergy (ms : MemSpec) (sp : IfSpec) (ps : PowerSpec) (s : Simulator std N) (t : Nat) : Except Err (Simulator std N × Energy) := do
  let (s, st) ← s.getWindowStats ms sp t
  let e ← A.calcEnergy std ps st
  pure (s, e)

/-- `calcInterfaceEnergy` (dram/dram_base.h 105-107, standards/ddr4/DDR4.cpp 54-57 and the same of the other standards). -/
def calcInterfaceEnergy (ms : MemSpec) (sp : IfSpec) (ws : WireSpec) (s : Simulator std N) (t : Nat) :
    Except Err (Simulator std N × InterfaceInfo) := do
  let (s, st) ← s.getWindowStats ms sp t
  let e ← A.calculateEnergy std ws st
  pure (s, e)

/-- `getTotalEnergy` (dram/dram_base.h 78-80). -/
def getTotalEnergy (ms : MemSpec) (sp : IfSpec) (ps : PowerSpec) (ws : WireSpec) (s : Simulator std N) (t : Nat) :
    Except Err (Simulator std N × Rat) := do
  let (s, a) ← A.calcCoreEnergy ms sp ps s t
  let (s, b) ← A.calcInterfaceEnergy ms sp ws s t
  pure (s, A.add (A.total a) (A.interfaceTotal b))

end DRAMPower.Arith
