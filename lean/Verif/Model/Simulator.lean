import Verif.Model.Interface
import Verif.Model.Core

/-!
# The simulator object: core and interface together

Paths in comments are relative to `/repo/src/DRAMPower/DRAMPower/`.
-/

namespace DRAMPower

/-- Data members of the simulator classes (standards/ddr4/DDR4.h 81-82 and the same of the other standards). -/
structure Simulator (std : Std) (N : Nat) where
  core : Core
  interface : Interface std N

/-- What a call of `doCommand` leaves behind. -/
inductive Outcome (std : Std) (N : Nat)
  /-- both halves have executed the command -/
  | done (s : Simulator std N)
  /-- the core has refused the command, the interface has not been called -/
  | refused (e : Err)
  /-- the core has executed the command, the interface has not -/
  | halfway (core : Core) (e : Err)

variable {std : Std} {N : Nat}

/-- Constructor (standards/ddr4/DDR4.cpp 17-23 and the same of the other standards). -/
def Simulator.init (std : Std) (N : Nat) (ms : MemSpec) (sp : IfSpec) : Except Err (Simulator std N) := do
  let interface ← Interface.init std N sp
  pure { core := Core.init ms, interface }

/-- `doCommand` (dram/dram_base.h 64-67, standards/ddr4/DDR4.h 66-71). -/
def Simulator.doCommand (ms : MemSpec) (sp : IfSpec) (s : Simulator std N) (c : ICmd) : Outcome std N :=
  match s.core.doCommand std ms c.core with
  | .error e => .refused e
  | .ok core => match s.interface.doCommand sp c with
    | .error e => .halfway core e
    | .ok interface => .done { core, interface }

/-- Commands until one is not executed completely. -/
def Simulator.run (ms : MemSpec) (sp : IfSpec) (s : Simulator std N) : List ICmd → Outcome std N
  | [] => .done s
  | c :: cs => match s.doCommand ms sp c with
    | .done s => s.run ms sp cs
    | o => o

/-- Whether only one half has been updated. -/
def Outcome.isHalfway : Outcome std N → Bool
  | .halfway _ _ => true
  | _ => false

/-- Whether both halves have been updated. -/
def Outcome.isDone : Outcome std N → Bool
  | .done _ => true
  | _ => false

end DRAMPower
