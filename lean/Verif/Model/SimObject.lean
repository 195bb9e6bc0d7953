import Verif.Model.SimulatorStats
import Verif.Model.Extension
import Verif.Model.InterfaceSerialize

/-!
# The simulator object with its extensions: calls, queries, saving and restoring

Paths in comments are relative to `/repo/src/DRAMPower/DRAMPower/`; line ranges without a standard are given in the order DDR4, LPDDR4,
LPDDR5, LPDDR6.

Simplifications: the types `extensions::DBI` and `extensions::MetaData` are numbers (see `Model/Extension`); the user registers no
further extensions; a stream that cannot be read back ends restoring (`none`).
-/

namespace DRAMPower

/-- `std::type_index(typeid(extensions::DBI))`. -/
def dbiType : Nat := 0

/-- `std::type_index(typeid(extensions::MetaData))`. -/
def metaType : Nat := 1

/-- Data members of a simulator: the extension manager (dram/dram_base.h 122), core and interface. -/
structure SimObject (std : Std) (N : Nat) where
  ext : ExtManager
  sim : Simulator std N

/-- Calls of a user on a simulator. -/
inductive SimCall
  /-- `doCommand` -/
  | command (c : ICmd)
  /-- `doCoreCommand` -/
  | coreCommand (c : ICmd)
  /-- `doInterfaceCommand`, or a call on `getInterface()` -/
  | iface (op : IfOp)
  /-- `getExtensionManager().withExtension<DBI>(dbi.enable(t, e))` -/
  | setDBI (e : Bool)
  /-- `getExtensionManager().withExtension<MetaData>(meta.setMetaData(a, b))` -/
  | setMetaData (a b : BitVec 16)
  /-- `getExtensionManager().withExtension<DBI>(dbi.isEnabled())` -/
  | isEnabled
  /-- `getExtensionManager().withExtension<MetaData>(meta.getMetaData())` -/
  | getMetaData
  /-- `getWindowStats`, also all that the energy queries do to the simulator -/
  | window (t : Nat)
  /-- `getLastCommandTime` -/
  | lastTime
  /-- `isSerializable` -/
  | serializable

/-- What a call returns; `none` inside if the simulator does not have the extension. -/
inductive SimReply
  | nothing
  | flag (b : Option Bool)
  | words (m : Option (BitVec 16 × BitVec 16))
  | stats (s : SimStats)
  | time (t : Nat)
deriving DecidableEq

variable {std : Std} {N : Nat}

/-- `registerExtensions` (standards/ddr4/DDR4.cpp 26-37, lpddr4/LPDDR4.cpp 23-30, lpddr5/LPDDR5.cpp 25-31, lpddr6/LPDDR6.cpp 25-37); DDR5
has no extensions (ddr5/DDR5.cpp 16-20). -/
def registerExtensions (i : Interface std N) : Except Err ExtManager :=
  if std = .ddr5 then .ok (ExtManager.init 0)
  else do
    let m ← (ExtManager.init 0).register dbiType 0 (.dbi false)
    if std = .lpddr6 then m.register metaType 0 (.metaData i.formatter.getMetaData.1 i.formatter.getMetaData.2)
    else pure m

/-- The function given to the DBI extension (the lines of `registerExtensions`): DDR4 devices of four bits refuse. -/
def dbiCallback (sp : IfSpec) (i : Interface std N) (e : Bool) : Interface std N × Bool :=
  if std = .ddr4 ∧ sp.bitWidth = 4 then (i, false) else (i.enableDBI e, true)

namespace SimObject

/-- Constructors (standards/ddr4/DDR4.cpp 17-23, lpddr4/LPDDR4.cpp 14-20, lpddr5/LPDDR5.cpp 16-22, lpddr6/LPDDR6.cpp 16-22, and
ddr5/DDR5.cpp 16-20). -/
def init (std : Std) (N : Nat) (ms : MemSpec) (sp : IfSpec) : Except Err (SimObject std N) := do
  let sim ← Simulator.init std N ms sp
  let ext ← registerExtensions sim.interface
  pure { ext, sim }

/-- `DBI::enable` (util/extensions.cpp 10-21) of the registered extension. -/
def setDBI (sp : IfSpec) (o : SimObject std N) (e : Bool) : SimObject std N × Option Bool :=
  if o.ext.has dbiType then
    let (i, ok) := dbiCallback sp o.sim.interface e
    ({ ext := o.ext.withExtension dbiType (ExtState.enable (fun _ => ok) e), sim := { o.sim with interface := i } }, some ok)
  else (o, none)

/-- `MetaData::setMetaData` (util/extensions.cpp 34-39) of the registered extension. -/
def setMetaData (o : SimObject std N) (a b : BitVec 16) : SimObject std N :=
  if o.ext.has metaType then
    { ext := o.ext.withExtension metaType fun _ => .metaData a b, sim := { o.sim with interface := o.sim.interface.setMetaData a b } }
  else o

/-- `DBI::isEnabled` (util/extensions.cpp 23-25) of the registered extension. -/
def isEnabled (o : SimObject std N) : Option Bool := (o.ext.get dbiType).map fun x => x.state.isEnabled

/-- `MetaData::getMetaData` (util/extensions.cpp 41-46) of the registered extension: the callback asks the interface. -/
def getMetaData (o : SimObject std N) : Option (BitVec 16 × BitVec 16) :=
  (o.ext.get metaType).map fun _ => o.sim.interface.formatter.getMetaData

/-- `isSerializable` (standards/ddr4/DDR4.h 56-58 and the same of the other standards). -/
def isSerializable (o : SimObject std N) : Bool := o.sim.core.isSerializable

/-- `doCoreCommand` and `doInterfaceCommand` (dram/dram_base.h 56-62), `doCommand` (64-67), the extensions, and the queries. A call that
fails ends the session. -/
def step (ms : MemSpec) (sp : IfSpec) (o : SimObject std N) : SimCall → Except Err (SimObject std N × SimReply)
  | .command c => match o.sim.doCommand ms sp c with
    | .done s => .ok ({ o with sim := s }, .nothing)
    | .refused e => .error e
    | .halfway _ e => .error e
  | .coreCommand c => do
    let core ← o.sim.core.doCommand std ms c.core
    pure ({ o with sim := { o.sim with core } }, .nothing)
  | .iface op => do
    let interface ← o.sim.interface.step sp op
    pure ({ o with sim := { o.sim with interface } }, .nothing)
  | .setDBI e => .ok ((o.setDBI sp e).1, .flag (o.setDBI sp e).2)
  | .setMetaData a b => .ok (o.setMetaData a b, .nothing)
  | .isEnabled => .ok (o, .flag o.isEnabled)
  | .getMetaData => .ok (o, .words o.getMetaData)
  | .window t => do
    let (sim, s) ← o.sim.getWindowStats ms sp t
    pure ({ o with sim }, .stats s)
  | .lastTime => .ok (o, .time o.sim.lastCommandTime)
  | .serializable => .ok (o, .flag (some o.isSerializable))

/-- A sequence of calls, without the replies. -/
def run (ms : MemSpec) (sp : IfSpec) (o : SimObject std N) : List SimCall → Except Err (SimObject std N)
  | [] => .ok o
  | u :: us => match o.step ms sp u with
    | .ok (o, _) => o.run ms sp us
    | .error e => .error e

/-- `serialize` (dram/dram_base.h 86-90, standards/ddr4/DDR4.cpp 68-71 and the same of the other standards). -/
def serialize (k : Codec) (ms : MemSpec) (o : SimObject std N) (out : Bytes) : Except Err Bytes := do
  let out ← o.ext.serialize out
  pure (o.sim.interface.serialize k (o.sim.core.serialize k.pad ms out))

/-- `deserialize` (dram/dram_base.h 92-96, standards/ddr4/DDR4.cpp 73-76 and the same of the other standards). -/
def deserialize (k : Codec) (ms : MemSpec) (o : SimObject std N) (s : Bytes) : Option (SimObject std N × Bytes) :=
  match o.ext.deserialize s with
  | .error _ => none
  | .ok (ext, s) => do
    let (core, s) ← o.sim.core.deserialize ms s
    let (interface, s) ← o.sim.interface.deserialize k s
    pure ({ ext, sim := { core, interface } }, s)

end SimObject
end DRAMPower
