import Verif.Model.SimObject

/-!
# Several simulators: construction, copies, assignment, destruction

Paths in comments are relative to `/repo/src/DRAMPower/DRAMPower/`. A copied simulator has its own core and interface. What it does not own:

* the extension objects, which the extension manager holds by `std::shared_ptr` (util/extension_manager.h 46-51), and whose functions captured
  `this` of the simulator that registered them (standards/ddr4/DDR4.cpp 27, lpddr4/LPDDR4.cpp 24, lpddr5/LPDDR5.cpp 26, lpddr6/LPDDR6.cpp 26,
  31, 34);
* the target of the function in its inverter, which captured `this` of the interface that was constructed first
  (standards/ddr4/DDR4Interface.cpp 35, lpddr4/LPDDR4Interface.cpp 35, lpddr5/LPDDR5Interface.cpp 34).

Simplifications: all simulators have the same specification; a simulator that has been moved from is not used any more (a move is a copy
followed by the destruction of the source); a call of a function whose target has been destroyed is undefined behaviour. A copy assignment of
DDR4, LPDDR4 and LPDDR5 does not compile: these have vectors of pins (standards/ddr4/DDR4Interface.h 101-102, lpddr4/LPDDR4Interface.h 91-92,
lpddr5/LPDDR5Interface.h 95-96), and a pin has a constant member (util/pin.h 224). The model gives such a program an error.
-/

namespace DRAMPower

/-- A simulator in memory. -/
structure Slot (std : Std) (N : Nat) where
  /-- the extension objects its manager points to -/
  ext : Nat
  /-- the simulator whose inversion pins its inverter reports to -/
  pins : Nat
  sim : Simulator std N

/-- The memory: simulators (`none` after destruction), and extension objects with the simulator captured by their functions. -/
structure World (std : Std) (N : Nat) where
  slots : List (Option (Slot std N)) := []
  exts : List (ExtManager × Nat) := []

/-- What a user does; simulators are numbered in the order they come into being. -/
inductive WorldOp
  | new
  /-- the copy constructor (standards/ddr4/DDR4.h 28, ddr5/DDR5.h 27, lpddr4/LPDDR4.h 26, lpddr5/LPDDR5.h 26, lpddr6/LPDDR6.h 24,
  dram/dram_base.h 41) -/
  | copy (j : Nat)
  /-- `simulator j = simulator k`, with `moved` for `simulator j = std::move(simulator k)` (standards/ddr4/DDR4.h 30-31, ddr5/DDR5.h 28 and 30,
  lpddr4/LPDDR4.h 27 and 29, lpddr5/LPDDR5.h 27 and 29, lpddr6/LPDDR6.h 25 and 27, dram/dram_base.h 42 and 44) -/
  | assign (moved : Bool) (j k : Nat)
  | destroy (j : Nat)
  | call (j : Nat) (u : SimCall)

variable {std : Std} {N : Nat}

/-- The calls of the function in the inverter that a command causes (util/dbi.h 385-398, 400-451; the lines of `Interface.invertData` and
`Interface.endOfSimulation`). -/
def Interface.pinEvents (sp : IfSpec) (i : Interface std N) (c : ICmd) : List DbiEvent :=
  match ifAction sp.arch std c.type with
  | .data read =>
    if std = .ddr5 ∨ i.dataBus.mode ≠ .bus ∨ i.dbi.enable = false ∨ c.nBits = 0 ∨ c.data = none then []
    else match i.dbi.update (sp.dbi std) (c.t * sp.dataRate) c.nBits (c.data.map toWords) read with
      | .ok (_, _, events) => events
      | .error _ => []
  | .finish => match i.dbi.resetBoth (sp.dbi std) c.t with
    | .ok (_, events) => events
    | .error _ => []
  | _ => []

namespace World

/-- A simulator that exists. -/
def at? (w : World std N) (j : Nat) : Option (Slot std N) := (w.slots[j]?).join

/-- Change a simulator. -/
def put (w : World std N) (j : Nat) (s : Slot std N) : World std N := { w with slots := w.slots.set j (some s) }

/-- Change the extension objects with a number. -/
def putExt (w : World std N) (k : Nat) (m : ExtManager) : World std N := { w with exts := w.exts.modify k fun x => (m, x.2) }

/-- `m_interface.doCommand`: the inverter works on the pins of the simulator captured by its function. -/
def ifCommand (sp : IfSpec) (w : World std N) (j : Nat) (s : Slot std N) (c : ICmd) : Except Err (World std N) :=
  if s.pins = j ∨ s.sim.interface.pinEvents sp c = [] then do
    let i ← s.sim.interface.doCommand sp c
    pure (w.put j { s with sim := { s.sim with interface := i } })
  else match w.at? s.pins with
    | none => .error (.ub "the pins of the inverter have been destroyed")
    | some q => do
      let i ← Interface.doCommand sp { s.sim.interface with pinsRead := q.sim.interface.pinsRead, pinsWrite := q.sim.interface.pinsWrite } c
      let w := w.put j { s with sim := { s.sim with interface := { i with pinsRead := s.sim.interface.pinsRead, pinsWrite := s.sim.interface.pinsWrite } } }
      pure (w.put s.pins { q with sim := { q.sim with interface := { q.sim.interface with pinsRead := i.pinsRead, pinsWrite := i.pinsWrite } } })

/-- `DBI::enable` (util/extensions.cpp 10-21): the function works on the simulator it captured. -/
def setDBI (sp : IfSpec) (w : World std N) (s : Slot std N) (e : Bool) : Except Err (World std N × Option Bool) :=
  match w.exts[s.ext]? with
  | none => .error (.ub "no extension manager")
  | some (m, owner) =>
    if m.has dbiType then
      match w.at? owner with
      | none => .error (.ub "the simulator of the extension has been destroyed")
      | some q =>
        let (i, ok) := dbiCallback sp q.sim.interface e
        .ok ((w.put owner { q with sim := { q.sim with interface := i } }).putExt s.ext (m.withExtension dbiType (ExtState.enable (fun _ => ok) e)), some ok)
    else .ok (w, none)

/-- `MetaData::setMetaData` (util/extensions.cpp 34-39). -/
def setMetaData (w : World std N) (s : Slot std N) (a b : BitVec 16) : Except Err (World std N) :=
  match w.exts[s.ext]? with
  | none => .error (.ub "no extension manager")
  | some (m, owner) =>
    if m.has metaType then
      match w.at? owner with
      | none => .error (.ub "the simulator of the extension has been destroyed")
      | some q => .ok ((w.put owner { q with sim := { q.sim with interface := q.sim.interface.setMetaData a b } }).putExt s.ext
          (m.withExtension metaType fun _ => .metaData a b))
    else .ok w

/-- `DBI::isEnabled` (util/extensions.cpp 23-25). -/
def isEnabled (w : World std N) (s : Slot std N) : Except Err (Option Bool) :=
  match w.exts[s.ext]? with
  | none => .error (.ub "no extension manager")
  | some (m, _) => .ok ((m.get dbiType).map fun x => x.state.isEnabled)

/-- `MetaData::getMetaData` (util/extensions.cpp 41-46): the function asks the simulator it captured. -/
def getMetaData (w : World std N) (s : Slot std N) : Except Err (Option (BitVec 16 × BitVec 16)) :=
  match w.exts[s.ext]? with
  | none => .error (.ub "no extension manager")
  | some (m, owner) => match m.get metaType with
    | none => .ok none
    | some _ => match w.at? owner with
      | none => .error (.ub "the simulator of the extension has been destroyed")
      | some q => .ok (some q.sim.interface.formatter.getMetaData)

/-- A call on a simulator (dram/dram_base.h 51-67, as `SimObject.step`). -/
def call (ms : MemSpec) (sp : IfSpec) (w : World std N) (j : Nat) (u : SimCall) : Except Err (World std N × SimReply) :=
  match w.at? j with
  | none => .error (.ub "use of a destroyed simulator")
  | some s => match u with
    | .command c => do
      let core ← s.sim.core.doCommand std ms c.core
      let w ← w.ifCommand sp j { s with sim := { s.sim with core } } c
      pure (w, .nothing)
    | .coreCommand c => do
      let core ← s.sim.core.doCommand std ms c.core
      pure (w.put j { s with sim := { s.sim with core } }, .nothing)
    | .iface (.cmd c) => do
      let w ← w.ifCommand sp j s c
      pure (w, .nothing)
    | .iface op => do
      let interface ← s.sim.interface.step sp op
      pure (w.put j { s with sim := { s.sim with interface } }, .nothing)
    | .setDBI e => do
      let (w, b) ← w.setDBI sp s e
      pure (w, .flag b)
    | .setMetaData a b => do
      let w ← w.setMetaData s a b
      pure (w, .nothing)
    | .isEnabled => do
      let b ← w.isEnabled s
      pure (w, .flag b)
    | .getMetaData => do
      let m ← w.getMetaData s
      pure (w, .words m)
    | .window t => do
      let (sim, r) ← s.sim.getWindowStats ms sp t
      pure (w.put j { s with sim }, .stats r)
    | .lastTime => .ok (w, .time s.sim.lastCommandTime)
    | .serializable => .ok (w, .flag (some s.sim.core.isSerializable))

/-- One thing a user does. A constructed simulator captures itself; a copied or assigned one keeps what its source has (`= default`). -/
def step (ms : MemSpec) (sp : IfSpec) (w : World std N) : WorldOp → Except Err (World std N × SimReply)
  | .new => do
    let o ← SimObject.init std N ms sp
    pure ({ slots := w.slots ++ [some { ext := w.exts.length, pins := w.slots.length, sim := o.sim }], exts := w.exts ++ [(o.ext, w.slots.length)] }, .nothing)
  | .copy j => match w.at? j with
    | none => .error (.ub "use of a destroyed simulator")
    | some s => .ok ({ w with slots := w.slots ++ [some s] }, .nothing)
  | .assign moved j k =>
    if moved = false ∧ hasPins std then .error (.exception "does not compile")
    else match w.at? j, w.at? k with
      | some _, some s =>
        let w := w.put j s
        .ok (if moved then { w with slots := w.slots.set k none } else w, .nothing)
      | _, _ => .error (.ub "use of a destroyed simulator")
  | .destroy j => .ok ({ w with slots := w.slots.set j none }, .nothing)
  | .call j u => w.call ms sp j u

/-- A program. -/
def run (ms : MemSpec) (sp : IfSpec) (w : World std N) : List WorldOp → Except Err (World std N)
  | [] => .ok w
  | x :: xs => match w.step ms sp x with
    | .ok (w, _) => w.run ms sp xs
    | .error e => .error e

end World
end DRAMPower
