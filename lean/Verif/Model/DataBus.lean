import Verif.Model.Bus
import Verif.Model.Toggling

/-!
# The data bus: a bit-accurate bus and a toggling-rate model per direction

Paths in comments are relative to `/repo/src/DRAMPower/DRAMPower/`. `DataBusContainer` and its proxy
(util/databus.h 191-330) only forward the calls.
-/

namespace DRAMPower

/-- `DataBusMode` (util/databus_types.h 13-16). -/
inductive DataBusMode | bus | toggling
deriving DecidableEq, Repr

/-- Rates of one direction in `ToggleRateDefinition` (DRAMUtils; used in util/databus.h 57-73). -/
structure DirRates where
  togglingRate : Rate
  dutyCycle : Rate
  idle : ToggleIdle
deriving DecidableEq, Repr

/-- `DataBusConfig` (util/databus_types.h 18-22). -/
structure DataBusConfig where
  width : Nat
  dataRate : Nat
  read : DirRates
  write : DirRates

/-- Data members of `DataBus` (util/databus.h 180-188). -/
structure DataBus (N : Nat) where
  busRead : Bus N
  busWrite : Bus N
  togglingRead : Toggling
  togglingWrite : Toggling
  mode : DataBusMode
deriving DecidableEq, Repr

namespace DataBus

/-- `convertIdlePattern` (util/databus.h 31-42). -/
def convertIdle : ToggleIdle → Except Err IdlePattern
  | .L => .ok .L
  | .H => .ok .H
  | .invalid => .error (.exception "Invalid TogglingRateIdlePattern")

/-- Constructor (util/databus.h 46-78); members are initialised in the order of their declaration (180-184). -/
def init (N : Nat) (c : DataBusConfig) (mode : DataBusMode) : Except Err (DataBus N) := do
  let ir ← convertIdle c.read.idle
  let busRead ← Bus.init N c.width c.dataRate ir (mode == .bus)
  let iw ← convertIdle c.write.idle
  let busWrite ← Bus.init N c.width c.dataRate iw (mode == .bus)
  let togglingRead ← Toggling.init c.width c.dataRate c.read.togglingRate c.read.dutyCycle c.read.idle (mode == .toggling)
  let togglingWrite ← Toggling.init c.width c.dataRate c.write.togglingRate c.write.dutyCycle c.write.idle (mode == .toggling)
  pure { busRead, busWrite, togglingRead, togglingWrite, mode }

/-- `getDataBusPreset` (util/databus_presets.h 26-42): the size of the bit set for a width. -/
def presetSize (width : Nat) : Except Err Nat :=
  if width ≤ 64 then .ok 64
  else if width ≤ 256 then .ok 256
  else if width ≤ 1024 then .ok 1024
  else if 4096 < width then .error (.assertion "Data bus width exceeds maximum.")
  else .ok 4096

variable {N : Nat}

/-- `loadWrite` (util/databus.h 81-96, 98-100); `none` is the null pointer. -/
def loadWrite (d : DataBus N) (t nBits : Nat) (data : Option (List UInt8)) : Except Err (DataBus N) :=
  match d.mode with
  | .bus => match data with
    | none => .ok d
    | some bytes => if nBits = 0 then .ok d else do
        let b ← d.busWrite.load t bytes nBits
        pure { d with busWrite := b }
  | .toggling => do
    let h ← d.togglingWrite.incBits t nBits
    pure { d with togglingWrite := h }

/-- `loadRead` (util/databus.h 81-96, 101-103). -/
def loadRead (d : DataBus N) (t nBits : Nat) (data : Option (List UInt8)) : Except Err (DataBus N) :=
  match d.mode with
  | .bus => match data with
    | none => .ok d
    | some bytes => if nBits = 0 then .ok d else do
        let b ← d.busRead.load t bytes nBits
        pure { d with busRead := b }
  | .toggling => do
    let h ← d.togglingRead.incBits t nBits
    pure { d with togglingRead := h }

/-- `enableBus` (util/databus.h 105-111). -/
def enableBus (d : DataBus N) (t : Nat) : Except Err (DataBus N) := do
  let busRead ← d.busRead.enable t
  let busWrite ← d.busWrite.enable t
  pure { busRead, busWrite, togglingRead := d.togglingRead.disable t, togglingWrite := d.togglingWrite.disable t, mode := .bus }

/-- `enableTogglingRate` (util/databus.h 113-119). -/
def enableTogglingRate (d : DataBus N) (t : Nat) : Except Err (DataBus N) := do
  let busRead ← d.busRead.disable t
  let busWrite ← d.busWrite.disable t
  pure { busRead, busWrite, togglingRead := d.togglingRead.enable t, togglingWrite := d.togglingWrite.enable t, mode := .toggling }

/-- `setTogglingRateDefinition` (util/databus.h 121-124). -/
def setRates (d : DataBus N) (r w : DirRates) : DataBus N :=
  { d with togglingRead := d.togglingRead.setRates r.togglingRate r.dutyCycle r.idle
           togglingWrite := d.togglingWrite.setRates w.togglingRate w.dutyCycle w.idle }

end DataBus

/-- The four results of `DataBus::get_stats`. -/
structure DataBusStats where
  busRead : BusStats := {}
  busWrite : BusStats := {}
  togglingRead : BusStats := {}
  togglingWrite : BusStats := {}
deriving DecidableEq, Repr

/-- `get_stats` (util/databus.h 152-163) with zero accumulators. -/
def DataBus.getStats {N : Nat} (d : DataBus N) (t : Nat) : Except Err DataBusStats := do
  let busRead ← d.busRead.getStats t
  let busWrite ← d.busWrite.getStats t
  let togglingRead ← d.togglingRead.getStats t
  let togglingWrite ← d.togglingWrite.getStats t
  pure { busRead, busWrite, togglingRead, togglingWrite }

/-- Calls on the data bus. -/
inductive DataOp
  | read (t nBits : Nat) (data : Option (List UInt8))
  | write (t nBits : Nat) (data : Option (List UInt8))
  | toBus (t : Nat)
  | toToggling (t : Nat)
  | rates (r w : DirRates)

/-- One call. -/
def DataBus.step {N : Nat} (d : DataBus N) : DataOp → Except Err (DataBus N)
  | .read t n x => d.loadRead t n x
  | .write t n x => d.loadWrite t n x
  | .toBus t => d.enableBus t
  | .toToggling t => d.enableTogglingRate t
  | .rates r w => .ok (d.setRates r w)

/-- A sequence of calls. -/
def DataBus.run {N : Nat} (d : DataBus N) : List DataOp → Except Err (DataBus N)
  | [] => .ok d
  | op :: ops => match d.step op with
    | .ok d => d.run ops
    | .error e => .error e

end DRAMPower
