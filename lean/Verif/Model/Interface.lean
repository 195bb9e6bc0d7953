import Verif.Model.Clock
import Verif.Model.DataBus
import Verif.Model.Dbi
import Verif.Model.Format
import Verif.Model.Pattern
import Verif.Model.Stats

/-!
# The interface half of the simulator, all five standards

Paths in comments are relative to `/repo/src/DRAMPower/DRAMPower/`; `X` stands for the standard
(`standards/ddr4/DDR4Interface.cpp` and so on).

Simplifications:
* one structure holds the members of all five classes; a standard never touches the members it does not have;
* the calls of the DBI callback are executed after `updateDBI`/`dispatchResetCallback` instead of during it (the
  callback only changes the DBI pins, which these functions do not read);
* in `handleData` the overrides of DDR4 are set after the strobes instead of before them (`handleOverrides` only
  changes the encoder settings and cannot fail);
* a command that fails leaves no state behind: the result is the error alone;
* a width or data rate of zero, which the code would divide by, is refused by the constructor
  (`TogglingHandle`, dram/Interface.cpp 28-29).
-/

namespace DRAMPower

/-- The memory specification and the simulator configuration as the interfaces read them (`*InterfaceMemSpec` in
standards/ddr4/DDR4Interface.h 29-41, standards/ddr5/DDR5Interface.h 23-35, standards/lpddr4/LPDDR4Interface.h 26-38,
standards/lpddr5/LPDDR5Interface.h 28-42, standards/lpddr6/LPDDR6Interface.h 29-41, and the constructors). -/
structure IfSpec where
  dataRate : Nat
  burstLength : Nat
  bitWidth : Nat
  devices : Nat
  ranks : Nat := 1
  arch : BankArch := .m16b
  wckAlwaysOn : Bool := false
  wckToCk : Nat := 1
  /-- `dataRateSpec.dqsBusRate` (DDR5 only) -/
  dqsRate : Nat := 2
  bankGroups : Nat := 4
  /-- `simConfig.toggleRateDefinition`, split by direction -/
  toggling : Option (DirRates × DirRates) := none
  /-- argument `enabled` of the LPDDR6 constructor -/
  enabled : Bool := true
  /-- capacity of a grown `std::vector<bool>` (see `DbiParams.grow`) -/
  grow : Nat → Nat → Nat := fun _ n => n
  /-- behaviour of an oversized shift (see `Formatter.formatData`) -/
  shift : Option (Nat → Bool) := none

/-- `Command` and `LPDDR6Command` (command/Command.h 26-42, standards/lpddr6/LPDDR6Command.h 26-36). `dbank` and
`subChannel` are only read by LPDDR6; the defaults are those of the conversion from `Command`
(standards/lpddr6/LPDDR6Command.cpp 8-32). `data = none` is the null pointer. -/
structure ICmd where
  t : Nat
  type : CmdType
  co : Coord := {}
  dbank : Nat := (co.bank + 8) % 16
  subChannel : Nat := 0
  nBits : Nat := 0
  data : Option (List UInt8) := none
deriving DecidableEq, Repr

/-- The coordinate read by the LPDDR6 encoder. -/
def ICmd.co6 (c : ICmd) : Coord6 :=
  { Coord6.ofCoord c.co with dbank := c.dbank, subChannel := c.subChannel }

/-- The part read by the core. -/
def ICmd.core (c : ICmd) : Cmd where
  t := c.t
  type := c.type
  rank := c.co.rank
  bank := c.co.bank
  dbank := c.dbank

/-- `RankInterface` (dram/Rank.h 58-66). -/
structure RankIf where
  seamlessRead : Nat := 0
  seamlessWrite : Nat := 0
  mergedRead : Nat := 0
  mergedWrite : Nat := 0
  mergedTimeRead : Nat := 0
  mergedTimeWrite : Nat := 0
  lastReadEnd : Nat := 0
  lastWriteEnd : Nat := 0
deriving DecidableEq, Repr

/-- `cmdBusWidth` (standards/ddr4/DDR4Interface.h 47, standards/ddr5/DDR5Interface.h 40,
standards/lpddr4/LPDDR4Interface.h 43, standards/lpddr5/LPDDR5Interface.h 47, standards/lpddr6/LPDDR6Interface.h 83). -/
def caWidth : Std → Nat
  | .ddr4 => 27
  | .ddr5 => 14
  | .lpddr4 => 6
  | .lpddr5 => 7
  | .lpddr6 => 4

/-- Data rate of the command bus (DDR4Interface.cpp 17, DDR5Interface.cpp 17, LPDDR4Interface.cpp 19,
LPDDR5Interface.cpp 17, LPDDR6Interface.cpp 23). -/
def caRate : Std → Nat
  | .ddr4 | .ddr5 | .lpddr4 => 1
  | .lpddr5 | .lpddr6 => 2

/-- Idle pattern of the command bus (the same constructor calls). -/
def caIdle : Std → IdlePattern
  | .ddr4 | .ddr5 => .H
  | .lpddr4 | .lpddr5 | .lpddr6 => .L

/-- Size of the bit set of a DBI pin (`pin_dbi_t`, DDR4Interface.h 53, LPDDR4Interface.h 49, LPDDR5Interface.h 53). -/
def pinSize : Std → Nat
  | .ddr4 => 8
  | _ => 32

/-- Whether the standard has DBI pins. -/
def hasPins : Std → Bool
  | .ddr4 | .lpddr4 | .lpddr5 => true
  | .ddr5 | .lpddr6 => false

/-- A rate of 0 (`busConfig`, DDR4Interface.cpp 6-13, DDR5Interface.cpp 6-13, LPDDR4Interface.cpp 8-15,
LPDDR5Interface.cpp 6-13, LPDDR6Interface.cpp 12-19). -/
def Rate.zero : Rate := ⟨0, 1, by decide, by decide⟩

/-- `busConfig` (see `Rate.zero`): idle high for DDR4 and DDR5, low otherwise. -/
def busConfig (std : Std) : DirRates where
  togglingRate := Rate.zero
  dutyCycle := Rate.zero
  idle := match caIdle std with
    | .H => .H
    | .L => .L

/-- Parameters of the member `m_dbi` (DDR4Interface.cpp 34-37 and .h 100, LPDDR4Interface.cpp 34-37 and .h 90,
LPDDR5Interface.cpp 33-36 and .h 94, LPDDR6Interface.cpp 40 and .h 152). DDR5 has none. -/
def IfSpec.dbi (std : Std) (sp : IfSpec) : DbiParams 8 where
  sub := if std = .lpddr6 then 2 else 1
  idle := if std = .ddr4 then .H else .L
  algo := .static
  width := if std = .lpddr6 then none else some (sp.devices * sp.bitWidth)
  burstLength := sp.burstLength
  grow := sp.grow
  callback := decide (std ≠ .lpddr6)

/-- Data members of the interfaces (DDR4Interface.h 93-107, DDR5Interface.h 73-81, LPDDR4Interface.h 84-95,
LPDDR5Interface.h 88-99, LPDDR6Interface.h 146-156). `N` is the size of the data-bus bit set, `DataBus.presetSize` of
the width; nothing below depends on its value. -/
structure Interface (std : Std) (N : Nat) where
  last : Nat := 0
  ca : CaHandler
  ca6 : CaHandler6
  cmdBus : Bus (caWidth std)
  dataBus : DataBus N
  readDQS : Clock
  writeDQS : Clock
  wck : Clock
  clock : Clock
  dbi : Dbi 8
  pinsRead : List (Pin (pinSize std))
  pinsWrite : List (Pin (pinSize std))
  ranks : List RankIf
  formatter : Formatter
  enabled : Bool
deriving DecidableEq

variable {std : Std} {N : Nat}

/-- Data rate of the strobes (DDR4Interface.cpp 31-32, DDR5Interface.cpp 31-32, LPDDR4Interface.cpp 32-33,
LPDDR5Interface.cpp 31, LPDDR6Interface.cpp 37). -/
def IfSpec.strobeRate (std : Std) (sp : IfSpec) : Nat := if std = .ddr5 then sp.dqsRate else sp.dataRate

/-- Data rate of the write clock (LPDDR5Interface.cpp 32, LPDDR6Interface.cpp 38). -/
def IfSpec.wckRate (sp : IfSpec) : Nat := sp.dataRate / sp.wckToCk

/-- The DBI pins of one direction after construction (DDR4Interface.cpp 38-39, LPDDR4Interface.cpp 38-39,
LPDDR5Interface.cpp 37-38). -/
def IfSpec.pins (std : Std) (sp : IfSpec) : List (Pin (pinSize std)) :=
  if hasPins std then
    List.replicate (sp.devices * sp.bitWidth / 8) (Pin.init (pinSize std) (sp.dbi std).idle (sp.dbi std).idle)
  else []

/-- `DataBusConfig` and mode given to the data bus (DDR4Interface.cpp 19-30 and the same lines of the others). -/
def IfSpec.dataConfig (std : Std) (sp : IfSpec) : DataBusConfig where
  width := sp.bitWidth * sp.devices
  dataRate := sp.dataRate
  read := match sp.toggling with | some r => r.1 | none => busConfig std
  write := match sp.toggling with | some r => r.2 | none => busConfig std

/-- See `IfSpec.dataConfig`. -/
def IfSpec.mode (sp : IfSpec) : DataBusMode := if sp.toggling.isSome then .toggling else .bus

/-- Whether the constructor of the standard builds the member `m_dbi` (all but DDR5). -/
def Interface.initDbi (std : Std) (sp : IfSpec) : Except Err (Dbi 8) :=
  if std = .ddr5 then .ok { enable := false } else Dbi.init (sp.dbi std) false

/-- Constructors (DDR4Interface.cpp 15-49, DDR5Interface.cpp 15-46, LPDDR4Interface.cpp 17-46,
LPDDR5Interface.cpp 15-42, LPDDR6Interface.cpp 21-46). -/
def Interface.init (std : Std) (N : Nat) (sp : IfSpec) : Except Err (Interface std N) := do
  let cmdBus ← Bus.init (caWidth std) (caWidth std) (caRate std) (caIdle std)
  let dataBus ← DataBus.init N (sp.dataConfig std) sp.mode
  let dbi ← Interface.initDbi std sp
  if (std = .lpddr5 ∨ std = .lpddr6) ∧ sp.wckToCk = 0 then .error (.ub "dataRate / WCKtoCK")
  else pure {
    ca := caInit std
    ca6 := { extra := { numberOfBankGroups := sp.bankGroups } }
    cmdBus, dataBus, dbi
    readDQS := Clock.init (sp.strobeRate std) true
    writeDQS := Clock.init (sp.strobeRate std) true
    wck := Clock.init sp.wckRate (!(std != .lpddr6 || sp.enabled) || !sp.wckAlwaysOn)
    clock := Clock.init 2 (!(std != .lpddr6 || sp.enabled))
    pinsRead := sp.pins std
    pinsWrite := sp.pins std
    ranks := if std = .ddr4 then List.replicate sp.ranks {} else []
    formatter := {}
    enabled := sp.enabled }

namespace Interface

/-- `m_dataBus.getWidth()` (util/databus.h 145-147). -/
def width (i : Interface std N) : Nat := i.dataBus.busRead.width

/-- `getCommandPattern` and the size of the pattern (X `handleCommandBus`: DDR4Interface.cpp 289-290,
DDR5Interface.cpp 231-232, LPDDR4Interface.cpp 202-203, LPDDR5Interface.cpp 325-326, LPDDR6Interface.cpp 263-264). -/
def encodeCommand (sp : IfSpec) (i : Interface std N) (c : ICmd) : Except Err (Interface std N × BitVec 64 × Nat) :=
  if std = .lpddr6 then do
    let (h, w) ← i.ca6.command c.type c.co6
    pure ({ i with ca6 := h }, w, (lpddr6Patterns c.type).length)
  else do
    let (h, w) ← i.ca.command (patterns sp.arch std) c.type c.co
    pure ({ i with ca := h }, w, (patterns sp.arch std c.type).length)

/-- `handleCommandBus` (DDR4Interface.cpp 288-292, DDR5Interface.cpp 230-234, LPDDR4Interface.cpp 201-205,
LPDDR5Interface.cpp 324-328, LPDDR6Interface.cpp 262-266). -/
def handleCommandBus (sp : IfSpec) (i : Interface std N) (c : ICmd) : Except Err (Interface std N) := do
  let (i, w, n) ← i.encodeCommand sp c
  let b ← i.cmdBus.loadWord c.t w.toNat (n / i.cmdBus.width)
  pure { i with cmdBus := b }

/-- `loadfunc` (for instance DDR4Interface.cpp 300). -/
def loadFunc (d : DataBus N) (read : Bool) (t nBits : Nat) (data : Option (List UInt8)) : Except Err (DataBus N) :=
  if read then d.loadRead t nBits data else d.loadWrite t nBits data

/-- `(m_dataBus.*loadfunc)(t, n_bits, data)` (for instance DDR4Interface.cpp 319). -/
def loadData (i : Interface std N) (read : Bool) (t nBits : Nat) (data : Option (List UInt8)) : Except Err (Interface std N) := do
  let d ← loadFunc i.dataBus read t nBits data
  pure { i with dataBus := d }

/-- Level of the DBI pin of an inverted or plain chunk (DDR4Interface.cpp 182-184, LPDDR4Interface.cpp 158-160,
LPDDR5Interface.cpp 290-292). -/
def pinLevel (std : Std) (inverted : Bool) : PinState :=
  if std = .ddr4 then (if inverted then .L else .H) else (if inverted then .H else .L)

/-- `handleDBIPinChange` (DDR4Interface.cpp 179-186, LPDDR4Interface.cpp 155-162, LPDDR5Interface.cpp 287-294). Both
vectors have the same size, so the assertion covers the access. -/
def pinChange (i : Interface std N) (e : DbiEvent) : Except Err (Interface std N) :=
  match (if e.read then i.pinsRead else i.pinsWrite)[e.idx]? with
  | none => .error (.assertion "pin < m_dbiread.size()")
  | some p => do
    let p ← p.set e.load (pinLevel std e.inverted) 1
    if e.read then pure { i with pinsRead := i.pinsRead.set e.idx p }
    else pure { i with pinsWrite := i.pinsWrite.set e.idx p }

/-- The `uint8_t` words of a payload as the DBI model has them. -/
def toWords (data : List UInt8) : List (BitVec 8) := data.map UInt8.toBitVec

/-- And back. -/
def ofWords (data : List (BitVec 8)) : List UInt8 := data.map UInt8.ofBitVec

/-- `dbi_data.value_or(cmd.data)` after `handleDBIInterface` (DDR4Interface.cpp 312-317, 188-196,
LPDDR4Interface.cpp 224-229, 164-172, LPDDR5Interface.cpp 340-345, 296-304, LPDDR6Interface.cpp 320-324, 252-260);
DDR5 passes the payload on (DDR5Interface.cpp 255). -/
def invertData (sp : IfSpec) (i : Interface std N) (c : ICmd) (read : Bool) :
    Except Err (Interface std N × Option (List UInt8)) :=
  if std = .ddr5 ∨ i.dataBus.mode ≠ .bus ∨ i.dbi.enable = false ∨ c.nBits = 0 ∨ c.data = none then .ok (i, c.data)
  else do
    let (d, out, events) ← i.dbi.update (sp.dbi std) (c.t * sp.dataRate) c.nBits (c.data.map toWords) read
    let i ← events.foldlM pinChange { i with dbi := d }
    pure (i, match out with | some w => some (ofWords w) | none => c.data)

/-- The argument `InversionState` of `formatData` (LPDDR6Interface.cpp 327-329). -/
def inversionState (i : Interface std N) (read : Bool) : Option (List Bool) :=
  if i.dbi.enable then some (i.dbi.last read).inversions else none

/-- The first part of `handleData` (DDR4Interface.cpp 300-320, DDR5Interface.cpp 242-256, LPDDR4Interface.cpp 213-232,
LPDDR5Interface.cpp 331-348, LPDDR6Interface.cpp 311-332): load the data bus; also returns `length`. -/
def transfer (sp : IfSpec) (i : Interface std N) (c : ICmd) (read : Bool) : Except Err (Interface std N × Nat) :=
  if c.nBits = 0 then
    match i.dataBus.mode with
    | .bus => .ok (i, 0)
    | .toggling => do
      let i ← i.loadData read c.t (sp.burstLength * i.width) none
      pure (i, sp.burstLength)
  else do
    let (i, data) ← i.invertData sp c read
    if std = .lpddr6 then do
      let (f, bytes, n) ← i.formatter.formatData sp.shift data c.nBits (i.inversionState read)
      let i ← Interface.loadData { i with formatter := f } read c.t n bytes
      pure (i, n / i.width)
    else do
      let i ← i.loadData read c.t c.nBits data
      pure (i, c.nBits / i.width)

end Interface

/-- `handleDQs` (DDR4Interface.cpp 294-297, DDR5Interface.cpp 236-239, LPDDR4Interface.cpp 207-210) and the pairs of
calls in LPDDR5Interface.cpp 352-353, 355-356, 361-362, LPDDR6Interface.cpp 336-337, 339-340, 345-346. -/
def Clock.strobe (k : Clock) (t stop : Nat) : Except Err Clock := do
  let k ← k.start t
  k.stop stop

namespace Interface

/-- The strobe of the direction (X as `Clock.strobe`); LPDDR5 and LPDDR6 have none for writes. -/
def dqs (i : Interface std N) (t stop : Nat) (read : Bool) : Except Err (Interface std N) :=
  if read then do
    let k ← i.readDQS.strobe t stop
    pure { i with readDQS := k }
  else if std = .lpddr5 ∨ std = .lpddr6 then .ok i
  else do
    let k ← i.writeDQS.strobe t stop
    pure { i with writeDQS := k }

/-- The write clock (LPDDR5Interface.cpp 354-357, 360-363, LPDDR6Interface.cpp 338-341, 344-347). -/
def runWck (sp : IfSpec) (i : Interface std N) (t stop : Nat) : Except Err (Interface std N) :=
  if (std = .lpddr5 ∨ std = .lpddr6) ∧ sp.wckAlwaysOn = false then do
    let k ← i.wck.strobe t stop
    pure { i with wck := k }
  else .ok i

/-- `handleOverrides` (see `DRAMPower.handleOverrides`), for LPDDR6 the assignment of `currentBurstLength`
(LPDDR6Interface.cpp 349). -/
def overrides (i : Interface std N) (length : Nat) (read : Bool) : Interface std N :=
  if std = .lpddr6 then { i with ca6 := { i.ca6 with extra := { i.ca6.extra with currentBurstLength := length } } }
  else { i with ca := { i.ca with settings := handleOverrides i.ca.settings length read std } }

end Interface

/-- `handlePrePostamble` (DDR4Interface.cpp 198-234). -/
def RankIf.access (r : RankIf) (t length : Nat) (read : Bool) : Except Err RankIf :=
  let lastAccess := if read then r.lastReadEnd else r.lastWriteEnd
  if t < lastAccess then .error (.assertion "timestamp >= *lastAccess")
  else
    let diff := t - lastAccess
    let r := if read then { r with lastReadEnd := t + length } else { r with lastWriteEnd := t + length }
    if diff = 0 then
      if read then .ok { r with seamlessRead := r.seamlessRead + 1 }
      else .ok { r with seamlessWrite := r.seamlessWrite + 1 }
    else .ok r

namespace Interface

/-- The end of `handleData` (DDR4Interface.cpp 324-326, only DDR4). -/
def prePostamble (sp : IfSpec) (i : Interface std N) (c : ICmd) (length : Nat) (read : Bool) : Except Err (Interface std N) :=
  if std = .ddr4 then
    match i.ranks[c.co.rank]? with
    | none => .error (.assertion "m_ranks.size()>cmd.targetCoordinate.rank")
    | some r => do
      let r ← r.access c.t (length / sp.dataRate) read
      pure { i with ranks := i.ranks.set c.co.rank r }
  else .ok i

/-- `handleData` (DDR4Interface.cpp 299-327, DDR5Interface.cpp 241-260, LPDDR4Interface.cpp 212-236,
LPDDR5Interface.cpp 330-367, LPDDR6Interface.cpp 310-351). -/
def handleData (sp : IfSpec) (i : Interface std N) (c : ICmd) (read : Bool) : Except Err (Interface std N) := do
  let (i, length) ← i.transfer sp c read
  let i ← i.dqs c.t (c.t + length / sp.dataRate) read
  let i ← i.runWck sp c.t (c.t + length / sp.dataRate)
  let i := i.overrides length read
  let i ← i.handleCommandBus sp c
  i.prePostamble sp c length read

/-- `endOfSimulation` (DDR4Interface.cpp 329-331, LPDDR4Interface.cpp 238-240, LPDDR5Interface.cpp 369-371,
LPDDR6Interface.cpp 353-355). -/
def endOfSimulation (sp : IfSpec) (i : Interface std N) (t : Nat) : Except Err (Interface std N) := do
  let (d, events) ← i.dbi.resetBoth (sp.dbi std) t
  events.foldlM pinChange { i with dbi := d }

end Interface

/-- The groups of labels in the `switch` of `doCommand`. -/
inductive IfAction
  /-- `handleCommandBus` -/
  | bus
  /-- `handleData(cmd, read)` -/
  | data (read : Bool)
  /-- `endOfSimulation` -/
  | finish
  /-- `break` only -/
  | skip
  /-- `REFP2B` with a bank architecture that does not support it -/
  | unsupported
  /-- `default` -/
  | invalid
deriving DecidableEq, Repr

/-- The `switch` of `doCommand` (DDR4Interface.cpp 148-175, DDR5Interface.cpp 127-156, LPDDR4Interface.cpp 122-151,
LPDDR5Interface.cpp 247-283, LPDDR6Interface.cpp 219-248). -/
def ifAction (a : BankArch) : Std → CmdType → IfAction
  | .ddr4, c => match c with
    | .ACT | .PRE | .PREA | .REFA | .SREFEN | .SREFEX | .PDEA | .PDEP | .PDXA | .PDXP => .bus
    | .RD | .RDA => .data true
    | .WR | .WRA => .data false
    | .END_OF_SIMULATION => .finish
    | _ => .invalid
  | .ddr5, c => match c with
    | .NOP | .ACT | .PRE | .PRESB | .REFSB | .REFA | .PREA | .SREFEN | .SREFEX | .PDEA | .PDEP | .PDXA | .PDXP => .bus
    | .RD | .RDA => .data true
    | .WR | .WRA => .data false
    | .END_OF_SIMULATION => .skip
    | _ => .invalid
  | .lpddr4, c => match c with
    | .ACT | .PRE | .PREA | .REFB | .REFA | .SREFEN | .SREFEX => .bus
    | .RD | .RDA => .data true
    | .WR | .WRA => .data false
    | .END_OF_SIMULATION => .finish
    | .PDEA | .PDXA | .PDEP | .PDXP => .skip
    | _ => .invalid
  | .lpddr5, c => match c with
    | .ACT | .PRE | .PREA | .REFB | .REFA | .SREFEN | .SREFEX | .PDEA | .PDEP | .PDXA | .PDXP | .DSMEN | .DSMEX => .bus
    | .REFP2B => if a ≠ .mbg ∧ a ≠ .m16b then .unsupported else .bus
    | .RD | .RDA => .data true
    | .WR | .WRA => .data false
    | .END_OF_SIMULATION => .finish
    | _ => .invalid
  | .lpddr6, c => match c with
    | .NOP | .PDEA | .PDEP | .PDXA | .PDXP | .SREFEN | .SREFEX | .PRE | .PREA | .REFDB | .REFA | .ACT => .bus
    | .WR | .WRA => .data false
    | .RD | .RDA => .data true
    | .END_OF_SIMULATION => .finish
    | _ => .invalid

namespace Interface

/-- The called function (the same lines as `ifAction`). -/
def act (sp : IfSpec) (i : Interface std N) (c : ICmd) : IfAction → Except Err (Interface std N)
  | .bus => i.handleCommandBus sp c
  | .data read => i.handleData sp c read
  | .finish => i.endOfSimulation sp c.t
  | .skip => .ok i
  | .unsupported => .error (.exception "REFP2B command is not supported for this bank architecture")
  | .invalid => .error (.assertion "Invalid command")

/-- `doCommand` (DDR4Interface.cpp 147-177, DDR5Interface.cpp 126-158, LPDDR4Interface.cpp 121-153,
LPDDR5Interface.cpp 246-285, LPDDR6Interface.cpp 218-250). -/
def doCommand (sp : IfSpec) (i : Interface std N) (c : ICmd) : Except Err (Interface std N) := do
  let i ← i.act sp c (ifAction sp.arch std c.type)
  pure { i with last := c.t }

/-- `enableDBI` (DDR4Interface.h 71-73, LPDDR4Interface.h 67-69, LPDDR5Interface.h 71-73, LPDDR6Interface.h 128-130). -/
def enableDBI (i : Interface std N) (enable : Bool) : Interface std N := { i with dbi := { i.dbi with enable } }

/-- `LPDDR6Interface::enable` (LPDDR6Interface.cpp 268-276). -/
def enable (sp : IfSpec) (i : Interface std N) (t : Nat) : Except Err (Interface std N) :=
  if i.enabled then .ok i
  else do
    let wck ← if sp.wckAlwaysOn then i.wck.start t else pure i.wck
    let clock ← i.clock.start t
    pure { i with wck, clock, last := t, enabled := true }

/-- `LPDDR6Interface::disable` (LPDDR6Interface.cpp 278-286). -/
def disable (sp : IfSpec) (i : Interface std N) (t : Nat) : Except Err (Interface std N) :=
  if i.enabled = false then .ok i
  else do
    let wck ← if sp.wckAlwaysOn then i.wck.stop t else pure i.wck
    let clock ← i.clock.stop t
    pure { i with wck, clock, last := t, enabled := false }

/-- `LPDDR6Interface::setMetaData` (LPDDR6Interface.cpp 292-295). -/
def setMetaData (i : Interface std N) (m1 m2 : BitVec 16) : Interface std N :=
  { i with formatter := i.formatter.setMetaData m1 m2 }

/-- `LPDDR6Interface::setParityCheckMode` (LPDDR6Interface.cpp 301-305). -/
def setParityCheckMode (sp : IfSpec) (i : Interface std N) (state : Bool) : Except Err (Interface std N) :=
  if (sp.wckAlwaysOn && state) || !state then
    .ok { i with ca6 := { i.ca6 with extra := { i.ca6.extra with parityCheckMode := state } } }
  else .error (.assertion "Invalid wckAlwaysOnMode")

/-- Prepare `rank_total[k].prepos` (DDR4Interface.cpp 341-348). -/
def _root_.DRAMPower.RankIf.prepos (r : RankIf) : Prepos where
  readSeamless := r.seamlessRead
  writeSeamless := r.seamlessWrite
  readMerged := r.mergedRead
  readMergedTime := r.mergedTimeRead
  writeMerged := r.mergedWrite
  writeMergedTime := r.mergedTimeWrite

/-- `rank_total.resize(n)` followed by the loop over the ranks (DDR4Interface.cpp 339-349). -/
def rankTotals (l : List CycleStats) (ranks : List RankIf) : List CycleStats :=
  ranks.mapIdx fun k r => { l.getD k {} with prepos := r.prepos }

/-- `for (pin : pins) stats += pin.get_stats_at(t, 2)` (DDR4Interface.cpp 366-371, LPDDR4Interface.cpp 256-261,
LPDDR5Interface.cpp 387-392). -/
def pinStats {P : Nat} (pins : List (Pin P)) (t : Nat) (s : BusStats) : Except Err BusStats :=
  pins.foldlM (fun s p => do let x ← p.getStats t 2; pure (s + x)) s

/-- Number of strobe pairs times two (DDR4Interface.cpp 335-338 and 363, DDR5Interface.cpp 273-281,
LPDDR4Interface.cpp 253-266, LPDDR5Interface.cpp 385, LPDDR6Interface.cpp 369). -/
def strobeWires (std : Std) (sp : IfSpec) : Nat :=
  if (std = .ddr4 ∨ std = .ddr5 ∨ std = .lpddr4) ∧ sp.bitWidth = 16 then 4 else 2

/-- `getWindowStats` (DDR4Interface.cpp 333-372, DDR5Interface.cpp 262-282, LPDDR4Interface.cpp 242-267,
LPDDR5Interface.cpp 373-393, LPDDR6Interface.cpp 357-371). The assigned members are overwritten, `readDBI` and
`writeDBI` are added to. The bus and toggling statistics are filled by `DataBus::get_stats` (util/databus.h 152-163),
which adds to zero here. -/
def getWindowStats (sp : IfSpec) (i : Interface std N) (t : Nat) (s : SimStats) : Except Err SimStats := do
  let commandBus ← i.cmdBus.getStats t
  let d ← i.dataBus.getStats t
  let readDBI ← pinStats i.pinsRead t s.readDBI
  let writeDBI ← pinStats i.pinsWrite t s.writeDBI
  let mobile := decide (std = .lpddr5 ∨ std = .lpddr6)
  pure { s with
    commandBus
    readBus := s.readBus + d.busRead
    writeBus := s.writeBus + d.busWrite
    togglingRead := s.togglingRead + d.togglingRead
    togglingWrite := s.togglingWrite + d.togglingWrite
    clockStats := 2 * i.clock.getStats t
    wClockStats := if mobile then 2 * i.wck.getStats t else s.wClockStats
    readDQSStats := strobeWires std sp * i.readDQS.getStats t
    writeDQSStats := if mobile then s.writeDQSStats else strobeWires std sp * i.writeDQS.getStats t
    readDBI, writeDBI
    rankTotal := if std = .ddr4 then rankTotals s.rankTotal i.ranks else s.rankTotal }

/-- `getLastCommandTime` (DDR4Interface.cpp 143-145, DDR5Interface.cpp 122-124, LPDDR4Interface.cpp 117-119,
LPDDR5Interface.cpp 242-244, LPDDR6Interface.cpp 214-216). -/
def lastCommandTime (i : Interface std N) : Nat := i.last

end Interface

/-- Calls on an interface. The last five exist for some standards only. -/
inductive IfOp
  | cmd (c : ICmd)
  | dbi (enable : Bool)
  | metaData (m1 m2 : BitVec 16)
  | parity (state : Bool)
  | enable (t : Nat)
  | disable (t : Nat)

/-- One call. -/
def Interface.step (sp : IfSpec) (i : Interface std N) : IfOp → Except Err (Interface std N)
  | .cmd c => i.doCommand sp c
  | .dbi e => .ok (i.enableDBI e)
  | .metaData a b => .ok (i.setMetaData a b)
  | .parity b => i.setParityCheckMode sp b
  | .enable t => i.enable sp t
  | .disable t => i.disable sp t

/-- A sequence of calls. -/
def Interface.run (sp : IfSpec) (i : Interface std N) : List IfOp → Except Err (Interface std N)
  | [] => .ok i
  | op :: ops => match i.step sp op with
    | .ok i => i.run sp ops
    | .error e => .error e

end DRAMPower
