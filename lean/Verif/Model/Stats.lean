import Verif.Model.BusStats

/-!
# Statistics

Paths in comments are relative to `/repo/src/DRAMPower/DRAMPower/`.

Simplification: the `uint64_t` counters are unbounded natural numbers.
-/

namespace DRAMPower

/-- `command_stats_t::operator+=` (data/stats.h 71-84). -/
def Counters.add (a b : Counters) : Counters where
  act := a.act + b.act
  pre := a.pre + b.pre
  reads := a.reads + b.reads
  writes := a.writes + b.writes
  refAllBank := a.refAllBank + b.refAllBank
  refPerBank := a.refPerBank + b.refPerBank
  refPerTwoBanks := a.refPerTwoBanks + b.refPerTwoBanks
  refDualBanks := a.refDualBanks + b.refDualBanks
  refSameBank := a.refSameBank + b.refSameBank
  readAuto := a.readAuto + b.readAuto
  writeAuto := a.writeAuto + b.writeAuto

/-- `command_stats_t::operator==` (data/stats.h 56-68). -/
def Counters.eq (a b : Counters) : Bool :=
  a.act == b.act && a.pre == b.pre && a.reads == b.reads && a.writes == b.writes && a.refAllBank == b.refAllBank &&
  a.refPerBank == b.refPerBank && a.refPerTwoBanks == b.refPerTwoBanks && a.refDualBanks == b.refDualBanks &&
  a.refSameBank == b.refSameBank && a.readAuto == b.readAuto && a.writeAuto == b.writeAuto

/-- `cycles_t::operator+=` (data/stats.h 124-132). -/
def Cycles.add (a b : Cycles) : Cycles where
  act := a.act + b.act
  pre := a.pre + b.pre
  powerDownAct := a.powerDownAct + b.powerDownAct
  powerDownPre := a.powerDownPre + b.powerDownPre
  selfRefresh := a.selfRefresh + b.selfRefresh
  deepSleepMode := a.deepSleepMode + b.deepSleepMode

/-- `cycles_t::operator==` (data/stats.h 115-122). -/
def Cycles.eq (a b : Cycles) : Bool :=
  a.act == b.act && a.pre == b.pre && a.powerDownAct == b.powerDownAct && a.powerDownPre == b.powerDownPre &&
  a.selfRefresh == b.selfRefresh && a.deepSleepMode == b.deepSleepMode

/-- `prepos_t` (data/stats.h 136-142). -/
structure Prepos where
  readMerged : Nat := 0
  readMergedTime : Nat := 0
  writeMerged : Nat := 0
  writeMergedTime : Nat := 0
  readSeamless : Nat := 0
  writeSeamless : Nat := 0
deriving DecidableEq, Repr

/-- `prepos_t::operator+=` (data/stats.h 172-180). -/
def Prepos.add (a b : Prepos) : Prepos where
  readMerged := a.readMerged + b.readMerged
  readMergedTime := a.readMergedTime + b.readMergedTime
  writeMerged := a.writeMerged + b.writeMerged
  writeMergedTime := a.writeMergedTime + b.writeMergedTime
  readSeamless := a.readSeamless + b.readSeamless
  writeSeamless := a.writeSeamless + b.writeSeamless

/-- `prepos_t::operator==` (data/stats.h 162-169). -/
def Prepos.eq (a b : Prepos) : Bool :=
  a.readMerged == b.readMerged && a.readMergedTime == b.readMergedTime && a.writeMerged == b.writeMerged &&
  a.writeMergedTime == b.writeMergedTime && a.readSeamless == b.readSeamless && a.writeSeamless == b.writeSeamless

/-- `CycleStats` (data/stats.h 184-189). -/
structure CycleStats where
  counter : Counters := {}
  cycles : Cycles := {}
  prepos : Prepos := {}
deriving DecidableEq, Repr

/-- `CycleStats::operator+=` (data/stats.h 210-215). -/
def CycleStats.add (a b : CycleStats) : CycleStats where
  counter := a.counter.add b.counter
  cycles := a.cycles.add b.cycles
  prepos := a.prepos.add b.prepos

/-- `CycleStats::operator==` (data/stats.h 203-207). -/
def CycleStats.eq (a b : CycleStats) : Bool := a.counter.eq b.counter && a.cycles.eq b.cycles && a.prepos.eq b.prepos

/-- `bus_stats_t::operator==` (util/bus_types.h 72-78). -/
def BusStats.eq (a b : BusStats) : Bool :=
  a.ones == b.ones && a.zeroes == b.zeroes && a.bitChanges == b.bitChanges && a.onesToZeroes == b.onesToZeroes &&
  a.zeroesToOnes == b.zeroesToOnes

/-- `SimulationStats` with `TogglingStats` flattened (data/stats.h 219-245). -/
structure SimStats where
  commandBus : BusStats := {}
  readBus : BusStats := {}
  writeBus : BusStats := {}
  clockStats : BusStats := {}
  wClockStats : BusStats := {}
  readDBI : BusStats := {}
  writeDBI : BusStats := {}
  togglingRead : BusStats := {}
  togglingWrite : BusStats := {}
  readDQSStats : BusStats := {}
  writeDQSStats : BusStats := {}
  bank : List CycleStats := []
  rankTotal : List CycleStats := []
deriving DecidableEq, Repr

/-- The two loops over `bank` and `rank_total` of `SimulationStats::operator+=` (data/stats.h 287-303): add the common
part, append the rest of the longer right operand. -/
def addCycles (a b : List CycleStats) : List CycleStats :=
  let m := min a.length b.length
  let sum := (List.range m).foldl (fun l i => l.modify i fun x => x.add (b.getD i {})) a
  if a.length < b.length then sum ++ b.drop m else sum

/-- The loops over `bank` and `rank_total` of `SimulationStats::operator==` (data/stats.h 250-272). -/
def eqCycles (a b : List CycleStats) : Bool :=
  if a.length ≠ b.length then false
  else (List.range a.length).all fun i => (a.getD i {}).eq (b.getD i {})

/-- `SimulationStats::operator+=` (data/stats.h 286-316). -/
def SimStats.add (a b : SimStats) : SimStats where
  bank := addCycles a.bank b.bank
  rankTotal := addCycles a.rankTotal b.rankTotal
  commandBus := a.commandBus + b.commandBus
  readBus := a.readBus + b.readBus
  writeBus := a.writeBus + b.writeBus
  clockStats := a.clockStats + b.clockStats
  wClockStats := a.wClockStats + b.wClockStats
  readDBI := a.readDBI + b.readDBI
  writeDBI := a.writeDBI + b.writeDBI
  togglingRead := a.togglingRead + b.togglingRead
  togglingWrite := a.togglingWrite + b.togglingWrite
  readDQSStats := a.readDQSStats + b.readDQSStats
  writeDQSStats := a.writeDQSStats + b.writeDQSStats

/-- `SimulationStats::operator==` (data/stats.h 247-284). -/
def SimStats.eq (a b : SimStats) : Bool :=
  a.commandBus.eq b.commandBus && a.readBus.eq b.readBus && a.writeBus.eq b.writeBus && a.clockStats.eq b.clockStats &&
  a.wClockStats.eq b.wClockStats && a.readDBI.eq b.readDBI && a.writeDBI.eq b.writeDBI && a.togglingRead.eq b.togglingRead &&
  a.togglingWrite.eq b.togglingWrite && a.readDQSStats.eq b.readDQSStats && a.writeDQSStats.eq b.writeDQSStats &&
  eqCycles a.bank b.bank && eqCycles a.rankTotal b.rankTotal

end DRAMPower
