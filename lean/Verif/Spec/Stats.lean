import Verif.Model.Stats

/-!
# Components of statistics

A name for every number in a statistics object.
-/

namespace DRAMPower.Spec

/-- The buses of a statistics object. -/
inductive StatBus
  | commandBus | readBus | writeBus | clock | wclock | readDBI | writeDBI | togglingRead | togglingWrite | readDQS | writeDQS
deriving DecidableEq, Repr

/-- The statistics of a bus. -/
def StatBus.of (s : SimStats) : StatBus → BusStats
  | .commandBus => s.commandBus
  | .readBus => s.readBus
  | .writeBus => s.writeBus
  | .clock => s.clockStats
  | .wclock => s.wClockStats
  | .readDBI => s.readDBI
  | .writeDBI => s.writeDBI
  | .togglingRead => s.togglingRead
  | .togglingWrite => s.togglingWrite
  | .readDQS => s.readDQSStats
  | .writeDQS => s.writeDQSStats

/-- The numbers counted on a bus. -/
inductive BusCount
  | ones | zeroes | bitChanges | onesToZeroes | zeroesToOnes
deriving DecidableEq, Repr

/-- The value of such a number. -/
def BusCount.of (s : BusStats) : BusCount → Nat
  | .ones => s.ones
  | .zeroes => s.zeroes
  | .bitChanges => s.bitChanges
  | .onesToZeroes => s.onesToZeroes
  | .zeroesToOnes => s.zeroesToOnes

/-- The numbers kept for a bank or a rank. -/
inductive CoreCount
  | act | pre | reads | writes | refAllBank | refPerBank | refPerTwoBanks | refDualBanks | refSameBank | readAuto | writeAuto
  | cyclesAct | cyclesPre | powerDownAct | powerDownPre | selfRefresh | deepSleepMode
  | readMerged | readMergedTime | writeMerged | writeMergedTime | readSeamless | writeSeamless
deriving DecidableEq, Repr

/-- The value of such a number. -/
def CoreCount.of (s : CycleStats) : CoreCount → Nat
  | .act => s.counter.act
  | .pre => s.counter.pre
  | .reads => s.counter.reads
  | .writes => s.counter.writes
  | .refAllBank => s.counter.refAllBank
  | .refPerBank => s.counter.refPerBank
  | .refPerTwoBanks => s.counter.refPerTwoBanks
  | .refDualBanks => s.counter.refDualBanks
  | .refSameBank => s.counter.refSameBank
  | .readAuto => s.counter.readAuto
  | .writeAuto => s.counter.writeAuto
  | .cyclesAct => s.cycles.act
  | .cyclesPre => s.cycles.pre
  | .powerDownAct => s.cycles.powerDownAct
  | .powerDownPre => s.cycles.powerDownPre
  | .selfRefresh => s.cycles.selfRefresh
  | .deepSleepMode => s.cycles.deepSleepMode
  | .readMerged => s.prepos.readMerged
  | .readMergedTime => s.prepos.readMergedTime
  | .writeMerged => s.prepos.writeMerged
  | .writeMergedTime => s.prepos.writeMergedTime
  | .readSeamless => s.prepos.readSeamless
  | .writeSeamless => s.prepos.writeSeamless

/-- A number of entry `i` of a list of statistics (zero beyond the end). -/
def coreAt (l : List CycleStats) (i : Nat) (c : CoreCount) : Nat := c.of (l.getD i {})

end DRAMPower.Spec
