import Verif.Model.Core
import Verif.Model.Machine

/-!
# Times that fit into 64 bits
-/

namespace DRAMPower.Spec

/-- The longest time by which the consequences of a command may lie behind what caused them: refreshes end, rows have been open long enough,
transfers have ended. -/
def longestDelay (std : Std) (ms : MemSpec) : Nat :=
  ([ms.tRFC, ms.tRFCsb, ms.tRFCPB, ms.tRFCDB, ms.tRAS, ms.tRP, ms.prechargeOffsetRD, ms.prechargeOffsetWR] ++
    if std = .lpddr6 then [ms.tRCDR, ms.tRCDW] else [ms.tRCD]).foldl max 0

/-- A trace whose consequences all lie before the time 2^64, and whose commands can be counted. -/
structure In64 (std : Std) (ms : MemSpec) (cmds : List Cmd) : Prop where
  times : ∀ c ∈ cmds, c.t + longestDelay std ms < 2 ^ 64
  length : cmds.length < 2 ^ 64

/-- The command as the program gets it. -/
def toMachine (c : Cmd) : Machine.Cmd := { t := UInt64.ofNat c.t, type := c.type, rank := c.rank, bank := c.bank, dbank := c.dbank }

/-- The numbers the program reports. -/
def countersOf (c : Machine.Counters) : Counters where
  act := c.act.toNat
  pre := c.pre.toNat
  reads := c.reads.toNat
  writes := c.writes.toNat
  refAllBank := c.refAllBank.toNat
  refPerBank := c.refPerBank.toNat
  refPerTwoBanks := c.refPerTwoBanks.toNat
  refDualBanks := c.refDualBanks.toNat
  refSameBank := c.refSameBank.toNat
  readAuto := c.readAuto.toNat
  writeAuto := c.writeAuto.toNat

/-- The numbers the program reports. -/
def cyclesOf (c : Machine.Cycles) : Cycles where
  act := c.act.toNat
  pre := c.pre.toNat
  powerDownAct := c.powerDownAct.toNat
  powerDownPre := c.powerDownPre.toNat
  selfRefresh := c.selfRefresh.toNat
  deepSleepMode := c.deepSleepMode.toNat

/-- The numbers the program reports. -/
def machineReport (x : Machine.CoreStats) : CoreStats where
  bank := x.bank.map fun b => { counter := countersOf b.counter, cycles := cyclesOf b.cycles }
  rankTotal := x.rankTotal.map cyclesOf

/-- Counters that start again at 0 after 2^64 - 1. -/
def countersMod (c : Counters) : Counters where
  act := c.act % 2 ^ 64
  pre := c.pre % 2 ^ 64
  reads := c.reads % 2 ^ 64
  writes := c.writes % 2 ^ 64
  refAllBank := c.refAllBank % 2 ^ 64
  refPerBank := c.refPerBank % 2 ^ 64
  refPerTwoBanks := c.refPerTwoBanks % 2 ^ 64
  refDualBanks := c.refDualBanks % 2 ^ 64
  refSameBank := c.refSameBank % 2 ^ 64
  readAuto := c.readAuto % 2 ^ 64
  writeAuto := c.writeAuto % 2 ^ 64

end DRAMPower.Spec
