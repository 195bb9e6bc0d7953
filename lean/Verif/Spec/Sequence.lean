import Verif.Spec.Timeline
import Verif.Spec.Later

/-!
# One trace after the other

When a rank is at rest, so that another trace may follow as if nothing had happened before, and what the sum of two reports is.
-/

namespace DRAMPower.Spec

/-- At time `T` after the commands `h` a rank is in normal operation and all its banks are closed. -/
def AtRest (std : Std) (ms : MemSpec) (h : List Cmd) (T : Nat) : Prop :=
  let s := (h.foldl (apply std ms) {}).settle T
  s.mode = .normal ∧ ∀ b < ms.numberOfBanks, (s.bank b).status = .idle

/-- Moreover the times that delay a power-down after an activation, a precharge and a refresh have passed. -/
def Recovered (std : Std) (ms : MemSpec) (h : List Cmd) (T : Nat) : Prop :=
  earliest (tRCDof std ms) ms.tRP ms.numberOfBanks ((h.foldl (apply std ms) {}).settle T) ≤ T

/-- Commands that enter or leave power-down. -/
def usesPowerDown (ty : CmdType) : Prop := ty = .PDEA ∨ ty = .PDEP ∨ ty = .PDXA ∨ ty = .PDXP

instance (ty : CmdType) : Decidable (usesPowerDown ty) := by unfold usesPowerDown; infer_instance

/-- No refresh is shorter than the time between an activation and an access. -/
def SlowRefresh (std : Std) (ms : MemSpec) : Prop := ∀ ty ∈ [CmdType.REFA, .REFB, .REFP2B, .REFDB, .REFSB], supports std ty = true → tRCDof std ms ≤ refreshTime ms ty

/-- After the trace `first`, the trace `second` may begin at time `T`: all of `first` has been sent, every rank is at rest, and, if
`second` uses power-down, has recovered. -/
structure MayFollow (std : Std) (ms : MemSpec) (first second : List Cmd) (T : Nat) : Prop where
  sent : NotBefore first T
  rest : ∀ i < ms.numberOfRanks, AtRest std ms (forRank std i first) T
  recovered : (∀ c ∈ second, ¬ usesPowerDown c.type) ∨
    SlowRefresh std ms ∧ ∀ i < ms.numberOfRanks, Recovered std ms (forRank std i first) T

/-- `first`, then `second` from time `T` on. -/
def followed (first second : List Cmd) (T : Nat) : List Cmd := first ++ later T second

/-- Sums of cycles, of counters, and of reports. -/
def sumCycles (a b : Cycles) : Cycles where
  act := a.act + b.act
  pre := a.pre + b.pre
  powerDownAct := a.powerDownAct + b.powerDownAct
  powerDownPre := a.powerDownPre + b.powerDownPre
  selfRefresh := a.selfRefresh + b.selfRefresh
  deepSleepMode := a.deepSleepMode + b.deepSleepMode

def sumCounters (a b : Counters) : Counters where
  act := a.act + b.act
  pre := a.pre + b.pre
  reads := a.reads + b.reads
  writes := a.writes + b.writes
  refAllBank := a.refAllBank + b.refAllBank
  refPerBank := a.refPerBank + b.refPerBank
  refPerTwoBanks := a.refPerTwoBanks + b.refPerTwoBanks
  refDualBanks := a.refDualBanks + b.refDualBanks
  refSameBank := a.refSameBank + b.refSameBank
  readAuto := a.readAuto + b.readAuto
  writeAuto := a.writeAuto + b.writeAuto

def sumReports (a b : CoreStats) : CoreStats where
  bank := List.zipWith (fun x y => { counter := sumCounters x.counter y.counter, cycles := sumCycles x.cycles y.cycles }) a.bank b.bank
  rankTotal := List.zipWith sumCycles a.rankTotal b.rankTotal

/-- `trace` every `P` cycles, `n` times. -/
def repeated (trace : List Cmd) (P : Nat) : Nat → List Cmd
  | 0 => []
  | n + 1 => followed (repeated trace P n) trace (n * P)

/-- `n` times the report. -/
def timesReport (n : Nat) (a : CoreStats) : CoreStats where
  bank := a.bank.map fun x => {
    counter := {
      act := n * x.counter.act, pre := n * x.counter.pre, reads := n * x.counter.reads, writes := n * x.counter.writes,
      refAllBank := n * x.counter.refAllBank, refPerBank := n * x.counter.refPerBank, refPerTwoBanks := n * x.counter.refPerTwoBanks,
      refDualBanks := n * x.counter.refDualBanks, refSameBank := n * x.counter.refSameBank, readAuto := n * x.counter.readAuto,
      writeAuto := n * x.counter.writeAuto }
    cycles := timesCycles n x.cycles }
  rankTotal := a.rankTotal.map (timesCycles n)
where
  timesCycles (n : Nat) (x : Cycles) : Cycles := {
    act := n * x.act, pre := n * x.pre, powerDownAct := n * x.powerDownAct, powerDownPre := n * x.powerDownPre,
    selfRefresh := n * x.selfRefresh, deepSleepMode := n * x.deepSleepMode }

instance (std : Std) (ms : MemSpec) (h : List Cmd) (T : Nat) : Decidable (AtRest std ms h T) := by unfold AtRest; infer_instance
instance (std : Std) (ms : MemSpec) (h : List Cmd) (T : Nat) : Decidable (Recovered std ms h T) := by unfold Recovered; infer_instance
instance (std : Std) (ms : MemSpec) : Decidable (SlowRefresh std ms) := by unfold SlowRefresh; infer_instance

instance (std : Std) (ms : MemSpec) (first second : List Cmd) (T : Nat) : Decidable (MayFollow std ms first second T) :=
  decidable_of_iff (NotBefore first T ∧ (∀ i < ms.numberOfRanks, AtRest std ms (forRank std i first) T) ∧
      ((∀ c ∈ second, ¬ usesPowerDown c.type) ∨ SlowRefresh std ms ∧ ∀ i < ms.numberOfRanks, Recovered std ms (forRank std i first) T))
    ⟨fun ⟨a, b, c⟩ => ⟨a, b, c⟩, fun ⟨a, b, c⟩ => ⟨a, b, c⟩⟩

end DRAMPower.Spec
