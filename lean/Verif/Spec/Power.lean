import Verif.Spec.Timeline
import Verif.Spec.Currents

/-!
# Power over time

The energy of a trace from the reference timeline and the data sheet: in every clock cycle a rank draws the current of the state it is
in, and every command and every precharge moves a charge on top of that.
-/

namespace DRAMPower.Spec

/-- Number of banks of the rank that are active in cycle `τ`. -/
def activeCount (std : Std) (ms : MemSpec) (h : List Cmd) (τ : Nat) : Nat :=
  (List.range ms.numberOfBanks).countP fun b => category std ms h b τ = .act

/-- The current of a rank in state `k` with `active` active banks. -/
def stateCurrent (std : Std) (s : PowerSpec) (d : Domain) (active : Nat) : Cat → Rat
  | .pre => d.i2n
  | .act => background std s d active
  | .pda => d.i3p
  | .pdp => d.i2p
  | .sref => d.i6n
  | .dsm => d.i6ds

/-- Duration of a burst. -/
def burstTime (std : Std) (s : PowerSpec) : Rat := (s.burstLength : Rat) / (s.dataRate : Rat) * dataClock std s

/-- The charge a command moves in addition to the background current of the banks it keeps active. An activation moves what remains of the
charge of an activate-precharge cycle when the precharge is subtracted. Entering self-refresh refreshes all banks once. -/
def commandCharge (std : Std) (s : PowerSpec) (d : Domain) : CmdType → Rat
  | .ACT => (d.i0 * ((s.tRAS : Rat) + s.tRP) - d.iBeta * s.tRP - background std s d 1 * s.tRAS) * s.tCK
  | .RD | .RDA => (d.i4r - background std s d (burstBanks std s)) * burstTime std s
  | .WR | .WRA => (d.i4w - background std s d (burstBanks std s)) * burstTime std s
  | .REFA | .SREFEN => (d.i5x - background std s d s.banks) * ((s.tRFC : Rat) * s.tCK)
  | .REFB => bankRefreshCharge s d - background std s d 1 * ((s.tRFCpb : Rat) * s.tCK)
  | .REFP2B | .REFDB => bankRefreshCharge s d - background std s d 2 * ((s.tRFCpb : Rat) * s.tCK)
  | .REFSB => (d.i5c - background std s d s.bankGroups) * ((s.tRFCpb : Rat) * s.tCK)
  | _ => 0

/-- The charge of a precharge in addition to the precharged background. -/
def prechargeCharge (s : PowerSpec) (d : Domain) : Rat := (d.iBeta - d.i2n) * ((s.tRP : Rat) * s.tCK)

/-- Number of rows of the rank that have been closed until `t`. -/
def precharges (std : Std) (ms : MemSpec) (h : List Cmd) (t : Nat) : Nat :=
  ((List.range ms.numberOfBanks).map fun b => (((h.foldl (apply std ms) {}).settle t).bank b).pres).sum

/-- The charge that flows into the cycles `t, …, t' - 1` of a rank. -/
def backgroundCharge (std : Std) (ms : MemSpec) (s : PowerSpec) (d : Domain) (h : List Cmd) (t t' : Nat) : Rat :=
  ((List.range' t (t' - t)).map fun τ => stateCurrent std s d (activeCount std ms h τ) (rankCategory std ms h τ) * s.tCK).sum

/-- The charge that has flowed into a rank at time `t` after the commands `h`. -/
def rankCharge (std : Std) (ms : MemSpec) (s : PowerSpec) (d : Domain) (h : List Cmd) (t : Nat) : Rat :=
  backgroundCharge std ms s d h 0 t + (h.map fun c => commandCharge std s d c.type).sum +
    (precharges std ms h t : Rat) * prechargeCharge s d

/-- The energy of all devices of all ranks. -/
def coreEnergy (std : Std) (ms : MemSpec) (s : PowerSpec) (cmds : List Cmd) (t : Nat) : Rat :=
  (s.devices : Rat) * (s.domains.map fun d =>
    d.v * ((List.range ms.numberOfRanks).map fun i => rankCharge std ms s d (forRank std i cmds) t).sum).sum

/-- The two views of the memory specification describe the same memory, and a burst takes a whole number of data clock cycles. -/
structure Fits (std : Std) (ms : MemSpec) (s : PowerSpec) : Prop where
  banks : s.banks = ms.numberOfBanks
  ranks : s.ranks = ms.numberOfRanks
  groups : std = .ddr5 → s.bankGroups = ms.numberOfBankGroups
  burst : s.dataRate ∣ s.burstLength

end DRAMPower.Spec
