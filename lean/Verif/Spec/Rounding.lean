import Mathlib.Algebra.Order.Field.Rat
import Mathlib.Algebra.BigOperators.Group.List.Basic
import Verif.Spec.Energy
import Verif.Spec.Currents

/-!
# Rounding errors

What rounding to a `double` does to a number, and the scale the errors of an energy are measured with.
-/

namespace DRAMPower.Spec

/-- Rounding to 53 significant bits: the relative error is at most half a unit in the last place. -/
def Rounds (fl : Rat → Rat) : Prop := ∀ x, |fl x - x| ≤ |x| / 2 ^ 53

/-- The numbers with 53 significant bits (the exponent is not bounded). -/
def Digits (x : Rat) : Prop := ∃ m k : Int, |m| ≤ 2 ^ 53 ∧ x = m * (2 : Rat) ^ k

/-- All currents of a voltage domain. -/
def currents (d : Domain) : List Rat := [d.i0, d.i2n, d.i3n, d.i2p, d.i3p, d.i4r, d.i4w, d.i5x, d.i5c, d.i5pb, d.i6n, d.i6ds, d.iBeta]

/-- The largest of them. -/
def largest (d : Domain) : Rat := (currents d).foldr max 0

/-- Voltages, currents and times are not negative, the background factor is a fraction. -/
structure NonNegative (s : PowerSpec) : Prop where
  tCK : 0 ≤ s.tCK
  tWCK : 0 ≤ s.tWCK
  rho : 0 ≤ s.rho ∧ s.rho ≤ 1
  v : ∀ d ∈ s.domains, 0 ≤ d.v
  i : ∀ d ∈ s.domains, ∀ i ∈ currents d, 0 ≤ i

/-- The time a part of the energy of a bank is charged for: the durations the currents of the part were measured with, for every command,
or the time in the state. -/
def charged (std : Std) (s : PowerSpec) (bank rank : CycleStats) : Component → Rat
  | .act => (s.tRAS + s.tRP) * s.tCK * bank.counter.act
  | .pre => s.tRP * s.tCK * bank.counter.pre
  | .bgAct => bank.cycles.act * s.tCK
  | .bgPre => rank.cycles.pre * s.tCK
  | .rd => s.burstLength / s.dataRate * dataClock std s * bank.counter.reads
  | .wr => s.burstLength / s.dataRate * dataClock std s * bank.counter.writes
  | .rda => s.burstLength / s.dataRate * dataClock std s * bank.counter.readAuto
  | .wra => s.burstLength / s.dataRate * dataClock std s * bank.counter.writeAuto
  | .preRda => s.tRP * s.tCK * bank.counter.readAuto
  | .preWra => s.tRP * s.tCK * bank.counter.writeAuto
  | .refAb => s.tRFC * s.tCK * bank.counter.refAllBank
  | .refPb => (s.tREFI / 8 + s.tRFCpb) * s.tCK * bank.counter.refPerBank
  | .refSb => s.tRFCpb * s.tCK * bank.counter.refSameBank
  | .ref2b => (s.tREFI / 8 + s.tRFCpb) * s.tCK * bank.counter.refPerTwoBanks
  | .refDb => (s.tREFI / 8 + s.tRFCpb) * s.tCK * bank.counter.refDualBanks

/-- The same for the shared parts and one rank. -/
def chargedShared (s : PowerSpec) (rank : CycleStats) : SharedComponent → Rat
  | .bgActShared => rank.cycles.act * s.tCK * s.devices
  | .pdnA => rank.cycles.powerDownAct * s.tCK * s.devices
  | .pdnP => rank.cycles.powerDownPre * s.tCK * s.devices
  | .sref => rank.cycles.selfRefresh * s.tCK * s.devices
  | .dsm => rank.cycles.deepSleepMode * s.tCK * s.devices
  | .refab => 0

/-- The energy of the largest current in all voltage domains for this time. -/
def full (s : PowerSpec) (T : Rat) : Rat := (s.domains.map fun d => d.v * largest d * T).sum

/-- The same for the time a part of a bank is charged for. -/
def fullBank (std : Std) (s : PowerSpec) (stats : SimStats) (r b : Nat) (c : Component) : Rat :=
  full s (charged std s (stats.bank.getD (r * s.banks + b) {}) (stats.rankTotal.getD r {}) c)

/-- The same for a shared part in all ranks. -/
def fullShared (s : PowerSpec) (stats : SimStats) (c : SharedComponent) : Rat :=
  ((List.range s.ranks).map fun r => full s (chargedShared s (stats.rankTotal.getD r {}) c)).sum

/-- The same for everything: all counted parts of the banks of all devices and the shared parts. -/
def fullTotal (std : Std) (s : PowerSpec) (stats : SimStats) : Rat :=
  ((List.range s.ranks).map fun r => ((List.range s.devices).map fun _ => ((List.range s.banks).map fun b =>
    ((Component.all.filter Component.counted).map fun c => fullBank std s stats r b c).sum).sum).sum).sum +
  (SharedComponent.all.map fun c => fullShared s stats c).sum

/-- The parts of the energy of a bank that are a product of a difference of two currents of the specification (or of one current) and times:
neither the activation energy nor the background of active banks, and no burst or refresh whose background is computed from several currents. -/
def Direct (std : Std) (s : PowerSpec) : Component → Prop
  | .pre | .preRda | .preWra | .bgPre => True
  | .rd | .wr | .rda | .wra => std ≠ .lpddr6 ∧ ¬ (std = .lpddr5 ∧ s.arch = .mbg)
  | .refAb => std = .ddr4 ∨ std = .ddr5
  | .refPb => std ≠ .lpddr4 ∧ std ≠ .lpddr5
  | .refSb => std ≠ .ddr5
  | .ref2b => std ≠ .lpddr5
  | .refDb => std ≠ .lpddr6
  | .act | .bgAct => False

end DRAMPower.Spec
