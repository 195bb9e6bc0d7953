import Verif.Model.SimulatorStats
import Verif.Spec.Signals

/-!
# Growing windows

When the window of a query grows, everything that has been counted stays counted.
-/

namespace DRAMPower.Spec

/-- No figure of the first is larger. -/
structure FiguresLe (a b : BusStats) : Prop where
  ones : a.ones ≤ b.ones
  zeroes : a.zeroes ≤ b.zeroes
  changes : a.bitChanges ≤ b.bitChanges
  falls : a.onesToZeroes ≤ b.onesToZeroes
  rises : a.zeroesToOnes ≤ b.zeroesToOnes

/-- No energy of the first is larger: static and dynamic energy of the controller and of the memory. -/
structure InterfaceLe (e f : InterfaceInfo) : Prop where
  controllerStatic : e.controller.static ≤ f.controller.static
  controllerDynamic : e.controller.dynamic ≤ f.controller.dynamic
  dramStatic : e.dram.static ≤ f.dram.static
  dramDynamic : e.dram.dynamic ≤ f.dram.dynamic

/-- In none of the two statistics more transfers are gapless than there are, the first has no more pre- and postambles, and the edges of the
second fit 64 bits. -/
def AmblesLe (s : WireSpec) (a b : SimStats) : Prop :=
  ∀ read, gaplessOf a read ≤ rankTransfers a read ∧ gaplessOf b read ≤ rankTransfers b read ∧
    rankTransfers a read - gaplessOf a read ≤ rankTransfers b read - gaplessOf b read ∧
    (if s.bitWidth = 16 then 2 else 1) * (if read then s.ambles.readZeroesToOnes else s.ambles.writeZeroesToOnes) *
      (rankTransfers b read - gaplessOf b read) < 2 ^ 64

end DRAMPower.Spec
