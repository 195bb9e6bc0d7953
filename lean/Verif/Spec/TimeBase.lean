import Verif.Spec.Signals
import Verif.Spec.Trace
import Verif.Props.C47

/-!
# One time base

Counting levels and charging energy for them are two parts of the simulator. Each counted level is charged for a share of a clock
period; for a wire that always has a level the shares must add up to the elapsed time.
-/

namespace DRAMPower.Spec

/-- Wires of a group. -/
def Group.wires (std : Std) (sp : IfSpec) : Group → Nat
  | .clock | .dataClock => 2
  | .command => commandWires std
  | .readStrobe | .writeStrobe => strobeWires std sp.bitWidth
  | .readData | .writeData | .readRate | .writeRate => sp.bitWidth * sp.devices
  | .readInv | .writeInv => sp.devices * sp.bitWidth / 8

/-- The time that is charged for the levels of a group. -/
def Group.charged (std : Std) (ws : WireSpec) (st : SimStats) (g : Group) : Rat :=
  (((g.figures st).ones + (g.figures st).zeroes : Nat) : Rat) * (g.period ws / g.rate std ws)

/-- Counting and charging are about the same memory: the rates are equal, the data clock has `wckToCk` cycles per clock cycle. -/
structure SameMemory (std : Std) (sp : IfSpec) (ws : WireSpec) : Prop where
  data : ws.dataRate = sp.dataRate
  strobe : std = .ddr5 → ws.dqsRate = sp.dqsRate
  wck : std = .lpddr5 ∨ std = .lpddr6 → ws.tCK = sp.wckToCk * ws.tWCK

/-- The groups whose wires have a level all the time: clocks unless they are stopped or run only during transfers, the command bus,
the data busses if they are simulated bit by bit, the inversion pins. -/
def Group.steady (sp : IfSpec) (ops : List IfOp) : Group → Prop
  | .clock => sp.enabled = true ∧ ∀ t, .disable t ∉ ops
  | .dataClock => (sp.enabled = true ∧ ∀ t, .disable t ∉ ops) ∧ sp.wckAlwaysOn = true
  | .command | .readInv | .writeInv => True
  | .readData | .writeData => sp.toggling = none
  | .readStrobe | .writeStrobe | .readRate | .writeRate => False

end DRAMPower.Spec
