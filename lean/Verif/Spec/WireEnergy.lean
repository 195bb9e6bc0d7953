import Verif.Spec.TimeBase
import Verif.Spec.InversionPins
import Verif.Spec.Seamless

/-!
# What the wires of the interface do during a trace

The figures of all groups of wires, read off the list of calls. The interface is switched on all the time.
-/

namespace DRAMPower.Spec

/-- Figures of a clock that runs during bursts only: `rate` half-cycles per clock cycle from the beginning of a burst to its end. -/
def burstClock (dataRate rate : Nat) (l : List (Nat × Nat)) (t : Nat) : BusStats :=
  strobe rate (l.map fun b => (b.1, b.2 / dataRate * rate)) t

/-- The data bus of a direction, bit by bit, up to time `t`. -/
def payloadFigures (std : Std) (sp : IfSpec) (read : Bool) (ops : List IfOp) (t : Nat) : BusStats :=
  if sp.toggling = none then Line.stats (sp.bitWidth * sp.devices) (caIdleLevels std) (dataLine std sp read ops) (t * sp.dataRate) else {}

/-- The data bus of a direction when rates are given instead of payloads. -/
def rateFigures (std : Std) (sp : IfSpec) (read : Bool) (ops : List IfOp) (t : Nat) : BusStats :=
  match sp.toggling with
  | none => {}
  | some rates =>
    let r := if read then rates.1 else rates.2
    toggleStats (sp.bitWidth * sp.devices) r.togglingRate r.dutyCycle (r.idle == .H)
      ((busy sp.dataRate (bursts std sp read ops)).beats (some true) (t * sp.dataRate))
      ((busy sp.dataRate (bursts std sp read ops)).beats (some false) (t * sp.dataRate))

/-- The statistics of the wires a user may expect at time `t`, if the data clock has `wck` half-cycles per clock cycle: two clock wires that
always run, the data clock always or during bursts, the waveform of the command bus, a strobe half-cycle for each beat, the waveforms of
payloads and inversion flags; and for the pre- and postambles the number of transfers and of those that follow without a gap. -/
def expectedStats (std : Std) (sp : IfSpec) (wck : Nat) (ops : List IfOp) (t : Nat) : SimStats where
  clockStats := 2 * halfCycles (t * 2)
  wClockStats := 2 * (if sp.wckAlwaysOn then halfCycles (t * wck) else burstClock sp.dataRate wck (anyBursts std sp ops) t)
  commandBus := Line.stats (commandWires std) (caIdleLevels std) (caLine std sp ops) (t * commandRate std)
  readDQSStats := strobeWires std sp.bitWidth * strobe sp.dataRate (bursts std sp true ops) t
  writeDQSStats := strobeWires std sp.bitWidth * strobe sp.dataRate (bursts std sp false ops) t
  readBus := payloadFigures std sp true ops t
  writeBus := payloadFigures std sp false ops t
  togglingRead := rateFigures std sp true ops t
  togglingWrite := rateFigures std sp false ops t
  readDBI := markStats std sp (marked std sp true {} ops) (t * sp.dataRate) {}
  writeDBI := markStats std sp (marked std sp false {} ops) (t * sp.dataRate) {}
  bank := [{ counter := { reads := (bursts std sp true ops).length, writes := (bursts std sp false ops).length } }]
  rankTotal := (List.range sp.ranks).map fun r =>
    { prepos := { readSeamless := neighbours gapless (spans sp true r ops), writeSeamless := neighbours gapless (spans sp false r ops) } }

/-- The interface is on from the beginning and never switched off. -/
def AlwaysOn (sp : IfSpec) (ops : List IfOp) : Prop := sp.enabled = true ∧ ∀ t, .disable t ∉ ops

/-- All bursts take a whole number of clock cycles and have ended at time `t`. -/
def BurstsOver (std : Std) (sp : IfSpec) (ops : List IfOp) (t : Nat) : Prop :=
  ∀ b ∈ anyBursts std sp ops, sp.dataRate ∣ b.2 ∧ b.1 * sp.dataRate + b.2 ≤ t * sp.dataRate

/-- The ambles of a strobe take no energy. -/
def FreeAmbles (ws : WireSpec) : Prop :=
  (ws.imp.rdqs.termination = false ∨ ws.ambles.readZeroes = 0 ∧ ws.ambles.readZeroesToOnes = 0) ∧
  (ws.imp.wdqs.termination = false ∨ ws.ambles.writeZeroes = 0 ∧ ws.ambles.writeZeroesToOnes = 0)

end DRAMPower.Spec
