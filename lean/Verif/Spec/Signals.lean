import Verif.Model.InterfaceEnergy

/-!
# The signals of the memory interface

A table of the groups of wires: who drives them, which figures of the statistics belong to them, how long one counted level lasts.
Only the records (`SimStats`, `WireSpec`) are shared with the model.
-/

namespace DRAMPower.Spec

/-- The two ends of the interface. -/
inductive Side | controller | dram
deriving DecidableEq, Repr

/-- The groups of wires. A data bus has two sources of figures: transmitted payloads and toggling rates. -/
inductive Group
  | clock | dataClock | command | readStrobe | writeStrobe | readData | writeData | readRate | writeRate | readInv | writeInv
deriving DecidableEq, Repr

/-- The groups of a standard: LPDDR5 and LPDDR6 clock the written data with the data clock instead of a strobe; DDR5 and LPDDR6 have no
inversion pins. -/
def groups : Std → List Group
  | .ddr4 => [.clock, .command, .readStrobe, .writeStrobe, .readData, .writeData, .readRate, .writeRate, .readInv, .writeInv]
  | .ddr5 => [.clock, .command, .readStrobe, .writeStrobe, .readData, .writeData, .readRate, .writeRate]
  | .lpddr4 => [.clock, .command, .readStrobe, .writeStrobe, .readData, .writeData, .readRate, .writeRate, .readInv, .writeInv]
  | .lpddr5 => [.clock, .dataClock, .command, .readStrobe, .readData, .writeData, .readRate, .writeRate, .readInv, .writeInv]
  | .lpddr6 => [.clock, .dataClock, .command, .readStrobe, .readData, .writeData, .readRate, .writeRate]

namespace Group

/-- Reads are driven by the memory, everything else by the controller. -/
def side : Group → Side
  | .readStrobe | .readData | .readRate | .readInv => .dram
  | _ => .controller

/-- The figures of a group. -/
def figures (st : SimStats) : Group → BusStats
  | .clock => st.clockStats
  | .dataClock => st.wClockStats
  | .command => st.commandBus
  | .readStrobe => st.readDQSStats
  | .writeStrobe => st.writeDQSStats
  | .readData => st.readBus
  | .writeData => st.writeBus
  | .readRate => st.togglingRead
  | .writeRate => st.togglingWrite
  | .readInv => st.readDBI
  | .writeInv => st.writeDBI

/-- The electrical properties of a group. -/
def wiring (i : Impedances) : Group → Wiring
  | .clock => i.ck
  | .dataClock => i.wck
  | .command => i.ca
  | .readStrobe => i.rdqs
  | .writeStrobe => i.wdqs
  | .readData | .readRate => i.rdq
  | .writeData | .writeRate => i.wdq
  | .readInv => i.rdbi
  | .writeInv => i.wdbi

/-- Levels per period of the reference clock of the group: both halves of a clock, the command rate, the rate of data and strobes. -/
def rate (std : Std) (s : WireSpec) : Group → Nat
  | .clock | .dataClock => 2
  | .command => match std with
    | .lpddr5 | .lpddr6 => 2
    | _ => 1
  | .readStrobe | .writeStrobe => match std with
    | .ddr5 => s.dqsRate
    | _ => s.dataRate
  | _ => s.dataRate

/-- Period of the reference clock of a group. -/
def period (s : WireSpec) : Group → Rat
  | .dataClock => s.tWCK
  | _ => s.tCK

/-- The level at which the termination draws a current: low with a pull-up (DDR), high with a pull-down (LPDDR). -/
def lossy (std : Std) (b : BusStats) : Nat :=
  match std with
  | .ddr4 | .ddr5 => b.zeroes
  | .lpddr4 | .lpddr5 | .lpddr6 => b.ones

/-- Power of one terminated wire at the lossy level. -/
def power (s : WireSpec) (g : Group) : Rat := s.vddq * s.vddq / (g.wiring s.imp).rEq

/-- Static energy: power times the time spent at the lossy level. -/
def static (std : Std) (s : WireSpec) (st : SimStats) (g : Group) : Rat :=
  if (g.wiring s.imp).termination then g.power s * (lossy std (g.figures st) * (g.period s / g.rate std s)) else 0

/-- Dynamic energy: each rising edge takes the same energy. -/
def dynamic (s : WireSpec) (st : SimStats) (g : Group) : Rat := (g.wiring s.imp).dynE * (g.figures st).zeroesToOnes

/-- Nothing is divided by zero. -/
def Defined (std : Std) (s : WireSpec) (g : Group) : Prop :=
  (g.wiring s.imp).termination = true → (g.wiring s.imp).rEq ≠ 0 ∧ g.rate std s ≠ 0

end Group

/-- Sum over the groups a side drives. -/
def sideSum (std : Std) (d : Side) (f : Group → Rat) : Rat := (((groups std).filter fun g => g.side = d).map f).sum

/-- Number of transfers of a kind: those the banks have counted. -/
def transfersOf (st : SimStats) (read : Bool) : Nat :=
  (st.bank.map fun b => if read then b.counter.reads + b.counter.readAuto else b.counter.writes + b.counter.writeAuto).sum

/-- Number of transfers of a kind that follow their predecessor without a gap. -/
def gaplessOf (st : SimStats) (read : Bool) : Nat :=
  (st.rankTotal.map fun r => if read then r.prepos.readSeamless else r.prepos.writeSeamless).sum

/-- The pre- and postambles of the DDR4 strobes: one for every transfer that does not follow its predecessor without a gap, on each
strobe pair (two for 16 data wires). -/
def ambleCount (s : WireSpec) (st : SimStats) (read : Bool) : Nat :=
  (if s.bitWidth = 16 then 2 else 1) * (transfersOf st read - gaplessOf st read)

/-- Static energy of the ambles (DDR4 only). -/
def ambleStatic (std : Std) (s : WireSpec) (st : SimStats) (read : Bool) : Rat :=
  let w := if read then s.imp.rdqs else s.imp.wdqs
  let zeroes := if read then s.ambles.readZeroes else s.ambles.writeZeroes
  if std = .ddr4 ∧ w.termination then s.vddq * s.vddq / w.rEq * (ambleCount s st read * zeroes * s.tCK) else 0

/-- Dynamic energy of the ambles (DDR4 only, charged only if the strobe is terminated). -/
def ambleDynamic (std : Std) (s : WireSpec) (st : SimStats) (read : Bool) : Rat :=
  let w := if read then s.imp.rdqs else s.imp.wdqs
  let rises := if read then s.ambles.readZeroesToOnes else s.ambles.writeZeroesToOnes
  if std = .ddr4 ∧ w.termination then w.dynE * (ambleCount s st read * rises : Nat) else 0

/-- Interface energy as a sum over the signals. -/
def interfaceEnergy (std : Std) (s : WireSpec) (st : SimStats) : InterfaceInfo where
  controller :=
    { static := sideSum std .controller (Group.static std s st) + ambleStatic std s st false
      dynamic := sideSum std .controller (Group.dynamic s st) + ambleDynamic std s st false }
  dram :=
    { static := sideSum std .dram (Group.static std s st) + ambleStatic std s st true
      dynamic := sideSum std .dram (Group.dynamic s st) + ambleDynamic std s st true }

/-- No group divides by zero. -/
def EnergyDefined (std : Std) (s : WireSpec) : Prop := ∀ g ∈ groups std, g.Defined std s

/-- Number of transfers of a kind according to the counters of the ranks. -/
def rankTransfers (st : SimStats) (read : Bool) : Nat :=
  (st.rankTotal.map fun r => if read then r.counter.reads + r.counter.readAuto else r.counter.writes + r.counter.writeAuto).sum

/-- The transfer counters of the ranks are those of the banks, no more transfers are gapless than there are, and the number of edges
fits 64 bits. -/
def AmblesCounted (s : WireSpec) (st : SimStats) : Prop :=
  ∀ read, rankTransfers st read = transfersOf st read ∧ gaplessOf st read ≤ transfersOf st read ∧
    ambleCount s st read * (if read then s.ambles.readZeroesToOnes else s.ambles.writeZeroesToOnes) < 2 ^ 64

/-- The data wires are terminated, or have no resistance given, or no low levels come from toggling rates. -/
def RatesTerminated (s : WireSpec) (st : SimStats) : Prop :=
  ∀ g ∈ [Group.readRate, .writeRate], (g.wiring s.imp).termination = true ∨ (g.wiring s.imp).rEq = 0 ∨
    (s.dataRate ≠ 0 ∧ (g.figures st).zeroes = 0)

/-- No quantity of the specification is negative. -/
structure Physical (s : WireSpec) : Prop where
  tCK : 0 ≤ s.tCK
  tWCK : 0 ≤ s.tWCK
  ambles : 0 ≤ s.ambles.readZeroes ∧ 0 ≤ s.ambles.writeZeroes
  wires : ∀ g : Group, 0 ≤ (g.wiring s.imp).rEq ∧ 0 ≤ (g.wiring s.imp).dynE

/-- Neither of two statistics has more gapless transfers than transfers, the edges of both together fit 64 bits. -/
def SumRegular (s : WireSpec) (a b : SimStats) : Prop :=
  ∀ read, gaplessOf a read ≤ rankTransfers a read ∧ gaplessOf b read ≤ rankTransfers b read ∧
    (if s.bitWidth = 16 then 2 else 1) * (if read then s.ambles.readZeroesToOnes else s.ambles.writeZeroesToOnes) *
      (rankTransfers a read + rankTransfers b read) < 2 ^ 64

end DRAMPower.Spec
