import Verif.Spec.Signals

/-!
# Changes of the electrical specification of the interface
-/

namespace DRAMPower.Spec

/-- A change of all wires. -/
def everyWire (f : Wiring → Wiring) (i : Impedances) : Impedances where
  ck := f i.ck
  wck := f i.wck
  ca := f i.ca
  rdq := f i.rdq
  wdq := f i.wdq
  rdqs := f i.rdqs
  wdqs := f i.wdqs
  rdbi := f i.rdbi
  wdbi := f i.wdbi

/-- The supply voltage times `kv`, the clock periods times `kt`, all resistances times `kr`, all energies per rising edge times `ke`. -/
def scaleWires (kv kt kr ke : Rat) (s : WireSpec) : WireSpec :=
  { s with vddq := kv * s.vddq, tCK := kt * s.tCK, tWCK := kt * s.tWCK
           imp := everyWire (fun w => { w with rEq := kr * w.rEq, dynE := ke * w.dynE }) s.imp }

/-- `a` times the static and `b` times the dynamic energies. -/
def scaledInfo (a b : Rat) (e : InterfaceInfo) : InterfaceInfo where
  controller := { static := a * e.controller.static, dynamic := b * e.controller.dynamic }
  dram := { static := a * e.dram.static, dynamic := b * e.dram.dynamic }

/-- No wire is terminated. -/
def unterminated (s : WireSpec) : WireSpec := { s with imp := everyWire (fun w => { w with termination := false }) s.imp }

/-- Other wires for the reads. -/
def otherReads (x : Impedances) (s : WireSpec) : WireSpec := { s with imp := { s.imp with rdq := x.rdq, rdqs := x.rdqs, rdbi := x.rdbi } }

/-- Other wires for all but the reads. -/
def otherWrites (x : Impedances) (s : WireSpec) : WireSpec :=
  { s with imp := { s.imp with ck := x.ck, wck := x.wck, ca := x.ca, wdq := x.wdq, wdqs := x.wdqs, wdbi := x.wdbi } }

/-- No edges of pre- or postambles: all transfers are gapless according to the statistics, or ambles have no rising edges. -/
def NoAmbleEdges (s : WireSpec) (st : SimStats) : Prop :=
  ∀ read, rankTransfers st read = gaplessOf st read ∨ (if read then s.ambles.readZeroesToOnes else s.ambles.writeZeroesToOnes) = 0

end DRAMPower.Spec
