import Verif.Model.Rounded
import Verif.Model.InterfaceEnergy

/-!
# Interface energy in floating point

The calculation of `Model/InterfaceEnergy` with every operation in the order the code does it and an arbitrary arithmetic in place of the
exact one. Paths as there: `calculation` stands for the five files `standards/<s>/interface_calculation_<S>.cpp`, line ranges in the order
DDR4, DDR5, LPDDR4, LPDDR5, LPDDR6.

Simplifications: those of `Model/Rounded`. The parts are evaluated in one order for all standards (what a part is does not depend on the
others); they are added up in the order of the code.
-/

namespace DRAMPower

namespace Arith

variable (A : Arith)

/-- `interface_energy_t::operator+=` (data/energy.h 64-68). -/
def addEnergy (a b : InterfaceEnergy) : InterfaceEnergy where
  dynamic := A.add a.dynamic b.dynamic
  static := A.add a.static b.static

/-- `interface_energy_info_t::operator+=` (data/energy.h 87-91). -/
def addInterface (a b : InterfaceInfo) : InterfaceInfo where
  controller := A.addEnergy a.controller b.controller
  dram := A.addEnergy a.dram b.dram

/-- `interface_energy_info_t::total` (data/energy.h 83-85). -/
def interfaceTotal (e : InterfaceInfo) : Rat := A.add (A.add (A.add e.controller.dynamic e.controller.static) e.dram.dynamic) e.dram.static

/-- `calc_static_energy` (calculation 7-9, 6-8, 12-14, 6-8, 5-7): DDR4 and LPDDR4 divide first, the others last. -/
def static (std : Std) (n r t v : Rat) : Rat :=
  match std with
  | .ddr4 | .lpddr4 => A.mul (A.mul n (A.div (A.mul v v) r)) t
  | .ddr5 | .lpddr5 | .lpddr6 => A.div (A.mul (A.mul n (A.mul v v)) t) r

/-- `calcStaticTermination` (calculation 15-21, 14-21, 20-27, 14-21, 13-20). -/
def termination (std : Std) (on : Bool) (b : BusStats) (r t : Rat) (rate : Nat) (v : Rat) : Except Err Rat :=
  if on = false then .ok 0
  else if r = 0 ∨ A.nat rate = 0 then .error (.exception "division by zero")
  else .ok (A.static std (A.nat (WireSpec.drained std b)) r (A.div t (A.nat rate)) v)

/-- `calc_dynamic_energy` (calculation 11-13, 10-12, 16-18, 10-12, 9-11). -/
def dynamic (n : Nat) (e : Rat) : Rat := A.mul (A.nat n) e

/-- The recurring pair of assignments. -/
def pair (std : Std) (s : WireSpec) (w : Wiring) (on : Bool) (b : BusStats) (t : Rat) (rate : Nat) : Except Err InterfaceEnergy := do
  let x ← A.termination std on b w.rEq t rate s.vddq
  pure { static := x, dynamic := A.dynamic b.zeroesToOnes w.dynE }

/-- The same with `+=` on zero. -/
def added (std : Std) (s : WireSpec) (w : Wiring) (on : Bool) (b : BusStats) (t : Rat) (rate : Nat) : Except Err InterfaceEnergy := do
  let x ← A.pair std s w on b t rate
  pure (A.addEnergy {} x)

/-- `calcClockEnergy` (calculation 42-51, 45-54, 29-39, 48-62, 45-59). -/
def clockEnergy (std : Std) (s : WireSpec) (st : SimStats) : Except Err InterfaceInfo := do
  let ck ← A.pair std s s.imp.ck s.imp.ck.termination st.clockStats s.tCK 2
  if std = .lpddr5 ∨ std = .lpddr6 then do
    let wck ← A.pair std s s.imp.wck s.imp.wck.termination st.wClockStats s.tWCK 2
    pure { controller := A.addEnergy ck wck }
  else pure { controller := ck }

/-- `calcCAEnergy` (calculation 155-165, 107-116, 57-65, 113-123, 110-120). -/
def caEnergy (std : Std) (s : WireSpec) (st : SimStats) : Except Err InterfaceInfo := do
  let ca ← A.pair std s s.imp.ca s.imp.ca.termination st.commandBus s.tCK (if std = .lpddr5 ∨ std = .lpddr6 then 2 else 1)
  pure { controller := ca }

/-- `calcDQEnergy` (calculation 138-153, 89-105, 67-84, 95-111, 92-108). -/
def dqEnergy (std : Std) (s : WireSpec) (st : SimStats) : Except Err InterfaceInfo := do
  let dram ← A.added std s s.imp.rdq s.imp.rdq.termination st.readBus s.tCK s.dataRate
  let controller ← A.added std s s.imp.wdq s.imp.wdq.termination st.writeBus s.tCK s.dataRate
  pure { controller, dram }

/-- `calcDQEnergyTogglingRate` (calculation 119-136, 71-87, 86-103, 76-93, 73-90). -/
def togglingEnergy (std : Std) (s : WireSpec) (st : SimStats) : Except Err InterfaceInfo := do
  let controller ← A.added std s s.imp.wdq (WireSpec.togglingFlag std s.imp.wdq) st.togglingWrite s.tCK s.dataRate
  let dram ← A.added std s s.imp.rdq (WireSpec.togglingFlag std s.imp.rdq) st.togglingRead s.tCK s.dataRate
  pure { controller, dram }

/-- `calcDBIEnergy` (calculation 167-182, -, 119-134, 125-140, -). -/
def dbiEnergy (std : Std) (s : WireSpec) (st : SimStats) : Except Err InterfaceInfo := do
  let dram ← A.added std s s.imp.rdbi s.imp.rdbi.termination st.readDBI s.tCK s.dataRate
  let controller ← A.added std s s.imp.wdbi s.imp.wdbi.termination st.writeDBI s.tCK s.dataRate
  pure { controller, dram }

/-- One of the two pre/postamble blocks (calculation_DDR4 88-101). -/
def ambleEnergy (s : WireSpec) (st : SimStats) (w : Wiring) (read : Bool) : Except Err InterfaceEnergy :=
  let count := usub (WireSpec.transferCount st read) (WireSpec.seamlessCount st read)
  let zeroes := if read then s.ambles.readZeroes else s.ambles.writeZeroes
  let rises := if read then s.ambles.readZeroesToOnes else s.ambles.writeZeroesToOnes
  if w.termination = false then .ok {}
  else if w.rEq = 0 then .error (.exception "division by zero")
  else .ok (A.addEnergy {}
    { static := A.static .ddr4 (A.mul (A.mul (A.nat s.pairs) zeroes) (A.nat count)) w.rEq s.tCK s.vddq
      dynamic := A.dynamic (s.pairs * rises * count % 2 ^ 64) w.dynE })

/-- `calcDQSEnergy` (calculation 53-117, 56-69, 41-55, 64-74, 61-71). -/
def dqsEnergy (std : Std) (s : WireSpec) (st : SimStats) : Except Err InterfaceInfo := do
  let rate := if std = .ddr5 then s.dqsRate else s.dataRate
  let dram ← A.pair std s s.imp.rdqs s.imp.rdqs.termination st.readDQSStats s.tCK rate
  if std = .lpddr5 ∨ std = .lpddr6 then pure { dram := A.addEnergy {} dram }
  else do
    let controller ← A.pair std s s.imp.wdqs s.imp.wdqs.termination st.writeDQSStats s.tCK rate
    if std = .ddr4 then do
      let w ← A.ambleEnergy s st s.imp.wdqs false
      let r ← A.ambleEnergy s st s.imp.rdqs true
      pure { controller := A.addEnergy w controller, dram := A.addEnergy r dram }
    else pure { controller := A.addEnergy {} controller, dram := A.addEnergy {} dram }

/-- `calculateEnergy` (calculation 30-40, 29-43, 105-117, 30-46, 29-43): DDR4 and LPDDR4 add the parts one after the other, the others
add the toggling rates to the data bus first. -/
def calculateEnergy (std : Std) (s : WireSpec) (st : SimStats) : Except Err InterfaceInfo := do
  let clock ← A.clockEnergy std s st
  let dqs ← A.dqsEnergy std s st
  let toggling ← A.togglingEnergy std s st
  let dq ← A.dqEnergy std s st
  let ca ← A.caEnergy std s st
  let r := A.addInterface (A.addInterface {} clock) dqs
  let r := if std = .ddr4 ∨ std = .lpddr4 then A.addInterface (A.addInterface (A.addInterface r toggling) dq) ca
    else A.addInterface (A.addInterface r ca) (A.addInterface dq toggling)
  if std = .ddr5 ∨ std = .lpddr6 then pure r
  else do
    let dbi ← A.dbiEnergy std s st
    pure (A.addInterface r dbi)

end Arith
end DRAMPower
