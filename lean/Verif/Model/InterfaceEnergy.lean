import Verif.Model.Energy

/-!
# Interface energy

Paths in comments are relative to `/repo/src/DRAMPower/DRAMPower/`; `calculation` stands for the five files
`standards/<s>/interface_calculation_<S>.cpp`, line ranges are given in the order DDR4, DDR5, LPDDR4, LPDDR5, LPDDR6 (`-` if the
standard has no such function).

Simplifications: `double` is `Rat` (no rounding, no overflow). A division by zero is the outcome `.error`, the result of the code is
infinite or not a number. The parts are added up in the order of DDR4 for all standards (without rounding the order is immaterial;
`Model/RoundedInterface` has the orders of the code).
-/

namespace DRAMPower

/-- The three entries `x_termination`, `x_R_eq`, `x_dyn_E` of a group of wires in `MemImpedanceSpec` (DRAMUtils; used throughout the
files `calculation`). -/
structure Wiring where
  termination : Bool := false
  rEq : Rat := 1
  dynE : Rat := 0
deriving DecidableEq, Repr

/-- `MemImpedanceSpec` (memspec/MemSpecDDR4.h 53 and the same of the other standards): a standard reads the entries of the wires it
has. -/
structure Impedances where
  ck : Wiring := {}
  wck : Wiring := {}
  ca : Wiring := {}
  rdq : Wiring := {}
  wdq : Wiring := {}
  rdqs : Wiring := {}
  wdqs : Wiring := {}
  rdbi : Wiring := {}
  wdbi : Wiring := {}
deriving DecidableEq, Repr

/-- The entries of `MemSpecDDR4::PrePostamble` that are read (memspec/MemSpecDDR4.h 122-136). -/
structure Ambles where
  readZeroes : Rat := 0
  writeZeroes : Rat := 0
  readZeroesToOnes : Nat := 0
  writeZeroesToOnes : Nat := 0
deriving DecidableEq, Repr

/-- What the constructors copy out of the memory specification (calculation 23-28, 23-27, 5-10, 23-28, 22-27). -/
structure WireSpec where
  tCK : Rat
  tWCK : Rat := 0
  vddq : Rat
  dataRate : Nat
  /-- `dataRateSpec.dqsBusRate` (DDR5) -/
  dqsRate : Nat := 2
  bitWidth : Nat := 8
  ambles : Ambles := {}
  imp : Impedances
deriving DecidableEq, Repr

namespace WireSpec

/-- `calc_static_energy` (calculation 7-9, 6-8, 12-14, 6-8, 5-7): `N * V² / R * t`, in one of two orders. -/
def static (n r t v : Rat) : Rat := n * (v * v / r) * t

/-- The counted level: `zeroes` with a pull-up, `ones` with a pull-down (calculation 20, 19, 26, 20, 18). -/
def drained (std : Std) (b : BusStats) : Nat :=
  match std with
  | .ddr4 | .ddr5 => b.zeroes
  | _ => b.ones

/-- `calcStaticTermination` (calculation 15-21, 14-21, 20-27, 14-21, 13-20). -/
def termination (std : Std) (on : Bool) (b : BusStats) (r t : Rat) (rate : Nat) (v : Rat) : Except Err Rat :=
  if on = false then .ok 0
  else if r = 0 ∨ rate = 0 then .error (.exception "division by zero")
  else .ok (static (drained std b) r (t / rate) v)

/-- `calc_dynamic_energy` (calculation 11-13, 10-12, 16-18, 10-12, 9-11). -/
def dynamic (n : Nat) (e : Rat) : Rat := n * e

/-- The recurring pair of assignments `staticEnergy = calcStaticTermination(...)`, `dynamicEnergy = calc_dynamic_energy(...)`; `on` is
the first argument of the former. -/
def pair (std : Std) (s : WireSpec) (w : Wiring) (on : Bool) (b : BusStats) (t : Rat) (rate : Nat) : Except Err InterfaceEnergy := do
  let x ← termination std on b w.rEq t rate s.vddq
  pure { static := x, dynamic := dynamic b.zeroesToOnes w.dynE }

/-- `calcClockEnergy` (calculation 42-51, 45-54, 29-39, 48-62, 45-59). -/
def clockEnergy (std : Std) (s : WireSpec) (st : SimStats) : Except Err InterfaceInfo := do
  let ck ← s.pair std s.imp.ck s.imp.ck.termination st.clockStats s.tCK 2
  if std = .lpddr5 ∨ std = .lpddr6 then do
    let wck ← s.pair std s.imp.wck s.imp.wck.termination st.wClockStats s.tWCK 2
    pure { controller := ck.add wck }
  else pure { controller := ck }

/-- `calcCAEnergy` (calculation 155-165, 107-116, 57-65, 113-123, 110-120). -/
def caEnergy (std : Std) (s : WireSpec) (st : SimStats) : Except Err InterfaceInfo := do
  let ca ← s.pair std s.imp.ca s.imp.ca.termination st.commandBus s.tCK (if std = .lpddr5 ∨ std = .lpddr6 then 2 else 1)
  pure { controller := ca }

/-- `calcDQEnergy` (calculation 138-153, 89-105, 67-84, 95-111, 92-108). -/
def dqEnergy (std : Std) (s : WireSpec) (st : SimStats) : Except Err InterfaceInfo := do
  let dram ← s.pair std s.imp.rdq s.imp.rdq.termination st.readBus s.tCK s.dataRate
  let controller ← s.pair std s.imp.wdq s.imp.wdq.termination st.writeBus s.tCK s.dataRate
  pure { controller, dram }

/-- First argument of `calcStaticTermination` in `calcDQEnergyTogglingRate` (calculation 125 and 131, 76 and 82, 92 and 98, 82 and 88,
79 and 85): DDR5 passes the resistance, converted to `bool`. -/
def togglingFlag (std : Std) (w : Wiring) : Bool :=
  if std = .ddr5 then decide (w.rEq ≠ 0) else w.termination

/-- `calcDQEnergyTogglingRate` (calculation 119-136, 71-87, 86-103, 76-93, 73-90). -/
def togglingEnergy (std : Std) (s : WireSpec) (st : SimStats) : Except Err InterfaceInfo := do
  let controller ← s.pair std s.imp.wdq (togglingFlag std s.imp.wdq) st.togglingWrite s.tCK s.dataRate
  let dram ← s.pair std s.imp.rdq (togglingFlag std s.imp.rdq) st.togglingRead s.tCK s.dataRate
  pure { controller, dram }

/-- `calcDBIEnergy` (calculation 167-182, -, 119-134, 125-140, -). -/
def dbiEnergy (std : Std) (s : WireSpec) (st : SimStats) : Except Err InterfaceInfo := do
  let dram ← s.pair std s.imp.rdbi s.imp.rdbi.termination st.readDBI s.tCK s.dataRate
  let controller ← s.pair std s.imp.wdbi s.imp.wdbi.termination st.writeDBI s.tCK s.dataRate
  pure { controller, dram }

/-- `NumDQsPairs` (calculation_DDR4 57-59). -/
def pairs (s : WireSpec) : Nat := if s.bitWidth = 16 then 2 else 1

/-- `readcount`, `writecount` (calculation_DDR4 72-80). -/
def transferCount (st : SimStats) (read : Bool) : Nat :=
  (st.rankTotal.map fun r => if read then r.counter.reads + r.counter.readAuto else r.counter.writes + r.counter.writeAuto).sum

/-- `preposreadseamless`, `preposwriteseamless` (calculation_DDR4 72-85). -/
def seamlessCount (st : SimStats) (read : Bool) : Nat :=
  (st.rankTotal.map fun r => if read then r.prepos.readSeamless else r.prepos.writeSeamless).sum

/-- One of the two pre/postamble blocks (calculation_DDR4 88-101): the subtraction wraps; the product of the transitions is one of
64-bit integers, that of the zeroes one of doubles. -/
def ambleEnergy (s : WireSpec) (st : SimStats) (w : Wiring) (read : Bool) : Except Err InterfaceEnergy :=
  let count := usub (transferCount st read) (seamlessCount st read)
  let zeroes := if read then s.ambles.readZeroes else s.ambles.writeZeroes
  let rises := if read then s.ambles.readZeroesToOnes else s.ambles.writeZeroesToOnes
  if w.termination = false then .ok {}
  else if w.rEq = 0 then .error (.exception "division by zero")
  else .ok { static := static (s.pairs * zeroes * count) w.rEq s.tCK s.vddq
             dynamic := dynamic (s.pairs * rises * count % 2 ^ 64) w.dynE }

/-- `calcDQSEnergy` (calculation 53-117, 56-69, 41-55, 64-74, 61-71): the rate is `dqsBusRate` for DDR5, LPDDR5 and LPDDR6 have no write
strobe. -/
def dqsEnergy (std : Std) (s : WireSpec) (st : SimStats) : Except Err InterfaceInfo := do
  let rate := if std = .ddr5 then s.dqsRate else s.dataRate
  let dram ← s.pair std s.imp.rdqs s.imp.rdqs.termination st.readDQSStats s.tCK rate
  if std = .lpddr5 ∨ std = .lpddr6 then pure { dram }
  else do
    let controller ← s.pair std s.imp.wdqs s.imp.wdqs.termination st.writeDQSStats s.tCK rate
    if std = .ddr4 then do
      let w ← s.ambleEnergy st s.imp.wdqs false
      let r ← s.ambleEnergy st s.imp.rdqs true
      pure { controller := w.add controller, dram := r.add dram }
    else pure { controller, dram }

/-- `calculateEnergy` (calculation 30-40, 29-43, 105-117, 30-46, 29-43). -/
def calculateEnergy (std : Std) (s : WireSpec) (st : SimStats) : Except Err InterfaceInfo := do
  let clock ← s.clockEnergy std st
  let dqs ← s.dqsEnergy std st
  let toggling ← s.togglingEnergy std st
  let dq ← s.dqEnergy std st
  let ca ← s.caEnergy std st
  let r : InterfaceInfo := ((((({} : InterfaceInfo).add clock).add dqs).add toggling).add dq).add ca
  if std = .ddr5 ∨ std = .lpddr6 then pure r
  else do
    let dbi ← s.dbiEnergy std st
    pure (r.add dbi)

end WireSpec
end DRAMPower
