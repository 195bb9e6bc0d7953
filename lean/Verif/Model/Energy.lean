import Verif.Model.Stats
import Verif.Model.Cli

/-!
# Core energy

Paths in comments are relative to `/repo/src/DRAMPower/DRAMPower/`; `core_calculation` stands for the five files
`standards/<s>/core_calculation_<S>.cpp`, line ranges are given in the order DDR4, DDR5, LPDDR4, LPDDR5, LPDDR6.

Simplifications: `double` is `Rat` (no rounding, no overflow). A division by zero is the outcome `.error`: for the integer
divisions it is undefined behaviour, for the floating point ones the result is infinite or not a number.
-/

namespace DRAMPower

/-- `energy_info_t` (data/energy.h 10-33). -/
@[ext] structure EnergyInfo where
  eAct : Rat := 0
  ePre : Rat := 0
  eBgAct : Rat := 0
  eBgPre : Rat := 0
  eRD : Rat := 0
  eWR : Rat := 0
  eRDA : Rat := 0
  eWRA : Rat := 0
  ePreRDA : Rat := 0
  ePreWRA : Rat := 0
  eRefAB : Rat := 0
  eRefPB : Rat := 0
  eRefSB : Rat := 0
  eRef2B : Rat := 0
  eRefDB : Rat := 0
deriving DecidableEq, Repr

/-- `energy_info_t::operator+=` (data/energy.cpp 50-71). -/
def EnergyInfo.add (a b : EnergyInfo) : EnergyInfo where
  eAct := a.eAct + b.eAct
  ePre := a.ePre + b.ePre
  eBgAct := a.eBgAct + b.eBgAct
  eBgPre := a.eBgPre + b.eBgPre
  eRD := a.eRD + b.eRD
  eWR := a.eWR + b.eWR
  eRDA := a.eRDA + b.eRDA
  eWRA := a.eWRA + b.eWRA
  ePreRDA := a.ePreRDA + b.ePreRDA
  ePreWRA := a.ePreWRA + b.ePreWRA
  eRefAB := a.eRefAB + b.eRefAB
  eRefPB := a.eRefPB + b.eRefPB
  eRefSB := a.eRefSB + b.eRefSB
  eRef2B := a.eRef2B + b.eRef2B
  eRefDB := a.eRefDB + b.eRefDB

/-- `energy_info_t::total` (data/energy.cpp 5-27): `E_pre_RDA` and `E_pre_WRA` are commented out. -/
def EnergyInfo.total (e : EnergyInfo) : Rat :=
  e.eAct + e.ePre + e.eBgAct + e.eBgPre + e.eRD + e.eWR + e.eRDA + e.eWRA + e.eRefAB + e.eRefPB + e.eRefSB + e.eRef2B + e.eRefDB

/-- The members of `energy_t` other than the bank energies (data/energy.h 47-52). -/
@[ext] structure SharedEnergy where
  bgActShared : Rat := 0
  pdnA : Rat := 0
  pdnP : Rat := 0
  sref : Rat := 0
  dsm : Rat := 0
  refab : Rat := 0
deriving DecidableEq, Repr

/-- The `+=` on these members at the end of every rank (core_calculation 112-117, 125-130, 122-127, 143-148, 126-131). -/
def SharedEnergy.add (a b : SharedEnergy) : SharedEnergy where
  bgActShared := a.bgActShared + b.bgActShared
  pdnA := a.pdnA + b.pdnA
  pdnP := a.pdnP + b.pdnP
  sref := a.sref + b.sref
  dsm := a.dsm + b.dsm
  refab := a.refab + b.refab

/-- `energy_t` (data/energy.h 35-57). -/
structure Energy where
  bank : List EnergyInfo
  shared : SharedEnergy := {}
deriving DecidableEq, Repr

/-- Sum of the bank energies: the loop in `energy_t::total` and `aggregated_bank_energy` (data/energy.cpp 77-79, 118-121). -/
def Energy.bankSum (e : Energy) : EnergyInfo := e.bank.foldl EnergyInfo.add {}

/-- `energy_t::total` (data/energy.cpp 73-84). -/
def Energy.total (e : Energy) : Rat :=
  0 + (e.bankSum.total + e.shared.bgActShared + e.shared.pdnA + e.shared.pdnP + e.shared.sref + e.shared.dsm + e.shared.refab)

/-- `energy_t::aggregated_bank_energy` (data/energy.cpp 116-126). -/
def Energy.aggregated (e : Energy) : EnergyInfo :=
  { e.bankSum with eBgAct := e.bankSum.eBgAct + e.shared.bgActShared }

/-- `interface_energy_t` (data/energy.h 59-62). -/
structure InterfaceEnergy where
  dynamic : Rat := 0
  static : Rat := 0
deriving DecidableEq, Repr

/-- `interface_energy_t::operator+=` (data/energy.h 64-68). -/
def InterfaceEnergy.add (a b : InterfaceEnergy) : InterfaceEnergy := { dynamic := a.dynamic + b.dynamic, static := a.static + b.static }

/-- `interface_energy_info_t` (data/energy.h 78-81). -/
structure InterfaceInfo where
  controller : InterfaceEnergy := {}
  dram : InterfaceEnergy := {}
deriving DecidableEq, Repr

/-- `interface_energy_info_t::operator+=` (data/energy.h 87-91). -/
def InterfaceInfo.add (a b : InterfaceInfo) : InterfaceInfo :=
  { controller := a.controller.add b.controller, dram := a.dram.add b.dram }

/-- `interface_energy_info_t::total` (data/energy.h 83-85). -/
def InterfaceInfo.total (e : InterfaceInfo) : Rat := e.controller.dynamic + e.controller.static + e.dram.dynamic + e.dram.static

/-- The currents of one voltage domain (core_calculation 57-67, 68-79, 63-74, 69-81, 65-77): `i5x` is `iXX5X`/`iDD5X`, `i5c` is
`iXX5C`, `i5pb` is `iDD5PBX`/`iDD5PDBX`, `i6n` is `iXX6N`/`iDD6X`. -/
structure Domain where
  v : Rat
  i0 : Rat
  i2n : Rat
  i3n : Rat
  i2p : Rat
  i3p : Rat
  i4r : Rat
  i4w : Rat
  i5x : Rat
  i5c : Rat
  i5pb : Rat
  i6n : Rat
  i6ds : Rat
  iBeta : Rat
deriving DecidableEq, Repr

/-- The part of the memory specification the calculation reads (core_calculation 44-52, 53-63, 48-58, 53-64, 49-60). `tRFC` is
`tRFCAB` for LPDDR6, `tRFCpb` is `tRFCsb` for DDR5, `tRFCPB` for LPDDR4 and LPDDR5, `tRFCDB` for LPDDR6. -/
structure PowerSpec where
  tCK : Rat
  tWCK : Rat
  tRAS : Nat
  tRP : Nat
  tRFC : Nat
  tRFCpb : Nat
  tREFI : Nat
  rho : Rat
  burstLength : Nat
  dataRate : Nat
  banks : Nat
  bankGroups : Nat
  ranks : Nat
  devices : Nat
  arch : BankArch
  domains : List Domain
deriving DecidableEq, Repr

/-- `E_BG_pre` (core_calculation 9-11, 11-13, 19-21, 20-22, 19-21). -/
def E_BG_pre (B : Nat) (V I2N T : Rat) : Rat := (1 / (B : Rat)) * V * I2N * T

/-- `E_BG_act_shared` (core_calculation 13-15, 15-17, 27-29, 28-30, 27-29). -/
def E_BG_act_shared (V Irho T : Rat) : Rat := V * Irho * T

/-- `E_BG_act_star` (core_calculation 17-19, 19-22, 23-25, 24-26, 23-25). -/
def E_BG_act_star (V I1 Irho T : Rat) : Rat := V * (I1 - Irho) * T

/-- `E_pre` (core_calculation 21-23, 24-26, 11-13, 12-14, 11-13). -/
def E_pre (V IBeta I2N tRP : Rat) (n : Nat) : Rat := V * (IBeta - I2N) * tRP * (n : Rat)

/-- `E_act` (core_calculation 25-27, 28-30, 15-17, 16-18, 15-17). -/
def E_act (V Itheta I1 tRAS : Rat) (n : Nat) : Rat := V * (Itheta - I1) * tRAS * (n : Rat)

/-- `E_RD` of DDR4 and DDR5 (core_calculation 29-31, 32-35): the burst time is a floating point division. -/
def E_RD_ddr (V I4R IB tCK : Rat) (BL DR : Nat) (n : Nat) : Rat := V * (I4R - IB) * ((BL : Rat) / (DR : Rat)) * tCK * (n : Rat)

/-- `E_WR` of all standards and `E_RD` of the LPDDR standards (core_calculation 33-35, 37-40, 31-37, 32-38, 31-37): the burst time
is an integer division. -/
def E_burst (V I4 Ibg tCK : Rat) (BL DR : Nat) (n : Nat) : Rat := V * (I4 - Ibg) * ((BL / DR : Nat) : Rat) * tCK * (n : Rat)

/-- `E_ref_ab` (core_calculation 37-39, 42-45, 39-41, 40-42, 39-41). -/
def E_ref_ab (B : Nat) (V I5 IB tRFC : Rat) (n : Nat) : Rat := (1 / (B : Rat)) * V * (I5 - IB) * tRFC * (n : Rat)

/-- `E_ref_sb` (DDR5: core_calculation 47-50). -/
def E_ref_sb (V I5C IBG tRFCsb : Rat) (BG : Nat) (n : Nat) : Rat := V * (I5C - IBG) * tRFCsb * (n : Rat) * (1 / (BG : Rat))

/-- `E_ref_pb` (LPDDR4: core_calculation 43-45; LPDDR5: 44-46). -/
def E_ref_pb (V I5PB I1 tRFCPB : Rat) (n : Nat) : Rat := V * (I5PB - I1) * tRFCPB * (n : Rat)

/-- `E_ref_p2b` (LPDDR5: core_calculation 48-50) and `E_ref_db` (LPDDR6: 43-46). -/
def E_ref_half (V I5 I2 tRFC : Rat) (n : Nat) : Rat := (1 / 2) * V * (I5 - I2) * tRFC * (n : Rat)

namespace PowerSpec

/-- `t_RAS` (core_calculation 45, 54, 49, 55, 51). -/
def t_RAS (s : PowerSpec) : Rat := (s.tRAS : Rat) * s.tCK
/-- `t_RP` (core_calculation 46, 55, 50, 56, 52). -/
def t_RP (s : PowerSpec) : Rat := (s.tRP : Rat) * s.tCK
/-- `t_RFC` (core_calculation 47, 56, 51, 57, 53). -/
def t_RFC (s : PowerSpec) : Rat := (s.tRFC : Rat) * s.tCK
/-- `t_RFCsb`, `t_RFCPB`, `t_RFCDB` (core_calculation -, 57, 52, 58, 54). -/
def t_RFCpb (s : PowerSpec) : Rat := (s.tRFCpb : Rat) * s.tCK
/-- `t_REFI` (core_calculation -, -, 53, 59, 55). -/
def t_REFI (s : PowerSpec) : Rat := (s.tREFI : Rat) * s.tCK

/-- `I_rho`: DDR4 69, DDR5 81; LPDDR4 76-78, LPDDR5 83-85, LPDDR6 79-81. -/
def I_rho (std : Std) (s : PowerSpec) (d : Domain) : Rat :=
  match std with
  | .ddr4 | .ddr5 => s.rho * (d.i3n - d.i2n) + d.i2n
  | .lpddr4 | .lpddr5 | .lpddr6 =>
    let t1 := (s.banks : Rat) * s.rho
    let t2 := 1 - s.rho
    (t1 * d.i3n + t2 * d.i2n) / (t1 + t2)

/-- `I_theta` (core_calculation 70, 82, 79, 88, 84). -/
def I_theta (s : PowerSpec) (d : Domain) : Rat := (d.i0 * (s.t_RP + s.t_RAS) - d.iBeta * s.t_RP) * (1 / s.t_RAS)

/-- `I_1`: DDR4 71, DDR5 83 (`B - 1` is not evaluated for `B = 0`, that case being an error before); LPDDR4 66, LPDDR5 72,
LPDDR6 68. -/
def I_1 (std : Std) (s : PowerSpec) (d : Domain) : Rat :=
  match std with
  | .ddr4 | .ddr5 => (1 / (s.banks : Rat)) * (d.i3n + ((s.banks - 1 : Nat) : Rat) * s.I_rho std d)
  | .lpddr4 | .lpddr5 | .lpddr6 => d.i3n

/-- `I_B`: DDR4 60, DDR5 71; LPDDR4 82, LPDDR5 86, LPDDR6 82. -/
def I_B (std : Std) (s : PowerSpec) (d : Domain) : Rat :=
  match std with
  | .ddr4 | .ddr5 => d.i3n
  | .lpddr4 | .lpddr5 | .lpddr6 => s.I_rho std d + (s.banks : Rat) * (s.I_1 std d - s.I_rho std d)

/-- `I_2` (LPDDR5 87, LPDDR6 83). -/
def I_2 (std : Std) (s : PowerSpec) (d : Domain) : Rat := s.I_1 std d + (s.I_1 std d - s.I_rho std d)

/-- `I_BG` (DDR5 84). -/
def I_BG (std : Std) (s : PowerSpec) (d : Domain) : Rat := s.I_rho std d + (s.I_1 std d - s.I_rho std d) * (s.bankGroups : Rat)

/-- `IDD5PB_B`, `IDD5PDB_B` (LPDDR4 80-81, LPDDR5 89-90, LPDDR6 85-86). -/
def I5PB_B (s : PowerSpec) (d : Domain) : Rat :=
  (d.i5pb * (s.t_REFI / 8) - d.i2n * ((s.t_REFI / 8) - s.t_RFCpb)) * (1 / s.t_RFCpb)

/-- The background current subtracted from the burst currents: DDR4 and DDR5 `I_B`, LPDDR4 `I_1`, LPDDR5 `I_2` or `I_1`, LPDDR6
`I_2` (core_calculation 95-102, 106-113, 103-110, 111-129, 107-114). -/
def I_burst (std : Std) (s : PowerSpec) (d : Domain) : Rat :=
  match std with
  | .ddr4 | .ddr5 => s.I_B std d
  | .lpddr4 => s.I_1 std d
  | .lpddr5 => if s.arch = .mbg then s.I_2 std d else s.I_1 std d
  | .lpddr6 => s.I_2 std d

/-- The clock period of a burst: `t_CK`, for LPDDR5 and LPDDR6 `t_WCK` (same lines). -/
def tBurst (std : Std) (s : PowerSpec) : Rat :=
  match std with
  | .lpddr5 | .lpddr6 => s.tWCK
  | _ => s.tCK

/-- `E_RD` as called for `n` reads (same lines). -/
def eRead (std : Std) (s : PowerSpec) (d : Domain) (n : Nat) : Rat :=
  match std with
  | .ddr4 | .ddr5 => E_RD_ddr d.v d.i4r (s.I_burst std d) s.tCK s.burstLength s.dataRate n
  | _ => E_burst d.v d.i4r (s.I_burst std d) (s.tBurst std) s.burstLength s.dataRate n

/-- `E_WR` as called for `n` writes (same lines). -/
def eWrite (std : Std) (s : PowerSpec) (d : Domain) (n : Nat) : Rat :=
  E_burst d.v d.i4w (s.I_burst std d) (s.tBurst std) s.burstLength s.dataRate n

/-- The per-bank refreshes (LPDDR4: core_calculation 117-118; LPDDR5: 136-137). -/
def eRefPerBank (std : Std) (s : PowerSpec) (d : Domain) (n : Nat) : Rat :=
  match std with
  | .lpddr4 | .lpddr5 => E_ref_pb d.v (s.I5PB_B d) (s.I_1 std d) s.t_RFCpb n
  | _ => 0

/-- The same-bank refreshes (DDR5: core_calculation 120-121). -/
def eRefSame (std : Std) (s : PowerSpec) (d : Domain) (n : Nat) : Rat :=
  match std with
  | .ddr5 => E_ref_sb d.v d.i5c (s.I_BG std d) s.t_RFCpb s.bankGroups n
  | _ => 0

/-- The per-two-bank refreshes (LPDDR5: core_calculation 138-139). -/
def eRefTwo (std : Std) (s : PowerSpec) (d : Domain) (n : Nat) : Rat :=
  match std with
  | .lpddr5 => E_ref_half d.v (s.I5PB_B d) (s.I_2 std d) s.t_RFCpb n
  | _ => 0

/-- The dual-bank refreshes (LPDDR6: core_calculation 121-122). -/
def eRefDual (std : Std) (s : PowerSpec) (d : Domain) (n : Nat) : Rat :=
  match std with
  | .lpddr6 => E_ref_half d.v (s.I5PB_B d) (s.I_2 std d) s.t_RFCpb n
  | _ => 0

/-- What one voltage domain adds to the energy of a bank (core_calculation 86-108, 97-121, 94-118, 102-139, 98-122). -/
def bankEnergy (std : Std) (s : PowerSpec) (d : Domain) (bank rank : CycleStats) : EnergyInfo where
  eAct := E_act d.v (s.I_theta d) (s.I_1 std d) s.t_RAS bank.counter.act
  ePre := E_pre d.v d.iBeta d.i2n s.t_RP bank.counter.pre
  eBgAct := E_BG_act_star d.v (s.I_1 std d) (s.I_rho std d) ((bank.cycles.act : Rat) * s.tCK)
  eBgPre := E_BG_pre s.banks d.v d.i2n ((rank.cycles.pre : Rat) * s.tCK)
  eRD := s.eRead std d bank.counter.reads
  eWR := s.eWrite std d bank.counter.writes
  eRDA := s.eRead std d bank.counter.readAuto
  eWRA := s.eWrite std d bank.counter.writeAuto
  ePreRDA := E_pre d.v d.iBeta d.i2n s.t_RP bank.counter.readAuto
  ePreWRA := E_pre d.v d.iBeta d.i2n s.t_RP bank.counter.writeAuto
  eRefAB := E_ref_ab s.banks d.v d.i5x (s.I_B std d) s.t_RFC bank.counter.refAllBank
  eRefPB := s.eRefPerBank std d bank.counter.refPerBank
  eRefSB := s.eRefSame std d bank.counter.refSameBank
  eRef2B := s.eRefTwo std d bank.counter.refPerTwoBanks
  eRefDB := s.eRefDual std d bank.counter.refDualBanks

/-- `E_dsm` of a rank (LPDDR5: core_calculation 146; LPDDR6: 129). -/
def eDsm (std : Std) (s : PowerSpec) (d : Domain) (n : Nat) : Rat :=
  match std with
  | .lpddr5 | .lpddr6 => d.v * d.i6ds * (n : Rat) * s.tCK * (s.devices : Rat)
  | _ => 0

/-- What one voltage domain adds to the shared energies for a rank (core_calculation 112-117, 125-130, 122-127, 143-148,
126-131). -/
def rankEnergy (std : Std) (s : PowerSpec) (d : Domain) (rank : CycleStats) : SharedEnergy where
  sref := d.v * d.i6n * (rank.cycles.selfRefresh : Rat) * s.tCK * (s.devices : Rat)
  pdnA := d.v * d.i3p * (rank.cycles.powerDownAct : Rat) * s.tCK * (s.devices : Rat)
  pdnP := d.v * d.i2p * (rank.cycles.powerDownPre : Rat) * s.tCK * (s.devices : Rat)
  dsm := s.eDsm std d rank.cycles.deepSleepMode
  bgActShared := E_BG_act_shared d.v (s.I_rho std d) ((rank.cycles.act : Rat) * s.tCK) * (s.devices : Rat)

/-- `energy_offset + b` (core_calculation 78-79, 90-91, 88-89, 96-97, 92-93). -/
def energyIndex (s : PowerSpec) (r d b : Nat) : Nat := r * s.devices * s.banks + d * s.banks + b

/-- `stats.bank[bank_offset + b]` (core_calculation 82-84, 92-95, 90-92, 98-100, 94-96). -/
def statsIndex (s : PowerSpec) (r b : Nat) : Nat := r * s.banks + b

/-- The divisors of the formulas. -/
def divisors (std : Std) (s : PowerSpec) : List Rat :=
  (s.banks : Rat) :: (s.dataRate : Rat) :: s.t_RAS ::
  match std with
  | .ddr4 => []
  | .ddr5 => [(s.bankGroups : Rat)]
  | .lpddr4 | .lpddr5 | .lpddr6 => [s.t_RFCpb, (s.banks : Rat) * s.rho + (1 - s.rho)]

/-- The loop over the banks of a device (core_calculation 83-109, 94-122, 91-119, 99-140, 95-123). -/
def bankLoop (std : Std) (s : PowerSpec) (dom : Domain) (stats : SimStats) (r d : Nat) (l : List EnergyInfo) : List EnergyInfo :=
  (List.range s.banks).foldl (fun l b => l.modify (s.energyIndex r d b) fun e =>
    e.add (s.bankEnergy std dom (stats.bank.getD (s.statsIndex r b) {}) (stats.rankTotal.getD r {}))) l

/-- The body of the loop over the ranks (core_calculation 75-118, 88-131, 86-128, 94-149, 90-132). -/
def rankStep (std : Std) (s : PowerSpec) (dom : Domain) (stats : SimStats) (e : Energy) (r : Nat) : Energy where
  bank := (List.range s.devices).foldl (fun l d => s.bankLoop std dom stats r d l) e.bank
  shared := e.shared.add (s.rankEnergy std dom (stats.rankTotal.getD r {}))

/-- `calcEnergy` (core_calculation 41-122, 52-135, 47-132, 52-153, 48-136). -/
def calcEnergy (std : Std) (s : PowerSpec) (stats : SimStats) : Except Err Energy :=
  if 0 ∈ s.divisors std then .error (.ub "division by zero")
  else if stats.bank.length < s.ranks * s.banks ∨ stats.rankTotal.length < s.ranks then .error (.ub "index out of range")
  else .ok (s.domains.foldl (fun e dom => (List.range s.ranks).foldl (s.rankStep std dom stats) e)
    { bank := List.replicate (s.banks * s.ranks * s.devices) {} })

end PowerSpec

end DRAMPower
