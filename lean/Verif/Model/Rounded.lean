import Verif.Model.Energy

/-!
# Core energy in floating point

The calculation of `Model/Energy` with every operation in the order the code does it and an arbitrary arithmetic in place of the exact one.
Paths as there: `core_calculation` stands for the five files `standards/<s>/core_calculation_<S>.cpp`, line ranges in the order DDR4, DDR5,
LPDDR4, LPDDR5, LPDDR6.

Simplifications: the exponent of a `double` is not bounded (no overflow, no denormal numbers); every operation is rounded on its own (no
contraction to a fused multiplication and addition, no extended precision). Constants and the numbers of the specification are numbers
the format can represent. `+=` on a part the standard does not charge adds zero.
-/

namespace DRAMPower

/-- The operations on `double`, and the conversion of an unsigned integer to `double`. -/
structure Arith where
  add : Rat → Rat → Rat
  sub : Rat → Rat → Rat
  mul : Rat → Rat → Rat
  div : Rat → Rat → Rat
  nat : Nat → Rat

namespace Arith

/-- Without rounding. -/
def exact : Arith where
  add a b := a + b
  sub a b := a - b
  mul a b := a * b
  div a b := a / b
  nat n := n

/-- Every result rounded with `fl`. -/
def rounded (fl : Rat → Rat) : Arith where
  add a b := fl (a + b)
  sub a b := fl (a - b)
  mul a b := fl (a * b)
  div a b := fl (a / b)
  nat n := fl n

variable (A : Arith)

/-- `energy_info_t::operator+=` (data/energy.cpp 50-71), and the `+=` on the parts of a bank in `calcEnergy`. -/
def addInfo (a b : EnergyInfo) : EnergyInfo where
  eAct := A.add a.eAct b.eAct
  ePre := A.add a.ePre b.ePre
  eBgAct := A.add a.eBgAct b.eBgAct
  eBgPre := A.add a.eBgPre b.eBgPre
  eRD := A.add a.eRD b.eRD
  eWR := A.add a.eWR b.eWR
  eRDA := A.add a.eRDA b.eRDA
  eWRA := A.add a.eWRA b.eWRA
  ePreRDA := A.add a.ePreRDA b.ePreRDA
  ePreWRA := A.add a.ePreWRA b.ePreWRA
  eRefAB := A.add a.eRefAB b.eRefAB
  eRefPB := A.add a.eRefPB b.eRefPB
  eRefSB := A.add a.eRefSB b.eRefSB
  eRef2B := A.add a.eRef2B b.eRef2B
  eRefDB := A.add a.eRefDB b.eRefDB

/-- The `+=` on the shared parts (core_calculation 112-117, 125-130, 122-127, 143-148, 126-131). -/
def addShared (a b : SharedEnergy) : SharedEnergy where
  bgActShared := A.add a.bgActShared b.bgActShared
  pdnA := A.add a.pdnA b.pdnA
  pdnP := A.add a.pdnP b.pdnP
  sref := A.add a.sref b.sref
  dsm := A.add a.dsm b.dsm
  refab := A.add a.refab b.refab

/-- `energy_info_t::total` (data/energy.cpp 5-27). -/
def totalInfo (e : EnergyInfo) : Rat :=
  A.add (A.add (A.add (A.add (A.add (A.add (A.add (A.add (A.add (A.add (A.add (A.add e.eAct e.ePre) e.eBgAct) e.eBgPre) e.eRD) e.eWR) e.eRDA)
    e.eWRA) e.eRefAB) e.eRefPB) e.eRefSB) e.eRef2B) e.eRefDB

/-- `energy_t::total` (data/energy.cpp 73-84). -/
def total (e : Energy) : Rat :=
  A.add 0 (A.add (A.add (A.add (A.add (A.add (A.add (A.totalInfo (e.bank.foldl A.addInfo {})) e.shared.bgActShared) e.shared.pdnA) e.shared.pdnP)
    e.shared.sref) e.shared.dsm) e.shared.refab)

/-- `E_BG_pre` (core_calculation 9-11, 11-13, 19-21, 20-22, 19-21). -/
def E_BG_pre (B : Nat) (V I2N T : Rat) : Rat := A.mul (A.mul (A.mul (A.div 1 (A.nat B)) V) I2N) T

/-- `E_BG_act_shared` (core_calculation 13-15, 15-17, 27-29, 28-30, 27-29). -/
def E_BG_act_shared (V Irho T : Rat) : Rat := A.mul (A.mul V Irho) T

/-- `E_BG_act_star` (core_calculation 17-19, 19-22, 23-25, 24-26, 23-25). -/
def E_BG_act_star (V I1 Irho T : Rat) : Rat := A.mul (A.mul V (A.sub I1 Irho)) T

/-- `E_pre` (core_calculation 21-23, 24-26, 11-13, 12-14, 11-13). -/
def E_pre (V IBeta I2N tRP : Rat) (n : Nat) : Rat := A.mul (A.mul (A.mul V (A.sub IBeta I2N)) tRP) (A.nat n)

/-- `E_act` (core_calculation 25-27, 28-30, 15-17, 16-18, 15-17). -/
def E_act (V Itheta I1 tRAS : Rat) (n : Nat) : Rat := A.mul (A.mul (A.mul V (A.sub Itheta I1)) tRAS) (A.nat n)

/-- `E_RD` of DDR4 and DDR5 (core_calculation 29-31, 32-35). -/
def E_RD_ddr (V I4R IB tCK : Rat) (BL DR : Nat) (n : Nat) : Rat :=
  A.mul (A.mul (A.mul (A.mul V (A.sub I4R IB)) (A.div (A.nat BL) (A.nat DR))) tCK) (A.nat n)

/-- `E_WR` of all standards and `E_RD` of the LPDDR standards (core_calculation 33-35, 37-40, 31-37, 32-38, 31-37). -/
def E_burst (V I4 Ibg tCK : Rat) (BL DR : Nat) (n : Nat) : Rat :=
  A.mul (A.mul (A.mul (A.mul V (A.sub I4 Ibg)) (A.nat (BL / DR))) tCK) (A.nat n)

/-- `E_ref_ab` (core_calculation 37-39, 42-45, 39-41, 40-42, 39-41). -/
def E_ref_ab (B : Nat) (V I5 IB tRFC : Rat) (n : Nat) : Rat :=
  A.mul (A.mul (A.mul (A.mul (A.div 1 (A.nat B)) V) (A.sub I5 IB)) tRFC) (A.nat n)

/-- `E_ref_sb` (DDR5: core_calculation 47-50). -/
def E_ref_sb (V I5C IBG tRFCsb : Rat) (BG : Nat) (n : Nat) : Rat :=
  A.mul (A.mul (A.mul (A.mul V (A.sub I5C IBG)) tRFCsb) (A.nat n)) (A.div 1 (A.nat BG))

/-- `E_ref_pb` (LPDDR4: core_calculation 43-45; LPDDR5: 44-46). -/
def E_ref_pb (V I5PB I1 tRFCPB : Rat) (n : Nat) : Rat := A.mul (A.mul (A.mul V (A.sub I5PB I1)) tRFCPB) (A.nat n)

/-- `E_ref_p2b` (LPDDR5: core_calculation 48-50) and `E_ref_db` (LPDDR6: 43-46). -/
def E_ref_half (V I5 I2 tRFC : Rat) (n : Nat) : Rat := A.mul (A.mul (A.mul (A.mul (1 / 2) V) (A.sub I5 I2)) tRFC) (A.nat n)

/-- `tRAS * t_CK` and the other durations (core_calculation 45-47, 54-57, 49-53, 55-59, 51-55). -/
def duration (s : PowerSpec) (n : Nat) : Rat := A.mul (A.nat n) s.tCK

/-- `t1` and `t2` (LPDDR4 76-77, LPDDR5 83-84, LPDDR6 79-80). -/
def t1 (s : PowerSpec) : Rat := A.mul (A.nat s.banks) s.rho
/-- See `t1` (LPDDR4 77, LPDDR5 84, LPDDR6 80). -/
def t2 (s : PowerSpec) : Rat := A.sub 1 s.rho

/-- `I_rho`: DDR4 69, DDR5 81; LPDDR4 76-78, LPDDR5 83-85, LPDDR6 79-81. -/
def I_rho (std : Std) (s : PowerSpec) (d : Domain) : Rat :=
  match std with
  | .ddr4 | .ddr5 => A.add (A.mul s.rho (A.sub d.i3n d.i2n)) d.i2n
  | .lpddr4 | .lpddr5 | .lpddr6 => A.div (A.add (A.mul (A.t1 s) d.i3n) (A.mul (A.t2 s) d.i2n)) (A.add (A.t1 s) (A.t2 s))

/-- `I_theta` (core_calculation 70, 82, 79, 88, 84). -/
def I_theta (s : PowerSpec) (d : Domain) : Rat :=
  A.mul (A.sub (A.mul d.i0 (A.add (A.duration s s.tRP) (A.duration s s.tRAS))) (A.mul d.iBeta (A.duration s s.tRP))) (A.div 1 (A.duration s s.tRAS))

/-- `I_1`: DDR4 71, DDR5 83; LPDDR4 66, LPDDR5 72, LPDDR6 68. -/
def I_1 (std : Std) (s : PowerSpec) (d : Domain) : Rat :=
  match std with
  | .ddr4 | .ddr5 => A.mul (A.div 1 (A.nat s.banks)) (A.add d.i3n (A.mul (A.nat (s.banks - 1)) (A.I_rho std s d)))
  | .lpddr4 | .lpddr5 | .lpddr6 => d.i3n

/-- `I_B`: DDR4 60, DDR5 71; LPDDR4 82, LPDDR5 86, LPDDR6 82. -/
def I_B (std : Std) (s : PowerSpec) (d : Domain) : Rat :=
  match std with
  | .ddr4 | .ddr5 => d.i3n
  | .lpddr4 | .lpddr5 | .lpddr6 => A.add (A.I_rho std s d) (A.mul (A.nat s.banks) (A.sub (A.I_1 std s d) (A.I_rho std s d)))

/-- `I_2` (LPDDR5 87, LPDDR6 83). -/
def I_2 (std : Std) (s : PowerSpec) (d : Domain) : Rat := A.add (A.I_1 std s d) (A.sub (A.I_1 std s d) (A.I_rho std s d))

/-- `I_BG` (DDR5 84). -/
def I_BG (std : Std) (s : PowerSpec) (d : Domain) : Rat :=
  A.add (A.I_rho std s d) (A.mul (A.sub (A.I_1 std s d) (A.I_rho std s d)) (A.nat s.bankGroups))

/-- `IDD5PB_B`, `IDD5PDB_B` (LPDDR4 80-81, LPDDR5 89-90, LPDDR6 85-86). -/
def I5PB_B (s : PowerSpec) (d : Domain) : Rat :=
  A.mul (A.sub (A.mul d.i5pb (A.div (A.duration s s.tREFI) 8))
    (A.mul d.i2n (A.sub (A.div (A.duration s s.tREFI) 8) (A.duration s s.tRFCpb)))) (A.div 1 (A.duration s s.tRFCpb))

/-- The background current subtracted from the burst currents (core_calculation 95-102, 106-113, 103-110, 111-129, 107-114). -/
def I_burst (std : Std) (s : PowerSpec) (d : Domain) : Rat :=
  match std with
  | .ddr4 | .ddr5 => A.I_B std s d
  | .lpddr4 => A.I_1 std s d
  | .lpddr5 => if s.arch = .mbg then A.I_2 std s d else A.I_1 std s d
  | .lpddr6 => A.I_2 std s d

/-- `E_RD` as called for `n` reads (same lines). -/
def eRead (std : Std) (s : PowerSpec) (d : Domain) (n : Nat) : Rat :=
  match std with
  | .ddr4 | .ddr5 => A.E_RD_ddr d.v d.i4r (A.I_burst std s d) s.tCK s.burstLength s.dataRate n
  | _ => A.E_burst d.v d.i4r (A.I_burst std s d) (s.tBurst std) s.burstLength s.dataRate n

/-- `E_WR` as called for `n` writes (same lines). -/
def eWrite (std : Std) (s : PowerSpec) (d : Domain) (n : Nat) : Rat :=
  A.E_burst d.v d.i4w (A.I_burst std s d) (s.tBurst std) s.burstLength s.dataRate n

/-- The per-bank refreshes (LPDDR4: core_calculation 117-118; LPDDR5: 136-137). -/
def eRefPerBank (std : Std) (s : PowerSpec) (d : Domain) (n : Nat) : Rat :=
  match std with
  | .lpddr4 | .lpddr5 => A.E_ref_pb d.v (A.I5PB_B s d) (A.I_1 std s d) (A.duration s s.tRFCpb) n
  | _ => 0

/-- The same-bank refreshes (DDR5: core_calculation 120-121). -/
def eRefSame (std : Std) (s : PowerSpec) (d : Domain) (n : Nat) : Rat :=
  match std with
  | .ddr5 => A.E_ref_sb d.v d.i5c (A.I_BG std s d) (A.duration s s.tRFCpb) s.bankGroups n
  | _ => 0

/-- The per-two-bank refreshes (LPDDR5: core_calculation 138-139). -/
def eRefTwo (std : Std) (s : PowerSpec) (d : Domain) (n : Nat) : Rat :=
  match std with
  | .lpddr5 => A.E_ref_half d.v (A.I5PB_B s d) (A.I_2 std s d) (A.duration s s.tRFCpb) n
  | _ => 0

/-- The dual-bank refreshes (LPDDR6: core_calculation 121-122). -/
def eRefDual (std : Std) (s : PowerSpec) (d : Domain) (n : Nat) : Rat :=
  match std with
  | .lpddr6 => A.E_ref_half d.v (A.I5PB_B s d) (A.I_2 std s d) (A.duration s s.tRFCpb) n
  | _ => 0

/-- What one voltage domain adds to the energy of a bank (core_calculation 86-108, 97-121, 94-118, 102-139, 98-122). -/
def bankEnergy (std : Std) (s : PowerSpec) (d : Domain) (bank rank : CycleStats) : EnergyInfo where
  eAct := A.E_act d.v (A.I_theta s d) (A.I_1 std s d) (A.duration s s.tRAS) bank.counter.act
  ePre := A.E_pre d.v d.iBeta d.i2n (A.duration s s.tRP) bank.counter.pre
  eBgAct := A.E_BG_act_star d.v (A.I_1 std s d) (A.I_rho std s d) (A.duration s bank.cycles.act)
  eBgPre := A.E_BG_pre s.banks d.v d.i2n (A.duration s rank.cycles.pre)
  eRD := A.eRead std s d bank.counter.reads
  eWR := A.eWrite std s d bank.counter.writes
  eRDA := A.eRead std s d bank.counter.readAuto
  eWRA := A.eWrite std s d bank.counter.writeAuto
  ePreRDA := A.E_pre d.v d.iBeta d.i2n (A.duration s s.tRP) bank.counter.readAuto
  ePreWRA := A.E_pre d.v d.iBeta d.i2n (A.duration s s.tRP) bank.counter.writeAuto
  eRefAB := A.E_ref_ab s.banks d.v d.i5x (A.I_B std s d) (A.duration s s.tRFC) bank.counter.refAllBank
  eRefPB := A.eRefPerBank std s d bank.counter.refPerBank
  eRefSB := A.eRefSame std s d bank.counter.refSameBank
  eRef2B := A.eRefTwo std s d bank.counter.refPerTwoBanks
  eRefDB := A.eRefDual std s d bank.counter.refDualBanks

/-- `VDD * I * cycles * t_CK * numberOfDevices` (core_calculation 112-114, 125-127, 122-124, 143-146, 126-129). -/
def eState (s : PowerSpec) (V I : Rat) (n : Nat) : Rat := A.mul (A.mul (A.mul (A.mul V I) (A.nat n)) s.tCK) (A.nat s.devices)

/-- `E_dsm` of a rank (LPDDR5: core_calculation 146; LPDDR6: 129). -/
def eDsm (std : Std) (s : PowerSpec) (d : Domain) (n : Nat) : Rat :=
  match std with
  | .lpddr5 | .lpddr6 => A.eState s d.v d.i6ds n
  | _ => 0

/-- What one voltage domain adds to the shared energies for a rank (core_calculation 112-117, 125-130, 122-127, 143-148, 126-131). -/
def rankEnergy (std : Std) (s : PowerSpec) (d : Domain) (rank : CycleStats) : SharedEnergy where
  sref := A.eState s d.v d.i6n rank.cycles.selfRefresh
  pdnA := A.eState s d.v d.i3p rank.cycles.powerDownAct
  pdnP := A.eState s d.v d.i2p rank.cycles.powerDownPre
  dsm := A.eDsm std s d rank.cycles.deepSleepMode
  bgActShared := A.mul (A.E_BG_act_shared d.v (A.I_rho std s d) (A.duration s rank.cycles.act)) (A.nat s.devices)

/-- The divisors of the formulas. -/
def divisors (std : Std) (s : PowerSpec) : List Rat :=
  A.nat s.banks :: A.nat s.dataRate :: A.duration s s.tRAS ::
  match std with
  | .ddr4 => []
  | .ddr5 => [A.nat s.bankGroups]
  | .lpddr4 | .lpddr5 | .lpddr6 => [A.duration s s.tRFCpb, A.add (A.t1 s) (A.t2 s)]

/-- The loop over the banks of a device (core_calculation 83-109, 94-122, 91-119, 99-140, 95-123). -/
def bankLoop (std : Std) (s : PowerSpec) (dom : Domain) (stats : SimStats) (r d : Nat) (l : List EnergyInfo) : List EnergyInfo :=
  (List.range s.banks).foldl (fun l b => l.modify (s.energyIndex r d b) fun e =>
    A.addInfo e (A.bankEnergy std s dom (stats.bank.getD (s.statsIndex r b) {}) (stats.rankTotal.getD r {}))) l

/-- The body of the loop over the ranks (core_calculation 75-118, 88-131, 86-128, 94-149, 90-132). -/
def rankStep (std : Std) (s : PowerSpec) (dom : Domain) (stats : SimStats) (e : Energy) (r : Nat) : Energy where
  bank := (List.range s.devices).foldl (fun l d => A.bankLoop std s dom stats r d l) e.bank
  shared := A.addShared e.shared (A.rankEnergy std s dom (stats.rankTotal.getD r {}))

/-- `calcEnergy` (core_calculation 41-122, 52-135, 47-132, 52-153, 48-136). -/
def calcEnergy (std : Std) (s : PowerSpec) (stats : SimStats) : Except Err Energy :=
  if 0 ∈ A.divisors std s then .error (.ub "division by zero")
  else if stats.bank.length < s.ranks * s.banks ∨ stats.rankTotal.length < s.ranks then .error (.ub "index out of range")
  else .ok (s.domains.foldl (fun e dom => (List.range s.ranks).foldl (A.rankStep std s dom stats) e)
    { bank := List.replicate (s.banks * s.ranks * s.devices) {} })

/-! ## Rounding to nearest -/

/-- The nearest integer, the even one of two. -/
def nearest (y : Rat) : Int :=
  let f := y.floor
  if y - f < 1 / 2 then f
  else if 1 / 2 < y - f then f + 1
  else if f % 2 = 0 then f else f + 1

/-- The exponent of the power of two not above a positive number. -/
def exponent (x : Rat) : Int :=
  let e : Int := (x.num.natAbs.log2 : Int) - (x.den.log2 : Int)
  if (2 : Rat) ^ e ≤ x then e else e - 1

/-- The nearest number with 53 significant bits: the rounding of the results of all operations on `double`. -/
def double (x : Rat) : Rat :=
  if x = 0 then 0 else
  let ulp : Rat := 2 ^ (exponent (if x < 0 then -x else x) - 52)
  nearest (x / ulp) * ulp

end Arith
end DRAMPower
