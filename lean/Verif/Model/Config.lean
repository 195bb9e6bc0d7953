import Verif.Model.Energy

/-!
# Construction of the memory specification

Paths in comments are relative to `/repo/src/DRAMPower/DRAMPower/memspec/`; `MemSpec*.cpp` stands for the five files, line ranges are
given in the order DDR4, DDR5, LPDDR4, LPDDR5, LPDDR6.

Simplifications: the five configuration structures of the external library are merged into one (`Config`), a field a standard does not
have is not read; the fields of the impedances, of the pre- and postambles and of the bus rates are copied unchanged by the code and left
out; `double` is `Rat`; `uint64_t` is `Nat` except in the PASR sizes, where the subtraction may wrap.
-/

namespace DRAMPower

/-- The refresh modes (`RefModeTypeDDR4`, `RefModeTypeDDR5`). -/
inductive RefMode | one | two | four | invalid
deriving DecidableEq, Repr

/-- The voltage and currents of one domain in the configuration (`mempowerspec`): `i5b`, `i5f2`, `i5f4` are the currents of the three
refresh modes (LPDDR: `i5b` only). -/
structure RawDomain where
  v : Rat
  i0 : Rat
  i2n : Rat
  i3n : Rat
  i2p : Rat
  i3p : Rat
  i4r : Rat
  i4w : Rat
  i5b : Rat
  i5f2 : Rat := 0
  i5f4 : Rat := 0
  i5c : Rat := 0
  i5pb : Rat := 0
  i6n : Rat
  i6ds : Rat := 0
  iBeta : Option Rat := none
deriving DecidableEq, Repr

/-- `bankwisespec`. `pasrMode`: `some none` is `Invalid`. -/
structure BankWise where
  factRho : Option Rat := none
  hasPASR : Option Bool := none
  pasrMode : Option (Option Nat) := none
deriving DecidableEq, Repr

/-- The configuration (`DRAMUtils::MemSpec::MemSpec*`). `rp` is `RPpb` for LPDDR, `rcd` is `RCD_S` for LPDDR5, `rfc1` is `RFC1_slr` for
DDR5 and `RFCab` for LPDDR, `rfc2` is `RFC2_slr` for DDR5, `rfcPart` is `RFCsb_slr`, `RFCpb`, `RFCpb`, `RFCdb`. -/
structure Config where
  banks : Nat
  bankGroups : Nat
  ranks : Nat
  devices : Nat
  burstLength : Nat
  dataRate : Nat
  refMode : RefMode := .one
  tCK : Rat
  wck2ck : Nat := 1
  ras : Nat
  rcd : Nat := 0
  rcdR : Nat := 0
  rcdW : Nat := 0
  rtp : Nat := 0
  rbtp : Nat := 0
  wl : Nat
  wr : Nat
  rp : Nat
  al : Nat := 0
  rfc1 : Nat
  rfc2 : Nat := 0
  rfc4 : Nat := 0
  rfcPart : Nat := 0
  refi : Nat := 0
  domains : List RawDomain
  bankWise : Option BankWise := none
deriving DecidableEq, Repr

/-- What the constructors compute: the fields the core reads, the fields the energy calculation reads, the burst time and the banks that
are refreshed in self-refresh (LPDDR4). -/
structure Derived where
  core : MemSpec
  power : PowerSpec
  tBurst : Nat
  activeBanks : List Nat := []
deriving Repr

namespace Config

/-- Whether the refresh mode selects `RFC2` (MemSpec*.cpp DDR4 88, DDR5 52). -/
def isMode2 (std : Std) (c : Config) : Bool := (std == .ddr4 || std == .ddr5) && c.refMode == .two

/-- Whether the refresh mode selects `RFC4` (MemSpec*.cpp DDR4 92). -/
def isMode4 (std : Std) (c : Config) : Bool := std == .ddr4 && c.refMode == .four

/-- `tRFC` (MemSpec*.cpp 91/95/100, 55/60, 21, 23, 24). -/
def tRFC (std : Std) (c : Config) : Nat :=
  if c.isMode2 std then c.rfc2 else if c.isMode4 std then c.rfc4 else c.rfc1

/-- `iXX5X`, `iDD5X` (MemSpec*.cpp 88-101, 52-61, 36 and 48, 40 and so on). -/
def i5 (std : Std) (c : Config) (d : RawDomain) : Rat :=
  if c.isMode2 std then d.i5f2 else if c.isMode4 std then d.i5f4 else d.i5b

/-- `MemPowerSpec` (MemSpec*.cpp 62-103, 24-64, 27-57, 30-77, 31-78). -/
def domain (std : Std) (c : Config) (d : RawDomain) : Domain where
  v := d.v
  i0 := d.i0
  i2n := d.i2n
  i3n := d.i3n
  i2p := d.i2p
  i3p := d.i3p
  i4r := d.i4r
  i4w := d.i4w
  i5x := c.i5 std d
  i5c := d.i5c
  i5pb := d.i5pb
  i6n := d.i6n
  i6ds := d.i6ds
  iBeta := d.iBeta.getD d.i0

/-- `bwPowerFactRho` (MemSpec*.cpp 105-112, 67-74, 62 and 85, 79-84, 80-85). -/
def rho (c : Config) : Rat :=
  match c.bankWise with
  | some b => b.factRho.getD 1
  | none => 1

/-- `numberOfDevices` (MemSpec.h 93-97). -/
def devices' (c : Config) : Nat := if c.devices < 1 then 1 else c.devices

/-- Data beats in one clock cycle: the divisor of `tBurst` (MemSpec*.cpp 114, 76, -, 118, 89). -/
def beatDivisor (std : Std) (c : Config) : Nat :=
  match std with
  | .ddr4 | .ddr5 => c.dataRate
  | .lpddr4 => 1
  | .lpddr5 | .lpddr6 => c.dataRate * c.wck2ck

/-- `tBurst` (MemSpec*.cpp 114, 76, -, 118, 89); LPDDR4 has none. -/
def tBurst (std : Std) (c : Config) : Nat :=
  match std with
  | .lpddr4 => 0
  | _ => c.burstLength / c.beatDivisor std

/-- `prechargeOffsetRD` (MemSpec*.cpp 115, 77, 185-189, 121, 92). -/
def offsetRD (std : Std) (c : Config) : Nat :=
  match std with
  | .ddr4 => c.al + c.rtp
  | .ddr5 => c.rtp
  | .lpddr4 => if c.burstLength = 16 then c.rtp else 8 + c.rtp
  | .lpddr5 | .lpddr6 => c.tBurst std + c.rbtp

/-- `prechargeOffsetWR` (MemSpec*.cpp 116, 78, 190, 124, 95). -/
def offsetWR (std : Std) (c : Config) : Nat :=
  match std with
  | .ddr4 | .ddr5 => c.tBurst std + c.wl + c.wr
  | .lpddr4 => c.wl + c.burstLength / 2 + c.wr + 1
  | .lpddr5 | .lpddr6 => c.wl + c.tBurst std + 1 + c.wr

/-- `bank_arch`, `numberOfBanks` and `numberOfBankGroups` after the check (MemSpecLPDDR5.cpp 87-115). -/
def arch (c : Config) : BankArch × Nat × Nat :=
  if c.banks = 16 then
    if c.bankGroups = 1 ∨ c.bankGroups = 0 then (.m16b, c.banks, c.bankGroups)
    else if c.bankGroups = 4 then (.mbg, c.banks, c.bankGroups)
    else (.m16b, 16, 1)
  else if c.banks = 8 then
    if c.bankGroups > 1 then (.m16b, 16, 1) else (.m8b, c.banks, c.bankGroups)
  else (.m16b, 16, 1)

/-- The same for every standard: only LPDDR5 changes the configured numbers. -/
def archOf (std : Std) (c : Config) : BankArch × Nat × Nat :=
  match std with
  | .lpddr5 => c.arch
  | _ => (.m16b, c.banks, c.bankGroups)

/-- `flgPASR` (MemSpecLPDDR4.cpp 64, 87). -/
def flgPASR (c : Config) : Bool :=
  match c.bankWise with
  | some b => b.hasPASR.getD false
  | none => false

/-- `pasrMode` (MemSpecLPDDR4.cpp 65-81, 88). -/
def pasrMode (c : Config) : Nat :=
  match c.bankWise with
  | some b => match b.pasrMode with
    | some (some m) => m
    | _ => 0
  | none => 0

/-- `activeBanks.resize(numberOfBanks - k)` and `std::iota(..., first)` (MemSpecLPDDR4.cpp 105-106 and so on). The subtraction wraps;
`resize` to a size beyond `max_size()` throws (the size is then within 7 of 2^64). -/
def pasrRange (banks k first : Nat) : Except Err (List Nat) :=
  if banks < k then .error (.exception "length_error") else .ok ((List.range (banks - k)).map (first + ·))

/-- The numbers of banks left out and the first bank in each PASR mode (MemSpecLPDDR4.cpp 98-181). -/
def pasrTable : Nat → Nat × Nat
  | 1 => (4, 0)
  | 2 => (6, 0)
  | 3 => (7, 0)
  | 4 => (2, 2)
  | 5 => (4, 4)
  | 6 => (6, 6)
  | 7 => (7, 7)
  | _ => (0, 0)

/-- `bwParams.activeBanks` (MemSpecLPDDR4.cpp 91-182). -/
def activeBanks (std : Std) (c : Config) : Except Err (List Nat) :=
  if std = .lpddr4 ∧ c.flgPASR then pasrRange c.banks (pasrTable c.pasrMode).1 (pasrTable c.pasrMode).2 else .ok []

/-- `isBankActiveInPasr` (MemSpecLPDDR4.cpp 194-198). -/
def isBankActiveInPasr (d : Derived) (b : Nat) : Bool := d.activeBanks.contains b

/-- `banksPerGroup` (MemSpec*.cpp -, 10, 10, 11, 11): computed before the LPDDR5 check changes the numbers. -/
def banksPerGroup (std : Std) (c : Config) : Except Err Nat :=
  if std = .ddr4 then .ok 1
  else if c.bankGroups = 0 then .error (.ub "numberOfBanks / 0")
  else .ok (c.banks / c.bankGroups)

/-- `tWCK` (MemSpec*.cpp LPDDR5 15, LPDDR6 15): a floating point division; the value for divisor 0 is infinite (0 here, the integer
division by 0 follows). -/
def tWCK (std : Std) (c : Config) : Rat :=
  match std with
  | .lpddr5 | .lpddr6 => c.tCK / (c.wck2ck : Rat)
  | _ => 0

/-- The fields the core reads. -/
def coreSpec (std : Std) (c : Config) (perGroup : Nat) : MemSpec where
  numberOfBanks := (c.archOf std).2.1
  numberOfRanks := c.ranks
  banksPerGroup := perGroup
  numberOfBankGroups := (c.archOf std).2.2
  tRFC := c.tRFC std
  tRFCsb := c.rfcPart
  tRFCPB := c.rfcPart
  tRFCDB := c.rfcPart
  tRAS := c.ras
  tRCD := c.rcd
  tRCDR := c.rcdR
  tRCDW := c.rcdW
  tRP := c.rp
  prechargeOffsetRD := c.offsetRD std
  prechargeOffsetWR := c.offsetWR std
  bankArch := (c.archOf std).1

/-- The fields the energy calculation reads. -/
def powerSpec (std : Std) (c : Config) : PowerSpec where
  tCK := c.tCK
  tWCK := c.tWCK std
  tRAS := c.ras
  tRP := c.rp
  tRFC := c.tRFC std
  tRFCpb := c.rfcPart
  tREFI := c.refi
  rho := c.rho
  burstLength := c.burstLength
  dataRate := c.dataRate
  banks := (c.archOf std).2.1
  bankGroups := (c.archOf std).2.2
  ranks := c.ranks
  devices := c.devices'
  arch := (c.archOf std).1
  domains := c.domains.map (c.domain std)

/-- The constructors (MemSpec*.cpp 42-120, 5-82, 5-192, 6-129, 6-100; MemSpec.h 88-103). -/
def derive (std : Std) (c : Config) : Except Err Derived := do
  let perGroup ← c.banksPerGroup std
  let active ← c.activeBanks std
  if c.beatDivisor std = 0 then .error (.ub "burstLength / 0")
  else .ok { core := c.coreSpec std perGroup, power := c.powerSpec std, tBurst := c.tBurst std, activeBanks := active }

end Config

end DRAMPower
