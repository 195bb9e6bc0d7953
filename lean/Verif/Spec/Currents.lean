import Verif.Model.Energy

/-!
# Background currents and sane specifications

The background current of a device with `k` active banks, from the currents of the data sheet: with no bank active `IDD2N`, with
one more active bank a fixed step more. For DDR4 and DDR5 `IDD3N` is measured with all banks active, for the LPDDR standards with
one. The parameter `rho` gives the part that does not depend on the number of active banks.
-/

namespace DRAMPower.Spec

/-- The part of the background current of the active state that does not depend on the number of active banks. -/
def activeBase (std : Std) (s : PowerSpec) (d : Domain) : Rat :=
  match std with
  | .ddr4 | .ddr5 => (1 - s.rho) * d.i2n + s.rho * d.i3n
  | .lpddr4 | .lpddr5 | .lpddr6 => ((1 - s.rho) * d.i2n + s.rho * s.banks * d.i3n) / ((1 - s.rho) + s.rho * s.banks)

/-- The background current with `k` active banks. -/
def background (std : Std) (s : PowerSpec) (d : Domain) (k : Nat) : Rat :=
  match std with
  | .ddr4 | .ddr5 => activeBase std s d + (k : Rat) / (s.banks : Rat) * (d.i3n - activeBase std s d)
  | .lpddr4 | .lpddr5 | .lpddr6 => activeBase std s d + (k : Rat) * (d.i3n - activeBase std s d)

/-- The number of active banks during the measurement of the burst currents. -/
def burstBanks (std : Std) (s : PowerSpec) : Nat :=
  match std with
  | .ddr4 | .ddr5 => s.banks
  | .lpddr4 => 1
  | .lpddr5 => if s.arch = .mbg then 2 else 1
  | .lpddr6 => 2

/-- The period of the clock at whose rate data are transferred: LPDDR5 and LPDDR6 have a data clock of their own. -/
def dataClock (std : Std) (s : PowerSpec) : Rat := if std = .lpddr5 ∨ std = .lpddr6 then s.tWCK else s.tCK

/-- The charge of a bank-wise refresh, without the precharged background between two of them: these refreshes are measured as
average current over intervals of an eighth of `tREFI`. -/
def bankRefreshCharge (s : PowerSpec) (d : Domain) : Rat :=
  (d.i5pb - d.i2n) * ((s.tREFI : Rat) * s.tCK / 8) + d.i2n * ((s.tRFCpb : Rat) * s.tCK)

/-- A voltage domain whose activate, burst and refresh currents are at least the background currents flowing anyway. -/
structure SaneDomain (std : Std) (s : PowerSpec) (d : Domain) : Prop where
  v : 0 ≤ d.v
  i2n : 0 ≤ d.i2n
  i3n : d.i2n ≤ d.i3n
  i2p : 0 ≤ d.i2p
  i3p : 0 ≤ d.i3p
  i6n : 0 ≤ d.i6n
  i6ds : 0 ≤ d.i6ds
  pre : d.i2n ≤ d.iBeta
  /-- The charge of an activate-precharge cycle covers the precharge and one active bank. -/
  act : background std s d 1 * (s.tRAS : Rat) + d.iBeta * (s.tRP : Rat) ≤ d.i0 * ((s.tRP : Rat) + (s.tRAS : Rat))
  rd : background std s d (burstBanks std s) ≤ d.i4r
  wr : background std s d (burstBanks std s) ≤ d.i4w
  ref : background std s d s.banks ≤ d.i5x
  refSame : std = .ddr5 → background std s d s.bankGroups ≤ d.i5c
  refBank : std = .lpddr4 ∨ std = .lpddr5 → background std s d 1 * ((s.tRFCpb : Rat) * s.tCK) ≤ bankRefreshCharge s d
  refPair : std = .lpddr5 ∨ std = .lpddr6 → background std s d 2 * ((s.tRFCpb : Rat) * s.tCK) ≤ bankRefreshCharge s d

/-- A specification all of whose domains are sane. -/
structure Sane (std : Std) (s : PowerSpec) : Prop where
  tCK : 0 < s.tCK
  tWCK : 0 ≤ s.tWCK
  rho0 : 0 ≤ s.rho
  rho1 : s.rho ≤ 1
  domains : ∀ d ∈ s.domains, SaneDomain std s d

/-- The weaker condition that compares the currents of the data sheet directly. -/
structure PlausibleDomain (d : Domain) : Prop where
  v : 0 ≤ d.v
  i2n : 0 ≤ d.i2n
  i3n : d.i2n ≤ d.i3n
  i2p : 0 ≤ d.i2p
  i3p : 0 ≤ d.i3p
  i6n : 0 ≤ d.i6n
  i6ds : 0 ≤ d.i6ds
  pre : d.i3n ≤ d.iBeta
  act : d.i3n ≤ d.i0
  rd : d.i3n ≤ d.i4r
  wr : d.i3n ≤ d.i4w
  ref : d.i3n ≤ d.i5x
  refSame : d.i3n ≤ d.i5c
  refBank : d.i3n ≤ d.i5pb

end DRAMPower.Spec
