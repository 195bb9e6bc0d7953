import Verif.Spec.Timing
import Verif.Spec.Energy

/-!
# The time for which each current of a data sheet is charged

Independent of the formulas of the energy calculation: for each current of the configuration the components of the energy it enters, and for
how long it is charged there.
-/

namespace DRAMPower.Spec

/-- Currents of the data sheet: IDD0, the current while precharging, IDD4R, IDD4W, IDD5B (of every refresh mode), IDD5C, IDD5PB, IDD6N,
IDD2P, IDD3P and that of the deep sleep. The background currents IDD2N and IDD3N are not among them. -/
inductive Current | activate | precharge | read | write | refresh | refreshSame | refreshPart | selfRefresh | idleDown | activeDown | deepSleep
deriving DecidableEq, Repr

/-- The current is greater by `x`. -/
def raise (k : Current) (x : Rat) (d : RawDomain) : RawDomain :=
  match k with
  | .activate => { d with i0 := d.i0 + x }
  | .precharge => { d with iBeta := d.iBeta.map (· + x) }
  | .read => { d with i4r := d.i4r + x }
  | .write => { d with i4w := d.i4w + x }
  | .refresh => { d with i5b := d.i5b + x, i5f2 := d.i5f2 + x, i5f4 := d.i5f4 + x }
  | .refreshSame => { d with i5c := d.i5c + x }
  | .refreshPart => { d with i5pb := d.i5pb + x }
  | .selfRefresh => { d with i6n := d.i6n + x }
  | .idleDown => { d with i2p := d.i2p + x }
  | .activeDown => { d with i3p := d.i3p + x }
  | .deepSleep => { d with i6ds := d.i6ds + x }

/-- In all voltage domains. -/
def raiseAll (k : Current) (x : Rat) (c : Config) : Config := { c with domains := c.domains.map (raise k x) }

/-- Clock cycles for which the current is charged to a component of a bank. `banks`, `groups`: what the device has; `rfc`: the duration of a
refresh of all banks. An activation counts as a whole row cycle of IDD0, of which the precharge current is taken off for the precharge; the
refresh of all banks is shared by the banks; a current of partial refreshes is the average over the time between two refreshes, of which
there are eight in `tREFI`, and is halved if two banks are refreshed together; that of DDR5 is shared by the bank groups. -/
def bankCycles (std : Std) (c : Config) (banks groups rfc : Nat) (k : Current) (n : Counters) : Component → Rat
  | .act => match k with
    | .activate => n.act * (c.ras + c.rp)
    | .precharge => - (n.act * c.rp)
    | _ => 0
  | .pre => if k = .precharge then n.pre * c.rp else 0
  | .preRda => if k = .precharge then n.readAuto * c.rp else 0
  | .preWra => if k = .precharge then n.writeAuto * c.rp else 0
  | .rd => if k = .read then n.reads * burstCycles std c else 0
  | .rda => if k = .read then n.readAuto * burstCycles std c else 0
  | .wr => if k = .write then n.writes * burstCycles std c else 0
  | .wra => if k = .write then n.writeAuto * burstCycles std c else 0
  | .refAb => if k = .refresh then n.refAllBank * rfc / banks else 0
  | .refSb => if k = .refreshSame ∧ std = .ddr5 then n.refSameBank * c.rfcPart / groups else 0
  | .refPb => if k = .refreshPart ∧ (std = .lpddr4 ∨ std = .lpddr5) then n.refPerBank * c.refi / 8 else 0
  | .ref2b => if k = .refreshPart ∧ std = .lpddr5 then n.refPerTwoBanks * c.refi / 16 else 0
  | .refDb => if k = .refreshPart ∧ std = .lpddr6 then n.refDualBanks * c.refi / 16 else 0
  | .bgAct | .bgPre => 0

/-- The same for the shared components of a rank of one device. -/
def rankCycles (std : Std) (k : Current) (n : Cycles) : SharedComponent → Rat
  | .sref => if k = .selfRefresh then n.selfRefresh else 0
  | .pdnP => if k = .idleDown then n.powerDownPre else 0
  | .pdnA => if k = .activeDown then n.powerDownAct else 0
  | .dsm => if k = .deepSleep ∧ (std = .lpddr5 ∨ std = .lpddr6) then n.deepSleepMode else 0
  | .bgActShared | .refab => 0

end DRAMPower.Spec
