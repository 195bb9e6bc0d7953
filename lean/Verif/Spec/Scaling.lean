import Verif.Model.Config
import Verif.Spec.Energy

/-!
# Changes of a configuration and of an energy result
-/

namespace DRAMPower.Spec

/-- All supply voltages times `k`. -/
def scaleVoltages (k : Rat) (c : Config) : Config := { c with domains := c.domains.map fun d => { d with v := k * d.v } }

/-- All currents times `k`. -/
def scaleCurrents (k : Rat) (c : Config) : Config := { c with domains := c.domains.map fun d =>
  { v := d.v, i0 := k * d.i0, i2n := k * d.i2n, i3n := k * d.i3n, i2p := k * d.i2p, i3p := k * d.i3p, i4r := k * d.i4r, i4w := k * d.i4w,
    i5b := k * d.i5b, i5f2 := k * d.i5f2, i5f4 := k * d.i5f4, i5c := k * d.i5c, i5pb := k * d.i5pb, i6n := k * d.i6n, i6ds := k * d.i6ds,
    iBeta := d.iBeta.map (k * ·) } }

/-- The clock period times `k`. -/
def scaleClock (k : Rat) (c : Config) : Config := { c with tCK := k * c.tCK }

/-- What may be left out of a configuration, written out: at least one device, the bank-wise factor 1, IDD0 as current while precharging. -/
def completed (c : Config) : Config := { c with
  devices := max 1 c.devices
  bankWise := some (match c.bankWise with
    | none => { factRho := some 1 }
    | some w => { w with factRho := some (w.factRho.getD 1) })
  domains := c.domains.map fun d => { d with iBeta := some (d.iBeta.getD d.i0) } }

/-- Every figure of `e'` is `k` times that of `e`. -/
structure TimesEnergy (k : Rat) (e e' : Energy) : Prop where
  length : e'.bank.length = e.bank.length
  bank : ∀ i m, entry e' i m = k * entry e i m
  shared : ∀ m : SharedComponent, m.of e'.shared = k * m.of e.shared
  total : e'.total = k * e.total

/-- `e'` is the result for `n` devices where `e` is that for one: for each device the figures of the one, `n` times the shared ones. -/
structure ManyDevices (n banks : Nat) (e e' : Energy) : Prop where
  length : e'.bank.length = n * e.bank.length
  bank : ∀ r i b m, i < n → b < banks → r * banks + b < e.bank.length → entry e' ((r * n + i) * banks + b) m = entry e (r * banks + b) m
  shared : ∀ m : SharedComponent, m.of e'.shared = n * m.of e.shared
  total : e'.total = n * e.total

/-- Every figure of `e` is the sum of those of `a` and `b`. -/
structure SumEnergy (a b e : Energy) : Prop where
  length : e.bank.length = a.bank.length ∧ e.bank.length = b.bank.length
  bank : ∀ i m, entry e i m = entry a i m + entry b i m
  shared : ∀ m : SharedComponent, m.of e.shared = m.of a.shared + m.of b.shared
  total : e.total = a.total + b.total

end DRAMPower.Spec
