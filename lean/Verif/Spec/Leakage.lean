import Verif.Model.Config
import Verif.Spec.Energy

/-!
# A current that always flows
-/

namespace DRAMPower.Spec

/-- A configuration of a memory with an additional current `x` in every voltage domain that flows whatever the memory does: whoever measures
the currents of the data sheet measures `x` with each of them. -/
def leak (x : Rat) (c : Config) : Config := { c with domains := c.domains.map fun d =>
  { v := d.v, i0 := d.i0 + x, i2n := d.i2n + x, i3n := d.i3n + x, i2p := d.i2p + x, i3p := d.i3p + x, i4r := d.i4r + x, i4w := d.i4w + x,
    i5b := d.i5b + x, i5f2 := d.i5f2 + x, i5f4 := d.i5f4 + x, i5c := d.i5c + x, i5pb := d.i5pb + x, i6n := d.i6n + x, i6ds := d.i6ds + x,
    iBeta := d.iBeta.map (· + x) } }

/-- The cycles of a rank the energy calculation charges. The deep sleep is charged for LPDDR5 and LPDDR6 (the others have none). -/
def chargedCycles (std : Std) (n : Cycles) : Nat :=
  n.act + n.pre + n.powerDownAct + n.powerDownPre + n.selfRefresh + if std = .lpddr5 ∨ std = .lpddr6 then n.deepSleepMode else 0

/-- The supply voltages together. -/
def voltage (c : Config) : Rat := (c.domains.map fun d => d.v).sum

end DRAMPower.Spec
