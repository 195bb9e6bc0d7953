import Verif.Lemmas.EnergyExample
import Verif.Model.Rounded

/-! # A specification with decimal numbers, as they are read from a file -/

namespace DRAMPower

/-- The `double` of a decimal number with three digits. -/
def milli (n : Nat) : Rat := Arith.double (n / 1000)

/-- A DDR4 device of eight banks with the usual supplies; the background factor is the default. -/
def decimalSpec : PowerSpec where
  tCK := Arith.double (833 / 10 ^ 12)
  tWCK := Arith.double (833 / 10 ^ 12)
  tRAS := 39
  tRP := 16
  tRFC := 313
  tRFCpb := 313
  tREFI := 9363
  rho := 1
  burstLength := 8
  dataRate := 2
  banks := 8
  bankGroups := 2
  ranks := 1
  devices := 1
  arch := .m16b
  domains := [
    { v := milli 1200, i0 := milli 60, i2n := milli 2, i3n := milli 20, i2p := milli 1, i3p := milli 10, i4r := milli 140, i4w := milli 156,
      i5x := milli 277, i5c := milli 277, i5pb := milli 277, i6n := milli 20, i6ds := milli 1, iBeta := milli 50 },
    { v := milli 2500, i0 := milli 4, i2n := milli 2, i3n := milli 3, i2p := milli 1, i3p := milli 3, i4r := milli 3, i4w := milli 3,
      i5x := milli 28, i5c := milli 28, i5pb := milli 28, i6n := milli 3, i6ds := milli 1, iBeta := milli 4 }]

/-- One bank with an activation and two reads. -/
def decimalStats (cycles : Nat) : SimStats where
  bank := { counter := { act := 1, pre := 1, reads := 2 }, cycles := { act := cycles } } :: List.replicate 7 {}
  rankTotal := [{ cycles := { act := cycles, pre := 13 } }]

end DRAMPower
