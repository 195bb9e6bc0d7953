import Verif.Model.Energy

/-! # The power specification and statistics used in the examples -/

namespace DRAMPower

/-- A small specification. -/
def exampleSpec : PowerSpec where
  tCK := 1
  tWCK := 1 / 2
  tRAS := 10
  tRP := 10
  tRFC := 25
  tRFCpb := 15
  tREFI := 1600
  rho := 1 / 3
  burstLength := 16
  dataRate := 2
  banks := 2
  bankGroups := 2
  ranks := 1
  devices := 2
  arch := .m16b
  domains := [{ v := 1, i0 := 64, i2n := 8, i3n := 32, i2p := 6, i3p := 32, i4r := 72, i4w := 96, i5x := 128, i5c := 128, i5pb := 60,
                i6n := 16, i6ds := 4, iBeta := 40 }]

/-- Statistics of one rank of two banks. -/
def exampleStats : SimStats where
  bank := [{ counter := { act := 1, reads := 3, refAllBank := 1 } }, { counter := { act := 1, writeAuto := 2, refPerBank := 1 } }]
  rankTotal := [{ cycles := { act := 20, pre := 5, selfRefresh := 3 } }]

end DRAMPower
