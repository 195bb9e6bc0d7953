import Verif.Tests.Run

/-!
# The JSON resources of the tests

Generated by conformance/gen.py, do not edit. The numbers in the lists of checks are lines of the test file.
-/

namespace DRAMPower.Tests

/-- tests/tests_drampower/resources/ddr4.json -/
def ddr4Config : Config where
  banks := 16
  bankGroups := 2
  ranks := 1
  devices := 1
  burstLength := 8
  dataRate := 2
  tCK := (76923076923076923076923076923077/100000000000000000000000000000000000000000)
  ras := 10
  wl := 5
  wr := 5
  rp := 10
  refMode := .one
  rcd := 13
  rtp := 5
  al := 0
  rfc1 := 25
  rfc2 := 0
  rfc4 := 0
  domains := [
    { v := (6/5), i5b := (59/500), i5f2 := (59/500), i5f4 := (59/500), i5c := 0, i6n := (101/5000), i0 := (9/160), i2n := (27/800), i3n := (79/2000), i2p := (17/1000), i3p := (9/400), i4r := (63/400), i4w := (27/200), iBeta := some (9/160) },
    { v := (6/5), i5b := 0, i5f2 := 0, i5f4 := 0, i5c := 0, i6n := 0, i0 := 0, i2n := 0, i3n := 0, i2p := 0, i3p := 0, i4r := 0, i4w := 0, iBeta := some 0 }]
  bankWise := some { factRho := some (1/2) }

/-- See `ddr4Config`. -/
def ddr4 : Setup := Setup.ofConfig .ddr4 ddr4Config (width := 8) (vddq := (6/5))
    (dqsRate := 2) (wckAlwaysOn := false)
    (ambles := { readZeroes := (5/2), writeZeroes := (5/2), readZeroesToOnes := 2, writeZeroesToOnes := 2 })
    (imp := {
      ck := { termination := true, rEq := 1000000, dynE := (1/1000000000000) },
      ca := { termination := true, rEq := 1000000, dynE := (1/1000000000000) },
      rdq := { termination := true, rEq := 1000000, dynE := (1/1000000000000) },
      wdq := { termination := true, rEq := 1000000, dynE := (1/1000000000000) },
      wdqs := { termination := true, rEq := 1000000, dynE := (1/1000000000000) },
      rdqs := { termination := true, rEq := 1000000, dynE := (1/1000000000000) },
      wdbi := { termination := true, rEq := 1000000, dynE := (1/1000000000000) },
      rdbi := { termination := true, rEq := 1000000, dynE := (1/1000000000000) } })

/-- tests/tests_drampower/resources/ddr5.json -/
def ddr5Config : Config where
  banks := 16
  bankGroups := 2
  ranks := 1
  devices := 1
  burstLength := 8
  dataRate := 2
  tCK := (76923076923076923076923076923077/100000000000000000000000000000000000000000)
  ras := 10
  wl := 5
  wr := 5
  rp := 10
  refMode := .one
  rcd := 13
  rtp := 5
  rfc1 := 25
  rfc2 := 30
  rfcPart := 20
  domains := [
    { v := (6/5), i5b := (59/500), i5f2 := (27/200), i5f4 := 0, i5c := (11/100), i6n := (81/4000), i0 := (9/160), i2n := (27/800), i3n := (79/2000), i2p := (17/1000), i3p := (9/400), i4r := (63/400), i4w := (27/200), iBeta := some (9/160) },
    { v := (6/5), i5b := 0, i5f2 := 0, i5f4 := 0, i5c := 0, i6n := 0, i0 := 0, i2n := 0, i3n := 0, i2p := 0, i3p := 0, i4r := 0, i4w := 0, iBeta := some 0 }]
  bankWise := some { factRho := some (1/2) }

/-- See `ddr5Config`. -/
def ddr5 : Setup := Setup.ofConfig .ddr5 ddr5Config (width := 8) (vddq := (11/10))
    (dqsRate := 2) (wckAlwaysOn := false)
    (imp := {
      ck := { termination := true, rEq := 1000000, dynE := (1/1000000000000) },
      ca := { termination := true, rEq := 1000000, dynE := (1/1000000000000) },
      rdq := { termination := true, rEq := 1000000, dynE := (1/1000000000000) },
      wdq := { termination := true, rEq := 1000000, dynE := (1/1000000000000) },
      wdqs := { termination := true, rEq := 1000000, dynE := (1/1000000000000) },
      rdqs := { termination := true, rEq := 1000000, dynE := (1/1000000000000) } })

/-- tests/tests_drampower/resources/lpddr4.json -/
def lpddr4Config : Config where
  banks := 16
  bankGroups := 1
  ranks := 1
  devices := 1
  burstLength := 8
  dataRate := 2
  tCK := (76923076923076923076923076923077/100000000000000000000000000000000000000000)
  ras := 10
  wl := 5
  wr := 5
  rp := 10
  rcd := 13
  rtp := 2
  rfc1 := 25
  rfcPart := 20
  refi := 20
  domains := [
    { v := (6/5), i5b := (59/500), i5pb := (37/500), i6n := (81/4000), i6ds := 0, i0 := (9/160), i2n := (27/800), i3n := (7/200), i2p := (17/1000), i3p := (9/400), i4r := (63/400), i4w := (27/200), iBeta := some (9/160) },
    { v := (6/5), i5b := 0, i5pb := 0, i6n := 0, i6ds := 0, i0 := 0, i2n := 0, i3n := 0, i2p := 0, i3p := 0, i4r := 0, i4w := 0, iBeta := some 0 }]
  bankWise := some { factRho := some (14705882353/250000000000), hasPASR := some false, pasrMode := some (some 0) }

/-- See `lpddr4Config`. -/
def lpddr4 : Setup := Setup.ofConfig .lpddr4 lpddr4Config (width := 8) (vddq := (6/5))
    (dqsRate := 2) (wckAlwaysOn := false)
    (imp := {
      ck := { termination := true, rEq := 1000000, dynE := (1/1000000000000) },
      ca := { termination := true, rEq := 1000000, dynE := (1/1000000000000) },
      rdq := { termination := true, rEq := 1000000, dynE := (1/1000000000000) },
      wdq := { termination := true, rEq := 1000000, dynE := (1/1000000000000) },
      wdqs := { termination := true, rEq := 1000000, dynE := (1/1000000000000) },
      rdqs := { termination := true, rEq := 1000000, dynE := (1/1000000000000) },
      wdbi := { termination := true, rEq := 1000000, dynE := (1/1000000000000) },
      rdbi := { termination := true, rEq := 1000000, dynE := (1/1000000000000) } })

/-- tests/tests_drampower/resources/lpddr5.json -/
def lpddr5Config : Config where
  banks := 16
  bankGroups := 1
  ranks := 1
  devices := 1
  burstLength := 8
  dataRate := 2
  tCK := (76923076923076923076923076923077/100000000000000000000000000000000000000000)
  ras := 10
  wl := 5
  wr := 5
  rp := 10
  rcd := 0
  wck2ck := 2
  rbtp := 3
  rfc1 := 25
  rfcPart := 20
  refi := 20
  domains := [
    { v := (6/5), i5b := (59/500), i5pb := (37/500), i6n := (81/4000), i6ds := (53/4000), i0 := (9/160), i2n := (27/800), i3n := (7/200), i2p := (17/1000), i3p := (9/400), i4r := (63/400), i4w := (27/200), iBeta := some (9/160) },
    { v := (6/5), i5b := 0, i5pb := 0, i6n := 0, i6ds := 0, i0 := 0, i2n := 0, i3n := 0, i2p := 0, i3p := 0, i4r := 0, i4w := 0, iBeta := some 0 },
    { v := (6/5), i5b := 0, i5pb := 0, i6n := 0, i6ds := 0, i0 := 0, i2n := 0, i3n := 0, i2p := 0, i3p := 0, i4r := 0, i4w := 0, iBeta := some 0 }]
  bankWise := some { factRho := some (14705882353/250000000000) }

/-- See `lpddr5Config`. -/
def lpddr5 : Setup := Setup.ofConfig .lpddr5 lpddr5Config (width := 8) (vddq := (1/2))
    (dqsRate := 2) (wckAlwaysOn := true)
    (imp := {
      ck := { termination := true, rEq := 1000000, dynE := (1/1000000000000) },
      ca := { termination := true, rEq := 1000000, dynE := (1/1000000000000) },
      rdq := { termination := true, rEq := 1000000, dynE := (1/1000000000000) },
      wdq := { termination := true, rEq := 1000000, dynE := (1/1000000000000) },
      wck := { termination := true, rEq := 1000000, dynE := (1/1000000000000) },
      rdqs := { termination := true, rEq := 1000000, dynE := (1/1000000000000) },
      wdbi := { termination := true, rEq := 1000000, dynE := (1/1000000000000) },
      rdbi := { termination := true, rEq := 1000000, dynE := (1/1000000000000) } })

/-- tests/tests_drampower/resources/lpddr6.json -/
def lpddr6Config : Config where
  banks := 16
  bankGroups := 1
  ranks := 1
  devices := 1
  burstLength := 8
  dataRate := 2
  tCK := (76923076923076923076923076923077/100000000000000000000000000000000000000000)
  ras := 10
  wl := 5
  wr := 5
  rp := 10
  rcd := 0
  wck2ck := 2
  rbtp := 3
  rcdR := 13
  rcdW := 13
  rfc1 := 25
  rfcPart := 20
  refi := 20
  domains := [
    { v := (6/5), i5b := (59/500), i5pb := (39/125), i6n := (81/4000), i6ds := (53/4000), i0 := (9/160), i2n := (27/800), i3n := (7/200), i2p := (17/1000), i3p := (9/400), i4r := (63/400), i4w := (27/200), iBeta := some (9/160) },
    { v := (6/5), i5b := 0, i5pb := 0, i6n := 0, i6ds := 0, i0 := 0, i2n := 0, i3n := 0, i2p := 0, i3p := 0, i4r := 0, i4w := 0, iBeta := some 0 },
    { v := (6/5), i5b := 0, i5pb := 0, i6n := 0, i6ds := 0, i0 := 0, i2n := 0, i3n := 0, i2p := 0, i3p := 0, i4r := 0, i4w := 0, iBeta := some 0 }]
  bankWise := some { factRho := some (14705882353/250000000000) }

/-- See `lpddr6Config`. -/
def lpddr6 : Setup := Setup.ofConfig .lpddr6 lpddr6Config (width := 12) (vddq := (1/2))
    (dqsRate := 2) (wckAlwaysOn := true)
    (imp := {
      ck := { termination := true, rEq := 1000000, dynE := (1/1000000000000) },
      ca := { termination := true, rEq := 1000000, dynE := (1/1000000000000) },
      rdq := { termination := true, rEq := 1000000, dynE := (1/1000000000000) },
      wdq := { termination := true, rEq := 1000000, dynE := (1/1000000000000) },
      wck := { termination := true, rEq := 1000000, dynE := (1/1000000000000) },
      rdqs := { termination := true, rEq := 1000000, dynE := (1/1000000000000) } })

end DRAMPower.Tests
