import Verif.Tests.Resources

/-!
# Tests of the interfaces

Generated by conformance/gen.py, do not edit. The numbers in the lists of checks are lines of the test file.
-/

namespace DRAMPower.Tests

/-! ## tests/tests_drampower/interface/test_dbi_ddr4.cpp -/

def test_dbi_ddr4.wr_data : List UInt8 := [
  240, 15, 224, 241, 0, 255, 255, 255]

def test_dbi_ddr4.rd_data : List UInt8 := [
  0, 0, 0, 0, 0, 0, 255, 1]

namespace test_dbi_ddr4.Pattern_0

def run0 : Log := run .ddr4 (ddr4) [
    .dbi true,
    .core { t := 0, type := .ACT, co := { bank := 1, row := 2 } },
    .iface { t := 0, type := .ACT, co := { bank := 1, row := 2 } },
    .core { t := 4, type := .WR, co := { bank := 1, column := 16 }, nBits := 64, data := some test_dbi_ddr4.wr_data },
    .iface { t := 4, type := .WR, co := { bank := 1, column := 16 }, nBits := 64, data := some test_dbi_ddr4.wr_data },
    .core { t := 11, type := .RD, co := { bank := 1, column := 16 }, nBits := 64, data := some test_dbi_ddr4.rd_data },
    .iface { t := 11, type := .RD, co := { bank := 1, column := 16 }, nBits := 64, data := some test_dbi_ddr4.rd_data },
    .core { t := 16, type := .PRE, co := { bank := 1, row := 2 } },
    .iface { t := 16, type := .PRE, co := { bank := 1, row := 2 } },
    .core { t := 24, type := .END_OF_SIMULATION },
    .iface { t := 24, type := .END_OF_SIMULATION },
    .stats]

def checks : List (Nat × Bool) := [
    (0, run0.ok),
    (135, run0.stats[0]!.writeBus.ones == 370),
    (136, run0.stats[0]!.writeBus.zeroes == 14),
    (137, run0.stats[0]!.writeBus.onesToZeroes == 11),
    (138, run0.stats[0]!.writeBus.zeroesToOnes == 11),
    (140, run0.stats[0]!.readBus.ones == 383),
    (141, run0.stats[0]!.readBus.zeroes == 1),
    (142, run0.stats[0]!.readBus.onesToZeroes == 1),
    (143, run0.stats[0]!.readBus.zeroesToOnes == 1),
    (146, run0.stats[0]!.readDBI.ones == 41),
    (147, run0.stats[0]!.readDBI.zeroes == 7),
    (148, run0.stats[0]!.readDBI.onesToZeroes == 2),
    (149, run0.stats[0]!.readDBI.zeroesToOnes == 2),
    (151, run0.stats[0]!.writeDBI.ones == 46),
    (152, run0.stats[0]!.writeDBI.zeroes == 2),
    (153, run0.stats[0]!.writeDBI.onesToZeroes == 2),
    (154, run0.stats[0]!.writeDBI.zeroesToOnes == 2)]

#guard failing checks == []

end test_dbi_ddr4.Pattern_0

namespace test_dbi_ddr4.Pattern_1

def run0 : Log := run .ddr4 (ddr4) [
    .dbi true,
    .core { t := 0, type := .ACT, co := { bank := 1, row := 2 } },
    .iface { t := 0, type := .ACT, co := { bank := 1, row := 2 } },
    .core { t := 4, type := .WR, co := { bank := 1, column := 16 }, nBits := 64, data := some test_dbi_ddr4.wr_data },
    .iface { t := 4, type := .WR, co := { bank := 1, column := 16 }, nBits := 64, data := some test_dbi_ddr4.wr_data },
    .core { t := 11, type := .RD, co := { bank := 1, column := 16 }, nBits := 64, data := some test_dbi_ddr4.rd_data },
    .iface { t := 11, type := .RD, co := { bank := 1, column := 16 }, nBits := 64, data := some test_dbi_ddr4.rd_data },
    .core { t := 15, type := .RD, co := { bank := 1, column := 16 }, nBits := 64, data := some test_dbi_ddr4.rd_data },
    .iface { t := 15, type := .RD, co := { bank := 1, column := 16 }, nBits := 64, data := some test_dbi_ddr4.rd_data },
    .core { t := 20, type := .PRE, co := { bank := 1, row := 2 } },
    .iface { t := 20, type := .PRE, co := { bank := 1, row := 2 } },
    .core { t := 24, type := .END_OF_SIMULATION },
    .iface { t := 24, type := .END_OF_SIMULATION },
    .stats]

def checks : List (Nat × Bool) := [
    (0, run0.ok),
    (169, run0.stats[0]!.writeBus.ones == 370),
    (170, run0.stats[0]!.writeBus.zeroes == 14),
    (171, run0.stats[0]!.writeBus.onesToZeroes == 11),
    (172, run0.stats[0]!.writeBus.zeroesToOnes == 11),
    (174, run0.stats[0]!.readBus.ones == 382),
    (175, run0.stats[0]!.readBus.zeroes == 2),
    (176, run0.stats[0]!.readBus.onesToZeroes == 2),
    (177, run0.stats[0]!.readBus.zeroesToOnes == 2),
    (180, run0.stats[0]!.readDBI.ones == 34),
    (181, run0.stats[0]!.readDBI.zeroes == 14),
    (182, run0.stats[0]!.readDBI.onesToZeroes == 3),
    (183, run0.stats[0]!.readDBI.zeroesToOnes == 3),
    (185, run0.stats[0]!.writeDBI.ones == 46),
    (186, run0.stats[0]!.writeDBI.zeroes == 2),
    (187, run0.stats[0]!.writeDBI.onesToZeroes == 2),
    (188, run0.stats[0]!.writeDBI.zeroesToOnes == 2)]

#guard failing checks == []

end test_dbi_ddr4.Pattern_1

namespace test_dbi_ddr4.Energy

def calc0 : List InterfaceInfo := calculate .ddr4 ({ ddr4 with
  wires := { ddr4.wires with imp := { ddr4.wires.imp with rdbi := { ddr4.wires.imp.rdbi with rEq := 1, dynE := 3 }, wdbi := { ddr4.wires.imp.wdbi with rEq := 2, dynE := 4 } } } }) [
    { readDBI := { ones := 1, zeroes := 2, onesToZeroes := 3, zeroesToOnes := 4 }, writeDBI := { zeroes := 0, zeroesToOnes := 0 } }]

def checks : List (Nat × Bool) := [
    (239, (calc0[0]!.controller.static : Rat) == 0),
    (240, (calc0[0]!.controller.dynamic : Rat) == 0),
    (241, (calc0[0]!.dram.static : Rat) == (692307692307692307692307692307693/625000000000000000000000000000000000000000)),
    (242, (calc0[0]!.dram.dynamic : Rat) == 12)]

#guard failing checks == []

end test_dbi_ddr4.Energy

/-! ## tests/tests_drampower/interface/test_dbi_lpddr4.cpp -/

def test_dbi_lpddr4.wr_data : List UInt8 := [
  240, 15, 224, 241, 0, 255, 255, 255]

def test_dbi_lpddr4.rd_data : List UInt8 := [
  0, 0, 0, 0, 0, 0, 255, 1]

namespace test_dbi_lpddr4.Pattern_0

def run0 : Log := run .lpddr4 (lpddr4) [
    .dbi true,
    .core { t := 0, type := .ACT, co := { bank := 1, row := 2 } },
    .iface { t := 0, type := .ACT, co := { bank := 1, row := 2 } },
    .core { t := 4, type := .WR, co := { bank := 1, column := 16 }, nBits := 64, data := some test_dbi_lpddr4.wr_data },
    .iface { t := 4, type := .WR, co := { bank := 1, column := 16 }, nBits := 64, data := some test_dbi_lpddr4.wr_data },
    .core { t := 11, type := .RD, co := { bank := 1, column := 16 }, nBits := 64, data := some test_dbi_lpddr4.rd_data },
    .iface { t := 11, type := .RD, co := { bank := 1, column := 16 }, nBits := 64, data := some test_dbi_lpddr4.rd_data },
    .core { t := 16, type := .PRE, co := { bank := 1, row := 2 } },
    .iface { t := 16, type := .PRE, co := { bank := 1, row := 2 } },
    .core { t := 24, type := .END_OF_SIMULATION },
    .iface { t := 24, type := .END_OF_SIMULATION },
    .stats]

def checks : List (Nat × Bool) := [
    (0, run0.ok),
    (135, run0.stats[0]!.writeBus.ones == 14),
    (136, run0.stats[0]!.writeBus.zeroes == 370),
    (137, run0.stats[0]!.writeBus.onesToZeroes == 14),
    (138, run0.stats[0]!.writeBus.zeroesToOnes == 14),
    (140, run0.stats[0]!.readBus.ones == 1),
    (141, run0.stats[0]!.readBus.zeroes == 383),
    (142, run0.stats[0]!.readBus.onesToZeroes == 1),
    (143, run0.stats[0]!.readBus.zeroesToOnes == 1),
    (146, run0.stats[0]!.readDBI.ones == 1),
    (147, run0.stats[0]!.readDBI.zeroes == 47),
    (148, run0.stats[0]!.readDBI.onesToZeroes == 1),
    (149, run0.stats[0]!.readDBI.zeroesToOnes == 1),
    (151, run0.stats[0]!.writeDBI.ones == 4),
    (152, run0.stats[0]!.writeDBI.zeroes == 44),
    (153, run0.stats[0]!.writeDBI.onesToZeroes == 2),
    (154, run0.stats[0]!.writeDBI.zeroesToOnes == 2)]

#guard failing checks == []

end test_dbi_lpddr4.Pattern_0

namespace test_dbi_lpddr4.Pattern_1

def run0 : Log := run .lpddr4 (lpddr4) [
    .dbi true,
    .core { t := 0, type := .ACT, co := { bank := 1, row := 2 } },
    .iface { t := 0, type := .ACT, co := { bank := 1, row := 2 } },
    .core { t := 4, type := .WR, co := { bank := 1, column := 16 }, nBits := 64, data := some test_dbi_lpddr4.wr_data },
    .iface { t := 4, type := .WR, co := { bank := 1, column := 16 }, nBits := 64, data := some test_dbi_lpddr4.wr_data },
    .core { t := 11, type := .RD, co := { bank := 1, column := 16 }, nBits := 64, data := some test_dbi_lpddr4.rd_data },
    .iface { t := 11, type := .RD, co := { bank := 1, column := 16 }, nBits := 64, data := some test_dbi_lpddr4.rd_data },
    .core { t := 15, type := .RD, co := { bank := 1, column := 16 }, nBits := 64, data := some test_dbi_lpddr4.rd_data },
    .iface { t := 15, type := .RD, co := { bank := 1, column := 16 }, nBits := 64, data := some test_dbi_lpddr4.rd_data },
    .core { t := 20, type := .PRE, co := { bank := 1, row := 2 } },
    .iface { t := 20, type := .PRE, co := { bank := 1, row := 2 } },
    .core { t := 24, type := .END_OF_SIMULATION },
    .iface { t := 24, type := .END_OF_SIMULATION },
    .stats]

def checks : List (Nat × Bool) := [
    (0, run0.ok),
    (169, run0.stats[0]!.writeBus.ones == 14),
    (170, run0.stats[0]!.writeBus.zeroes == 370),
    (171, run0.stats[0]!.writeBus.onesToZeroes == 14),
    (172, run0.stats[0]!.writeBus.zeroesToOnes == 14),
    (174, run0.stats[0]!.readBus.ones == 2),
    (175, run0.stats[0]!.readBus.zeroes == 382),
    (176, run0.stats[0]!.readBus.onesToZeroes == 2),
    (177, run0.stats[0]!.readBus.zeroesToOnes == 2),
    (180, run0.stats[0]!.readDBI.ones == 2),
    (181, run0.stats[0]!.readDBI.zeroes == 46),
    (182, run0.stats[0]!.readDBI.onesToZeroes == 2),
    (183, run0.stats[0]!.readDBI.zeroesToOnes == 2),
    (185, run0.stats[0]!.writeDBI.ones == 4),
    (186, run0.stats[0]!.writeDBI.zeroes == 44),
    (187, run0.stats[0]!.writeDBI.onesToZeroes == 2),
    (188, run0.stats[0]!.writeDBI.zeroesToOnes == 2)]

#guard failing checks == []

end test_dbi_lpddr4.Pattern_1

namespace test_dbi_lpddr4.Energy

def calc0 : List InterfaceInfo := calculate .lpddr4 ({ lpddr4 with
  wires := { lpddr4.wires with imp := { lpddr4.wires.imp with rdbi := { lpddr4.wires.imp.rdbi with rEq := 1, dynE := 3 }, wdbi := { lpddr4.wires.imp.wdbi with rEq := 2, dynE := 4 } } } }) [
    { readDBI := { ones := 1, zeroes := 2, onesToZeroes := 3, zeroesToOnes := 4 }, writeDBI := { ones := 0, zeroesToOnes := 0 } }]

def checks : List (Nat × Bool) := [
    (239, (calc0[0]!.controller.static : Rat) == 0),
    (240, (calc0[0]!.controller.dynamic : Rat) == 0),
    (241, (calc0[0]!.dram.static : Rat) == (692307692307692307692307692307693/1250000000000000000000000000000000000000000)),
    (242, (calc0[0]!.dram.dynamic : Rat) == 12)]

#guard failing checks == []

end test_dbi_lpddr4.Energy

/-! ## tests/tests_drampower/interface/test_dbi_lpddr5.cpp -/

def test_dbi_lpddr5.wr_data : List UInt8 := [
  240, 15, 224, 241, 0, 255, 255, 255]

def test_dbi_lpddr5.rd_data : List UInt8 := [
  0, 0, 0, 0, 0, 0, 255, 1]

namespace test_dbi_lpddr5.Pattern_0

def run0 : Log := run .lpddr5 (lpddr5) [
    .dbi true,
    .core { t := 0, type := .ACT, co := { bank := 1, row := 2 } },
    .iface { t := 0, type := .ACT, co := { bank := 1, row := 2 } },
    .core { t := 4, type := .WR, co := { bank := 1, column := 16 }, nBits := 64, data := some test_dbi_lpddr5.wr_data },
    .iface { t := 4, type := .WR, co := { bank := 1, column := 16 }, nBits := 64, data := some test_dbi_lpddr5.wr_data },
    .core { t := 11, type := .RD, co := { bank := 1, column := 16 }, nBits := 64, data := some test_dbi_lpddr5.rd_data },
    .iface { t := 11, type := .RD, co := { bank := 1, column := 16 }, nBits := 64, data := some test_dbi_lpddr5.rd_data },
    .core { t := 16, type := .PRE, co := { bank := 1, row := 2 } },
    .iface { t := 16, type := .PRE, co := { bank := 1, row := 2 } },
    .core { t := 24, type := .END_OF_SIMULATION },
    .iface { t := 24, type := .END_OF_SIMULATION },
    .stats]

def checks : List (Nat × Bool) := [
    (0, run0.ok),
    (135, run0.stats[0]!.writeBus.ones == 14),
    (136, run0.stats[0]!.writeBus.zeroes == 370),
    (137, run0.stats[0]!.writeBus.onesToZeroes == 14),
    (138, run0.stats[0]!.writeBus.zeroesToOnes == 14),
    (140, run0.stats[0]!.readBus.ones == 1),
    (141, run0.stats[0]!.readBus.zeroes == 383),
    (142, run0.stats[0]!.readBus.onesToZeroes == 1),
    (143, run0.stats[0]!.readBus.zeroesToOnes == 1),
    (146, run0.stats[0]!.readDBI.ones == 1),
    (147, run0.stats[0]!.readDBI.zeroes == 47),
    (148, run0.stats[0]!.readDBI.onesToZeroes == 1),
    (149, run0.stats[0]!.readDBI.zeroesToOnes == 1),
    (151, run0.stats[0]!.writeDBI.ones == 4),
    (152, run0.stats[0]!.writeDBI.zeroes == 44),
    (153, run0.stats[0]!.writeDBI.onesToZeroes == 2),
    (154, run0.stats[0]!.writeDBI.zeroesToOnes == 2)]

#guard failing checks == []

end test_dbi_lpddr5.Pattern_0

namespace test_dbi_lpddr5.Pattern_1

def run0 : Log := run .lpddr5 (lpddr5) [
    .dbi true,
    .core { t := 0, type := .ACT, co := { bank := 1, row := 2 } },
    .iface { t := 0, type := .ACT, co := { bank := 1, row := 2 } },
    .core { t := 4, type := .WR, co := { bank := 1, column := 16 }, nBits := 64, data := some test_dbi_lpddr5.wr_data },
    .iface { t := 4, type := .WR, co := { bank := 1, column := 16 }, nBits := 64, data := some test_dbi_lpddr5.wr_data },
    .core { t := 11, type := .RD, co := { bank := 1, column := 16 }, nBits := 64, data := some test_dbi_lpddr5.rd_data },
    .iface { t := 11, type := .RD, co := { bank := 1, column := 16 }, nBits := 64, data := some test_dbi_lpddr5.rd_data },
    .core { t := 15, type := .RD, co := { bank := 1, column := 16 }, nBits := 64, data := some test_dbi_lpddr5.rd_data },
    .iface { t := 15, type := .RD, co := { bank := 1, column := 16 }, nBits := 64, data := some test_dbi_lpddr5.rd_data },
    .core { t := 20, type := .PRE, co := { bank := 1, row := 2 } },
    .iface { t := 20, type := .PRE, co := { bank := 1, row := 2 } },
    .core { t := 24, type := .END_OF_SIMULATION },
    .iface { t := 24, type := .END_OF_SIMULATION },
    .stats]

def checks : List (Nat × Bool) := [
    (0, run0.ok),
    (169, run0.stats[0]!.writeBus.ones == 14),
    (170, run0.stats[0]!.writeBus.zeroes == 370),
    (171, run0.stats[0]!.writeBus.onesToZeroes == 14),
    (172, run0.stats[0]!.writeBus.zeroesToOnes == 14),
    (174, run0.stats[0]!.readBus.ones == 2),
    (175, run0.stats[0]!.readBus.zeroes == 382),
    (176, run0.stats[0]!.readBus.onesToZeroes == 2),
    (177, run0.stats[0]!.readBus.zeroesToOnes == 2),
    (180, run0.stats[0]!.readDBI.ones == 2),
    (181, run0.stats[0]!.readDBI.zeroes == 46),
    (182, run0.stats[0]!.readDBI.onesToZeroes == 2),
    (183, run0.stats[0]!.readDBI.zeroesToOnes == 2),
    (185, run0.stats[0]!.writeDBI.ones == 4),
    (186, run0.stats[0]!.writeDBI.zeroes == 44),
    (187, run0.stats[0]!.writeDBI.onesToZeroes == 2),
    (188, run0.stats[0]!.writeDBI.zeroesToOnes == 2)]

#guard failing checks == []

end test_dbi_lpddr5.Pattern_1

namespace test_dbi_lpddr5.Energy

def calc0 : List InterfaceInfo := calculate .lpddr5 ({ lpddr5 with
  wires := { lpddr5.wires with imp := { lpddr5.wires.imp with rdbi := { lpddr5.wires.imp.rdbi with rEq := 1, dynE := 3 }, wdbi := { lpddr5.wires.imp.wdbi with rEq := 2, dynE := 4 } } } }) [
    { readDBI := { ones := 1, zeroes := 2, onesToZeroes := 3, zeroesToOnes := 4 }, writeDBI := { ones := 0, zeroesToOnes := 0 } }]

def checks : List (Nat × Bool) := [
    (239, (calc0[0]!.controller.static : Rat) == 0),
    (240, (calc0[0]!.controller.dynamic : Rat) == 0),
    (241, (calc0[0]!.dram.static : Rat) == (76923076923076923076923076923077/800000000000000000000000000000000000000000)),
    (242, (calc0[0]!.dram.dynamic : Rat) == 12)]

#guard failing checks == []

end test_dbi_lpddr5.Energy

/-! ## tests/tests_drampower/interface/test_interface_ddr4.cpp -/

def test_interface_ddr4.wr_data : List UInt8 := [
  0, 0, 0, 0, 0, 0, 0, 255]

def test_interface_ddr4.rd_data : List UInt8 := [
  0, 0, 0, 0, 0, 0, 0, 1]

namespace test_interface_ddr4.Pattern_0

def run0 : Log := run .ddr4 (ddr4) [
    .core { t := 0, type := .ACT, co := { bank := 1, row := 2 } },
    .iface { t := 0, type := .ACT, co := { bank := 1, row := 2 } },
    .core { t := 4, type := .WR, co := { bank := 1, column := 16 }, nBits := 64, data := some test_interface_ddr4.wr_data },
    .iface { t := 4, type := .WR, co := { bank := 1, column := 16 }, nBits := 64, data := some test_interface_ddr4.wr_data },
    .core { t := 11, type := .RD, co := { bank := 1, column := 16 }, nBits := 64, data := some test_interface_ddr4.rd_data },
    .iface { t := 11, type := .RD, co := { bank := 1, column := 16 }, nBits := 64, data := some test_interface_ddr4.rd_data },
    .core { t := 16, type := .PRE, co := { bank := 1, row := 2 } },
    .iface { t := 16, type := .PRE, co := { bank := 1, row := 2 } },
    .core { t := 24, type := .END_OF_SIMULATION },
    .iface { t := 24, type := .END_OF_SIMULATION },
    .stats]

def checks : List (Nat × Bool) := [
    (0, run0.ok),
    (110, run0.stats[0]!.clockStats.ones == 48),
    (111, run0.stats[0]!.clockStats.zeroes == 48),
    (112, run0.stats[0]!.clockStats.onesToZeroes == 48),
    (113, run0.stats[0]!.clockStats.zeroesToOnes == 48),
    (116, run0.stats[0]!.writeBus.ones == 328),
    (117, run0.stats[0]!.writeBus.zeroes == 56),
    (118, run0.stats[0]!.writeBus.onesToZeroes == 8),
    (119, run0.stats[0]!.writeBus.zeroesToOnes == 8),
    (121, run0.stats[0]!.readBus.ones == 321),
    (122, run0.stats[0]!.readBus.zeroes == 63),
    (123, run0.stats[0]!.readBus.onesToZeroes == 8),
    (124, run0.stats[0]!.readBus.zeroesToOnes == 8),
    (126, run0.stats[0]!.commandBus.ones == 591),
    (127, run0.stats[0]!.commandBus.zeroes == 57),
    (128, run0.stats[0]!.commandBus.onesToZeroes == 57),
    (129, run0.stats[0]!.commandBus.zeroesToOnes == 57),
    (141, run0.stats[0]!.writeDQSStats.ones == 8),
    (142, run0.stats[0]!.writeDQSStats.zeroes == 8),
    (143, run0.stats[0]!.writeDQSStats.onesToZeroes == 8),
    (144, run0.stats[0]!.writeDQSStats.zeroesToOnes == 8),
    (147, run0.stats[0]!.readDQSStats.ones == 8),
    (148, run0.stats[0]!.readDQSStats.zeroes == 8),
    (149, run0.stats[0]!.readDQSStats.onesToZeroes == 8),
    (150, run0.stats[0]!.readDQSStats.zeroesToOnes == 8),
    (155, run0.stats[0]!.rankTotal[0]!.prepos.readSeamless == 0),
    (156, run0.stats[0]!.rankTotal[0]!.prepos.writeSeamless == 0),
    (157, run0.stats[0]!.rankTotal[0]!.prepos.readMerged == 0),
    (158, run0.stats[0]!.rankTotal[0]!.prepos.readMergedTime == 0),
    (159, run0.stats[0]!.rankTotal[0]!.prepos.writeMerged == 0),
    (160, run0.stats[0]!.rankTotal[0]!.prepos.writeMergedTime == 0)]

#guard failing checks == []

end test_interface_ddr4.Pattern_0

namespace test_interface_ddr4.Pattern_1

def run0 : Log := run .ddr4 (ddr4) [
    .core { t := 0, type := .ACT, co := { bank := 1, row := 2 } },
    .iface { t := 0, type := .ACT, co := { bank := 1, row := 2 } },
    .core { t := 4, type := .WR, co := { bank := 1, column := 16 }, nBits := 64, data := some test_interface_ddr4.wr_data },
    .iface { t := 4, type := .WR, co := { bank := 1, column := 16 }, nBits := 64, data := some test_interface_ddr4.wr_data },
    .core { t := 8, type := .WR, co := { bank := 1, column := 16 }, nBits := 64, data := some test_interface_ddr4.wr_data },
    .iface { t := 8, type := .WR, co := { bank := 1, column := 16 }, nBits := 64, data := some test_interface_ddr4.wr_data },
    .core { t := 16, type := .PRE, co := { bank := 1, row := 2 } },
    .iface { t := 16, type := .PRE, co := { bank := 1, row := 2 } },
    .core { t := 24, type := .END_OF_SIMULATION },
    .iface { t := 24, type := .END_OF_SIMULATION },
    .stats]

def checks : List (Nat × Bool) := [
    (0, run0.ok),
    (171, run0.stats[0]!.clockStats.ones == 48),
    (172, run0.stats[0]!.clockStats.zeroes == 48),
    (173, run0.stats[0]!.clockStats.onesToZeroes == 48),
    (174, run0.stats[0]!.clockStats.zeroesToOnes == 48),
    (177, run0.stats[0]!.writeBus.ones == 272),
    (178, run0.stats[0]!.writeBus.zeroes == 112),
    (179, run0.stats[0]!.writeBus.onesToZeroes == 16),
    (180, run0.stats[0]!.writeBus.zeroesToOnes == 16),
    (182, run0.stats[0]!.readBus.ones == 384),
    (183, run0.stats[0]!.readBus.zeroes == 0),
    (184, run0.stats[0]!.readBus.onesToZeroes == 0),
    (185, run0.stats[0]!.readBus.zeroesToOnes == 0),
    (187, run0.stats[0]!.commandBus.ones == 593),
    (188, run0.stats[0]!.commandBus.zeroes == 55),
    (189, run0.stats[0]!.commandBus.onesToZeroes == 55),
    (190, run0.stats[0]!.commandBus.zeroesToOnes == 55),
    (202, run0.stats[0]!.writeDQSStats.ones == 16),
    (203, run0.stats[0]!.writeDQSStats.zeroes == 16),
    (204, run0.stats[0]!.writeDQSStats.onesToZeroes == 16),
    (205, run0.stats[0]!.writeDQSStats.zeroesToOnes == 16),
    (208, run0.stats[0]!.readDQSStats.ones == 0),
    (209, run0.stats[0]!.readDQSStats.zeroes == 0),
    (210, run0.stats[0]!.readDQSStats.onesToZeroes == 0),
    (211, run0.stats[0]!.readDQSStats.zeroesToOnes == 0),
    (215, run0.stats[0]!.rankTotal[0]!.prepos.readSeamless == 0),
    (216, run0.stats[0]!.rankTotal[0]!.prepos.writeSeamless == 1),
    (217, run0.stats[0]!.rankTotal[0]!.prepos.readMerged == 0),
    (218, run0.stats[0]!.rankTotal[0]!.prepos.readMergedTime == 0),
    (219, run0.stats[0]!.rankTotal[0]!.prepos.writeMerged == 0),
    (220, run0.stats[0]!.rankTotal[0]!.prepos.writeMergedTime == 0)]

#guard failing checks == []

end test_interface_ddr4.Pattern_1

namespace test_interface_ddr4.Pattern_2

def run0 : Log := run .ddr4 (ddr4) [
    .core { t := 0, type := .ACT, co := { bank := 1, row := 2 } },
    .iface { t := 0, type := .ACT, co := { bank := 1, row := 2 } },
    .core { t := 4, type := .RD, co := { bank := 1, column := 16 }, nBits := 64, data := some test_interface_ddr4.rd_data },
    .iface { t := 4, type := .RD, co := { bank := 1, column := 16 }, nBits := 64, data := some test_interface_ddr4.rd_data },
    .core { t := 8, type := .RD, co := { bank := 1, column := 16 }, nBits := 64, data := some test_interface_ddr4.rd_data },
    .iface { t := 8, type := .RD, co := { bank := 1, column := 16 }, nBits := 64, data := some test_interface_ddr4.rd_data },
    .core { t := 16, type := .PRE, co := { bank := 1, row := 2 } },
    .iface { t := 16, type := .PRE, co := { bank := 1, row := 2 } },
    .core { t := 24, type := .END_OF_SIMULATION },
    .iface { t := 24, type := .END_OF_SIMULATION },
    .stats]

def checks : List (Nat × Bool) := [
    (0, run0.ok),
    (229, run0.stats[0]!.clockStats.ones == 48),
    (230, run0.stats[0]!.clockStats.zeroes == 48),
    (231, run0.stats[0]!.clockStats.onesToZeroes == 48),
    (232, run0.stats[0]!.clockStats.zeroesToOnes == 48),
    (235, run0.stats[0]!.writeBus.ones == 384),
    (236, run0.stats[0]!.writeBus.zeroes == 0),
    (237, run0.stats[0]!.writeBus.onesToZeroes == 0),
    (238, run0.stats[0]!.writeBus.zeroesToOnes == 0),
    (240, run0.stats[0]!.readBus.ones == 258),
    (241, run0.stats[0]!.readBus.zeroes == 126),
    (242, run0.stats[0]!.readBus.onesToZeroes == 9),
    (243, run0.stats[0]!.readBus.zeroesToOnes == 9),
    (245, run0.stats[0]!.commandBus.ones == 589),
    (246, run0.stats[0]!.commandBus.zeroes == 59),
    (247, run0.stats[0]!.commandBus.onesToZeroes == 59),
    (248, run0.stats[0]!.commandBus.zeroesToOnes == 59),
    (260, run0.stats[0]!.readDQSStats.ones == 16),
    (261, run0.stats[0]!.readDQSStats.zeroes == 16),
    (262, run0.stats[0]!.readDQSStats.onesToZeroes == 16),
    (263, run0.stats[0]!.readDQSStats.zeroesToOnes == 16),
    (266, run0.stats[0]!.writeDQSStats.ones == 0),
    (267, run0.stats[0]!.writeDQSStats.zeroes == 0),
    (268, run0.stats[0]!.writeDQSStats.onesToZeroes == 0),
    (269, run0.stats[0]!.writeDQSStats.zeroesToOnes == 0),
    (273, run0.stats[0]!.rankTotal[0]!.prepos.readSeamless == 1),
    (274, run0.stats[0]!.rankTotal[0]!.prepos.writeSeamless == 0),
    (275, run0.stats[0]!.rankTotal[0]!.prepos.readMerged == 0),
    (276, run0.stats[0]!.rankTotal[0]!.prepos.readMergedTime == 0),
    (277, run0.stats[0]!.rankTotal[0]!.prepos.writeMerged == 0),
    (278, run0.stats[0]!.rankTotal[0]!.prepos.writeMergedTime == 0)]

#guard failing checks == []

end test_interface_ddr4.Pattern_2

namespace test_interface_ddr4.Pattern_3

def run0 : Log := run .ddr4 (ddr4) [
    .core { t := 0, type := .ACT, co := { bank := 1, row := 2 } },
    .iface { t := 0, type := .ACT, co := { bank := 1, row := 2 } },
    .core { t := 4, type := .WR, co := { bank := 1, column := 16 }, nBits := 64, data := some test_interface_ddr4.wr_data },
    .iface { t := 4, type := .WR, co := { bank := 1, column := 16 }, nBits := 64, data := some test_interface_ddr4.wr_data },
    .core { t := 10, type := .WR, co := { bank := 1, column := 16 }, nBits := 64, data := some test_interface_ddr4.wr_data },
    .iface { t := 10, type := .WR, co := { bank := 1, column := 16 }, nBits := 64, data := some test_interface_ddr4.wr_data },
    .core { t := 15, type := .PRE, co := { bank := 1, row := 2 } },
    .iface { t := 15, type := .PRE, co := { bank := 1, row := 2 } },
    .core { t := 24, type := .END_OF_SIMULATION },
    .iface { t := 24, type := .END_OF_SIMULATION },
    .stats]

def checks : List (Nat × Bool) := [
    (0, run0.ok),
    (287, run0.stats[0]!.clockStats.ones == 48),
    (288, run0.stats[0]!.clockStats.zeroes == 48),
    (289, run0.stats[0]!.clockStats.onesToZeroes == 48),
    (290, run0.stats[0]!.clockStats.zeroesToOnes == 48),
    (293, run0.stats[0]!.writeBus.ones == 272),
    (294, run0.stats[0]!.writeBus.zeroes == 112),
    (295, run0.stats[0]!.writeBus.onesToZeroes == 16),
    (296, run0.stats[0]!.writeBus.zeroesToOnes == 16),
    (298, run0.stats[0]!.readBus.ones == 384),
    (299, run0.stats[0]!.readBus.zeroes == 0),
    (300, run0.stats[0]!.readBus.onesToZeroes == 0),
    (301, run0.stats[0]!.readBus.zeroesToOnes == 0),
    (303, run0.stats[0]!.commandBus.ones == 593),
    (304, run0.stats[0]!.commandBus.zeroes == 55),
    (305, run0.stats[0]!.commandBus.onesToZeroes == 55),
    (306, run0.stats[0]!.commandBus.zeroesToOnes == 55),
    (318, run0.stats[0]!.writeDQSStats.ones == 16),
    (319, run0.stats[0]!.writeDQSStats.zeroes == 16),
    (320, run0.stats[0]!.writeDQSStats.onesToZeroes == 16),
    (321, run0.stats[0]!.writeDQSStats.zeroesToOnes == 16),
    (324, run0.stats[0]!.readDQSStats.ones == 0),
    (325, run0.stats[0]!.readDQSStats.zeroes == 0),
    (326, run0.stats[0]!.readDQSStats.onesToZeroes == 0),
    (327, run0.stats[0]!.readDQSStats.zeroesToOnes == 0),
    (331, run0.stats[0]!.rankTotal[0]!.prepos.readSeamless == 0),
    (332, run0.stats[0]!.rankTotal[0]!.prepos.writeSeamless == 0),
    (333, run0.stats[0]!.rankTotal[0]!.prepos.readMerged == 0),
    (334, run0.stats[0]!.rankTotal[0]!.prepos.readMergedTime == 0),
    (335, run0.stats[0]!.rankTotal[0]!.prepos.writeMerged == 0),
    (336, run0.stats[0]!.rankTotal[0]!.prepos.writeMergedTime == 0)]

#guard failing checks == []

end test_interface_ddr4.Pattern_3

namespace test_interface_ddr4.Pattern_4

def run0 : Log := run .ddr4 (ddr4) [
    .core { t := 0, type := .ACT, co := { bank := 1, row := 2 } },
    .iface { t := 0, type := .ACT, co := { bank := 1, row := 2 } },
    .core { t := 4, type := .RD, co := { bank := 1, column := 16 }, nBits := 64, data := some test_interface_ddr4.rd_data },
    .iface { t := 4, type := .RD, co := { bank := 1, column := 16 }, nBits := 64, data := some test_interface_ddr4.rd_data },
    .core { t := 11, type := .RD, co := { bank := 1, column := 16 }, nBits := 64, data := some test_interface_ddr4.rd_data },
    .iface { t := 11, type := .RD, co := { bank := 1, column := 16 }, nBits := 64, data := some test_interface_ddr4.rd_data },
    .core { t := 16, type := .PRE, co := { bank := 1, row := 2 } },
    .iface { t := 16, type := .PRE, co := { bank := 1, row := 2 } },
    .core { t := 24, type := .END_OF_SIMULATION },
    .iface { t := 24, type := .END_OF_SIMULATION },
    .stats]

def checks : List (Nat × Bool) := [
    (0, run0.ok),
    (345, run0.stats[0]!.clockStats.ones == 48),
    (346, run0.stats[0]!.clockStats.zeroes == 48),
    (347, run0.stats[0]!.clockStats.onesToZeroes == 48),
    (348, run0.stats[0]!.clockStats.zeroesToOnes == 48),
    (351, run0.stats[0]!.writeBus.ones == 384),
    (352, run0.stats[0]!.writeBus.zeroes == 0),
    (353, run0.stats[0]!.writeBus.onesToZeroes == 0),
    (354, run0.stats[0]!.writeBus.zeroesToOnes == 0),
    (356, run0.stats[0]!.readBus.ones == 258),
    (357, run0.stats[0]!.readBus.zeroes == 126),
    (358, run0.stats[0]!.readBus.onesToZeroes == 16),
    (359, run0.stats[0]!.readBus.zeroesToOnes == 16),
    (361, run0.stats[0]!.commandBus.ones == 589),
    (362, run0.stats[0]!.commandBus.zeroes == 59),
    (363, run0.stats[0]!.commandBus.onesToZeroes == 59),
    (364, run0.stats[0]!.commandBus.zeroesToOnes == 59),
    (376, run0.stats[0]!.readDQSStats.ones == 16),
    (377, run0.stats[0]!.readDQSStats.zeroes == 16),
    (378, run0.stats[0]!.readDQSStats.onesToZeroes == 16),
    (379, run0.stats[0]!.readDQSStats.zeroesToOnes == 16),
    (382, run0.stats[0]!.writeDQSStats.ones == 0),
    (383, run0.stats[0]!.writeDQSStats.zeroes == 0),
    (384, run0.stats[0]!.writeDQSStats.onesToZeroes == 0),
    (385, run0.stats[0]!.writeDQSStats.zeroesToOnes == 0),
    (389, run0.stats[0]!.rankTotal[0]!.prepos.readSeamless == 0),
    (390, run0.stats[0]!.rankTotal[0]!.prepos.writeSeamless == 0),
    (391, run0.stats[0]!.rankTotal[0]!.prepos.readMerged == 0),
    (392, run0.stats[0]!.rankTotal[0]!.prepos.readMergedTime == 0),
    (393, run0.stats[0]!.rankTotal[0]!.prepos.writeMerged == 0),
    (394, run0.stats[0]!.rankTotal[0]!.prepos.writeMergedTime == 0)]

#guard failing checks == []

end test_interface_ddr4.Pattern_4

namespace test_interface_ddr4.Clock_Energy

def calc0 : List InterfaceInfo := calculate .ddr4 ({ ddr4 with
  wires := { ddr4.wires with imp := { ddr4.wires.imp with ca := { ddr4.wires.imp.ca with rEq := 2, dynE := 8 }, ck := { ddr4.wires.imp.ck with rEq := 3, dynE := 9 }, rdqs := { ddr4.wires.imp.rdqs with rEq := 4, dynE := 10 }, wdqs := { ddr4.wires.imp.wdqs with rEq := 5, dynE := 11 }, rdq := { ddr4.wires.imp.rdq with rEq := 6, dynE := 12 }, wdq := { ddr4.wires.imp.wdq with rEq := 7, dynE := 13 } }, ambles := { ddr4.wires.ambles with readZeroes := (5/2), readZeroesToOnes := 2, writeZeroes := (3/2), writeZeroesToOnes := 2 } } }) [
    { clockStats := { ones := 200, zeroesToOnes := 200, zeroes := 400, onesToZeroes := 400 } }]

def checks : List (Nat × Bool) := [
    (463, (calc0[0]!.dram.dynamic : Rat) == 0),
    (464, (calc0[0]!.dram.static : Rat) == 0),
    (474, (calc0[0]!.controller.static : Rat) == (230769230769230769230769230769231/3125000000000000000000000000000000000000)),
    (475, (calc0[0]!.controller.dynamic : Rat) == 1800)]

#guard failing checks == []

end test_interface_ddr4.Clock_Energy

namespace test_interface_ddr4.DQS_Energy

def calc0 : List InterfaceInfo := calculate .ddr4 ({ ddr4 with
  wires := { ddr4.wires with imp := { ddr4.wires.imp with ca := { ddr4.wires.imp.ca with rEq := 2, dynE := 8 }, ck := { ddr4.wires.imp.ck with rEq := 3, dynE := 9 }, rdqs := { ddr4.wires.imp.rdqs with rEq := 4, dynE := 10 }, wdqs := { ddr4.wires.imp.wdqs with rEq := 5, dynE := 11 }, rdq := { ddr4.wires.imp.rdq with rEq := 6, dynE := 12 }, wdq := { ddr4.wires.imp.wdq with rEq := 7, dynE := 13 } }, ambles := { ddr4.wires.ambles with readZeroes := (5/2), readZeroesToOnes := 2, writeZeroes := (3/2), writeZeroesToOnes := 2 } } }) [
    { readDQSStats := { ones := 200, zeroes := 400, zeroesToOnes := 700, onesToZeroes := 1000 }, writeDQSStats := { ones := 300, zeroes := 100, onesToZeroes := 2000, zeroesToOnes := 999 } }]

def checks : List (Nat × Bool) := [
    (508, (calc0[0]!.controller.static : Rat) == (692307692307692307692307692307693/62500000000000000000000000000000000000000)),
    (509, (calc0[0]!.controller.dynamic : Rat) == 10989),
    (510, (calc0[0]!.dram.static : Rat) == (692307692307692307692307692307693/12500000000000000000000000000000000000000)),
    (511, (calc0[0]!.dram.dynamic : Rat) == 7000)]

#guard failing checks == []

end test_interface_ddr4.DQS_Energy

namespace test_interface_ddr4.DQ_Energy

def calc0 : List InterfaceInfo := calculate .ddr4 ({ ddr4 with
  wires := { ddr4.wires with imp := { ddr4.wires.imp with ca := { ddr4.wires.imp.ca with rEq := 2, dynE := 8 }, ck := { ddr4.wires.imp.ck with rEq := 3, dynE := 9 }, rdqs := { ddr4.wires.imp.rdqs with rEq := 4, dynE := 10 }, wdqs := { ddr4.wires.imp.wdqs with rEq := 5, dynE := 11 }, rdq := { ddr4.wires.imp.rdq with rEq := 6, dynE := 12 }, wdq := { ddr4.wires.imp.wdq with rEq := 7, dynE := 13 } }, ambles := { ddr4.wires.ambles with readZeroes := (5/2), readZeroesToOnes := 2, writeZeroes := (3/2), writeZeroesToOnes := 2 } } }) [
    { readBus := { ones := 7, zeroes := 11, zeroesToOnes := 19, onesToZeroes := 39 }, writeBus := { ones := 43, zeroes := 59, zeroesToOnes := 13, onesToZeroes := 17 } }]

def checks : List (Nat × Bool) := [
    (542, (calc0[0]!.controller.static : Rat) == (5835164835164835164835164835164841/1250000000000000000000000000000000000000000)),
    (543, (calc0[0]!.controller.dynamic : Rat) == 169),
    (544, (calc0[0]!.dram.static : Rat) == (2538461538461538461538461538461541/2500000000000000000000000000000000000000000)),
    (545, (calc0[0]!.dram.dynamic : Rat) == 228)]

#guard failing checks == []

end test_interface_ddr4.DQ_Energy

namespace test_interface_ddr4.CA_Energy

def calc0 : List InterfaceInfo := calculate .ddr4 ({ ddr4 with
  wires := { ddr4.wires with imp := { ddr4.wires.imp with ca := { ddr4.wires.imp.ca with rEq := 2, dynE := 8 }, ck := { ddr4.wires.imp.ck with rEq := 3, dynE := 9 }, rdqs := { ddr4.wires.imp.rdqs with rEq := 4, dynE := 10 }, wdqs := { ddr4.wires.imp.wdqs with rEq := 5, dynE := 11 }, rdq := { ddr4.wires.imp.rdq with rEq := 6, dynE := 12 }, wdq := { ddr4.wires.imp.wdq with rEq := 7, dynE := 13 } }, ambles := { ddr4.wires.ambles with readZeroes := (5/2), readZeroesToOnes := 2, writeZeroes := (3/2), writeZeroesToOnes := 2 } } }) [
    { commandBus := { ones := 11, zeroes := 29, zeroesToOnes := 39, onesToZeroes := 49 } }]

def checks : List (Nat × Bool) := [
    (563, (calc0[0]!.dram.dynamic : Rat) == 0),
    (564, (calc0[0]!.dram.static : Rat) == 0),
    (566, (calc0[0]!.controller.static : Rat) == (20076923076923076923076923076923097/1250000000000000000000000000000000000000000)),
    (567, (calc0[0]!.controller.dynamic : Rat) == 312)]

#guard failing checks == []

end test_interface_ddr4.CA_Energy

namespace test_interface_ddr4.PrePostamble_Energy

def calc0 : List InterfaceInfo := calculate .ddr4 ({ ddr4 with
  wires := { ddr4.wires with imp := { ddr4.wires.imp with ca := { ddr4.wires.imp.ca with rEq := 2, dynE := 8 }, ck := { ddr4.wires.imp.ck with rEq := 3, dynE := 9 }, rdqs := { ddr4.wires.imp.rdqs with rEq := 4, dynE := 10 }, wdqs := { ddr4.wires.imp.wdqs with rEq := 5, dynE := 11 }, rdq := { ddr4.wires.imp.rdq with rEq := 6, dynE := 12 }, wdq := { ddr4.wires.imp.wdq with rEq := 7, dynE := 13 } }, ambles := { ddr4.wires.ambles with readZeroes := (5/2), readZeroesToOnes := 2, writeZeroes := (3/2), writeZeroesToOnes := 2 } } }) [
    { readDQSStats := { ones := 200, zeroes := 400, zeroesToOnes := 700, onesToZeroes := 1000 }, writeDQSStats := { ones := 300, zeroes := 100, onesToZeroes := 2000, zeroesToOnes := 999 }, rankTotal := [{ prepos := { readMerged := 0, readMergedTime := 0, writeMerged := 0, writeMergedTime := 0, readSeamless := 4, writeSeamless := 5 }, counter := { reads := 4, readAuto := 10, writes := 6, writeAuto := 11 } }] }]

def checks : List (Nat × Bool) := [
    (632, (calc0[0]!.controller.static : Rat) == (11769230769230769230769230769230781/781250000000000000000000000000000000000000)),
    (633, (calc0[0]!.controller.dynamic : Rat) == 11253),
    (634, (calc0[0]!.dram.static : Rat) == (6230769230769230769230769230769237/100000000000000000000000000000000000000000)),
    (635, (calc0[0]!.dram.dynamic : Rat) == 7200)]

#guard failing checks == []

end test_interface_ddr4.PrePostamble_Energy

/-! ## tests/tests_drampower/interface/test_interface_ddr5.cpp -/

def test_interface_ddr5.wr_data : List UInt8 := [
  0, 0, 0, 0, 0, 0, 0, 255, 0, 0, 0, 0, 0, 0, 0, 0, 0, 0, 0, 0, 0, 0, 0, 0, 0, 0, 0, 0, 0, 0, 0, 255]

def test_interface_ddr5.rd_data : List UInt8 := [
  0, 0, 0, 0, 0, 0, 0, 1, 0, 0, 0, 0, 0, 0, 0, 0, 0, 0, 0, 0, 0, 0, 0, 0, 0, 0, 0, 0, 0, 0, 0, 0]

namespace test_interface_ddr5.Pattern_0

def run0 : Log := run .ddr5 ({ ddr5 with
  iface := { ddr5.iface with bitWidth := 16 },
  wires := { ddr5.wires with bitWidth := 16 } }) [
    .core { t := 0, type := .ACT, co := { bank := 1, row := 2 } },
    .iface { t := 0, type := .ACT, co := { bank := 1, row := 2 } },
    .core { t := 3, type := .WR, co := { bank := 1, column := 4 }, nBits := 256, data := some test_interface_ddr5.wr_data },
    .iface { t := 3, type := .WR, co := { bank := 1, column := 4 }, nBits := 256, data := some test_interface_ddr5.wr_data },
    .core { t := 12, type := .RD, co := { bank := 1, column := 4 }, nBits := 256, data := some test_interface_ddr5.rd_data },
    .iface { t := 12, type := .RD, co := { bank := 1, column := 4 }, nBits := 256, data := some test_interface_ddr5.rd_data },
    .core { t := 21, type := .PRE, co := { bank := 1, row := 2 } },
    .iface { t := 21, type := .PRE, co := { bank := 1, row := 2 } },
    .core { t := 24, type := .END_OF_SIMULATION },
    .iface { t := 24, type := .END_OF_SIMULATION },
    .stats]

def checks : List (Nat × Bool) := [
    (0, run0.ok),
    (95, run0.stats[0]!.writeBus.ones == 528),
    (96, run0.stats[0]!.writeBus.zeroes == 240),
    (97, run0.stats[0]!.writeBus.onesToZeroes == 24),
    (98, run0.stats[0]!.writeBus.zeroesToOnes == 24),
    (100, run0.stats[0]!.readBus.ones == 513),
    (101, run0.stats[0]!.readBus.zeroes == 255),
    (102, run0.stats[0]!.readBus.onesToZeroes == 17),
    (103, run0.stats[0]!.readBus.zeroesToOnes == 17),
    (106, run0.stats[0]!.clockStats.ones == 48),
    (107, run0.stats[0]!.clockStats.zeroes == 48),
    (108, run0.stats[0]!.clockStats.onesToZeroes == 48),
    (109, run0.stats[0]!.clockStats.zeroesToOnes == 48),
    (113, run0.stats[0]!.commandBus.ones == 282),
    (114, run0.stats[0]!.commandBus.zeroes == 54),
    (115, run0.stats[0]!.commandBus.onesToZeroes == 39),
    (116, run0.stats[0]!.commandBus.zeroesToOnes == 39),
    (128, run0.stats[0]!.writeDQSStats.ones == 32),
    (129, run0.stats[0]!.writeDQSStats.zeroes == 32),
    (130, run0.stats[0]!.writeDQSStats.onesToZeroes == 32),
    (131, run0.stats[0]!.writeDQSStats.zeroesToOnes == 32),
    (134, run0.stats[0]!.readDQSStats.ones == 32),
    (135, run0.stats[0]!.readDQSStats.zeroes == 32),
    (136, run0.stats[0]!.readDQSStats.onesToZeroes == 32),
    (137, run0.stats[0]!.readDQSStats.zeroesToOnes == 32)]

#guard failing checks == []

end test_interface_ddr5.Pattern_0

namespace test_interface_ddr5.Pattern_1

def run0 : Log := run .ddr5 ({ ddr5 with
  iface := { ddr5.iface with bitWidth := 16 },
  wires := { ddr5.wires with bitWidth := 16 } }) [
    .core { t := 0, type := .ACT, co := { bank := 2, row := 372 } },
    .iface { t := 0, type := .ACT, co := { bank := 2, row := 372 } },
    .core { t := 3, type := .WR, co := { bank := 2, row := 372, column := 27 }, nBits := 256, data := some test_interface_ddr5.wr_data },
    .iface { t := 3, type := .WR, co := { bank := 2, row := 372, column := 27 }, nBits := 256, data := some test_interface_ddr5.wr_data },
    .core { t := 12, type := .PRE, co := { bank := 2, row := 372 } },
    .iface { t := 12, type := .PRE, co := { bank := 2, row := 372 } },
    .core { t := 15, type := .SREFEN },
    .iface { t := 15, type := .SREFEN },
    .core { t := 42, type := .END_OF_SIMULATION },
    .iface { t := 42, type := .END_OF_SIMULATION },
    .stats]

def checks : List (Nat × Bool) := [
    (0, run0.ok),
    (145, run0.stats[0]!.writeBus.ones == 1104),
    (146, run0.stats[0]!.writeBus.zeroes == 240),
    (147, run0.stats[0]!.writeBus.onesToZeroes == 24),
    (148, run0.stats[0]!.writeBus.zeroesToOnes == 24),
    (150, run0.stats[0]!.readBus.ones == 1344),
    (151, run0.stats[0]!.readBus.zeroes == 0),
    (152, run0.stats[0]!.readBus.onesToZeroes == 0),
    (153, run0.stats[0]!.readBus.zeroesToOnes == 0),
    (155, run0.stats[0]!.commandBus.ones == 551),
    (156, run0.stats[0]!.commandBus.zeroes == 37),
    (157, run0.stats[0]!.commandBus.onesToZeroes == 28),
    (158, run0.stats[0]!.commandBus.zeroesToOnes == 28)]

#guard failing checks == []

end test_interface_ddr5.Pattern_1

namespace test_interface_ddr5.Pattern_2

def run0 : Log := run .ddr5 ({ ddr5 with
  iface := { ddr5.iface with bitWidth := 16 },
  wires := { ddr5.wires with bitWidth := 16 } }) [
    .core { t := 0, type := .ACT, co := { bank := 2, row := 372 } },
    .iface { t := 0, type := .ACT, co := { bank := 2, row := 372 } },
    .core { t := 3, type := .RD, co := { bank := 2, row := 372, column := 27 }, nBits := 256, data := some test_interface_ddr5.rd_data },
    .iface { t := 3, type := .RD, co := { bank := 2, row := 372, column := 27 }, nBits := 256, data := some test_interface_ddr5.rd_data },
    .core { t := 12, type := .WRA, co := { bank := 2, row := 372, column := 27 }, nBits := 256, data := some test_interface_ddr5.wr_data },
    .iface { t := 12, type := .WRA, co := { bank := 2, row := 372, column := 27 }, nBits := 256, data := some test_interface_ddr5.wr_data },
    .core { t := 28, type := .SREFEN },
    .iface { t := 28, type := .SREFEN },
    .core { t := 55, type := .END_OF_SIMULATION },
    .iface { t := 55, type := .END_OF_SIMULATION },
    .stats]

def checks : List (Nat × Bool) := [
    (0, run0.ok),
    (166, run0.stats[0]!.writeBus.ones == 1520),
    (167, run0.stats[0]!.writeBus.zeroes == 240),
    (168, run0.stats[0]!.writeBus.onesToZeroes == 24),
    (169, run0.stats[0]!.writeBus.zeroesToOnes == 24),
    (171, run0.stats[0]!.readBus.ones == 1505),
    (172, run0.stats[0]!.readBus.zeroes == 255),
    (173, run0.stats[0]!.readBus.onesToZeroes == 17),
    (174, run0.stats[0]!.readBus.zeroesToOnes == 17),
    (176, run0.stats[0]!.commandBus.ones == 724),
    (177, run0.stats[0]!.commandBus.zeroes == 46),
    (178, run0.stats[0]!.commandBus.onesToZeroes == 33),
    (179, run0.stats[0]!.commandBus.zeroesToOnes == 33)]

#guard failing checks == []

end test_interface_ddr5.Pattern_2

namespace test_interface_ddr5.Clock_Energy

def calc0 : List InterfaceInfo := calculate .ddr5 ({ ddr5 with
  wires := { ddr5.wires with imp := { ddr5.wires.imp with ca := { ddr5.wires.imp.ca with rEq := 2, dynE := 8 }, ck := { ddr5.wires.imp.ck with rEq := 3, dynE := 9 }, rdqs := { ddr5.wires.imp.rdqs with rEq := 4, dynE := 10 }, wdqs := { ddr5.wires.imp.wdqs with rEq := 5, dynE := 11 }, rdq := { ddr5.wires.imp.rdq with rEq := 6, dynE := 12 }, wdq := { ddr5.wires.imp.wdq with rEq := 7, dynE := 13 } } } }) [
    { clockStats := { ones := 200, zeroesToOnes := 200, zeroes := 400, onesToZeroes := 400 } }]

def checks : List (Nat × Bool) := [
    (232, (calc0[0]!.dram.dynamic : Rat) == 0),
    (233, (calc0[0]!.dram.static : Rat) == 0),
    (240, (calc0[0]!.controller.static : Rat) == (9307692307692307692307692307692317/150000000000000000000000000000000000000000)),
    (241, (calc0[0]!.controller.dynamic : Rat) == 1800)]

#guard failing checks == []

end test_interface_ddr5.Clock_Energy

namespace test_interface_ddr5.DQS_Energy

def calc0 : List InterfaceInfo := calculate .ddr5 ({ ddr5 with
  wires := { ddr5.wires with imp := { ddr5.wires.imp with ca := { ddr5.wires.imp.ca with rEq := 2, dynE := 8 }, ck := { ddr5.wires.imp.ck with rEq := 3, dynE := 9 }, rdqs := { ddr5.wires.imp.rdqs with rEq := 4, dynE := 10 }, wdqs := { ddr5.wires.imp.wdqs with rEq := 5, dynE := 11 }, rdq := { ddr5.wires.imp.rdq with rEq := 6, dynE := 12 }, wdq := { ddr5.wires.imp.wdq with rEq := 7, dynE := 13 } } } }) [
    { readDQSStats := { ones := 200, zeroes := 400, zeroesToOnes := 700, onesToZeroes := 1000 }, writeDQSStats := { ones := 300, zeroes := 100, onesToZeroes := 2000, zeroesToOnes := 999 } }]

def checks : List (Nat × Bool) := [
    (271, (calc0[0]!.controller.static : Rat) == (9307692307692307692307692307692317/1000000000000000000000000000000000000000000)),
    (272, (calc0[0]!.controller.dynamic : Rat) == 10989),
    (273, (calc0[0]!.dram.static : Rat) == (9307692307692307692307692307692317/200000000000000000000000000000000000000000)),
    (274, (calc0[0]!.dram.dynamic : Rat) == 7000)]

#guard failing checks == []

end test_interface_ddr5.DQS_Energy

namespace test_interface_ddr5.DQ_Energy

def calc0 : List InterfaceInfo := calculate .ddr5 ({ ddr5 with
  wires := { ddr5.wires with imp := { ddr5.wires.imp with ca := { ddr5.wires.imp.ca with rEq := 2, dynE := 8 }, ck := { ddr5.wires.imp.ck with rEq := 3, dynE := 9 }, rdqs := { ddr5.wires.imp.rdqs with rEq := 4, dynE := 10 }, wdqs := { ddr5.wires.imp.wdqs with rEq := 5, dynE := 11 }, rdq := { ddr5.wires.imp.rdq with rEq := 6, dynE := 12 }, wdq := { ddr5.wires.imp.wdq with rEq := 7, dynE := 13 } } } }) [
    { readBus := { ones := 7, zeroes := 11, zeroesToOnes := 19, onesToZeroes := 39 }, writeBus := { ones := 43, zeroes := 59, zeroesToOnes := 13, onesToZeroes := 17 } }]

def checks : List (Nat × Bool) := [
    (304, (calc0[0]!.controller.static : Rat) == (78450549450549450549450549450549529/20000000000000000000000000000000000000000000)),
    (305, (calc0[0]!.controller.dynamic : Rat) == 169),
    (306, (calc0[0]!.dram.static : Rat) == (102384615384615384615384615384615487/120000000000000000000000000000000000000000000)),
    (307, (calc0[0]!.dram.dynamic : Rat) == 228)]

#guard failing checks == []

end test_interface_ddr5.DQ_Energy

namespace test_interface_ddr5.CA_Energy

def calc0 : List InterfaceInfo := calculate .ddr5 ({ ddr5 with
  wires := { ddr5.wires with imp := { ddr5.wires.imp with ca := { ddr5.wires.imp.ca with rEq := 2, dynE := 8 }, ck := { ddr5.wires.imp.ck with rEq := 3, dynE := 9 }, rdqs := { ddr5.wires.imp.rdqs with rEq := 4, dynE := 10 }, wdqs := { ddr5.wires.imp.wdqs with rEq := 5, dynE := 11 }, rdq := { ddr5.wires.imp.rdq with rEq := 6, dynE := 12 }, wdq := { ddr5.wires.imp.wdq with rEq := 7, dynE := 13 } } } }) [
    { commandBus := { ones := 11, zeroes := 29, zeroesToOnes := 39, onesToZeroes := 49 } }]

def checks : List (Nat × Bool) := [
    (323, (calc0[0]!.dram.dynamic : Rat) == 0),
    (324, (calc0[0]!.dram.static : Rat) == 0),
    (326, (calc0[0]!.controller.static : Rat) == (269923076923076923076923076923077193/20000000000000000000000000000000000000000000)),
    (327, (calc0[0]!.controller.dynamic : Rat) == 312)]

#guard failing checks == []

end test_interface_ddr5.CA_Energy

/-! ## tests/tests_drampower/interface/test_interface_lpddr4.cpp -/

def test_interface_lpddr4.wr_data : List UInt8 := [
  0, 0, 0, 0, 0, 0, 0, 255, 0, 0, 0, 0, 0, 0, 0, 0, 0, 0, 0, 0, 0, 0, 0, 0, 0, 0, 0, 0, 0, 0, 0, 255]

def test_interface_lpddr4.rd_data : List UInt8 := [
  0, 0, 0, 0, 0, 0, 0, 1, 0, 0, 0, 0, 0, 0, 0, 0, 0, 0, 0, 0, 0, 0, 0, 0, 0, 0, 0, 0, 0, 0, 0, 0]

namespace test_interface_lpddr4.TestStats

def run0 : Log := run .lpddr4 ({ lpddr4 with
  core := { lpddr4.core with numberOfRanks := 1, numberOfBanks := 2, tRAS := 10, tRCD := 20, tRFC := 10, tRFCPB := 25, tRP := 20 },
  power := { lpddr4.power with ranks := 1, banks := 2, burstLength := 16, dataRate := 2, devices := 1, tRAS := 10, tRFC := 10, tRFCpb := 25, tRP := 20, tCK := 1, tREFI := 1, rho := (333333333/1000000000), domains := ((lpddr4.power.domains.modify 0 fun d => { d with v := 1, i0 := 64, i2n := 8, i2p := 6, i3n := 32, i3p := 20, i4r := 72, i4w := 72 }).modify 1 fun d => { d with v := 1, i0 := 64, i2n := 8, i2p := 6, i3n := 32, i3p := 20, i4r := 72, i4w := 72 }) },
  iface := { lpddr4.iface with ranks := 1, bitWidth := 16, burstLength := 16, dataRate := 2, devices := 1 },
  wires := { lpddr4.wires with bitWidth := 16, dataRate := 2, tCK := 1 } }) [
    .core { t := 0, type := .ACT, co := { bank := 1, row := 2 } },
    .iface { t := 0, type := .ACT, co := { bank := 1, row := 2 } },
    .core { t := 5, type := .WR, co := { bank := 1, column := 16 }, nBits := 256, data := some test_interface_lpddr4.wr_data },
    .iface { t := 5, type := .WR, co := { bank := 1, column := 16 }, nBits := 256, data := some test_interface_lpddr4.wr_data },
    .core { t := 14, type := .RD, co := { bank := 1, column := 16 }, nBits := 256, data := some test_interface_lpddr4.rd_data },
    .iface { t := 14, type := .RD, co := { bank := 1, column := 16 }, nBits := 256, data := some test_interface_lpddr4.rd_data },
    .core { t := 23, type := .PRE, co := { bank := 1, row := 2 } },
    .iface { t := 23, type := .PRE, co := { bank := 1, row := 2 } },
    .core { t := 26, type := .END_OF_SIMULATION },
    .iface { t := 26, type := .END_OF_SIMULATION },
    .stats]

def checks : List (Nat × Bool) := [
    (0, run0.ok),
    (139, run0.stats[0]!.commandBus.ones == 15),
    (140, run0.stats[0]!.commandBus.zeroes == 141),
    (141, run0.stats[0]!.commandBus.onesToZeroes == 14),
    (142, run0.stats[0]!.commandBus.zeroesToOnes == 14),
    (145, run0.stats[0]!.readBus.ones == 1),
    (146, run0.stats[0]!.readBus.zeroes == 831),
    (147, run0.stats[0]!.readBus.onesToZeroes == 1),
    (148, run0.stats[0]!.readBus.zeroesToOnes == 1),
    (149, run0.stats[0]!.readBus.bitChanges == 2),
    (152, run0.stats[0]!.writeBus.ones == 16),
    (153, run0.stats[0]!.writeBus.zeroes == 816),
    (154, run0.stats[0]!.writeBus.onesToZeroes == 16),
    (155, run0.stats[0]!.writeBus.zeroesToOnes == 16),
    (156, run0.stats[0]!.writeBus.bitChanges == 32)]

#guard failing checks == []

end test_interface_lpddr4.TestStats

namespace test_interface_lpddr4.TestDQS

def run0 : Log := run .lpddr4 ({ lpddr4 with
  core := { lpddr4.core with numberOfRanks := 1, numberOfBanks := 2, tRAS := 10, tRCD := 20, tRFC := 10, tRFCPB := 25, tRP := 20 },
  power := { lpddr4.power with ranks := 1, banks := 2, burstLength := 16, dataRate := 2, devices := 1, tRAS := 10, tRFC := 10, tRFCpb := 25, tRP := 20, tCK := 1, tREFI := 1, rho := (333333333/1000000000), domains := ((lpddr4.power.domains.modify 0 fun d => { d with v := 1, i0 := 64, i2n := 8, i2p := 6, i3n := 32, i3p := 20, i4r := 72, i4w := 72 }).modify 1 fun d => { d with v := 1, i0 := 64, i2n := 8, i2p := 6, i3n := 32, i3p := 20, i4r := 72, i4w := 72 }) },
  iface := { lpddr4.iface with ranks := 1, bitWidth := 16, burstLength := 16, dataRate := 2, devices := 1 },
  wires := { lpddr4.wires with bitWidth := 16, dataRate := 2, tCK := 1 } }) [
    .window 0,
    .core { t := 0, type := .ACT, co := { bank := 1, row := 2 } },
    .iface { t := 0, type := .ACT, co := { bank := 1, row := 2 } },
    .window 5,
    .core { t := 5, type := .WR, co := { bank := 1, column := 16 }, nBits := 256, data := some test_interface_lpddr4.wr_data },
    .iface { t := 5, type := .WR, co := { bank := 1, column := 16 }, nBits := 256, data := some test_interface_lpddr4.wr_data },
    .window 14,
    .core { t := 14, type := .RD, co := { bank := 1, column := 16 }, nBits := 256, data := some test_interface_lpddr4.rd_data },
    .iface { t := 14, type := .RD, co := { bank := 1, column := 16 }, nBits := 256, data := some test_interface_lpddr4.rd_data },
    .window 23,
    .core { t := 23, type := .WR, co := { bank := 1, column := 16 }, nBits := 256, data := some test_interface_lpddr4.wr_data },
    .iface { t := 23, type := .WR, co := { bank := 1, column := 16 }, nBits := 256, data := some test_interface_lpddr4.wr_data },
    .window 31,
    .core { t := 31, type := .WR, co := { bank := 1, column := 16 }, nBits := 256, data := some test_interface_lpddr4.wr_data },
    .iface { t := 31, type := .WR, co := { bank := 1, column := 16 }, nBits := 256, data := some test_interface_lpddr4.wr_data },
    .window 40,
    .core { t := 40, type := .RD, co := { bank := 1, column := 16 }, nBits := 256, data := some test_interface_lpddr4.rd_data },
    .iface { t := 40, type := .RD, co := { bank := 1, column := 16 }, nBits := 256, data := some test_interface_lpddr4.rd_data },
    .window 49,
    .core { t := 49, type := .WR, co := { bank := 1, column := 16 }, nBits := 256, data := some test_interface_lpddr4.wr_data },
    .iface { t := 49, type := .WR, co := { bank := 1, column := 16 }, nBits := 256, data := some test_interface_lpddr4.wr_data },
    .window 57,
    .core { t := 57, type := .RD, co := { bank := 1, column := 16 }, nBits := 256, data := some test_interface_lpddr4.rd_data },
    .iface { t := 57, type := .RD, co := { bank := 1, column := 16 }, nBits := 256, data := some test_interface_lpddr4.rd_data },
    .window 70,
    .core { t := 70, type := .END_OF_SIMULATION },
    .iface { t := 70, type := .END_OF_SIMULATION },
    .stats]

def checks : List (Nat × Bool) := [
    (0, run0.ok),
    (198, run0.stats[9]!.writeDQSStats.ones == 128),
    (199, run0.stats[9]!.writeDQSStats.zeroes == 128),
    (200, run0.stats[9]!.writeDQSStats.onesToZeroes == 128),
    (201, run0.stats[9]!.writeDQSStats.zeroesToOnes == 128),
    (203, run0.stats[9]!.readDQSStats.ones == 96),
    (204, run0.stats[9]!.readDQSStats.zeroes == 96),
    (205, run0.stats[9]!.readDQSStats.onesToZeroes == 96),
    (206, run0.stats[9]!.readDQSStats.zeroesToOnes == 96)]

#guard failing checks == []

end test_interface_lpddr4.TestDQS

namespace test_interface_lpddr4.Test_Detailed

def run0 : Log := run .lpddr4 ({ lpddr4 with
  core := { lpddr4.core with numberOfRanks := 1, numberOfBanks := 2, tRAS := 10, tRCD := 20, tRFC := 10, tRFCPB := 25, tRP := 20 },
  power := { lpddr4.power with ranks := 1, banks := 2, burstLength := 16, dataRate := 2, devices := 1, tRAS := 10, tRFC := 10, tRFCpb := 25, tRP := 20, tCK := 1, tREFI := 1, rho := (333333333/1000000000), domains := ((lpddr4.power.domains.modify 0 fun d => { d with v := 1, i0 := 64, i2n := 8, i2p := 6, i3n := 32, i3p := 20, i4r := 72, i4w := 72 }).modify 1 fun d => { d with v := 1, i0 := 64, i2n := 8, i2p := 6, i3n := 32, i3p := 20, i4r := 72, i4w := 72 }) },
  iface := { lpddr4.iface with ranks := 1, bitWidth := 16, burstLength := 16, dataRate := 2, devices := 1 },
  wires := { lpddr4.wires with bitWidth := 16, dataRate := 2, tCK := 1 } }) [
    .core { t := 0, type := .ACT, co := { bank := 1, row := 2 } },
    .iface { t := 0, type := .ACT, co := { bank := 1, row := 2 } },
    .window 0,
    .window 1,
    .window 2,
    .window 3,
    .window 4,
    .core { t := 5, type := .WR, co := { bank := 1, column := 16 }, nBits := 256, data := some test_interface_lpddr4.wr_data },
    .iface { t := 5, type := .WR, co := { bank := 1, column := 16 }, nBits := 256, data := some test_interface_lpddr4.wr_data },
    .window 5,
    .window 6,
    .window 7,
    .window 8,
    .window 9,
    .window 10,
    .core { t := 14, type := .RD, co := { bank := 1, column := 16 }, nBits := 256, data := some test_interface_lpddr4.rd_data },
    .iface { t := 14, type := .RD, co := { bank := 1, column := 16 }, nBits := 256, data := some test_interface_lpddr4.rd_data },
    .window 14,
    .window 15,
    .window 16,
    .window 17,
    .window 18,
    .window 19,
    .core { t := 23, type := .PRE, co := { bank := 1, row := 2 } },
    .iface { t := 23, type := .PRE, co := { bank := 1, row := 2 } },
    .window 23,
    .window 24,
    .window 25,
    .core { t := 26, type := .END_OF_SIMULATION },
    .iface { t := 26, type := .END_OF_SIMULATION },
    .window 26,
    .window 26,
    .window 26,
    .window 26,
    .window 27,
    .window 28,
    .window 29,
    .window 30,
    .window 31,
    .window 32,
    .window 33,
    .window 34,
    .window 35,
    .window 36,
    .window 37,
    .window 38,
    .window 39,
    .window 40,
    .window 41,
    .window 42,
    .window 43,
    .window 44,
    .window 45,
    .window 46,
    .window 47,
    .window 48,
    .window 49,
    .window 50,
    .window 51,
    .window 52,
    .window 53,
    .window 54,
    .window 55,
    .window 56,
    .window 57,
    .window 58,
    .window 59,
    .window 60,
    .window 61,
    .window 62,
    .window 63,
    .window 64,
    .window 65,
    .window 66,
    .window 67,
    .window 68,
    .window 69,
    .window 70,
    .window 71,
    .window 72,
    .window 73,
    .window 74,
    .window 75,
    .window 76,
    .window 77,
    .window 78,
    .window 79,
    .window 80,
    .window 81,
    .window 82,
    .window 83,
    .window 84,
    .window 85,
    .window 86,
    .window 87,
    .window 88,
    .window 89,
    .window 90,
    .window 91,
    .window 92,
    .window 93,
    .window 94,
    .window 95,
    .window 96,
    .window 97,
    .window 98,
    .window 99,
    .window 100,
    .window 101,
    .window 102,
    .window 103,
    .window 104,
    .window 105,
    .window 106,
    .window 107,
    .window 108,
    .window 109,
    .window 110,
    .window 111,
    .window 112,
    .window 113,
    .window 114,
    .window 115,
    .window 116,
    .window 117,
    .window 118,
    .window 119,
    .window 120,
    .window 121,
    .window 122,
    .window 123,
    .window 124,
    .window 125,
    .window 126]

def checks : List (Nat × Bool) := [
    (0, run0.ok),
    (232, run0.stats[0]!.commandBus.ones == 0),
    (233, run0.stats[0]!.commandBus.zeroes == 0),
    (237, run0.stats[1]!.commandBus.ones == 1),
    (238, run0.stats[1]!.commandBus.zeroes == 5),
    (242, run0.stats[2]!.commandBus.ones == 2),
    (243, run0.stats[2]!.commandBus.zeroes == 10),
    (247, run0.stats[3]!.commandBus.ones == 2),
    (248, run0.stats[3]!.commandBus.zeroes == 16),
    (252, run0.stats[4]!.commandBus.ones == 3),
    (253, run0.stats[4]!.commandBus.zeroes == 21),
    (257, run0.stats[5]!.commandBus.ones == 3),
    (258, run0.stats[5]!.commandBus.zeroes == 27),
    (262, run0.stats[6]!.commandBus.ones == 4),
    (263, run0.stats[6]!.commandBus.zeroes == 32),
    (267, run0.stats[7]!.commandBus.ones == 5),
    (268, run0.stats[7]!.commandBus.zeroes == 37),
    (272, run0.stats[8]!.commandBus.ones == 7),
    (273, run0.stats[8]!.commandBus.zeroes == 41),
    (277, run0.stats[9]!.commandBus.ones == 8),
    (278, run0.stats[9]!.commandBus.zeroes == 46),
    (282, run0.stats[10]!.commandBus.ones == 8),
    (283, run0.stats[10]!.commandBus.zeroes == 52),
    (287, run0.stats[11]!.commandBus.ones == 8),
    (288, run0.stats[11]!.commandBus.zeroes == 76),
    (292, run0.stats[12]!.commandBus.ones == 9),
    (293, run0.stats[12]!.commandBus.zeroes == 81),
    (297, run0.stats[13]!.commandBus.ones == 10),
    (298, run0.stats[13]!.commandBus.zeroes == 86),
    (302, run0.stats[14]!.commandBus.ones == 12),
    (303, run0.stats[14]!.commandBus.zeroes == 90),
    (307, run0.stats[15]!.commandBus.ones == 13),
    (308, run0.stats[15]!.commandBus.zeroes == 95),
    (312, run0.stats[16]!.commandBus.ones == 13),
    (313, run0.stats[16]!.commandBus.zeroes == 101),
    (317, run0.stats[17]!.commandBus.ones == 13),
    (318, run0.stats[17]!.commandBus.zeroes == 125),
    (322, run0.stats[18]!.commandBus.ones == 14),
    (323, run0.stats[18]!.commandBus.zeroes == 130),
    (327, run0.stats[19]!.commandBus.ones == 15),
    (328, run0.stats[19]!.commandBus.zeroes == 135),
    (331, run0.stats[20]!.commandBus.ones == 15),
    (332, run0.stats[20]!.commandBus.zeroes == 141),
    (335, run0.stats[21]!.commandBus.ones == 15),
    (336, run0.stats[21]!.commandBus.zeroes == 141),
    (339, run0.stats[22]!.commandBus.ones == 15),
    (340, run0.stats[22]!.commandBus.zeroes == 141),
    (344, run0.stats[23]!.commandBus.ones == 15),
    (345, run0.stats[23]!.commandBus.zeroes == 141),
    (350, run0.stats[24]!.commandBus.ones == 15),
    (351, run0.stats[24]!.commandBus.zeroes == 147),
    (350, run0.stats[25]!.commandBus.ones == 15),
    (351, run0.stats[25]!.commandBus.zeroes == 153),
    (350, run0.stats[26]!.commandBus.ones == 15),
    (351, run0.stats[26]!.commandBus.zeroes == 159),
    (350, run0.stats[27]!.commandBus.ones == 15),
    (351, run0.stats[27]!.commandBus.zeroes == 165),
    (350, run0.stats[28]!.commandBus.ones == 15),
    (351, run0.stats[28]!.commandBus.zeroes == 171),
    (350, run0.stats[29]!.commandBus.ones == 15),
    (351, run0.stats[29]!.commandBus.zeroes == 177),
    (350, run0.stats[30]!.commandBus.ones == 15),
    (351, run0.stats[30]!.commandBus.zeroes == 183),
    (350, run0.stats[31]!.commandBus.ones == 15),
    (351, run0.stats[31]!.commandBus.zeroes == 189),
    (350, run0.stats[32]!.commandBus.ones == 15),
    (351, run0.stats[32]!.commandBus.zeroes == 195),
    (350, run0.stats[33]!.commandBus.ones == 15),
    (351, run0.stats[33]!.commandBus.zeroes == 201),
    (350, run0.stats[34]!.commandBus.ones == 15),
    (351, run0.stats[34]!.commandBus.zeroes == 207),
    (350, run0.stats[35]!.commandBus.ones == 15),
    (351, run0.stats[35]!.commandBus.zeroes == 213),
    (350, run0.stats[36]!.commandBus.ones == 15),
    (351, run0.stats[36]!.commandBus.zeroes == 219),
    (350, run0.stats[37]!.commandBus.ones == 15),
    (351, run0.stats[37]!.commandBus.zeroes == 225),
    (350, run0.stats[38]!.commandBus.ones == 15),
    (351, run0.stats[38]!.commandBus.zeroes == 231),
    (350, run0.stats[39]!.commandBus.ones == 15),
    (351, run0.stats[39]!.commandBus.zeroes == 237),
    (350, run0.stats[40]!.commandBus.ones == 15),
    (351, run0.stats[40]!.commandBus.zeroes == 243),
    (350, run0.stats[41]!.commandBus.ones == 15),
    (351, run0.stats[41]!.commandBus.zeroes == 249),
    (350, run0.stats[42]!.commandBus.ones == 15),
    (351, run0.stats[42]!.commandBus.zeroes == 255),
    (350, run0.stats[43]!.commandBus.ones == 15),
    (351, run0.stats[43]!.commandBus.zeroes == 261),
    (350, run0.stats[44]!.commandBus.ones == 15),
    (351, run0.stats[44]!.commandBus.zeroes == 267),
    (350, run0.stats[45]!.commandBus.ones == 15),
    (351, run0.stats[45]!.commandBus.zeroes == 273),
    (350, run0.stats[46]!.commandBus.ones == 15),
    (351, run0.stats[46]!.commandBus.zeroes == 279),
    (350, run0.stats[47]!.commandBus.ones == 15),
    (351, run0.stats[47]!.commandBus.zeroes == 285),
    (350, run0.stats[48]!.commandBus.ones == 15),
    (351, run0.stats[48]!.commandBus.zeroes == 291),
    (350, run0.stats[49]!.commandBus.ones == 15),
    (351, run0.stats[49]!.commandBus.zeroes == 297),
    (350, run0.stats[50]!.commandBus.ones == 15),
    (351, run0.stats[50]!.commandBus.zeroes == 303),
    (350, run0.stats[51]!.commandBus.ones == 15),
    (351, run0.stats[51]!.commandBus.zeroes == 309),
    (350, run0.stats[52]!.commandBus.ones == 15),
    (351, run0.stats[52]!.commandBus.zeroes == 315),
    (350, run0.stats[53]!.commandBus.ones == 15),
    (351, run0.stats[53]!.commandBus.zeroes == 321),
    (350, run0.stats[54]!.commandBus.ones == 15),
    (351, run0.stats[54]!.commandBus.zeroes == 327),
    (350, run0.stats[55]!.commandBus.ones == 15),
    (351, run0.stats[55]!.commandBus.zeroes == 333),
    (350, run0.stats[56]!.commandBus.ones == 15),
    (351, run0.stats[56]!.commandBus.zeroes == 339),
    (350, run0.stats[57]!.commandBus.ones == 15),
    (351, run0.stats[57]!.commandBus.zeroes == 345),
    (350, run0.stats[58]!.commandBus.ones == 15),
    (351, run0.stats[58]!.commandBus.zeroes == 351),
    (350, run0.stats[59]!.commandBus.ones == 15),
    (351, run0.stats[59]!.commandBus.zeroes == 357),
    (350, run0.stats[60]!.commandBus.ones == 15),
    (351, run0.stats[60]!.commandBus.zeroes == 363),
    (350, run0.stats[61]!.commandBus.ones == 15),
    (351, run0.stats[61]!.commandBus.zeroes == 369),
    (350, run0.stats[62]!.commandBus.ones == 15),
    (351, run0.stats[62]!.commandBus.zeroes == 375),
    (350, run0.stats[63]!.commandBus.ones == 15),
    (351, run0.stats[63]!.commandBus.zeroes == 381),
    (350, run0.stats[64]!.commandBus.ones == 15),
    (351, run0.stats[64]!.commandBus.zeroes == 387),
    (350, run0.stats[65]!.commandBus.ones == 15),
    (351, run0.stats[65]!.commandBus.zeroes == 393),
    (350, run0.stats[66]!.commandBus.ones == 15),
    (351, run0.stats[66]!.commandBus.zeroes == 399),
    (350, run0.stats[67]!.commandBus.ones == 15),
    (351, run0.stats[67]!.commandBus.zeroes == 405),
    (350, run0.stats[68]!.commandBus.ones == 15),
    (351, run0.stats[68]!.commandBus.zeroes == 411),
    (350, run0.stats[69]!.commandBus.ones == 15),
    (351, run0.stats[69]!.commandBus.zeroes == 417),
    (350, run0.stats[70]!.commandBus.ones == 15),
    (351, run0.stats[70]!.commandBus.zeroes == 423),
    (350, run0.stats[71]!.commandBus.ones == 15),
    (351, run0.stats[71]!.commandBus.zeroes == 429),
    (350, run0.stats[72]!.commandBus.ones == 15),
    (351, run0.stats[72]!.commandBus.zeroes == 435),
    (350, run0.stats[73]!.commandBus.ones == 15),
    (351, run0.stats[73]!.commandBus.zeroes == 441),
    (350, run0.stats[74]!.commandBus.ones == 15),
    (351, run0.stats[74]!.commandBus.zeroes == 447),
    (350, run0.stats[75]!.commandBus.ones == 15),
    (351, run0.stats[75]!.commandBus.zeroes == 453),
    (350, run0.stats[76]!.commandBus.ones == 15),
    (351, run0.stats[76]!.commandBus.zeroes == 459),
    (350, run0.stats[77]!.commandBus.ones == 15),
    (351, run0.stats[77]!.commandBus.zeroes == 465),
    (350, run0.stats[78]!.commandBus.ones == 15),
    (351, run0.stats[78]!.commandBus.zeroes == 471),
    (350, run0.stats[79]!.commandBus.ones == 15),
    (351, run0.stats[79]!.commandBus.zeroes == 477),
    (350, run0.stats[80]!.commandBus.ones == 15),
    (351, run0.stats[80]!.commandBus.zeroes == 483),
    (350, run0.stats[81]!.commandBus.ones == 15),
    (351, run0.stats[81]!.commandBus.zeroes == 489),
    (350, run0.stats[82]!.commandBus.ones == 15),
    (351, run0.stats[82]!.commandBus.zeroes == 495),
    (350, run0.stats[83]!.commandBus.ones == 15),
    (351, run0.stats[83]!.commandBus.zeroes == 501),
    (350, run0.stats[84]!.commandBus.ones == 15),
    (351, run0.stats[84]!.commandBus.zeroes == 507),
    (350, run0.stats[85]!.commandBus.ones == 15),
    (351, run0.stats[85]!.commandBus.zeroes == 513),
    (350, run0.stats[86]!.commandBus.ones == 15),
    (351, run0.stats[86]!.commandBus.zeroes == 519),
    (350, run0.stats[87]!.commandBus.ones == 15),
    (351, run0.stats[87]!.commandBus.zeroes == 525),
    (350, run0.stats[88]!.commandBus.ones == 15),
    (351, run0.stats[88]!.commandBus.zeroes == 531),
    (350, run0.stats[89]!.commandBus.ones == 15),
    (351, run0.stats[89]!.commandBus.zeroes == 537),
    (350, run0.stats[90]!.commandBus.ones == 15),
    (351, run0.stats[90]!.commandBus.zeroes == 543),
    (350, run0.stats[91]!.commandBus.ones == 15),
    (351, run0.stats[91]!.commandBus.zeroes == 549),
    (350, run0.stats[92]!.commandBus.ones == 15),
    (351, run0.stats[92]!.commandBus.zeroes == 555),
    (350, run0.stats[93]!.commandBus.ones == 15),
    (351, run0.stats[93]!.commandBus.zeroes == 561),
    (350, run0.stats[94]!.commandBus.ones == 15),
    (351, run0.stats[94]!.commandBus.zeroes == 567),
    (350, run0.stats[95]!.commandBus.ones == 15),
    (351, run0.stats[95]!.commandBus.zeroes == 573),
    (350, run0.stats[96]!.commandBus.ones == 15),
    (351, run0.stats[96]!.commandBus.zeroes == 579),
    (350, run0.stats[97]!.commandBus.ones == 15),
    (351, run0.stats[97]!.commandBus.zeroes == 585),
    (350, run0.stats[98]!.commandBus.ones == 15),
    (351, run0.stats[98]!.commandBus.zeroes == 591),
    (350, run0.stats[99]!.commandBus.ones == 15),
    (351, run0.stats[99]!.commandBus.zeroes == 597),
    (350, run0.stats[100]!.commandBus.ones == 15),
    (351, run0.stats[100]!.commandBus.zeroes == 603),
    (350, run0.stats[101]!.commandBus.ones == 15),
    (351, run0.stats[101]!.commandBus.zeroes == 609),
    (350, run0.stats[102]!.commandBus.ones == 15),
    (351, run0.stats[102]!.commandBus.zeroes == 615),
    (350, run0.stats[103]!.commandBus.ones == 15),
    (351, run0.stats[103]!.commandBus.zeroes == 621),
    (350, run0.stats[104]!.commandBus.ones == 15),
    (351, run0.stats[104]!.commandBus.zeroes == 627),
    (350, run0.stats[105]!.commandBus.ones == 15),
    (351, run0.stats[105]!.commandBus.zeroes == 633),
    (350, run0.stats[106]!.commandBus.ones == 15),
    (351, run0.stats[106]!.commandBus.zeroes == 639),
    (350, run0.stats[107]!.commandBus.ones == 15),
    (351, run0.stats[107]!.commandBus.zeroes == 645),
    (350, run0.stats[108]!.commandBus.ones == 15),
    (351, run0.stats[108]!.commandBus.zeroes == 651),
    (350, run0.stats[109]!.commandBus.ones == 15),
    (351, run0.stats[109]!.commandBus.zeroes == 657),
    (350, run0.stats[110]!.commandBus.ones == 15),
    (351, run0.stats[110]!.commandBus.zeroes == 663),
    (350, run0.stats[111]!.commandBus.ones == 15),
    (351, run0.stats[111]!.commandBus.zeroes == 669),
    (350, run0.stats[112]!.commandBus.ones == 15),
    (351, run0.stats[112]!.commandBus.zeroes == 675),
    (350, run0.stats[113]!.commandBus.ones == 15),
    (351, run0.stats[113]!.commandBus.zeroes == 681),
    (350, run0.stats[114]!.commandBus.ones == 15),
    (351, run0.stats[114]!.commandBus.zeroes == 687),
    (350, run0.stats[115]!.commandBus.ones == 15),
    (351, run0.stats[115]!.commandBus.zeroes == 693),
    (350, run0.stats[116]!.commandBus.ones == 15),
    (351, run0.stats[116]!.commandBus.zeroes == 699),
    (350, run0.stats[117]!.commandBus.ones == 15),
    (351, run0.stats[117]!.commandBus.zeroes == 705),
    (350, run0.stats[118]!.commandBus.ones == 15),
    (351, run0.stats[118]!.commandBus.zeroes == 711),
    (350, run0.stats[119]!.commandBus.ones == 15),
    (351, run0.stats[119]!.commandBus.zeroes == 717),
    (350, run0.stats[120]!.commandBus.ones == 15),
    (351, run0.stats[120]!.commandBus.zeroes == 723),
    (350, run0.stats[121]!.commandBus.ones == 15),
    (351, run0.stats[121]!.commandBus.zeroes == 729),
    (350, run0.stats[122]!.commandBus.ones == 15),
    (351, run0.stats[122]!.commandBus.zeroes == 735),
    (350, run0.stats[123]!.commandBus.ones == 15),
    (351, run0.stats[123]!.commandBus.zeroes == 741)]

#guard failing checks == []

end test_interface_lpddr4.Test_Detailed

namespace test_interface_lpddr4.Clock_Energy

def calc0 : List InterfaceInfo := calculate .lpddr4 ({ lpddr4 with
  wires := { lpddr4.wires with imp := { lpddr4.wires.imp with ca := { lpddr4.wires.imp.ca with rEq := 2, dynE := 8 }, ck := { lpddr4.wires.imp.ck with rEq := 3, dynE := 9 }, rdqs := { lpddr4.wires.imp.rdqs with rEq := 4, dynE := 10 }, wdqs := { lpddr4.wires.imp.wdqs with rEq := 5, dynE := 11 }, rdq := { lpddr4.wires.imp.rdq with rEq := 6, dynE := 12 }, wdq := { lpddr4.wires.imp.wdq with rEq := 7, dynE := 13 } } } }) [
    { clockStats := { ones := 43, zeroesToOnes := 47, zeroes := 53, onesToZeroes := 59 } }]

def checks : List (Nat × Bool) := [
    (403, (calc0[0]!.dram.dynamic : Rat) == 0),
    (404, (calc0[0]!.dram.static : Rat) == 0),
    (418, (calc0[0]!.controller.static : Rat) == (9923076923076923076923076923076933/1250000000000000000000000000000000000000000)),
    (419, (calc0[0]!.controller.dynamic : Rat) == 423),
    (420, decide ((calc0[0]!.controller.static : Rat) > 0)),
    (421, decide ((calc0[0]!.controller.dynamic : Rat) > 0))]

#guard failing checks == []

end test_interface_lpddr4.Clock_Energy

namespace test_interface_lpddr4.DQS_Energy

def calc0 : List InterfaceInfo := calculate .lpddr4 ({ lpddr4 with
  wires := { lpddr4.wires with imp := { lpddr4.wires.imp with ca := { lpddr4.wires.imp.ca with rEq := 2, dynE := 8 }, ck := { lpddr4.wires.imp.ck with rEq := 3, dynE := 9 }, rdqs := { lpddr4.wires.imp.rdqs with rEq := 4, dynE := 10 }, wdqs := { lpddr4.wires.imp.wdqs with rEq := 5, dynE := 11 }, rdq := { lpddr4.wires.imp.rdq with rEq := 6, dynE := 12 }, wdq := { lpddr4.wires.imp.wdq with rEq := 7, dynE := 13 } } } }) [
    { readDQSStats := { ones := 200, zeroes := 400, zeroesToOnes := 700, onesToZeroes := 1000 }, writeDQSStats := { ones := 300, zeroes := 100, onesToZeroes := 2000, zeroesToOnes := 999 } }]

def checks : List (Nat × Bool) := [
    (449, (calc0[0]!.controller.static : Rat) == (2076923076923076923076923076923079/62500000000000000000000000000000000000000)),
    (450, (calc0[0]!.controller.dynamic : Rat) == 10989),
    (451, (calc0[0]!.dram.static : Rat) == (692307692307692307692307692307693/25000000000000000000000000000000000000000)),
    (452, (calc0[0]!.dram.dynamic : Rat) == 7000),
    (454, decide ((calc0[0]!.dram.static : Rat) > 0)),
    (455, decide ((calc0[0]!.dram.dynamic : Rat) > 0))]

#guard failing checks == []

end test_interface_lpddr4.DQS_Energy

namespace test_interface_lpddr4.DQ_Energy

def calc0 : List InterfaceInfo := calculate .lpddr4 ({ lpddr4 with
  wires := { lpddr4.wires with imp := { lpddr4.wires.imp with ca := { lpddr4.wires.imp.ca with rEq := 2, dynE := 8 }, ck := { lpddr4.wires.imp.ck with rEq := 3, dynE := 9 }, rdqs := { lpddr4.wires.imp.rdqs with rEq := 4, dynE := 10 }, wdqs := { lpddr4.wires.imp.wdqs with rEq := 5, dynE := 11 }, rdq := { lpddr4.wires.imp.rdq with rEq := 6, dynE := 12 }, wdq := { lpddr4.wires.imp.wdq with rEq := 7, dynE := 13 } } } }) [
    { readBus := { ones := 7, zeroes := 11, zeroesToOnes := 19, onesToZeroes := 39 }, writeBus := { ones := 43, zeroes := 59, zeroesToOnes := 13, onesToZeroes := 17 } }]

def checks : List (Nat × Bool) := [
    (483, (calc0[0]!.controller.static : Rat) == (4252747252747252747252747252747257/1250000000000000000000000000000000000000000)),
    (484, (calc0[0]!.controller.dynamic : Rat) == 169),
    (485, (calc0[0]!.dram.static : Rat) == (1615384615384615384615384615384617/2500000000000000000000000000000000000000000)),
    (486, (calc0[0]!.dram.dynamic : Rat) == 228),
    (488, decide ((calc0[0]!.controller.static : Rat) > 0)),
    (489, decide ((calc0[0]!.controller.dynamic : Rat) > 0)),
    (490, decide ((calc0[0]!.dram.static : Rat) > 0)),
    (491, decide ((calc0[0]!.dram.dynamic : Rat) > 0))]

#guard failing checks == []

end test_interface_lpddr4.DQ_Energy

namespace test_interface_lpddr4.CA_Energy

def calc0 : List InterfaceInfo := calculate .lpddr4 ({ lpddr4 with
  wires := { lpddr4.wires with imp := { lpddr4.wires.imp with ca := { lpddr4.wires.imp.ca with rEq := 2, dynE := 8 }, ck := { lpddr4.wires.imp.ck with rEq := 3, dynE := 9 }, rdqs := { lpddr4.wires.imp.rdqs with rEq := 4, dynE := 10 }, wdqs := { lpddr4.wires.imp.wdqs with rEq := 5, dynE := 11 }, rdq := { lpddr4.wires.imp.rdq with rEq := 6, dynE := 12 }, wdq := { lpddr4.wires.imp.wdq with rEq := 7, dynE := 13 } } } }) [
    { commandBus := { ones := 11, zeroes := 29, zeroesToOnes := 39, onesToZeroes := 49 } }]

def checks : List (Nat × Bool) := [
    (508, (calc0[0]!.dram.dynamic : Rat) == 0),
    (509, (calc0[0]!.dram.static : Rat) == 0),
    (511, (calc0[0]!.controller.static : Rat) == (7615384615384615384615384615384623/1250000000000000000000000000000000000000000)),
    (512, (calc0[0]!.controller.dynamic : Rat) == 312),
    (514, decide ((calc0[0]!.controller.static : Rat) > 0)),
    (515, decide ((calc0[0]!.controller.dynamic : Rat) > 0))]

#guard failing checks == []

end test_interface_lpddr4.CA_Energy

/-! ## tests/tests_drampower/interface/test_interface_lpddr5.cpp -/

def test_interface_lpddr5.wr_data : List UInt8 := [
  0, 0, 0, 0, 0, 0, 0, 255, 0, 0, 0, 0, 0, 0, 0, 0, 0, 0, 0, 0, 0, 0, 0, 0, 0, 0, 0, 0, 0, 0, 0, 255]

def test_interface_lpddr5.rd_data : List UInt8 := [
  0, 0, 0, 0, 0, 0, 0, 1, 0, 0, 0, 0, 0, 0, 0, 0, 0, 0, 0, 0, 0, 0, 0, 0, 0, 0, 0, 0, 0, 0, 0, 0]

namespace test_interface_lpddr5.Pattern_0

def run0 : Log := run .lpddr5 ({ lpddr5 with
  power := { lpddr5.power with devices := 1 },
  iface := { lpddr5.iface with devices := 1, bitWidth := 16 },
  wires := { lpddr5.wires with bitWidth := 16 } }) [
    .core { t := 0, type := .ACT, co := { bank := 1, row := 2 } },
    .iface { t := 0, type := .ACT, co := { bank := 1, row := 2 } },
    .core { t := 3, type := .WR, co := { bank := 1, column := 8 }, nBits := 256, data := some test_interface_lpddr5.wr_data },
    .iface { t := 3, type := .WR, co := { bank := 1, column := 8 }, nBits := 256, data := some test_interface_lpddr5.wr_data },
    .core { t := 12, type := .RD, co := { bank := 1, column := 8 }, nBits := 256, data := some test_interface_lpddr5.rd_data },
    .iface { t := 12, type := .RD, co := { bank := 1, column := 8 }, nBits := 256, data := some test_interface_lpddr5.rd_data },
    .core { t := 21, type := .PRE, co := { bank := 1, row := 2 } },
    .iface { t := 21, type := .PRE, co := { bank := 1, row := 2 } },
    .core { t := 24, type := .END_OF_SIMULATION },
    .iface { t := 24, type := .END_OF_SIMULATION },
    .stats]

def checks : List (Nat × Bool) := [
    (0, run0.ok),
    (124, run0.stats[0]!.writeBus.ones == 16),
    (125, run0.stats[0]!.writeBus.zeroes == 752),
    (126, run0.stats[0]!.writeBus.onesToZeroes == 16),
    (127, run0.stats[0]!.writeBus.zeroesToOnes == 16),
    (129, run0.stats[0]!.readBus.ones == 1),
    (130, run0.stats[0]!.readBus.zeroes == 767),
    (131, run0.stats[0]!.readBus.onesToZeroes == 1),
    (132, run0.stats[0]!.readBus.zeroesToOnes == 1),
    (134, run0.stats[0]!.commandBus.ones == 19),
    (135, run0.stats[0]!.commandBus.zeroes == 317),
    (136, run0.stats[0]!.commandBus.onesToZeroes == 15),
    (137, run0.stats[0]!.commandBus.zeroesToOnes == 15),
    (149, run0.stats[0]!.readDQSStats.ones == 16),
    (150, run0.stats[0]!.readDQSStats.zeroes == 16),
    (151, run0.stats[0]!.readDQSStats.onesToZeroes == 16),
    (152, run0.stats[0]!.readDQSStats.zeroesToOnes == 16)]

#guard failing checks == []

end test_interface_lpddr5.Pattern_0

namespace test_interface_lpddr5.Pattern_1

def run0 : Log := run .lpddr5 ({ lpddr5 with
  power := { lpddr5.power with devices := 1 },
  iface := { lpddr5.iface with devices := 1, bitWidth := 16 },
  wires := { lpddr5.wires with bitWidth := 16 } }) [
    .core { t := 0, type := .ACT, co := { bank := 2, row := 372 } },
    .iface { t := 0, type := .ACT, co := { bank := 2, row := 372 } },
    .core { t := 3, type := .WRA, co := { bank := 2, row := 372, column := 27 }, nBits := 256, data := some test_interface_lpddr5.wr_data },
    .iface { t := 3, type := .WRA, co := { bank := 2, row := 372, column := 27 }, nBits := 256, data := some test_interface_lpddr5.wr_data },
    .core { t := 18, type := .SREFEN },
    .iface { t := 18, type := .SREFEN },
    .core { t := 45, type := .SREFEX },
    .iface { t := 45, type := .SREFEX },
    .core { t := 48, type := .END_OF_SIMULATION },
    .iface { t := 48, type := .END_OF_SIMULATION },
    .stats]

def checks : List (Nat × Bool) := [
    (0, run0.ok),
    (178, run0.stats[0]!.writeBus.ones == 16),
    (179, run0.stats[0]!.writeBus.zeroes == 1520),
    (180, run0.stats[0]!.writeBus.onesToZeroes == 16),
    (181, run0.stats[0]!.writeBus.zeroesToOnes == 16),
    (183, run0.stats[0]!.readBus.ones == 0),
    (184, run0.stats[0]!.readBus.zeroes == 1536),
    (185, run0.stats[0]!.readBus.onesToZeroes == 0),
    (186, run0.stats[0]!.readBus.zeroesToOnes == 0),
    (188, run0.stats[0]!.commandBus.ones == 24),
    (189, run0.stats[0]!.commandBus.zeroes == 648),
    (190, run0.stats[0]!.commandBus.onesToZeroes == 19),
    (191, run0.stats[0]!.commandBus.zeroesToOnes == 19),
    (193, run0.stats[0]!.readDQSStats.ones == 0),
    (194, run0.stats[0]!.readDQSStats.zeroes == 0),
    (195, run0.stats[0]!.readDQSStats.onesToZeroes == 0),
    (196, run0.stats[0]!.readDQSStats.zeroesToOnes == 0)]

#guard failing checks == []

end test_interface_lpddr5.Pattern_1

namespace test_interface_lpddr5.Pattern_2

def run0 : Log := run .lpddr5 ({ lpddr5 with
  power := { lpddr5.power with devices := 1 },
  iface := { lpddr5.iface with devices := 1, bitWidth := 16 },
  wires := { lpddr5.wires with bitWidth := 16 } }) [
    .core { t := 0, type := .ACT, co := { bank := 2, row := 372 } },
    .iface { t := 0, type := .ACT, co := { bank := 2, row := 372 } },
    .core { t := 3, type := .WR, co := { bank := 2, row := 372, column := 27 }, nBits := 256, data := some test_interface_lpddr5.wr_data },
    .iface { t := 3, type := .WR, co := { bank := 2, row := 372, column := 27 }, nBits := 256, data := some test_interface_lpddr5.wr_data },
    .core { t := 12, type := .RDA, co := { bank := 2, row := 372, column := 27 }, nBits := 256, data := some test_interface_lpddr5.rd_data },
    .iface { t := 12, type := .RDA, co := { bank := 2, row := 372, column := 27 }, nBits := 256, data := some test_interface_lpddr5.rd_data },
    .core { t := 24, type := .END_OF_SIMULATION },
    .iface { t := 24, type := .END_OF_SIMULATION },
    .stats]

def checks : List (Nat × Bool) := [
    (0, run0.ok),
    (222, run0.stats[0]!.writeBus.ones == 16),
    (223, run0.stats[0]!.writeBus.zeroes == 752),
    (224, run0.stats[0]!.writeBus.onesToZeroes == 16),
    (225, run0.stats[0]!.writeBus.zeroesToOnes == 16),
    (227, run0.stats[0]!.readBus.ones == 1),
    (228, run0.stats[0]!.readBus.zeroes == 767),
    (229, run0.stats[0]!.readBus.onesToZeroes == 1),
    (230, run0.stats[0]!.readBus.zeroesToOnes == 1),
    (232, run0.stats[0]!.commandBus.ones == 25),
    (233, run0.stats[0]!.commandBus.zeroes == 311),
    (234, run0.stats[0]!.commandBus.onesToZeroes == 19),
    (235, run0.stats[0]!.commandBus.zeroesToOnes == 19)]

#guard failing checks == []

end test_interface_lpddr5.Pattern_2

namespace test_interface_lpddr5.WriteClockAlwaysOn

def run0 : Log := run .lpddr5 ({ lpddr5 with
  power := { lpddr5.power with devices := 1 },
  iface := { lpddr5.iface with devices := 1, bitWidth := 16 },
  wires := { lpddr5.wires with bitWidth := 16 } }) [
    .core { t := 0, type := .ACT, co := { bank := 1, row := 2 } },
    .iface { t := 0, type := .ACT, co := { bank := 1, row := 2 } },
    .core { t := 3, type := .WR, co := { bank := 1, column := 8 }, nBits := 256, data := some test_interface_lpddr5.wr_data },
    .iface { t := 3, type := .WR, co := { bank := 1, column := 8 }, nBits := 256, data := some test_interface_lpddr5.wr_data },
    .core { t := 12, type := .RD, co := { bank := 1, column := 8 }, nBits := 256, data := some test_interface_lpddr5.rd_data },
    .iface { t := 12, type := .RD, co := { bank := 1, column := 8 }, nBits := 256, data := some test_interface_lpddr5.rd_data },
    .core { t := 21, type := .PRE, co := { bank := 1, row := 2 } },
    .iface { t := 21, type := .PRE, co := { bank := 1, row := 2 } },
    .core { t := 24, type := .END_OF_SIMULATION },
    .iface { t := 24, type := .END_OF_SIMULATION },
    .stats]

def checks : List (Nat × Bool) := [
    (0, run0.ok),
    (248, run0.stats[0]!.wClockStats.ones == 24),
    (249, run0.stats[0]!.wClockStats.zeroes == 24),
    (250, run0.stats[0]!.wClockStats.onesToZeroes == 24),
    (251, run0.stats[0]!.wClockStats.zeroesToOnes == 24)]

#guard failing checks == []

end test_interface_lpddr5.WriteClockAlwaysOn

namespace test_interface_lpddr5.WriteClockOnDemand

def run1 : Log := run .lpddr5 ({ lpddr5 with
  power := { lpddr5.power with devices := 1 },
  iface := { lpddr5.iface with devices := 1, bitWidth := 16, wckAlwaysOn := false },
  wires := { lpddr5.wires with bitWidth := 16 } }) [
    .core { t := 0, type := .ACT, co := { bank := 1, row := 2 } },
    .iface { t := 0, type := .ACT, co := { bank := 1, row := 2 } },
    .core { t := 3, type := .WR, co := { bank := 1, column := 8 }, nBits := 256, data := some test_interface_lpddr5.wr_data },
    .iface { t := 3, type := .WR, co := { bank := 1, column := 8 }, nBits := 256, data := some test_interface_lpddr5.wr_data },
    .core { t := 12, type := .RD, co := { bank := 1, column := 8 }, nBits := 256, data := some test_interface_lpddr5.rd_data },
    .iface { t := 12, type := .RD, co := { bank := 1, column := 8 }, nBits := 256, data := some test_interface_lpddr5.rd_data },
    .core { t := 21, type := .PRE, co := { bank := 1, row := 2 } },
    .iface { t := 21, type := .PRE, co := { bank := 1, row := 2 } },
    .core { t := 24, type := .END_OF_SIMULATION },
    .iface { t := 24, type := .END_OF_SIMULATION },
    .stats]

def checks : List (Nat × Bool) := [
    (0, run1.ok),
    (267, run1.stats[0]!.wClockStats.ones == 16),
    (268, run1.stats[0]!.wClockStats.zeroes == 16),
    (269, run1.stats[0]!.wClockStats.onesToZeroes == 16),
    (270, run1.stats[0]!.wClockStats.zeroesToOnes == 16)]

#guard failing checks == []

end test_interface_lpddr5.WriteClockOnDemand

namespace test_interface_lpddr5.Pattern_3_BG_Mode

def run1 : Log := run .lpddr5 ({ lpddr5 with
  core := { lpddr5.core with bankArch := .mbg },
  power := { lpddr5.power with devices := 1, arch := .mbg },
  iface := { lpddr5.iface with devices := 1, bitWidth := 16, arch := .mbg },
  wires := { lpddr5.wires with bitWidth := 16 } }) [
    .core { t := 0, type := .ACT, co := { bank := 1, bankGroup := 1, row := 2 } },
    .iface { t := 0, type := .ACT, co := { bank := 1, bankGroup := 1, row := 2 } },
    .core { t := 3, type := .WR, co := { bank := 1, bankGroup := 1, column := 19 }, nBits := 256, data := some test_interface_lpddr5.wr_data },
    .iface { t := 3, type := .WR, co := { bank := 1, bankGroup := 1, column := 19 }, nBits := 256, data := some test_interface_lpddr5.wr_data },
    .core { t := 12, type := .RD, co := { bank := 1, bankGroup := 1, column := 19 }, nBits := 256, data := some test_interface_lpddr5.rd_data },
    .iface { t := 12, type := .RD, co := { bank := 1, bankGroup := 1, column := 19 }, nBits := 256, data := some test_interface_lpddr5.rd_data },
    .core { t := 21, type := .PRE, co := { bank := 1, bankGroup := 1, row := 2 } },
    .iface { t := 21, type := .PRE, co := { bank := 1, bankGroup := 1, row := 2 } },
    .core { t := 24, type := .END_OF_SIMULATION },
    .iface { t := 24, type := .END_OF_SIMULATION },
    .stats]

def checks : List (Nat × Bool) := [
    (0, run1.ok),
    (299, run1.stats[0]!.writeBus.ones == 16),
    (300, run1.stats[0]!.writeBus.zeroes == 752),
    (301, run1.stats[0]!.writeBus.onesToZeroes == 16),
    (302, run1.stats[0]!.writeBus.zeroesToOnes == 16),
    (304, run1.stats[0]!.readBus.ones == 1),
    (305, run1.stats[0]!.readBus.zeroes == 767),
    (306, run1.stats[0]!.readBus.onesToZeroes == 1),
    (307, run1.stats[0]!.readBus.zeroesToOnes == 1),
    (309, run1.stats[0]!.commandBus.ones == 27),
    (310, run1.stats[0]!.commandBus.zeroes == 309),
    (311, run1.stats[0]!.commandBus.onesToZeroes == 21),
    (312, run1.stats[0]!.commandBus.zeroesToOnes == 21),
    (323, run1.stats[0]!.readDQSStats.ones == 16),
    (324, run1.stats[0]!.readDQSStats.zeroes == 16),
    (325, run1.stats[0]!.readDQSStats.onesToZeroes == 16),
    (326, run1.stats[0]!.readDQSStats.zeroesToOnes == 16)]

#guard failing checks == []

end test_interface_lpddr5.Pattern_3_BG_Mode

namespace test_interface_lpddr5.Clock_Energy

def calc0 : List InterfaceInfo := calculate .lpddr5 ({ lpddr5 with
  wires := { lpddr5.wires with imp := { lpddr5.wires.imp with ca := { lpddr5.wires.imp.ca with rEq := 2, dynE := 8 }, ck := { lpddr5.wires.imp.ck with rEq := 3, dynE := 9 }, rdqs := { lpddr5.wires.imp.rdqs with rEq := 4, dynE := 10 }, wck := { lpddr5.wires.imp.wck with rEq := 5, dynE := 11 }, rdq := { lpddr5.wires.imp.rdq with rEq := 6, dynE := 12 }, wdq := { lpddr5.wires.imp.wdq with rEq := 7, dynE := 13 } } } }) [
    { clockStats := { ones := 43, zeroesToOnes := 47, zeroes := 53, onesToZeroes := 59 }, wClockStats := { ones := 61, zeroes := 67, zeroesToOnes := 71, onesToZeroes := 73 } }]

def checks : List (Nat × Bool) := [
    (385, (calc0[0]!.dram.dynamic : Rat) == 0),
    (386, (calc0[0]!.dram.static : Rat) == 0),
    (397, (calc0[0]!.controller.static : Rat) == (47153846153846153846153846153846201/24000000000000000000000000000000000000000000)),
    (398, (calc0[0]!.controller.dynamic : Rat) == 1204),
    (399, decide ((calc0[0]!.controller.static : Rat) > 0)),
    (400, decide ((calc0[0]!.controller.dynamic : Rat) > 0))]

#guard failing checks == []

end test_interface_lpddr5.Clock_Energy

namespace test_interface_lpddr5.DQS_Energy

def calc0 : List InterfaceInfo := calculate .lpddr5 ({ lpddr5 with
  wires := { lpddr5.wires with imp := { lpddr5.wires.imp with ca := { lpddr5.wires.imp.ca with rEq := 2, dynE := 8 }, ck := { lpddr5.wires.imp.ck with rEq := 3, dynE := 9 }, rdqs := { lpddr5.wires.imp.rdqs with rEq := 4, dynE := 10 }, wck := { lpddr5.wires.imp.wck with rEq := 5, dynE := 11 }, rdq := { lpddr5.wires.imp.rdq with rEq := 6, dynE := 12 }, wdq := { lpddr5.wires.imp.wdq with rEq := 7, dynE := 13 } } } }) [
    { readDQSStats := { ones := 200, zeroes := 400, zeroesToOnes := 700, onesToZeroes := 1000 }, writeDQSStats := { ones := 300, zeroes := 100, onesToZeroes := 2000, zeroesToOnes := 999 } }]

def checks : List (Nat × Bool) := [
    (429, (calc0[0]!.controller.static : Rat) == 0),
    (430, (calc0[0]!.controller.dynamic : Rat) == 0),
    (431, (calc0[0]!.dram.static : Rat) == (76923076923076923076923076923077/16000000000000000000000000000000000000000)),
    (432, (calc0[0]!.dram.dynamic : Rat) == 7000),
    (434, decide ((calc0[0]!.dram.static : Rat) > 0)),
    (435, decide ((calc0[0]!.dram.dynamic : Rat) > 0))]

#guard failing checks == []

end test_interface_lpddr5.DQS_Energy

namespace test_interface_lpddr5.DQ_Energy

def calc0 : List InterfaceInfo := calculate .lpddr5 ({ lpddr5 with
  wires := { lpddr5.wires with imp := { lpddr5.wires.imp with ca := { lpddr5.wires.imp.ca with rEq := 2, dynE := 8 }, ck := { lpddr5.wires.imp.ck with rEq := 3, dynE := 9 }, rdqs := { lpddr5.wires.imp.rdqs with rEq := 4, dynE := 10 }, wck := { lpddr5.wires.imp.wck with rEq := 5, dynE := 11 }, rdq := { lpddr5.wires.imp.rdq with rEq := 6, dynE := 12 }, wdq := { lpddr5.wires.imp.wdq with rEq := 7, dynE := 13 } } } }) [
    { readBus := { ones := 7, zeroes := 11, zeroesToOnes := 19, onesToZeroes := 39 }, writeBus := { ones := 43, zeroes := 59, zeroesToOnes := 13, onesToZeroes := 17 } }]

def checks : List (Nat × Bool) := [
    (465, (calc0[0]!.controller.static : Rat) == (472527472527472527472527472527473/800000000000000000000000000000000000000000)),
    (466, (calc0[0]!.controller.dynamic : Rat) == 169),
    (467, (calc0[0]!.dram.static : Rat) == (538461538461538461538461538461539/4800000000000000000000000000000000000000000)),
    (468, (calc0[0]!.dram.dynamic : Rat) == 228),
    (470, decide ((calc0[0]!.controller.static : Rat) > 0)),
    (471, decide ((calc0[0]!.controller.dynamic : Rat) > 0)),
    (472, decide ((calc0[0]!.dram.static : Rat) > 0)),
    (473, decide ((calc0[0]!.dram.dynamic : Rat) > 0))]

#guard failing checks == []

end test_interface_lpddr5.DQ_Energy

namespace test_interface_lpddr5.CA_Energy

def calc0 : List InterfaceInfo := calculate .lpddr5 ({ lpddr5 with
  wires := { lpddr5.wires with imp := { lpddr5.wires.imp with ca := { lpddr5.wires.imp.ca with rEq := 2, dynE := 8 }, ck := { lpddr5.wires.imp.ck with rEq := 3, dynE := 9 }, rdqs := { lpddr5.wires.imp.rdqs with rEq := 4, dynE := 10 }, wck := { lpddr5.wires.imp.wck with rEq := 5, dynE := 11 }, rdq := { lpddr5.wires.imp.rdq with rEq := 6, dynE := 12 }, wdq := { lpddr5.wires.imp.wdq with rEq := 7, dynE := 13 } } } }) [
    { commandBus := { ones := 11, zeroes := 29, zeroesToOnes := 39, onesToZeroes := 49 } }]

def checks : List (Nat × Bool) := [
    (490, (calc0[0]!.dram.dynamic : Rat) == 0),
    (491, (calc0[0]!.dram.static : Rat) == 0),
    (493, (calc0[0]!.controller.static : Rat) == (846153846153846153846153846153847/1600000000000000000000000000000000000000000)),
    (494, (calc0[0]!.controller.dynamic : Rat) == 312),
    (496, decide ((calc0[0]!.controller.static : Rat) > 0)),
    (497, decide ((calc0[0]!.controller.dynamic : Rat) > 0))]

#guard failing checks == []

end test_interface_lpddr5.CA_Energy

/-! ## tests/tests_drampower/interface/test_togglingrate_ddr4.cpp -/

def test_togglingrate_ddr4.wr_data : List UInt8 := [
  0, 0, 0, 0, 0, 0, 0, 255, 0, 0, 0, 0, 0, 0, 0, 0]

def test_togglingrate_ddr4.rd_data : List UInt8 := [
  255, 0, 0, 0, 0, 0, 0, 0, 0, 0, 0, 0, 0, 0, 0, 0]

namespace test_togglingrate_ddr4.Pattern_0_LH

def run0 : Log := run .ddr4 ({ ddr4 with
  iface := { ddr4.iface with toggling := some (direction (7/10) (3/5) .L, direction (3/10) (2/5) .H) } }) [
    .core { t := 0, type := .ACT, co := { bank := 1, row := 2 } },
    .iface { t := 0, type := .ACT, co := { bank := 1, row := 2 } },
    .core { t := 4, type := .WR, co := { bank := 1, column := 16 }, nBits := 64 },
    .iface { t := 4, type := .WR, co := { bank := 1, column := 16 }, nBits := 64 },
    .core { t := 11, type := .RD, co := { bank := 1, column := 16 }, nBits := 64 },
    .iface { t := 11, type := .RD, co := { bank := 1, column := 16 }, nBits := 64 },
    .core { t := 16, type := .PRE, co := { bank := 1, row := 2 } },
    .iface { t := 16, type := .PRE, co := { bank := 1, row := 2 } },
    .core { t := 24, type := .END_OF_SIMULATION },
    .iface { t := 24, type := .END_OF_SIMULATION },
    .stats]

def checks : List (Nat × Bool) := [
    (0, run0.ok),
    (119, run0.stats[0]!.togglingRead.ones == 32),
    (121, run0.stats[0]!.togglingRead.zeroes == 344),
    (123, run0.stats[0]!.togglingRead.onesToZeroes == 16),
    (125, run0.stats[0]!.togglingRead.zeroesToOnes == 16),
    (129, run0.stats[0]!.togglingWrite.ones == 344),
    (131, run0.stats[0]!.togglingWrite.zeroes == 32),
    (133, run0.stats[0]!.togglingWrite.onesToZeroes == 8),
    (135, run0.stats[0]!.togglingWrite.zeroesToOnes == 8),
    (138, run0.stats[0]!.clockStats.ones == 48),
    (139, run0.stats[0]!.clockStats.zeroes == 48),
    (140, run0.stats[0]!.clockStats.onesToZeroes == 48),
    (141, run0.stats[0]!.clockStats.zeroesToOnes == 48),
    (144, run0.stats[0]!.commandBus.ones == 591),
    (145, run0.stats[0]!.commandBus.zeroes == 57),
    (146, run0.stats[0]!.commandBus.onesToZeroes == 57),
    (147, run0.stats[0]!.commandBus.zeroesToOnes == 57),
    (158, run0.stats[0]!.writeDQSStats.ones == 8),
    (159, run0.stats[0]!.writeDQSStats.zeroes == 8),
    (160, run0.stats[0]!.writeDQSStats.onesToZeroes == 8),
    (161, run0.stats[0]!.writeDQSStats.zeroesToOnes == 8),
    (162, run0.stats[0]!.readDQSStats.ones == 8),
    (163, run0.stats[0]!.readDQSStats.zeroes == 8),
    (164, run0.stats[0]!.readDQSStats.onesToZeroes == 8),
    (165, run0.stats[0]!.readDQSStats.zeroesToOnes == 8),
    (169, run0.stats[0]!.rankTotal[0]!.prepos.readSeamless == 0),
    (170, run0.stats[0]!.rankTotal[0]!.prepos.writeSeamless == 0),
    (171, run0.stats[0]!.rankTotal[0]!.prepos.readMerged == 0),
    (172, run0.stats[0]!.rankTotal[0]!.prepos.readMergedTime == 0),
    (173, run0.stats[0]!.rankTotal[0]!.prepos.writeMerged == 0),
    (174, run0.stats[0]!.rankTotal[0]!.prepos.writeMergedTime == 0)]

#guard failing checks == []

end test_togglingrate_ddr4.Pattern_0_LH

namespace test_togglingrate_ddr4.DQ_Energy

def calc0 : List InterfaceInfo := calculate .ddr4 ({ ddr4 with
  wires := { ddr4.wires with imp := { ddr4.wires.imp with ca := { ddr4.wires.imp.ca with rEq := 2, dynE := 8 }, ck := { ddr4.wires.imp.ck with rEq := 3, dynE := 9 }, rdqs := { ddr4.wires.imp.rdqs with rEq := 4, dynE := 10 }, wdqs := { ddr4.wires.imp.wdqs with rEq := 5, dynE := 11 }, rdq := { ddr4.wires.imp.rdq with rEq := 6, dynE := 12 }, wdq := { ddr4.wires.imp.wdq with rEq := 7, dynE := 13 } }, ambles := { ddr4.wires.ambles with readZeroes := (5/2), readZeroesToOnes := 2 } } }) [
    { togglingRead := { ones := 7, zeroes := 11, zeroesToOnes := 19, onesToZeroes := 39 }, togglingWrite := { ones := 43, zeroes := 59, zeroesToOnes := 13, onesToZeroes := 17 } }]

def checks : List (Nat × Bool) := [
    (245, (calc0[0]!.controller.static : Rat) == (5835164835164835164835164835164841/1250000000000000000000000000000000000000000)),
    (246, (calc0[0]!.controller.dynamic : Rat) == 169),
    (247, (calc0[0]!.dram.static : Rat) == (2538461538461538461538461538461541/2500000000000000000000000000000000000000000)),
    (248, (calc0[0]!.dram.dynamic : Rat) == 228)]

#guard failing checks == []

end test_togglingrate_ddr4.DQ_Energy

namespace test_togglingrate_ddr4.Pattern_1

def run0 : Log := run .ddr4 ({ ddr4 with
  iface := { ddr4.iface with toggling := some (direction (7/10) (3/5) .L, direction (3/10) (2/5) .H) } }) [
    .both { t := 0, type := .ACT, co := { bank := 1, row := 2 } },
    .both { t := 5, type := .WR, co := { bank := 1, column := 16 }, nBits := 128, data := some test_togglingrate_ddr4.wr_data },
    .both { t := 14, type := .RD, co := { bank := 1, column := 16 }, nBits := 128, data := some test_togglingrate_ddr4.rd_data },
    .both { t := 23, type := .PRE, co := { bank := 1, row := 2 } },
    .both { t := 30, type := .ACT, co := { bank := 1, row := 2 } },
    .both { t := 35, type := .WR, co := { bank := 1, column := 16 }, nBits := 128 },
    .both { t := 44, type := .RD, co := { bank := 1, column := 16 }, nBits := 128 },
    .both { t := 53, type := .PRE, co := { bank := 1, row := 2 } },
    .both { t := 56, type := .END_OF_SIMULATION },
    .stats]

def checks : List (Nat × Bool) := [
    (0, run0.ok),
    (296, run0.stats[0]!.togglingRead.ones == 152),
    (298, run0.stats[0]!.togglingRead.zeroes == 736),
    (300, run0.stats[0]!.togglingRead.onesToZeroes == 88),
    (302, run0.stats[0]!.togglingRead.zeroesToOnes == 88),
    (306, run0.stats[0]!.togglingWrite.ones == 736),
    (308, run0.stats[0]!.togglingWrite.zeroes == 152),
    (310, run0.stats[0]!.togglingWrite.onesToZeroes == 32),
    (312, run0.stats[0]!.togglingWrite.zeroesToOnes == 32),
    (315, run0.stats[0]!.readBus.zeroesToOnes == 0),
    (316, run0.stats[0]!.readBus.onesToZeroes == 0),
    (317, run0.stats[0]!.readBus.zeroes == 0),
    (318, run0.stats[0]!.readBus.ones == 0),
    (320, run0.stats[0]!.writeBus.zeroesToOnes == 0),
    (321, run0.stats[0]!.writeBus.onesToZeroes == 0),
    (322, run0.stats[0]!.writeBus.zeroes == 0),
    (323, run0.stats[0]!.writeBus.ones == 0),
    (326, run0.stats[0]!.clockStats.zeroesToOnes == 112),
    (327, run0.stats[0]!.clockStats.onesToZeroes == 112),
    (328, run0.stats[0]!.clockStats.zeroes == 112),
    (329, run0.stats[0]!.clockStats.ones == 112),
    (332, run0.stats[0]!.commandBus.zeroesToOnes == 114),
    (333, run0.stats[0]!.commandBus.onesToZeroes == 114),
    (334, run0.stats[0]!.commandBus.zeroes == 114),
    (335, run0.stats[0]!.commandBus.ones == 1398),
    (338, run0.stats[0]!.writeDQSStats.zeroesToOnes == 32),
    (339, run0.stats[0]!.writeDQSStats.onesToZeroes == 32),
    (340, run0.stats[0]!.writeDQSStats.zeroes == 32),
    (341, run0.stats[0]!.writeDQSStats.ones == 32),
    (342, run0.stats[0]!.readDQSStats.zeroesToOnes == 32),
    (343, run0.stats[0]!.readDQSStats.onesToZeroes == 32),
    (344, run0.stats[0]!.readDQSStats.zeroes == 32),
    (345, run0.stats[0]!.readDQSStats.ones == 32),
    (349, run0.stats[0]!.rankTotal[0]!.prepos.readSeamless == 0),
    (350, run0.stats[0]!.rankTotal[0]!.prepos.writeSeamless == 0),
    (351, run0.stats[0]!.rankTotal[0]!.prepos.readMerged == 0),
    (352, run0.stats[0]!.rankTotal[0]!.prepos.readMergedTime == 0),
    (353, run0.stats[0]!.rankTotal[0]!.prepos.writeMerged == 0),
    (354, run0.stats[0]!.rankTotal[0]!.prepos.writeMergedTime == 0)]

#guard failing checks == []

end test_togglingrate_ddr4.Pattern_1

/-! ## tests/tests_drampower/interface/test_togglingrate_ddr5.cpp -/

def test_togglingrate_ddr5.wr_data : List UInt8 := [
  0, 0, 0, 0, 0, 0, 0, 255, 0, 0, 0, 0, 0, 0, 0, 0]

def test_togglingrate_ddr5.rd_data : List UInt8 := [
  255, 0, 0, 0, 0, 0, 0, 0, 0, 0, 0, 0, 0, 0, 0, 0]

namespace test_togglingrate_ddr5.Pattern_0_LH

def run0 : Log := run .ddr5 ({ ddr5 with
  iface := { ddr5.iface with toggling := some (direction (7/10) (3/5) .L, direction (3/10) (2/5) .H) } }) [
    .core { t := 0, type := .ACT, co := { bank := 1, row := 2 } },
    .iface { t := 0, type := .ACT, co := { bank := 1, row := 2 } },
    .core { t := 3, type := .WR, co := { bank := 1, column := 4 }, nBits := 256 },
    .iface { t := 3, type := .WR, co := { bank := 1, column := 4 }, nBits := 256 },
    .core { t := 12, type := .RD, co := { bank := 1, column := 4 }, nBits := 256 },
    .iface { t := 12, type := .RD, co := { bank := 1, column := 4 }, nBits := 256 },
    .core { t := 21, type := .PRE, co := { bank := 1, row := 2 } },
    .iface { t := 21, type := .PRE, co := { bank := 1, row := 2 } },
    .core { t := 24, type := .END_OF_SIMULATION },
    .iface { t := 24, type := .END_OF_SIMULATION },
    .stats]

def checks : List (Nat × Bool) := [
    (0, run0.ok),
    (117, run0.stats[0]!.togglingRead.ones == 112),
    (119, run0.stats[0]!.togglingRead.zeroes == 264),
    (121, run0.stats[0]!.togglingRead.onesToZeroes == 64),
    (123, run0.stats[0]!.togglingRead.zeroesToOnes == 64),
    (127, run0.stats[0]!.togglingWrite.ones == 224),
    (129, run0.stats[0]!.togglingWrite.zeroes == 152),
    (131, run0.stats[0]!.togglingWrite.onesToZeroes == 32),
    (133, run0.stats[0]!.togglingWrite.zeroesToOnes == 32),
    (136, run0.stats[0]!.clockStats.ones == 48),
    (137, run0.stats[0]!.clockStats.zeroes == 48),
    (138, run0.stats[0]!.clockStats.onesToZeroes == 48),
    (139, run0.stats[0]!.clockStats.zeroesToOnes == 48),
    (142, run0.stats[0]!.commandBus.ones == 282),
    (143, run0.stats[0]!.commandBus.zeroes == 54),
    (144, run0.stats[0]!.commandBus.onesToZeroes == 39),
    (145, run0.stats[0]!.commandBus.zeroesToOnes == 39),
    (156, run0.stats[0]!.writeDQSStats.ones == 32),
    (157, run0.stats[0]!.writeDQSStats.zeroes == 32),
    (158, run0.stats[0]!.writeDQSStats.onesToZeroes == 32),
    (159, run0.stats[0]!.writeDQSStats.zeroesToOnes == 32),
    (160, run0.stats[0]!.readDQSStats.ones == 32),
    (161, run0.stats[0]!.readDQSStats.zeroes == 32),
    (162, run0.stats[0]!.readDQSStats.onesToZeroes == 32),
    (163, run0.stats[0]!.readDQSStats.zeroesToOnes == 32)]

#guard failing checks == []

end test_togglingrate_ddr5.Pattern_0_LH

namespace test_togglingrate_ddr5.DQ_Energy

def calc0 : List InterfaceInfo := calculate .ddr5 ({ ddr5 with
  wires := { ddr5.wires with imp := { ddr5.wires.imp with ca := { ddr5.wires.imp.ca with rEq := 2, dynE := 8 }, ck := { ddr5.wires.imp.ck with rEq := 3, dynE := 9 }, rdqs := { ddr5.wires.imp.rdqs with rEq := 4, dynE := 10 }, wdqs := { ddr5.wires.imp.wdqs with rEq := 5, dynE := 11 }, rdq := { ddr5.wires.imp.rdq with rEq := 6, dynE := 12 }, wdq := { ddr5.wires.imp.wdq with rEq := 7, dynE := 13 } } } }) [
    { togglingRead := { ones := 7, zeroes := 11, zeroesToOnes := 19, onesToZeroes := 39 }, togglingWrite := { ones := 43, zeroes := 59, zeroesToOnes := 13, onesToZeroes := 17 } }]

def checks : List (Nat × Bool) := [
    (227, (calc0[0]!.controller.static : Rat) == (78450549450549450549450549450549529/20000000000000000000000000000000000000000000)),
    (228, (calc0[0]!.controller.dynamic : Rat) == 169),
    (229, (calc0[0]!.dram.static : Rat) == (102384615384615384615384615384615487/120000000000000000000000000000000000000000000)),
    (230, (calc0[0]!.dram.dynamic : Rat) == 228)]

#guard failing checks == []

end test_togglingrate_ddr5.DQ_Energy

namespace test_togglingrate_ddr5.Pattern_1

def run0 : Log := run .ddr5 ({ ddr5 with
  iface := { ddr5.iface with toggling := some (direction (7/10) (3/5) .L, direction (3/10) (2/5) .H) } }) [
    .both { t := 0, type := .ACT, co := { bank := 1, row := 2 } },
    .both { t := 5, type := .WR, co := { bank := 1, column := 4 }, nBits := 128, data := some test_togglingrate_ddr5.wr_data },
    .both { t := 14, type := .RD, co := { bank := 1, column := 4 }, nBits := 128, data := some test_togglingrate_ddr5.rd_data },
    .both { t := 23, type := .PRE, co := { bank := 1, row := 2 } },
    .both { t := 30, type := .ACT, co := { bank := 1, row := 2 } },
    .both { t := 35, type := .WR, co := { bank := 1, column := 4 }, nBits := 128 },
    .both { t := 44, type := .RD, co := { bank := 1, column := 4 }, nBits := 128 },
    .both { t := 53, type := .PRE, co := { bank := 1, row := 2 } },
    .both { t := 56, type := .END_OF_SIMULATION },
    .stats]

def checks : List (Nat × Bool) := [
    (0, run0.ok),
    (278, run0.stats[0]!.togglingRead.ones == 152),
    (280, run0.stats[0]!.togglingRead.zeroes == 736),
    (282, run0.stats[0]!.togglingRead.onesToZeroes == 88),
    (284, run0.stats[0]!.togglingRead.zeroesToOnes == 88),
    (288, run0.stats[0]!.togglingWrite.ones == 736),
    (290, run0.stats[0]!.togglingWrite.zeroes == 152),
    (292, run0.stats[0]!.togglingWrite.onesToZeroes == 32),
    (294, run0.stats[0]!.togglingWrite.zeroesToOnes == 32),
    (297, run0.stats[0]!.readBus.zeroesToOnes == 0),
    (298, run0.stats[0]!.readBus.onesToZeroes == 0),
    (299, run0.stats[0]!.readBus.zeroes == 0),
    (300, run0.stats[0]!.readBus.ones == 0),
    (302, run0.stats[0]!.writeBus.zeroesToOnes == 0),
    (303, run0.stats[0]!.writeBus.onesToZeroes == 0),
    (304, run0.stats[0]!.writeBus.zeroes == 0),
    (305, run0.stats[0]!.writeBus.ones == 0),
    (308, run0.stats[0]!.clockStats.zeroesToOnes == 112),
    (309, run0.stats[0]!.clockStats.onesToZeroes == 112),
    (310, run0.stats[0]!.clockStats.zeroes == 112),
    (311, run0.stats[0]!.clockStats.ones == 112),
    (314, run0.stats[0]!.commandBus.zeroesToOnes == 78),
    (315, run0.stats[0]!.commandBus.onesToZeroes == 78),
    (316, run0.stats[0]!.commandBus.zeroes == 108),
    (317, run0.stats[0]!.commandBus.ones == 676),
    (320, run0.stats[0]!.writeDQSStats.zeroesToOnes == 32),
    (321, run0.stats[0]!.writeDQSStats.onesToZeroes == 32),
    (322, run0.stats[0]!.writeDQSStats.zeroes == 32),
    (323, run0.stats[0]!.writeDQSStats.ones == 32),
    (324, run0.stats[0]!.readDQSStats.zeroesToOnes == 32),
    (325, run0.stats[0]!.readDQSStats.onesToZeroes == 32),
    (326, run0.stats[0]!.readDQSStats.zeroes == 32),
    (327, run0.stats[0]!.readDQSStats.ones == 32),
    (331, run0.stats[0]!.rankTotal[0]!.prepos.readSeamless == 0),
    (332, run0.stats[0]!.rankTotal[0]!.prepos.writeSeamless == 0),
    (333, run0.stats[0]!.rankTotal[0]!.prepos.readMerged == 0),
    (334, run0.stats[0]!.rankTotal[0]!.prepos.readMergedTime == 0),
    (335, run0.stats[0]!.rankTotal[0]!.prepos.writeMerged == 0),
    (336, run0.stats[0]!.rankTotal[0]!.prepos.writeMergedTime == 0)]

#guard failing checks == []

end test_togglingrate_ddr5.Pattern_1

/-! ## tests/tests_drampower/interface/test_togglingrate_lpddr4.cpp -/

def test_togglingrate_lpddr4.wr_data : List UInt8 := [
  0, 0, 0, 0, 0, 0, 0, 255, 0, 0, 0, 0, 0, 0, 0, 0]

def test_togglingrate_lpddr4.rd_data : List UInt8 := [
  255, 0, 0, 0, 0, 0, 0, 0, 0, 0, 0, 0, 0, 0, 0, 0]

namespace test_togglingrate_lpddr4.Pattern_0_LH

def run0 : Log := run .lpddr4 ({ lpddr4 with
  iface := { lpddr4.iface with toggling := some (direction (7/10) (3/5) .L, direction (3/10) (2/5) .H) } }) [
    .core { t := 0, type := .ACT, co := { bank := 1, row := 2 } },
    .iface { t := 0, type := .ACT, co := { bank := 1, row := 2 } },
    .core { t := 5, type := .WR, co := { bank := 1, column := 16 }, nBits := 256 },
    .iface { t := 5, type := .WR, co := { bank := 1, column := 16 }, nBits := 256 },
    .core { t := 14, type := .RD, co := { bank := 1, column := 16 }, nBits := 256 },
    .iface { t := 14, type := .RD, co := { bank := 1, column := 16 }, nBits := 256 },
    .core { t := 23, type := .PRE, co := { bank := 1, row := 2 } },
    .iface { t := 23, type := .PRE, co := { bank := 1, row := 2 } },
    .core { t := 26, type := .END_OF_SIMULATION },
    .iface { t := 26, type := .END_OF_SIMULATION },
    .stats]

def checks : List (Nat × Bool) := [
    (0, run0.ok),
    (117, run0.stats[0]!.togglingRead.ones == 112),
    (119, run0.stats[0]!.togglingRead.zeroes == 296),
    (121, run0.stats[0]!.togglingRead.onesToZeroes == 64),
    (123, run0.stats[0]!.togglingRead.zeroesToOnes == 64),
    (127, run0.stats[0]!.togglingWrite.ones == 256),
    (129, run0.stats[0]!.togglingWrite.zeroes == 152),
    (131, run0.stats[0]!.togglingWrite.onesToZeroes == 32),
    (133, run0.stats[0]!.togglingWrite.zeroesToOnes == 32),
    (136, run0.stats[0]!.clockStats.ones == 52),
    (137, run0.stats[0]!.clockStats.zeroes == 52),
    (138, run0.stats[0]!.clockStats.onesToZeroes == 52),
    (139, run0.stats[0]!.clockStats.zeroesToOnes == 52),
    (142, run0.stats[0]!.commandBus.ones == 15),
    (143, run0.stats[0]!.commandBus.zeroes == 141),
    (144, run0.stats[0]!.commandBus.onesToZeroes == 14),
    (145, run0.stats[0]!.commandBus.zeroesToOnes == 14),
    (155, run0.stats[0]!.writeDQSStats.ones == 32),
    (156, run0.stats[0]!.writeDQSStats.zeroes == 32),
    (157, run0.stats[0]!.writeDQSStats.onesToZeroes == 32),
    (158, run0.stats[0]!.writeDQSStats.zeroesToOnes == 32),
    (159, run0.stats[0]!.readDQSStats.ones == 32),
    (160, run0.stats[0]!.readDQSStats.zeroes == 32),
    (161, run0.stats[0]!.readDQSStats.onesToZeroes == 32),
    (162, run0.stats[0]!.readDQSStats.zeroesToOnes == 32),
    (166, run0.stats[0]!.rankTotal[0]!.prepos.readSeamless == 0),
    (167, run0.stats[0]!.rankTotal[0]!.prepos.writeSeamless == 0),
    (168, run0.stats[0]!.rankTotal[0]!.prepos.readMerged == 0),
    (169, run0.stats[0]!.rankTotal[0]!.prepos.readMergedTime == 0),
    (170, run0.stats[0]!.rankTotal[0]!.prepos.writeMerged == 0),
    (171, run0.stats[0]!.rankTotal[0]!.prepos.writeMergedTime == 0)]

#guard failing checks == []

end test_togglingrate_lpddr4.Pattern_0_LH

namespace test_togglingrate_lpddr4.DQ_Energy

def calc0 : List InterfaceInfo := calculate .lpddr4 ({ lpddr4 with
  wires := { lpddr4.wires with imp := { lpddr4.wires.imp with ca := { lpddr4.wires.imp.ca with rEq := 2, dynE := 8 }, ck := { lpddr4.wires.imp.ck with rEq := 3, dynE := 9 }, rdqs := { lpddr4.wires.imp.rdqs with rEq := 4, dynE := 10 }, wdqs := { lpddr4.wires.imp.wdqs with rEq := 5, dynE := 11 }, rdq := { lpddr4.wires.imp.rdq with rEq := 6, dynE := 12 }, wdq := { lpddr4.wires.imp.wdq with rEq := 7, dynE := 13 } } } }) [
    { togglingRead := { ones := 7, zeroes := 11, zeroesToOnes := 19, onesToZeroes := 39 }, togglingWrite := { ones := 43, zeroes := 59, zeroesToOnes := 13, onesToZeroes := 17 } }]

def checks : List (Nat × Bool) := [
    (234, (calc0[0]!.controller.static : Rat) == (4252747252747252747252747252747257/1250000000000000000000000000000000000000000)),
    (235, (calc0[0]!.controller.dynamic : Rat) == 169),
    (236, (calc0[0]!.dram.static : Rat) == (1615384615384615384615384615384617/2500000000000000000000000000000000000000000)),
    (237, (calc0[0]!.dram.dynamic : Rat) == 228)]

#guard failing checks == []

end test_togglingrate_lpddr4.DQ_Energy

namespace test_togglingrate_lpddr4.Pattern_1

def run0 : Log := run .lpddr4 ({ lpddr4 with
  iface := { lpddr4.iface with toggling := some (direction (7/10) (3/5) .L, direction (3/10) (2/5) .H) } }) [
    .both { t := 0, type := .ACT, co := { bank := 1, row := 2 } },
    .both { t := 5, type := .WR, co := { bank := 1, column := 16 }, nBits := 128, data := some test_togglingrate_lpddr4.wr_data },
    .both { t := 14, type := .RD, co := { bank := 1, column := 16 }, nBits := 128, data := some test_togglingrate_lpddr4.rd_data },
    .both { t := 23, type := .PRE, co := { bank := 1, row := 2 } },
    .both { t := 30, type := .ACT, co := { bank := 1, row := 2 } },
    .both { t := 35, type := .WR, co := { bank := 1, column := 16 }, nBits := 128 },
    .both { t := 44, type := .RD, co := { bank := 1, column := 16 }, nBits := 128 },
    .both { t := 53, type := .PRE, co := { bank := 1, row := 2 } },
    .both { t := 56, type := .END_OF_SIMULATION },
    .stats]

def checks : List (Nat × Bool) := [
    (0, run0.ok),
    (287, run0.stats[0]!.togglingRead.ones == 152),
    (289, run0.stats[0]!.togglingRead.zeroes == 736),
    (291, run0.stats[0]!.togglingRead.onesToZeroes == 88),
    (293, run0.stats[0]!.togglingRead.zeroesToOnes == 88),
    (297, run0.stats[0]!.togglingWrite.ones == 736),
    (299, run0.stats[0]!.togglingWrite.zeroes == 152),
    (301, run0.stats[0]!.togglingWrite.onesToZeroes == 32),
    (303, run0.stats[0]!.togglingWrite.zeroesToOnes == 32),
    (306, run0.stats[0]!.readBus.zeroesToOnes == 0),
    (307, run0.stats[0]!.readBus.onesToZeroes == 0),
    (308, run0.stats[0]!.readBus.zeroes == 0),
    (309, run0.stats[0]!.readBus.ones == 0),
    (311, run0.stats[0]!.writeBus.zeroesToOnes == 0),
    (312, run0.stats[0]!.writeBus.onesToZeroes == 0),
    (313, run0.stats[0]!.writeBus.zeroes == 0),
    (314, run0.stats[0]!.writeBus.ones == 0),
    (317, run0.stats[0]!.clockStats.zeroesToOnes == 112),
    (318, run0.stats[0]!.clockStats.onesToZeroes == 112),
    (319, run0.stats[0]!.clockStats.zeroes == 112),
    (320, run0.stats[0]!.clockStats.ones == 112),
    (323, run0.stats[0]!.commandBus.zeroesToOnes == 28),
    (324, run0.stats[0]!.commandBus.onesToZeroes == 28),
    (325, run0.stats[0]!.commandBus.zeroes == 306),
    (326, run0.stats[0]!.commandBus.ones == 30),
    (329, run0.stats[0]!.writeDQSStats.zeroesToOnes == 32),
    (330, run0.stats[0]!.writeDQSStats.onesToZeroes == 32),
    (331, run0.stats[0]!.writeDQSStats.zeroes == 32),
    (332, run0.stats[0]!.writeDQSStats.ones == 32),
    (333, run0.stats[0]!.readDQSStats.zeroesToOnes == 32),
    (334, run0.stats[0]!.readDQSStats.onesToZeroes == 32),
    (335, run0.stats[0]!.readDQSStats.zeroes == 32),
    (336, run0.stats[0]!.readDQSStats.ones == 32),
    (340, run0.stats[0]!.rankTotal[0]!.prepos.readSeamless == 0),
    (341, run0.stats[0]!.rankTotal[0]!.prepos.writeSeamless == 0),
    (342, run0.stats[0]!.rankTotal[0]!.prepos.readMerged == 0),
    (343, run0.stats[0]!.rankTotal[0]!.prepos.readMergedTime == 0),
    (344, run0.stats[0]!.rankTotal[0]!.prepos.writeMerged == 0),
    (345, run0.stats[0]!.rankTotal[0]!.prepos.writeMergedTime == 0)]

#guard failing checks == []

end test_togglingrate_lpddr4.Pattern_1

/-! ## tests/tests_drampower/interface/test_togglingrate_lpddr5.cpp -/

def test_togglingrate_lpddr5.wr_data : List UInt8 := [
  0, 0, 0, 0, 0, 0, 0, 255, 0, 0, 0, 0, 0, 0, 0, 0]

def test_togglingrate_lpddr5.rd_data : List UInt8 := [
  255, 0, 0, 0, 0, 0, 0, 0, 0, 0, 0, 0, 0, 0, 0, 0]

namespace test_togglingrate_lpddr5.Pattern_0_LH

def run0 : Log := run .lpddr5 ({ lpddr5 with
  iface := { lpddr5.iface with toggling := some (direction (7/10) (3/5) .L, direction (3/10) (2/5) .H) } }) [
    .core { t := 0, type := .ACT, co := { bank := 1, row := 2 } },
    .iface { t := 0, type := .ACT, co := { bank := 1, row := 2 } },
    .core { t := 3, type := .WR, co := { bank := 1, column := 8 }, nBits := 256 },
    .iface { t := 3, type := .WR, co := { bank := 1, column := 8 }, nBits := 256 },
    .core { t := 12, type := .RD, co := { bank := 1, column := 8 }, nBits := 256 },
    .iface { t := 12, type := .RD, co := { bank := 1, column := 8 }, nBits := 256 },
    .core { t := 21, type := .PRE, co := { bank := 1, row := 2 } },
    .iface { t := 21, type := .PRE, co := { bank := 1, row := 2 } },
    .core { t := 24, type := .END_OF_SIMULATION },
    .iface { t := 24, type := .END_OF_SIMULATION },
    .stats]

def checks : List (Nat × Bool) := [
    (0, run0.ok),
    (116, run0.stats[0]!.togglingRead.ones == 112),
    (118, run0.stats[0]!.togglingRead.zeroes == 264),
    (120, run0.stats[0]!.togglingRead.onesToZeroes == 64),
    (122, run0.stats[0]!.togglingRead.zeroesToOnes == 64),
    (126, run0.stats[0]!.togglingWrite.ones == 224),
    (128, run0.stats[0]!.togglingWrite.zeroes == 152),
    (130, run0.stats[0]!.togglingWrite.onesToZeroes == 32),
    (132, run0.stats[0]!.togglingWrite.zeroesToOnes == 32),
    (135, run0.stats[0]!.clockStats.ones == 48),
    (136, run0.stats[0]!.clockStats.zeroes == 48),
    (137, run0.stats[0]!.clockStats.onesToZeroes == 48),
    (138, run0.stats[0]!.clockStats.zeroesToOnes == 48),
    (141, run0.stats[0]!.commandBus.ones == 19),
    (142, run0.stats[0]!.commandBus.zeroes == 317),
    (143, run0.stats[0]!.commandBus.onesToZeroes == 15),
    (144, run0.stats[0]!.commandBus.zeroesToOnes == 15),
    (154, run0.stats[0]!.readDQSStats.ones == 32),
    (155, run0.stats[0]!.readDQSStats.zeroes == 32),
    (156, run0.stats[0]!.readDQSStats.onesToZeroes == 32),
    (157, run0.stats[0]!.readDQSStats.zeroesToOnes == 32),
    (161, run0.stats[0]!.rankTotal[0]!.prepos.readSeamless == 0),
    (162, run0.stats[0]!.rankTotal[0]!.prepos.writeSeamless == 0),
    (163, run0.stats[0]!.rankTotal[0]!.prepos.readMerged == 0),
    (164, run0.stats[0]!.rankTotal[0]!.prepos.readMergedTime == 0),
    (165, run0.stats[0]!.rankTotal[0]!.prepos.writeMerged == 0),
    (166, run0.stats[0]!.rankTotal[0]!.prepos.writeMergedTime == 0)]

#guard failing checks == []

end test_togglingrate_lpddr5.Pattern_0_LH

namespace test_togglingrate_lpddr5.DQ_Energy

def calc0 : List InterfaceInfo := calculate .lpddr5 ({ lpddr5 with
  wires := { lpddr5.wires with imp := { lpddr5.wires.imp with ca := { lpddr5.wires.imp.ca with rEq := 2, dynE := 8 }, ck := { lpddr5.wires.imp.ck with rEq := 3, dynE := 9 }, rdqs := { lpddr5.wires.imp.rdqs with rEq := 4, dynE := 10 }, wck := { lpddr5.wires.imp.wck with rEq := 5, dynE := 11 }, rdq := { lpddr5.wires.imp.rdq with rEq := 6, dynE := 12 }, wdq := { lpddr5.wires.imp.wdq with rEq := 7, dynE := 13 } } } }) [
    { togglingRead := { ones := 7, zeroes := 11, zeroesToOnes := 19, onesToZeroes := 39 }, togglingWrite := { ones := 43, zeroes := 59, zeroesToOnes := 13, onesToZeroes := 17 } }]

def checks : List (Nat × Bool) := [
    (230, (calc0[0]!.controller.static : Rat) == (472527472527472527472527472527473/800000000000000000000000000000000000000000)),
    (231, (calc0[0]!.controller.dynamic : Rat) == 169),
    (232, (calc0[0]!.dram.static : Rat) == (538461538461538461538461538461539/4800000000000000000000000000000000000000000)),
    (233, (calc0[0]!.dram.dynamic : Rat) == 228)]

#guard failing checks == []

end test_togglingrate_lpddr5.DQ_Energy

namespace test_togglingrate_lpddr5.Pattern_1

def run0 : Log := run .lpddr5 ({ lpddr5 with
  iface := { lpddr5.iface with toggling := some (direction (7/10) (3/5) .L, direction (3/10) (2/5) .H) } }) [
    .both { t := 0, type := .ACT, co := { bank := 1, row := 2 } },
    .both { t := 5, type := .WR, co := { bank := 1, column := 8 }, nBits := 128, data := some test_togglingrate_lpddr5.wr_data },
    .both { t := 14, type := .RD, co := { bank := 1, column := 8 }, nBits := 128, data := some test_togglingrate_lpddr5.rd_data },
    .both { t := 23, type := .PRE, co := { bank := 1, row := 2 } },
    .both { t := 30, type := .ACT, co := { bank := 1, row := 2 } },
    .both { t := 35, type := .WR, co := { bank := 1, column := 8 }, nBits := 128 },
    .both { t := 44, type := .RD, co := { bank := 1, column := 8 }, nBits := 128 },
    .both { t := 53, type := .PRE, co := { bank := 1, row := 2 } },
    .both { t := 56, type := .END_OF_SIMULATION },
    .stats]

def checks : List (Nat × Bool) := [
    (0, run0.ok),
    (280, run0.stats[0]!.togglingRead.ones == 152),
    (282, run0.stats[0]!.togglingRead.zeroes == 736),
    (284, run0.stats[0]!.togglingRead.onesToZeroes == 88),
    (286, run0.stats[0]!.togglingRead.zeroesToOnes == 88),
    (290, run0.stats[0]!.togglingWrite.ones == 736),
    (292, run0.stats[0]!.togglingWrite.zeroes == 152),
    (294, run0.stats[0]!.togglingWrite.onesToZeroes == 32),
    (296, run0.stats[0]!.togglingWrite.zeroesToOnes == 32),
    (299, run0.stats[0]!.readBus.zeroesToOnes == 0),
    (300, run0.stats[0]!.readBus.onesToZeroes == 0),
    (301, run0.stats[0]!.readBus.zeroes == 0),
    (302, run0.stats[0]!.readBus.ones == 0),
    (304, run0.stats[0]!.writeBus.zeroesToOnes == 0),
    (305, run0.stats[0]!.writeBus.onesToZeroes == 0),
    (306, run0.stats[0]!.writeBus.zeroes == 0),
    (307, run0.stats[0]!.writeBus.ones == 0),
    (310, run0.stats[0]!.clockStats.zeroesToOnes == 112),
    (311, run0.stats[0]!.clockStats.onesToZeroes == 112),
    (312, run0.stats[0]!.clockStats.zeroes == 112),
    (313, run0.stats[0]!.clockStats.ones == 112),
    (316, run0.stats[0]!.commandBus.zeroesToOnes == 30),
    (317, run0.stats[0]!.commandBus.onesToZeroes == 30),
    (318, run0.stats[0]!.commandBus.zeroes == 746),
    (319, run0.stats[0]!.commandBus.ones == 38),
    (322, run0.stats[0]!.readDQSStats.zeroesToOnes == 32),
    (323, run0.stats[0]!.readDQSStats.onesToZeroes == 32),
    (324, run0.stats[0]!.readDQSStats.zeroes == 32),
    (325, run0.stats[0]!.readDQSStats.ones == 32),
    (329, run0.stats[0]!.rankTotal[0]!.prepos.readSeamless == 0),
    (330, run0.stats[0]!.rankTotal[0]!.prepos.writeSeamless == 0),
    (331, run0.stats[0]!.rankTotal[0]!.prepos.readMerged == 0),
    (332, run0.stats[0]!.rankTotal[0]!.prepos.readMergedTime == 0),
    (333, run0.stats[0]!.rankTotal[0]!.prepos.writeMerged == 0),
    (334, run0.stats[0]!.rankTotal[0]!.prepos.writeMergedTime == 0)]

#guard failing checks == []

end test_togglingrate_lpddr5.Pattern_1

end DRAMPower.Tests
