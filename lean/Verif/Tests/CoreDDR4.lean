import Verif.Tests.Resources

/-!
# Tests of the DDR4 core

Generated by conformance/gen.py, do not edit. The numbers in the lists of checks are lines of the test file.
-/

namespace DRAMPower.Tests

/-! ## tests/tests_drampower/core/DDR4/ddr4_multidevice_tests.cpp -/

namespace ddr4_multidevice_tests.Counters_and_Cycles

def run0 : Log := run .ddr4 ({ ddr4 with
  power := { ddr4.power with devices := 5 },
  iface := { ddr4.iface with devices := 5 } }) [
    .core { t := 0, type := .ACT },
    .core { t := 15, type := .RD },
    .core { t := 20, type := .ACT, co := { bank := 3 } },
    .core { t := 35, type := .RD, co := { bank := 3 } },
    .core { t := 40, type := .RD },
    .core { t := 50, type := .PREA },
    .core { t := 70, type := .END_OF_SIMULATION },
    .stats]

def checks : List (Nat × Bool) := [
    (0, run0.ok),
    (86, run0.stats[0]!.bank[0]!.counter.act == 1),
    (88, run0.stats[0]!.bank[1]!.counter.act == 0),
    (88, run0.stats[0]!.bank[2]!.counter.act == 0),
    (86, run0.stats[0]!.bank[3]!.counter.act == 1),
    (88, run0.stats[0]!.bank[4]!.counter.act == 0),
    (88, run0.stats[0]!.bank[5]!.counter.act == 0),
    (88, run0.stats[0]!.bank[6]!.counter.act == 0),
    (88, run0.stats[0]!.bank[7]!.counter.act == 0),
    (88, run0.stats[0]!.bank[8]!.counter.act == 0),
    (88, run0.stats[0]!.bank[9]!.counter.act == 0),
    (88, run0.stats[0]!.bank[10]!.counter.act == 0),
    (88, run0.stats[0]!.bank[11]!.counter.act == 0),
    (88, run0.stats[0]!.bank[12]!.counter.act == 0),
    (88, run0.stats[0]!.bank[13]!.counter.act == 0),
    (88, run0.stats[0]!.bank[14]!.counter.act == 0),
    (88, run0.stats[0]!.bank[15]!.counter.act == 0),
    (94, run0.stats[0]!.bank[0]!.counter.reads == 2),
    (98, run0.stats[0]!.bank[1]!.counter.reads == 0),
    (98, run0.stats[0]!.bank[2]!.counter.reads == 0),
    (96, run0.stats[0]!.bank[3]!.counter.reads == 1),
    (98, run0.stats[0]!.bank[4]!.counter.reads == 0),
    (98, run0.stats[0]!.bank[5]!.counter.reads == 0),
    (98, run0.stats[0]!.bank[6]!.counter.reads == 0),
    (98, run0.stats[0]!.bank[7]!.counter.reads == 0),
    (98, run0.stats[0]!.bank[8]!.counter.reads == 0),
    (98, run0.stats[0]!.bank[9]!.counter.reads == 0),
    (98, run0.stats[0]!.bank[10]!.counter.reads == 0),
    (98, run0.stats[0]!.bank[11]!.counter.reads == 0),
    (98, run0.stats[0]!.bank[12]!.counter.reads == 0),
    (98, run0.stats[0]!.bank[13]!.counter.reads == 0),
    (98, run0.stats[0]!.bank[14]!.counter.reads == 0),
    (98, run0.stats[0]!.bank[15]!.counter.reads == 0),
    (104, run0.stats[0]!.bank[0]!.counter.pre == 1),
    (106, run0.stats[0]!.bank[1]!.counter.pre == 0),
    (106, run0.stats[0]!.bank[2]!.counter.pre == 0),
    (104, run0.stats[0]!.bank[3]!.counter.pre == 1),
    (106, run0.stats[0]!.bank[4]!.counter.pre == 0),
    (106, run0.stats[0]!.bank[5]!.counter.pre == 0),
    (106, run0.stats[0]!.bank[6]!.counter.pre == 0),
    (106, run0.stats[0]!.bank[7]!.counter.pre == 0),
    (106, run0.stats[0]!.bank[8]!.counter.pre == 0),
    (106, run0.stats[0]!.bank[9]!.counter.pre == 0),
    (106, run0.stats[0]!.bank[10]!.counter.pre == 0),
    (106, run0.stats[0]!.bank[11]!.counter.pre == 0),
    (106, run0.stats[0]!.bank[12]!.counter.pre == 0),
    (106, run0.stats[0]!.bank[13]!.counter.pre == 0),
    (106, run0.stats[0]!.bank[14]!.counter.pre == 0),
    (106, run0.stats[0]!.bank[15]!.counter.pre == 0),
    (110, run0.stats[0]!.rankTotal[0]!.cycles.act == 50),
    (111, run0.stats[0]!.rankTotal[0]!.cycles.pre == 20),
    (116, run0.stats[0]!.bank[0]!.cycles.act == 50),
    (120, run0.stats[0]!.bank[1]!.cycles.act == 0),
    (120, run0.stats[0]!.bank[2]!.cycles.act == 0),
    (118, run0.stats[0]!.bank[3]!.cycles.act == 30),
    (120, run0.stats[0]!.bank[4]!.cycles.act == 0),
    (120, run0.stats[0]!.bank[5]!.cycles.act == 0),
    (120, run0.stats[0]!.bank[6]!.cycles.act == 0),
    (120, run0.stats[0]!.bank[7]!.cycles.act == 0),
    (120, run0.stats[0]!.bank[8]!.cycles.act == 0),
    (120, run0.stats[0]!.bank[9]!.cycles.act == 0),
    (120, run0.stats[0]!.bank[10]!.cycles.act == 0),
    (120, run0.stats[0]!.bank[11]!.cycles.act == 0),
    (120, run0.stats[0]!.bank[12]!.cycles.act == 0),
    (120, run0.stats[0]!.bank[13]!.cycles.act == 0),
    (120, run0.stats[0]!.bank[14]!.cycles.act == 0),
    (120, run0.stats[0]!.bank[15]!.cycles.act == 0),
    (130, run0.stats[0]!.bank[1]!.cycles.pre == 70),
    (130, run0.stats[0]!.bank[2]!.cycles.pre == 70),
    (128, run0.stats[0]!.bank[3]!.cycles.pre == 40),
    (130, run0.stats[0]!.bank[4]!.cycles.pre == 70),
    (130, run0.stats[0]!.bank[5]!.cycles.pre == 70),
    (130, run0.stats[0]!.bank[6]!.cycles.pre == 70),
    (130, run0.stats[0]!.bank[7]!.cycles.pre == 70),
    (130, run0.stats[0]!.bank[8]!.cycles.pre == 70),
    (130, run0.stats[0]!.bank[9]!.cycles.pre == 70),
    (130, run0.stats[0]!.bank[10]!.cycles.pre == 70),
    (130, run0.stats[0]!.bank[11]!.cycles.pre == 70),
    (130, run0.stats[0]!.bank[12]!.cycles.pre == 70),
    (130, run0.stats[0]!.bank[13]!.cycles.pre == 70),
    (130, run0.stats[0]!.bank[14]!.cycles.pre == 70),
    (130, run0.stats[0]!.bank[15]!.cycles.pre == 70)]

#guard failing checks == []

end ddr4_multidevice_tests.Counters_and_Cycles

namespace ddr4_multidevice_tests.Energy

def run0 : Log := run .ddr4 ({ ddr4 with
  power := { ddr4.power with devices := 5 },
  iface := { ddr4.iface with devices := 5 } }) [
    .core { t := 0, type := .ACT },
    .core { t := 15, type := .RD },
    .core { t := 20, type := .ACT, co := { bank := 3 } },
    .core { t := 35, type := .RD, co := { bank := 3 } },
    .core { t := 40, type := .RD },
    .core { t := 50, type := .PREA },
    .core { t := 70, type := .END_OF_SIMULATION },
    .coreEnergy 70]

def checks : List (Nat × Bool) := [
    (0, run0.ok),
    (142, run0.energies[0]!.bank.length == 80),
    (147, run0.energies[0]!.bank[0]!.eAct == run0.energies[0]!.bank[0]!.eAct),
    (148, run0.energies[0]!.bank[0]!.ePre == run0.energies[0]!.bank[0]!.ePre),
    (149, run0.energies[0]!.bank[0]!.eRD == run0.energies[0]!.bank[0]!.eRD),
    (150, run0.energies[0]!.bank[0]!.eBgAct == run0.energies[0]!.bank[0]!.eBgAct),
    (151, run0.energies[0]!.bank[0]!.eBgPre == run0.energies[0]!.bank[0]!.eBgPre),
    (147, run0.energies[0]!.bank[1]!.eAct == run0.energies[0]!.bank[1]!.eAct),
    (148, run0.energies[0]!.bank[1]!.ePre == run0.energies[0]!.bank[1]!.ePre),
    (149, run0.energies[0]!.bank[1]!.eRD == run0.energies[0]!.bank[1]!.eRD),
    (150, run0.energies[0]!.bank[1]!.eBgAct == run0.energies[0]!.bank[1]!.eBgAct),
    (151, run0.energies[0]!.bank[1]!.eBgPre == run0.energies[0]!.bank[1]!.eBgPre),
    (147, run0.energies[0]!.bank[2]!.eAct == run0.energies[0]!.bank[2]!.eAct),
    (148, run0.energies[0]!.bank[2]!.ePre == run0.energies[0]!.bank[2]!.ePre),
    (149, run0.energies[0]!.bank[2]!.eRD == run0.energies[0]!.bank[2]!.eRD),
    (150, run0.energies[0]!.bank[2]!.eBgAct == run0.energies[0]!.bank[2]!.eBgAct),
    (151, run0.energies[0]!.bank[2]!.eBgPre == run0.energies[0]!.bank[2]!.eBgPre),
    (147, run0.energies[0]!.bank[3]!.eAct == run0.energies[0]!.bank[3]!.eAct),
    (148, run0.energies[0]!.bank[3]!.ePre == run0.energies[0]!.bank[3]!.ePre),
    (149, run0.energies[0]!.bank[3]!.eRD == run0.energies[0]!.bank[3]!.eRD),
    (150, run0.energies[0]!.bank[3]!.eBgAct == run0.energies[0]!.bank[3]!.eBgAct),
    (151, run0.energies[0]!.bank[3]!.eBgPre == run0.energies[0]!.bank[3]!.eBgPre),
    (147, run0.energies[0]!.bank[4]!.eAct == run0.energies[0]!.bank[4]!.eAct),
    (148, run0.energies[0]!.bank[4]!.ePre == run0.energies[0]!.bank[4]!.ePre),
    (149, run0.energies[0]!.bank[4]!.eRD == run0.energies[0]!.bank[4]!.eRD),
    (150, run0.energies[0]!.bank[4]!.eBgAct == run0.energies[0]!.bank[4]!.eBgAct),
    (151, run0.energies[0]!.bank[4]!.eBgPre == run0.energies[0]!.bank[4]!.eBgPre),
    (147, run0.energies[0]!.bank[5]!.eAct == run0.energies[0]!.bank[5]!.eAct),
    (148, run0.energies[0]!.bank[5]!.ePre == run0.energies[0]!.bank[5]!.ePre),
    (149, run0.energies[0]!.bank[5]!.eRD == run0.energies[0]!.bank[5]!.eRD),
    (150, run0.energies[0]!.bank[5]!.eBgAct == run0.energies[0]!.bank[5]!.eBgAct),
    (151, run0.energies[0]!.bank[5]!.eBgPre == run0.energies[0]!.bank[5]!.eBgPre),
    (147, run0.energies[0]!.bank[6]!.eAct == run0.energies[0]!.bank[6]!.eAct),
    (148, run0.energies[0]!.bank[6]!.ePre == run0.energies[0]!.bank[6]!.ePre),
    (149, run0.energies[0]!.bank[6]!.eRD == run0.energies[0]!.bank[6]!.eRD),
    (150, run0.energies[0]!.bank[6]!.eBgAct == run0.energies[0]!.bank[6]!.eBgAct),
    (151, run0.energies[0]!.bank[6]!.eBgPre == run0.energies[0]!.bank[6]!.eBgPre),
    (147, run0.energies[0]!.bank[7]!.eAct == run0.energies[0]!.bank[7]!.eAct),
    (148, run0.energies[0]!.bank[7]!.ePre == run0.energies[0]!.bank[7]!.ePre),
    (149, run0.energies[0]!.bank[7]!.eRD == run0.energies[0]!.bank[7]!.eRD),
    (150, run0.energies[0]!.bank[7]!.eBgAct == run0.energies[0]!.bank[7]!.eBgAct),
    (151, run0.energies[0]!.bank[7]!.eBgPre == run0.energies[0]!.bank[7]!.eBgPre),
    (147, run0.energies[0]!.bank[8]!.eAct == run0.energies[0]!.bank[8]!.eAct),
    (148, run0.energies[0]!.bank[8]!.ePre == run0.energies[0]!.bank[8]!.ePre),
    (149, run0.energies[0]!.bank[8]!.eRD == run0.energies[0]!.bank[8]!.eRD),
    (150, run0.energies[0]!.bank[8]!.eBgAct == run0.energies[0]!.bank[8]!.eBgAct),
    (151, run0.energies[0]!.bank[8]!.eBgPre == run0.energies[0]!.bank[8]!.eBgPre),
    (147, run0.energies[0]!.bank[9]!.eAct == run0.energies[0]!.bank[9]!.eAct),
    (148, run0.energies[0]!.bank[9]!.ePre == run0.energies[0]!.bank[9]!.ePre),
    (149, run0.energies[0]!.bank[9]!.eRD == run0.energies[0]!.bank[9]!.eRD),
    (150, run0.energies[0]!.bank[9]!.eBgAct == run0.energies[0]!.bank[9]!.eBgAct),
    (151, run0.energies[0]!.bank[9]!.eBgPre == run0.energies[0]!.bank[9]!.eBgPre),
    (147, run0.energies[0]!.bank[10]!.eAct == run0.energies[0]!.bank[10]!.eAct),
    (148, run0.energies[0]!.bank[10]!.ePre == run0.energies[0]!.bank[10]!.ePre),
    (149, run0.energies[0]!.bank[10]!.eRD == run0.energies[0]!.bank[10]!.eRD),
    (150, run0.energies[0]!.bank[10]!.eBgAct == run0.energies[0]!.bank[10]!.eBgAct),
    (151, run0.energies[0]!.bank[10]!.eBgPre == run0.energies[0]!.bank[10]!.eBgPre),
    (147, run0.energies[0]!.bank[11]!.eAct == run0.energies[0]!.bank[11]!.eAct),
    (148, run0.energies[0]!.bank[11]!.ePre == run0.energies[0]!.bank[11]!.ePre),
    (149, run0.energies[0]!.bank[11]!.eRD == run0.energies[0]!.bank[11]!.eRD),
    (150, run0.energies[0]!.bank[11]!.eBgAct == run0.energies[0]!.bank[11]!.eBgAct),
    (151, run0.energies[0]!.bank[11]!.eBgPre == run0.energies[0]!.bank[11]!.eBgPre),
    (147, run0.energies[0]!.bank[12]!.eAct == run0.energies[0]!.bank[12]!.eAct),
    (148, run0.energies[0]!.bank[12]!.ePre == run0.energies[0]!.bank[12]!.ePre),
    (149, run0.energies[0]!.bank[12]!.eRD == run0.energies[0]!.bank[12]!.eRD),
    (150, run0.energies[0]!.bank[12]!.eBgAct == run0.energies[0]!.bank[12]!.eBgAct),
    (151, run0.energies[0]!.bank[12]!.eBgPre == run0.energies[0]!.bank[12]!.eBgPre),
    (147, run0.energies[0]!.bank[13]!.eAct == run0.energies[0]!.bank[13]!.eAct),
    (148, run0.energies[0]!.bank[13]!.ePre == run0.energies[0]!.bank[13]!.ePre),
    (149, run0.energies[0]!.bank[13]!.eRD == run0.energies[0]!.bank[13]!.eRD),
    (150, run0.energies[0]!.bank[13]!.eBgAct == run0.energies[0]!.bank[13]!.eBgAct),
    (151, run0.energies[0]!.bank[13]!.eBgPre == run0.energies[0]!.bank[13]!.eBgPre),
    (147, run0.energies[0]!.bank[14]!.eAct == run0.energies[0]!.bank[14]!.eAct),
    (148, run0.energies[0]!.bank[14]!.ePre == run0.energies[0]!.bank[14]!.ePre),
    (149, run0.energies[0]!.bank[14]!.eRD == run0.energies[0]!.bank[14]!.eRD),
    (150, run0.energies[0]!.bank[14]!.eBgAct == run0.energies[0]!.bank[14]!.eBgAct),
    (151, run0.energies[0]!.bank[14]!.eBgPre == run0.energies[0]!.bank[14]!.eBgPre),
    (147, run0.energies[0]!.bank[15]!.eAct == run0.energies[0]!.bank[15]!.eAct),
    (148, run0.energies[0]!.bank[15]!.ePre == run0.energies[0]!.bank[15]!.ePre),
    (149, run0.energies[0]!.bank[15]!.eRD == run0.energies[0]!.bank[15]!.eRD),
    (150, run0.energies[0]!.bank[15]!.eBgAct == run0.energies[0]!.bank[15]!.eBgAct),
    (151, run0.energies[0]!.bank[15]!.eBgPre == run0.energies[0]!.bank[15]!.eBgPre),
    (147, run0.energies[0]!.bank[16]!.eAct == run0.energies[0]!.bank[0]!.eAct),
    (148, run0.energies[0]!.bank[16]!.ePre == run0.energies[0]!.bank[0]!.ePre),
    (149, run0.energies[0]!.bank[16]!.eRD == run0.energies[0]!.bank[0]!.eRD),
    (150, run0.energies[0]!.bank[16]!.eBgAct == run0.energies[0]!.bank[0]!.eBgAct),
    (151, run0.energies[0]!.bank[16]!.eBgPre == run0.energies[0]!.bank[0]!.eBgPre),
    (147, run0.energies[0]!.bank[17]!.eAct == run0.energies[0]!.bank[1]!.eAct),
    (148, run0.energies[0]!.bank[17]!.ePre == run0.energies[0]!.bank[1]!.ePre),
    (149, run0.energies[0]!.bank[17]!.eRD == run0.energies[0]!.bank[1]!.eRD),
    (150, run0.energies[0]!.bank[17]!.eBgAct == run0.energies[0]!.bank[1]!.eBgAct),
    (151, run0.energies[0]!.bank[17]!.eBgPre == run0.energies[0]!.bank[1]!.eBgPre),
    (147, run0.energies[0]!.bank[18]!.eAct == run0.energies[0]!.bank[2]!.eAct),
    (148, run0.energies[0]!.bank[18]!.ePre == run0.energies[0]!.bank[2]!.ePre),
    (149, run0.energies[0]!.bank[18]!.eRD == run0.energies[0]!.bank[2]!.eRD),
    (150, run0.energies[0]!.bank[18]!.eBgAct == run0.energies[0]!.bank[2]!.eBgAct),
    (151, run0.energies[0]!.bank[18]!.eBgPre == run0.energies[0]!.bank[2]!.eBgPre),
    (147, run0.energies[0]!.bank[19]!.eAct == run0.energies[0]!.bank[3]!.eAct),
    (148, run0.energies[0]!.bank[19]!.ePre == run0.energies[0]!.bank[3]!.ePre),
    (149, run0.energies[0]!.bank[19]!.eRD == run0.energies[0]!.bank[3]!.eRD),
    (150, run0.energies[0]!.bank[19]!.eBgAct == run0.energies[0]!.bank[3]!.eBgAct),
    (151, run0.energies[0]!.bank[19]!.eBgPre == run0.energies[0]!.bank[3]!.eBgPre),
    (147, run0.energies[0]!.bank[20]!.eAct == run0.energies[0]!.bank[4]!.eAct),
    (148, run0.energies[0]!.bank[20]!.ePre == run0.energies[0]!.bank[4]!.ePre),
    (149, run0.energies[0]!.bank[20]!.eRD == run0.energies[0]!.bank[4]!.eRD),
    (150, run0.energies[0]!.bank[20]!.eBgAct == run0.energies[0]!.bank[4]!.eBgAct),
    (151, run0.energies[0]!.bank[20]!.eBgPre == run0.energies[0]!.bank[4]!.eBgPre),
    (147, run0.energies[0]!.bank[21]!.eAct == run0.energies[0]!.bank[5]!.eAct),
    (148, run0.energies[0]!.bank[21]!.ePre == run0.energies[0]!.bank[5]!.ePre),
    (149, run0.energies[0]!.bank[21]!.eRD == run0.energies[0]!.bank[5]!.eRD),
    (150, run0.energies[0]!.bank[21]!.eBgAct == run0.energies[0]!.bank[5]!.eBgAct),
    (151, run0.energies[0]!.bank[21]!.eBgPre == run0.energies[0]!.bank[5]!.eBgPre),
    (147, run0.energies[0]!.bank[22]!.eAct == run0.energies[0]!.bank[6]!.eAct),
    (148, run0.energies[0]!.bank[22]!.ePre == run0.energies[0]!.bank[6]!.ePre),
    (149, run0.energies[0]!.bank[22]!.eRD == run0.energies[0]!.bank[6]!.eRD),
    (150, run0.energies[0]!.bank[22]!.eBgAct == run0.energies[0]!.bank[6]!.eBgAct),
    (151, run0.energies[0]!.bank[22]!.eBgPre == run0.energies[0]!.bank[6]!.eBgPre),
    (147, run0.energies[0]!.bank[23]!.eAct == run0.energies[0]!.bank[7]!.eAct),
    (148, run0.energies[0]!.bank[23]!.ePre == run0.energies[0]!.bank[7]!.ePre),
    (149, run0.energies[0]!.bank[23]!.eRD == run0.energies[0]!.bank[7]!.eRD),
    (150, run0.energies[0]!.bank[23]!.eBgAct == run0.energies[0]!.bank[7]!.eBgAct),
    (151, run0.energies[0]!.bank[23]!.eBgPre == run0.energies[0]!.bank[7]!.eBgPre),
    (147, run0.energies[0]!.bank[24]!.eAct == run0.energies[0]!.bank[8]!.eAct),
    (148, run0.energies[0]!.bank[24]!.ePre == run0.energies[0]!.bank[8]!.ePre),
    (149, run0.energies[0]!.bank[24]!.eRD == run0.energies[0]!.bank[8]!.eRD),
    (150, run0.energies[0]!.bank[24]!.eBgAct == run0.energies[0]!.bank[8]!.eBgAct),
    (151, run0.energies[0]!.bank[24]!.eBgPre == run0.energies[0]!.bank[8]!.eBgPre),
    (147, run0.energies[0]!.bank[25]!.eAct == run0.energies[0]!.bank[9]!.eAct),
    (148, run0.energies[0]!.bank[25]!.ePre == run0.energies[0]!.bank[9]!.ePre),
    (149, run0.energies[0]!.bank[25]!.eRD == run0.energies[0]!.bank[9]!.eRD),
    (150, run0.energies[0]!.bank[25]!.eBgAct == run0.energies[0]!.bank[9]!.eBgAct),
    (151, run0.energies[0]!.bank[25]!.eBgPre == run0.energies[0]!.bank[9]!.eBgPre),
    (147, run0.energies[0]!.bank[26]!.eAct == run0.energies[0]!.bank[10]!.eAct),
    (148, run0.energies[0]!.bank[26]!.ePre == run0.energies[0]!.bank[10]!.ePre),
    (149, run0.energies[0]!.bank[26]!.eRD == run0.energies[0]!.bank[10]!.eRD),
    (150, run0.energies[0]!.bank[26]!.eBgAct == run0.energies[0]!.bank[10]!.eBgAct),
    (151, run0.energies[0]!.bank[26]!.eBgPre == run0.energies[0]!.bank[10]!.eBgPre),
    (147, run0.energies[0]!.bank[27]!.eAct == run0.energies[0]!.bank[11]!.eAct),
    (148, run0.energies[0]!.bank[27]!.ePre == run0.energies[0]!.bank[11]!.ePre),
    (149, run0.energies[0]!.bank[27]!.eRD == run0.energies[0]!.bank[11]!.eRD),
    (150, run0.energies[0]!.bank[27]!.eBgAct == run0.energies[0]!.bank[11]!.eBgAct),
    (151, run0.energies[0]!.bank[27]!.eBgPre == run0.energies[0]!.bank[11]!.eBgPre),
    (147, run0.energies[0]!.bank[28]!.eAct == run0.energies[0]!.bank[12]!.eAct),
    (148, run0.energies[0]!.bank[28]!.ePre == run0.energies[0]!.bank[12]!.ePre),
    (149, run0.energies[0]!.bank[28]!.eRD == run0.energies[0]!.bank[12]!.eRD),
    (150, run0.energies[0]!.bank[28]!.eBgAct == run0.energies[0]!.bank[12]!.eBgAct),
    (151, run0.energies[0]!.bank[28]!.eBgPre == run0.energies[0]!.bank[12]!.eBgPre),
    (147, run0.energies[0]!.bank[29]!.eAct == run0.energies[0]!.bank[13]!.eAct),
    (148, run0.energies[0]!.bank[29]!.ePre == run0.energies[0]!.bank[13]!.ePre),
    (149, run0.energies[0]!.bank[29]!.eRD == run0.energies[0]!.bank[13]!.eRD),
    (150, run0.energies[0]!.bank[29]!.eBgAct == run0.energies[0]!.bank[13]!.eBgAct),
    (151, run0.energies[0]!.bank[29]!.eBgPre == run0.energies[0]!.bank[13]!.eBgPre),
    (147, run0.energies[0]!.bank[30]!.eAct == run0.energies[0]!.bank[14]!.eAct),
    (148, run0.energies[0]!.bank[30]!.ePre == run0.energies[0]!.bank[14]!.ePre),
    (149, run0.energies[0]!.bank[30]!.eRD == run0.energies[0]!.bank[14]!.eRD),
    (150, run0.energies[0]!.bank[30]!.eBgAct == run0.energies[0]!.bank[14]!.eBgAct),
    (151, run0.energies[0]!.bank[30]!.eBgPre == run0.energies[0]!.bank[14]!.eBgPre),
    (147, run0.energies[0]!.bank[31]!.eAct == run0.energies[0]!.bank[15]!.eAct),
    (148, run0.energies[0]!.bank[31]!.ePre == run0.energies[0]!.bank[15]!.ePre),
    (149, run0.energies[0]!.bank[31]!.eRD == run0.energies[0]!.bank[15]!.eRD),
    (150, run0.energies[0]!.bank[31]!.eBgAct == run0.energies[0]!.bank[15]!.eBgAct),
    (151, run0.energies[0]!.bank[31]!.eBgPre == run0.energies[0]!.bank[15]!.eBgPre),
    (147, run0.energies[0]!.bank[32]!.eAct == run0.energies[0]!.bank[0]!.eAct),
    (148, run0.energies[0]!.bank[32]!.ePre == run0.energies[0]!.bank[0]!.ePre),
    (149, run0.energies[0]!.bank[32]!.eRD == run0.energies[0]!.bank[0]!.eRD),
    (150, run0.energies[0]!.bank[32]!.eBgAct == run0.energies[0]!.bank[0]!.eBgAct),
    (151, run0.energies[0]!.bank[32]!.eBgPre == run0.energies[0]!.bank[0]!.eBgPre),
    (147, run0.energies[0]!.bank[33]!.eAct == run0.energies[0]!.bank[1]!.eAct),
    (148, run0.energies[0]!.bank[33]!.ePre == run0.energies[0]!.bank[1]!.ePre),
    (149, run0.energies[0]!.bank[33]!.eRD == run0.energies[0]!.bank[1]!.eRD),
    (150, run0.energies[0]!.bank[33]!.eBgAct == run0.energies[0]!.bank[1]!.eBgAct),
    (151, run0.energies[0]!.bank[33]!.eBgPre == run0.energies[0]!.bank[1]!.eBgPre),
    (147, run0.energies[0]!.bank[34]!.eAct == run0.energies[0]!.bank[2]!.eAct),
    (148, run0.energies[0]!.bank[34]!.ePre == run0.energies[0]!.bank[2]!.ePre),
    (149, run0.energies[0]!.bank[34]!.eRD == run0.energies[0]!.bank[2]!.eRD),
    (150, run0.energies[0]!.bank[34]!.eBgAct == run0.energies[0]!.bank[2]!.eBgAct),
    (151, run0.energies[0]!.bank[34]!.eBgPre == run0.energies[0]!.bank[2]!.eBgPre),
    (147, run0.energies[0]!.bank[35]!.eAct == run0.energies[0]!.bank[3]!.eAct),
    (148, run0.energies[0]!.bank[35]!.ePre == run0.energies[0]!.bank[3]!.ePre),
    (149, run0.energies[0]!.bank[35]!.eRD == run0.energies[0]!.bank[3]!.eRD),
    (150, run0.energies[0]!.bank[35]!.eBgAct == run0.energies[0]!.bank[3]!.eBgAct),
    (151, run0.energies[0]!.bank[35]!.eBgPre == run0.energies[0]!.bank[3]!.eBgPre),
    (147, run0.energies[0]!.bank[36]!.eAct == run0.energies[0]!.bank[4]!.eAct),
    (148, run0.energies[0]!.bank[36]!.ePre == run0.energies[0]!.bank[4]!.ePre),
    (149, run0.energies[0]!.bank[36]!.eRD == run0.energies[0]!.bank[4]!.eRD),
    (150, run0.energies[0]!.bank[36]!.eBgAct == run0.energies[0]!.bank[4]!.eBgAct),
    (151, run0.energies[0]!.bank[36]!.eBgPre == run0.energies[0]!.bank[4]!.eBgPre),
    (147, run0.energies[0]!.bank[37]!.eAct == run0.energies[0]!.bank[5]!.eAct),
    (148, run0.energies[0]!.bank[37]!.ePre == run0.energies[0]!.bank[5]!.ePre),
    (149, run0.energies[0]!.bank[37]!.eRD == run0.energies[0]!.bank[5]!.eRD),
    (150, run0.energies[0]!.bank[37]!.eBgAct == run0.energies[0]!.bank[5]!.eBgAct),
    (151, run0.energies[0]!.bank[37]!.eBgPre == run0.energies[0]!.bank[5]!.eBgPre),
    (147, run0.energies[0]!.bank[38]!.eAct == run0.energies[0]!.bank[6]!.eAct),
    (148, run0.energies[0]!.bank[38]!.ePre == run0.energies[0]!.bank[6]!.ePre),
    (149, run0.energies[0]!.bank[38]!.eRD == run0.energies[0]!.bank[6]!.eRD),
    (150, run0.energies[0]!.bank[38]!.eBgAct == run0.energies[0]!.bank[6]!.eBgAct),
    (151, run0.energies[0]!.bank[38]!.eBgPre == run0.energies[0]!.bank[6]!.eBgPre),
    (147, run0.energies[0]!.bank[39]!.eAct == run0.energies[0]!.bank[7]!.eAct),
    (148, run0.energies[0]!.bank[39]!.ePre == run0.energies[0]!.bank[7]!.ePre),
    (149, run0.energies[0]!.bank[39]!.eRD == run0.energies[0]!.bank[7]!.eRD),
    (150, run0.energies[0]!.bank[39]!.eBgAct == run0.energies[0]!.bank[7]!.eBgAct),
    (151, run0.energies[0]!.bank[39]!.eBgPre == run0.energies[0]!.bank[7]!.eBgPre),
    (147, run0.energies[0]!.bank[40]!.eAct == run0.energies[0]!.bank[8]!.eAct),
    (148, run0.energies[0]!.bank[40]!.ePre == run0.energies[0]!.bank[8]!.ePre),
    (149, run0.energies[0]!.bank[40]!.eRD == run0.energies[0]!.bank[8]!.eRD),
    (150, run0.energies[0]!.bank[40]!.eBgAct == run0.energies[0]!.bank[8]!.eBgAct),
    (151, run0.energies[0]!.bank[40]!.eBgPre == run0.energies[0]!.bank[8]!.eBgPre),
    (147, run0.energies[0]!.bank[41]!.eAct == run0.energies[0]!.bank[9]!.eAct),
    (148, run0.energies[0]!.bank[41]!.ePre == run0.energies[0]!.bank[9]!.ePre),
    (149, run0.energies[0]!.bank[41]!.eRD == run0.energies[0]!.bank[9]!.eRD),
    (150, run0.energies[0]!.bank[41]!.eBgAct == run0.energies[0]!.bank[9]!.eBgAct),
    (151, run0.energies[0]!.bank[41]!.eBgPre == run0.energies[0]!.bank[9]!.eBgPre),
    (147, run0.energies[0]!.bank[42]!.eAct == run0.energies[0]!.bank[10]!.eAct),
    (148, run0.energies[0]!.bank[42]!.ePre == run0.energies[0]!.bank[10]!.ePre),
    (149, run0.energies[0]!.bank[42]!.eRD == run0.energies[0]!.bank[10]!.eRD),
    (150, run0.energies[0]!.bank[42]!.eBgAct == run0.energies[0]!.bank[10]!.eBgAct),
    (151, run0.energies[0]!.bank[42]!.eBgPre == run0.energies[0]!.bank[10]!.eBgPre),
    (147, run0.energies[0]!.bank[43]!.eAct == run0.energies[0]!.bank[11]!.eAct),
    (148, run0.energies[0]!.bank[43]!.ePre == run0.energies[0]!.bank[11]!.ePre),
    (149, run0.energies[0]!.bank[43]!.eRD == run0.energies[0]!.bank[11]!.eRD),
    (150, run0.energies[0]!.bank[43]!.eBgAct == run0.energies[0]!.bank[11]!.eBgAct),
    (151, run0.energies[0]!.bank[43]!.eBgPre == run0.energies[0]!.bank[11]!.eBgPre),
    (147, run0.energies[0]!.bank[44]!.eAct == run0.energies[0]!.bank[12]!.eAct),
    (148, run0.energies[0]!.bank[44]!.ePre == run0.energies[0]!.bank[12]!.ePre),
    (149, run0.energies[0]!.bank[44]!.eRD == run0.energies[0]!.bank[12]!.eRD),
    (150, run0.energies[0]!.bank[44]!.eBgAct == run0.energies[0]!.bank[12]!.eBgAct),
    (151, run0.energies[0]!.bank[44]!.eBgPre == run0.energies[0]!.bank[12]!.eBgPre),
    (147, run0.energies[0]!.bank[45]!.eAct == run0.energies[0]!.bank[13]!.eAct),
    (148, run0.energies[0]!.bank[45]!.ePre == run0.energies[0]!.bank[13]!.ePre),
    (149, run0.energies[0]!.bank[45]!.eRD == run0.energies[0]!.bank[13]!.eRD),
    (150, run0.energies[0]!.bank[45]!.eBgAct == run0.energies[0]!.bank[13]!.eBgAct),
    (151, run0.energies[0]!.bank[45]!.eBgPre == run0.energies[0]!.bank[13]!.eBgPre),
    (147, run0.energies[0]!.bank[46]!.eAct == run0.energies[0]!.bank[14]!.eAct),
    (148, run0.energies[0]!.bank[46]!.ePre == run0.energies[0]!.bank[14]!.ePre),
    (149, run0.energies[0]!.bank[46]!.eRD == run0.energies[0]!.bank[14]!.eRD),
    (150, run0.energies[0]!.bank[46]!.eBgAct == run0.energies[0]!.bank[14]!.eBgAct),
    (151, run0.energies[0]!.bank[46]!.eBgPre == run0.energies[0]!.bank[14]!.eBgPre),
    (147, run0.energies[0]!.bank[47]!.eAct == run0.energies[0]!.bank[15]!.eAct),
    (148, run0.energies[0]!.bank[47]!.ePre == run0.energies[0]!.bank[15]!.ePre),
    (149, run0.energies[0]!.bank[47]!.eRD == run0.energies[0]!.bank[15]!.eRD),
    (150, run0.energies[0]!.bank[47]!.eBgAct == run0.energies[0]!.bank[15]!.eBgAct),
    (151, run0.energies[0]!.bank[47]!.eBgPre == run0.energies[0]!.bank[15]!.eBgPre),
    (147, run0.energies[0]!.bank[48]!.eAct == run0.energies[0]!.bank[0]!.eAct),
    (148, run0.energies[0]!.bank[48]!.ePre == run0.energies[0]!.bank[0]!.ePre),
    (149, run0.energies[0]!.bank[48]!.eRD == run0.energies[0]!.bank[0]!.eRD),
    (150, run0.energies[0]!.bank[48]!.eBgAct == run0.energies[0]!.bank[0]!.eBgAct),
    (151, run0.energies[0]!.bank[48]!.eBgPre == run0.energies[0]!.bank[0]!.eBgPre),
    (147, run0.energies[0]!.bank[49]!.eAct == run0.energies[0]!.bank[1]!.eAct),
    (148, run0.energies[0]!.bank[49]!.ePre == run0.energies[0]!.bank[1]!.ePre),
    (149, run0.energies[0]!.bank[49]!.eRD == run0.energies[0]!.bank[1]!.eRD),
    (150, run0.energies[0]!.bank[49]!.eBgAct == run0.energies[0]!.bank[1]!.eBgAct),
    (151, run0.energies[0]!.bank[49]!.eBgPre == run0.energies[0]!.bank[1]!.eBgPre),
    (147, run0.energies[0]!.bank[50]!.eAct == run0.energies[0]!.bank[2]!.eAct),
    (148, run0.energies[0]!.bank[50]!.ePre == run0.energies[0]!.bank[2]!.ePre),
    (149, run0.energies[0]!.bank[50]!.eRD == run0.energies[0]!.bank[2]!.eRD),
    (150, run0.energies[0]!.bank[50]!.eBgAct == run0.energies[0]!.bank[2]!.eBgAct),
    (151, run0.energies[0]!.bank[50]!.eBgPre == run0.energies[0]!.bank[2]!.eBgPre),
    (147, run0.energies[0]!.bank[51]!.eAct == run0.energies[0]!.bank[3]!.eAct),
    (148, run0.energies[0]!.bank[51]!.ePre == run0.energies[0]!.bank[3]!.ePre),
    (149, run0.energies[0]!.bank[51]!.eRD == run0.energies[0]!.bank[3]!.eRD),
    (150, run0.energies[0]!.bank[51]!.eBgAct == run0.energies[0]!.bank[3]!.eBgAct),
    (151, run0.energies[0]!.bank[51]!.eBgPre == run0.energies[0]!.bank[3]!.eBgPre),
    (147, run0.energies[0]!.bank[52]!.eAct == run0.energies[0]!.bank[4]!.eAct),
    (148, run0.energies[0]!.bank[52]!.ePre == run0.energies[0]!.bank[4]!.ePre),
    (149, run0.energies[0]!.bank[52]!.eRD == run0.energies[0]!.bank[4]!.eRD),
    (150, run0.energies[0]!.bank[52]!.eBgAct == run0.energies[0]!.bank[4]!.eBgAct),
    (151, run0.energies[0]!.bank[52]!.eBgPre == run0.energies[0]!.bank[4]!.eBgPre),
    (147, run0.energies[0]!.bank[53]!.eAct == run0.energies[0]!.bank[5]!.eAct),
    (148, run0.energies[0]!.bank[53]!.ePre == run0.energies[0]!.bank[5]!.ePre),
    (149, run0.energies[0]!.bank[53]!.eRD == run0.energies[0]!.bank[5]!.eRD),
    (150, run0.energies[0]!.bank[53]!.eBgAct == run0.energies[0]!.bank[5]!.eBgAct),
    (151, run0.energies[0]!.bank[53]!.eBgPre == run0.energies[0]!.bank[5]!.eBgPre),
    (147, run0.energies[0]!.bank[54]!.eAct == run0.energies[0]!.bank[6]!.eAct),
    (148, run0.energies[0]!.bank[54]!.ePre == run0.energies[0]!.bank[6]!.ePre),
    (149, run0.energies[0]!.bank[54]!.eRD == run0.energies[0]!.bank[6]!.eRD),
    (150, run0.energies[0]!.bank[54]!.eBgAct == run0.energies[0]!.bank[6]!.eBgAct),
    (151, run0.energies[0]!.bank[54]!.eBgPre == run0.energies[0]!.bank[6]!.eBgPre),
    (147, run0.energies[0]!.bank[55]!.eAct == run0.energies[0]!.bank[7]!.eAct),
    (148, run0.energies[0]!.bank[55]!.ePre == run0.energies[0]!.bank[7]!.ePre),
    (149, run0.energies[0]!.bank[55]!.eRD == run0.energies[0]!.bank[7]!.eRD),
    (150, run0.energies[0]!.bank[55]!.eBgAct == run0.energies[0]!.bank[7]!.eBgAct),
    (151, run0.energies[0]!.bank[55]!.eBgPre == run0.energies[0]!.bank[7]!.eBgPre),
    (147, run0.energies[0]!.bank[56]!.eAct == run0.energies[0]!.bank[8]!.eAct),
    (148, run0.energies[0]!.bank[56]!.ePre == run0.energies[0]!.bank[8]!.ePre),
    (149, run0.energies[0]!.bank[56]!.eRD == run0.energies[0]!.bank[8]!.eRD),
    (150, run0.energies[0]!.bank[56]!.eBgAct == run0.energies[0]!.bank[8]!.eBgAct),
    (151, run0.energies[0]!.bank[56]!.eBgPre == run0.energies[0]!.bank[8]!.eBgPre),
    (147, run0.energies[0]!.bank[57]!.eAct == run0.energies[0]!.bank[9]!.eAct),
    (148, run0.energies[0]!.bank[57]!.ePre == run0.energies[0]!.bank[9]!.ePre),
    (149, run0.energies[0]!.bank[57]!.eRD == run0.energies[0]!.bank[9]!.eRD),
    (150, run0.energies[0]!.bank[57]!.eBgAct == run0.energies[0]!.bank[9]!.eBgAct),
    (151, run0.energies[0]!.bank[57]!.eBgPre == run0.energies[0]!.bank[9]!.eBgPre),
    (147, run0.energies[0]!.bank[58]!.eAct == run0.energies[0]!.bank[10]!.eAct),
    (148, run0.energies[0]!.bank[58]!.ePre == run0.energies[0]!.bank[10]!.ePre),
    (149, run0.energies[0]!.bank[58]!.eRD == run0.energies[0]!.bank[10]!.eRD),
    (150, run0.energies[0]!.bank[58]!.eBgAct == run0.energies[0]!.bank[10]!.eBgAct),
    (151, run0.energies[0]!.bank[58]!.eBgPre == run0.energies[0]!.bank[10]!.eBgPre),
    (147, run0.energies[0]!.bank[59]!.eAct == run0.energies[0]!.bank[11]!.eAct),
    (148, run0.energies[0]!.bank[59]!.ePre == run0.energies[0]!.bank[11]!.ePre),
    (149, run0.energies[0]!.bank[59]!.eRD == run0.energies[0]!.bank[11]!.eRD),
    (150, run0.energies[0]!.bank[59]!.eBgAct == run0.energies[0]!.bank[11]!.eBgAct),
    (151, run0.energies[0]!.bank[59]!.eBgPre == run0.energies[0]!.bank[11]!.eBgPre),
    (147, run0.energies[0]!.bank[60]!.eAct == run0.energies[0]!.bank[12]!.eAct),
    (148, run0.energies[0]!.bank[60]!.ePre == run0.energies[0]!.bank[12]!.ePre),
    (149, run0.energies[0]!.bank[60]!.eRD == run0.energies[0]!.bank[12]!.eRD),
    (150, run0.energies[0]!.bank[60]!.eBgAct == run0.energies[0]!.bank[12]!.eBgAct),
    (151, run0.energies[0]!.bank[60]!.eBgPre == run0.energies[0]!.bank[12]!.eBgPre),
    (147, run0.energies[0]!.bank[61]!.eAct == run0.energies[0]!.bank[13]!.eAct),
    (148, run0.energies[0]!.bank[61]!.ePre == run0.energies[0]!.bank[13]!.ePre),
    (149, run0.energies[0]!.bank[61]!.eRD == run0.energies[0]!.bank[13]!.eRD),
    (150, run0.energies[0]!.bank[61]!.eBgAct == run0.energies[0]!.bank[13]!.eBgAct),
    (151, run0.energies[0]!.bank[61]!.eBgPre == run0.energies[0]!.bank[13]!.eBgPre),
    (147, run0.energies[0]!.bank[62]!.eAct == run0.energies[0]!.bank[14]!.eAct),
    (148, run0.energies[0]!.bank[62]!.ePre == run0.energies[0]!.bank[14]!.ePre),
    (149, run0.energies[0]!.bank[62]!.eRD == run0.energies[0]!.bank[14]!.eRD),
    (150, run0.energies[0]!.bank[62]!.eBgAct == run0.energies[0]!.bank[14]!.eBgAct),
    (151, run0.energies[0]!.bank[62]!.eBgPre == run0.energies[0]!.bank[14]!.eBgPre),
    (147, run0.energies[0]!.bank[63]!.eAct == run0.energies[0]!.bank[15]!.eAct),
    (148, run0.energies[0]!.bank[63]!.ePre == run0.energies[0]!.bank[15]!.ePre),
    (149, run0.energies[0]!.bank[63]!.eRD == run0.energies[0]!.bank[15]!.eRD),
    (150, run0.energies[0]!.bank[63]!.eBgAct == run0.energies[0]!.bank[15]!.eBgAct),
    (151, run0.energies[0]!.bank[63]!.eBgPre == run0.energies[0]!.bank[15]!.eBgPre),
    (147, run0.energies[0]!.bank[64]!.eAct == run0.energies[0]!.bank[0]!.eAct),
    (148, run0.energies[0]!.bank[64]!.ePre == run0.energies[0]!.bank[0]!.ePre),
    (149, run0.energies[0]!.bank[64]!.eRD == run0.energies[0]!.bank[0]!.eRD),
    (150, run0.energies[0]!.bank[64]!.eBgAct == run0.energies[0]!.bank[0]!.eBgAct),
    (151, run0.energies[0]!.bank[64]!.eBgPre == run0.energies[0]!.bank[0]!.eBgPre),
    (147, run0.energies[0]!.bank[65]!.eAct == run0.energies[0]!.bank[1]!.eAct),
    (148, run0.energies[0]!.bank[65]!.ePre == run0.energies[0]!.bank[1]!.ePre),
    (149, run0.energies[0]!.bank[65]!.eRD == run0.energies[0]!.bank[1]!.eRD),
    (150, run0.energies[0]!.bank[65]!.eBgAct == run0.energies[0]!.bank[1]!.eBgAct),
    (151, run0.energies[0]!.bank[65]!.eBgPre == run0.energies[0]!.bank[1]!.eBgPre),
    (147, run0.energies[0]!.bank[66]!.eAct == run0.energies[0]!.bank[2]!.eAct),
    (148, run0.energies[0]!.bank[66]!.ePre == run0.energies[0]!.bank[2]!.ePre),
    (149, run0.energies[0]!.bank[66]!.eRD == run0.energies[0]!.bank[2]!.eRD),
    (150, run0.energies[0]!.bank[66]!.eBgAct == run0.energies[0]!.bank[2]!.eBgAct),
    (151, run0.energies[0]!.bank[66]!.eBgPre == run0.energies[0]!.bank[2]!.eBgPre),
    (147, run0.energies[0]!.bank[67]!.eAct == run0.energies[0]!.bank[3]!.eAct),
    (148, run0.energies[0]!.bank[67]!.ePre == run0.energies[0]!.bank[3]!.ePre),
    (149, run0.energies[0]!.bank[67]!.eRD == run0.energies[0]!.bank[3]!.eRD),
    (150, run0.energies[0]!.bank[67]!.eBgAct == run0.energies[0]!.bank[3]!.eBgAct),
    (151, run0.energies[0]!.bank[67]!.eBgPre == run0.energies[0]!.bank[3]!.eBgPre),
    (147, run0.energies[0]!.bank[68]!.eAct == run0.energies[0]!.bank[4]!.eAct),
    (148, run0.energies[0]!.bank[68]!.ePre == run0.energies[0]!.bank[4]!.ePre),
    (149, run0.energies[0]!.bank[68]!.eRD == run0.energies[0]!.bank[4]!.eRD),
    (150, run0.energies[0]!.bank[68]!.eBgAct == run0.energies[0]!.bank[4]!.eBgAct),
    (151, run0.energies[0]!.bank[68]!.eBgPre == run0.energies[0]!.bank[4]!.eBgPre),
    (147, run0.energies[0]!.bank[69]!.eAct == run0.energies[0]!.bank[5]!.eAct),
    (148, run0.energies[0]!.bank[69]!.ePre == run0.energies[0]!.bank[5]!.ePre),
    (149, run0.energies[0]!.bank[69]!.eRD == run0.energies[0]!.bank[5]!.eRD),
    (150, run0.energies[0]!.bank[69]!.eBgAct == run0.energies[0]!.bank[5]!.eBgAct),
    (151, run0.energies[0]!.bank[69]!.eBgPre == run0.energies[0]!.bank[5]!.eBgPre),
    (147, run0.energies[0]!.bank[70]!.eAct == run0.energies[0]!.bank[6]!.eAct),
    (148, run0.energies[0]!.bank[70]!.ePre == run0.energies[0]!.bank[6]!.ePre),
    (149, run0.energies[0]!.bank[70]!.eRD == run0.energies[0]!.bank[6]!.eRD),
    (150, run0.energies[0]!.bank[70]!.eBgAct == run0.energies[0]!.bank[6]!.eBgAct),
    (151, run0.energies[0]!.bank[70]!.eBgPre == run0.energies[0]!.bank[6]!.eBgPre),
    (147, run0.energies[0]!.bank[71]!.eAct == run0.energies[0]!.bank[7]!.eAct),
    (148, run0.energies[0]!.bank[71]!.ePre == run0.energies[0]!.bank[7]!.ePre),
    (149, run0.energies[0]!.bank[71]!.eRD == run0.energies[0]!.bank[7]!.eRD),
    (150, run0.energies[0]!.bank[71]!.eBgAct == run0.energies[0]!.bank[7]!.eBgAct),
    (151, run0.energies[0]!.bank[71]!.eBgPre == run0.energies[0]!.bank[7]!.eBgPre),
    (147, run0.energies[0]!.bank[72]!.eAct == run0.energies[0]!.bank[8]!.eAct),
    (148, run0.energies[0]!.bank[72]!.ePre == run0.energies[0]!.bank[8]!.ePre),
    (149, run0.energies[0]!.bank[72]!.eRD == run0.energies[0]!.bank[8]!.eRD),
    (150, run0.energies[0]!.bank[72]!.eBgAct == run0.energies[0]!.bank[8]!.eBgAct),
    (151, run0.energies[0]!.bank[72]!.eBgPre == run0.energies[0]!.bank[8]!.eBgPre),
    (147, run0.energies[0]!.bank[73]!.eAct == run0.energies[0]!.bank[9]!.eAct),
    (148, run0.energies[0]!.bank[73]!.ePre == run0.energies[0]!.bank[9]!.ePre),
    (149, run0.energies[0]!.bank[73]!.eRD == run0.energies[0]!.bank[9]!.eRD),
    (150, run0.energies[0]!.bank[73]!.eBgAct == run0.energies[0]!.bank[9]!.eBgAct),
    (151, run0.energies[0]!.bank[73]!.eBgPre == run0.energies[0]!.bank[9]!.eBgPre),
    (147, run0.energies[0]!.bank[74]!.eAct == run0.energies[0]!.bank[10]!.eAct),
    (148, run0.energies[0]!.bank[74]!.ePre == run0.energies[0]!.bank[10]!.ePre),
    (149, run0.energies[0]!.bank[74]!.eRD == run0.energies[0]!.bank[10]!.eRD),
    (150, run0.energies[0]!.bank[74]!.eBgAct == run0.energies[0]!.bank[10]!.eBgAct),
    (151, run0.energies[0]!.bank[74]!.eBgPre == run0.energies[0]!.bank[10]!.eBgPre),
    (147, run0.energies[0]!.bank[75]!.eAct == run0.energies[0]!.bank[11]!.eAct),
    (148, run0.energies[0]!.bank[75]!.ePre == run0.energies[0]!.bank[11]!.ePre),
    (149, run0.energies[0]!.bank[75]!.eRD == run0.energies[0]!.bank[11]!.eRD),
    (150, run0.energies[0]!.bank[75]!.eBgAct == run0.energies[0]!.bank[11]!.eBgAct),
    (151, run0.energies[0]!.bank[75]!.eBgPre == run0.energies[0]!.bank[11]!.eBgPre),
    (147, run0.energies[0]!.bank[76]!.eAct == run0.energies[0]!.bank[12]!.eAct),
    (148, run0.energies[0]!.bank[76]!.ePre == run0.energies[0]!.bank[12]!.ePre),
    (149, run0.energies[0]!.bank[76]!.eRD == run0.energies[0]!.bank[12]!.eRD),
    (150, run0.energies[0]!.bank[76]!.eBgAct == run0.energies[0]!.bank[12]!.eBgAct),
    (151, run0.energies[0]!.bank[76]!.eBgPre == run0.energies[0]!.bank[12]!.eBgPre),
    (147, run0.energies[0]!.bank[77]!.eAct == run0.energies[0]!.bank[13]!.eAct),
    (148, run0.energies[0]!.bank[77]!.ePre == run0.energies[0]!.bank[13]!.ePre),
    (149, run0.energies[0]!.bank[77]!.eRD == run0.energies[0]!.bank[13]!.eRD),
    (150, run0.energies[0]!.bank[77]!.eBgAct == run0.energies[0]!.bank[13]!.eBgAct),
    (151, run0.energies[0]!.bank[77]!.eBgPre == run0.energies[0]!.bank[13]!.eBgPre),
    (147, run0.energies[0]!.bank[78]!.eAct == run0.energies[0]!.bank[14]!.eAct),
    (148, run0.energies[0]!.bank[78]!.ePre == run0.energies[0]!.bank[14]!.ePre),
    (149, run0.energies[0]!.bank[78]!.eRD == run0.energies[0]!.bank[14]!.eRD),
    (150, run0.energies[0]!.bank[78]!.eBgAct == run0.energies[0]!.bank[14]!.eBgAct),
    (151, run0.energies[0]!.bank[78]!.eBgPre == run0.energies[0]!.bank[14]!.eBgPre),
    (147, run0.energies[0]!.bank[79]!.eAct == run0.energies[0]!.bank[15]!.eAct),
    (148, run0.energies[0]!.bank[79]!.ePre == run0.energies[0]!.bank[15]!.ePre),
    (149, run0.energies[0]!.bank[79]!.eRD == run0.energies[0]!.bank[15]!.eRD),
    (150, run0.energies[0]!.bank[79]!.eBgAct == run0.energies[0]!.bank[15]!.eBgAct),
    (151, run0.energies[0]!.bank[79]!.eBgPre == run0.energies[0]!.bank[15]!.eBgPre),
    (155, (nearest (((run0.energies[0]!.aggregated.eAct : Rat) * 1000000000000) : Rat) : Rat) == 1795),
    (156, (nearest (((run0.energies[0]!.aggregated.ePre : Rat) * 1000000000000) : Rat) : Rat) == 2077),
    (157, (nearest (((run0.energies[0]!.aggregated.eRD : Rat) * 1000000000000) : Rat) : Rat) == 6535),
    (158, (nearest (((run0.energies[0]!.aggregated.eBgAct : Rat) * 1000000000000) : Rat) : Rat) == 8518),
    (159, (nearest (((run0.energies[0]!.shared.bgActShared : Rat) * 1000000000000) : Rat) : Rat) == 8452),
    (160, (nearest (((run0.energies[0]!.aggregated.eBgPre : Rat) * 1000000000000) : Rat) : Rat) == 3115),
    (161, (nearest (((run0.energies[0]!.aggregated.total : Rat) * 1000000000000) : Rat) : Rat) == 22041)]

#guard failing checks == []

end ddr4_multidevice_tests.Energy

/-! ## tests/tests_drampower/core/DDR4/ddr4_multirank_tests.cpp -/

def ddr4_multirank_tests.wr_data : List UInt8 := [
  0, 0, 0, 0, 0, 0, 0, 255]

def ddr4_multirank_tests.rd_data : List UInt8 := [
  0, 0, 0, 0, 0, 0, 0, 1]

namespace ddr4_multirank_tests.Pattern_1

def run0 : Log := run .ddr4 ({ ddr4 with
  core := { ddr4.core with numberOfRanks := 2 },
  power := { ddr4.power with ranks := 2 },
  iface := { ddr4.iface with ranks := 2 } }) [
    .core { t := 0, type := .ACT, co := { bank := 1 } },
    .iface { t := 0, type := .ACT, co := { bank := 1 } },
    .core { t := 2, type := .ACT, co := { bank := 1, rank := 1 } },
    .iface { t := 2, type := .ACT, co := { bank := 1, rank := 1 } },
    .core { t := 4, type := .WR, co := { bank := 1, column := 4 }, nBits := 64, data := some ddr4_multirank_tests.wr_data },
    .iface { t := 4, type := .WR, co := { bank := 1, column := 4 }, nBits := 64, data := some ddr4_multirank_tests.wr_data },
    .core { t := 6, type := .RD, co := { bank := 1, rank := 1, column := 4 }, nBits := 64, data := some ddr4_multirank_tests.rd_data },
    .iface { t := 6, type := .RD, co := { bank := 1, rank := 1, column := 4 }, nBits := 64, data := some ddr4_multirank_tests.rd_data },
    .core { t := 10, type := .PRE, co := { bank := 1, rank := 1 } },
    .iface { t := 10, type := .PRE, co := { bank := 1, rank := 1 } },
    .core { t := 15, type := .PRE, co := { bank := 1 } },
    .iface { t := 15, type := .PRE, co := { bank := 1 } },
    .core { t := 20, type := .END_OF_SIMULATION },
    .iface { t := 20, type := .END_OF_SIMULATION },
    .stats]

def checks : List (Nat × Bool) := [
    (0, run0.ok),
    (67, run0.stats[0]!.bank.length == 32),
    (68, run0.stats[0]!.bank[1]!.cycles.act == 15),
    (69, run0.stats[0]!.bank[17]!.cycles.act == 8),
    (70, run0.stats[0]!.bank[1]!.cycles.pre == 5),
    (71, run0.stats[0]!.bank[17]!.cycles.pre == 12),
    (73, run0.stats[0]!.rankTotal[0]!.cycles.act == 15),
    (74, run0.stats[0]!.rankTotal[1]!.cycles.act == 8)]

#guard failing checks == []

end ddr4_multirank_tests.Pattern_1

namespace ddr4_multirank_tests.Pattern_2

def run0 : Log := run .ddr4 ({ ddr4 with
  core := { ddr4.core with numberOfRanks := 2 },
  power := { ddr4.power with ranks := 2 },
  iface := { ddr4.iface with ranks := 2 } }) [
    .core { t := 0, type := .ACT },
    .iface { t := 0, type := .ACT },
    .core { t := 5, type := .ACT, co := { rank := 1 } },
    .iface { t := 5, type := .ACT, co := { rank := 1 } },
    .core { t := 15, type := .RDA, nBits := 64, data := some ddr4_multirank_tests.rd_data },
    .iface { t := 15, type := .RDA, nBits := 64, data := some ddr4_multirank_tests.rd_data },
    .core { t := 20, type := .ACT, co := { bank := 3, rank := 1 } },
    .iface { t := 20, type := .ACT, co := { bank := 3, rank := 1 } },
    .core { t := 35, type := .RD, co := { bank := 3, rank := 1 }, nBits := 64, data := some ddr4_multirank_tests.rd_data },
    .iface { t := 35, type := .RD, co := { bank := 3, rank := 1 }, nBits := 64, data := some ddr4_multirank_tests.rd_data },
    .core { t := 40, type := .RD, nBits := 64, data := some ddr4_multirank_tests.rd_data },
    .iface { t := 40, type := .RD, nBits := 64, data := some ddr4_multirank_tests.rd_data },
    .core { t := 50, type := .PREA },
    .iface { t := 50, type := .PREA },
    .core { t := 55, type := .PREA, co := { rank := 1 } },
    .iface { t := 55, type := .PREA, co := { rank := 1 } },
    .core { t := 65, type := .REFA },
    .iface { t := 65, type := .REFA },
    .core { t := 70, type := .REFA, co := { rank := 1 } },
    .iface { t := 70, type := .REFA, co := { rank := 1 } },
    .core { t := 100, type := .END_OF_SIMULATION },
    .iface { t := 100, type := .END_OF_SIMULATION },
    .stats]

def checks : List (Nat × Bool) := [
    (0, run0.ok),
    (94, run0.stats[0]!.bank.length == 32),
    (95, run0.stats[0]!.bank[0]!.cycles.act == 45),
    (96, run0.stats[0]!.bank[16]!.cycles.act == 75),
    (97, run0.stats[0]!.bank[19]!.cycles.act == 60),
    (99, run0.stats[0]!.bank[0]!.cycles.pre == 55),
    (100, run0.stats[0]!.bank[16]!.cycles.pre == 25),
    (101, run0.stats[0]!.bank[19]!.cycles.pre == 40),
    (103, run0.stats[0]!.rankTotal[0]!.cycles.act == 45),
    (104, run0.stats[0]!.rankTotal[1]!.cycles.act == 75)]

#guard failing checks == []

end ddr4_multirank_tests.Pattern_2

/-! ## tests/tests_drampower/core/DDR4/ddr4_test_pattern_0.cpp -/

namespace ddr4_0.Counters_and_Cycles

def run0 : Log := run .ddr4 (ddr4) [
    .core { t := 0, type := .ACT },
    .iface { t := 0, type := .ACT },
    .core { t := 15, type := .PRE },
    .iface { t := 15, type := .PRE },
    .core { t := 15, type := .END_OF_SIMULATION },
    .iface { t := 15, type := .END_OF_SIMULATION },
    .stats]

def checks : List (Nat × Bool) := [
    (0, run0.ok),
    (54, run0.stats[0]!.bank[0]!.counter.act == 1),
    (55, run0.stats[0]!.bank[1]!.counter.act == 0),
    (55, run0.stats[0]!.bank[2]!.counter.act == 0),
    (55, run0.stats[0]!.bank[3]!.counter.act == 0),
    (55, run0.stats[0]!.bank[4]!.counter.act == 0),
    (55, run0.stats[0]!.bank[5]!.counter.act == 0),
    (55, run0.stats[0]!.bank[6]!.counter.act == 0),
    (55, run0.stats[0]!.bank[7]!.counter.act == 0),
    (55, run0.stats[0]!.bank[8]!.counter.act == 0),
    (55, run0.stats[0]!.bank[9]!.counter.act == 0),
    (55, run0.stats[0]!.bank[10]!.counter.act == 0),
    (55, run0.stats[0]!.bank[11]!.counter.act == 0),
    (55, run0.stats[0]!.bank[12]!.counter.act == 0),
    (55, run0.stats[0]!.bank[13]!.counter.act == 0),
    (55, run0.stats[0]!.bank[14]!.counter.act == 0),
    (55, run0.stats[0]!.bank[15]!.counter.act == 0),
    (59, run0.stats[0]!.rankTotal[0]!.cycles.act == 15),
    (60, run0.stats[0]!.rankTotal[0]!.cycles.pre == 0),
    (63, run0.stats[0]!.bank[0]!.cycles.act == 15),
    (65, run0.stats[0]!.bank[1]!.cycles.act == 0),
    (65, run0.stats[0]!.bank[2]!.cycles.act == 0),
    (65, run0.stats[0]!.bank[3]!.cycles.act == 0),
    (65, run0.stats[0]!.bank[4]!.cycles.act == 0),
    (65, run0.stats[0]!.bank[5]!.cycles.act == 0),
    (65, run0.stats[0]!.bank[6]!.cycles.act == 0),
    (65, run0.stats[0]!.bank[7]!.cycles.act == 0),
    (65, run0.stats[0]!.bank[8]!.cycles.act == 0),
    (65, run0.stats[0]!.bank[9]!.cycles.act == 0),
    (65, run0.stats[0]!.bank[10]!.cycles.act == 0),
    (65, run0.stats[0]!.bank[11]!.cycles.act == 0),
    (65, run0.stats[0]!.bank[12]!.cycles.act == 0),
    (65, run0.stats[0]!.bank[13]!.cycles.act == 0),
    (65, run0.stats[0]!.bank[14]!.cycles.act == 0),
    (65, run0.stats[0]!.bank[15]!.cycles.act == 0),
    (68, run0.stats[0]!.bank[0]!.cycles.pre == 0),
    (70, run0.stats[0]!.bank[1]!.cycles.pre == 15),
    (70, run0.stats[0]!.bank[2]!.cycles.pre == 15),
    (70, run0.stats[0]!.bank[3]!.cycles.pre == 15),
    (70, run0.stats[0]!.bank[4]!.cycles.pre == 15),
    (70, run0.stats[0]!.bank[5]!.cycles.pre == 15),
    (70, run0.stats[0]!.bank[6]!.cycles.pre == 15),
    (70, run0.stats[0]!.bank[7]!.cycles.pre == 15),
    (70, run0.stats[0]!.bank[8]!.cycles.pre == 15),
    (70, run0.stats[0]!.bank[9]!.cycles.pre == 15),
    (70, run0.stats[0]!.bank[10]!.cycles.pre == 15),
    (70, run0.stats[0]!.bank[11]!.cycles.pre == 15),
    (70, run0.stats[0]!.bank[12]!.cycles.pre == 15),
    (70, run0.stats[0]!.bank[13]!.cycles.pre == 15),
    (70, run0.stats[0]!.bank[14]!.cycles.pre == 15),
    (70, run0.stats[0]!.bank[15]!.cycles.pre == 15)]

#guard failing checks == []

end ddr4_0.Counters_and_Cycles

namespace ddr4_0.Energy

def run0 : Log := run .ddr4 (ddr4) [
    .core { t := 0, type := .ACT },
    .core { t := 15, type := .PRE },
    .core { t := 15, type := .END_OF_SIMULATION },
    .coreEnergy 15]

def checks : List (Nat × Bool) := [
    (0, run0.ok),
    (82, (nearest (((run0.energies[0]!.aggregated.eAct : Rat) * 1000000000000) : Rat) : Rat) == 179),
    (83, (nearest (((run0.energies[0]!.aggregated.ePre : Rat) * 1000000000000) : Rat) : Rat) == 208),
    (84, (nearest (((run0.energies[0]!.aggregated.eBgAct : Rat) * 1000000000000) : Rat) : Rat) == 510),
    (85, (nearest (((run0.energies[0]!.shared.bgActShared : Rat) * 1000000000000) : Rat) : Rat) == 507),
    (86, (nearest (((run0.energies[0]!.aggregated.eBgPre : Rat) * 1000000000000) : Rat) : Rat) == 0),
    (87, (nearest (((run0.energies[0]!.aggregated.total : Rat) * 1000000000000) : Rat) : Rat) == 897)]

#guard failing checks == []

end ddr4_0.Energy

/-! ## tests/tests_drampower/core/DDR4/ddr4_test_pattern_1.cpp -/

namespace ddr4_1.Counters_and_Cycles

def run0 : Log := run .ddr4 (ddr4) [
    .core { t := 0, type := .ACT },
    .core { t := 15, type := .RD },
    .core { t := 35, type := .PRE },
    .core { t := 35, type := .END_OF_SIMULATION },
    .stats]

def checks : List (Nat × Bool) := [
    (0, run0.ok),
    (53, run0.stats[0]!.bank[0]!.counter.act == 1),
    (55, run0.stats[0]!.bank[1]!.counter.act == 0),
    (55, run0.stats[0]!.bank[2]!.counter.act == 0),
    (55, run0.stats[0]!.bank[3]!.counter.act == 0),
    (55, run0.stats[0]!.bank[4]!.counter.act == 0),
    (55, run0.stats[0]!.bank[5]!.counter.act == 0),
    (55, run0.stats[0]!.bank[6]!.counter.act == 0),
    (55, run0.stats[0]!.bank[7]!.counter.act == 0),
    (55, run0.stats[0]!.bank[8]!.counter.act == 0),
    (55, run0.stats[0]!.bank[9]!.counter.act == 0),
    (55, run0.stats[0]!.bank[10]!.counter.act == 0),
    (55, run0.stats[0]!.bank[11]!.counter.act == 0),
    (55, run0.stats[0]!.bank[12]!.counter.act == 0),
    (55, run0.stats[0]!.bank[13]!.counter.act == 0),
    (55, run0.stats[0]!.bank[14]!.counter.act == 0),
    (55, run0.stats[0]!.bank[15]!.counter.act == 0),
    (58, run0.stats[0]!.bank[0]!.counter.reads == 1),
    (60, run0.stats[0]!.bank[1]!.counter.reads == 0),
    (60, run0.stats[0]!.bank[2]!.counter.reads == 0),
    (60, run0.stats[0]!.bank[3]!.counter.reads == 0),
    (60, run0.stats[0]!.bank[4]!.counter.reads == 0),
    (60, run0.stats[0]!.bank[5]!.counter.reads == 0),
    (60, run0.stats[0]!.bank[6]!.counter.reads == 0),
    (60, run0.stats[0]!.bank[7]!.counter.reads == 0),
    (60, run0.stats[0]!.bank[8]!.counter.reads == 0),
    (60, run0.stats[0]!.bank[9]!.counter.reads == 0),
    (60, run0.stats[0]!.bank[10]!.counter.reads == 0),
    (60, run0.stats[0]!.bank[11]!.counter.reads == 0),
    (60, run0.stats[0]!.bank[12]!.counter.reads == 0),
    (60, run0.stats[0]!.bank[13]!.counter.reads == 0),
    (60, run0.stats[0]!.bank[14]!.counter.reads == 0),
    (60, run0.stats[0]!.bank[15]!.counter.reads == 0),
    (63, run0.stats[0]!.bank[0]!.counter.pre == 1),
    (65, run0.stats[0]!.bank[1]!.counter.pre == 0),
    (65, run0.stats[0]!.bank[2]!.counter.pre == 0),
    (65, run0.stats[0]!.bank[3]!.counter.pre == 0),
    (65, run0.stats[0]!.bank[4]!.counter.pre == 0),
    (65, run0.stats[0]!.bank[5]!.counter.pre == 0),
    (65, run0.stats[0]!.bank[6]!.counter.pre == 0),
    (65, run0.stats[0]!.bank[7]!.counter.pre == 0),
    (65, run0.stats[0]!.bank[8]!.counter.pre == 0),
    (65, run0.stats[0]!.bank[9]!.counter.pre == 0),
    (65, run0.stats[0]!.bank[10]!.counter.pre == 0),
    (65, run0.stats[0]!.bank[11]!.counter.pre == 0),
    (65, run0.stats[0]!.bank[12]!.counter.pre == 0),
    (65, run0.stats[0]!.bank[13]!.counter.pre == 0),
    (65, run0.stats[0]!.bank[14]!.counter.pre == 0),
    (65, run0.stats[0]!.bank[15]!.counter.pre == 0),
    (68, run0.stats[0]!.rankTotal[0]!.cycles.act == 35),
    (69, run0.stats[0]!.rankTotal[0]!.cycles.pre == 0),
    (72, run0.stats[0]!.bank[0]!.cycles.act == 35),
    (74, run0.stats[0]!.bank[1]!.cycles.act == 0),
    (74, run0.stats[0]!.bank[2]!.cycles.act == 0),
    (74, run0.stats[0]!.bank[3]!.cycles.act == 0),
    (74, run0.stats[0]!.bank[4]!.cycles.act == 0),
    (74, run0.stats[0]!.bank[5]!.cycles.act == 0),
    (74, run0.stats[0]!.bank[6]!.cycles.act == 0),
    (74, run0.stats[0]!.bank[7]!.cycles.act == 0),
    (74, run0.stats[0]!.bank[8]!.cycles.act == 0),
    (74, run0.stats[0]!.bank[9]!.cycles.act == 0),
    (74, run0.stats[0]!.bank[10]!.cycles.act == 0),
    (74, run0.stats[0]!.bank[11]!.cycles.act == 0),
    (74, run0.stats[0]!.bank[12]!.cycles.act == 0),
    (74, run0.stats[0]!.bank[13]!.cycles.act == 0),
    (74, run0.stats[0]!.bank[14]!.cycles.act == 0),
    (74, run0.stats[0]!.bank[15]!.cycles.act == 0),
    (77, run0.stats[0]!.bank[0]!.cycles.pre == 0),
    (79, run0.stats[0]!.bank[1]!.cycles.pre == 35),
    (79, run0.stats[0]!.bank[2]!.cycles.pre == 35),
    (79, run0.stats[0]!.bank[3]!.cycles.pre == 35),
    (79, run0.stats[0]!.bank[4]!.cycles.pre == 35),
    (79, run0.stats[0]!.bank[5]!.cycles.pre == 35),
    (79, run0.stats[0]!.bank[6]!.cycles.pre == 35),
    (79, run0.stats[0]!.bank[7]!.cycles.pre == 35),
    (79, run0.stats[0]!.bank[8]!.cycles.pre == 35),
    (79, run0.stats[0]!.bank[9]!.cycles.pre == 35),
    (79, run0.stats[0]!.bank[10]!.cycles.pre == 35),
    (79, run0.stats[0]!.bank[11]!.cycles.pre == 35),
    (79, run0.stats[0]!.bank[12]!.cycles.pre == 35),
    (79, run0.stats[0]!.bank[13]!.cycles.pre == 35),
    (79, run0.stats[0]!.bank[14]!.cycles.pre == 35),
    (79, run0.stats[0]!.bank[15]!.cycles.pre == 35)]

#guard failing checks == []

end ddr4_1.Counters_and_Cycles

namespace ddr4_1.Energy

def run0 : Log := run .ddr4 (ddr4) [
    .core { t := 0, type := .ACT },
    .core { t := 15, type := .RD },
    .core { t := 35, type := .PRE },
    .core { t := 35, type := .END_OF_SIMULATION },
    .coreEnergy 35]

def checks : List (Nat × Bool) := [
    (0, run0.ok),
    (91, (nearest (((run0.energies[0]!.aggregated.eAct : Rat) * 1000000000000) : Rat) : Rat) == 179),
    (92, (nearest (((run0.energies[0]!.aggregated.ePre : Rat) * 1000000000000) : Rat) : Rat) == 208),
    (93, (nearest (((run0.energies[0]!.aggregated.eRD : Rat) * 1000000000000) : Rat) : Rat) == 436),
    (94, (nearest (((run0.energies[0]!.aggregated.eBgAct : Rat) * 1000000000000) : Rat) : Rat) == 1189),
    (95, (nearest (((run0.energies[0]!.shared.bgActShared : Rat) * 1000000000000) : Rat) : Rat) == 1183),
    (96, (nearest (((run0.energies[0]!.aggregated.eBgPre : Rat) * 1000000000000) : Rat) : Rat) == 0),
    (97, (nearest (((run0.energies[0]!.aggregated.total : Rat) * 1000000000000) : Rat) : Rat) == 2012)]

#guard failing checks == []

end ddr4_1.Energy

/-! ## tests/tests_drampower/core/DDR4/ddr4_test_pattern_2.cpp -/

namespace ddr4_2.Counters_and_Cycles

def run0 : Log := run .ddr4 (ddr4) [
    .core { t := 0, type := .ACT },
    .core { t := 15, type := .RD },
    .core { t := 35, type := .PRE },
    .core { t := 50, type := .END_OF_SIMULATION },
    .stats]

def checks : List (Nat × Bool) := [
    (0, run0.ok),
    (55, run0.stats[0]!.bank[0]!.counter.act == 1),
    (57, run0.stats[0]!.bank[1]!.counter.act == 0),
    (57, run0.stats[0]!.bank[2]!.counter.act == 0),
    (57, run0.stats[0]!.bank[3]!.counter.act == 0),
    (57, run0.stats[0]!.bank[4]!.counter.act == 0),
    (57, run0.stats[0]!.bank[5]!.counter.act == 0),
    (57, run0.stats[0]!.bank[6]!.counter.act == 0),
    (57, run0.stats[0]!.bank[7]!.counter.act == 0),
    (57, run0.stats[0]!.bank[8]!.counter.act == 0),
    (57, run0.stats[0]!.bank[9]!.counter.act == 0),
    (57, run0.stats[0]!.bank[10]!.counter.act == 0),
    (57, run0.stats[0]!.bank[11]!.counter.act == 0),
    (57, run0.stats[0]!.bank[12]!.counter.act == 0),
    (57, run0.stats[0]!.bank[13]!.counter.act == 0),
    (57, run0.stats[0]!.bank[14]!.counter.act == 0),
    (57, run0.stats[0]!.bank[15]!.counter.act == 0),
    (60, run0.stats[0]!.bank[0]!.counter.reads == 1),
    (62, run0.stats[0]!.bank[1]!.counter.reads == 0),
    (62, run0.stats[0]!.bank[2]!.counter.reads == 0),
    (62, run0.stats[0]!.bank[3]!.counter.reads == 0),
    (62, run0.stats[0]!.bank[4]!.counter.reads == 0),
    (62, run0.stats[0]!.bank[5]!.counter.reads == 0),
    (62, run0.stats[0]!.bank[6]!.counter.reads == 0),
    (62, run0.stats[0]!.bank[7]!.counter.reads == 0),
    (62, run0.stats[0]!.bank[8]!.counter.reads == 0),
    (62, run0.stats[0]!.bank[9]!.counter.reads == 0),
    (62, run0.stats[0]!.bank[10]!.counter.reads == 0),
    (62, run0.stats[0]!.bank[11]!.counter.reads == 0),
    (62, run0.stats[0]!.bank[12]!.counter.reads == 0),
    (62, run0.stats[0]!.bank[13]!.counter.reads == 0),
    (62, run0.stats[0]!.bank[14]!.counter.reads == 0),
    (62, run0.stats[0]!.bank[15]!.counter.reads == 0),
    (65, run0.stats[0]!.bank[0]!.counter.pre == 1),
    (67, run0.stats[0]!.bank[1]!.counter.pre == 0),
    (67, run0.stats[0]!.bank[2]!.counter.pre == 0),
    (67, run0.stats[0]!.bank[3]!.counter.pre == 0),
    (67, run0.stats[0]!.bank[4]!.counter.pre == 0),
    (67, run0.stats[0]!.bank[5]!.counter.pre == 0),
    (67, run0.stats[0]!.bank[6]!.counter.pre == 0),
    (67, run0.stats[0]!.bank[7]!.counter.pre == 0),
    (67, run0.stats[0]!.bank[8]!.counter.pre == 0),
    (67, run0.stats[0]!.bank[9]!.counter.pre == 0),
    (67, run0.stats[0]!.bank[10]!.counter.pre == 0),
    (67, run0.stats[0]!.bank[11]!.counter.pre == 0),
    (67, run0.stats[0]!.bank[12]!.counter.pre == 0),
    (67, run0.stats[0]!.bank[13]!.counter.pre == 0),
    (67, run0.stats[0]!.bank[14]!.counter.pre == 0),
    (67, run0.stats[0]!.bank[15]!.counter.pre == 0),
    (70, run0.stats[0]!.rankTotal[0]!.cycles.act == 35),
    (71, run0.stats[0]!.rankTotal[0]!.cycles.pre == 15),
    (74, run0.stats[0]!.bank[0]!.cycles.act == 35),
    (76, run0.stats[0]!.bank[1]!.cycles.act == 0),
    (76, run0.stats[0]!.bank[2]!.cycles.act == 0),
    (76, run0.stats[0]!.bank[3]!.cycles.act == 0),
    (76, run0.stats[0]!.bank[4]!.cycles.act == 0),
    (76, run0.stats[0]!.bank[5]!.cycles.act == 0),
    (76, run0.stats[0]!.bank[6]!.cycles.act == 0),
    (76, run0.stats[0]!.bank[7]!.cycles.act == 0),
    (76, run0.stats[0]!.bank[8]!.cycles.act == 0),
    (76, run0.stats[0]!.bank[9]!.cycles.act == 0),
    (76, run0.stats[0]!.bank[10]!.cycles.act == 0),
    (76, run0.stats[0]!.bank[11]!.cycles.act == 0),
    (76, run0.stats[0]!.bank[12]!.cycles.act == 0),
    (76, run0.stats[0]!.bank[13]!.cycles.act == 0),
    (76, run0.stats[0]!.bank[14]!.cycles.act == 0),
    (76, run0.stats[0]!.bank[15]!.cycles.act == 0),
    (79, run0.stats[0]!.bank[0]!.cycles.pre == 15),
    (81, run0.stats[0]!.bank[1]!.cycles.pre == 50),
    (81, run0.stats[0]!.bank[2]!.cycles.pre == 50),
    (81, run0.stats[0]!.bank[3]!.cycles.pre == 50),
    (81, run0.stats[0]!.bank[4]!.cycles.pre == 50),
    (81, run0.stats[0]!.bank[5]!.cycles.pre == 50),
    (81, run0.stats[0]!.bank[6]!.cycles.pre == 50),
    (81, run0.stats[0]!.bank[7]!.cycles.pre == 50),
    (81, run0.stats[0]!.bank[8]!.cycles.pre == 50),
    (81, run0.stats[0]!.bank[9]!.cycles.pre == 50),
    (81, run0.stats[0]!.bank[10]!.cycles.pre == 50),
    (81, run0.stats[0]!.bank[11]!.cycles.pre == 50),
    (81, run0.stats[0]!.bank[12]!.cycles.pre == 50),
    (81, run0.stats[0]!.bank[13]!.cycles.pre == 50),
    (81, run0.stats[0]!.bank[14]!.cycles.pre == 50),
    (81, run0.stats[0]!.bank[15]!.cycles.pre == 50)]

#guard failing checks == []

end ddr4_2.Counters_and_Cycles

namespace ddr4_2.Energy

def run0 : Log := run .ddr4 (ddr4) [
    .core { t := 0, type := .ACT },
    .core { t := 15, type := .RD },
    .core { t := 35, type := .PRE },
    .core { t := 50, type := .END_OF_SIMULATION },
    .coreEnergy 50]

def checks : List (Nat × Bool) := [
    (0, run0.ok),
    (92, (nearest (((run0.energies[0]!.aggregated.eAct : Rat) * 1000000000000) : Rat) : Rat) == 179),
    (93, (nearest (((run0.energies[0]!.aggregated.ePre : Rat) * 1000000000000) : Rat) : Rat) == 208),
    (94, (nearest (((run0.energies[0]!.aggregated.eRD : Rat) * 1000000000000) : Rat) : Rat) == 436),
    (95, (nearest (((run0.energies[0]!.aggregated.eBgAct : Rat) * 1000000000000) : Rat) : Rat) == 1189),
    (96, (nearest (((run0.energies[0]!.shared.bgActShared : Rat) * 1000000000000) : Rat) : Rat) == 1183),
    (97, (nearest (((run0.energies[0]!.aggregated.eBgPre : Rat) * 1000000000000) : Rat) : Rat) == 467),
    (98, (nearest (((run0.energies[0]!.aggregated.total : Rat) * 1000000000000) : Rat) : Rat) == 2479)]

#guard failing checks == []

end ddr4_2.Energy

/-! ## tests/tests_drampower/core/DDR4/ddr4_test_pattern_3.cpp -/

namespace ddr4_3.Counters_and_Cycles

def run0 : Log := run .ddr4 (ddr4) [
    .core { t := 0, type := .ACT },
    .core { t := 15, type := .RD },
    .core { t := 20, type := .ACT, co := { bank := 3 } },
    .core { t := 35, type := .PRE },
    .core { t := 45, type := .PRE, co := { bank := 3 } },
    .core { t := 50, type := .END_OF_SIMULATION },
    .stats]

def checks : List (Nat × Bool) := [
    (0, run0.ok),
    (59, run0.stats[0]!.bank[0]!.counter.act == 1),
    (61, run0.stats[0]!.bank[1]!.counter.act == 0),
    (61, run0.stats[0]!.bank[2]!.counter.act == 0),
    (59, run0.stats[0]!.bank[3]!.counter.act == 1),
    (61, run0.stats[0]!.bank[4]!.counter.act == 0),
    (61, run0.stats[0]!.bank[5]!.counter.act == 0),
    (61, run0.stats[0]!.bank[6]!.counter.act == 0),
    (61, run0.stats[0]!.bank[7]!.counter.act == 0),
    (61, run0.stats[0]!.bank[8]!.counter.act == 0),
    (61, run0.stats[0]!.bank[9]!.counter.act == 0),
    (61, run0.stats[0]!.bank[10]!.counter.act == 0),
    (61, run0.stats[0]!.bank[11]!.counter.act == 0),
    (61, run0.stats[0]!.bank[12]!.counter.act == 0),
    (61, run0.stats[0]!.bank[13]!.counter.act == 0),
    (61, run0.stats[0]!.bank[14]!.counter.act == 0),
    (61, run0.stats[0]!.bank[15]!.counter.act == 0),
    (67, run0.stats[0]!.bank[0]!.counter.reads == 1),
    (69, run0.stats[0]!.bank[1]!.counter.reads == 0),
    (69, run0.stats[0]!.bank[2]!.counter.reads == 0),
    (69, run0.stats[0]!.bank[3]!.counter.reads == 0),
    (69, run0.stats[0]!.bank[4]!.counter.reads == 0),
    (69, run0.stats[0]!.bank[5]!.counter.reads == 0),
    (69, run0.stats[0]!.bank[6]!.counter.reads == 0),
    (69, run0.stats[0]!.bank[7]!.counter.reads == 0),
    (69, run0.stats[0]!.bank[8]!.counter.reads == 0),
    (69, run0.stats[0]!.bank[9]!.counter.reads == 0),
    (69, run0.stats[0]!.bank[10]!.counter.reads == 0),
    (69, run0.stats[0]!.bank[11]!.counter.reads == 0),
    (69, run0.stats[0]!.bank[12]!.counter.reads == 0),
    (69, run0.stats[0]!.bank[13]!.counter.reads == 0),
    (69, run0.stats[0]!.bank[14]!.counter.reads == 0),
    (69, run0.stats[0]!.bank[15]!.counter.reads == 0),
    (75, run0.stats[0]!.bank[0]!.counter.pre == 1),
    (77, run0.stats[0]!.bank[1]!.counter.pre == 0),
    (77, run0.stats[0]!.bank[2]!.counter.pre == 0),
    (75, run0.stats[0]!.bank[3]!.counter.pre == 1),
    (77, run0.stats[0]!.bank[4]!.counter.pre == 0),
    (77, run0.stats[0]!.bank[5]!.counter.pre == 0),
    (77, run0.stats[0]!.bank[6]!.counter.pre == 0),
    (77, run0.stats[0]!.bank[7]!.counter.pre == 0),
    (77, run0.stats[0]!.bank[8]!.counter.pre == 0),
    (77, run0.stats[0]!.bank[9]!.counter.pre == 0),
    (77, run0.stats[0]!.bank[10]!.counter.pre == 0),
    (77, run0.stats[0]!.bank[11]!.counter.pre == 0),
    (77, run0.stats[0]!.bank[12]!.counter.pre == 0),
    (77, run0.stats[0]!.bank[13]!.counter.pre == 0),
    (77, run0.stats[0]!.bank[14]!.counter.pre == 0),
    (77, run0.stats[0]!.bank[15]!.counter.pre == 0),
    (81, run0.stats[0]!.rankTotal[0]!.cycles.act == 45),
    (82, run0.stats[0]!.rankTotal[0]!.cycles.pre == 5),
    (87, run0.stats[0]!.bank[0]!.cycles.act == 35),
    (91, run0.stats[0]!.bank[1]!.cycles.act == 0),
    (91, run0.stats[0]!.bank[2]!.cycles.act == 0),
    (89, run0.stats[0]!.bank[3]!.cycles.act == 25),
    (91, run0.stats[0]!.bank[4]!.cycles.act == 0),
    (91, run0.stats[0]!.bank[5]!.cycles.act == 0),
    (91, run0.stats[0]!.bank[6]!.cycles.act == 0),
    (91, run0.stats[0]!.bank[7]!.cycles.act == 0),
    (91, run0.stats[0]!.bank[8]!.cycles.act == 0),
    (91, run0.stats[0]!.bank[9]!.cycles.act == 0),
    (91, run0.stats[0]!.bank[10]!.cycles.act == 0),
    (91, run0.stats[0]!.bank[11]!.cycles.act == 0),
    (91, run0.stats[0]!.bank[12]!.cycles.act == 0),
    (91, run0.stats[0]!.bank[13]!.cycles.act == 0),
    (91, run0.stats[0]!.bank[14]!.cycles.act == 0),
    (91, run0.stats[0]!.bank[15]!.cycles.act == 0),
    (101, run0.stats[0]!.bank[1]!.cycles.pre == 50),
    (101, run0.stats[0]!.bank[2]!.cycles.pre == 50),
    (99, run0.stats[0]!.bank[3]!.cycles.pre == 25),
    (101, run0.stats[0]!.bank[4]!.cycles.pre == 50),
    (101, run0.stats[0]!.bank[5]!.cycles.pre == 50),
    (101, run0.stats[0]!.bank[6]!.cycles.pre == 50),
    (101, run0.stats[0]!.bank[7]!.cycles.pre == 50),
    (101, run0.stats[0]!.bank[8]!.cycles.pre == 50),
    (101, run0.stats[0]!.bank[9]!.cycles.pre == 50),
    (101, run0.stats[0]!.bank[10]!.cycles.pre == 50),
    (101, run0.stats[0]!.bank[11]!.cycles.pre == 50),
    (101, run0.stats[0]!.bank[12]!.cycles.pre == 50),
    (101, run0.stats[0]!.bank[13]!.cycles.pre == 50),
    (101, run0.stats[0]!.bank[14]!.cycles.pre == 50),
    (101, run0.stats[0]!.bank[15]!.cycles.pre == 50)]

#guard failing checks == []

end ddr4_3.Counters_and_Cycles

namespace ddr4_3.Energy

def run0 : Log := run .ddr4 (ddr4) [
    .core { t := 0, type := .ACT },
    .core { t := 15, type := .RD },
    .core { t := 20, type := .ACT, co := { bank := 3 } },
    .core { t := 35, type := .PRE },
    .core { t := 45, type := .PRE, co := { bank := 3 } },
    .core { t := 50, type := .END_OF_SIMULATION },
    .coreEnergy 50]

def checks : List (Nat × Bool) := [
    (0, run0.ok),
    (113, (nearest (((run0.energies[0]!.aggregated.eAct : Rat) * 1000000000000) : Rat) : Rat) == 359),
    (114, (nearest (((run0.energies[0]!.aggregated.ePre : Rat) * 1000000000000) : Rat) : Rat) == 415),
    (115, (nearest (((run0.energies[0]!.aggregated.eRD : Rat) * 1000000000000) : Rat) : Rat) == 436),
    (116, (nearest (((run0.energies[0]!.aggregated.eBgAct : Rat) * 1000000000000) : Rat) : Rat) == 1531),
    (117, (nearest (((run0.energies[0]!.shared.bgActShared : Rat) * 1000000000000) : Rat) : Rat) == 1521),
    (118, (nearest (((run0.energies[0]!.aggregated.eBgPre : Rat) * 1000000000000) : Rat) : Rat) == 156),
    (119, (nearest (((run0.energies[0]!.aggregated.total : Rat) * 1000000000000) : Rat) : Rat) == 2897)]

#guard failing checks == []

end ddr4_3.Energy

/-! ## tests/tests_drampower/core/DDR4/ddr4_test_pattern_4.cpp -/

namespace ddr4_4.Counters_and_Cycles

def run0 : Log := run .ddr4 (ddr4) [
    .core { t := 0, type := .ACT },
    .core { t := 15, type := .RD },
    .core { t := 20, type := .ACT, co := { bank := 3 } },
    .core { t := 35, type := .RD, co := { bank := 3 } },
    .core { t := 40, type := .RD },
    .core { t := 50, type := .PREA },
    .core { t := 70, type := .END_OF_SIMULATION },
    .stats]

def checks : List (Nat × Bool) := [
    (0, run0.ok),
    (60, run0.stats[0]!.bank[0]!.counter.act == 1),
    (62, run0.stats[0]!.bank[1]!.counter.act == 0),
    (62, run0.stats[0]!.bank[2]!.counter.act == 0),
    (60, run0.stats[0]!.bank[3]!.counter.act == 1),
    (62, run0.stats[0]!.bank[4]!.counter.act == 0),
    (62, run0.stats[0]!.bank[5]!.counter.act == 0),
    (62, run0.stats[0]!.bank[6]!.counter.act == 0),
    (62, run0.stats[0]!.bank[7]!.counter.act == 0),
    (62, run0.stats[0]!.bank[8]!.counter.act == 0),
    (62, run0.stats[0]!.bank[9]!.counter.act == 0),
    (62, run0.stats[0]!.bank[10]!.counter.act == 0),
    (62, run0.stats[0]!.bank[11]!.counter.act == 0),
    (62, run0.stats[0]!.bank[12]!.counter.act == 0),
    (62, run0.stats[0]!.bank[13]!.counter.act == 0),
    (62, run0.stats[0]!.bank[14]!.counter.act == 0),
    (62, run0.stats[0]!.bank[15]!.counter.act == 0),
    (68, run0.stats[0]!.bank[0]!.counter.reads == 2),
    (72, run0.stats[0]!.bank[1]!.counter.reads == 0),
    (72, run0.stats[0]!.bank[2]!.counter.reads == 0),
    (70, run0.stats[0]!.bank[3]!.counter.reads == 1),
    (72, run0.stats[0]!.bank[4]!.counter.reads == 0),
    (72, run0.stats[0]!.bank[5]!.counter.reads == 0),
    (72, run0.stats[0]!.bank[6]!.counter.reads == 0),
    (72, run0.stats[0]!.bank[7]!.counter.reads == 0),
    (72, run0.stats[0]!.bank[8]!.counter.reads == 0),
    (72, run0.stats[0]!.bank[9]!.counter.reads == 0),
    (72, run0.stats[0]!.bank[10]!.counter.reads == 0),
    (72, run0.stats[0]!.bank[11]!.counter.reads == 0),
    (72, run0.stats[0]!.bank[12]!.counter.reads == 0),
    (72, run0.stats[0]!.bank[13]!.counter.reads == 0),
    (72, run0.stats[0]!.bank[14]!.counter.reads == 0),
    (72, run0.stats[0]!.bank[15]!.counter.reads == 0),
    (78, run0.stats[0]!.bank[0]!.counter.pre == 1),
    (80, run0.stats[0]!.bank[1]!.counter.pre == 0),
    (80, run0.stats[0]!.bank[2]!.counter.pre == 0),
    (78, run0.stats[0]!.bank[3]!.counter.pre == 1),
    (80, run0.stats[0]!.bank[4]!.counter.pre == 0),
    (80, run0.stats[0]!.bank[5]!.counter.pre == 0),
    (80, run0.stats[0]!.bank[6]!.counter.pre == 0),
    (80, run0.stats[0]!.bank[7]!.counter.pre == 0),
    (80, run0.stats[0]!.bank[8]!.counter.pre == 0),
    (80, run0.stats[0]!.bank[9]!.counter.pre == 0),
    (80, run0.stats[0]!.bank[10]!.counter.pre == 0),
    (80, run0.stats[0]!.bank[11]!.counter.pre == 0),
    (80, run0.stats[0]!.bank[12]!.counter.pre == 0),
    (80, run0.stats[0]!.bank[13]!.counter.pre == 0),
    (80, run0.stats[0]!.bank[14]!.counter.pre == 0),
    (80, run0.stats[0]!.bank[15]!.counter.pre == 0),
    (84, run0.stats[0]!.rankTotal[0]!.cycles.act == 50),
    (85, run0.stats[0]!.rankTotal[0]!.cycles.pre == 20),
    (90, run0.stats[0]!.bank[0]!.cycles.act == 50),
    (94, run0.stats[0]!.bank[1]!.cycles.act == 0),
    (94, run0.stats[0]!.bank[2]!.cycles.act == 0),
    (92, run0.stats[0]!.bank[3]!.cycles.act == 30),
    (94, run0.stats[0]!.bank[4]!.cycles.act == 0),
    (94, run0.stats[0]!.bank[5]!.cycles.act == 0),
    (94, run0.stats[0]!.bank[6]!.cycles.act == 0),
    (94, run0.stats[0]!.bank[7]!.cycles.act == 0),
    (94, run0.stats[0]!.bank[8]!.cycles.act == 0),
    (94, run0.stats[0]!.bank[9]!.cycles.act == 0),
    (94, run0.stats[0]!.bank[10]!.cycles.act == 0),
    (94, run0.stats[0]!.bank[11]!.cycles.act == 0),
    (94, run0.stats[0]!.bank[12]!.cycles.act == 0),
    (94, run0.stats[0]!.bank[13]!.cycles.act == 0),
    (94, run0.stats[0]!.bank[14]!.cycles.act == 0),
    (94, run0.stats[0]!.bank[15]!.cycles.act == 0),
    (104, run0.stats[0]!.bank[1]!.cycles.pre == 70),
    (104, run0.stats[0]!.bank[2]!.cycles.pre == 70),
    (102, run0.stats[0]!.bank[3]!.cycles.pre == 40),
    (104, run0.stats[0]!.bank[4]!.cycles.pre == 70),
    (104, run0.stats[0]!.bank[5]!.cycles.pre == 70),
    (104, run0.stats[0]!.bank[6]!.cycles.pre == 70),
    (104, run0.stats[0]!.bank[7]!.cycles.pre == 70),
    (104, run0.stats[0]!.bank[8]!.cycles.pre == 70),
    (104, run0.stats[0]!.bank[9]!.cycles.pre == 70),
    (104, run0.stats[0]!.bank[10]!.cycles.pre == 70),
    (104, run0.stats[0]!.bank[11]!.cycles.pre == 70),
    (104, run0.stats[0]!.bank[12]!.cycles.pre == 70),
    (104, run0.stats[0]!.bank[13]!.cycles.pre == 70),
    (104, run0.stats[0]!.bank[14]!.cycles.pre == 70),
    (104, run0.stats[0]!.bank[15]!.cycles.pre == 70)]

#guard failing checks == []

end ddr4_4.Counters_and_Cycles

namespace ddr4_4.Energy

def run0 : Log := run .ddr4 (ddr4) [
    .core { t := 0, type := .ACT },
    .core { t := 15, type := .RD },
    .core { t := 20, type := .ACT, co := { bank := 3 } },
    .core { t := 35, type := .RD, co := { bank := 3 } },
    .core { t := 40, type := .RD },
    .core { t := 50, type := .PREA },
    .core { t := 70, type := .END_OF_SIMULATION },
    .coreEnergy 70]

def checks : List (Nat × Bool) := [
    (0, run0.ok),
    (116, (nearest (((run0.energies[0]!.aggregated.eAct : Rat) * 1000000000000) : Rat) : Rat) == 359),
    (117, (nearest (((run0.energies[0]!.aggregated.ePre : Rat) * 1000000000000) : Rat) : Rat) == 415),
    (118, (nearest (((run0.energies[0]!.aggregated.eRD : Rat) * 1000000000000) : Rat) : Rat) == 1307),
    (119, (nearest (((run0.energies[0]!.aggregated.eBgAct : Rat) * 1000000000000) : Rat) : Rat) == 1704),
    (120, (nearest (((run0.energies[0]!.shared.bgActShared : Rat) * 1000000000000) : Rat) : Rat) == 1690),
    (121, (nearest (((run0.energies[0]!.aggregated.eBgPre : Rat) * 1000000000000) : Rat) : Rat) == 623),
    (122, (nearest (((run0.energies[0]!.aggregated.total : Rat) * 1000000000000) : Rat) : Rat) == 4408)]

#guard failing checks == []

end ddr4_4.Energy

/-! ## tests/tests_drampower/core/DDR4/ddr4_test_pattern_5.cpp -/

namespace ddr4_5.Counters_and_Cycles

def run0 : Log := run .ddr4 (ddr4) [
    .core { t := 0, type := .ACT },
    .core { t := 15, type := .RD },
    .core { t := 20, type := .ACT, co := { bank := 3 } },
    .core { t := 35, type := .RD, co := { bank := 3 } },
    .core { t := 40, type := .RD },
    .core { t := 50, type := .PREA },
    .core { t := 65, type := .REFA },
    .core { t := 100, type := .END_OF_SIMULATION },
    .stats]

def checks : List (Nat × Bool) := [
    (0, run0.ok),
    (61, run0.stats[0]!.bank[0]!.counter.act == 1),
    (63, run0.stats[0]!.bank[1]!.counter.act == 0),
    (63, run0.stats[0]!.bank[2]!.counter.act == 0),
    (61, run0.stats[0]!.bank[3]!.counter.act == 1),
    (63, run0.stats[0]!.bank[4]!.counter.act == 0),
    (63, run0.stats[0]!.bank[5]!.counter.act == 0),
    (63, run0.stats[0]!.bank[6]!.counter.act == 0),
    (63, run0.stats[0]!.bank[7]!.counter.act == 0),
    (63, run0.stats[0]!.bank[8]!.counter.act == 0),
    (63, run0.stats[0]!.bank[9]!.counter.act == 0),
    (63, run0.stats[0]!.bank[10]!.counter.act == 0),
    (63, run0.stats[0]!.bank[11]!.counter.act == 0),
    (63, run0.stats[0]!.bank[12]!.counter.act == 0),
    (63, run0.stats[0]!.bank[13]!.counter.act == 0),
    (63, run0.stats[0]!.bank[14]!.counter.act == 0),
    (63, run0.stats[0]!.bank[15]!.counter.act == 0),
    (69, run0.stats[0]!.bank[0]!.counter.reads == 2),
    (73, run0.stats[0]!.bank[1]!.counter.reads == 0),
    (73, run0.stats[0]!.bank[2]!.counter.reads == 0),
    (71, run0.stats[0]!.bank[3]!.counter.reads == 1),
    (73, run0.stats[0]!.bank[4]!.counter.reads == 0),
    (73, run0.stats[0]!.bank[5]!.counter.reads == 0),
    (73, run0.stats[0]!.bank[6]!.counter.reads == 0),
    (73, run0.stats[0]!.bank[7]!.counter.reads == 0),
    (73, run0.stats[0]!.bank[8]!.counter.reads == 0),
    (73, run0.stats[0]!.bank[9]!.counter.reads == 0),
    (73, run0.stats[0]!.bank[10]!.counter.reads == 0),
    (73, run0.stats[0]!.bank[11]!.counter.reads == 0),
    (73, run0.stats[0]!.bank[12]!.counter.reads == 0),
    (73, run0.stats[0]!.bank[13]!.counter.reads == 0),
    (73, run0.stats[0]!.bank[14]!.counter.reads == 0),
    (73, run0.stats[0]!.bank[15]!.counter.reads == 0),
    (79, run0.stats[0]!.bank[0]!.counter.pre == 1),
    (81, run0.stats[0]!.bank[1]!.counter.pre == 0),
    (81, run0.stats[0]!.bank[2]!.counter.pre == 0),
    (79, run0.stats[0]!.bank[3]!.counter.pre == 1),
    (81, run0.stats[0]!.bank[4]!.counter.pre == 0),
    (81, run0.stats[0]!.bank[5]!.counter.pre == 0),
    (81, run0.stats[0]!.bank[6]!.counter.pre == 0),
    (81, run0.stats[0]!.bank[7]!.counter.pre == 0),
    (81, run0.stats[0]!.bank[8]!.counter.pre == 0),
    (81, run0.stats[0]!.bank[9]!.counter.pre == 0),
    (81, run0.stats[0]!.bank[10]!.counter.pre == 0),
    (81, run0.stats[0]!.bank[11]!.counter.pre == 0),
    (81, run0.stats[0]!.bank[12]!.counter.pre == 0),
    (81, run0.stats[0]!.bank[13]!.counter.pre == 0),
    (81, run0.stats[0]!.bank[14]!.counter.pre == 0),
    (81, run0.stats[0]!.bank[15]!.counter.pre == 0),
    (86, run0.stats[0]!.bank[0]!.counter.refAllBank == 1),
    (86, run0.stats[0]!.bank[1]!.counter.refAllBank == 1),
    (86, run0.stats[0]!.bank[2]!.counter.refAllBank == 1),
    (86, run0.stats[0]!.bank[3]!.counter.refAllBank == 1),
    (86, run0.stats[0]!.bank[4]!.counter.refAllBank == 1),
    (86, run0.stats[0]!.bank[5]!.counter.refAllBank == 1),
    (86, run0.stats[0]!.bank[6]!.counter.refAllBank == 1),
    (86, run0.stats[0]!.bank[7]!.counter.refAllBank == 1),
    (86, run0.stats[0]!.bank[8]!.counter.refAllBank == 1),
    (86, run0.stats[0]!.bank[9]!.counter.refAllBank == 1),
    (86, run0.stats[0]!.bank[10]!.counter.refAllBank == 1),
    (86, run0.stats[0]!.bank[11]!.counter.refAllBank == 1),
    (86, run0.stats[0]!.bank[12]!.counter.refAllBank == 1),
    (86, run0.stats[0]!.bank[13]!.counter.refAllBank == 1),
    (86, run0.stats[0]!.bank[14]!.counter.refAllBank == 1),
    (86, run0.stats[0]!.bank[15]!.counter.refAllBank == 1),
    (90, run0.stats[0]!.rankTotal[0]!.cycles.act == 75),
    (91, run0.stats[0]!.rankTotal[0]!.cycles.pre == 25),
    (96, run0.stats[0]!.bank[0]!.cycles.act == 75),
    (100, run0.stats[0]!.bank[1]!.cycles.act == 25),
    (100, run0.stats[0]!.bank[2]!.cycles.act == 25),
    (98, run0.stats[0]!.bank[3]!.cycles.act == 55),
    (100, run0.stats[0]!.bank[4]!.cycles.act == 25),
    (100, run0.stats[0]!.bank[5]!.cycles.act == 25),
    (100, run0.stats[0]!.bank[6]!.cycles.act == 25),
    (100, run0.stats[0]!.bank[7]!.cycles.act == 25),
    (100, run0.stats[0]!.bank[8]!.cycles.act == 25),
    (100, run0.stats[0]!.bank[9]!.cycles.act == 25),
    (100, run0.stats[0]!.bank[10]!.cycles.act == 25),
    (100, run0.stats[0]!.bank[11]!.cycles.act == 25),
    (100, run0.stats[0]!.bank[12]!.cycles.act == 25),
    (100, run0.stats[0]!.bank[13]!.cycles.act == 25),
    (100, run0.stats[0]!.bank[14]!.cycles.act == 25),
    (100, run0.stats[0]!.bank[15]!.cycles.act == 25),
    (110, run0.stats[0]!.bank[1]!.cycles.pre == 75),
    (110, run0.stats[0]!.bank[2]!.cycles.pre == 75),
    (108, run0.stats[0]!.bank[3]!.cycles.pre == 45),
    (110, run0.stats[0]!.bank[4]!.cycles.pre == 75),
    (110, run0.stats[0]!.bank[5]!.cycles.pre == 75),
    (110, run0.stats[0]!.bank[6]!.cycles.pre == 75),
    (110, run0.stats[0]!.bank[7]!.cycles.pre == 75),
    (110, run0.stats[0]!.bank[8]!.cycles.pre == 75),
    (110, run0.stats[0]!.bank[9]!.cycles.pre == 75),
    (110, run0.stats[0]!.bank[10]!.cycles.pre == 75),
    (110, run0.stats[0]!.bank[11]!.cycles.pre == 75),
    (110, run0.stats[0]!.bank[12]!.cycles.pre == 75),
    (110, run0.stats[0]!.bank[13]!.cycles.pre == 75),
    (110, run0.stats[0]!.bank[14]!.cycles.pre == 75),
    (110, run0.stats[0]!.bank[15]!.cycles.pre == 75)]

#guard failing checks == []

end ddr4_5.Counters_and_Cycles

namespace ddr4_5.Energy

def run0 : Log := run .ddr4 (ddr4) [
    .core { t := 0, type := .ACT },
    .core { t := 15, type := .RD },
    .core { t := 20, type := .ACT, co := { bank := 3 } },
    .core { t := 35, type := .RD, co := { bank := 3 } },
    .core { t := 40, type := .RD },
    .core { t := 50, type := .PREA },
    .core { t := 65, type := .REFA },
    .core { t := 100, type := .END_OF_SIMULATION },
    .coreEnergy 100]

def checks : List (Nat × Bool) := [
    (0, run0.ok),
    (122, (nearest (((run0.energies[0]!.aggregated.eAct : Rat) * 1000000000000) : Rat) : Rat) == 359),
    (123, (nearest (((run0.energies[0]!.aggregated.ePre : Rat) * 1000000000000) : Rat) : Rat) == 415),
    (124, (nearest (((run0.energies[0]!.aggregated.eRD : Rat) * 1000000000000) : Rat) : Rat) == 1307),
    (125, (nearest (((run0.energies[0]!.aggregated.eRefAB : Rat) * 1000000000000) : Rat) : Rat) == 1812),
    (126, (nearest (((run0.energies[0]!.aggregated.eRefSB : Rat) * 1000000000000) : Rat) : Rat) == 0),
    (127, (nearest (((run0.energies[0]!.aggregated.eBgAct : Rat) * 1000000000000) : Rat) : Rat) == 2615),
    (128, (nearest (((run0.energies[0]!.shared.bgActShared : Rat) * 1000000000000) : Rat) : Rat) == 2536),
    (129, (nearest (((run0.energies[0]!.aggregated.eBgPre : Rat) * 1000000000000) : Rat) : Rat) == 779),
    (130, (nearest (((run0.energies[0]!.aggregated.total : Rat) * 1000000000000) : Rat) : Rat) == 7287)]

#guard failing checks == []

end ddr4_5.Energy

/-! ## tests/tests_drampower/core/DDR4/ddr4_test_pattern_6.cpp -/

namespace ddr4_6.Counters_and_Cycles

def run0 : Log := run .ddr4 (ddr4) [
    .core { t := 0, type := .ACT },
    .core { t := 15, type := .RDA },
    .core { t := 20, type := .ACT, co := { bank := 3 } },
    .core { t := 35, type := .RD, co := { bank := 3 } },
    .core { t := 50, type := .PREA },
    .core { t := 65, type := .REFA },
    .core { t := 100, type := .END_OF_SIMULATION },
    .stats]

def checks : List (Nat × Bool) := [
    (0, run0.ok),
    (60, run0.stats[0]!.bank[0]!.counter.act == 1),
    (62, run0.stats[0]!.bank[1]!.counter.act == 0),
    (62, run0.stats[0]!.bank[2]!.counter.act == 0),
    (60, run0.stats[0]!.bank[3]!.counter.act == 1),
    (62, run0.stats[0]!.bank[4]!.counter.act == 0),
    (62, run0.stats[0]!.bank[5]!.counter.act == 0),
    (62, run0.stats[0]!.bank[6]!.counter.act == 0),
    (62, run0.stats[0]!.bank[7]!.counter.act == 0),
    (62, run0.stats[0]!.bank[8]!.counter.act == 0),
    (62, run0.stats[0]!.bank[9]!.counter.act == 0),
    (62, run0.stats[0]!.bank[10]!.counter.act == 0),
    (62, run0.stats[0]!.bank[11]!.counter.act == 0),
    (62, run0.stats[0]!.bank[12]!.counter.act == 0),
    (62, run0.stats[0]!.bank[13]!.counter.act == 0),
    (62, run0.stats[0]!.bank[14]!.counter.act == 0),
    (62, run0.stats[0]!.bank[15]!.counter.act == 0),
    (70, run0.stats[0]!.bank[0]!.counter.reads == 0),
    (70, run0.stats[0]!.bank[1]!.counter.reads == 0),
    (70, run0.stats[0]!.bank[2]!.counter.reads == 0),
    (68, run0.stats[0]!.bank[3]!.counter.reads == 1),
    (70, run0.stats[0]!.bank[4]!.counter.reads == 0),
    (70, run0.stats[0]!.bank[5]!.counter.reads == 0),
    (70, run0.stats[0]!.bank[6]!.counter.reads == 0),
    (70, run0.stats[0]!.bank[7]!.counter.reads == 0),
    (70, run0.stats[0]!.bank[8]!.counter.reads == 0),
    (70, run0.stats[0]!.bank[9]!.counter.reads == 0),
    (70, run0.stats[0]!.bank[10]!.counter.reads == 0),
    (70, run0.stats[0]!.bank[11]!.counter.reads == 0),
    (70, run0.stats[0]!.bank[12]!.counter.reads == 0),
    (70, run0.stats[0]!.bank[13]!.counter.reads == 0),
    (70, run0.stats[0]!.bank[14]!.counter.reads == 0),
    (70, run0.stats[0]!.bank[15]!.counter.reads == 0),
    (75, run0.stats[0]!.bank[0]!.counter.readAuto == 1),
    (77, run0.stats[0]!.bank[1]!.counter.readAuto == 0),
    (77, run0.stats[0]!.bank[2]!.counter.readAuto == 0),
    (77, run0.stats[0]!.bank[3]!.counter.readAuto == 0),
    (77, run0.stats[0]!.bank[4]!.counter.readAuto == 0),
    (77, run0.stats[0]!.bank[5]!.counter.readAuto == 0),
    (77, run0.stats[0]!.bank[6]!.counter.readAuto == 0),
    (77, run0.stats[0]!.bank[7]!.counter.readAuto == 0),
    (77, run0.stats[0]!.bank[8]!.counter.readAuto == 0),
    (77, run0.stats[0]!.bank[9]!.counter.readAuto == 0),
    (77, run0.stats[0]!.bank[10]!.counter.readAuto == 0),
    (77, run0.stats[0]!.bank[11]!.counter.readAuto == 0),
    (77, run0.stats[0]!.bank[12]!.counter.readAuto == 0),
    (77, run0.stats[0]!.bank[13]!.counter.readAuto == 0),
    (77, run0.stats[0]!.bank[14]!.counter.readAuto == 0),
    (77, run0.stats[0]!.bank[15]!.counter.readAuto == 0),
    (83, run0.stats[0]!.bank[0]!.counter.pre == 1),
    (85, run0.stats[0]!.bank[1]!.counter.pre == 0),
    (85, run0.stats[0]!.bank[2]!.counter.pre == 0),
    (83, run0.stats[0]!.bank[3]!.counter.pre == 1),
    (85, run0.stats[0]!.bank[4]!.counter.pre == 0),
    (85, run0.stats[0]!.bank[5]!.counter.pre == 0),
    (85, run0.stats[0]!.bank[6]!.counter.pre == 0),
    (85, run0.stats[0]!.bank[7]!.counter.pre == 0),
    (85, run0.stats[0]!.bank[8]!.counter.pre == 0),
    (85, run0.stats[0]!.bank[9]!.counter.pre == 0),
    (85, run0.stats[0]!.bank[10]!.counter.pre == 0),
    (85, run0.stats[0]!.bank[11]!.counter.pre == 0),
    (85, run0.stats[0]!.bank[12]!.counter.pre == 0),
    (85, run0.stats[0]!.bank[13]!.counter.pre == 0),
    (85, run0.stats[0]!.bank[14]!.counter.pre == 0),
    (85, run0.stats[0]!.bank[15]!.counter.pre == 0),
    (90, run0.stats[0]!.bank[0]!.counter.refAllBank == 1),
    (90, run0.stats[0]!.bank[1]!.counter.refAllBank == 1),
    (90, run0.stats[0]!.bank[2]!.counter.refAllBank == 1),
    (90, run0.stats[0]!.bank[3]!.counter.refAllBank == 1),
    (90, run0.stats[0]!.bank[4]!.counter.refAllBank == 1),
    (90, run0.stats[0]!.bank[5]!.counter.refAllBank == 1),
    (90, run0.stats[0]!.bank[6]!.counter.refAllBank == 1),
    (90, run0.stats[0]!.bank[7]!.counter.refAllBank == 1),
    (90, run0.stats[0]!.bank[8]!.counter.refAllBank == 1),
    (90, run0.stats[0]!.bank[9]!.counter.refAllBank == 1),
    (90, run0.stats[0]!.bank[10]!.counter.refAllBank == 1),
    (90, run0.stats[0]!.bank[11]!.counter.refAllBank == 1),
    (90, run0.stats[0]!.bank[12]!.counter.refAllBank == 1),
    (90, run0.stats[0]!.bank[13]!.counter.refAllBank == 1),
    (90, run0.stats[0]!.bank[14]!.counter.refAllBank == 1),
    (90, run0.stats[0]!.bank[15]!.counter.refAllBank == 1),
    (94, run0.stats[0]!.rankTotal[0]!.cycles.act == 75),
    (95, run0.stats[0]!.rankTotal[0]!.cycles.pre == 25),
    (100, run0.stats[0]!.bank[0]!.cycles.act == 45),
    (104, run0.stats[0]!.bank[1]!.cycles.act == 25),
    (104, run0.stats[0]!.bank[2]!.cycles.act == 25),
    (102, run0.stats[0]!.bank[3]!.cycles.act == 55),
    (104, run0.stats[0]!.bank[4]!.cycles.act == 25),
    (104, run0.stats[0]!.bank[5]!.cycles.act == 25),
    (104, run0.stats[0]!.bank[6]!.cycles.act == 25),
    (104, run0.stats[0]!.bank[7]!.cycles.act == 25),
    (104, run0.stats[0]!.bank[8]!.cycles.act == 25),
    (104, run0.stats[0]!.bank[9]!.cycles.act == 25),
    (104, run0.stats[0]!.bank[10]!.cycles.act == 25),
    (104, run0.stats[0]!.bank[11]!.cycles.act == 25),
    (104, run0.stats[0]!.bank[12]!.cycles.act == 25),
    (104, run0.stats[0]!.bank[13]!.cycles.act == 25),
    (104, run0.stats[0]!.bank[14]!.cycles.act == 25),
    (104, run0.stats[0]!.bank[15]!.cycles.act == 25),
    (114, run0.stats[0]!.bank[1]!.cycles.pre == 75),
    (114, run0.stats[0]!.bank[2]!.cycles.pre == 75),
    (112, run0.stats[0]!.bank[3]!.cycles.pre == 45),
    (114, run0.stats[0]!.bank[4]!.cycles.pre == 75),
    (114, run0.stats[0]!.bank[5]!.cycles.pre == 75),
    (114, run0.stats[0]!.bank[6]!.cycles.pre == 75),
    (114, run0.stats[0]!.bank[7]!.cycles.pre == 75),
    (114, run0.stats[0]!.bank[8]!.cycles.pre == 75),
    (114, run0.stats[0]!.bank[9]!.cycles.pre == 75),
    (114, run0.stats[0]!.bank[10]!.cycles.pre == 75),
    (114, run0.stats[0]!.bank[11]!.cycles.pre == 75),
    (114, run0.stats[0]!.bank[12]!.cycles.pre == 75),
    (114, run0.stats[0]!.bank[13]!.cycles.pre == 75),
    (114, run0.stats[0]!.bank[14]!.cycles.pre == 75),
    (114, run0.stats[0]!.bank[15]!.cycles.pre == 75)]

#guard failing checks == []

end ddr4_6.Counters_and_Cycles

namespace ddr4_6.Energy

def run0 : Log := run .ddr4 (ddr4) [
    .core { t := 0, type := .ACT },
    .core { t := 15, type := .RDA },
    .core { t := 20, type := .ACT, co := { bank := 3 } },
    .core { t := 35, type := .RD, co := { bank := 3 } },
    .core { t := 50, type := .PREA },
    .core { t := 65, type := .REFA },
    .core { t := 100, type := .END_OF_SIMULATION },
    .coreEnergy 100]

def checks : List (Nat × Bool) := [
    (0, run0.ok),
    (126, (nearest (((run0.energies[0]!.aggregated.eAct : Rat) * 1000000000000) : Rat) : Rat) == 359),
    (127, (nearest (((run0.energies[0]!.aggregated.ePre : Rat) * 1000000000000) : Rat) : Rat) == 415),
    (128, (nearest (((run0.energies[0]!.aggregated.eRD : Rat) * 1000000000000) : Rat) : Rat) == 436),
    (129, (nearest (((run0.energies[0]!.aggregated.eRDA : Rat) * 1000000000000) : Rat) : Rat) == 436),
    (130, (nearest (((run0.energies[0]!.aggregated.eRefAB : Rat) * 1000000000000) : Rat) : Rat) == 1812),
    (131, (nearest (((run0.energies[0]!.aggregated.eRefSB : Rat) * 1000000000000) : Rat) : Rat) == 0),
    (132, (nearest (((run0.energies[0]!.aggregated.eBgAct : Rat) * 1000000000000) : Rat) : Rat) == 2610),
    (133, (nearest (((run0.energies[0]!.shared.bgActShared : Rat) * 1000000000000) : Rat) : Rat) == 2536),
    (134, (nearest (((run0.energies[0]!.aggregated.eBgPre : Rat) * 1000000000000) : Rat) : Rat) == 779),
    (135, (nearest (((run0.energies[0]!.aggregated.total : Rat) * 1000000000000) : Rat) : Rat) == 6846)]

#guard failing checks == []

end ddr4_6.Energy

/-! ## tests/tests_drampower/core/DDR4/ddr4_test_pattern_7.cpp -/

namespace ddr4_7.Counters_and_Cycles

def run0 : Log := run .ddr4 (ddr4) [
    .core { t := 0, type := .SREFEN },
    .core { t := 40, type := .SREFEX },
    .core { t := 100, type := .END_OF_SIMULATION },
    .stats]

def checks : List (Nat × Bool) := [
    (0, run0.ok),
    (54, run0.stats[0]!.bank[0]!.counter.act == 0),
    (54, run0.stats[0]!.bank[1]!.counter.act == 0),
    (54, run0.stats[0]!.bank[2]!.counter.act == 0),
    (54, run0.stats[0]!.bank[3]!.counter.act == 0),
    (54, run0.stats[0]!.bank[4]!.counter.act == 0),
    (54, run0.stats[0]!.bank[5]!.counter.act == 0),
    (54, run0.stats[0]!.bank[6]!.counter.act == 0),
    (54, run0.stats[0]!.bank[7]!.counter.act == 0),
    (54, run0.stats[0]!.bank[8]!.counter.act == 0),
    (54, run0.stats[0]!.bank[9]!.counter.act == 0),
    (54, run0.stats[0]!.bank[10]!.counter.act == 0),
    (54, run0.stats[0]!.bank[11]!.counter.act == 0),
    (54, run0.stats[0]!.bank[12]!.counter.act == 0),
    (54, run0.stats[0]!.bank[13]!.counter.act == 0),
    (54, run0.stats[0]!.bank[14]!.counter.act == 0),
    (54, run0.stats[0]!.bank[15]!.counter.act == 0),
    (57, run0.stats[0]!.bank[0]!.counter.refAllBank == 1),
    (57, run0.stats[0]!.bank[1]!.counter.refAllBank == 1),
    (57, run0.stats[0]!.bank[2]!.counter.refAllBank == 1),
    (57, run0.stats[0]!.bank[3]!.counter.refAllBank == 1),
    (57, run0.stats[0]!.bank[4]!.counter.refAllBank == 1),
    (57, run0.stats[0]!.bank[5]!.counter.refAllBank == 1),
    (57, run0.stats[0]!.bank[6]!.counter.refAllBank == 1),
    (57, run0.stats[0]!.bank[7]!.counter.refAllBank == 1),
    (57, run0.stats[0]!.bank[8]!.counter.refAllBank == 1),
    (57, run0.stats[0]!.bank[9]!.counter.refAllBank == 1),
    (57, run0.stats[0]!.bank[10]!.counter.refAllBank == 1),
    (57, run0.stats[0]!.bank[11]!.counter.refAllBank == 1),
    (57, run0.stats[0]!.bank[12]!.counter.refAllBank == 1),
    (57, run0.stats[0]!.bank[13]!.counter.refAllBank == 1),
    (57, run0.stats[0]!.bank[14]!.counter.refAllBank == 1),
    (57, run0.stats[0]!.bank[15]!.counter.refAllBank == 1),
    (61, run0.stats[0]!.rankTotal[0]!.cycles.act == 25),
    (62, run0.stats[0]!.rankTotal[0]!.cycles.pre == 60),
    (63, run0.stats[0]!.rankTotal[0]!.cycles.selfRefresh == 15),
    (66, run0.stats[0]!.bank[0]!.cycles.act == 25),
    (66, run0.stats[0]!.bank[1]!.cycles.act == 25),
    (66, run0.stats[0]!.bank[2]!.cycles.act == 25),
    (66, run0.stats[0]!.bank[3]!.cycles.act == 25),
    (66, run0.stats[0]!.bank[4]!.cycles.act == 25),
    (66, run0.stats[0]!.bank[5]!.cycles.act == 25),
    (66, run0.stats[0]!.bank[6]!.cycles.act == 25),
    (66, run0.stats[0]!.bank[7]!.cycles.act == 25),
    (66, run0.stats[0]!.bank[8]!.cycles.act == 25),
    (66, run0.stats[0]!.bank[9]!.cycles.act == 25),
    (66, run0.stats[0]!.bank[10]!.cycles.act == 25),
    (66, run0.stats[0]!.bank[11]!.cycles.act == 25),
    (66, run0.stats[0]!.bank[12]!.cycles.act == 25),
    (66, run0.stats[0]!.bank[13]!.cycles.act == 25),
    (66, run0.stats[0]!.bank[14]!.cycles.act == 25),
    (66, run0.stats[0]!.bank[15]!.cycles.act == 25),
    (69, run0.stats[0]!.bank[0]!.cycles.pre == 60),
    (69, run0.stats[0]!.bank[1]!.cycles.pre == 60),
    (69, run0.stats[0]!.bank[2]!.cycles.pre == 60),
    (69, run0.stats[0]!.bank[3]!.cycles.pre == 60),
    (69, run0.stats[0]!.bank[4]!.cycles.pre == 60),
    (69, run0.stats[0]!.bank[5]!.cycles.pre == 60),
    (69, run0.stats[0]!.bank[6]!.cycles.pre == 60),
    (69, run0.stats[0]!.bank[7]!.cycles.pre == 60),
    (69, run0.stats[0]!.bank[8]!.cycles.pre == 60),
    (69, run0.stats[0]!.bank[9]!.cycles.pre == 60),
    (69, run0.stats[0]!.bank[10]!.cycles.pre == 60),
    (69, run0.stats[0]!.bank[11]!.cycles.pre == 60),
    (69, run0.stats[0]!.bank[12]!.cycles.pre == 60),
    (69, run0.stats[0]!.bank[13]!.cycles.pre == 60),
    (69, run0.stats[0]!.bank[14]!.cycles.pre == 60),
    (69, run0.stats[0]!.bank[15]!.cycles.pre == 60),
    (72, run0.stats[0]!.bank[0]!.cycles.selfRefresh == 15),
    (72, run0.stats[0]!.bank[1]!.cycles.selfRefresh == 15),
    (72, run0.stats[0]!.bank[2]!.cycles.selfRefresh == 15),
    (72, run0.stats[0]!.bank[3]!.cycles.selfRefresh == 15),
    (72, run0.stats[0]!.bank[4]!.cycles.selfRefresh == 15),
    (72, run0.stats[0]!.bank[5]!.cycles.selfRefresh == 15),
    (72, run0.stats[0]!.bank[6]!.cycles.selfRefresh == 15),
    (72, run0.stats[0]!.bank[7]!.cycles.selfRefresh == 15),
    (72, run0.stats[0]!.bank[8]!.cycles.selfRefresh == 15),
    (72, run0.stats[0]!.bank[9]!.cycles.selfRefresh == 15),
    (72, run0.stats[0]!.bank[10]!.cycles.selfRefresh == 15),
    (72, run0.stats[0]!.bank[11]!.cycles.selfRefresh == 15),
    (72, run0.stats[0]!.bank[12]!.cycles.selfRefresh == 15),
    (72, run0.stats[0]!.bank[13]!.cycles.selfRefresh == 15),
    (72, run0.stats[0]!.bank[14]!.cycles.selfRefresh == 15),
    (72, run0.stats[0]!.bank[15]!.cycles.selfRefresh == 15)]

#guard failing checks == []

end ddr4_7.Counters_and_Cycles

namespace ddr4_7.Energy

def run0 : Log := run .ddr4 (ddr4) [
    .core { t := 0, type := .SREFEN },
    .core { t := 40, type := .SREFEX },
    .core { t := 100, type := .END_OF_SIMULATION },
    .coreEnergy 100]

def checks : List (Nat × Bool) := [
    (0, run0.ok),
    (84, (nearest (((run0.energies[0]!.aggregated.eAct : Rat) * 1000000000000) : Rat) : Rat) == 0),
    (85, (nearest (((run0.energies[0]!.aggregated.ePre : Rat) * 1000000000000) : Rat) : Rat) == 0),
    (86, (nearest (((run0.energies[0]!.aggregated.eRefAB : Rat) * 1000000000000) : Rat) : Rat) == 1812),
    (87, (nearest (((run0.energies[0]!.shared.sref : Rat) * 1000000000000) : Rat) : Rat) == 280),
    (88, (nearest (((run0.energies[0]!.aggregated.eBgAct : Rat) * 1000000000000) : Rat) : Rat) == 912),
    (89, (nearest (((run0.energies[0]!.shared.bgActShared : Rat) * 1000000000000) : Rat) : Rat) == 845),
    (90, (nearest (((run0.energies[0]!.aggregated.eBgPre : Rat) * 1000000000000) : Rat) : Rat) == 1869),
    (91, (nearest (((((run0.energies[0]!.aggregated.total : Rat) + (run0.energies[0]!.shared.sref : Rat)) : Rat) * 1000000000000) : Rat) : Rat) == 4872)]

#guard failing checks == []

end ddr4_7.Energy

/-! ## tests/tests_drampower/core/DDR4/ddr4_test_pattern_8.cpp -/

namespace ddr4_8.Counters_and_Cycles

def run0 : Log := run .ddr4 (ddr4) [
    .core { t := 0, type := .PDEA },
    .core { t := 30, type := .PDXA },
    .core { t := 45, type := .PDEP },
    .core { t := 70, type := .PDXP },
    .core { t := 85, type := .END_OF_SIMULATION },
    .stats]

def checks : List (Nat × Bool) := [
    (0, run0.ok),
    (60, run0.stats[0]!.rankTotal[0]!.cycles.act == 0),
    (61, run0.stats[0]!.rankTotal[0]!.cycles.pre == 30),
    (62, run0.stats[0]!.rankTotal[0]!.cycles.powerDownAct == 30),
    (63, run0.stats[0]!.rankTotal[0]!.cycles.powerDownPre == 25),
    (64, run0.stats[0]!.rankTotal[0]!.cycles.selfRefresh == 0),
    (69, run0.stats[0]!.bank[0]!.cycles.act == 0),
    (69, run0.stats[0]!.bank[1]!.cycles.act == 0),
    (69, run0.stats[0]!.bank[2]!.cycles.act == 0),
    (69, run0.stats[0]!.bank[3]!.cycles.act == 0),
    (69, run0.stats[0]!.bank[4]!.cycles.act == 0),
    (69, run0.stats[0]!.bank[5]!.cycles.act == 0),
    (69, run0.stats[0]!.bank[6]!.cycles.act == 0),
    (69, run0.stats[0]!.bank[7]!.cycles.act == 0),
    (69, run0.stats[0]!.bank[8]!.cycles.act == 0),
    (69, run0.stats[0]!.bank[9]!.cycles.act == 0),
    (69, run0.stats[0]!.bank[10]!.cycles.act == 0),
    (69, run0.stats[0]!.bank[11]!.cycles.act == 0),
    (69, run0.stats[0]!.bank[12]!.cycles.act == 0),
    (69, run0.stats[0]!.bank[13]!.cycles.act == 0),
    (69, run0.stats[0]!.bank[14]!.cycles.act == 0),
    (69, run0.stats[0]!.bank[15]!.cycles.act == 0),
    (72, run0.stats[0]!.bank[0]!.cycles.pre == 30),
    (72, run0.stats[0]!.bank[1]!.cycles.pre == 30),
    (72, run0.stats[0]!.bank[2]!.cycles.pre == 30),
    (72, run0.stats[0]!.bank[3]!.cycles.pre == 30),
    (72, run0.stats[0]!.bank[4]!.cycles.pre == 30),
    (72, run0.stats[0]!.bank[5]!.cycles.pre == 30),
    (72, run0.stats[0]!.bank[6]!.cycles.pre == 30),
    (72, run0.stats[0]!.bank[7]!.cycles.pre == 30),
    (72, run0.stats[0]!.bank[8]!.cycles.pre == 30),
    (72, run0.stats[0]!.bank[9]!.cycles.pre == 30),
    (72, run0.stats[0]!.bank[10]!.cycles.pre == 30),
    (72, run0.stats[0]!.bank[11]!.cycles.pre == 30),
    (72, run0.stats[0]!.bank[12]!.cycles.pre == 30),
    (72, run0.stats[0]!.bank[13]!.cycles.pre == 30),
    (72, run0.stats[0]!.bank[14]!.cycles.pre == 30),
    (72, run0.stats[0]!.bank[15]!.cycles.pre == 30),
    (75, run0.stats[0]!.bank[0]!.cycles.powerDownAct == 30),
    (75, run0.stats[0]!.bank[1]!.cycles.powerDownAct == 30),
    (75, run0.stats[0]!.bank[2]!.cycles.powerDownAct == 30),
    (75, run0.stats[0]!.bank[3]!.cycles.powerDownAct == 30),
    (75, run0.stats[0]!.bank[4]!.cycles.powerDownAct == 30),
    (75, run0.stats[0]!.bank[5]!.cycles.powerDownAct == 30),
    (75, run0.stats[0]!.bank[6]!.cycles.powerDownAct == 30),
    (75, run0.stats[0]!.bank[7]!.cycles.powerDownAct == 30),
    (75, run0.stats[0]!.bank[8]!.cycles.powerDownAct == 30),
    (75, run0.stats[0]!.bank[9]!.cycles.powerDownAct == 30),
    (75, run0.stats[0]!.bank[10]!.cycles.powerDownAct == 30),
    (75, run0.stats[0]!.bank[11]!.cycles.powerDownAct == 30),
    (75, run0.stats[0]!.bank[12]!.cycles.powerDownAct == 30),
    (75, run0.stats[0]!.bank[13]!.cycles.powerDownAct == 30),
    (75, run0.stats[0]!.bank[14]!.cycles.powerDownAct == 30),
    (75, run0.stats[0]!.bank[15]!.cycles.powerDownAct == 30),
    (78, run0.stats[0]!.bank[0]!.cycles.powerDownPre == 25),
    (78, run0.stats[0]!.bank[1]!.cycles.powerDownPre == 25),
    (78, run0.stats[0]!.bank[2]!.cycles.powerDownPre == 25),
    (78, run0.stats[0]!.bank[3]!.cycles.powerDownPre == 25),
    (78, run0.stats[0]!.bank[4]!.cycles.powerDownPre == 25),
    (78, run0.stats[0]!.bank[5]!.cycles.powerDownPre == 25),
    (78, run0.stats[0]!.bank[6]!.cycles.powerDownPre == 25),
    (78, run0.stats[0]!.bank[7]!.cycles.powerDownPre == 25),
    (78, run0.stats[0]!.bank[8]!.cycles.powerDownPre == 25),
    (78, run0.stats[0]!.bank[9]!.cycles.powerDownPre == 25),
    (78, run0.stats[0]!.bank[10]!.cycles.powerDownPre == 25),
    (78, run0.stats[0]!.bank[11]!.cycles.powerDownPre == 25),
    (78, run0.stats[0]!.bank[12]!.cycles.powerDownPre == 25),
    (78, run0.stats[0]!.bank[13]!.cycles.powerDownPre == 25),
    (78, run0.stats[0]!.bank[14]!.cycles.powerDownPre == 25),
    (78, run0.stats[0]!.bank[15]!.cycles.powerDownPre == 25),
    (81, run0.stats[0]!.bank[0]!.cycles.selfRefresh == 0),
    (81, run0.stats[0]!.bank[1]!.cycles.selfRefresh == 0),
    (81, run0.stats[0]!.bank[2]!.cycles.selfRefresh == 0),
    (81, run0.stats[0]!.bank[3]!.cycles.selfRefresh == 0),
    (81, run0.stats[0]!.bank[4]!.cycles.selfRefresh == 0),
    (81, run0.stats[0]!.bank[5]!.cycles.selfRefresh == 0),
    (81, run0.stats[0]!.bank[6]!.cycles.selfRefresh == 0),
    (81, run0.stats[0]!.bank[7]!.cycles.selfRefresh == 0),
    (81, run0.stats[0]!.bank[8]!.cycles.selfRefresh == 0),
    (81, run0.stats[0]!.bank[9]!.cycles.selfRefresh == 0),
    (81, run0.stats[0]!.bank[10]!.cycles.selfRefresh == 0),
    (81, run0.stats[0]!.bank[11]!.cycles.selfRefresh == 0),
    (81, run0.stats[0]!.bank[12]!.cycles.selfRefresh == 0),
    (81, run0.stats[0]!.bank[13]!.cycles.selfRefresh == 0),
    (81, run0.stats[0]!.bank[14]!.cycles.selfRefresh == 0),
    (81, run0.stats[0]!.bank[15]!.cycles.selfRefresh == 0)]

#guard failing checks == []

end ddr4_8.Counters_and_Cycles

namespace ddr4_8.Energy

def run0 : Log := run .ddr4 (ddr4) [
    .core { t := 0, type := .PDEA },
    .core { t := 30, type := .PDXA },
    .core { t := 45, type := .PDEP },
    .core { t := 70, type := .PDXP },
    .core { t := 85, type := .END_OF_SIMULATION },
    .coreEnergy 85]

def checks : List (Nat × Bool) := [
    (0, run0.ok),
    (93, (nearest (((run0.energies[0]!.aggregated.eAct : Rat) * 1000000000000) : Rat) : Rat) == 0),
    (94, (nearest (((run0.energies[0]!.aggregated.ePre : Rat) * 1000000000000) : Rat) : Rat) == 0),
    (95, (nearest (((run0.energies[0]!.shared.sref : Rat) * 1000000000000) : Rat) : Rat) == 0),
    (96, (nearest (((run0.energies[0]!.shared.pdnA : Rat) * 1000000000000) : Rat) : Rat) == 623),
    (97, (nearest (((run0.energies[0]!.shared.pdnP : Rat) * 1000000000000) : Rat) : Rat) == 392),
    (98, (nearest (((run0.energies[0]!.aggregated.eBgAct : Rat) * 1000000000000) : Rat) : Rat) == 0),
    (99, (nearest (((run0.energies[0]!.shared.bgActShared : Rat) * 1000000000000) : Rat) : Rat) == 0),
    (100, (nearest (((run0.energies[0]!.aggregated.eBgPre : Rat) * 1000000000000) : Rat) : Rat) == 935),
    (101, (nearest (((((((((run0.energies[0]!.aggregated.total : Rat) + (run0.energies[0]!.shared.sref : Rat)) : Rat) + (run0.energies[0]!.shared.pdnA : Rat)) : Rat) + (run0.energies[0]!.shared.pdnP : Rat)) : Rat) * 1000000000000) : Rat) : Rat) == 1950)]

#guard failing checks == []

end ddr4_8.Energy

/-! ## tests/tests_drampower/core/DDR4/ddr4_test_pattern_9.cpp -/

namespace ddr4_9.Counters_and_Cycles

def run0 : Log := run .ddr4 (ddr4) [
    .core { t := 5, type := .ACT },
    .core { t := 15, type := .ACT, co := { bank := 5 } },
    .core { t := 20, type := .RD },
    .core { t := 30, type := .PDEA },
    .core { t := 50, type := .PDXA },
    .core { t := 55, type := .RD, co := { bank := 5 } },
    .core { t := 60, type := .RD },
    .core { t := 70, type := .PREA },
    .core { t := 80, type := .PDEP },
    .core { t := 95, type := .PDXP },
    .core { t := 100, type := .END_OF_SIMULATION },
    .stats]

def checks : List (Nat × Bool) := [
    (0, run0.ok),
    (64, run0.stats[0]!.rankTotal[0]!.cycles.act == 45),
    (65, run0.stats[0]!.rankTotal[0]!.cycles.pre == 20),
    (66, run0.stats[0]!.rankTotal[0]!.cycles.selfRefresh == 0),
    (67, run0.stats[0]!.rankTotal[0]!.cycles.powerDownAct == 20),
    (68, run0.stats[0]!.rankTotal[0]!.cycles.powerDownPre == 15),
    (73, run0.stats[0]!.bank[0]!.cycles.act == 45),
    (77, run0.stats[0]!.bank[1]!.cycles.act == 0),
    (77, run0.stats[0]!.bank[2]!.cycles.act == 0),
    (77, run0.stats[0]!.bank[3]!.cycles.act == 0),
    (77, run0.stats[0]!.bank[4]!.cycles.act == 0),
    (75, run0.stats[0]!.bank[5]!.cycles.act == 35),
    (77, run0.stats[0]!.bank[6]!.cycles.act == 0),
    (77, run0.stats[0]!.bank[7]!.cycles.act == 0),
    (77, run0.stats[0]!.bank[8]!.cycles.act == 0),
    (77, run0.stats[0]!.bank[9]!.cycles.act == 0),
    (77, run0.stats[0]!.bank[10]!.cycles.act == 0),
    (77, run0.stats[0]!.bank[11]!.cycles.act == 0),
    (77, run0.stats[0]!.bank[12]!.cycles.act == 0),
    (77, run0.stats[0]!.bank[13]!.cycles.act == 0),
    (77, run0.stats[0]!.bank[14]!.cycles.act == 0),
    (77, run0.stats[0]!.bank[15]!.cycles.act == 0),
    (84, run0.stats[0]!.bank[0]!.cycles.pre == 20),
    (88, run0.stats[0]!.bank[1]!.cycles.pre == 65),
    (88, run0.stats[0]!.bank[2]!.cycles.pre == 65),
    (88, run0.stats[0]!.bank[3]!.cycles.pre == 65),
    (88, run0.stats[0]!.bank[4]!.cycles.pre == 65),
    (86, run0.stats[0]!.bank[5]!.cycles.pre == 30),
    (88, run0.stats[0]!.bank[6]!.cycles.pre == 65),
    (88, run0.stats[0]!.bank[7]!.cycles.pre == 65),
    (88, run0.stats[0]!.bank[8]!.cycles.pre == 65),
    (88, run0.stats[0]!.bank[9]!.cycles.pre == 65),
    (88, run0.stats[0]!.bank[10]!.cycles.pre == 65),
    (88, run0.stats[0]!.bank[11]!.cycles.pre == 65),
    (88, run0.stats[0]!.bank[12]!.cycles.pre == 65),
    (88, run0.stats[0]!.bank[13]!.cycles.pre == 65),
    (88, run0.stats[0]!.bank[14]!.cycles.pre == 65),
    (88, run0.stats[0]!.bank[15]!.cycles.pre == 65),
    (93, run0.stats[0]!.bank[0]!.cycles.powerDownAct == 20),
    (93, run0.stats[0]!.bank[1]!.cycles.powerDownAct == 20),
    (93, run0.stats[0]!.bank[2]!.cycles.powerDownAct == 20),
    (93, run0.stats[0]!.bank[3]!.cycles.powerDownAct == 20),
    (93, run0.stats[0]!.bank[4]!.cycles.powerDownAct == 20),
    (93, run0.stats[0]!.bank[5]!.cycles.powerDownAct == 20),
    (93, run0.stats[0]!.bank[6]!.cycles.powerDownAct == 20),
    (93, run0.stats[0]!.bank[7]!.cycles.powerDownAct == 20),
    (93, run0.stats[0]!.bank[8]!.cycles.powerDownAct == 20),
    (93, run0.stats[0]!.bank[9]!.cycles.powerDownAct == 20),
    (93, run0.stats[0]!.bank[10]!.cycles.powerDownAct == 20),
    (93, run0.stats[0]!.bank[11]!.cycles.powerDownAct == 20),
    (93, run0.stats[0]!.bank[12]!.cycles.powerDownAct == 20),
    (93, run0.stats[0]!.bank[13]!.cycles.powerDownAct == 20),
    (93, run0.stats[0]!.bank[14]!.cycles.powerDownAct == 20),
    (93, run0.stats[0]!.bank[15]!.cycles.powerDownAct == 20),
    (96, run0.stats[0]!.bank[0]!.cycles.powerDownPre == 15),
    (96, run0.stats[0]!.bank[1]!.cycles.powerDownPre == 15),
    (96, run0.stats[0]!.bank[2]!.cycles.powerDownPre == 15),
    (96, run0.stats[0]!.bank[3]!.cycles.powerDownPre == 15),
    (96, run0.stats[0]!.bank[4]!.cycles.powerDownPre == 15),
    (96, run0.stats[0]!.bank[5]!.cycles.powerDownPre == 15),
    (96, run0.stats[0]!.bank[6]!.cycles.powerDownPre == 15),
    (96, run0.stats[0]!.bank[7]!.cycles.powerDownPre == 15),
    (96, run0.stats[0]!.bank[8]!.cycles.powerDownPre == 15),
    (96, run0.stats[0]!.bank[9]!.cycles.powerDownPre == 15),
    (96, run0.stats[0]!.bank[10]!.cycles.powerDownPre == 15),
    (96, run0.stats[0]!.bank[11]!.cycles.powerDownPre == 15),
    (96, run0.stats[0]!.bank[12]!.cycles.powerDownPre == 15),
    (96, run0.stats[0]!.bank[13]!.cycles.powerDownPre == 15),
    (96, run0.stats[0]!.bank[14]!.cycles.powerDownPre == 15),
    (96, run0.stats[0]!.bank[15]!.cycles.powerDownPre == 15),
    (99, run0.stats[0]!.bank[0]!.cycles.selfRefresh == 0),
    (99, run0.stats[0]!.bank[1]!.cycles.selfRefresh == 0),
    (99, run0.stats[0]!.bank[2]!.cycles.selfRefresh == 0),
    (99, run0.stats[0]!.bank[3]!.cycles.selfRefresh == 0),
    (99, run0.stats[0]!.bank[4]!.cycles.selfRefresh == 0),
    (99, run0.stats[0]!.bank[5]!.cycles.selfRefresh == 0),
    (99, run0.stats[0]!.bank[6]!.cycles.selfRefresh == 0),
    (99, run0.stats[0]!.bank[7]!.cycles.selfRefresh == 0),
    (99, run0.stats[0]!.bank[8]!.cycles.selfRefresh == 0),
    (99, run0.stats[0]!.bank[9]!.cycles.selfRefresh == 0),
    (99, run0.stats[0]!.bank[10]!.cycles.selfRefresh == 0),
    (99, run0.stats[0]!.bank[11]!.cycles.selfRefresh == 0),
    (99, run0.stats[0]!.bank[12]!.cycles.selfRefresh == 0),
    (99, run0.stats[0]!.bank[13]!.cycles.selfRefresh == 0),
    (99, run0.stats[0]!.bank[14]!.cycles.selfRefresh == 0),
    (99, run0.stats[0]!.bank[15]!.cycles.selfRefresh == 0)]

#guard failing checks == []

end ddr4_9.Counters_and_Cycles

namespace ddr4_9.Energy

def run0 : Log := run .ddr4 (ddr4) [
    .core { t := 5, type := .ACT },
    .core { t := 15, type := .ACT, co := { bank := 5 } },
    .core { t := 20, type := .RD },
    .core { t := 30, type := .PDEA },
    .core { t := 50, type := .PDXA },
    .core { t := 55, type := .RD, co := { bank := 5 } },
    .core { t := 60, type := .RD },
    .core { t := 70, type := .PREA },
    .core { t := 80, type := .PDEP },
    .core { t := 95, type := .PDXP },
    .core { t := 100, type := .END_OF_SIMULATION },
    .coreEnergy 100]

def checks : List (Nat × Bool) := [
    (0, run0.ok),
    (111, (nearest (((run0.energies[0]!.aggregated.eAct : Rat) * 1000000000000) : Rat) : Rat) == 359),
    (112, (nearest (((run0.energies[0]!.aggregated.ePre : Rat) * 1000000000000) : Rat) : Rat) == 415),
    (113, (nearest (((run0.energies[0]!.aggregated.eRD : Rat) * 1000000000000) : Rat) : Rat) == 1307),
    (114, (nearest (((run0.energies[0]!.shared.sref : Rat) * 1000000000000) : Rat) : Rat) == 0),
    (115, (nearest (((run0.energies[0]!.shared.pdnA : Rat) * 1000000000000) : Rat) : Rat) == 415),
    (116, (nearest (((run0.energies[0]!.shared.pdnP : Rat) * 1000000000000) : Rat) : Rat) == 235),
    (117, (nearest (((run0.energies[0]!.aggregated.eBgAct : Rat) * 1000000000000) : Rat) : Rat) == 1535),
    (118, (nearest (((run0.energies[0]!.shared.bgActShared : Rat) * 1000000000000) : Rat) : Rat) == 1521),
    (119, (nearest (((run0.energies[0]!.aggregated.eBgPre : Rat) * 1000000000000) : Rat) : Rat) == 623),
    (120, (nearest (((((((((run0.energies[0]!.aggregated.total : Rat) + (run0.energies[0]!.shared.sref : Rat)) : Rat) + (run0.energies[0]!.shared.pdnA : Rat)) : Rat) + (run0.energies[0]!.shared.pdnP : Rat)) : Rat) * 1000000000000) : Rat) : Rat) == 4890)]

#guard failing checks == []

end ddr4_9.Energy

/-! ## tests/tests_drampower/core/DDR4/ddr4_test_pattern_10.cpp -/

namespace ddr4_10.Pattern1

def run0 : Log := run .ddr4 ({ ddr4 with
  core := { ddr4.core with numberOfRanks := 1, numberOfBanks := 8, numberOfBankGroups := 1, tRAS := 10, tRP := 10 },
  power := { ddr4.power with ranks := 1, devices := 1, banks := 8, bankGroups := 1, burstLength := 8, dataRate := 2, tCK := 1, tRAS := 10, tRP := 10, rho := (333333333/1000000000), domains := (ddr4.power.domains.modify 0 fun d => { d with v := 1, i0 := 64, i2n := 8, i3n := 32, i4r := 0, i4w := 0, i5x := 0, i6n := 0, i2p := 0, i3p := 0, iBeta := 64 }) },
  iface := { ddr4.iface with ranks := 1, devices := 1, bankGroups := 1, burstLength := 8, dataRate := 2 },
  wires := { ddr4.wires with dataRate := 2, tCK := 1 } }) [
    .core { t := 0, type := .ACT },
    .core { t := 10, type := .ACT, co := { bank := 1 } },
    .core { t := 15, type := .PRE },
    .core { t := 25, type := .ACT, co := { bank := 3 } },
    .core { t := 25, type := .PRE, co := { bank := 1 } },
    .core { t := 30, type := .ACT },
    .core { t := 35, type := .ACT, co := { bank := 2 } },
    .core { t := 40, type := .PRE, co := { bank := 1 } },
    .core { t := 40, type := .PRE, co := { bank := 3 } },
    .core { t := 45, type := .PRE },
    .core { t := 50, type := .PRE, co := { bank := 2 } },
    .core { t := 85, type := .ACT, co := { bank := 7 } },
    .core { t := 100, type := .PRE, co := { bank := 7 } },
    .core { t := 120, type := .ACT, co := { bank := 6 } },
    .core { t := 125, type := .END_OF_SIMULATION },
    .stats]

def checks : List (Nat × Bool) := [
    (0, run0.ok),
    (88, run0.stats[0]!.rankTotal[0]!.cycles.act == 70),
    (89, run0.stats[0]!.rankTotal[0]!.cycles.pre == 55),
    (92, run0.stats[0]!.bank[0]!.cycles.act == 30),
    (94, run0.stats[0]!.bank[1]!.cycles.act == 15),
    (95, run0.stats[0]!.bank[2]!.cycles.act == 15),
    (96, run0.stats[0]!.bank[3]!.cycles.act == 15),
    (97, run0.stats[0]!.bank[7]!.cycles.act == 15),
    (99, run0.stats[0]!.bank[6]!.cycles.act == 5),
    (101, run0.stats[0]!.bank[4]!.cycles.act == 0),
    (102, run0.stats[0]!.bank[5]!.cycles.act == 0),
    (105, run0.stats[0]!.bank[0]!.cycles.pre == 95),
    (107, run0.stats[0]!.bank[1]!.cycles.pre == 110),
    (108, run0.stats[0]!.bank[2]!.cycles.pre == 110),
    (109, run0.stats[0]!.bank[3]!.cycles.pre == 110),
    (110, run0.stats[0]!.bank[7]!.cycles.pre == 110),
    (112, run0.stats[0]!.bank[6]!.cycles.pre == 120),
    (114, run0.stats[0]!.bank[4]!.cycles.pre == 125),
    (115, run0.stats[0]!.bank[5]!.cycles.pre == 125),
    (118, run0.stats[0]!.bank[0]!.counter.act == 2),
    (120, run0.stats[0]!.bank[1]!.counter.act == 1),
    (121, run0.stats[0]!.bank[2]!.counter.act == 1),
    (122, run0.stats[0]!.bank[3]!.counter.act == 1),
    (123, run0.stats[0]!.bank[6]!.counter.act == 1),
    (124, run0.stats[0]!.bank[7]!.counter.act == 1),
    (126, run0.stats[0]!.bank[4]!.counter.act == 0),
    (127, run0.stats[0]!.bank[5]!.counter.act == 0),
    (130, run0.stats[0]!.bank[0]!.counter.pre == 2),
    (132, run0.stats[0]!.bank[1]!.counter.pre == 1),
    (133, run0.stats[0]!.bank[2]!.counter.pre == 1),
    (134, run0.stats[0]!.bank[3]!.counter.pre == 1),
    (135, run0.stats[0]!.bank[7]!.counter.pre == 1),
    (137, run0.stats[0]!.bank[6]!.counter.pre == 0),
    (138, run0.stats[0]!.bank[4]!.counter.pre == 0),
    (139, run0.stats[0]!.bank[5]!.counter.pre == 0)]

#guard failing checks == []

end ddr4_10.Pattern1

namespace ddr4_10.CalcEnergy

def run0 : Log := run .ddr4 ({ ddr4 with
  core := { ddr4.core with numberOfRanks := 1, numberOfBanks := 8, numberOfBankGroups := 1, tRAS := 10, tRP := 10 },
  power := { ddr4.power with ranks := 1, devices := 1, banks := 8, bankGroups := 1, burstLength := 8, dataRate := 2, tCK := 1, tRAS := 10, tRP := 10, rho := (333333333/1000000000), domains := (ddr4.power.domains.modify 0 fun d => { d with v := 1, i0 := 64, i2n := 8, i3n := 32, i4r := 0, i4w := 0, i5x := 0, i6n := 0, i2p := 0, i3p := 0, iBeta := 64 }) },
  iface := { ddr4.iface with ranks := 1, devices := 1, bankGroups := 1, burstLength := 8, dataRate := 2 },
  wires := { ddr4.wires with dataRate := 2, tCK := 1 } }) [
    .core { t := 0, type := .ACT },
    .core { t := 10, type := .ACT, co := { bank := 1 } },
    .core { t := 15, type := .PRE },
    .core { t := 25, type := .ACT, co := { bank := 3 } },
    .core { t := 25, type := .PRE, co := { bank := 1 } },
    .core { t := 30, type := .ACT },
    .core { t := 35, type := .ACT, co := { bank := 2 } },
    .core { t := 40, type := .PRE, co := { bank := 1 } },
    .core { t := 40, type := .PRE, co := { bank := 3 } },
    .core { t := 45, type := .PRE },
    .core { t := 50, type := .PRE, co := { bank := 2 } },
    .core { t := 85, type := .ACT, co := { bank := 7 } },
    .core { t := 100, type := .PRE, co := { bank := 7 } },
    .core { t := 120, type := .ACT, co := { bank := 6 } },
    .core { t := 125, type := .END_OF_SIMULATION },
    .coreEnergy 125]

def checks : List (Nat × Bool) := [
    (0, run0.ok),
    (156, (whole (run0.energies[0]!.aggregated.eAct : Rat) : Rat) == 3220),
    (157, (whole (run0.energies[0]!.bank[0]!.eAct : Rat) : Rat) == 920),
    (158, (whole (run0.energies[0]!.bank[1]!.eAct : Rat) : Rat) == 460),
    (159, (whole (run0.energies[0]!.bank[2]!.eAct : Rat) : Rat) == 460),
    (160, (whole (run0.energies[0]!.bank[3]!.eAct : Rat) : Rat) == 460),
    (161, (whole (run0.energies[0]!.bank[4]!.eAct : Rat) : Rat) == 0),
    (162, (whole (run0.energies[0]!.bank[5]!.eAct : Rat) : Rat) == 0),
    (163, (whole (run0.energies[0]!.bank[6]!.eAct : Rat) : Rat) == 460),
    (164, (whole (run0.energies[0]!.bank[7]!.eAct : Rat) : Rat) == 460),
    (166, (whole (run0.energies[0]!.aggregated.ePre : Rat) : Rat) == 3360),
    (167, (whole (run0.energies[0]!.bank[0]!.ePre : Rat) : Rat) == 1120),
    (168, (whole (run0.energies[0]!.bank[1]!.ePre : Rat) : Rat) == 560),
    (169, (whole (run0.energies[0]!.bank[2]!.ePre : Rat) : Rat) == 560),
    (170, (whole (run0.energies[0]!.bank[3]!.ePre : Rat) : Rat) == 560),
    (171, (whole (run0.energies[0]!.bank[4]!.ePre : Rat) : Rat) == 0),
    (172, (whole (run0.energies[0]!.bank[5]!.ePre : Rat) : Rat) == 0),
    (173, (whole (run0.energies[0]!.bank[6]!.ePre : Rat) : Rat) == 0),
    (174, (whole (run0.energies[0]!.bank[7]!.ePre : Rat) : Rat) == 560),
    (176, (whole (run0.energies[0]!.bank[0]!.eBgAct : Rat) : Rat) == 60),
    (177, (whole (run0.energies[0]!.bank[1]!.eBgAct : Rat) : Rat) == 30),
    (178, (whole (run0.energies[0]!.bank[2]!.eBgAct : Rat) : Rat) == 30),
    (179, (whole (run0.energies[0]!.bank[3]!.eBgAct : Rat) : Rat) == 30),
    (180, (whole (run0.energies[0]!.bank[4]!.eBgAct : Rat) : Rat) == 0),
    (181, (whole (run0.energies[0]!.bank[5]!.eBgAct : Rat) : Rat) == 0),
    (182, (whole (run0.energies[0]!.bank[6]!.eBgAct : Rat) : Rat) == 10),
    (183, (whole (run0.energies[0]!.bank[7]!.eBgAct : Rat) : Rat) == 30),
    (184, (nearest (run0.energies[0]!.shared.bgActShared : Rat) : Rat) == 1120),
    (185, (nearest (run0.energies[0]!.aggregated.eBgAct : Rat) : Rat) == 1310),
    (187, (whole (run0.energies[0]!.aggregated.eBgPre : Rat) : Rat) == 440),
    (188, (whole (run0.energies[0]!.bank[0]!.eBgPre : Rat) : Rat) == 55),
    (189, (whole (run0.energies[0]!.bank[1]!.eBgPre : Rat) : Rat) == 55),
    (190, (whole (run0.energies[0]!.bank[2]!.eBgPre : Rat) : Rat) == 55),
    (191, (whole (run0.energies[0]!.bank[3]!.eBgPre : Rat) : Rat) == 55),
    (192, (whole (run0.energies[0]!.bank[4]!.eBgPre : Rat) : Rat) == 55),
    (193, (whole (run0.energies[0]!.bank[5]!.eBgPre : Rat) : Rat) == 55),
    (194, (whole (run0.energies[0]!.bank[6]!.eBgPre : Rat) : Rat) == 55),
    (195, (whole (run0.energies[0]!.bank[7]!.eBgPre : Rat) : Rat) == 55)]

#guard failing checks == []

end ddr4_10.CalcEnergy

/-! ## tests/tests_drampower/core/DDR4/ddr4_test_pattern_11.cpp -/

namespace ddr4_11.Pattern_2

def run0 : Log := run .ddr4 ({ ddr4 with
  core := { ddr4.core with numberOfRanks := 1, numberOfBanks := 8, numberOfBankGroups := 1 },
  power := { ddr4.power with ranks := 1, devices := 1, banks := 8, bankGroups := 1, tCK := 1, burstLength := 16, dataRate := 2, domains := (ddr4.power.domains.modify 0 fun d => { d with v := 1, i0 := 64, i3n := 32, i4r := 72, i4w := 96, iBeta := 64 }) },
  iface := { ddr4.iface with ranks := 1, devices := 1, bankGroups := 1, burstLength := 16, dataRate := 2 },
  wires := { ddr4.wires with tCK := 1, dataRate := 2 } }) [
    .core { t := 0, type := .ACT },
    .core { t := 5, type := .ACT, co := { bank := 1 } },
    .core { t := 10, type := .ACT, co := { bank := 2 } },
    .core { t := 15, type := .ACT, co := { bank := 3 } },
    .core { t := 20, type := .ACT, co := { bank := 4 } },
    .core { t := 25, type := .ACT, co := { bank := 5 } },
    .core { t := 30, type := .ACT, co := { bank := 6 } },
    .core { t := 35, type := .ACT, co := { bank := 7 } },
    .core { t := 35, type := .RD },
    .core { t := 40, type := .RD },
    .core { t := 40, type := .RD, co := { bank := 1 } },
    .core { t := 45, type := .RD },
    .core { t := 45, type := .RD, co := { bank := 2 } },
    .core { t := 50, type := .RD, co := { bank := 3 } },
    .core { t := 55, type := .RD, co := { bank := 4 } },
    .core { t := 60, type := .RD, co := { bank := 5 } },
    .core { t := 65, type := .RD, co := { bank := 6 } },
    .core { t := 70, type := .RD, co := { bank := 7 } },
    .core { t := 75, type := .RD, co := { bank := 7 } },
    .core { t := 80, type := .RD, co := { bank := 7 } },
    .core { t := 85, type := .WR, co := { bank := 7 } },
    .core { t := 90, type := .WR, co := { bank := 6 } },
    .core { t := 95, type := .WR, co := { bank := 5 } },
    .core { t := 100, type := .WR, co := { bank := 4 } },
    .core { t := 105, type := .WR, co := { bank := 3 } },
    .core { t := 110, type := .WR, co := { bank := 2 } },
    .core { t := 110, type := .WR },
    .core { t := 115, type := .WR, co := { bank := 1 } },
    .core { t := 115, type := .RD },
    .core { t := 120, type := .WR },
    .core { t := 120, type := .END_OF_SIMULATION },
    .look]

def checks : List (Nat × Bool) := [
    (0, run0.ok),
    (95, ((run0.cores[0]!.ranks 0).banks 0).counter.reads == 4),
    (96, ((run0.cores[0]!.ranks 0).banks 1).counter.reads == 1),
    (97, ((run0.cores[0]!.ranks 0).banks 2).counter.reads == 1),
    (98, ((run0.cores[0]!.ranks 0).banks 3).counter.reads == 1),
    (99, ((run0.cores[0]!.ranks 0).banks 4).counter.reads == 1),
    (100, ((run0.cores[0]!.ranks 0).banks 5).counter.reads == 1),
    (101, ((run0.cores[0]!.ranks 0).banks 6).counter.reads == 1),
    (102, ((run0.cores[0]!.ranks 0).banks 7).counter.reads == 3),
    (105, ((run0.cores[0]!.ranks 0).banks 0).counter.writes == 2),
    (106, ((run0.cores[0]!.ranks 0).banks 1).counter.writes == 1),
    (107, ((run0.cores[0]!.ranks 0).banks 2).counter.writes == 1),
    (108, ((run0.cores[0]!.ranks 0).banks 3).counter.writes == 1),
    (109, ((run0.cores[0]!.ranks 0).banks 4).counter.writes == 1),
    (110, ((run0.cores[0]!.ranks 0).banks 5).counter.writes == 1),
    (111, ((run0.cores[0]!.ranks 0).banks 6).counter.writes == 1),
    (112, ((run0.cores[0]!.ranks 0).banks 7).counter.writes == 1)]

#guard failing checks == []

end ddr4_11.Pattern_2

namespace ddr4_11.CalcEnergy

def run0 : Log := run .ddr4 ({ ddr4 with
  core := { ddr4.core with numberOfRanks := 1, numberOfBanks := 8, numberOfBankGroups := 1 },
  power := { ddr4.power with ranks := 1, devices := 1, banks := 8, bankGroups := 1, tCK := 1, burstLength := 16, dataRate := 2, domains := (ddr4.power.domains.modify 0 fun d => { d with v := 1, i0 := 64, i3n := 32, i4r := 72, i4w := 96, iBeta := 64 }) },
  iface := { ddr4.iface with ranks := 1, devices := 1, bankGroups := 1, burstLength := 16, dataRate := 2 },
  wires := { ddr4.wires with tCK := 1, dataRate := 2 } }) [
    .core { t := 0, type := .ACT },
    .core { t := 5, type := .ACT, co := { bank := 1 } },
    .core { t := 10, type := .ACT, co := { bank := 2 } },
    .core { t := 15, type := .ACT, co := { bank := 3 } },
    .core { t := 20, type := .ACT, co := { bank := 4 } },
    .core { t := 25, type := .ACT, co := { bank := 5 } },
    .core { t := 30, type := .ACT, co := { bank := 6 } },
    .core { t := 35, type := .ACT, co := { bank := 7 } },
    .core { t := 35, type := .RD },
    .core { t := 40, type := .RD },
    .core { t := 40, type := .RD, co := { bank := 1 } },
    .core { t := 45, type := .RD },
    .core { t := 45, type := .RD, co := { bank := 2 } },
    .core { t := 50, type := .RD, co := { bank := 3 } },
    .core { t := 55, type := .RD, co := { bank := 4 } },
    .core { t := 60, type := .RD, co := { bank := 5 } },
    .core { t := 65, type := .RD, co := { bank := 6 } },
    .core { t := 70, type := .RD, co := { bank := 7 } },
    .core { t := 75, type := .RD, co := { bank := 7 } },
    .core { t := 80, type := .RD, co := { bank := 7 } },
    .core { t := 85, type := .WR, co := { bank := 7 } },
    .core { t := 90, type := .WR, co := { bank := 6 } },
    .core { t := 95, type := .WR, co := { bank := 5 } },
    .core { t := 100, type := .WR, co := { bank := 4 } },
    .core { t := 105, type := .WR, co := { bank := 3 } },
    .core { t := 110, type := .WR, co := { bank := 2 } },
    .core { t := 110, type := .WR },
    .core { t := 115, type := .WR, co := { bank := 1 } },
    .core { t := 115, type := .RD },
    .core { t := 120, type := .WR },
    .core { t := 120, type := .END_OF_SIMULATION },
    .coreEnergy 125]

def checks : List (Nat × Bool) := [
    (0, run0.ok),
    (129, (whole (run0.energies[0]!.aggregated.eRD : Rat) : Rat) == 4160),
    (130, (whole (run0.energies[0]!.bank[0]!.eRD : Rat) : Rat) == 1280),
    (131, (whole (run0.energies[0]!.bank[1]!.eRD : Rat) : Rat) == 320),
    (132, (whole (run0.energies[0]!.bank[2]!.eRD : Rat) : Rat) == 320),
    (133, (whole (run0.energies[0]!.bank[3]!.eRD : Rat) : Rat) == 320),
    (134, (whole (run0.energies[0]!.bank[4]!.eRD : Rat) : Rat) == 320),
    (135, (whole (run0.energies[0]!.bank[5]!.eRD : Rat) : Rat) == 320),
    (136, (whole (run0.energies[0]!.bank[6]!.eRD : Rat) : Rat) == 320),
    (137, (whole (run0.energies[0]!.bank[7]!.eRD : Rat) : Rat) == 960),
    (139, (whole (run0.energies[0]!.aggregated.eWR : Rat) : Rat) == 4608),
    (140, (whole (run0.energies[0]!.bank[0]!.eWR : Rat) : Rat) == 1024),
    (141, (whole (run0.energies[0]!.bank[1]!.eWR : Rat) : Rat) == 512),
    (142, (whole (run0.energies[0]!.bank[2]!.eWR : Rat) : Rat) == 512),
    (143, (whole (run0.energies[0]!.bank[3]!.eWR : Rat) : Rat) == 512),
    (144, (whole (run0.energies[0]!.bank[4]!.eWR : Rat) : Rat) == 512),
    (145, (whole (run0.energies[0]!.bank[5]!.eWR : Rat) : Rat) == 512),
    (146, (whole (run0.energies[0]!.bank[6]!.eWR : Rat) : Rat) == 512),
    (147, (whole (run0.energies[0]!.bank[7]!.eWR : Rat) : Rat) == 512)]

#guard failing checks == []

end ddr4_11.CalcEnergy

/-! ## tests/tests_drampower/core/DDR4/ddr4_test_pattern_12.cpp -/

namespace ddr4_12.Test

def run0 : Log := run .ddr4 ({ ddr4 with
  core := { ddr4.core with numberOfRanks := 1, numberOfBanks := 8, numberOfBankGroups := 1, tRAS := 20, tRP := 10, prechargeOffsetRD := 10, prechargeOffsetWR := 20 },
  power := { ddr4.power with ranks := 1, devices := 1, banks := 8, bankGroups := 1, tRAS := 20, tCK := 1, tRP := 10, rho := (333333333/1000000000), burstLength := 16, dataRate := 2, domains := (ddr4.power.domains.modify 0 fun d => { d with v := 1, i0 := 64, i2n := 8, i3n := 32, i4r := 72, i4w := 96, iBeta := 64 }) },
  iface := { ddr4.iface with bitWidth := 16, ranks := 1, devices := 1, bankGroups := 1, burstLength := 16, dataRate := 2 },
  wires := { ddr4.wires with bitWidth := 16, tCK := 1, dataRate := 2 } }) [
    .core { t := 0, type := .ACT },
    .core { t := 10, type := .RDA },
    .core { t := 15, type := .ACT, co := { bank := 1 } },
    .core { t := 15, type := .ACT, co := { bank := 2 } },
    .core { t := 25, type := .WRA, co := { bank := 1 } },
    .core { t := 30, type := .PRE },
    .core { t := 35, type := .RDA, co := { bank := 2 } },
    .core { t := 50, type := .ACT },
    .core { t := 50, type := .ACT, co := { bank := 2 } },
    .core { t := 60, type := .WRA },
    .core { t := 60, type := .RDA, co := { bank := 2 } },
    .core { t := 75, type := .ACT, co := { bank := 1 } },
    .core { t := 80, type := .ACT },
    .core { t := 85, type := .WRA },
    .core { t := 95, type := .RDA, co := { bank := 1 } },
    .core { t := 125, type := .END_OF_SIMULATION },
    .stats]

def checks : List (Nat × Bool) := [
    (0, run0.ok),
    (93, run0.stats[0]!.bank[0]!.counter.act == 3),
    (94, run0.stats[0]!.bank[1]!.counter.act == 2),
    (95, run0.stats[0]!.bank[2]!.counter.act == 2),
    (96, run0.stats[0]!.bank[3]!.counter.act == 0),
    (97, run0.stats[0]!.bank[4]!.counter.act == 0),
    (98, run0.stats[0]!.bank[5]!.counter.act == 0),
    (99, run0.stats[0]!.bank[6]!.counter.act == 0),
    (100, run0.stats[0]!.bank[7]!.counter.act == 0),
    (103, run0.stats[0]!.bank[0]!.counter.readAuto == 1),
    (104, run0.stats[0]!.bank[1]!.counter.readAuto == 1),
    (105, run0.stats[0]!.bank[2]!.counter.readAuto == 2),
    (106, run0.stats[0]!.bank[3]!.counter.readAuto == 0),
    (107, run0.stats[0]!.bank[4]!.counter.readAuto == 0),
    (108, run0.stats[0]!.bank[5]!.counter.readAuto == 0),
    (109, run0.stats[0]!.bank[6]!.counter.readAuto == 0),
    (110, run0.stats[0]!.bank[7]!.counter.readAuto == 0),
    (113, run0.stats[0]!.bank[0]!.counter.writeAuto == 2),
    (114, run0.stats[0]!.bank[1]!.counter.writeAuto == 1),
    (115, run0.stats[0]!.bank[2]!.counter.writeAuto == 0),
    (116, run0.stats[0]!.bank[3]!.counter.writeAuto == 0),
    (117, run0.stats[0]!.bank[4]!.counter.writeAuto == 0),
    (118, run0.stats[0]!.bank[5]!.counter.writeAuto == 0),
    (119, run0.stats[0]!.bank[6]!.counter.writeAuto == 0),
    (120, run0.stats[0]!.bank[7]!.counter.writeAuto == 0),
    (123, run0.stats[0]!.rankTotal[0]!.cycles.act == 100),
    (124, run0.stats[0]!.rankTotal[0]!.cycles.pre == 25),
    (127, run0.stats[0]!.bank[0]!.cycles.act == 75),
    (128, run0.stats[0]!.bank[1]!.cycles.act == 60),
    (129, run0.stats[0]!.bank[2]!.cycles.act == 50),
    (130, run0.stats[0]!.bank[3]!.cycles.act == 0),
    (131, run0.stats[0]!.bank[4]!.cycles.act == 0),
    (132, run0.stats[0]!.bank[5]!.cycles.act == 0),
    (133, run0.stats[0]!.bank[6]!.cycles.act == 0),
    (134, run0.stats[0]!.bank[7]!.cycles.act == 0),
    (137, run0.stats[0]!.bank[0]!.cycles.pre == 50),
    (138, run0.stats[0]!.bank[1]!.cycles.pre == 65),
    (139, run0.stats[0]!.bank[2]!.cycles.pre == 75),
    (140, run0.stats[0]!.bank[3]!.cycles.pre == 125),
    (141, run0.stats[0]!.bank[4]!.cycles.pre == 125),
    (142, run0.stats[0]!.bank[5]!.cycles.pre == 125),
    (143, run0.stats[0]!.bank[6]!.cycles.pre == 125),
    (144, run0.stats[0]!.bank[7]!.cycles.pre == 125)]

#guard failing checks == []

end ddr4_12.Test

namespace ddr4_12.CalcEnergy

def run0 : Log := run .ddr4 ({ ddr4 with
  core := { ddr4.core with numberOfRanks := 1, numberOfBanks := 8, numberOfBankGroups := 1, tRAS := 20, tRP := 10, prechargeOffsetRD := 10, prechargeOffsetWR := 20 },
  power := { ddr4.power with ranks := 1, devices := 1, banks := 8, bankGroups := 1, tRAS := 20, tCK := 1, tRP := 10, rho := (333333333/1000000000), burstLength := 16, dataRate := 2, domains := (ddr4.power.domains.modify 0 fun d => { d with v := 1, i0 := 64, i2n := 8, i3n := 32, i4r := 72, i4w := 96, iBeta := 64 }) },
  iface := { ddr4.iface with bitWidth := 16, ranks := 1, devices := 1, bankGroups := 1, burstLength := 16, dataRate := 2 },
  wires := { ddr4.wires with bitWidth := 16, tCK := 1, dataRate := 2 } }) [
    .core { t := 0, type := .ACT },
    .core { t := 10, type := .RDA },
    .core { t := 15, type := .ACT, co := { bank := 1 } },
    .core { t := 15, type := .ACT, co := { bank := 2 } },
    .core { t := 25, type := .WRA, co := { bank := 1 } },
    .core { t := 30, type := .PRE },
    .core { t := 35, type := .RDA, co := { bank := 2 } },
    .core { t := 50, type := .ACT },
    .core { t := 50, type := .ACT, co := { bank := 2 } },
    .core { t := 60, type := .WRA },
    .core { t := 60, type := .RDA, co := { bank := 2 } },
    .core { t := 75, type := .ACT, co := { bank := 1 } },
    .core { t := 80, type := .ACT },
    .core { t := 85, type := .WRA },
    .core { t := 95, type := .RDA, co := { bank := 1 } },
    .core { t := 125, type := .END_OF_SIMULATION },
    .coreEnergy 125]

def checks : List (Nat × Bool) := [
    (0, run0.ok),
    (161, (nearest (run0.energies[0]!.aggregated.eBgAct : Rat) : Rat) == 1970),
    (162, (nearest (run0.energies[0]!.shared.bgActShared : Rat) : Rat) == 1600),
    (163, (whole (run0.energies[0]!.bank[0]!.eBgAct : Rat) : Rat) == 150),
    (164, (whole (run0.energies[0]!.bank[1]!.eBgAct : Rat) : Rat) == 120),
    (165, (whole (run0.energies[0]!.bank[2]!.eBgAct : Rat) : Rat) == 100),
    (166, (whole (run0.energies[0]!.bank[3]!.eBgAct : Rat) : Rat) == 0),
    (167, (whole (run0.energies[0]!.bank[4]!.eBgAct : Rat) : Rat) == 0),
    (168, (whole (run0.energies[0]!.bank[5]!.eBgAct : Rat) : Rat) == 0),
    (169, (whole (run0.energies[0]!.bank[6]!.eBgAct : Rat) : Rat) == 0),
    (170, (whole (run0.energies[0]!.bank[7]!.eBgAct : Rat) : Rat) == 0),
    (172, (whole (run0.energies[0]!.aggregated.eBgPre : Rat) : Rat) == 200),
    (173, (whole (run0.energies[0]!.bank[0]!.eBgPre : Rat) : Rat) == 25),
    (174, (whole (run0.energies[0]!.bank[1]!.eBgPre : Rat) : Rat) == 25),
    (175, (whole (run0.energies[0]!.bank[2]!.eBgPre : Rat) : Rat) == 25),
    (176, (whole (run0.energies[0]!.bank[3]!.eBgPre : Rat) : Rat) == 25),
    (177, (whole (run0.energies[0]!.bank[4]!.eBgPre : Rat) : Rat) == 25),
    (178, (whole (run0.energies[0]!.bank[5]!.eBgPre : Rat) : Rat) == 25),
    (179, (whole (run0.energies[0]!.bank[6]!.eBgPre : Rat) : Rat) == 25),
    (180, (whole (run0.energies[0]!.bank[7]!.eBgPre : Rat) : Rat) == 25),
    (182, (whole (run0.energies[0]!.aggregated.eRDA : Rat) : Rat) == 1280),
    (183, (whole (run0.energies[0]!.bank[0]!.eRDA : Rat) : Rat) == 320),
    (184, (whole (run0.energies[0]!.bank[1]!.eRDA : Rat) : Rat) == 320),
    (185, (whole (run0.energies[0]!.bank[2]!.eRDA : Rat) : Rat) == 640),
    (186, (whole (run0.energies[0]!.bank[3]!.eRDA : Rat) : Rat) == 0),
    (187, (whole (run0.energies[0]!.bank[4]!.eRDA : Rat) : Rat) == 0),
    (188, (whole (run0.energies[0]!.bank[5]!.eRDA : Rat) : Rat) == 0),
    (189, (whole (run0.energies[0]!.bank[6]!.eRDA : Rat) : Rat) == 0),
    (190, (whole (run0.energies[0]!.bank[7]!.eRDA : Rat) : Rat) == 0),
    (192, (whole (run0.energies[0]!.aggregated.eWRA : Rat) : Rat) == 1536),
    (193, (whole (run0.energies[0]!.bank[0]!.eWRA : Rat) : Rat) == 1024),
    (194, (whole (run0.energies[0]!.bank[1]!.eWRA : Rat) : Rat) == 512),
    (195, (whole (run0.energies[0]!.bank[2]!.eWRA : Rat) : Rat) == 0),
    (196, (whole (run0.energies[0]!.bank[3]!.eWRA : Rat) : Rat) == 0),
    (197, (whole (run0.energies[0]!.bank[4]!.eWRA : Rat) : Rat) == 0),
    (198, (whole (run0.energies[0]!.bank[5]!.eWRA : Rat) : Rat) == 0),
    (199, (whole (run0.energies[0]!.bank[6]!.eWRA : Rat) : Rat) == 0),
    (200, (whole (run0.energies[0]!.bank[7]!.eWRA : Rat) : Rat) == 0),
    (202, (whole (run0.energies[0]!.aggregated.ePreRDA : Rat) : Rat) == 2240),
    (203, (whole (run0.energies[0]!.bank[0]!.ePreRDA : Rat) : Rat) == 560),
    (204, (whole (run0.energies[0]!.bank[1]!.ePreRDA : Rat) : Rat) == 560),
    (205, (whole (run0.energies[0]!.bank[2]!.ePreRDA : Rat) : Rat) == 1120),
    (206, (whole (run0.energies[0]!.bank[3]!.ePreRDA : Rat) : Rat) == 0),
    (207, (whole (run0.energies[0]!.bank[4]!.ePreRDA : Rat) : Rat) == 0),
    (208, (whole (run0.energies[0]!.bank[5]!.ePreRDA : Rat) : Rat) == 0),
    (209, (whole (run0.energies[0]!.bank[6]!.ePreRDA : Rat) : Rat) == 0),
    (210, (whole (run0.energies[0]!.bank[7]!.ePreRDA : Rat) : Rat) == 0),
    (212, (whole (run0.energies[0]!.aggregated.ePreWRA : Rat) : Rat) == 1680),
    (213, (whole (run0.energies[0]!.bank[0]!.ePreWRA : Rat) : Rat) == 1120),
    (214, (whole (run0.energies[0]!.bank[1]!.ePreWRA : Rat) : Rat) == 560),
    (215, (whole (run0.energies[0]!.bank[2]!.ePreWRA : Rat) : Rat) == 0),
    (216, (whole (run0.energies[0]!.bank[3]!.ePreWRA : Rat) : Rat) == 0),
    (217, (whole (run0.energies[0]!.bank[4]!.ePreWRA : Rat) : Rat) == 0),
    (218, (whole (run0.energies[0]!.bank[5]!.ePreWRA : Rat) : Rat) == 0),
    (219, (whole (run0.energies[0]!.bank[6]!.ePreWRA : Rat) : Rat) == 0),
    (220, (whole (run0.energies[0]!.bank[7]!.ePreWRA : Rat) : Rat) == 0)]

#guard failing checks == []

end ddr4_12.CalcEnergy

/-! ## tests/tests_drampower/core/DDR4/ddr4_test_pattern_13.cpp -/

namespace ddr4_13.Test

def run0 : Log := run .ddr4 ({ ddr4 with
  core := { ddr4.core with numberOfRanks := 1, numberOfBanks := 8, numberOfBankGroups := 1, tRAS := 20, tRP := 10 },
  power := { ddr4.power with ranks := 1, devices := 1, banks := 8, bankGroups := 1, tRAS := 20, tCK := 1, tRP := 10, rho := (333333333/1000000000), burstLength := 16, dataRate := 2, domains := (ddr4.power.domains.modify 0 fun d => { d with v := 1, i0 := 64, i2n := 8, i3n := 32, i4r := 72, i4w := 72, iBeta := 64 }) },
  iface := { ddr4.iface with ranks := 1, devices := 1, bankGroups := 1, burstLength := 16, dataRate := 2 },
  wires := { ddr4.wires with tCK := 1, dataRate := 2 } }) [
    .core { t := 0, type := .ACT },
    .core { t := 5, type := .ACT, co := { bank := 1 } },
    .core { t := 10, type := .ACT, co := { bank := 2 } },
    .core { t := 15, type := .PRE },
    .core { t := 20, type := .PREA },
    .core { t := 25, type := .PRE, co := { bank := 1 } },
    .core { t := 30, type := .PREA },
    .core { t := 40, type := .ACT },
    .core { t := 40, type := .ACT, co := { bank := 3 } },
    .core { t := 50, type := .PRE, co := { bank := 3 } },
    .core { t := 125, type := .END_OF_SIMULATION },
    .stats]

def checks : List (Nat × Bool) := [
    (0, run0.ok),
    (84, run0.stats[0]!.bank[0]!.counter.act == 2),
    (85, run0.stats[0]!.bank[1]!.counter.act == 1),
    (86, run0.stats[0]!.bank[2]!.counter.act == 1),
    (87, run0.stats[0]!.bank[3]!.counter.act == 1),
    (88, run0.stats[0]!.bank[4]!.counter.act == 0),
    (91, run0.stats[0]!.rankTotal[0]!.cycles.act == 105),
    (92, run0.stats[0]!.rankTotal[0]!.cycles.pre == 20),
    (95, run0.stats[0]!.bank[0]!.cycles.act == 100),
    (96, run0.stats[0]!.bank[1]!.cycles.act == 15),
    (97, run0.stats[0]!.bank[2]!.cycles.act == 10),
    (98, run0.stats[0]!.bank[3]!.cycles.act == 10),
    (99, run0.stats[0]!.bank[4]!.cycles.act == 0),
    (102, run0.stats[0]!.bank[0]!.cycles.pre == 25),
    (103, run0.stats[0]!.bank[1]!.cycles.pre == 110),
    (104, run0.stats[0]!.bank[2]!.cycles.pre == 115),
    (105, run0.stats[0]!.bank[3]!.cycles.pre == 115),
    (106, run0.stats[0]!.bank[4]!.cycles.pre == 125)]

#guard failing checks == []

end ddr4_13.Test

namespace ddr4_13.CalcEnergy

def run0 : Log := run .ddr4 ({ ddr4 with
  core := { ddr4.core with numberOfRanks := 1, numberOfBanks := 8, numberOfBankGroups := 1, tRAS := 20, tRP := 10 },
  power := { ddr4.power with ranks := 1, devices := 1, banks := 8, bankGroups := 1, tRAS := 20, tCK := 1, tRP := 10, rho := (333333333/1000000000), burstLength := 16, dataRate := 2, domains := (ddr4.power.domains.modify 0 fun d => { d with v := 1, i0 := 64, i2n := 8, i3n := 32, i4r := 72, i4w := 72, iBeta := 64 }) },
  iface := { ddr4.iface with ranks := 1, devices := 1, bankGroups := 1, burstLength := 16, dataRate := 2 },
  wires := { ddr4.wires with tCK := 1, dataRate := 2 } }) [
    .core { t := 0, type := .ACT },
    .core { t := 5, type := .ACT, co := { bank := 1 } },
    .core { t := 10, type := .ACT, co := { bank := 2 } },
    .core { t := 15, type := .PRE },
    .core { t := 20, type := .PREA },
    .core { t := 25, type := .PRE, co := { bank := 1 } },
    .core { t := 30, type := .PREA },
    .core { t := 40, type := .ACT },
    .core { t := 40, type := .ACT, co := { bank := 3 } },
    .core { t := 50, type := .PRE, co := { bank := 3 } },
    .core { t := 125, type := .END_OF_SIMULATION },
    .coreEnergy 125]

def checks : List (Nat × Bool) := [
    (0, run0.ok),
    (123, (whole (run0.energies[0]!.aggregated.eAct : Rat) : Rat) == 4600),
    (124, (whole (run0.energies[0]!.bank[0]!.eAct : Rat) : Rat) == 1840),
    (125, (whole (run0.energies[0]!.bank[1]!.eAct : Rat) : Rat) == 920),
    (126, (whole (run0.energies[0]!.bank[2]!.eAct : Rat) : Rat) == 920),
    (127, (whole (run0.energies[0]!.bank[3]!.eAct : Rat) : Rat) == 920),
    (128, (whole (run0.energies[0]!.bank[4]!.eAct : Rat) : Rat) == 0),
    (129, (whole (run0.energies[0]!.bank[5]!.eAct : Rat) : Rat) == 0),
    (130, (whole (run0.energies[0]!.bank[6]!.eAct : Rat) : Rat) == 0),
    (131, (whole (run0.energies[0]!.bank[7]!.eAct : Rat) : Rat) == 0),
    (133, (whole (run0.energies[0]!.aggregated.ePre : Rat) : Rat) == 2240),
    (134, (whole (run0.energies[0]!.bank[0]!.ePre : Rat) : Rat) == 560),
    (135, (whole (run0.energies[0]!.bank[1]!.ePre : Rat) : Rat) == 560),
    (136, (whole (run0.energies[0]!.bank[2]!.ePre : Rat) : Rat) == 560),
    (137, (whole (run0.energies[0]!.bank[3]!.ePre : Rat) : Rat) == 560),
    (138, (whole (run0.energies[0]!.bank[4]!.ePre : Rat) : Rat) == 0),
    (139, (whole (run0.energies[0]!.bank[5]!.ePre : Rat) : Rat) == 0),
    (140, (whole (run0.energies[0]!.bank[6]!.ePre : Rat) : Rat) == 0),
    (141, (whole (run0.energies[0]!.bank[7]!.ePre : Rat) : Rat) == 0),
    (143, (nearest (run0.energies[0]!.aggregated.eBgAct : Rat) : Rat) == 1950),
    (144, (nearest (run0.energies[0]!.shared.bgActShared : Rat) : Rat) == 1680),
    (145, (whole (run0.energies[0]!.bank[0]!.eBgAct : Rat) : Rat) == 200),
    (146, (whole (run0.energies[0]!.bank[1]!.eBgAct : Rat) : Rat) == 30),
    (147, (whole (run0.energies[0]!.bank[2]!.eBgAct : Rat) : Rat) == 20),
    (148, (whole (run0.energies[0]!.bank[3]!.eBgAct : Rat) : Rat) == 20),
    (149, (whole (run0.energies[0]!.bank[4]!.eBgAct : Rat) : Rat) == 0),
    (150, (whole (run0.energies[0]!.bank[5]!.eBgAct : Rat) : Rat) == 0),
    (151, (whole (run0.energies[0]!.bank[6]!.eBgAct : Rat) : Rat) == 0),
    (152, (whole (run0.energies[0]!.bank[7]!.eBgAct : Rat) : Rat) == 0),
    (154, (whole (run0.energies[0]!.aggregated.eBgPre : Rat) : Rat) == 160),
    (155, (whole (run0.energies[0]!.bank[0]!.eBgPre : Rat) : Rat) == 20),
    (156, (whole (run0.energies[0]!.bank[1]!.eBgPre : Rat) : Rat) == 20),
    (157, (whole (run0.energies[0]!.bank[2]!.eBgPre : Rat) : Rat) == 20),
    (158, (whole (run0.energies[0]!.bank[3]!.eBgPre : Rat) : Rat) == 20),
    (159, (whole (run0.energies[0]!.bank[4]!.eBgPre : Rat) : Rat) == 20),
    (160, (whole (run0.energies[0]!.bank[5]!.eBgPre : Rat) : Rat) == 20),
    (161, (whole (run0.energies[0]!.bank[6]!.eBgPre : Rat) : Rat) == 20),
    (162, (whole (run0.energies[0]!.bank[7]!.eBgPre : Rat) : Rat) == 20)]

#guard failing checks == []

end ddr4_13.CalcEnergy

/-! ## tests/tests_drampower/core/DDR4/ddr4_test_pattern_14.cpp -/

namespace ddr4_14.Test

def run0 : Log := run .ddr4 ({ ddr4 with
  core := { ddr4.core with numberOfRanks := 1, numberOfBanks := 8, numberOfBankGroups := 2, tRAS := 10, tRCD := 20, tRFC := 25, tRP := 20 },
  power := { ddr4.power with ranks := 1, devices := 1, banks := 8, bankGroups := 2, tRAS := 10, tRFC := 25, tRP := 20, tCK := 1, rho := (333333333/1000000000), burstLength := 16, dataRate := 2, domains := (ddr4.power.domains.modify 0 fun d => { d with v := 1, i0 := 64, i2n := 8, i2p := 6, i3n := 32, i3p := 20, i4r := 72, i4w := 72, iBeta := 64 }) },
  iface := { ddr4.iface with ranks := 1, devices := 1, bankGroups := 2, burstLength := 16, dataRate := 2 },
  wires := { ddr4.wires with tCK := 1, dataRate := 2 } }) [
    .core { t := 0, type := .ACT },
    .core { t := 20, type := .PDEA },
    .core { t := 30, type := .PDXA },
    .core { t := 40, type := .PRE },
    .core { t := 60, type := .PDEP },
    .core { t := 65, type := .PDXP },
    .core { t := 75, type := .REFA },
    .core { t := 100, type := .PDEP },
    .core { t := 125, type := .END_OF_SIMULATION },
    .stats]

def checks : List (Nat × Bool) := [
    (0, run0.ok),
    (84, run0.stats[0]!.bank[0]!.counter.act == 1),
    (87, run0.stats[0]!.bank[0]!.counter.pre == 1),
    (90, run0.stats[0]!.rankTotal[0]!.cycles.act == 55),
    (91, run0.stats[0]!.rankTotal[0]!.cycles.act == 55),
    (92, run0.stats[0]!.rankTotal[0]!.cycles.pre == 30),
    (93, run0.stats[0]!.rankTotal[0]!.cycles.powerDownAct == 10),
    (94, run0.stats[0]!.rankTotal[0]!.cycles.powerDownPre == 30),
    (97, run0.stats[0]!.bank[0]!.cycles.act == 55),
    (97, run0.stats[0]!.bank[0]!.cycles.act == 55),
    (98, run0.stats[0]!.bank[1]!.cycles.act == 25),
    (98, run0.stats[0]!.bank[1]!.cycles.act == 25),
    (99, run0.stats[0]!.bank[2]!.cycles.act == 25),
    (99, run0.stats[0]!.bank[2]!.cycles.act == 25),
    (100, run0.stats[0]!.bank[3]!.cycles.act == 25),
    (100, run0.stats[0]!.bank[3]!.cycles.act == 25),
    (101, run0.stats[0]!.bank[4]!.cycles.act == 25),
    (101, run0.stats[0]!.bank[4]!.cycles.act == 25),
    (102, run0.stats[0]!.bank[5]!.cycles.act == 25),
    (102, run0.stats[0]!.bank[5]!.cycles.act == 25),
    (103, run0.stats[0]!.bank[6]!.cycles.act == 25),
    (103, run0.stats[0]!.bank[6]!.cycles.act == 25),
    (104, run0.stats[0]!.bank[7]!.cycles.act == 25),
    (104, run0.stats[0]!.bank[7]!.cycles.act == 25),
    (107, run0.stats[0]!.bank[0]!.cycles.pre == 30),
    (108, run0.stats[0]!.bank[1]!.cycles.pre == 60),
    (109, run0.stats[0]!.bank[2]!.cycles.pre == 60),
    (110, run0.stats[0]!.bank[3]!.cycles.pre == 60),
    (111, run0.stats[0]!.bank[4]!.cycles.pre == 60),
    (112, run0.stats[0]!.bank[5]!.cycles.pre == 60),
    (113, run0.stats[0]!.bank[6]!.cycles.pre == 60),
    (114, run0.stats[0]!.bank[7]!.cycles.pre == 60)]

#guard failing checks == []

end ddr4_14.Test

namespace ddr4_14.CalcEnergy

def run0 : Log := run .ddr4 ({ ddr4 with
  core := { ddr4.core with numberOfRanks := 1, numberOfBanks := 8, numberOfBankGroups := 2, tRAS := 10, tRCD := 20, tRFC := 25, tRP := 20 },
  power := { ddr4.power with ranks := 1, devices := 1, banks := 8, bankGroups := 2, tRAS := 10, tRFC := 25, tRP := 20, tCK := 1, rho := (333333333/1000000000), burstLength := 16, dataRate := 2, domains := (ddr4.power.domains.modify 0 fun d => { d with v := 1, i0 := 64, i2n := 8, i2p := 6, i3n := 32, i3p := 20, i4r := 72, i4w := 72, iBeta := 64 }) },
  iface := { ddr4.iface with ranks := 1, devices := 1, bankGroups := 2, burstLength := 16, dataRate := 2 },
  wires := { ddr4.wires with tCK := 1, dataRate := 2 } }) [
    .core { t := 0, type := .ACT },
    .core { t := 20, type := .PDEA },
    .core { t := 30, type := .PDXA },
    .core { t := 40, type := .PRE },
    .core { t := 60, type := .PDEP },
    .core { t := 65, type := .PDXP },
    .core { t := 75, type := .REFA },
    .core { t := 100, type := .PDEP },
    .core { t := 125, type := .END_OF_SIMULATION },
    .coreEnergy 125]

def checks : List (Nat × Bool) := [
    (0, run0.ok),
    (131, (nearest (run0.energies[0]!.aggregated.eBgAct : Rat) : Rat) == 1340),
    (132, (nearest (run0.energies[0]!.shared.bgActShared : Rat) : Rat) == 880),
    (133, (whole (run0.energies[0]!.bank[0]!.eBgAct : Rat) : Rat) == 110),
    (134, (whole (run0.energies[0]!.bank[1]!.eBgAct : Rat) : Rat) == 50),
    (135, (whole (run0.energies[0]!.bank[2]!.eBgAct : Rat) : Rat) == 50),
    (136, (whole (run0.energies[0]!.bank[3]!.eBgAct : Rat) : Rat) == 50),
    (137, (whole (run0.energies[0]!.bank[4]!.eBgAct : Rat) : Rat) == 50),
    (138, (whole (run0.energies[0]!.bank[5]!.eBgAct : Rat) : Rat) == 50),
    (139, (whole (run0.energies[0]!.bank[6]!.eBgAct : Rat) : Rat) == 50),
    (140, (whole (run0.energies[0]!.bank[7]!.eBgAct : Rat) : Rat) == 50),
    (142, (whole (run0.energies[0]!.aggregated.eBgPre : Rat) : Rat) == 240),
    (143, (whole (run0.energies[0]!.bank[0]!.eBgPre : Rat) : Rat) == 30),
    (144, (whole (run0.energies[0]!.bank[1]!.eBgPre : Rat) : Rat) == 30),
    (145, (whole (run0.energies[0]!.bank[2]!.eBgPre : Rat) : Rat) == 30),
    (146, (whole (run0.energies[0]!.bank[3]!.eBgPre : Rat) : Rat) == 30),
    (147, (whole (run0.energies[0]!.bank[4]!.eBgPre : Rat) : Rat) == 30),
    (148, (whole (run0.energies[0]!.bank[5]!.eBgPre : Rat) : Rat) == 30),
    (149, (whole (run0.energies[0]!.bank[6]!.eBgPre : Rat) : Rat) == 30),
    (150, (whole (run0.energies[0]!.bank[7]!.eBgPre : Rat) : Rat) == 30),
    (152, (whole (run0.energies[0]!.shared.pdnA : Rat) : Rat) == 200),
    (153, (whole (run0.energies[0]!.shared.pdnP : Rat) : Rat) == 180)]

#guard failing checks == []

end ddr4_14.CalcEnergy

/-! ## tests/tests_drampower/core/DDR4/ddr4_test_pattern_15.cpp -/

namespace ddr4_15.Test

def run0 : Log := run .ddr4 ({ ddr4 with
  core := { ddr4.core with numberOfRanks := 1, numberOfBanks := 8, numberOfBankGroups := 2, tRAS := 10, tRCD := 20, tRFC := 25, tRP := 20 },
  power := { ddr4.power with ranks := 1, devices := 1, banks := 8, bankGroups := 2, tRAS := 10, tRFC := 25, tRP := 20, tCK := 1, rho := (333333333/1000000000), burstLength := 16, dataRate := 2, domains := (ddr4.power.domains.modify 0 fun d => { d with v := 1, i0 := 64, i2n := 8, i2p := 6, i3n := 32, i3p := 20, i4r := 72, i4w := 72, iBeta := 64 }) },
  iface := { ddr4.iface with bitWidth := 16, ranks := 1, devices := 1, bankGroups := 2, burstLength := 16, dataRate := 2 },
  wires := { ddr4.wires with bitWidth := 16, tCK := 1, dataRate := 2 } }) [
    .core { t := 0, type := .ACT },
    .core { t := 5, type := .PDEA },
    .core { t := 30, type := .PDXA },
    .core { t := 40, type := .PRE },
    .core { t := 45, type := .PDEP },
    .core { t := 65, type := .PDXP },
    .core { t := 75, type := .REFA },
    .core { t := 85, type := .PDEP },
    .core { t := 90, type := .PDXP },
    .core { t := 125, type := .END_OF_SIMULATION },
    .stats]

def checks : List (Nat × Bool) := [
    (0, run0.ok),
    (86, run0.stats[0]!.bank[0]!.counter.act == 1),
    (89, run0.stats[0]!.bank[0]!.counter.pre == 1),
    (92, run0.stats[0]!.rankTotal[0]!.cycles.act == 55),
    (93, run0.stats[0]!.rankTotal[0]!.cycles.pre == 55),
    (94, run0.stats[0]!.rankTotal[0]!.cycles.powerDownAct == 10),
    (95, run0.stats[0]!.rankTotal[0]!.cycles.powerDownPre == 5),
    (98, run0.stats[0]!.bank[0]!.cycles.act == 55),
    (99, run0.stats[0]!.bank[1]!.cycles.act == 25),
    (100, run0.stats[0]!.bank[2]!.cycles.act == 25),
    (101, run0.stats[0]!.bank[3]!.cycles.act == 25),
    (102, run0.stats[0]!.bank[4]!.cycles.act == 25),
    (103, run0.stats[0]!.bank[5]!.cycles.act == 25),
    (104, run0.stats[0]!.bank[6]!.cycles.act == 25),
    (105, run0.stats[0]!.bank[7]!.cycles.act == 25),
    (108, run0.stats[0]!.bank[0]!.cycles.pre == 55),
    (109, run0.stats[0]!.bank[1]!.cycles.pre == 85),
    (110, run0.stats[0]!.bank[2]!.cycles.pre == 85),
    (111, run0.stats[0]!.bank[3]!.cycles.pre == 85),
    (112, run0.stats[0]!.bank[4]!.cycles.pre == 85),
    (113, run0.stats[0]!.bank[5]!.cycles.pre == 85),
    (114, run0.stats[0]!.bank[6]!.cycles.pre == 85),
    (115, run0.stats[0]!.bank[7]!.cycles.pre == 85)]

#guard failing checks == []

end ddr4_15.Test

namespace ddr4_15.CalcWindow

def run0 : Log := run .ddr4 ({ ddr4 with
  core := { ddr4.core with numberOfRanks := 1, numberOfBanks := 8, numberOfBankGroups := 2, tRAS := 10, tRCD := 20, tRFC := 25, tRP := 20 },
  power := { ddr4.power with ranks := 1, devices := 1, banks := 8, bankGroups := 2, tRAS := 10, tRFC := 25, tRP := 20, tCK := 1, rho := (333333333/1000000000), burstLength := 16, dataRate := 2, domains := (ddr4.power.domains.modify 0 fun d => { d with v := 1, i0 := 64, i2n := 8, i2p := 6, i3n := 32, i3p := 20, i4r := 72, i4w := 72, iBeta := 64 }) },
  iface := { ddr4.iface with bitWidth := 16, ranks := 1, devices := 1, bankGroups := 2, burstLength := 16, dataRate := 2 },
  wires := { ddr4.wires with bitWidth := 16, tCK := 1, dataRate := 2 } }) [
    .core { t := 0, type := .ACT },
    .core { t := 5, type := .PDEA },
    .window 5,
    .window 10,
    .window 15,
    .window 20,
    .window 25,
    .core { t := 30, type := .PDXA },
    .window 30,
    .window 35,
    .core { t := 40, type := .PRE },
    .window 40,
    .core { t := 45, type := .PDEP },
    .window 45,
    .window 50,
    .window 55,
    .window 60,
    .core { t := 65, type := .PDXP },
    .window 65,
    .window 70,
    .core { t := 75, type := .REFA },
    .window 75,
    .window 80,
    .core { t := 85, type := .PDEP },
    .window 85,
    .core { t := 90, type := .PDXP },
    .window 90,
    .window 95,
    .window 100,
    .window 105,
    .window 110,
    .window 115,
    .window 120,
    .core { t := 125, type := .END_OF_SIMULATION },
    .window 125]

def checks : List (Nat × Bool) := [
    (0, run0.ok),
    (136, run0.stats[0]!.rankTotal[0]!.cycles.act == 5),
    (137, run0.stats[0]!.bank[0]!.cycles.act == 5),
    (137, run0.stats[0]!.bank[0]!.cycles.pre == 0),
    (138, run0.stats[0]!.bank[1]!.cycles.act == 0),
    (138, run0.stats[0]!.bank[1]!.cycles.pre == 5),
    (142, run0.stats[1]!.rankTotal[0]!.cycles.act == 10),
    (143, run0.stats[1]!.bank[0]!.cycles.act == 10),
    (143, run0.stats[1]!.bank[0]!.cycles.pre == 0),
    (144, run0.stats[1]!.bank[1]!.cycles.act == 0),
    (144, run0.stats[1]!.bank[1]!.cycles.pre == 10),
    (148, run0.stats[2]!.rankTotal[0]!.cycles.act == 15),
    (149, run0.stats[2]!.bank[0]!.cycles.act == 15),
    (149, run0.stats[2]!.bank[0]!.cycles.pre == 0),
    (150, run0.stats[2]!.bank[1]!.cycles.act == 0),
    (150, run0.stats[2]!.bank[1]!.cycles.pre == 15),
    (154, run0.stats[3]!.rankTotal[0]!.cycles.act == 20),
    (155, run0.stats[3]!.bank[0]!.cycles.act == 20),
    (155, run0.stats[3]!.bank[0]!.cycles.pre == 0),
    (156, run0.stats[3]!.bank[1]!.cycles.act == 0),
    (156, run0.stats[3]!.bank[1]!.cycles.pre == 20),
    (160, run0.stats[4]!.rankTotal[0]!.cycles.act == 20),
    (161, run0.stats[4]!.rankTotal[0]!.cycles.powerDownAct == 5),
    (162, run0.stats[4]!.bank[0]!.cycles.act == 20),
    (162, run0.stats[4]!.bank[0]!.cycles.pre == 0),
    (163, run0.stats[4]!.bank[1]!.cycles.act == 0),
    (163, run0.stats[4]!.bank[1]!.cycles.pre == 20),
    (167, run0.stats[5]!.rankTotal[0]!.cycles.act == 20),
    (168, run0.stats[5]!.rankTotal[0]!.cycles.powerDownAct == 10),
    (169, run0.stats[5]!.bank[0]!.cycles.act == 20),
    (169, run0.stats[5]!.bank[0]!.cycles.pre == 0),
    (170, run0.stats[5]!.bank[1]!.cycles.act == 0),
    (170, run0.stats[5]!.bank[1]!.cycles.pre == 20),
    (174, run0.stats[6]!.rankTotal[0]!.cycles.act == 25),
    (175, run0.stats[6]!.rankTotal[0]!.cycles.powerDownAct == 10),
    (176, run0.stats[6]!.bank[0]!.cycles.act == 25),
    (176, run0.stats[6]!.bank[0]!.cycles.pre == 0),
    (177, run0.stats[6]!.bank[1]!.cycles.act == 0),
    (177, run0.stats[6]!.bank[1]!.cycles.pre == 25),
    (181, run0.stats[7]!.rankTotal[0]!.cycles.act == 30),
    (182, run0.stats[7]!.rankTotal[0]!.cycles.powerDownAct == 10),
    (183, run0.stats[7]!.bank[0]!.cycles.act == 30),
    (183, run0.stats[7]!.bank[0]!.cycles.pre == 0),
    (184, run0.stats[7]!.bank[1]!.cycles.act == 0),
    (184, run0.stats[7]!.bank[1]!.cycles.pre == 30),
    (188, run0.stats[8]!.rankTotal[0]!.cycles.act == 30),
    (188, run0.stats[8]!.rankTotal[0]!.cycles.pre == 5),
    (189, run0.stats[8]!.rankTotal[0]!.cycles.powerDownAct == 10),
    (190, run0.stats[8]!.bank[0]!.cycles.act == 30),
    (190, run0.stats[8]!.bank[0]!.cycles.pre == 5),
    (191, run0.stats[8]!.bank[1]!.cycles.act == 0),
    (191, run0.stats[8]!.bank[1]!.cycles.pre == 35),
    (195, run0.stats[9]!.rankTotal[0]!.cycles.act == 30),
    (195, run0.stats[9]!.rankTotal[0]!.cycles.pre == 10),
    (196, run0.stats[9]!.rankTotal[0]!.cycles.powerDownAct == 10),
    (197, run0.stats[9]!.bank[0]!.cycles.act == 30),
    (197, run0.stats[9]!.bank[0]!.cycles.pre == 10),
    (198, run0.stats[9]!.bank[1]!.cycles.act == 0),
    (198, run0.stats[9]!.bank[1]!.cycles.pre == 40),
    (202, run0.stats[10]!.rankTotal[0]!.cycles.act == 30),
    (202, run0.stats[10]!.rankTotal[0]!.cycles.pre == 15),
    (203, run0.stats[10]!.rankTotal[0]!.cycles.powerDownAct == 10),
    (204, run0.stats[10]!.bank[0]!.cycles.act == 30),
    (204, run0.stats[10]!.bank[0]!.cycles.pre == 15),
    (205, run0.stats[10]!.bank[1]!.cycles.act == 0),
    (205, run0.stats[10]!.bank[1]!.cycles.pre == 45),
    (209, run0.stats[11]!.rankTotal[0]!.cycles.act == 30),
    (209, run0.stats[11]!.rankTotal[0]!.cycles.pre == 20),
    (210, run0.stats[11]!.rankTotal[0]!.cycles.powerDownAct == 10),
    (211, run0.stats[11]!.bank[0]!.cycles.act == 30),
    (211, run0.stats[11]!.bank[0]!.cycles.pre == 20),
    (212, run0.stats[11]!.bank[1]!.cycles.act == 0),
    (212, run0.stats[11]!.bank[1]!.cycles.pre == 50),
    (216, run0.stats[12]!.rankTotal[0]!.cycles.act == 30),
    (216, run0.stats[12]!.rankTotal[0]!.cycles.pre == 20),
    (217, run0.stats[12]!.rankTotal[0]!.cycles.powerDownAct == 10),
    (217, run0.stats[12]!.rankTotal[0]!.cycles.powerDownPre == 5),
    (218, run0.stats[12]!.bank[0]!.cycles.act == 30),
    (218, run0.stats[12]!.bank[0]!.cycles.pre == 20),
    (219, run0.stats[12]!.bank[1]!.cycles.act == 0),
    (219, run0.stats[12]!.bank[1]!.cycles.pre == 50),
    (223, run0.stats[13]!.rankTotal[0]!.cycles.act == 30),
    (223, run0.stats[13]!.rankTotal[0]!.cycles.pre == 25),
    (224, run0.stats[13]!.rankTotal[0]!.cycles.powerDownAct == 10),
    (224, run0.stats[13]!.rankTotal[0]!.cycles.powerDownPre == 5),
    (225, run0.stats[13]!.bank[0]!.cycles.act == 30),
    (225, run0.stats[13]!.bank[0]!.cycles.pre == 25),
    (226, run0.stats[13]!.bank[1]!.cycles.act == 0),
    (226, run0.stats[13]!.bank[1]!.cycles.pre == 55),
    (230, run0.stats[14]!.rankTotal[0]!.cycles.act == 30),
    (230, run0.stats[14]!.rankTotal[0]!.cycles.pre == 30),
    (231, run0.stats[14]!.rankTotal[0]!.cycles.powerDownAct == 10),
    (231, run0.stats[14]!.rankTotal[0]!.cycles.powerDownPre == 5),
    (232, run0.stats[14]!.bank[0]!.cycles.act == 30),
    (232, run0.stats[14]!.bank[0]!.cycles.pre == 30),
    (233, run0.stats[14]!.bank[1]!.cycles.act == 0),
    (233, run0.stats[14]!.bank[1]!.cycles.pre == 60),
    (237, run0.stats[15]!.rankTotal[0]!.cycles.act == 35),
    (237, run0.stats[15]!.rankTotal[0]!.cycles.pre == 30),
    (238, run0.stats[15]!.rankTotal[0]!.cycles.powerDownAct == 10),
    (238, run0.stats[15]!.rankTotal[0]!.cycles.powerDownPre == 5),
    (239, run0.stats[15]!.bank[0]!.cycles.act == 35),
    (239, run0.stats[15]!.bank[0]!.cycles.pre == 30),
    (240, run0.stats[15]!.bank[1]!.cycles.act == 5),
    (240, run0.stats[15]!.bank[1]!.cycles.pre == 60),
    (244, run0.stats[16]!.rankTotal[0]!.cycles.act == 40),
    (244, run0.stats[16]!.rankTotal[0]!.cycles.pre == 30),
    (245, run0.stats[16]!.rankTotal[0]!.cycles.powerDownAct == 10),
    (245, run0.stats[16]!.rankTotal[0]!.cycles.powerDownPre == 5),
    (246, run0.stats[16]!.bank[0]!.cycles.act == 40),
    (246, run0.stats[16]!.bank[0]!.cycles.pre == 30),
    (247, run0.stats[16]!.bank[1]!.cycles.act == 10),
    (247, run0.stats[16]!.bank[1]!.cycles.pre == 60),
    (251, run0.stats[17]!.rankTotal[0]!.cycles.act == 45),
    (251, run0.stats[17]!.rankTotal[0]!.cycles.pre == 30),
    (252, run0.stats[17]!.rankTotal[0]!.cycles.powerDownAct == 10),
    (252, run0.stats[17]!.rankTotal[0]!.cycles.powerDownPre == 5),
    (253, run0.stats[17]!.bank[0]!.cycles.act == 45),
    (253, run0.stats[17]!.bank[0]!.cycles.pre == 30),
    (254, run0.stats[17]!.bank[1]!.cycles.act == 15),
    (254, run0.stats[17]!.bank[1]!.cycles.pre == 60),
    (258, run0.stats[18]!.rankTotal[0]!.cycles.act == 50),
    (258, run0.stats[18]!.rankTotal[0]!.cycles.pre == 30),
    (259, run0.stats[18]!.rankTotal[0]!.cycles.powerDownAct == 10),
    (259, run0.stats[18]!.rankTotal[0]!.cycles.powerDownPre == 5),
    (260, run0.stats[18]!.bank[0]!.cycles.act == 50),
    (260, run0.stats[18]!.bank[0]!.cycles.pre == 30),
    (261, run0.stats[18]!.bank[1]!.cycles.act == 20),
    (261, run0.stats[18]!.bank[1]!.cycles.pre == 60),
    (265, run0.stats[19]!.rankTotal[0]!.cycles.act == 55),
    (265, run0.stats[19]!.rankTotal[0]!.cycles.pre == 30),
    (266, run0.stats[19]!.rankTotal[0]!.cycles.powerDownAct == 10),
    (266, run0.stats[19]!.rankTotal[0]!.cycles.powerDownPre == 5),
    (267, run0.stats[19]!.bank[0]!.cycles.act == 55),
    (267, run0.stats[19]!.bank[0]!.cycles.pre == 30),
    (268, run0.stats[19]!.bank[1]!.cycles.act == 25),
    (268, run0.stats[19]!.bank[1]!.cycles.pre == 60),
    (272, run0.stats[20]!.rankTotal[0]!.cycles.act == 55),
    (272, run0.stats[20]!.rankTotal[0]!.cycles.pre == 35),
    (273, run0.stats[20]!.rankTotal[0]!.cycles.powerDownAct == 10),
    (273, run0.stats[20]!.rankTotal[0]!.cycles.powerDownPre == 5),
    (274, run0.stats[20]!.bank[0]!.cycles.act == 55),
    (274, run0.stats[20]!.bank[0]!.cycles.pre == 35),
    (275, run0.stats[20]!.bank[1]!.cycles.act == 25),
    (275, run0.stats[20]!.bank[1]!.cycles.pre == 65),
    (279, run0.stats[21]!.rankTotal[0]!.cycles.act == 55),
    (279, run0.stats[21]!.rankTotal[0]!.cycles.pre == 40),
    (280, run0.stats[21]!.rankTotal[0]!.cycles.powerDownAct == 10),
    (280, run0.stats[21]!.rankTotal[0]!.cycles.powerDownPre == 5),
    (281, run0.stats[21]!.bank[0]!.cycles.act == 55),
    (281, run0.stats[21]!.bank[0]!.cycles.pre == 40),
    (282, run0.stats[21]!.bank[1]!.cycles.act == 25),
    (282, run0.stats[21]!.bank[1]!.cycles.pre == 70),
    (286, run0.stats[22]!.rankTotal[0]!.cycles.act == 55),
    (286, run0.stats[22]!.rankTotal[0]!.cycles.pre == 45),
    (287, run0.stats[22]!.rankTotal[0]!.cycles.powerDownAct == 10),
    (287, run0.stats[22]!.rankTotal[0]!.cycles.powerDownPre == 5),
    (288, run0.stats[22]!.bank[0]!.cycles.act == 55),
    (288, run0.stats[22]!.bank[0]!.cycles.pre == 45),
    (289, run0.stats[22]!.bank[1]!.cycles.act == 25),
    (289, run0.stats[22]!.bank[1]!.cycles.pre == 75),
    (293, run0.stats[23]!.rankTotal[0]!.cycles.act == 55),
    (293, run0.stats[23]!.rankTotal[0]!.cycles.pre == 50),
    (294, run0.stats[23]!.rankTotal[0]!.cycles.powerDownAct == 10),
    (294, run0.stats[23]!.rankTotal[0]!.cycles.powerDownPre == 5),
    (295, run0.stats[23]!.bank[0]!.cycles.act == 55),
    (295, run0.stats[23]!.bank[0]!.cycles.pre == 50),
    (296, run0.stats[23]!.bank[1]!.cycles.act == 25),
    (296, run0.stats[23]!.bank[1]!.cycles.pre == 80),
    (300, run0.stats[24]!.rankTotal[0]!.cycles.act == 55),
    (300, run0.stats[24]!.rankTotal[0]!.cycles.pre == 55),
    (301, run0.stats[24]!.rankTotal[0]!.cycles.powerDownAct == 10),
    (301, run0.stats[24]!.rankTotal[0]!.cycles.powerDownPre == 5),
    (302, run0.stats[24]!.bank[0]!.cycles.act == 55),
    (302, run0.stats[24]!.bank[0]!.cycles.pre == 55),
    (303, run0.stats[24]!.bank[1]!.cycles.act == 25),
    (303, run0.stats[24]!.bank[1]!.cycles.pre == 85)]

#guard failing checks == []

end ddr4_15.CalcWindow

namespace ddr4_15.CalcEnergy

def run0 : Log := run .ddr4 ({ ddr4 with
  core := { ddr4.core with numberOfRanks := 1, numberOfBanks := 8, numberOfBankGroups := 2, tRAS := 10, tRCD := 20, tRFC := 25, tRP := 20 },
  power := { ddr4.power with ranks := 1, devices := 1, banks := 8, bankGroups := 2, tRAS := 10, tRFC := 25, tRP := 20, tCK := 1, rho := (333333333/1000000000), burstLength := 16, dataRate := 2, domains := (ddr4.power.domains.modify 0 fun d => { d with v := 1, i0 := 64, i2n := 8, i2p := 6, i3n := 32, i3p := 20, i4r := 72, i4w := 72, iBeta := 64 }) },
  iface := { ddr4.iface with bitWidth := 16, ranks := 1, devices := 1, bankGroups := 2, burstLength := 16, dataRate := 2 },
  wires := { ddr4.wires with bitWidth := 16, tCK := 1, dataRate := 2 } }) [
    .core { t := 0, type := .ACT },
    .core { t := 5, type := .PDEA },
    .core { t := 30, type := .PDXA },
    .core { t := 40, type := .PRE },
    .core { t := 45, type := .PDEP },
    .core { t := 65, type := .PDXP },
    .core { t := 75, type := .REFA },
    .core { t := 85, type := .PDEP },
    .core { t := 90, type := .PDXP },
    .core { t := 125, type := .END_OF_SIMULATION },
    .coreEnergy 125]

def checks : List (Nat × Bool) := [
    (0, run0.ok),
    (322, (nearest (run0.energies[0]!.aggregated.eBgAct : Rat) : Rat) == 1340),
    (323, (nearest (run0.energies[0]!.shared.bgActShared : Rat) : Rat) == 880),
    (324, (whole (run0.energies[0]!.bank[0]!.eBgAct : Rat) : Rat) == 110),
    (325, (whole (run0.energies[0]!.bank[1]!.eBgAct : Rat) : Rat) == 50),
    (326, (whole (run0.energies[0]!.bank[2]!.eBgAct : Rat) : Rat) == 50),
    (327, (whole (run0.energies[0]!.bank[3]!.eBgAct : Rat) : Rat) == 50),
    (328, (whole (run0.energies[0]!.bank[4]!.eBgAct : Rat) : Rat) == 50),
    (329, (whole (run0.energies[0]!.bank[5]!.eBgAct : Rat) : Rat) == 50),
    (330, (whole (run0.energies[0]!.bank[6]!.eBgAct : Rat) : Rat) == 50),
    (331, (whole (run0.energies[0]!.bank[7]!.eBgAct : Rat) : Rat) == 50),
    (333, (whole (run0.energies[0]!.aggregated.eBgPre : Rat) : Rat) == 440),
    (334, (whole (run0.energies[0]!.bank[0]!.eBgPre : Rat) : Rat) == 55),
    (335, (whole (run0.energies[0]!.bank[1]!.eBgPre : Rat) : Rat) == 55),
    (336, (whole (run0.energies[0]!.bank[2]!.eBgPre : Rat) : Rat) == 55),
    (337, (whole (run0.energies[0]!.bank[3]!.eBgPre : Rat) : Rat) == 55),
    (338, (whole (run0.energies[0]!.bank[4]!.eBgPre : Rat) : Rat) == 55),
    (339, (whole (run0.energies[0]!.bank[5]!.eBgPre : Rat) : Rat) == 55),
    (340, (whole (run0.energies[0]!.bank[6]!.eBgPre : Rat) : Rat) == 55),
    (341, (whole (run0.energies[0]!.bank[7]!.eBgPre : Rat) : Rat) == 55),
    (343, (whole (run0.energies[0]!.shared.pdnA : Rat) : Rat) == 200),
    (344, (whole (run0.energies[0]!.shared.pdnP : Rat) : Rat) == 30)]

#guard failing checks == []

end ddr4_15.CalcEnergy

/-! ## tests/tests_drampower/base/test_pattern_pre_cycles.cpp -/

namespace test_pattern_pre_cycles.Test

def run0 : Log := run .ddr4 ({ ddr4 with
  core := { ddr4.core with numberOfRanks := 1, numberOfBanks := 2, numberOfBankGroups := 2, tRAS := 10, tRCD := 20, tRFC := 10, tRP := 20 },
  power := { ddr4.power with ranks := 1, banks := 2, bankGroups := 2, tRAS := 10, tRFC := 10, tRP := 20, tCK := 1, rho := (333333333/1000000000), burstLength := 16, dataRate := 2, domains := (ddr4.power.domains.modify 0 fun d => { d with v := 1, i0 := 64, i2n := 8, i2p := 6, i3n := 32, i3p := 20, i4r := 72, i4w := 72 }) },
  iface := { ddr4.iface with ranks := 1, bankGroups := 2, burstLength := 16, dataRate := 2 },
  wires := { ddr4.wires with tCK := 1, dataRate := 2 } }) [
    .core { t := 0, type := .ACT },
    .core { t := 30, type := .PDEA },
    .core { t := 40, type := .PDXA },
    .core { t := 70, type := .PRE },
    .core { t := 80, type := .ACT, co := { bank := 1 } },
    .core { t := 90, type := .PRE, co := { bank := 1 } },
    .core { t := 100, type := .END_OF_SIMULATION },
    .stats]

def checks : List (Nat × Bool) := [
    (0, run0.ok),
    (87, run0.stats[0]!.bank[0]!.cycles.act == 60),
    (88, run0.stats[0]!.bank[1]!.cycles.act == 10),
    (91, run0.stats[0]!.bank[0]!.cycles.pre == 30),
    (92, run0.stats[0]!.bank[1]!.cycles.pre == 80),
    (95, run0.stats[0]!.rankTotal[0]!.cycles.act == 70),
    (96, run0.stats[0]!.rankTotal[0]!.cycles.pre == 20)]

#guard failing checks == []

end test_pattern_pre_cycles.Test

namespace test_pattern_pre_cycles.Test_Detailed

def run0 : Log := run .ddr4 ({ ddr4 with
  core := { ddr4.core with numberOfRanks := 1, numberOfBanks := 2, numberOfBankGroups := 2, tRAS := 10, tRCD := 20, tRFC := 10, tRP := 20 },
  power := { ddr4.power with ranks := 1, banks := 2, bankGroups := 2, tRAS := 10, tRFC := 10, tRP := 20, tCK := 1, rho := (333333333/1000000000), burstLength := 16, dataRate := 2, domains := (ddr4.power.domains.modify 0 fun d => { d with v := 1, i0 := 64, i2n := 8, i2p := 6, i3n := 32, i3p := 20, i4r := 72, i4w := 72 }) },
  iface := { ddr4.iface with ranks := 1, bankGroups := 2, burstLength := 16, dataRate := 2 },
  wires := { ddr4.wires with tCK := 1, dataRate := 2 } }) [
    .core { t := 0, type := .ACT },
    .window 5,
    .window 10,
    .core { t := 30, type := .PDEA },
    .window 30,
    .window 35,
    .core { t := 40, type := .PDXA },
    .window 40]

def checks : List (Nat × Bool) := [
    (0, run0.ok),
    (114, run0.stats[0]!.rankTotal[0]!.cycles.act == 5),
    (114, run0.stats[0]!.rankTotal[0]!.cycles.pre == 0),
    (115, run0.stats[0]!.bank[0]!.cycles.act == 5),
    (115, run0.stats[0]!.bank[0]!.cycles.pre == 0),
    (116, run0.stats[0]!.bank[1]!.cycles.act == 0),
    (116, run0.stats[0]!.bank[1]!.cycles.pre == 5),
    (117, run0.stats[0]!.rankTotal[0]!.cycles.powerDownAct == 0),
    (117, run0.stats[0]!.rankTotal[0]!.cycles.powerDownPre == 0),
    (121, run0.stats[1]!.rankTotal[0]!.cycles.act == 10),
    (121, run0.stats[1]!.rankTotal[0]!.cycles.pre == 0),
    (122, run0.stats[1]!.bank[0]!.cycles.act == 10),
    (122, run0.stats[1]!.bank[0]!.cycles.pre == 0),
    (123, run0.stats[1]!.bank[1]!.cycles.act == 0),
    (123, run0.stats[1]!.bank[1]!.cycles.pre == 10),
    (124, run0.stats[1]!.rankTotal[0]!.cycles.powerDownAct == 0),
    (124, run0.stats[1]!.rankTotal[0]!.cycles.powerDownPre == 0),
    (128, run0.stats[2]!.rankTotal[0]!.cycles.act == 30),
    (128, run0.stats[2]!.rankTotal[0]!.cycles.pre == 0),
    (129, run0.stats[2]!.bank[0]!.cycles.act == 30),
    (129, run0.stats[2]!.bank[0]!.cycles.pre == 0),
    (130, run0.stats[2]!.bank[1]!.cycles.act == 0),
    (130, run0.stats[2]!.bank[1]!.cycles.pre == 30),
    (131, run0.stats[2]!.rankTotal[0]!.cycles.powerDownAct == 0),
    (131, run0.stats[2]!.rankTotal[0]!.cycles.powerDownPre == 0),
    (135, run0.stats[3]!.rankTotal[0]!.cycles.act == 30),
    (135, run0.stats[3]!.rankTotal[0]!.cycles.pre == 0),
    (136, run0.stats[3]!.bank[0]!.cycles.act == 30),
    (136, run0.stats[3]!.bank[0]!.cycles.pre == 0),
    (137, run0.stats[3]!.bank[1]!.cycles.act == 0),
    (137, run0.stats[3]!.bank[1]!.cycles.pre == 30),
    (138, run0.stats[3]!.rankTotal[0]!.cycles.powerDownAct == 5),
    (138, run0.stats[3]!.rankTotal[0]!.cycles.powerDownPre == 0),
    (142, run0.stats[4]!.rankTotal[0]!.cycles.act == 30),
    (142, run0.stats[4]!.rankTotal[0]!.cycles.pre == 0),
    (143, run0.stats[4]!.bank[0]!.cycles.act == 30),
    (143, run0.stats[4]!.bank[0]!.cycles.pre == 0),
    (144, run0.stats[4]!.bank[1]!.cycles.act == 0),
    (144, run0.stats[4]!.bank[1]!.cycles.pre == 30),
    (145, run0.stats[4]!.rankTotal[0]!.cycles.powerDownAct == 10),
    (145, run0.stats[4]!.rankTotal[0]!.cycles.powerDownPre == 0)]

#guard failing checks == []

end test_pattern_pre_cycles.Test_Detailed

end DRAMPower.Tests
