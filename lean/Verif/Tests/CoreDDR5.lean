import Verif.Tests.Resources

/-!
# Tests of the DDR5 core

Generated by conformance/gen.py, do not edit. The numbers in the lists of checks are lines of the test file.
-/

namespace DRAMPower.Tests

/-! ## tests/tests_drampower/core/DDR5/ddr5_multidevice_tests.cpp -/

namespace ddr5_multidevice_tests.Counters_and_Cycles

def run0 : Log := run .ddr5 ({ ddr5 with
  power := { ddr5.power with devices := 5 },
  iface := { ddr5.iface with devices := 5 } }) [
    .core { t := 0, type := .ACT },
    .core { t := 15, type := .RD },
    .core { t := 20, type := .ACT, co := { bank := 3 } },
    .core { t := 35, type := .RD, co := { bank := 3 } },
    .core { t := 40, type := .RD },
    .core { t := 50, type := .PREA },
    .core { t := 70, type := .END_OF_SIMULATION },
    .stats]

def checks : List (Nat × Bool) := [
    (0, run0.ok),
    (86, run0.stats[0]!.bank[0]!.counter.act == 1),
    (88, run0.stats[0]!.bank[1]!.counter.act == 0),
    (88, run0.stats[0]!.bank[2]!.counter.act == 0),
    (86, run0.stats[0]!.bank[3]!.counter.act == 1),
    (88, run0.stats[0]!.bank[4]!.counter.act == 0),
    (88, run0.stats[0]!.bank[5]!.counter.act == 0),
    (88, run0.stats[0]!.bank[6]!.counter.act == 0),
    (88, run0.stats[0]!.bank[7]!.counter.act == 0),
    (88, run0.stats[0]!.bank[8]!.counter.act == 0),
    (88, run0.stats[0]!.bank[9]!.counter.act == 0),
    (88, run0.stats[0]!.bank[10]!.counter.act == 0),
    (88, run0.stats[0]!.bank[11]!.counter.act == 0),
    (88, run0.stats[0]!.bank[12]!.counter.act == 0),
    (88, run0.stats[0]!.bank[13]!.counter.act == 0),
    (88, run0.stats[0]!.bank[14]!.counter.act == 0),
    (88, run0.stats[0]!.bank[15]!.counter.act == 0),
    (94, run0.stats[0]!.bank[0]!.counter.reads == 2),
    (98, run0.stats[0]!.bank[1]!.counter.reads == 0),
    (98, run0.stats[0]!.bank[2]!.counter.reads == 0),
    (96, run0.stats[0]!.bank[3]!.counter.reads == 1),
    (98, run0.stats[0]!.bank[4]!.counter.reads == 0),
    (98, run0.stats[0]!.bank[5]!.counter.reads == 0),
    (98, run0.stats[0]!.bank[6]!.counter.reads == 0),
    (98, run0.stats[0]!.bank[7]!.counter.reads == 0),
    (98, run0.stats[0]!.bank[8]!.counter.reads == 0),
    (98, run0.stats[0]!.bank[9]!.counter.reads == 0),
    (98, run0.stats[0]!.bank[10]!.counter.reads == 0),
    (98, run0.stats[0]!.bank[11]!.counter.reads == 0),
    (98, run0.stats[0]!.bank[12]!.counter.reads == 0),
    (98, run0.stats[0]!.bank[13]!.counter.reads == 0),
    (98, run0.stats[0]!.bank[14]!.counter.reads == 0),
    (98, run0.stats[0]!.bank[15]!.counter.reads == 0),
    (104, run0.stats[0]!.bank[0]!.counter.pre == 1),
    (106, run0.stats[0]!.bank[1]!.counter.pre == 0),
    (106, run0.stats[0]!.bank[2]!.counter.pre == 0),
    (104, run0.stats[0]!.bank[3]!.counter.pre == 1),
    (106, run0.stats[0]!.bank[4]!.counter.pre == 0),
    (106, run0.stats[0]!.bank[5]!.counter.pre == 0),
    (106, run0.stats[0]!.bank[6]!.counter.pre == 0),
    (106, run0.stats[0]!.bank[7]!.counter.pre == 0),
    (106, run0.stats[0]!.bank[8]!.counter.pre == 0),
    (106, run0.stats[0]!.bank[9]!.counter.pre == 0),
    (106, run0.stats[0]!.bank[10]!.counter.pre == 0),
    (106, run0.stats[0]!.bank[11]!.counter.pre == 0),
    (106, run0.stats[0]!.bank[12]!.counter.pre == 0),
    (106, run0.stats[0]!.bank[13]!.counter.pre == 0),
    (106, run0.stats[0]!.bank[14]!.counter.pre == 0),
    (106, run0.stats[0]!.bank[15]!.counter.pre == 0),
    (110, run0.stats[0]!.rankTotal[0]!.cycles.act == 50),
    (111, run0.stats[0]!.rankTotal[0]!.cycles.pre == 20),
    (116, run0.stats[0]!.bank[0]!.cycles.act == 50),
    (120, run0.stats[0]!.bank[1]!.cycles.act == 0),
    (120, run0.stats[0]!.bank[2]!.cycles.act == 0),
    (118, run0.stats[0]!.bank[3]!.cycles.act == 30),
    (120, run0.stats[0]!.bank[4]!.cycles.act == 0),
    (120, run0.stats[0]!.bank[5]!.cycles.act == 0),
    (120, run0.stats[0]!.bank[6]!.cycles.act == 0),
    (120, run0.stats[0]!.bank[7]!.cycles.act == 0),
    (120, run0.stats[0]!.bank[8]!.cycles.act == 0),
    (120, run0.stats[0]!.bank[9]!.cycles.act == 0),
    (120, run0.stats[0]!.bank[10]!.cycles.act == 0),
    (120, run0.stats[0]!.bank[11]!.cycles.act == 0),
    (120, run0.stats[0]!.bank[12]!.cycles.act == 0),
    (120, run0.stats[0]!.bank[13]!.cycles.act == 0),
    (120, run0.stats[0]!.bank[14]!.cycles.act == 0),
    (120, run0.stats[0]!.bank[15]!.cycles.act == 0),
    (130, run0.stats[0]!.bank[1]!.cycles.pre == 70),
    (130, run0.stats[0]!.bank[2]!.cycles.pre == 70),
    (128, run0.stats[0]!.bank[3]!.cycles.pre == 40),
    (130, run0.stats[0]!.bank[4]!.cycles.pre == 70),
    (130, run0.stats[0]!.bank[5]!.cycles.pre == 70),
    (130, run0.stats[0]!.bank[6]!.cycles.pre == 70),
    (130, run0.stats[0]!.bank[7]!.cycles.pre == 70),
    (130, run0.stats[0]!.bank[8]!.cycles.pre == 70),
    (130, run0.stats[0]!.bank[9]!.cycles.pre == 70),
    (130, run0.stats[0]!.bank[10]!.cycles.pre == 70),
    (130, run0.stats[0]!.bank[11]!.cycles.pre == 70),
    (130, run0.stats[0]!.bank[12]!.cycles.pre == 70),
    (130, run0.stats[0]!.bank[13]!.cycles.pre == 70),
    (130, run0.stats[0]!.bank[14]!.cycles.pre == 70),
    (130, run0.stats[0]!.bank[15]!.cycles.pre == 70)]

#guard failing checks == []

end ddr5_multidevice_tests.Counters_and_Cycles

namespace ddr5_multidevice_tests.Energy

def run0 : Log := run .ddr5 ({ ddr5 with
  power := { ddr5.power with devices := 5 },
  iface := { ddr5.iface with devices := 5 } }) [
    .core { t := 0, type := .ACT },
    .core { t := 15, type := .RD },
    .core { t := 20, type := .ACT, co := { bank := 3 } },
    .core { t := 35, type := .RD, co := { bank := 3 } },
    .core { t := 40, type := .RD },
    .core { t := 50, type := .PREA },
    .core { t := 70, type := .END_OF_SIMULATION },
    .coreEnergy 70]

def checks : List (Nat × Bool) := [
    (0, run0.ok),
    (142, run0.energies[0]!.bank.length == 80),
    (147, run0.energies[0]!.bank[0]!.eAct == run0.energies[0]!.bank[0]!.eAct),
    (148, run0.energies[0]!.bank[0]!.ePre == run0.energies[0]!.bank[0]!.ePre),
    (149, run0.energies[0]!.bank[0]!.eRD == run0.energies[0]!.bank[0]!.eRD),
    (150, run0.energies[0]!.bank[0]!.eBgAct == run0.energies[0]!.bank[0]!.eBgAct),
    (151, run0.energies[0]!.bank[0]!.eBgPre == run0.energies[0]!.bank[0]!.eBgPre),
    (147, run0.energies[0]!.bank[1]!.eAct == run0.energies[0]!.bank[1]!.eAct),
    (148, run0.energies[0]!.bank[1]!.ePre == run0.energies[0]!.bank[1]!.ePre),
    (149, run0.energies[0]!.bank[1]!.eRD == run0.energies[0]!.bank[1]!.eRD),
    (150, run0.energies[0]!.bank[1]!.eBgAct == run0.energies[0]!.bank[1]!.eBgAct),
    (151, run0.energies[0]!.bank[1]!.eBgPre == run0.energies[0]!.bank[1]!.eBgPre),
    (147, run0.energies[0]!.bank[2]!.eAct == run0.energies[0]!.bank[2]!.eAct),
    (148, run0.energies[0]!.bank[2]!.ePre == run0.energies[0]!.bank[2]!.ePre),
    (149, run0.energies[0]!.bank[2]!.eRD == run0.energies[0]!.bank[2]!.eRD),
    (150, run0.energies[0]!.bank[2]!.eBgAct == run0.energies[0]!.bank[2]!.eBgAct),
    (151, run0.energies[0]!.bank[2]!.eBgPre == run0.energies[0]!.bank[2]!.eBgPre),
    (147, run0.energies[0]!.bank[3]!.eAct == run0.energies[0]!.bank[3]!.eAct),
    (148, run0.energies[0]!.bank[3]!.ePre == run0.energies[0]!.bank[3]!.ePre),
    (149, run0.energies[0]!.bank[3]!.eRD == run0.energies[0]!.bank[3]!.eRD),
    (150, run0.energies[0]!.bank[3]!.eBgAct == run0.energies[0]!.bank[3]!.eBgAct),
    (151, run0.energies[0]!.bank[3]!.eBgPre == run0.energies[0]!.bank[3]!.eBgPre),
    (147, run0.energies[0]!.bank[4]!.eAct == run0.energies[0]!.bank[4]!.eAct),
    (148, run0.energies[0]!.bank[4]!.ePre == run0.energies[0]!.bank[4]!.ePre),
    (149, run0.energies[0]!.bank[4]!.eRD == run0.energies[0]!.bank[4]!.eRD),
    (150, run0.energies[0]!.bank[4]!.eBgAct == run0.energies[0]!.bank[4]!.eBgAct),
    (151, run0.energies[0]!.bank[4]!.eBgPre == run0.energies[0]!.bank[4]!.eBgPre),
    (147, run0.energies[0]!.bank[5]!.eAct == run0.energies[0]!.bank[5]!.eAct),
    (148, run0.energies[0]!.bank[5]!.ePre == run0.energies[0]!.bank[5]!.ePre),
    (149, run0.energies[0]!.bank[5]!.eRD == run0.energies[0]!.bank[5]!.eRD),
    (150, run0.energies[0]!.bank[5]!.eBgAct == run0.energies[0]!.bank[5]!.eBgAct),
    (151, run0.energies[0]!.bank[5]!.eBgPre == run0.energies[0]!.bank[5]!.eBgPre),
    (147, run0.energies[0]!.bank[6]!.eAct == run0.energies[0]!.bank[6]!.eAct),
    (148, run0.energies[0]!.bank[6]!.ePre == run0.energies[0]!.bank[6]!.ePre),
    (149, run0.energies[0]!.bank[6]!.eRD == run0.energies[0]!.bank[6]!.eRD),
    (150, run0.energies[0]!.bank[6]!.eBgAct == run0.energies[0]!.bank[6]!.eBgAct),
    (151, run0.energies[0]!.bank[6]!.eBgPre == run0.energies[0]!.bank[6]!.eBgPre),
    (147, run0.energies[0]!.bank[7]!.eAct == run0.energies[0]!.bank[7]!.eAct),
    (148, run0.energies[0]!.bank[7]!.ePre == run0.energies[0]!.bank[7]!.ePre),
    (149, run0.energies[0]!.bank[7]!.eRD == run0.energies[0]!.bank[7]!.eRD),
    (150, run0.energies[0]!.bank[7]!.eBgAct == run0.energies[0]!.bank[7]!.eBgAct),
    (151, run0.energies[0]!.bank[7]!.eBgPre == run0.energies[0]!.bank[7]!.eBgPre),
    (147, run0.energies[0]!.bank[8]!.eAct == run0.energies[0]!.bank[8]!.eAct),
    (148, run0.energies[0]!.bank[8]!.ePre == run0.energies[0]!.bank[8]!.ePre),
    (149, run0.energies[0]!.bank[8]!.eRD == run0.energies[0]!.bank[8]!.eRD),
    (150, run0.energies[0]!.bank[8]!.eBgAct == run0.energies[0]!.bank[8]!.eBgAct),
    (151, run0.energies[0]!.bank[8]!.eBgPre == run0.energies[0]!.bank[8]!.eBgPre),
    (147, run0.energies[0]!.bank[9]!.eAct == run0.energies[0]!.bank[9]!.eAct),
    (148, run0.energies[0]!.bank[9]!.ePre == run0.energies[0]!.bank[9]!.ePre),
    (149, run0.energies[0]!.bank[9]!.eRD == run0.energies[0]!.bank[9]!.eRD),
    (150, run0.energies[0]!.bank[9]!.eBgAct == run0.energies[0]!.bank[9]!.eBgAct),
    (151, run0.energies[0]!.bank[9]!.eBgPre == run0.energies[0]!.bank[9]!.eBgPre),
    (147, run0.energies[0]!.bank[10]!.eAct == run0.energies[0]!.bank[10]!.eAct),
    (148, run0.energies[0]!.bank[10]!.ePre == run0.energies[0]!.bank[10]!.ePre),
    (149, run0.energies[0]!.bank[10]!.eRD == run0.energies[0]!.bank[10]!.eRD),
    (150, run0.energies[0]!.bank[10]!.eBgAct == run0.energies[0]!.bank[10]!.eBgAct),
    (151, run0.energies[0]!.bank[10]!.eBgPre == run0.energies[0]!.bank[10]!.eBgPre),
    (147, run0.energies[0]!.bank[11]!.eAct == run0.energies[0]!.bank[11]!.eAct),
    (148, run0.energies[0]!.bank[11]!.ePre == run0.energies[0]!.bank[11]!.ePre),
    (149, run0.energies[0]!.bank[11]!.eRD == run0.energies[0]!.bank[11]!.eRD),
    (150, run0.energies[0]!.bank[11]!.eBgAct == run0.energies[0]!.bank[11]!.eBgAct),
    (151, run0.energies[0]!.bank[11]!.eBgPre == run0.energies[0]!.bank[11]!.eBgPre),
    (147, run0.energies[0]!.bank[12]!.eAct == run0.energies[0]!.bank[12]!.eAct),
    (148, run0.energies[0]!.bank[12]!.ePre == run0.energies[0]!.bank[12]!.ePre),
    (149, run0.energies[0]!.bank[12]!.eRD == run0.energies[0]!.bank[12]!.eRD),
    (150, run0.energies[0]!.bank[12]!.eBgAct == run0.energies[0]!.bank[12]!.eBgAct),
    (151, run0.energies[0]!.bank[12]!.eBgPre == run0.energies[0]!.bank[12]!.eBgPre),
    (147, run0.energies[0]!.bank[13]!.eAct == run0.energies[0]!.bank[13]!.eAct),
    (148, run0.energies[0]!.bank[13]!.ePre == run0.energies[0]!.bank[13]!.ePre),
    (149, run0.energies[0]!.bank[13]!.eRD == run0.energies[0]!.bank[13]!.eRD),
    (150, run0.energies[0]!.bank[13]!.eBgAct == run0.energies[0]!.bank[13]!.eBgAct),
    (151, run0.energies[0]!.bank[13]!.eBgPre == run0.energies[0]!.bank[13]!.eBgPre),
    (147, run0.energies[0]!.bank[14]!.eAct == run0.energies[0]!.bank[14]!.eAct),
    (148, run0.energies[0]!.bank[14]!.ePre == run0.energies[0]!.bank[14]!.ePre),
    (149, run0.energies[0]!.bank[14]!.eRD == run0.energies[0]!.bank[14]!.eRD),
    (150, run0.energies[0]!.bank[14]!.eBgAct == run0.energies[0]!.bank[14]!.eBgAct),
    (151, run0.energies[0]!.bank[14]!.eBgPre == run0.energies[0]!.bank[14]!.eBgPre),
    (147, run0.energies[0]!.bank[15]!.eAct == run0.energies[0]!.bank[15]!.eAct),
    (148, run0.energies[0]!.bank[15]!.ePre == run0.energies[0]!.bank[15]!.ePre),
    (149, run0.energies[0]!.bank[15]!.eRD == run0.energies[0]!.bank[15]!.eRD),
    (150, run0.energies[0]!.bank[15]!.eBgAct == run0.energies[0]!.bank[15]!.eBgAct),
    (151, run0.energies[0]!.bank[15]!.eBgPre == run0.energies[0]!.bank[15]!.eBgPre),
    (147, run0.energies[0]!.bank[16]!.eAct == run0.energies[0]!.bank[0]!.eAct),
    (148, run0.energies[0]!.bank[16]!.ePre == run0.energies[0]!.bank[0]!.ePre),
    (149, run0.energies[0]!.bank[16]!.eRD == run0.energies[0]!.bank[0]!.eRD),
    (150, run0.energies[0]!.bank[16]!.eBgAct == run0.energies[0]!.bank[0]!.eBgAct),
    (151, run0.energies[0]!.bank[16]!.eBgPre == run0.energies[0]!.bank[0]!.eBgPre),
    (147, run0.energies[0]!.bank[17]!.eAct == run0.energies[0]!.bank[1]!.eAct),
    (148, run0.energies[0]!.bank[17]!.ePre == run0.energies[0]!.bank[1]!.ePre),
    (149, run0.energies[0]!.bank[17]!.eRD == run0.energies[0]!.bank[1]!.eRD),
    (150, run0.energies[0]!.bank[17]!.eBgAct == run0.energies[0]!.bank[1]!.eBgAct),
    (151, run0.energies[0]!.bank[17]!.eBgPre == run0.energies[0]!.bank[1]!.eBgPre),
    (147, run0.energies[0]!.bank[18]!.eAct == run0.energies[0]!.bank[2]!.eAct),
    (148, run0.energies[0]!.bank[18]!.ePre == run0.energies[0]!.bank[2]!.ePre),
    (149, run0.energies[0]!.bank[18]!.eRD == run0.energies[0]!.bank[2]!.eRD),
    (150, run0.energies[0]!.bank[18]!.eBgAct == run0.energies[0]!.bank[2]!.eBgAct),
    (151, run0.energies[0]!.bank[18]!.eBgPre == run0.energies[0]!.bank[2]!.eBgPre),
    (147, run0.energies[0]!.bank[19]!.eAct == run0.energies[0]!.bank[3]!.eAct),
    (148, run0.energies[0]!.bank[19]!.ePre == run0.energies[0]!.bank[3]!.ePre),
    (149, run0.energies[0]!.bank[19]!.eRD == run0.energies[0]!.bank[3]!.eRD),
    (150, run0.energies[0]!.bank[19]!.eBgAct == run0.energies[0]!.bank[3]!.eBgAct),
    (151, run0.energies[0]!.bank[19]!.eBgPre == run0.energies[0]!.bank[3]!.eBgPre),
    (147, run0.energies[0]!.bank[20]!.eAct == run0.energies[0]!.bank[4]!.eAct),
    (148, run0.energies[0]!.bank[20]!.ePre == run0.energies[0]!.bank[4]!.ePre),
    (149, run0.energies[0]!.bank[20]!.eRD == run0.energies[0]!.bank[4]!.eRD),
    (150, run0.energies[0]!.bank[20]!.eBgAct == run0.energies[0]!.bank[4]!.eBgAct),
    (151, run0.energies[0]!.bank[20]!.eBgPre == run0.energies[0]!.bank[4]!.eBgPre),
    (147, run0.energies[0]!.bank[21]!.eAct == run0.energies[0]!.bank[5]!.eAct),
    (148, run0.energies[0]!.bank[21]!.ePre == run0.energies[0]!.bank[5]!.ePre),
    (149, run0.energies[0]!.bank[21]!.eRD == run0.energies[0]!.bank[5]!.eRD),
    (150, run0.energies[0]!.bank[21]!.eBgAct == run0.energies[0]!.bank[5]!.eBgAct),
    (151, run0.energies[0]!.bank[21]!.eBgPre == run0.energies[0]!.bank[5]!.eBgPre),
    (147, run0.energies[0]!.bank[22]!.eAct == run0.energies[0]!.bank[6]!.eAct),
    (148, run0.energies[0]!.bank[22]!.ePre == run0.energies[0]!.bank[6]!.ePre),
    (149, run0.energies[0]!.bank[22]!.eRD == run0.energies[0]!.bank[6]!.eRD),
    (150, run0.energies[0]!.bank[22]!.eBgAct == run0.energies[0]!.bank[6]!.eBgAct),
    (151, run0.energies[0]!.bank[22]!.eBgPre == run0.energies[0]!.bank[6]!.eBgPre),
    (147, run0.energies[0]!.bank[23]!.eAct == run0.energies[0]!.bank[7]!.eAct),
    (148, run0.energies[0]!.bank[23]!.ePre == run0.energies[0]!.bank[7]!.ePre),
    (149, run0.energies[0]!.bank[23]!.eRD == run0.energies[0]!.bank[7]!.eRD),
    (150, run0.energies[0]!.bank[23]!.eBgAct == run0.energies[0]!.bank[7]!.eBgAct),
    (151, run0.energies[0]!.bank[23]!.eBgPre == run0.energies[0]!.bank[7]!.eBgPre),
    (147, run0.energies[0]!.bank[24]!.eAct == run0.energies[0]!.bank[8]!.eAct),
    (148, run0.energies[0]!.bank[24]!.ePre == run0.energies[0]!.bank[8]!.ePre),
    (149, run0.energies[0]!.bank[24]!.eRD == run0.energies[0]!.bank[8]!.eRD),
    (150, run0.energies[0]!.bank[24]!.eBgAct == run0.energies[0]!.bank[8]!.eBgAct),
    (151, run0.energies[0]!.bank[24]!.eBgPre == run0.energies[0]!.bank[8]!.eBgPre),
    (147, run0.energies[0]!.bank[25]!.eAct == run0.energies[0]!.bank[9]!.eAct),
    (148, run0.energies[0]!.bank[25]!.ePre == run0.energies[0]!.bank[9]!.ePre),
    (149, run0.energies[0]!.bank[25]!.eRD == run0.energies[0]!.bank[9]!.eRD),
    (150, run0.energies[0]!.bank[25]!.eBgAct == run0.energies[0]!.bank[9]!.eBgAct),
    (151, run0.energies[0]!.bank[25]!.eBgPre == run0.energies[0]!.bank[9]!.eBgPre),
    (147, run0.energies[0]!.bank[26]!.eAct == run0.energies[0]!.bank[10]!.eAct),
    (148, run0.energies[0]!.bank[26]!.ePre == run0.energies[0]!.bank[10]!.ePre),
    (149, run0.energies[0]!.bank[26]!.eRD == run0.energies[0]!.bank[10]!.eRD),
    (150, run0.energies[0]!.bank[26]!.eBgAct == run0.energies[0]!.bank[10]!.eBgAct),
    (151, run0.energies[0]!.bank[26]!.eBgPre == run0.energies[0]!.bank[10]!.eBgPre),
    (147, run0.energies[0]!.bank[27]!.eAct == run0.energies[0]!.bank[11]!.eAct),
    (148, run0.energies[0]!.bank[27]!.ePre == run0.energies[0]!.bank[11]!.ePre),
    (149, run0.energies[0]!.bank[27]!.eRD == run0.energies[0]!.bank[11]!.eRD),
    (150, run0.energies[0]!.bank[27]!.eBgAct == run0.energies[0]!.bank[11]!.eBgAct),
    (151, run0.energies[0]!.bank[27]!.eBgPre == run0.energies[0]!.bank[11]!.eBgPre),
    (147, run0.energies[0]!.bank[28]!.eAct == run0.energies[0]!.bank[12]!.eAct),
    (148, run0.energies[0]!.bank[28]!.ePre == run0.energies[0]!.bank[12]!.ePre),
    (149, run0.energies[0]!.bank[28]!.eRD == run0.energies[0]!.bank[12]!.eRD),
    (150, run0.energies[0]!.bank[28]!.eBgAct == run0.energies[0]!.bank[12]!.eBgAct),
    (151, run0.energies[0]!.bank[28]!.eBgPre == run0.energies[0]!.bank[12]!.eBgPre),
    (147, run0.energies[0]!.bank[29]!.eAct == run0.energies[0]!.bank[13]!.eAct),
    (148, run0.energies[0]!.bank[29]!.ePre == run0.energies[0]!.bank[13]!.ePre),
    (149, run0.energies[0]!.bank[29]!.eRD == run0.energies[0]!.bank[13]!.eRD),
    (150, run0.energies[0]!.bank[29]!.eBgAct == run0.energies[0]!.bank[13]!.eBgAct),
    (151, run0.energies[0]!.bank[29]!.eBgPre == run0.energies[0]!.bank[13]!.eBgPre),
    (147, run0.energies[0]!.bank[30]!.eAct == run0.energies[0]!.bank[14]!.eAct),
    (148, run0.energies[0]!.bank[30]!.ePre == run0.energies[0]!.bank[14]!.ePre),
    (149, run0.energies[0]!.bank[30]!.eRD == run0.energies[0]!.bank[14]!.eRD),
    (150, run0.energies[0]!.bank[30]!.eBgAct == run0.energies[0]!.bank[14]!.eBgAct),
    (151, run0.energies[0]!.bank[30]!.eBgPre == run0.energies[0]!.bank[14]!.eBgPre),
    (147, run0.energies[0]!.bank[31]!.eAct == run0.energies[0]!.bank[15]!.eAct),
    (148, run0.energies[0]!.bank[31]!.ePre == run0.energies[0]!.bank[15]!.ePre),
    (149, run0.energies[0]!.bank[31]!.eRD == run0.energies[0]!.bank[15]!.eRD),
    (150, run0.energies[0]!.bank[31]!.eBgAct == run0.energies[0]!.bank[15]!.eBgAct),
    (151, run0.energies[0]!.bank[31]!.eBgPre == run0.energies[0]!.bank[15]!.eBgPre),
    (147, run0.energies[0]!.bank[32]!.eAct == run0.energies[0]!.bank[0]!.eAct),
    (148, run0.energies[0]!.bank[32]!.ePre == run0.energies[0]!.bank[0]!.ePre),
    (149, run0.energies[0]!.bank[32]!.eRD == run0.energies[0]!.bank[0]!.eRD),
    (150, run0.energies[0]!.bank[32]!.eBgAct == run0.energies[0]!.bank[0]!.eBgAct),
    (151, run0.energies[0]!.bank[32]!.eBgPre == run0.energies[0]!.bank[0]!.eBgPre),
    (147, run0.energies[0]!.bank[33]!.eAct == run0.energies[0]!.bank[1]!.eAct),
    (148, run0.energies[0]!.bank[33]!.ePre == run0.energies[0]!.bank[1]!.ePre),
    (149, run0.energies[0]!.bank[33]!.eRD == run0.energies[0]!.bank[1]!.eRD),
    (150, run0.energies[0]!.bank[33]!.eBgAct == run0.energies[0]!.bank[1]!.eBgAct),
    (151, run0.energies[0]!.bank[33]!.eBgPre == run0.energies[0]!.bank[1]!.eBgPre),
    (147, run0.energies[0]!.bank[34]!.eAct == run0.energies[0]!.bank[2]!.eAct),
    (148, run0.energies[0]!.bank[34]!.ePre == run0.energies[0]!.bank[2]!.ePre),
    (149, run0.energies[0]!.bank[34]!.eRD == run0.energies[0]!.bank[2]!.eRD),
    (150, run0.energies[0]!.bank[34]!.eBgAct == run0.energies[0]!.bank[2]!.eBgAct),
    (151, run0.energies[0]!.bank[34]!.eBgPre == run0.energies[0]!.bank[2]!.eBgPre),
    (147, run0.energies[0]!.bank[35]!.eAct == run0.energies[0]!.bank[3]!.eAct),
    (148, run0.energies[0]!.bank[35]!.ePre == run0.energies[0]!.bank[3]!.ePre),
    (149, run0.energies[0]!.bank[35]!.eRD == run0.energies[0]!.bank[3]!.eRD),
    (150, run0.energies[0]!.bank[35]!.eBgAct == run0.energies[0]!.bank[3]!.eBgAct),
    (151, run0.energies[0]!.bank[35]!.eBgPre == run0.energies[0]!.bank[3]!.eBgPre),
    (147, run0.energies[0]!.bank[36]!.eAct == run0.energies[0]!.bank[4]!.eAct),
    (148, run0.energies[0]!.bank[36]!.ePre == run0.energies[0]!.bank[4]!.ePre),
    (149, run0.energies[0]!.bank[36]!.eRD == run0.energies[0]!.bank[4]!.eRD),
    (150, run0.energies[0]!.bank[36]!.eBgAct == run0.energies[0]!.bank[4]!.eBgAct),
    (151, run0.energies[0]!.bank[36]!.eBgPre == run0.energies[0]!.bank[4]!.eBgPre),
    (147, run0.energies[0]!.bank[37]!.eAct == run0.energies[0]!.bank[5]!.eAct),
    (148, run0.energies[0]!.bank[37]!.ePre == run0.energies[0]!.bank[5]!.ePre),
    (149, run0.energies[0]!.bank[37]!.eRD == run0.energies[0]!.bank[5]!.eRD),
    (150, run0.energies[0]!.bank[37]!.eBgAct == run0.energies[0]!.bank[5]!.eBgAct),
    (151, run0.energies[0]!.bank[37]!.eBgPre == run0.energies[0]!.bank[5]!.eBgPre),
    (147, run0.energies[0]!.bank[38]!.eAct == run0.energies[0]!.bank[6]!.eAct),
    (148, run0.energies[0]!.bank[38]!.ePre == run0.energies[0]!.bank[6]!.ePre),
    (149, run0.energies[0]!.bank[38]!.eRD == run0.energies[0]!.bank[6]!.eRD),
    (150, run0.energies[0]!.bank[38]!.eBgAct == run0.energies[0]!.bank[6]!.eBgAct),
    (151, run0.energies[0]!.bank[38]!.eBgPre == run0.energies[0]!.bank[6]!.eBgPre),
    (147, run0.energies[0]!.bank[39]!.eAct == run0.energies[0]!.bank[7]!.eAct),
    (148, run0.energies[0]!.bank[39]!.ePre == run0.energies[0]!.bank[7]!.ePre),
    (149, run0.energies[0]!.bank[39]!.eRD == run0.energies[0]!.bank[7]!.eRD),
    (150, run0.energies[0]!.bank[39]!.eBgAct == run0.energies[0]!.bank[7]!.eBgAct),
    (151, run0.energies[0]!.bank[39]!.eBgPre == run0.energies[0]!.bank[7]!.eBgPre),
    (147, run0.energies[0]!.bank[40]!.eAct == run0.energies[0]!.bank[8]!.eAct),
    (148, run0.energies[0]!.bank[40]!.ePre == run0.energies[0]!.bank[8]!.ePre),
    (149, run0.energies[0]!.bank[40]!.eRD == run0.energies[0]!.bank[8]!.eRD),
    (150, run0.energies[0]!.bank[40]!.eBgAct == run0.energies[0]!.bank[8]!.eBgAct),
    (151, run0.energies[0]!.bank[40]!.eBgPre == run0.energies[0]!.bank[8]!.eBgPre),
    (147, run0.energies[0]!.bank[41]!.eAct == run0.energies[0]!.bank[9]!.eAct),
    (148, run0.energies[0]!.bank[41]!.ePre == run0.energies[0]!.bank[9]!.ePre),
    (149, run0.energies[0]!.bank[41]!.eRD == run0.energies[0]!.bank[9]!.eRD),
    (150, run0.energies[0]!.bank[41]!.eBgAct == run0.energies[0]!.bank[9]!.eBgAct),
    (151, run0.energies[0]!.bank[41]!.eBgPre == run0.energies[0]!.bank[9]!.eBgPre),
    (147, run0.energies[0]!.bank[42]!.eAct == run0.energies[0]!.bank[10]!.eAct),
    (148, run0.energies[0]!.bank[42]!.ePre == run0.energies[0]!.bank[10]!.ePre),
    (149, run0.energies[0]!.bank[42]!.eRD == run0.energies[0]!.bank[10]!.eRD),
    (150, run0.energies[0]!.bank[42]!.eBgAct == run0.energies[0]!.bank[10]!.eBgAct),
    (151, run0.energies[0]!.bank[42]!.eBgPre == run0.energies[0]!.bank[10]!.eBgPre),
    (147, run0.energies[0]!.bank[43]!.eAct == run0.energies[0]!.bank[11]!.eAct),
    (148, run0.energies[0]!.bank[43]!.ePre == run0.energies[0]!.bank[11]!.ePre),
    (149, run0.energies[0]!.bank[43]!.eRD == run0.energies[0]!.bank[11]!.eRD),
    (150, run0.energies[0]!.bank[43]!.eBgAct == run0.energies[0]!.bank[11]!.eBgAct),
    (151, run0.energies[0]!.bank[43]!.eBgPre == run0.energies[0]!.bank[11]!.eBgPre),
    (147, run0.energies[0]!.bank[44]!.eAct == run0.energies[0]!.bank[12]!.eAct),
    (148, run0.energies[0]!.bank[44]!.ePre == run0.energies[0]!.bank[12]!.ePre),
    (149, run0.energies[0]!.bank[44]!.eRD == run0.energies[0]!.bank[12]!.eRD),
    (150, run0.energies[0]!.bank[44]!.eBgAct == run0.energies[0]!.bank[12]!.eBgAct),
    (151, run0.energies[0]!.bank[44]!.eBgPre == run0.energies[0]!.bank[12]!.eBgPre),
    (147, run0.energies[0]!.bank[45]!.eAct == run0.energies[0]!.bank[13]!.eAct),
    (148, run0.energies[0]!.bank[45]!.ePre == run0.energies[0]!.bank[13]!.ePre),
    (149, run0.energies[0]!.bank[45]!.eRD == run0.energies[0]!.bank[13]!.eRD),
    (150, run0.energies[0]!.bank[45]!.eBgAct == run0.energies[0]!.bank[13]!.eBgAct),
    (151, run0.energies[0]!.bank[45]!.eBgPre == run0.energies[0]!.bank[13]!.eBgPre),
    (147, run0.energies[0]!.bank[46]!.eAct == run0.energies[0]!.bank[14]!.eAct),
    (148, run0.energies[0]!.bank[46]!.ePre == run0.energies[0]!.bank[14]!.ePre),
    (149, run0.energies[0]!.bank[46]!.eRD == run0.energies[0]!.bank[14]!.eRD),
    (150, run0.energies[0]!.bank[46]!.eBgAct == run0.energies[0]!.bank[14]!.eBgAct),
    (151, run0.energies[0]!.bank[46]!.eBgPre == run0.energies[0]!.bank[14]!.eBgPre),
    (147, run0.energies[0]!.bank[47]!.eAct == run0.energies[0]!.bank[15]!.eAct),
    (148, run0.energies[0]!.bank[47]!.ePre == run0.energies[0]!.bank[15]!.ePre),
    (149, run0.energies[0]!.bank[47]!.eRD == run0.energies[0]!.bank[15]!.eRD),
    (150, run0.energies[0]!.bank[47]!.eBgAct == run0.energies[0]!.bank[15]!.eBgAct),
    (151, run0.energies[0]!.bank[47]!.eBgPre == run0.energies[0]!.bank[15]!.eBgPre),
    (147, run0.energies[0]!.bank[48]!.eAct == run0.energies[0]!.bank[0]!.eAct),
    (148, run0.energies[0]!.bank[48]!.ePre == run0.energies[0]!.bank[0]!.ePre),
    (149, run0.energies[0]!.bank[48]!.eRD == run0.energies[0]!.bank[0]!.eRD),
    (150, run0.energies[0]!.bank[48]!.eBgAct == run0.energies[0]!.bank[0]!.eBgAct),
    (151, run0.energies[0]!.bank[48]!.eBgPre == run0.energies[0]!.bank[0]!.eBgPre),
    (147, run0.energies[0]!.bank[49]!.eAct == run0.energies[0]!.bank[1]!.eAct),
    (148, run0.energies[0]!.bank[49]!.ePre == run0.energies[0]!.bank[1]!.ePre),
    (149, run0.energies[0]!.bank[49]!.eRD == run0.energies[0]!.bank[1]!.eRD),
    (150, run0.energies[0]!.bank[49]!.eBgAct == run0.energies[0]!.bank[1]!.eBgAct),
    (151, run0.energies[0]!.bank[49]!.eBgPre == run0.energies[0]!.bank[1]!.eBgPre),
    (147, run0.energies[0]!.bank[50]!.eAct == run0.energies[0]!.bank[2]!.eAct),
    (148, run0.energies[0]!.bank[50]!.ePre == run0.energies[0]!.bank[2]!.ePre),
    (149, run0.energies[0]!.bank[50]!.eRD == run0.energies[0]!.bank[2]!.eRD),
    (150, run0.energies[0]!.bank[50]!.eBgAct == run0.energies[0]!.bank[2]!.eBgAct),
    (151, run0.energies[0]!.bank[50]!.eBgPre == run0.energies[0]!.bank[2]!.eBgPre),
    (147, run0.energies[0]!.bank[51]!.eAct == run0.energies[0]!.bank[3]!.eAct),
    (148, run0.energies[0]!.bank[51]!.ePre == run0.energies[0]!.bank[3]!.ePre),
    (149, run0.energies[0]!.bank[51]!.eRD == run0.energies[0]!.bank[3]!.eRD),
    (150, run0.energies[0]!.bank[51]!.eBgAct == run0.energies[0]!.bank[3]!.eBgAct),
    (151, run0.energies[0]!.bank[51]!.eBgPre == run0.energies[0]!.bank[3]!.eBgPre),
    (147, run0.energies[0]!.bank[52]!.eAct == run0.energies[0]!.bank[4]!.eAct),
    (148, run0.energies[0]!.bank[52]!.ePre == run0.energies[0]!.bank[4]!.ePre),
    (149, run0.energies[0]!.bank[52]!.eRD == run0.energies[0]!.bank[4]!.eRD),
    (150, run0.energies[0]!.bank[52]!.eBgAct == run0.energies[0]!.bank[4]!.eBgAct),
    (151, run0.energies[0]!.bank[52]!.eBgPre == run0.energies[0]!.bank[4]!.eBgPre),
    (147, run0.energies[0]!.bank[53]!.eAct == run0.energies[0]!.bank[5]!.eAct),
    (148, run0.energies[0]!.bank[53]!.ePre == run0.energies[0]!.bank[5]!.ePre),
    (149, run0.energies[0]!.bank[53]!.eRD == run0.energies[0]!.bank[5]!.eRD),
    (150, run0.energies[0]!.bank[53]!.eBgAct == run0.energies[0]!.bank[5]!.eBgAct),
    (151, run0.energies[0]!.bank[53]!.eBgPre == run0.energies[0]!.bank[5]!.eBgPre),
    (147, run0.energies[0]!.bank[54]!.eAct == run0.energies[0]!.bank[6]!.eAct),
    (148, run0.energies[0]!.bank[54]!.ePre == run0.energies[0]!.bank[6]!.ePre),
    (149, run0.energies[0]!.bank[54]!.eRD == run0.energies[0]!.bank[6]!.eRD),
    (150, run0.energies[0]!.bank[54]!.eBgAct == run0.energies[0]!.bank[6]!.eBgAct),
    (151, run0.energies[0]!.bank[54]!.eBgPre == run0.energies[0]!.bank[6]!.eBgPre),
    (147, run0.energies[0]!.bank[55]!.eAct == run0.energies[0]!.bank[7]!.eAct),
    (148, run0.energies[0]!.bank[55]!.ePre == run0.energies[0]!.bank[7]!.ePre),
    (149, run0.energies[0]!.bank[55]!.eRD == run0.energies[0]!.bank[7]!.eRD),
    (150, run0.energies[0]!.bank[55]!.eBgAct == run0.energies[0]!.bank[7]!.eBgAct),
    (151, run0.energies[0]!.bank[55]!.eBgPre == run0.energies[0]!.bank[7]!.eBgPre),
    (147, run0.energies[0]!.bank[56]!.eAct == run0.energies[0]!.bank[8]!.eAct),
    (148, run0.energies[0]!.bank[56]!.ePre == run0.energies[0]!.bank[8]!.ePre),
    (149, run0.energies[0]!.bank[56]!.eRD == run0.energies[0]!.bank[8]!.eRD),
    (150, run0.energies[0]!.bank[56]!.eBgAct == run0.energies[0]!.bank[8]!.eBgAct),
    (151, run0.energies[0]!.bank[56]!.eBgPre == run0.energies[0]!.bank[8]!.eBgPre),
    (147, run0.energies[0]!.bank[57]!.eAct == run0.energies[0]!.bank[9]!.eAct),
    (148, run0.energies[0]!.bank[57]!.ePre == run0.energies[0]!.bank[9]!.ePre),
    (149, run0.energies[0]!.bank[57]!.eRD == run0.energies[0]!.bank[9]!.eRD),
    (150, run0.energies[0]!.bank[57]!.eBgAct == run0.energies[0]!.bank[9]!.eBgAct),
    (151, run0.energies[0]!.bank[57]!.eBgPre == run0.energies[0]!.bank[9]!.eBgPre),
    (147, run0.energies[0]!.bank[58]!.eAct == run0.energies[0]!.bank[10]!.eAct),
    (148, run0.energies[0]!.bank[58]!.ePre == run0.energies[0]!.bank[10]!.ePre),
    (149, run0.energies[0]!.bank[58]!.eRD == run0.energies[0]!.bank[10]!.eRD),
    (150, run0.energies[0]!.bank[58]!.eBgAct == run0.energies[0]!.bank[10]!.eBgAct),
    (151, run0.energies[0]!.bank[58]!.eBgPre == run0.energies[0]!.bank[10]!.eBgPre),
    (147, run0.energies[0]!.bank[59]!.eAct == run0.energies[0]!.bank[11]!.eAct),
    (148, run0.energies[0]!.bank[59]!.ePre == run0.energies[0]!.bank[11]!.ePre),
    (149, run0.energies[0]!.bank[59]!.eRD == run0.energies[0]!.bank[11]!.eRD),
    (150, run0.energies[0]!.bank[59]!.eBgAct == run0.energies[0]!.bank[11]!.eBgAct),
    (151, run0.energies[0]!.bank[59]!.eBgPre == run0.energies[0]!.bank[11]!.eBgPre),
    (147, run0.energies[0]!.bank[60]!.eAct == run0.energies[0]!.bank[12]!.eAct),
    (148, run0.energies[0]!.bank[60]!.ePre == run0.energies[0]!.bank[12]!.ePre),
    (149, run0.energies[0]!.bank[60]!.eRD == run0.energies[0]!.bank[12]!.eRD),
    (150, run0.energies[0]!.bank[60]!.eBgAct == run0.energies[0]!.bank[12]!.eBgAct),
    (151, run0.energies[0]!.bank[60]!.eBgPre == run0.energies[0]!.bank[12]!.eBgPre),
    (147, run0.energies[0]!.bank[61]!.eAct == run0.energies[0]!.bank[13]!.eAct),
    (148, run0.energies[0]!.bank[61]!.ePre == run0.energies[0]!.bank[13]!.ePre),
    (149, run0.energies[0]!.bank[61]!.eRD == run0.energies[0]!.bank[13]!.eRD),
    (150, run0.energies[0]!.bank[61]!.eBgAct == run0.energies[0]!.bank[13]!.eBgAct),
    (151, run0.energies[0]!.bank[61]!.eBgPre == run0.energies[0]!.bank[13]!.eBgPre),
    (147, run0.energies[0]!.bank[62]!.eAct == run0.energies[0]!.bank[14]!.eAct),
    (148, run0.energies[0]!.bank[62]!.ePre == run0.energies[0]!.bank[14]!.ePre),
    (149, run0.energies[0]!.bank[62]!.eRD == run0.energies[0]!.bank[14]!.eRD),
    (150, run0.energies[0]!.bank[62]!.eBgAct == run0.energies[0]!.bank[14]!.eBgAct),
    (151, run0.energies[0]!.bank[62]!.eBgPre == run0.energies[0]!.bank[14]!.eBgPre),
    (147, run0.energies[0]!.bank[63]!.eAct == run0.energies[0]!.bank[15]!.eAct),
    (148, run0.energies[0]!.bank[63]!.ePre == run0.energies[0]!.bank[15]!.ePre),
    (149, run0.energies[0]!.bank[63]!.eRD == run0.energies[0]!.bank[15]!.eRD),
    (150, run0.energies[0]!.bank[63]!.eBgAct == run0.energies[0]!.bank[15]!.eBgAct),
    (151, run0.energies[0]!.bank[63]!.eBgPre == run0.energies[0]!.bank[15]!.eBgPre),
    (147, run0.energies[0]!.bank[64]!.eAct == run0.energies[0]!.bank[0]!.eAct),
    (148, run0.energies[0]!.bank[64]!.ePre == run0.energies[0]!.bank[0]!.ePre),
    (149, run0.energies[0]!.bank[64]!.eRD == run0.energies[0]!.bank[0]!.eRD),
    (150, run0.energies[0]!.bank[64]!.eBgAct == run0.energies[0]!.bank[0]!.eBgAct),
    (151, run0.energies[0]!.bank[64]!.eBgPre == run0.energies[0]!.bank[0]!.eBgPre),
    (147, run0.energies[0]!.bank[65]!.eAct == run0.energies[0]!.bank[1]!.eAct),
    (148, run0.energies[0]!.bank[65]!.ePre == run0.energies[0]!.bank[1]!.ePre),
    (149, run0.energies[0]!.bank[65]!.eRD == run0.energies[0]!.bank[1]!.eRD),
    (150, run0.energies[0]!.bank[65]!.eBgAct == run0.energies[0]!.bank[1]!.eBgAct),
    (151, run0.energies[0]!.bank[65]!.eBgPre == run0.energies[0]!.bank[1]!.eBgPre),
    (147, run0.energies[0]!.bank[66]!.eAct == run0.energies[0]!.bank[2]!.eAct),
    (148, run0.energies[0]!.bank[66]!.ePre == run0.energies[0]!.bank[2]!.ePre),
    (149, run0.energies[0]!.bank[66]!.eRD == run0.energies[0]!.bank[2]!.eRD),
    (150, run0.energies[0]!.bank[66]!.eBgAct == run0.energies[0]!.bank[2]!.eBgAct),
    (151, run0.energies[0]!.bank[66]!.eBgPre == run0.energies[0]!.bank[2]!.eBgPre),
    (147, run0.energies[0]!.bank[67]!.eAct == run0.energies[0]!.bank[3]!.eAct),
    (148, run0.energies[0]!.bank[67]!.ePre == run0.energies[0]!.bank[3]!.ePre),
    (149, run0.energies[0]!.bank[67]!.eRD == run0.energies[0]!.bank[3]!.eRD),
    (150, run0.energies[0]!.bank[67]!.eBgAct == run0.energies[0]!.bank[3]!.eBgAct),
    (151, run0.energies[0]!.bank[67]!.eBgPre == run0.energies[0]!.bank[3]!.eBgPre),
    (147, run0.energies[0]!.bank[68]!.eAct == run0.energies[0]!.bank[4]!.eAct),
    (148, run0.energies[0]!.bank[68]!.ePre == run0.energies[0]!.bank[4]!.ePre),
    (149, run0.energies[0]!.bank[68]!.eRD == run0.energies[0]!.bank[4]!.eRD),
    (150, run0.energies[0]!.bank[68]!.eBgAct == run0.energies[0]!.bank[4]!.eBgAct),
    (151, run0.energies[0]!.bank[68]!.eBgPre == run0.energies[0]!.bank[4]!.eBgPre),
    (147, run0.energies[0]!.bank[69]!.eAct == run0.energies[0]!.bank[5]!.eAct),
    (148, run0.energies[0]!.bank[69]!.ePre == run0.energies[0]!.bank[5]!.ePre),
    (149, run0.energies[0]!.bank[69]!.eRD == run0.energies[0]!.bank[5]!.eRD),
    (150, run0.energies[0]!.bank[69]!.eBgAct == run0.energies[0]!.bank[5]!.eBgAct),
    (151, run0.energies[0]!.bank[69]!.eBgPre == run0.energies[0]!.bank[5]!.eBgPre),
    (147, run0.energies[0]!.bank[70]!.eAct == run0.energies[0]!.bank[6]!.eAct),
    (148, run0.energies[0]!.bank[70]!.ePre == run0.energies[0]!.bank[6]!.ePre),
    (149, run0.energies[0]!.bank[70]!.eRD == run0.energies[0]!.bank[6]!.eRD),
    (150, run0.energies[0]!.bank[70]!.eBgAct == run0.energies[0]!.bank[6]!.eBgAct),
    (151, run0.energies[0]!.bank[70]!.eBgPre == run0.energies[0]!.bank[6]!.eBgPre),
    (147, run0.energies[0]!.bank[71]!.eAct == run0.energies[0]!.bank[7]!.eAct),
    (148, run0.energies[0]!.bank[71]!.ePre == run0.energies[0]!.bank[7]!.ePre),
    (149, run0.energies[0]!.bank[71]!.eRD == run0.energies[0]!.bank[7]!.eRD),
    (150, run0.energies[0]!.bank[71]!.eBgAct == run0.energies[0]!.bank[7]!.eBgAct),
    (151, run0.energies[0]!.bank[71]!.eBgPre == run0.energies[0]!.bank[7]!.eBgPre),
    (147, run0.energies[0]!.bank[72]!.eAct == run0.energies[0]!.bank[8]!.eAct),
    (148, run0.energies[0]!.bank[72]!.ePre == run0.energies[0]!.bank[8]!.ePre),
    (149, run0.energies[0]!.bank[72]!.eRD == run0.energies[0]!.bank[8]!.eRD),
    (150, run0.energies[0]!.bank[72]!.eBgAct == run0.energies[0]!.bank[8]!.eBgAct),
    (151, run0.energies[0]!.bank[72]!.eBgPre == run0.energies[0]!.bank[8]!.eBgPre),
    (147, run0.energies[0]!.bank[73]!.eAct == run0.energies[0]!.bank[9]!.eAct),
    (148, run0.energies[0]!.bank[73]!.ePre == run0.energies[0]!.bank[9]!.ePre),
    (149, run0.energies[0]!.bank[73]!.eRD == run0.energies[0]!.bank[9]!.eRD),
    (150, run0.energies[0]!.bank[73]!.eBgAct == run0.energies[0]!.bank[9]!.eBgAct),
    (151, run0.energies[0]!.bank[73]!.eBgPre == run0.energies[0]!.bank[9]!.eBgPre),
    (147, run0.energies[0]!.bank[74]!.eAct == run0.energies[0]!.bank[10]!.eAct),
    (148, run0.energies[0]!.bank[74]!.ePre == run0.energies[0]!.bank[10]!.ePre),
    (149, run0.energies[0]!.bank[74]!.eRD == run0.energies[0]!.bank[10]!.eRD),
    (150, run0.energies[0]!.bank[74]!.eBgAct == run0.energies[0]!.bank[10]!.eBgAct),
    (151, run0.energies[0]!.bank[74]!.eBgPre == run0.energies[0]!.bank[10]!.eBgPre),
    (147, run0.energies[0]!.bank[75]!.eAct == run0.energies[0]!.bank[11]!.eAct),
    (148, run0.energies[0]!.bank[75]!.ePre == run0.energies[0]!.bank[11]!.ePre),
    (149, run0.energies[0]!.bank[75]!.eRD == run0.energies[0]!.bank[11]!.eRD),
    (150, run0.energies[0]!.bank[75]!.eBgAct == run0.energies[0]!.bank[11]!.eBgAct),
    (151, run0.energies[0]!.bank[75]!.eBgPre == run0.energies[0]!.bank[11]!.eBgPre),
    (147, run0.energies[0]!.bank[76]!.eAct == run0.energies[0]!.bank[12]!.eAct),
    (148, run0.energies[0]!.bank[76]!.ePre == run0.energies[0]!.bank[12]!.ePre),
    (149, run0.energies[0]!.bank[76]!.eRD == run0.energies[0]!.bank[12]!.eRD),
    (150, run0.energies[0]!.bank[76]!.eBgAct == run0.energies[0]!.bank[12]!.eBgAct),
    (151, run0.energies[0]!.bank[76]!.eBgPre == run0.energies[0]!.bank[12]!.eBgPre),
    (147, run0.energies[0]!.bank[77]!.eAct == run0.energies[0]!.bank[13]!.eAct),
    (148, run0.energies[0]!.bank[77]!.ePre == run0.energies[0]!.bank[13]!.ePre),
    (149, run0.energies[0]!.bank[77]!.eRD == run0.energies[0]!.bank[13]!.eRD),
    (150, run0.energies[0]!.bank[77]!.eBgAct == run0.energies[0]!.bank[13]!.eBgAct),
    (151, run0.energies[0]!.bank[77]!.eBgPre == run0.energies[0]!.bank[13]!.eBgPre),
    (147, run0.energies[0]!.bank[78]!.eAct == run0.energies[0]!.bank[14]!.eAct),
    (148, run0.energies[0]!.bank[78]!.ePre == run0.energies[0]!.bank[14]!.ePre),
    (149, run0.energies[0]!.bank[78]!.eRD == run0.energies[0]!.bank[14]!.eRD),
    (150, run0.energies[0]!.bank[78]!.eBgAct == run0.energies[0]!.bank[14]!.eBgAct),
    (151, run0.energies[0]!.bank[78]!.eBgPre == run0.energies[0]!.bank[14]!.eBgPre),
    (147, run0.energies[0]!.bank[79]!.eAct == run0.energies[0]!.bank[15]!.eAct),
    (148, run0.energies[0]!.bank[79]!.ePre == run0.energies[0]!.bank[15]!.ePre),
    (149, run0.energies[0]!.bank[79]!.eRD == run0.energies[0]!.bank[15]!.eRD),
    (150, run0.energies[0]!.bank[79]!.eBgAct == run0.energies[0]!.bank[15]!.eBgAct),
    (151, run0.energies[0]!.bank[79]!.eBgPre == run0.energies[0]!.bank[15]!.eBgPre),
    (155, (nearest (((run0.energies[0]!.aggregated.eAct : Rat) * 1000000000000) : Rat) : Rat) == 1795),
    (156, (nearest (((run0.energies[0]!.aggregated.ePre : Rat) * 1000000000000) : Rat) : Rat) == 2077),
    (157, (nearest (((run0.energies[0]!.aggregated.eRD : Rat) * 1000000000000) : Rat) : Rat) == 6535),
    (158, (nearest (((run0.energies[0]!.aggregated.eBgAct : Rat) * 1000000000000) : Rat) : Rat) == 8518),
    (159, (nearest (((run0.energies[0]!.shared.bgActShared : Rat) * 1000000000000) : Rat) : Rat) == 8452),
    (160, (nearest (((run0.energies[0]!.aggregated.eBgPre : Rat) * 1000000000000) : Rat) : Rat) == 3115),
    (161, (nearest (((run0.energies[0]!.aggregated.total : Rat) * 1000000000000) : Rat) : Rat) == 22041)]

#guard failing checks == []

end ddr5_multidevice_tests.Energy

/-! ## tests/tests_drampower/core/DDR5/ddr5_multirank_tests.cpp -/

def ddr5_multirank_tests.wr_data : List UInt8 := [
  0, 0, 0, 0, 0, 0, 0, 255, 0, 0, 0, 0, 0, 0, 0, 0, 0, 0, 0, 0, 0, 0, 0, 0, 0, 0, 0, 0, 0, 0, 0, 255]

def ddr5_multirank_tests.rd_data : List UInt8 := [
  0, 0, 0, 0, 0, 0, 0, 1, 0, 0, 0, 0, 0, 0, 0, 0, 0, 0, 0, 0, 0, 0, 0, 0, 0, 0, 0, 0, 0, 0, 0, 0]

namespace ddr5_multirank_tests.Pattern_1

def run0 : Log := run .ddr5 ({ ddr5 with
  core := { ddr5.core with numberOfRanks := 2 },
  power := { ddr5.power with ranks := 2 },
  iface := { ddr5.iface with ranks := 2 } }) [
    .core { t := 0, type := .ACT, co := { bank := 1 } },
    .iface { t := 0, type := .ACT, co := { bank := 1 } },
    .core { t := 2, type := .ACT, co := { bank := 1, rank := 1 } },
    .iface { t := 2, type := .ACT, co := { bank := 1, rank := 1 } },
    .core { t := 4, type := .WR, co := { bank := 1, column := 4 }, nBits := 256, data := some ddr5_multirank_tests.wr_data },
    .iface { t := 4, type := .WR, co := { bank := 1, column := 4 }, nBits := 256, data := some ddr5_multirank_tests.wr_data },
    .core { t := 6, type := .RD, co := { bank := 1, rank := 1, column := 4 }, nBits := 256, data := some ddr5_multirank_tests.rd_data },
    .iface { t := 6, type := .RD, co := { bank := 1, rank := 1, column := 4 }, nBits := 256, data := some ddr5_multirank_tests.rd_data },
    .core { t := 10, type := .PRE, co := { bank := 1, rank := 1 } },
    .iface { t := 10, type := .PRE, co := { bank := 1, rank := 1 } },
    .core { t := 15, type := .PRE, co := { bank := 1 } },
    .iface { t := 15, type := .PRE, co := { bank := 1 } },
    .core { t := 20, type := .END_OF_SIMULATION },
    .iface { t := 20, type := .END_OF_SIMULATION },
    .stats]

def checks : List (Nat × Bool) := [
    (0, run0.ok),
    (75, run0.stats[0]!.bank.length == 32),
    (76, run0.stats[0]!.bank[1]!.cycles.act == 15),
    (77, run0.stats[0]!.bank[17]!.cycles.act == 8),
    (78, run0.stats[0]!.bank[1]!.cycles.pre == 5),
    (79, run0.stats[0]!.bank[17]!.cycles.pre == 12),
    (81, run0.stats[0]!.rankTotal[0]!.cycles.act == 15),
    (82, run0.stats[0]!.rankTotal[1]!.cycles.act == 8)]

#guard failing checks == []

end ddr5_multirank_tests.Pattern_1

namespace ddr5_multirank_tests.Pattern_2

def run0 : Log := run .ddr5 ({ ddr5 with
  core := { ddr5.core with numberOfRanks := 2 },
  power := { ddr5.power with ranks := 2 },
  iface := { ddr5.iface with ranks := 2 } }) [
    .core { t := 0, type := .ACT },
    .iface { t := 0, type := .ACT },
    .core { t := 5, type := .ACT, co := { rank := 1 } },
    .iface { t := 5, type := .ACT, co := { rank := 1 } },
    .core { t := 15, type := .RDA, co := { column := 4 }, nBits := 256, data := some ddr5_multirank_tests.rd_data },
    .iface { t := 15, type := .RDA, co := { column := 4 }, nBits := 256, data := some ddr5_multirank_tests.rd_data },
    .core { t := 22, type := .ACT, co := { bank := 3 } },
    .iface { t := 22, type := .ACT, co := { bank := 3 } },
    .core { t := 35, type := .RD, co := { rank := 1 }, nBits := 256, data := some ddr5_multirank_tests.rd_data },
    .iface { t := 35, type := .RD, co := { rank := 1 }, nBits := 256, data := some ddr5_multirank_tests.rd_data },
    .core { t := 55, type := .RD, co := { bank := 3, column := 3 }, nBits := 256, data := some ddr5_multirank_tests.rd_data },
    .iface { t := 55, type := .RD, co := { bank := 3, column := 3 }, nBits := 256, data := some ddr5_multirank_tests.rd_data },
    .core { t := 60, type := .PREA },
    .iface { t := 60, type := .PREA },
    .core { t := 65, type := .PREA, co := { rank := 1 } },
    .iface { t := 65, type := .PREA, co := { rank := 1 } },
    .core { t := 75, type := .REFA },
    .iface { t := 75, type := .REFA },
    .core { t := 80, type := .REFA, co := { rank := 1 } },
    .iface { t := 80, type := .REFA, co := { rank := 1 } },
    .core { t := 130, type := .END_OF_SIMULATION },
    .iface { t := 130, type := .END_OF_SIMULATION },
    .stats]

def checks : List (Nat × Bool) := [
    (0, run0.ok),
    (116, run0.stats[0]!.bank.length == 32),
    (117, run0.stats[0]!.bank[0]!.cycles.act == 45),
    (118, run0.stats[0]!.bank[3]!.cycles.act == 63),
    (119, run0.stats[0]!.bank[16]!.cycles.act == 85),
    (121, run0.stats[0]!.bank[0]!.cycles.pre == 85),
    (122, run0.stats[0]!.bank[3]!.cycles.pre == 67),
    (123, run0.stats[0]!.bank[16]!.cycles.pre == 45),
    (125, run0.stats[0]!.rankTotal[0]!.cycles.act == 83),
    (126, run0.stats[0]!.rankTotal[1]!.cycles.act == 85)]

#guard failing checks == []

end ddr5_multirank_tests.Pattern_2

/-! ## tests/tests_drampower/core/DDR5/ddr5_test_pattern_0.cpp -/

namespace ddr5_0.Counters_and_Cycles

def run0 : Log := run .ddr5 (ddr5) [
    .core { t := 0, type := .ACT },
    .core { t := 15, type := .PRE },
    .core { t := 15, type := .END_OF_SIMULATION },
    .stats]

def checks : List (Nat × Bool) := [
    (0, run0.ok),
    (54, run0.stats[0]!.bank[0]!.counter.act == 1),
    (55, run0.stats[0]!.bank[1]!.counter.act == 0),
    (55, run0.stats[0]!.bank[2]!.counter.act == 0),
    (55, run0.stats[0]!.bank[3]!.counter.act == 0),
    (55, run0.stats[0]!.bank[4]!.counter.act == 0),
    (55, run0.stats[0]!.bank[5]!.counter.act == 0),
    (55, run0.stats[0]!.bank[6]!.counter.act == 0),
    (55, run0.stats[0]!.bank[7]!.counter.act == 0),
    (55, run0.stats[0]!.bank[8]!.counter.act == 0),
    (55, run0.stats[0]!.bank[9]!.counter.act == 0),
    (55, run0.stats[0]!.bank[10]!.counter.act == 0),
    (55, run0.stats[0]!.bank[11]!.counter.act == 0),
    (55, run0.stats[0]!.bank[12]!.counter.act == 0),
    (55, run0.stats[0]!.bank[13]!.counter.act == 0),
    (55, run0.stats[0]!.bank[14]!.counter.act == 0),
    (55, run0.stats[0]!.bank[15]!.counter.act == 0),
    (59, run0.stats[0]!.rankTotal[0]!.cycles.act == 15),
    (60, run0.stats[0]!.rankTotal[0]!.cycles.pre == 0),
    (63, run0.stats[0]!.bank[0]!.cycles.act == 15),
    (64, run0.stats[0]!.bank[1]!.cycles.act == 0),
    (64, run0.stats[0]!.bank[2]!.cycles.act == 0),
    (64, run0.stats[0]!.bank[3]!.cycles.act == 0),
    (64, run0.stats[0]!.bank[4]!.cycles.act == 0),
    (64, run0.stats[0]!.bank[5]!.cycles.act == 0),
    (64, run0.stats[0]!.bank[6]!.cycles.act == 0),
    (64, run0.stats[0]!.bank[7]!.cycles.act == 0),
    (64, run0.stats[0]!.bank[8]!.cycles.act == 0),
    (64, run0.stats[0]!.bank[9]!.cycles.act == 0),
    (64, run0.stats[0]!.bank[10]!.cycles.act == 0),
    (64, run0.stats[0]!.bank[11]!.cycles.act == 0),
    (64, run0.stats[0]!.bank[12]!.cycles.act == 0),
    (64, run0.stats[0]!.bank[13]!.cycles.act == 0),
    (64, run0.stats[0]!.bank[14]!.cycles.act == 0),
    (64, run0.stats[0]!.bank[15]!.cycles.act == 0),
    (67, run0.stats[0]!.bank[0]!.cycles.pre == 0),
    (68, run0.stats[0]!.bank[1]!.cycles.pre == 15),
    (68, run0.stats[0]!.bank[2]!.cycles.pre == 15),
    (68, run0.stats[0]!.bank[3]!.cycles.pre == 15),
    (68, run0.stats[0]!.bank[4]!.cycles.pre == 15),
    (68, run0.stats[0]!.bank[5]!.cycles.pre == 15),
    (68, run0.stats[0]!.bank[6]!.cycles.pre == 15),
    (68, run0.stats[0]!.bank[7]!.cycles.pre == 15),
    (68, run0.stats[0]!.bank[8]!.cycles.pre == 15),
    (68, run0.stats[0]!.bank[9]!.cycles.pre == 15),
    (68, run0.stats[0]!.bank[10]!.cycles.pre == 15),
    (68, run0.stats[0]!.bank[11]!.cycles.pre == 15),
    (68, run0.stats[0]!.bank[12]!.cycles.pre == 15),
    (68, run0.stats[0]!.bank[13]!.cycles.pre == 15),
    (68, run0.stats[0]!.bank[14]!.cycles.pre == 15),
    (68, run0.stats[0]!.bank[15]!.cycles.pre == 15)]

#guard failing checks == []

end ddr5_0.Counters_and_Cycles

namespace ddr5_0.Energy

def run0 : Log := run .ddr5 (ddr5) [
    .core { t := 0, type := .ACT },
    .core { t := 15, type := .PRE },
    .core { t := 15, type := .END_OF_SIMULATION },
    .coreEnergy 15]

def checks : List (Nat × Bool) := [
    (0, run0.ok),
    (80, (nearest (((run0.energies[0]!.aggregated.eAct : Rat) * 1000000000000) : Rat) : Rat) == 179),
    (81, (nearest (((run0.energies[0]!.aggregated.ePre : Rat) * 1000000000000) : Rat) : Rat) == 208),
    (82, (nearest (((run0.energies[0]!.aggregated.eBgAct : Rat) * 1000000000000) : Rat) : Rat) == 510),
    (83, (nearest (((run0.energies[0]!.shared.bgActShared : Rat) * 1000000000000) : Rat) : Rat) == 507),
    (84, (nearest (((run0.energies[0]!.aggregated.eBgPre : Rat) * 1000000000000) : Rat) : Rat) == 0),
    (85, (nearest (((run0.energies[0]!.aggregated.total : Rat) * 1000000000000) : Rat) : Rat) == 897)]

#guard failing checks == []

end ddr5_0.Energy

/-! ## tests/tests_drampower/core/DDR5/ddr5_test_pattern_1.cpp -/

namespace ddr5_1.Counters_and_Cycles

def run0 : Log := run .ddr5 (ddr5) [
    .core { t := 0, type := .ACT },
    .core { t := 15, type := .RD },
    .core { t := 35, type := .PRE },
    .core { t := 35, type := .END_OF_SIMULATION },
    .stats]

def checks : List (Nat × Bool) := [
    (0, run0.ok),
    (55, run0.stats[0]!.bank[0]!.counter.act == 1),
    (57, run0.stats[0]!.bank[1]!.counter.act == 0),
    (57, run0.stats[0]!.bank[2]!.counter.act == 0),
    (57, run0.stats[0]!.bank[3]!.counter.act == 0),
    (57, run0.stats[0]!.bank[4]!.counter.act == 0),
    (57, run0.stats[0]!.bank[5]!.counter.act == 0),
    (57, run0.stats[0]!.bank[6]!.counter.act == 0),
    (57, run0.stats[0]!.bank[7]!.counter.act == 0),
    (57, run0.stats[0]!.bank[8]!.counter.act == 0),
    (57, run0.stats[0]!.bank[9]!.counter.act == 0),
    (57, run0.stats[0]!.bank[10]!.counter.act == 0),
    (57, run0.stats[0]!.bank[11]!.counter.act == 0),
    (57, run0.stats[0]!.bank[12]!.counter.act == 0),
    (57, run0.stats[0]!.bank[13]!.counter.act == 0),
    (57, run0.stats[0]!.bank[14]!.counter.act == 0),
    (57, run0.stats[0]!.bank[15]!.counter.act == 0),
    (60, run0.stats[0]!.bank[0]!.counter.reads == 1),
    (62, run0.stats[0]!.bank[1]!.counter.reads == 0),
    (62, run0.stats[0]!.bank[2]!.counter.reads == 0),
    (62, run0.stats[0]!.bank[3]!.counter.reads == 0),
    (62, run0.stats[0]!.bank[4]!.counter.reads == 0),
    (62, run0.stats[0]!.bank[5]!.counter.reads == 0),
    (62, run0.stats[0]!.bank[6]!.counter.reads == 0),
    (62, run0.stats[0]!.bank[7]!.counter.reads == 0),
    (62, run0.stats[0]!.bank[8]!.counter.reads == 0),
    (62, run0.stats[0]!.bank[9]!.counter.reads == 0),
    (62, run0.stats[0]!.bank[10]!.counter.reads == 0),
    (62, run0.stats[0]!.bank[11]!.counter.reads == 0),
    (62, run0.stats[0]!.bank[12]!.counter.reads == 0),
    (62, run0.stats[0]!.bank[13]!.counter.reads == 0),
    (62, run0.stats[0]!.bank[14]!.counter.reads == 0),
    (62, run0.stats[0]!.bank[15]!.counter.reads == 0),
    (65, run0.stats[0]!.bank[0]!.counter.pre == 1),
    (67, run0.stats[0]!.bank[1]!.counter.pre == 0),
    (67, run0.stats[0]!.bank[2]!.counter.pre == 0),
    (67, run0.stats[0]!.bank[3]!.counter.pre == 0),
    (67, run0.stats[0]!.bank[4]!.counter.pre == 0),
    (67, run0.stats[0]!.bank[5]!.counter.pre == 0),
    (67, run0.stats[0]!.bank[6]!.counter.pre == 0),
    (67, run0.stats[0]!.bank[7]!.counter.pre == 0),
    (67, run0.stats[0]!.bank[8]!.counter.pre == 0),
    (67, run0.stats[0]!.bank[9]!.counter.pre == 0),
    (67, run0.stats[0]!.bank[10]!.counter.pre == 0),
    (67, run0.stats[0]!.bank[11]!.counter.pre == 0),
    (67, run0.stats[0]!.bank[12]!.counter.pre == 0),
    (67, run0.stats[0]!.bank[13]!.counter.pre == 0),
    (67, run0.stats[0]!.bank[14]!.counter.pre == 0),
    (67, run0.stats[0]!.bank[15]!.counter.pre == 0),
    (70, run0.stats[0]!.rankTotal[0]!.cycles.act == 35),
    (71, run0.stats[0]!.rankTotal[0]!.cycles.pre == 0),
    (74, run0.stats[0]!.bank[0]!.cycles.act == 35),
    (76, run0.stats[0]!.bank[1]!.cycles.act == 0),
    (76, run0.stats[0]!.bank[2]!.cycles.act == 0),
    (76, run0.stats[0]!.bank[3]!.cycles.act == 0),
    (76, run0.stats[0]!.bank[4]!.cycles.act == 0),
    (76, run0.stats[0]!.bank[5]!.cycles.act == 0),
    (76, run0.stats[0]!.bank[6]!.cycles.act == 0),
    (76, run0.stats[0]!.bank[7]!.cycles.act == 0),
    (76, run0.stats[0]!.bank[8]!.cycles.act == 0),
    (76, run0.stats[0]!.bank[9]!.cycles.act == 0),
    (76, run0.stats[0]!.bank[10]!.cycles.act == 0),
    (76, run0.stats[0]!.bank[11]!.cycles.act == 0),
    (76, run0.stats[0]!.bank[12]!.cycles.act == 0),
    (76, run0.stats[0]!.bank[13]!.cycles.act == 0),
    (76, run0.stats[0]!.bank[14]!.cycles.act == 0),
    (76, run0.stats[0]!.bank[15]!.cycles.act == 0),
    (79, run0.stats[0]!.bank[0]!.cycles.pre == 0),
    (81, run0.stats[0]!.bank[1]!.cycles.pre == 35),
    (81, run0.stats[0]!.bank[2]!.cycles.pre == 35),
    (81, run0.stats[0]!.bank[3]!.cycles.pre == 35),
    (81, run0.stats[0]!.bank[4]!.cycles.pre == 35),
    (81, run0.stats[0]!.bank[5]!.cycles.pre == 35),
    (81, run0.stats[0]!.bank[6]!.cycles.pre == 35),
    (81, run0.stats[0]!.bank[7]!.cycles.pre == 35),
    (81, run0.stats[0]!.bank[8]!.cycles.pre == 35),
    (81, run0.stats[0]!.bank[9]!.cycles.pre == 35),
    (81, run0.stats[0]!.bank[10]!.cycles.pre == 35),
    (81, run0.stats[0]!.bank[11]!.cycles.pre == 35),
    (81, run0.stats[0]!.bank[12]!.cycles.pre == 35),
    (81, run0.stats[0]!.bank[13]!.cycles.pre == 35),
    (81, run0.stats[0]!.bank[14]!.cycles.pre == 35),
    (81, run0.stats[0]!.bank[15]!.cycles.pre == 35)]

#guard failing checks == []

end ddr5_1.Counters_and_Cycles

namespace ddr5_1.Energy

def run0 : Log := run .ddr5 (ddr5) [
    .core { t := 0, type := .ACT },
    .core { t := 15, type := .RD },
    .core { t := 35, type := .PRE },
    .core { t := 35, type := .END_OF_SIMULATION },
    .coreEnergy 35]

def checks : List (Nat × Bool) := [
    (0, run0.ok),
    (93, (nearest (((run0.energies[0]!.aggregated.eAct : Rat) * 1000000000000) : Rat) : Rat) == 179),
    (94, (nearest (((run0.energies[0]!.aggregated.ePre : Rat) * 1000000000000) : Rat) : Rat) == 208),
    (95, (nearest (((run0.energies[0]!.aggregated.eRD : Rat) * 1000000000000) : Rat) : Rat) == 436),
    (96, (nearest (((run0.energies[0]!.aggregated.eBgAct : Rat) * 1000000000000) : Rat) : Rat) == 1189),
    (97, (nearest (((run0.energies[0]!.shared.bgActShared : Rat) * 1000000000000) : Rat) : Rat) == 1183),
    (98, (nearest (((run0.energies[0]!.aggregated.eBgPre : Rat) * 1000000000000) : Rat) : Rat) == 0),
    (99, (nearest (((run0.energies[0]!.aggregated.total : Rat) * 1000000000000) : Rat) : Rat) == 2012)]

#guard failing checks == []

end ddr5_1.Energy

/-! ## tests/tests_drampower/core/DDR5/ddr5_test_pattern_2.cpp -/

namespace ddr5_2.Counters_and_Cycles

def run0 : Log := run .ddr5 (ddr5) [
    .core { t := 0, type := .ACT },
    .core { t := 15, type := .RD },
    .core { t := 35, type := .PRE },
    .core { t := 50, type := .END_OF_SIMULATION },
    .stats]

def checks : List (Nat × Bool) := [
    (0, run0.ok),
    (55, run0.stats[0]!.bank[0]!.counter.act == 1),
    (57, run0.stats[0]!.bank[1]!.counter.act == 0),
    (57, run0.stats[0]!.bank[2]!.counter.act == 0),
    (57, run0.stats[0]!.bank[3]!.counter.act == 0),
    (57, run0.stats[0]!.bank[4]!.counter.act == 0),
    (57, run0.stats[0]!.bank[5]!.counter.act == 0),
    (57, run0.stats[0]!.bank[6]!.counter.act == 0),
    (57, run0.stats[0]!.bank[7]!.counter.act == 0),
    (57, run0.stats[0]!.bank[8]!.counter.act == 0),
    (57, run0.stats[0]!.bank[9]!.counter.act == 0),
    (57, run0.stats[0]!.bank[10]!.counter.act == 0),
    (57, run0.stats[0]!.bank[11]!.counter.act == 0),
    (57, run0.stats[0]!.bank[12]!.counter.act == 0),
    (57, run0.stats[0]!.bank[13]!.counter.act == 0),
    (57, run0.stats[0]!.bank[14]!.counter.act == 0),
    (57, run0.stats[0]!.bank[15]!.counter.act == 0),
    (60, run0.stats[0]!.bank[0]!.counter.reads == 1),
    (62, run0.stats[0]!.bank[1]!.counter.reads == 0),
    (62, run0.stats[0]!.bank[2]!.counter.reads == 0),
    (62, run0.stats[0]!.bank[3]!.counter.reads == 0),
    (62, run0.stats[0]!.bank[4]!.counter.reads == 0),
    (62, run0.stats[0]!.bank[5]!.counter.reads == 0),
    (62, run0.stats[0]!.bank[6]!.counter.reads == 0),
    (62, run0.stats[0]!.bank[7]!.counter.reads == 0),
    (62, run0.stats[0]!.bank[8]!.counter.reads == 0),
    (62, run0.stats[0]!.bank[9]!.counter.reads == 0),
    (62, run0.stats[0]!.bank[10]!.counter.reads == 0),
    (62, run0.stats[0]!.bank[11]!.counter.reads == 0),
    (62, run0.stats[0]!.bank[12]!.counter.reads == 0),
    (62, run0.stats[0]!.bank[13]!.counter.reads == 0),
    (62, run0.stats[0]!.bank[14]!.counter.reads == 0),
    (62, run0.stats[0]!.bank[15]!.counter.reads == 0),
    (65, run0.stats[0]!.bank[0]!.counter.pre == 1),
    (67, run0.stats[0]!.bank[1]!.counter.pre == 0),
    (67, run0.stats[0]!.bank[2]!.counter.pre == 0),
    (67, run0.stats[0]!.bank[3]!.counter.pre == 0),
    (67, run0.stats[0]!.bank[4]!.counter.pre == 0),
    (67, run0.stats[0]!.bank[5]!.counter.pre == 0),
    (67, run0.stats[0]!.bank[6]!.counter.pre == 0),
    (67, run0.stats[0]!.bank[7]!.counter.pre == 0),
    (67, run0.stats[0]!.bank[8]!.counter.pre == 0),
    (67, run0.stats[0]!.bank[9]!.counter.pre == 0),
    (67, run0.stats[0]!.bank[10]!.counter.pre == 0),
    (67, run0.stats[0]!.bank[11]!.counter.pre == 0),
    (67, run0.stats[0]!.bank[12]!.counter.pre == 0),
    (67, run0.stats[0]!.bank[13]!.counter.pre == 0),
    (67, run0.stats[0]!.bank[14]!.counter.pre == 0),
    (67, run0.stats[0]!.bank[15]!.counter.pre == 0),
    (70, run0.stats[0]!.rankTotal[0]!.cycles.act == 35),
    (71, run0.stats[0]!.rankTotal[0]!.cycles.pre == 15),
    (74, run0.stats[0]!.bank[0]!.cycles.act == 35),
    (76, run0.stats[0]!.bank[1]!.cycles.act == 0),
    (76, run0.stats[0]!.bank[2]!.cycles.act == 0),
    (76, run0.stats[0]!.bank[3]!.cycles.act == 0),
    (76, run0.stats[0]!.bank[4]!.cycles.act == 0),
    (76, run0.stats[0]!.bank[5]!.cycles.act == 0),
    (76, run0.stats[0]!.bank[6]!.cycles.act == 0),
    (76, run0.stats[0]!.bank[7]!.cycles.act == 0),
    (76, run0.stats[0]!.bank[8]!.cycles.act == 0),
    (76, run0.stats[0]!.bank[9]!.cycles.act == 0),
    (76, run0.stats[0]!.bank[10]!.cycles.act == 0),
    (76, run0.stats[0]!.bank[11]!.cycles.act == 0),
    (76, run0.stats[0]!.bank[12]!.cycles.act == 0),
    (76, run0.stats[0]!.bank[13]!.cycles.act == 0),
    (76, run0.stats[0]!.bank[14]!.cycles.act == 0),
    (76, run0.stats[0]!.bank[15]!.cycles.act == 0),
    (79, run0.stats[0]!.bank[0]!.cycles.pre == 15),
    (81, run0.stats[0]!.bank[1]!.cycles.pre == 50),
    (81, run0.stats[0]!.bank[2]!.cycles.pre == 50),
    (81, run0.stats[0]!.bank[3]!.cycles.pre == 50),
    (81, run0.stats[0]!.bank[4]!.cycles.pre == 50),
    (81, run0.stats[0]!.bank[5]!.cycles.pre == 50),
    (81, run0.stats[0]!.bank[6]!.cycles.pre == 50),
    (81, run0.stats[0]!.bank[7]!.cycles.pre == 50),
    (81, run0.stats[0]!.bank[8]!.cycles.pre == 50),
    (81, run0.stats[0]!.bank[9]!.cycles.pre == 50),
    (81, run0.stats[0]!.bank[10]!.cycles.pre == 50),
    (81, run0.stats[0]!.bank[11]!.cycles.pre == 50),
    (81, run0.stats[0]!.bank[12]!.cycles.pre == 50),
    (81, run0.stats[0]!.bank[13]!.cycles.pre == 50),
    (81, run0.stats[0]!.bank[14]!.cycles.pre == 50),
    (81, run0.stats[0]!.bank[15]!.cycles.pre == 50)]

#guard failing checks == []

end ddr5_2.Counters_and_Cycles

namespace ddr5_2.Energy

def run0 : Log := run .ddr5 (ddr5) [
    .core { t := 0, type := .ACT },
    .core { t := 15, type := .RD },
    .core { t := 35, type := .PRE },
    .core { t := 50, type := .END_OF_SIMULATION },
    .coreEnergy 50]

def checks : List (Nat × Bool) := [
    (0, run0.ok),
    (92, (nearest (((run0.energies[0]!.aggregated.eAct : Rat) * 1000000000000) : Rat) : Rat) == 179),
    (93, (nearest (((run0.energies[0]!.aggregated.ePre : Rat) * 1000000000000) : Rat) : Rat) == 208),
    (94, (nearest (((run0.energies[0]!.aggregated.eRD : Rat) * 1000000000000) : Rat) : Rat) == 436),
    (95, (nearest (((run0.energies[0]!.aggregated.eBgAct : Rat) * 1000000000000) : Rat) : Rat) == 1189),
    (96, (nearest (((run0.energies[0]!.shared.bgActShared : Rat) * 1000000000000) : Rat) : Rat) == 1183),
    (97, (nearest (((run0.energies[0]!.aggregated.eBgPre : Rat) * 1000000000000) : Rat) : Rat) == 467),
    (98, (nearest (((run0.energies[0]!.aggregated.total : Rat) * 1000000000000) : Rat) : Rat) == 2479)]

#guard failing checks == []

end ddr5_2.Energy

/-! ## tests/tests_drampower/core/DDR5/ddr5_test_pattern_3.cpp -/

namespace ddr5_3.Counters_and_Cycles

def run0 : Log := run .ddr5 (ddr5) [
    .core { t := 0, type := .ACT },
    .core { t := 15, type := .RD },
    .core { t := 20, type := .ACT, co := { bank := 3 } },
    .core { t := 35, type := .PRE },
    .core { t := 45, type := .PRE, co := { bank := 3 } },
    .core { t := 50, type := .END_OF_SIMULATION },
    .stats]

def checks : List (Nat × Bool) := [
    (0, run0.ok),
    (59, run0.stats[0]!.bank[0]!.counter.act == 1),
    (61, run0.stats[0]!.bank[1]!.counter.act == 0),
    (61, run0.stats[0]!.bank[2]!.counter.act == 0),
    (59, run0.stats[0]!.bank[3]!.counter.act == 1),
    (61, run0.stats[0]!.bank[4]!.counter.act == 0),
    (61, run0.stats[0]!.bank[5]!.counter.act == 0),
    (61, run0.stats[0]!.bank[6]!.counter.act == 0),
    (61, run0.stats[0]!.bank[7]!.counter.act == 0),
    (61, run0.stats[0]!.bank[8]!.counter.act == 0),
    (61, run0.stats[0]!.bank[9]!.counter.act == 0),
    (61, run0.stats[0]!.bank[10]!.counter.act == 0),
    (61, run0.stats[0]!.bank[11]!.counter.act == 0),
    (61, run0.stats[0]!.bank[12]!.counter.act == 0),
    (61, run0.stats[0]!.bank[13]!.counter.act == 0),
    (61, run0.stats[0]!.bank[14]!.counter.act == 0),
    (61, run0.stats[0]!.bank[15]!.counter.act == 0),
    (67, run0.stats[0]!.bank[0]!.counter.reads == 1),
    (69, run0.stats[0]!.bank[1]!.counter.reads == 0),
    (69, run0.stats[0]!.bank[2]!.counter.reads == 0),
    (69, run0.stats[0]!.bank[3]!.counter.reads == 0),
    (69, run0.stats[0]!.bank[4]!.counter.reads == 0),
    (69, run0.stats[0]!.bank[5]!.counter.reads == 0),
    (69, run0.stats[0]!.bank[6]!.counter.reads == 0),
    (69, run0.stats[0]!.bank[7]!.counter.reads == 0),
    (69, run0.stats[0]!.bank[8]!.counter.reads == 0),
    (69, run0.stats[0]!.bank[9]!.counter.reads == 0),
    (69, run0.stats[0]!.bank[10]!.counter.reads == 0),
    (69, run0.stats[0]!.bank[11]!.counter.reads == 0),
    (69, run0.stats[0]!.bank[12]!.counter.reads == 0),
    (69, run0.stats[0]!.bank[13]!.counter.reads == 0),
    (69, run0.stats[0]!.bank[14]!.counter.reads == 0),
    (69, run0.stats[0]!.bank[15]!.counter.reads == 0),
    (75, run0.stats[0]!.bank[0]!.counter.pre == 1),
    (77, run0.stats[0]!.bank[1]!.counter.pre == 0),
    (77, run0.stats[0]!.bank[2]!.counter.pre == 0),
    (75, run0.stats[0]!.bank[3]!.counter.pre == 1),
    (77, run0.stats[0]!.bank[4]!.counter.pre == 0),
    (77, run0.stats[0]!.bank[5]!.counter.pre == 0),
    (77, run0.stats[0]!.bank[6]!.counter.pre == 0),
    (77, run0.stats[0]!.bank[7]!.counter.pre == 0),
    (77, run0.stats[0]!.bank[8]!.counter.pre == 0),
    (77, run0.stats[0]!.bank[9]!.counter.pre == 0),
    (77, run0.stats[0]!.bank[10]!.counter.pre == 0),
    (77, run0.stats[0]!.bank[11]!.counter.pre == 0),
    (77, run0.stats[0]!.bank[12]!.counter.pre == 0),
    (77, run0.stats[0]!.bank[13]!.counter.pre == 0),
    (77, run0.stats[0]!.bank[14]!.counter.pre == 0),
    (77, run0.stats[0]!.bank[15]!.counter.pre == 0),
    (81, run0.stats[0]!.rankTotal[0]!.cycles.act == 45),
    (82, run0.stats[0]!.rankTotal[0]!.cycles.pre == 5),
    (87, run0.stats[0]!.bank[0]!.cycles.act == 35),
    (91, run0.stats[0]!.bank[1]!.cycles.act == 0),
    (91, run0.stats[0]!.bank[2]!.cycles.act == 0),
    (89, run0.stats[0]!.bank[3]!.cycles.act == 25),
    (91, run0.stats[0]!.bank[4]!.cycles.act == 0),
    (91, run0.stats[0]!.bank[5]!.cycles.act == 0),
    (91, run0.stats[0]!.bank[6]!.cycles.act == 0),
    (91, run0.stats[0]!.bank[7]!.cycles.act == 0),
    (91, run0.stats[0]!.bank[8]!.cycles.act == 0),
    (91, run0.stats[0]!.bank[9]!.cycles.act == 0),
    (91, run0.stats[0]!.bank[10]!.cycles.act == 0),
    (91, run0.stats[0]!.bank[11]!.cycles.act == 0),
    (91, run0.stats[0]!.bank[12]!.cycles.act == 0),
    (91, run0.stats[0]!.bank[13]!.cycles.act == 0),
    (91, run0.stats[0]!.bank[14]!.cycles.act == 0),
    (91, run0.stats[0]!.bank[15]!.cycles.act == 0),
    (101, run0.stats[0]!.bank[1]!.cycles.pre == 50),
    (101, run0.stats[0]!.bank[2]!.cycles.pre == 50),
    (99, run0.stats[0]!.bank[3]!.cycles.pre == 25),
    (101, run0.stats[0]!.bank[4]!.cycles.pre == 50),
    (101, run0.stats[0]!.bank[5]!.cycles.pre == 50),
    (101, run0.stats[0]!.bank[6]!.cycles.pre == 50),
    (101, run0.stats[0]!.bank[7]!.cycles.pre == 50),
    (101, run0.stats[0]!.bank[8]!.cycles.pre == 50),
    (101, run0.stats[0]!.bank[9]!.cycles.pre == 50),
    (101, run0.stats[0]!.bank[10]!.cycles.pre == 50),
    (101, run0.stats[0]!.bank[11]!.cycles.pre == 50),
    (101, run0.stats[0]!.bank[12]!.cycles.pre == 50),
    (101, run0.stats[0]!.bank[13]!.cycles.pre == 50),
    (101, run0.stats[0]!.bank[14]!.cycles.pre == 50),
    (101, run0.stats[0]!.bank[15]!.cycles.pre == 50)]

#guard failing checks == []

end ddr5_3.Counters_and_Cycles

namespace ddr5_3.Energy

def run0 : Log := run .ddr5 (ddr5) [
    .core { t := 0, type := .ACT },
    .core { t := 15, type := .RD },
    .core { t := 20, type := .ACT, co := { bank := 3 } },
    .core { t := 35, type := .PRE },
    .core { t := 45, type := .PRE, co := { bank := 3 } },
    .core { t := 50, type := .END_OF_SIMULATION },
    .coreEnergy 50]

def checks : List (Nat × Bool) := [
    (0, run0.ok),
    (113, (nearest (((run0.energies[0]!.aggregated.eAct : Rat) * 1000000000000) : Rat) : Rat) == 359),
    (114, (nearest (((run0.energies[0]!.aggregated.ePre : Rat) * 1000000000000) : Rat) : Rat) == 415),
    (115, (nearest (((run0.energies[0]!.aggregated.eRD : Rat) * 1000000000000) : Rat) : Rat) == 436),
    (116, (nearest (((run0.energies[0]!.aggregated.eBgAct : Rat) * 1000000000000) : Rat) : Rat) == 1531),
    (117, (nearest (((run0.energies[0]!.shared.bgActShared : Rat) * 1000000000000) : Rat) : Rat) == 1521),
    (118, (nearest (((run0.energies[0]!.aggregated.eBgPre : Rat) * 1000000000000) : Rat) : Rat) == 156),
    (119, (nearest (((run0.energies[0]!.aggregated.total : Rat) * 1000000000000) : Rat) : Rat) == 2897)]

#guard failing checks == []

end ddr5_3.Energy

/-! ## tests/tests_drampower/core/DDR5/ddr5_test_pattern_4.cpp -/

namespace ddr5_4.Counters_and_Cycles

def run0 : Log := run .ddr5 (ddr5) [
    .core { t := 0, type := .ACT },
    .core { t := 15, type := .RD },
    .core { t := 20, type := .ACT, co := { bank := 3 } },
    .core { t := 35, type := .RD, co := { bank := 3 } },
    .core { t := 40, type := .RD },
    .core { t := 50, type := .PREA },
    .core { t := 70, type := .END_OF_SIMULATION },
    .stats]

def checks : List (Nat × Bool) := [
    (0, run0.ok),
    (60, run0.stats[0]!.bank[0]!.counter.act == 1),
    (62, run0.stats[0]!.bank[1]!.counter.act == 0),
    (62, run0.stats[0]!.bank[2]!.counter.act == 0),
    (60, run0.stats[0]!.bank[3]!.counter.act == 1),
    (62, run0.stats[0]!.bank[4]!.counter.act == 0),
    (62, run0.stats[0]!.bank[5]!.counter.act == 0),
    (62, run0.stats[0]!.bank[6]!.counter.act == 0),
    (62, run0.stats[0]!.bank[7]!.counter.act == 0),
    (62, run0.stats[0]!.bank[8]!.counter.act == 0),
    (62, run0.stats[0]!.bank[9]!.counter.act == 0),
    (62, run0.stats[0]!.bank[10]!.counter.act == 0),
    (62, run0.stats[0]!.bank[11]!.counter.act == 0),
    (62, run0.stats[0]!.bank[12]!.counter.act == 0),
    (62, run0.stats[0]!.bank[13]!.counter.act == 0),
    (62, run0.stats[0]!.bank[14]!.counter.act == 0),
    (62, run0.stats[0]!.bank[15]!.counter.act == 0),
    (68, run0.stats[0]!.bank[0]!.counter.reads == 2),
    (72, run0.stats[0]!.bank[1]!.counter.reads == 0),
    (72, run0.stats[0]!.bank[2]!.counter.reads == 0),
    (70, run0.stats[0]!.bank[3]!.counter.reads == 1),
    (72, run0.stats[0]!.bank[4]!.counter.reads == 0),
    (72, run0.stats[0]!.bank[5]!.counter.reads == 0),
    (72, run0.stats[0]!.bank[6]!.counter.reads == 0),
    (72, run0.stats[0]!.bank[7]!.counter.reads == 0),
    (72, run0.stats[0]!.bank[8]!.counter.reads == 0),
    (72, run0.stats[0]!.bank[9]!.counter.reads == 0),
    (72, run0.stats[0]!.bank[10]!.counter.reads == 0),
    (72, run0.stats[0]!.bank[11]!.counter.reads == 0),
    (72, run0.stats[0]!.bank[12]!.counter.reads == 0),
    (72, run0.stats[0]!.bank[13]!.counter.reads == 0),
    (72, run0.stats[0]!.bank[14]!.counter.reads == 0),
    (72, run0.stats[0]!.bank[15]!.counter.reads == 0),
    (78, run0.stats[0]!.bank[0]!.counter.pre == 1),
    (80, run0.stats[0]!.bank[1]!.counter.pre == 0),
    (80, run0.stats[0]!.bank[2]!.counter.pre == 0),
    (78, run0.stats[0]!.bank[3]!.counter.pre == 1),
    (80, run0.stats[0]!.bank[4]!.counter.pre == 0),
    (80, run0.stats[0]!.bank[5]!.counter.pre == 0),
    (80, run0.stats[0]!.bank[6]!.counter.pre == 0),
    (80, run0.stats[0]!.bank[7]!.counter.pre == 0),
    (80, run0.stats[0]!.bank[8]!.counter.pre == 0),
    (80, run0.stats[0]!.bank[9]!.counter.pre == 0),
    (80, run0.stats[0]!.bank[10]!.counter.pre == 0),
    (80, run0.stats[0]!.bank[11]!.counter.pre == 0),
    (80, run0.stats[0]!.bank[12]!.counter.pre == 0),
    (80, run0.stats[0]!.bank[13]!.counter.pre == 0),
    (80, run0.stats[0]!.bank[14]!.counter.pre == 0),
    (80, run0.stats[0]!.bank[15]!.counter.pre == 0),
    (84, run0.stats[0]!.rankTotal[0]!.cycles.act == 50),
    (85, run0.stats[0]!.rankTotal[0]!.cycles.pre == 20),
    (90, run0.stats[0]!.bank[0]!.cycles.act == 50),
    (94, run0.stats[0]!.bank[1]!.cycles.act == 0),
    (94, run0.stats[0]!.bank[2]!.cycles.act == 0),
    (92, run0.stats[0]!.bank[3]!.cycles.act == 30),
    (94, run0.stats[0]!.bank[4]!.cycles.act == 0),
    (94, run0.stats[0]!.bank[5]!.cycles.act == 0),
    (94, run0.stats[0]!.bank[6]!.cycles.act == 0),
    (94, run0.stats[0]!.bank[7]!.cycles.act == 0),
    (94, run0.stats[0]!.bank[8]!.cycles.act == 0),
    (94, run0.stats[0]!.bank[9]!.cycles.act == 0),
    (94, run0.stats[0]!.bank[10]!.cycles.act == 0),
    (94, run0.stats[0]!.bank[11]!.cycles.act == 0),
    (94, run0.stats[0]!.bank[12]!.cycles.act == 0),
    (94, run0.stats[0]!.bank[13]!.cycles.act == 0),
    (94, run0.stats[0]!.bank[14]!.cycles.act == 0),
    (94, run0.stats[0]!.bank[15]!.cycles.act == 0),
    (104, run0.stats[0]!.bank[1]!.cycles.pre == 70),
    (104, run0.stats[0]!.bank[2]!.cycles.pre == 70),
    (102, run0.stats[0]!.bank[3]!.cycles.pre == 40),
    (104, run0.stats[0]!.bank[4]!.cycles.pre == 70),
    (104, run0.stats[0]!.bank[5]!.cycles.pre == 70),
    (104, run0.stats[0]!.bank[6]!.cycles.pre == 70),
    (104, run0.stats[0]!.bank[7]!.cycles.pre == 70),
    (104, run0.stats[0]!.bank[8]!.cycles.pre == 70),
    (104, run0.stats[0]!.bank[9]!.cycles.pre == 70),
    (104, run0.stats[0]!.bank[10]!.cycles.pre == 70),
    (104, run0.stats[0]!.bank[11]!.cycles.pre == 70),
    (104, run0.stats[0]!.bank[12]!.cycles.pre == 70),
    (104, run0.stats[0]!.bank[13]!.cycles.pre == 70),
    (104, run0.stats[0]!.bank[14]!.cycles.pre == 70),
    (104, run0.stats[0]!.bank[15]!.cycles.pre == 70)]

#guard failing checks == []

end ddr5_4.Counters_and_Cycles

namespace ddr5_4.Energy

def run0 : Log := run .ddr5 (ddr5) [
    .core { t := 0, type := .ACT },
    .core { t := 15, type := .RD },
    .core { t := 20, type := .ACT, co := { bank := 3 } },
    .core { t := 35, type := .RD, co := { bank := 3 } },
    .core { t := 40, type := .RD },
    .core { t := 50, type := .PREA },
    .core { t := 70, type := .END_OF_SIMULATION },
    .coreEnergy 70]

def checks : List (Nat × Bool) := [
    (0, run0.ok),
    (116, (nearest (((run0.energies[0]!.aggregated.eAct : Rat) * 1000000000000) : Rat) : Rat) == 359),
    (117, (nearest (((run0.energies[0]!.aggregated.ePre : Rat) * 1000000000000) : Rat) : Rat) == 415),
    (118, (nearest (((run0.energies[0]!.aggregated.eRD : Rat) * 1000000000000) : Rat) : Rat) == 1307),
    (119, (nearest (((run0.energies[0]!.aggregated.eBgAct : Rat) * 1000000000000) : Rat) : Rat) == 1704),
    (120, (nearest (((run0.energies[0]!.shared.bgActShared : Rat) * 1000000000000) : Rat) : Rat) == 1690),
    (121, (nearest (((run0.energies[0]!.aggregated.eBgPre : Rat) * 1000000000000) : Rat) : Rat) == 623),
    (122, (nearest (((run0.energies[0]!.aggregated.total : Rat) * 1000000000000) : Rat) : Rat) == 4408)]

#guard failing checks == []

end ddr5_4.Energy

/-! ## tests/tests_drampower/core/DDR5/ddr5_test_pattern_5.cpp -/

namespace ddr5_5.Counters_and_Cycles

def run0 : Log := run .ddr5 (ddr5) [
    .core { t := 0, type := .ACT },
    .core { t := 15, type := .RD },
    .core { t := 20, type := .ACT, co := { bank := 3 } },
    .core { t := 35, type := .RD, co := { bank := 3 } },
    .core { t := 40, type := .RD },
    .core { t := 50, type := .PREA },
    .core { t := 65, type := .REFA },
    .core { t := 100, type := .END_OF_SIMULATION },
    .stats]

def checks : List (Nat × Bool) := [
    (0, run0.ok),
    (61, run0.stats[0]!.bank[0]!.counter.act == 1),
    (63, run0.stats[0]!.bank[1]!.counter.act == 0),
    (63, run0.stats[0]!.bank[2]!.counter.act == 0),
    (61, run0.stats[0]!.bank[3]!.counter.act == 1),
    (63, run0.stats[0]!.bank[4]!.counter.act == 0),
    (63, run0.stats[0]!.bank[5]!.counter.act == 0),
    (63, run0.stats[0]!.bank[6]!.counter.act == 0),
    (63, run0.stats[0]!.bank[7]!.counter.act == 0),
    (63, run0.stats[0]!.bank[8]!.counter.act == 0),
    (63, run0.stats[0]!.bank[9]!.counter.act == 0),
    (63, run0.stats[0]!.bank[10]!.counter.act == 0),
    (63, run0.stats[0]!.bank[11]!.counter.act == 0),
    (63, run0.stats[0]!.bank[12]!.counter.act == 0),
    (63, run0.stats[0]!.bank[13]!.counter.act == 0),
    (63, run0.stats[0]!.bank[14]!.counter.act == 0),
    (63, run0.stats[0]!.bank[15]!.counter.act == 0),
    (69, run0.stats[0]!.bank[0]!.counter.reads == 2),
    (73, run0.stats[0]!.bank[1]!.counter.reads == 0),
    (73, run0.stats[0]!.bank[2]!.counter.reads == 0),
    (71, run0.stats[0]!.bank[3]!.counter.reads == 1),
    (73, run0.stats[0]!.bank[4]!.counter.reads == 0),
    (73, run0.stats[0]!.bank[5]!.counter.reads == 0),
    (73, run0.stats[0]!.bank[6]!.counter.reads == 0),
    (73, run0.stats[0]!.bank[7]!.counter.reads == 0),
    (73, run0.stats[0]!.bank[8]!.counter.reads == 0),
    (73, run0.stats[0]!.bank[9]!.counter.reads == 0),
    (73, run0.stats[0]!.bank[10]!.counter.reads == 0),
    (73, run0.stats[0]!.bank[11]!.counter.reads == 0),
    (73, run0.stats[0]!.bank[12]!.counter.reads == 0),
    (73, run0.stats[0]!.bank[13]!.counter.reads == 0),
    (73, run0.stats[0]!.bank[14]!.counter.reads == 0),
    (73, run0.stats[0]!.bank[15]!.counter.reads == 0),
    (79, run0.stats[0]!.bank[0]!.counter.pre == 1),
    (81, run0.stats[0]!.bank[1]!.counter.pre == 0),
    (81, run0.stats[0]!.bank[2]!.counter.pre == 0),
    (79, run0.stats[0]!.bank[3]!.counter.pre == 1),
    (81, run0.stats[0]!.bank[4]!.counter.pre == 0),
    (81, run0.stats[0]!.bank[5]!.counter.pre == 0),
    (81, run0.stats[0]!.bank[6]!.counter.pre == 0),
    (81, run0.stats[0]!.bank[7]!.counter.pre == 0),
    (81, run0.stats[0]!.bank[8]!.counter.pre == 0),
    (81, run0.stats[0]!.bank[9]!.counter.pre == 0),
    (81, run0.stats[0]!.bank[10]!.counter.pre == 0),
    (81, run0.stats[0]!.bank[11]!.counter.pre == 0),
    (81, run0.stats[0]!.bank[12]!.counter.pre == 0),
    (81, run0.stats[0]!.bank[13]!.counter.pre == 0),
    (81, run0.stats[0]!.bank[14]!.counter.pre == 0),
    (81, run0.stats[0]!.bank[15]!.counter.pre == 0),
    (86, run0.stats[0]!.bank[0]!.counter.refAllBank == 1),
    (86, run0.stats[0]!.bank[1]!.counter.refAllBank == 1),
    (86, run0.stats[0]!.bank[2]!.counter.refAllBank == 1),
    (86, run0.stats[0]!.bank[3]!.counter.refAllBank == 1),
    (86, run0.stats[0]!.bank[4]!.counter.refAllBank == 1),
    (86, run0.stats[0]!.bank[5]!.counter.refAllBank == 1),
    (86, run0.stats[0]!.bank[6]!.counter.refAllBank == 1),
    (86, run0.stats[0]!.bank[7]!.counter.refAllBank == 1),
    (86, run0.stats[0]!.bank[8]!.counter.refAllBank == 1),
    (86, run0.stats[0]!.bank[9]!.counter.refAllBank == 1),
    (86, run0.stats[0]!.bank[10]!.counter.refAllBank == 1),
    (86, run0.stats[0]!.bank[11]!.counter.refAllBank == 1),
    (86, run0.stats[0]!.bank[12]!.counter.refAllBank == 1),
    (86, run0.stats[0]!.bank[13]!.counter.refAllBank == 1),
    (86, run0.stats[0]!.bank[14]!.counter.refAllBank == 1),
    (86, run0.stats[0]!.bank[15]!.counter.refAllBank == 1),
    (90, run0.stats[0]!.rankTotal[0]!.cycles.act == 75),
    (91, run0.stats[0]!.rankTotal[0]!.cycles.pre == 25),
    (96, run0.stats[0]!.bank[0]!.cycles.act == 75),
    (100, run0.stats[0]!.bank[1]!.cycles.act == 25),
    (100, run0.stats[0]!.bank[2]!.cycles.act == 25),
    (98, run0.stats[0]!.bank[3]!.cycles.act == 55),
    (100, run0.stats[0]!.bank[4]!.cycles.act == 25),
    (100, run0.stats[0]!.bank[5]!.cycles.act == 25),
    (100, run0.stats[0]!.bank[6]!.cycles.act == 25),
    (100, run0.stats[0]!.bank[7]!.cycles.act == 25),
    (100, run0.stats[0]!.bank[8]!.cycles.act == 25),
    (100, run0.stats[0]!.bank[9]!.cycles.act == 25),
    (100, run0.stats[0]!.bank[10]!.cycles.act == 25),
    (100, run0.stats[0]!.bank[11]!.cycles.act == 25),
    (100, run0.stats[0]!.bank[12]!.cycles.act == 25),
    (100, run0.stats[0]!.bank[13]!.cycles.act == 25),
    (100, run0.stats[0]!.bank[14]!.cycles.act == 25),
    (100, run0.stats[0]!.bank[15]!.cycles.act == 25),
    (110, run0.stats[0]!.bank[1]!.cycles.pre == 75),
    (110, run0.stats[0]!.bank[2]!.cycles.pre == 75),
    (108, run0.stats[0]!.bank[3]!.cycles.pre == 45),
    (110, run0.stats[0]!.bank[4]!.cycles.pre == 75),
    (110, run0.stats[0]!.bank[5]!.cycles.pre == 75),
    (110, run0.stats[0]!.bank[6]!.cycles.pre == 75),
    (110, run0.stats[0]!.bank[7]!.cycles.pre == 75),
    (110, run0.stats[0]!.bank[8]!.cycles.pre == 75),
    (110, run0.stats[0]!.bank[9]!.cycles.pre == 75),
    (110, run0.stats[0]!.bank[10]!.cycles.pre == 75),
    (110, run0.stats[0]!.bank[11]!.cycles.pre == 75),
    (110, run0.stats[0]!.bank[12]!.cycles.pre == 75),
    (110, run0.stats[0]!.bank[13]!.cycles.pre == 75),
    (110, run0.stats[0]!.bank[14]!.cycles.pre == 75),
    (110, run0.stats[0]!.bank[15]!.cycles.pre == 75)]

#guard failing checks == []

end ddr5_5.Counters_and_Cycles

namespace ddr5_5.Energy

def run0 : Log := run .ddr5 (ddr5) [
    .core { t := 0, type := .ACT },
    .core { t := 15, type := .RD },
    .core { t := 20, type := .ACT, co := { bank := 3 } },
    .core { t := 35, type := .RD, co := { bank := 3 } },
    .core { t := 40, type := .RD },
    .core { t := 50, type := .PREA },
    .core { t := 65, type := .REFA },
    .core { t := 100, type := .END_OF_SIMULATION },
    .coreEnergy 100]

def checks : List (Nat × Bool) := [
    (0, run0.ok),
    (122, (nearest (((run0.energies[0]!.aggregated.eAct : Rat) * 1000000000000) : Rat) : Rat) == 359),
    (123, (nearest (((run0.energies[0]!.aggregated.ePre : Rat) * 1000000000000) : Rat) : Rat) == 415),
    (124, (nearest (((run0.energies[0]!.aggregated.eRD : Rat) * 1000000000000) : Rat) : Rat) == 1307),
    (125, (nearest (((run0.energies[0]!.aggregated.eRefAB : Rat) * 1000000000000) : Rat) : Rat) == 1812),
    (126, (nearest (((run0.energies[0]!.aggregated.eRefSB : Rat) * 1000000000000) : Rat) : Rat) == 0),
    (127, (nearest (((run0.energies[0]!.aggregated.eBgAct : Rat) * 1000000000000) : Rat) : Rat) == 2615),
    (128, (nearest (((run0.energies[0]!.shared.bgActShared : Rat) * 1000000000000) : Rat) : Rat) == 2536),
    (129, (nearest (((run0.energies[0]!.aggregated.eBgPre : Rat) * 1000000000000) : Rat) : Rat) == 779),
    (130, (nearest (((run0.energies[0]!.aggregated.total : Rat) * 1000000000000) : Rat) : Rat) == 7287)]

#guard failing checks == []

end ddr5_5.Energy

/-! ## tests/tests_drampower/core/DDR5/ddr5_test_pattern_6.cpp -/

namespace ddr5_6.Counters_and_Cycles

def run0 : Log := run .ddr5 (ddr5) [
    .core { t := 0, type := .ACT },
    .core { t := 15, type := .RDA },
    .core { t := 20, type := .ACT, co := { bank := 3 } },
    .core { t := 35, type := .RD, co := { bank := 3 } },
    .core { t := 50, type := .PREA },
    .core { t := 65, type := .REFA },
    .core { t := 100, type := .END_OF_SIMULATION },
    .stats]

def checks : List (Nat × Bool) := [
    (0, run0.ok),
    (60, run0.stats[0]!.bank[0]!.counter.act == 1),
    (62, run0.stats[0]!.bank[1]!.counter.act == 0),
    (62, run0.stats[0]!.bank[2]!.counter.act == 0),
    (60, run0.stats[0]!.bank[3]!.counter.act == 1),
    (62, run0.stats[0]!.bank[4]!.counter.act == 0),
    (62, run0.stats[0]!.bank[5]!.counter.act == 0),
    (62, run0.stats[0]!.bank[6]!.counter.act == 0),
    (62, run0.stats[0]!.bank[7]!.counter.act == 0),
    (62, run0.stats[0]!.bank[8]!.counter.act == 0),
    (62, run0.stats[0]!.bank[9]!.counter.act == 0),
    (62, run0.stats[0]!.bank[10]!.counter.act == 0),
    (62, run0.stats[0]!.bank[11]!.counter.act == 0),
    (62, run0.stats[0]!.bank[12]!.counter.act == 0),
    (62, run0.stats[0]!.bank[13]!.counter.act == 0),
    (62, run0.stats[0]!.bank[14]!.counter.act == 0),
    (62, run0.stats[0]!.bank[15]!.counter.act == 0),
    (70, run0.stats[0]!.bank[0]!.counter.reads == 0),
    (70, run0.stats[0]!.bank[1]!.counter.reads == 0),
    (70, run0.stats[0]!.bank[2]!.counter.reads == 0),
    (68, run0.stats[0]!.bank[3]!.counter.reads == 1),
    (70, run0.stats[0]!.bank[4]!.counter.reads == 0),
    (70, run0.stats[0]!.bank[5]!.counter.reads == 0),
    (70, run0.stats[0]!.bank[6]!.counter.reads == 0),
    (70, run0.stats[0]!.bank[7]!.counter.reads == 0),
    (70, run0.stats[0]!.bank[8]!.counter.reads == 0),
    (70, run0.stats[0]!.bank[9]!.counter.reads == 0),
    (70, run0.stats[0]!.bank[10]!.counter.reads == 0),
    (70, run0.stats[0]!.bank[11]!.counter.reads == 0),
    (70, run0.stats[0]!.bank[12]!.counter.reads == 0),
    (70, run0.stats[0]!.bank[13]!.counter.reads == 0),
    (70, run0.stats[0]!.bank[14]!.counter.reads == 0),
    (70, run0.stats[0]!.bank[15]!.counter.reads == 0),
    (75, run0.stats[0]!.bank[0]!.counter.readAuto == 1),
    (77, run0.stats[0]!.bank[1]!.counter.readAuto == 0),
    (77, run0.stats[0]!.bank[2]!.counter.readAuto == 0),
    (77, run0.stats[0]!.bank[3]!.counter.readAuto == 0),
    (77, run0.stats[0]!.bank[4]!.counter.readAuto == 0),
    (77, run0.stats[0]!.bank[5]!.counter.readAuto == 0),
    (77, run0.stats[0]!.bank[6]!.counter.readAuto == 0),
    (77, run0.stats[0]!.bank[7]!.counter.readAuto == 0),
    (77, run0.stats[0]!.bank[8]!.counter.readAuto == 0),
    (77, run0.stats[0]!.bank[9]!.counter.readAuto == 0),
    (77, run0.stats[0]!.bank[10]!.counter.readAuto == 0),
    (77, run0.stats[0]!.bank[11]!.counter.readAuto == 0),
    (77, run0.stats[0]!.bank[12]!.counter.readAuto == 0),
    (77, run0.stats[0]!.bank[13]!.counter.readAuto == 0),
    (77, run0.stats[0]!.bank[14]!.counter.readAuto == 0),
    (77, run0.stats[0]!.bank[15]!.counter.readAuto == 0),
    (83, run0.stats[0]!.bank[0]!.counter.pre == 1),
    (85, run0.stats[0]!.bank[1]!.counter.pre == 0),
    (85, run0.stats[0]!.bank[2]!.counter.pre == 0),
    (83, run0.stats[0]!.bank[3]!.counter.pre == 1),
    (85, run0.stats[0]!.bank[4]!.counter.pre == 0),
    (85, run0.stats[0]!.bank[5]!.counter.pre == 0),
    (85, run0.stats[0]!.bank[6]!.counter.pre == 0),
    (85, run0.stats[0]!.bank[7]!.counter.pre == 0),
    (85, run0.stats[0]!.bank[8]!.counter.pre == 0),
    (85, run0.stats[0]!.bank[9]!.counter.pre == 0),
    (85, run0.stats[0]!.bank[10]!.counter.pre == 0),
    (85, run0.stats[0]!.bank[11]!.counter.pre == 0),
    (85, run0.stats[0]!.bank[12]!.counter.pre == 0),
    (85, run0.stats[0]!.bank[13]!.counter.pre == 0),
    (85, run0.stats[0]!.bank[14]!.counter.pre == 0),
    (85, run0.stats[0]!.bank[15]!.counter.pre == 0),
    (90, run0.stats[0]!.bank[0]!.counter.refAllBank == 1),
    (90, run0.stats[0]!.bank[1]!.counter.refAllBank == 1),
    (90, run0.stats[0]!.bank[2]!.counter.refAllBank == 1),
    (90, run0.stats[0]!.bank[3]!.counter.refAllBank == 1),
    (90, run0.stats[0]!.bank[4]!.counter.refAllBank == 1),
    (90, run0.stats[0]!.bank[5]!.counter.refAllBank == 1),
    (90, run0.stats[0]!.bank[6]!.counter.refAllBank == 1),
    (90, run0.stats[0]!.bank[7]!.counter.refAllBank == 1),
    (90, run0.stats[0]!.bank[8]!.counter.refAllBank == 1),
    (90, run0.stats[0]!.bank[9]!.counter.refAllBank == 1),
    (90, run0.stats[0]!.bank[10]!.counter.refAllBank == 1),
    (90, run0.stats[0]!.bank[11]!.counter.refAllBank == 1),
    (90, run0.stats[0]!.bank[12]!.counter.refAllBank == 1),
    (90, run0.stats[0]!.bank[13]!.counter.refAllBank == 1),
    (90, run0.stats[0]!.bank[14]!.counter.refAllBank == 1),
    (90, run0.stats[0]!.bank[15]!.counter.refAllBank == 1),
    (94, run0.stats[0]!.rankTotal[0]!.cycles.act == 75),
    (95, run0.stats[0]!.rankTotal[0]!.cycles.pre == 25),
    (100, run0.stats[0]!.bank[0]!.cycles.act == 45),
    (104, run0.stats[0]!.bank[1]!.cycles.act == 25),
    (104, run0.stats[0]!.bank[2]!.cycles.act == 25),
    (102, run0.stats[0]!.bank[3]!.cycles.act == 55),
    (104, run0.stats[0]!.bank[4]!.cycles.act == 25),
    (104, run0.stats[0]!.bank[5]!.cycles.act == 25),
    (104, run0.stats[0]!.bank[6]!.cycles.act == 25),
    (104, run0.stats[0]!.bank[7]!.cycles.act == 25),
    (104, run0.stats[0]!.bank[8]!.cycles.act == 25),
    (104, run0.stats[0]!.bank[9]!.cycles.act == 25),
    (104, run0.stats[0]!.bank[10]!.cycles.act == 25),
    (104, run0.stats[0]!.bank[11]!.cycles.act == 25),
    (104, run0.stats[0]!.bank[12]!.cycles.act == 25),
    (104, run0.stats[0]!.bank[13]!.cycles.act == 25),
    (104, run0.stats[0]!.bank[14]!.cycles.act == 25),
    (104, run0.stats[0]!.bank[15]!.cycles.act == 25),
    (114, run0.stats[0]!.bank[1]!.cycles.pre == 75),
    (114, run0.stats[0]!.bank[2]!.cycles.pre == 75),
    (112, run0.stats[0]!.bank[3]!.cycles.pre == 45),
    (114, run0.stats[0]!.bank[4]!.cycles.pre == 75),
    (114, run0.stats[0]!.bank[5]!.cycles.pre == 75),
    (114, run0.stats[0]!.bank[6]!.cycles.pre == 75),
    (114, run0.stats[0]!.bank[7]!.cycles.pre == 75),
    (114, run0.stats[0]!.bank[8]!.cycles.pre == 75),
    (114, run0.stats[0]!.bank[9]!.cycles.pre == 75),
    (114, run0.stats[0]!.bank[10]!.cycles.pre == 75),
    (114, run0.stats[0]!.bank[11]!.cycles.pre == 75),
    (114, run0.stats[0]!.bank[12]!.cycles.pre == 75),
    (114, run0.stats[0]!.bank[13]!.cycles.pre == 75),
    (114, run0.stats[0]!.bank[14]!.cycles.pre == 75),
    (114, run0.stats[0]!.bank[15]!.cycles.pre == 75)]

#guard failing checks == []

end ddr5_6.Counters_and_Cycles

namespace ddr5_6.Energy

def run0 : Log := run .ddr5 (ddr5) [
    .core { t := 0, type := .ACT },
    .core { t := 15, type := .RDA },
    .core { t := 20, type := .ACT, co := { bank := 3 } },
    .core { t := 35, type := .RD, co := { bank := 3 } },
    .core { t := 50, type := .PREA },
    .core { t := 65, type := .REFA },
    .core { t := 100, type := .END_OF_SIMULATION },
    .coreEnergy 100]

def checks : List (Nat × Bool) := [
    (0, run0.ok),
    (126, (nearest (((run0.energies[0]!.aggregated.eAct : Rat) * 1000000000000) : Rat) : Rat) == 359),
    (127, (nearest (((run0.energies[0]!.aggregated.ePre : Rat) * 1000000000000) : Rat) : Rat) == 415),
    (128, (nearest (((run0.energies[0]!.aggregated.eRD : Rat) * 1000000000000) : Rat) : Rat) == 436),
    (129, (nearest (((run0.energies[0]!.aggregated.eRDA : Rat) * 1000000000000) : Rat) : Rat) == 436),
    (130, (nearest (((run0.energies[0]!.aggregated.eRefAB : Rat) * 1000000000000) : Rat) : Rat) == 1812),
    (131, (nearest (((run0.energies[0]!.aggregated.eRefSB : Rat) * 1000000000000) : Rat) : Rat) == 0),
    (132, (nearest (((run0.energies[0]!.aggregated.eBgAct : Rat) * 1000000000000) : Rat) : Rat) == 2610),
    (133, (nearest (((run0.energies[0]!.shared.bgActShared : Rat) * 1000000000000) : Rat) : Rat) == 2536),
    (134, (nearest (((run0.energies[0]!.aggregated.eBgPre : Rat) * 1000000000000) : Rat) : Rat) == 779),
    (135, (nearest (((run0.energies[0]!.aggregated.total : Rat) * 1000000000000) : Rat) : Rat) == 6846)]

#guard failing checks == []

end ddr5_6.Energy

/-! ## tests/tests_drampower/core/DDR5/ddr5_test_pattern_7.cpp -/

namespace ddr5_7.Counters_and_Cycles

def run0 : Log := run .ddr5 (ddr5) [
    .core { t := 0, type := .SREFEN },
    .core { t := 40, type := .SREFEX },
    .core { t := 100, type := .END_OF_SIMULATION },
    .stats]

def checks : List (Nat × Bool) := [
    (0, run0.ok),
    (54, run0.stats[0]!.bank[0]!.counter.act == 0),
    (54, run0.stats[0]!.bank[1]!.counter.act == 0),
    (54, run0.stats[0]!.bank[2]!.counter.act == 0),
    (54, run0.stats[0]!.bank[3]!.counter.act == 0),
    (54, run0.stats[0]!.bank[4]!.counter.act == 0),
    (54, run0.stats[0]!.bank[5]!.counter.act == 0),
    (54, run0.stats[0]!.bank[6]!.counter.act == 0),
    (54, run0.stats[0]!.bank[7]!.counter.act == 0),
    (54, run0.stats[0]!.bank[8]!.counter.act == 0),
    (54, run0.stats[0]!.bank[9]!.counter.act == 0),
    (54, run0.stats[0]!.bank[10]!.counter.act == 0),
    (54, run0.stats[0]!.bank[11]!.counter.act == 0),
    (54, run0.stats[0]!.bank[12]!.counter.act == 0),
    (54, run0.stats[0]!.bank[13]!.counter.act == 0),
    (54, run0.stats[0]!.bank[14]!.counter.act == 0),
    (54, run0.stats[0]!.bank[15]!.counter.act == 0),
    (57, run0.stats[0]!.bank[0]!.counter.refAllBank == 1),
    (57, run0.stats[0]!.bank[1]!.counter.refAllBank == 1),
    (57, run0.stats[0]!.bank[2]!.counter.refAllBank == 1),
    (57, run0.stats[0]!.bank[3]!.counter.refAllBank == 1),
    (57, run0.stats[0]!.bank[4]!.counter.refAllBank == 1),
    (57, run0.stats[0]!.bank[5]!.counter.refAllBank == 1),
    (57, run0.stats[0]!.bank[6]!.counter.refAllBank == 1),
    (57, run0.stats[0]!.bank[7]!.counter.refAllBank == 1),
    (57, run0.stats[0]!.bank[8]!.counter.refAllBank == 1),
    (57, run0.stats[0]!.bank[9]!.counter.refAllBank == 1),
    (57, run0.stats[0]!.bank[10]!.counter.refAllBank == 1),
    (57, run0.stats[0]!.bank[11]!.counter.refAllBank == 1),
    (57, run0.stats[0]!.bank[12]!.counter.refAllBank == 1),
    (57, run0.stats[0]!.bank[13]!.counter.refAllBank == 1),
    (57, run0.stats[0]!.bank[14]!.counter.refAllBank == 1),
    (57, run0.stats[0]!.bank[15]!.counter.refAllBank == 1),
    (61, run0.stats[0]!.rankTotal[0]!.cycles.act == 25),
    (62, run0.stats[0]!.rankTotal[0]!.cycles.pre == 60),
    (63, run0.stats[0]!.rankTotal[0]!.cycles.selfRefresh == 15),
    (66, run0.stats[0]!.bank[0]!.cycles.act == 25),
    (66, run0.stats[0]!.bank[1]!.cycles.act == 25),
    (66, run0.stats[0]!.bank[2]!.cycles.act == 25),
    (66, run0.stats[0]!.bank[3]!.cycles.act == 25),
    (66, run0.stats[0]!.bank[4]!.cycles.act == 25),
    (66, run0.stats[0]!.bank[5]!.cycles.act == 25),
    (66, run0.stats[0]!.bank[6]!.cycles.act == 25),
    (66, run0.stats[0]!.bank[7]!.cycles.act == 25),
    (66, run0.stats[0]!.bank[8]!.cycles.act == 25),
    (66, run0.stats[0]!.bank[9]!.cycles.act == 25),
    (66, run0.stats[0]!.bank[10]!.cycles.act == 25),
    (66, run0.stats[0]!.bank[11]!.cycles.act == 25),
    (66, run0.stats[0]!.bank[12]!.cycles.act == 25),
    (66, run0.stats[0]!.bank[13]!.cycles.act == 25),
    (66, run0.stats[0]!.bank[14]!.cycles.act == 25),
    (66, run0.stats[0]!.bank[15]!.cycles.act == 25),
    (69, run0.stats[0]!.bank[0]!.cycles.pre == 60),
    (69, run0.stats[0]!.bank[1]!.cycles.pre == 60),
    (69, run0.stats[0]!.bank[2]!.cycles.pre == 60),
    (69, run0.stats[0]!.bank[3]!.cycles.pre == 60),
    (69, run0.stats[0]!.bank[4]!.cycles.pre == 60),
    (69, run0.stats[0]!.bank[5]!.cycles.pre == 60),
    (69, run0.stats[0]!.bank[6]!.cycles.pre == 60),
    (69, run0.stats[0]!.bank[7]!.cycles.pre == 60),
    (69, run0.stats[0]!.bank[8]!.cycles.pre == 60),
    (69, run0.stats[0]!.bank[9]!.cycles.pre == 60),
    (69, run0.stats[0]!.bank[10]!.cycles.pre == 60),
    (69, run0.stats[0]!.bank[11]!.cycles.pre == 60),
    (69, run0.stats[0]!.bank[12]!.cycles.pre == 60),
    (69, run0.stats[0]!.bank[13]!.cycles.pre == 60),
    (69, run0.stats[0]!.bank[14]!.cycles.pre == 60),
    (69, run0.stats[0]!.bank[15]!.cycles.pre == 60),
    (72, run0.stats[0]!.bank[0]!.cycles.selfRefresh == 15),
    (72, run0.stats[0]!.bank[1]!.cycles.selfRefresh == 15),
    (72, run0.stats[0]!.bank[2]!.cycles.selfRefresh == 15),
    (72, run0.stats[0]!.bank[3]!.cycles.selfRefresh == 15),
    (72, run0.stats[0]!.bank[4]!.cycles.selfRefresh == 15),
    (72, run0.stats[0]!.bank[5]!.cycles.selfRefresh == 15),
    (72, run0.stats[0]!.bank[6]!.cycles.selfRefresh == 15),
    (72, run0.stats[0]!.bank[7]!.cycles.selfRefresh == 15),
    (72, run0.stats[0]!.bank[8]!.cycles.selfRefresh == 15),
    (72, run0.stats[0]!.bank[9]!.cycles.selfRefresh == 15),
    (72, run0.stats[0]!.bank[10]!.cycles.selfRefresh == 15),
    (72, run0.stats[0]!.bank[11]!.cycles.selfRefresh == 15),
    (72, run0.stats[0]!.bank[12]!.cycles.selfRefresh == 15),
    (72, run0.stats[0]!.bank[13]!.cycles.selfRefresh == 15),
    (72, run0.stats[0]!.bank[14]!.cycles.selfRefresh == 15),
    (72, run0.stats[0]!.bank[15]!.cycles.selfRefresh == 15)]

#guard failing checks == []

end ddr5_7.Counters_and_Cycles

namespace ddr5_7.Energy

def run0 : Log := run .ddr5 (ddr5) [
    .core { t := 0, type := .SREFEN },
    .core { t := 40, type := .SREFEX },
    .core { t := 100, type := .END_OF_SIMULATION },
    .coreEnergy 100]

def checks : List (Nat × Bool) := [
    (0, run0.ok),
    (83, (nearest (((run0.energies[0]!.aggregated.eAct : Rat) * 1000000000000) : Rat) : Rat) == 0),
    (84, (nearest (((run0.energies[0]!.aggregated.ePre : Rat) * 1000000000000) : Rat) : Rat) == 0),
    (85, (nearest (((run0.energies[0]!.aggregated.eRefAB : Rat) * 1000000000000) : Rat) : Rat) == 1812),
    (86, (nearest (((run0.energies[0]!.shared.sref : Rat) * 1000000000000) : Rat) : Rat) == 280),
    (87, (nearest (((run0.energies[0]!.aggregated.eBgAct : Rat) * 1000000000000) : Rat) : Rat) == 912),
    (88, (nearest (((run0.energies[0]!.shared.bgActShared : Rat) * 1000000000000) : Rat) : Rat) == 845),
    (89, (nearest (((run0.energies[0]!.aggregated.eBgPre : Rat) * 1000000000000) : Rat) : Rat) == 1869),
    (90, (nearest (((((run0.energies[0]!.aggregated.total : Rat) + (run0.energies[0]!.shared.sref : Rat)) : Rat) * 1000000000000) : Rat) : Rat) == 4873)]

#guard failing checks == []

end ddr5_7.Energy

/-! ## tests/tests_drampower/core/DDR5/ddr5_test_pattern_8.cpp -/

namespace ddr5_8.Counters_and_Cycles

def run0 : Log := run .ddr5 (ddr5) [
    .core { t := 0, type := .PDEA },
    .core { t := 30, type := .PDXA },
    .core { t := 45, type := .PDEP },
    .core { t := 70, type := .PDXP },
    .core { t := 85, type := .END_OF_SIMULATION },
    .stats]

def checks : List (Nat × Bool) := [
    (0, run0.ok),
    (57, run0.stats[0]!.rankTotal[0]!.cycles.act == 0),
    (58, run0.stats[0]!.rankTotal[0]!.cycles.pre == 30),
    (59, run0.stats[0]!.rankTotal[0]!.cycles.selfRefresh == 0),
    (60, run0.stats[0]!.rankTotal[0]!.cycles.powerDownAct == 30),
    (61, run0.stats[0]!.rankTotal[0]!.cycles.powerDownPre == 25),
    (64, run0.stats[0]!.bank[0]!.cycles.act == 0),
    (64, run0.stats[0]!.bank[1]!.cycles.act == 0),
    (64, run0.stats[0]!.bank[2]!.cycles.act == 0),
    (64, run0.stats[0]!.bank[3]!.cycles.act == 0),
    (64, run0.stats[0]!.bank[4]!.cycles.act == 0),
    (64, run0.stats[0]!.bank[5]!.cycles.act == 0),
    (64, run0.stats[0]!.bank[6]!.cycles.act == 0),
    (64, run0.stats[0]!.bank[7]!.cycles.act == 0),
    (64, run0.stats[0]!.bank[8]!.cycles.act == 0),
    (64, run0.stats[0]!.bank[9]!.cycles.act == 0),
    (64, run0.stats[0]!.bank[10]!.cycles.act == 0),
    (64, run0.stats[0]!.bank[11]!.cycles.act == 0),
    (64, run0.stats[0]!.bank[12]!.cycles.act == 0),
    (64, run0.stats[0]!.bank[13]!.cycles.act == 0),
    (64, run0.stats[0]!.bank[14]!.cycles.act == 0),
    (64, run0.stats[0]!.bank[15]!.cycles.act == 0),
    (67, run0.stats[0]!.bank[0]!.cycles.pre == 30),
    (67, run0.stats[0]!.bank[1]!.cycles.pre == 30),
    (67, run0.stats[0]!.bank[2]!.cycles.pre == 30),
    (67, run0.stats[0]!.bank[3]!.cycles.pre == 30),
    (67, run0.stats[0]!.bank[4]!.cycles.pre == 30),
    (67, run0.stats[0]!.bank[5]!.cycles.pre == 30),
    (67, run0.stats[0]!.bank[6]!.cycles.pre == 30),
    (67, run0.stats[0]!.bank[7]!.cycles.pre == 30),
    (67, run0.stats[0]!.bank[8]!.cycles.pre == 30),
    (67, run0.stats[0]!.bank[9]!.cycles.pre == 30),
    (67, run0.stats[0]!.bank[10]!.cycles.pre == 30),
    (67, run0.stats[0]!.bank[11]!.cycles.pre == 30),
    (67, run0.stats[0]!.bank[12]!.cycles.pre == 30),
    (67, run0.stats[0]!.bank[13]!.cycles.pre == 30),
    (67, run0.stats[0]!.bank[14]!.cycles.pre == 30),
    (67, run0.stats[0]!.bank[15]!.cycles.pre == 30),
    (70, run0.stats[0]!.bank[0]!.cycles.powerDownAct == 30),
    (70, run0.stats[0]!.bank[1]!.cycles.powerDownAct == 30),
    (70, run0.stats[0]!.bank[2]!.cycles.powerDownAct == 30),
    (70, run0.stats[0]!.bank[3]!.cycles.powerDownAct == 30),
    (70, run0.stats[0]!.bank[4]!.cycles.powerDownAct == 30),
    (70, run0.stats[0]!.bank[5]!.cycles.powerDownAct == 30),
    (70, run0.stats[0]!.bank[6]!.cycles.powerDownAct == 30),
    (70, run0.stats[0]!.bank[7]!.cycles.powerDownAct == 30),
    (70, run0.stats[0]!.bank[8]!.cycles.powerDownAct == 30),
    (70, run0.stats[0]!.bank[9]!.cycles.powerDownAct == 30),
    (70, run0.stats[0]!.bank[10]!.cycles.powerDownAct == 30),
    (70, run0.stats[0]!.bank[11]!.cycles.powerDownAct == 30),
    (70, run0.stats[0]!.bank[12]!.cycles.powerDownAct == 30),
    (70, run0.stats[0]!.bank[13]!.cycles.powerDownAct == 30),
    (70, run0.stats[0]!.bank[14]!.cycles.powerDownAct == 30),
    (70, run0.stats[0]!.bank[15]!.cycles.powerDownAct == 30),
    (73, run0.stats[0]!.bank[0]!.cycles.powerDownPre == 25),
    (73, run0.stats[0]!.bank[1]!.cycles.powerDownPre == 25),
    (73, run0.stats[0]!.bank[2]!.cycles.powerDownPre == 25),
    (73, run0.stats[0]!.bank[3]!.cycles.powerDownPre == 25),
    (73, run0.stats[0]!.bank[4]!.cycles.powerDownPre == 25),
    (73, run0.stats[0]!.bank[5]!.cycles.powerDownPre == 25),
    (73, run0.stats[0]!.bank[6]!.cycles.powerDownPre == 25),
    (73, run0.stats[0]!.bank[7]!.cycles.powerDownPre == 25),
    (73, run0.stats[0]!.bank[8]!.cycles.powerDownPre == 25),
    (73, run0.stats[0]!.bank[9]!.cycles.powerDownPre == 25),
    (73, run0.stats[0]!.bank[10]!.cycles.powerDownPre == 25),
    (73, run0.stats[0]!.bank[11]!.cycles.powerDownPre == 25),
    (73, run0.stats[0]!.bank[12]!.cycles.powerDownPre == 25),
    (73, run0.stats[0]!.bank[13]!.cycles.powerDownPre == 25),
    (73, run0.stats[0]!.bank[14]!.cycles.powerDownPre == 25),
    (73, run0.stats[0]!.bank[15]!.cycles.powerDownPre == 25),
    (76, run0.stats[0]!.bank[0]!.cycles.selfRefresh == 0),
    (76, run0.stats[0]!.bank[1]!.cycles.selfRefresh == 0),
    (76, run0.stats[0]!.bank[2]!.cycles.selfRefresh == 0),
    (76, run0.stats[0]!.bank[3]!.cycles.selfRefresh == 0),
    (76, run0.stats[0]!.bank[4]!.cycles.selfRefresh == 0),
    (76, run0.stats[0]!.bank[5]!.cycles.selfRefresh == 0),
    (76, run0.stats[0]!.bank[6]!.cycles.selfRefresh == 0),
    (76, run0.stats[0]!.bank[7]!.cycles.selfRefresh == 0),
    (76, run0.stats[0]!.bank[8]!.cycles.selfRefresh == 0),
    (76, run0.stats[0]!.bank[9]!.cycles.selfRefresh == 0),
    (76, run0.stats[0]!.bank[10]!.cycles.selfRefresh == 0),
    (76, run0.stats[0]!.bank[11]!.cycles.selfRefresh == 0),
    (76, run0.stats[0]!.bank[12]!.cycles.selfRefresh == 0),
    (76, run0.stats[0]!.bank[13]!.cycles.selfRefresh == 0),
    (76, run0.stats[0]!.bank[14]!.cycles.selfRefresh == 0),
    (76, run0.stats[0]!.bank[15]!.cycles.selfRefresh == 0)]

#guard failing checks == []

end ddr5_8.Counters_and_Cycles

namespace ddr5_8.Energy

def run0 : Log := run .ddr5 (ddr5) [
    .core { t := 0, type := .PDEA },
    .core { t := 30, type := .PDXA },
    .core { t := 45, type := .PDEP },
    .core { t := 70, type := .PDXP },
    .core { t := 85, type := .END_OF_SIMULATION },
    .coreEnergy 85]

def checks : List (Nat × Bool) := [
    (0, run0.ok),
    (88, (nearest (((run0.energies[0]!.aggregated.eAct : Rat) * 1000000000000) : Rat) : Rat) == 0),
    (89, (nearest (((run0.energies[0]!.aggregated.ePre : Rat) * 1000000000000) : Rat) : Rat) == 0),
    (90, (nearest (((run0.energies[0]!.shared.sref : Rat) * 1000000000000) : Rat) : Rat) == 0),
    (91, (nearest (((run0.energies[0]!.shared.pdnA : Rat) * 1000000000000) : Rat) : Rat) == 623),
    (92, (nearest (((run0.energies[0]!.shared.pdnP : Rat) * 1000000000000) : Rat) : Rat) == 392),
    (93, (nearest (((run0.energies[0]!.aggregated.eBgAct : Rat) * 1000000000000) : Rat) : Rat) == 0),
    (94, (nearest (((run0.energies[0]!.shared.bgActShared : Rat) * 1000000000000) : Rat) : Rat) == 0),
    (95, (nearest (((run0.energies[0]!.aggregated.eBgPre : Rat) * 1000000000000) : Rat) : Rat) == 935),
    (96, (nearest (((((((((run0.energies[0]!.aggregated.total : Rat) + (run0.energies[0]!.shared.sref : Rat)) : Rat) + (run0.energies[0]!.shared.pdnA : Rat)) : Rat) + (run0.energies[0]!.shared.pdnP : Rat)) : Rat) * 1000000000000) : Rat) : Rat) == 1950)]

#guard failing checks == []

end ddr5_8.Energy

/-! ## tests/tests_drampower/core/DDR5/ddr5_test_pattern_9.cpp -/

namespace ddr5_9.Counters_and_Cycles

def run0 : Log := run .ddr5 (ddr5) [
    .core { t := 5, type := .ACT },
    .core { t := 15, type := .ACT, co := { bank := 5 } },
    .core { t := 20, type := .RD },
    .core { t := 30, type := .PDEA },
    .core { t := 50, type := .PDXA },
    .core { t := 55, type := .RD, co := { bank := 5 } },
    .core { t := 60, type := .RD },
    .core { t := 70, type := .PREA },
    .core { t := 80, type := .PDEP },
    .core { t := 95, type := .PDXP },
    .core { t := 100, type := .END_OF_SIMULATION },
    .stats]

def checks : List (Nat × Bool) := [
    (0, run0.ok),
    (63, run0.stats[0]!.rankTotal[0]!.cycles.act == 45),
    (64, run0.stats[0]!.rankTotal[0]!.cycles.pre == 20),
    (65, run0.stats[0]!.rankTotal[0]!.cycles.selfRefresh == 0),
    (66, run0.stats[0]!.rankTotal[0]!.cycles.powerDownAct == 20),
    (67, run0.stats[0]!.rankTotal[0]!.cycles.powerDownPre == 15),
    (72, run0.stats[0]!.bank[0]!.cycles.act == 45),
    (76, run0.stats[0]!.bank[1]!.cycles.act == 0),
    (76, run0.stats[0]!.bank[2]!.cycles.act == 0),
    (76, run0.stats[0]!.bank[3]!.cycles.act == 0),
    (76, run0.stats[0]!.bank[4]!.cycles.act == 0),
    (74, run0.stats[0]!.bank[5]!.cycles.act == 35),
    (76, run0.stats[0]!.bank[6]!.cycles.act == 0),
    (76, run0.stats[0]!.bank[7]!.cycles.act == 0),
    (76, run0.stats[0]!.bank[8]!.cycles.act == 0),
    (76, run0.stats[0]!.bank[9]!.cycles.act == 0),
    (76, run0.stats[0]!.bank[10]!.cycles.act == 0),
    (76, run0.stats[0]!.bank[11]!.cycles.act == 0),
    (76, run0.stats[0]!.bank[12]!.cycles.act == 0),
    (76, run0.stats[0]!.bank[13]!.cycles.act == 0),
    (76, run0.stats[0]!.bank[14]!.cycles.act == 0),
    (76, run0.stats[0]!.bank[15]!.cycles.act == 0),
    (83, run0.stats[0]!.bank[0]!.cycles.pre == 20),
    (87, run0.stats[0]!.bank[1]!.cycles.pre == 65),
    (87, run0.stats[0]!.bank[2]!.cycles.pre == 65),
    (87, run0.stats[0]!.bank[3]!.cycles.pre == 65),
    (87, run0.stats[0]!.bank[4]!.cycles.pre == 65),
    (85, run0.stats[0]!.bank[5]!.cycles.pre == 30),
    (87, run0.stats[0]!.bank[6]!.cycles.pre == 65),
    (87, run0.stats[0]!.bank[7]!.cycles.pre == 65),
    (87, run0.stats[0]!.bank[8]!.cycles.pre == 65),
    (87, run0.stats[0]!.bank[9]!.cycles.pre == 65),
    (87, run0.stats[0]!.bank[10]!.cycles.pre == 65),
    (87, run0.stats[0]!.bank[11]!.cycles.pre == 65),
    (87, run0.stats[0]!.bank[12]!.cycles.pre == 65),
    (87, run0.stats[0]!.bank[13]!.cycles.pre == 65),
    (87, run0.stats[0]!.bank[14]!.cycles.pre == 65),
    (87, run0.stats[0]!.bank[15]!.cycles.pre == 65),
    (92, run0.stats[0]!.bank[0]!.cycles.powerDownAct == 20),
    (92, run0.stats[0]!.bank[1]!.cycles.powerDownAct == 20),
    (92, run0.stats[0]!.bank[2]!.cycles.powerDownAct == 20),
    (92, run0.stats[0]!.bank[3]!.cycles.powerDownAct == 20),
    (92, run0.stats[0]!.bank[4]!.cycles.powerDownAct == 20),
    (92, run0.stats[0]!.bank[5]!.cycles.powerDownAct == 20),
    (92, run0.stats[0]!.bank[6]!.cycles.powerDownAct == 20),
    (92, run0.stats[0]!.bank[7]!.cycles.powerDownAct == 20),
    (92, run0.stats[0]!.bank[8]!.cycles.powerDownAct == 20),
    (92, run0.stats[0]!.bank[9]!.cycles.powerDownAct == 20),
    (92, run0.stats[0]!.bank[10]!.cycles.powerDownAct == 20),
    (92, run0.stats[0]!.bank[11]!.cycles.powerDownAct == 20),
    (92, run0.stats[0]!.bank[12]!.cycles.powerDownAct == 20),
    (92, run0.stats[0]!.bank[13]!.cycles.powerDownAct == 20),
    (92, run0.stats[0]!.bank[14]!.cycles.powerDownAct == 20),
    (92, run0.stats[0]!.bank[15]!.cycles.powerDownAct == 20),
    (95, run0.stats[0]!.bank[0]!.cycles.powerDownPre == 15),
    (95, run0.stats[0]!.bank[1]!.cycles.powerDownPre == 15),
    (95, run0.stats[0]!.bank[2]!.cycles.powerDownPre == 15),
    (95, run0.stats[0]!.bank[3]!.cycles.powerDownPre == 15),
    (95, run0.stats[0]!.bank[4]!.cycles.powerDownPre == 15),
    (95, run0.stats[0]!.bank[5]!.cycles.powerDownPre == 15),
    (95, run0.stats[0]!.bank[6]!.cycles.powerDownPre == 15),
    (95, run0.stats[0]!.bank[7]!.cycles.powerDownPre == 15),
    (95, run0.stats[0]!.bank[8]!.cycles.powerDownPre == 15),
    (95, run0.stats[0]!.bank[9]!.cycles.powerDownPre == 15),
    (95, run0.stats[0]!.bank[10]!.cycles.powerDownPre == 15),
    (95, run0.stats[0]!.bank[11]!.cycles.powerDownPre == 15),
    (95, run0.stats[0]!.bank[12]!.cycles.powerDownPre == 15),
    (95, run0.stats[0]!.bank[13]!.cycles.powerDownPre == 15),
    (95, run0.stats[0]!.bank[14]!.cycles.powerDownPre == 15),
    (95, run0.stats[0]!.bank[15]!.cycles.powerDownPre == 15),
    (98, run0.stats[0]!.bank[0]!.cycles.selfRefresh == 0),
    (98, run0.stats[0]!.bank[1]!.cycles.selfRefresh == 0),
    (98, run0.stats[0]!.bank[2]!.cycles.selfRefresh == 0),
    (98, run0.stats[0]!.bank[3]!.cycles.selfRefresh == 0),
    (98, run0.stats[0]!.bank[4]!.cycles.selfRefresh == 0),
    (98, run0.stats[0]!.bank[5]!.cycles.selfRefresh == 0),
    (98, run0.stats[0]!.bank[6]!.cycles.selfRefresh == 0),
    (98, run0.stats[0]!.bank[7]!.cycles.selfRefresh == 0),
    (98, run0.stats[0]!.bank[8]!.cycles.selfRefresh == 0),
    (98, run0.stats[0]!.bank[9]!.cycles.selfRefresh == 0),
    (98, run0.stats[0]!.bank[10]!.cycles.selfRefresh == 0),
    (98, run0.stats[0]!.bank[11]!.cycles.selfRefresh == 0),
    (98, run0.stats[0]!.bank[12]!.cycles.selfRefresh == 0),
    (98, run0.stats[0]!.bank[13]!.cycles.selfRefresh == 0),
    (98, run0.stats[0]!.bank[14]!.cycles.selfRefresh == 0),
    (98, run0.stats[0]!.bank[15]!.cycles.selfRefresh == 0)]

#guard failing checks == []

end ddr5_9.Counters_and_Cycles

namespace ddr5_9.Energy

def run0 : Log := run .ddr5 (ddr5) [
    .core { t := 5, type := .ACT },
    .core { t := 15, type := .ACT, co := { bank := 5 } },
    .core { t := 20, type := .RD },
    .core { t := 30, type := .PDEA },
    .core { t := 50, type := .PDXA },
    .core { t := 55, type := .RD, co := { bank := 5 } },
    .core { t := 60, type := .RD },
    .core { t := 70, type := .PREA },
    .core { t := 80, type := .PDEP },
    .core { t := 95, type := .PDXP },
    .core { t := 100, type := .END_OF_SIMULATION },
    .coreEnergy 100]

def checks : List (Nat × Bool) := [
    (0, run0.ok),
    (110, (nearest (((run0.energies[0]!.aggregated.eAct : Rat) * 1000000000000) : Rat) : Rat) == 359),
    (111, (nearest (((run0.energies[0]!.aggregated.ePre : Rat) * 1000000000000) : Rat) : Rat) == 415),
    (112, (nearest (((run0.energies[0]!.aggregated.eRD : Rat) * 1000000000000) : Rat) : Rat) == 1307),
    (113, (nearest (((run0.energies[0]!.shared.sref : Rat) * 1000000000000) : Rat) : Rat) == 0),
    (114, (nearest (((run0.energies[0]!.shared.pdnA : Rat) * 1000000000000) : Rat) : Rat) == 415),
    (115, (nearest (((run0.energies[0]!.shared.pdnP : Rat) * 1000000000000) : Rat) : Rat) == 235),
    (116, (nearest (((run0.energies[0]!.aggregated.eBgAct : Rat) * 1000000000000) : Rat) : Rat) == 1535),
    (117, (nearest (((run0.energies[0]!.shared.bgActShared : Rat) * 1000000000000) : Rat) : Rat) == 1521),
    (118, (nearest (((run0.energies[0]!.aggregated.eBgPre : Rat) * 1000000000000) : Rat) : Rat) == 623),
    (119, (nearest (((((((((run0.energies[0]!.aggregated.total : Rat) + (run0.energies[0]!.shared.sref : Rat)) : Rat) + (run0.energies[0]!.shared.pdnA : Rat)) : Rat) + (run0.energies[0]!.shared.pdnP : Rat)) : Rat) * 1000000000000) : Rat) : Rat) == 4890)]

#guard failing checks == []

end ddr5_9.Energy

/-! ## tests/tests_drampower/core/DDR5/ddr5_test_pattern_10.cpp -/

namespace ddr5_10.Counters_and_Cycles

def run0 : Log := run .ddr5 (ddr5) [
    .core { t := 0, type := .ACT },
    .core { t := 15, type := .RD },
    .core { t := 20, type := .ACT, co := { bank := 11 } },
    .core { t := 55, type := .PREA },
    .core { t := 70, type := .REFSB },
    .core { t := 75, type := .REFSB, co := { bank := 11 } },
    .core { t := 100, type := .END_OF_SIMULATION },
    .stats]

def checks : List (Nat × Bool) := [
    (0, run0.ok),
    (59, run0.stats[0]!.rankTotal[0]!.cycles.act == 80),
    (60, run0.stats[0]!.rankTotal[0]!.cycles.pre == 20),
    (61, run0.stats[0]!.rankTotal[0]!.cycles.selfRefresh == 0),
    (62, run0.stats[0]!.rankTotal[0]!.cycles.powerDownAct == 0),
    (63, run0.stats[0]!.rankTotal[0]!.cycles.powerDownPre == 0),
    (68, run0.stats[0]!.bank[0]!.cycles.act == 75),
    (74, run0.stats[0]!.bank[1]!.cycles.act == 0),
    (74, run0.stats[0]!.bank[2]!.cycles.act == 0),
    (70, run0.stats[0]!.bank[3]!.cycles.act == 20),
    (74, run0.stats[0]!.bank[4]!.cycles.act == 0),
    (74, run0.stats[0]!.bank[5]!.cycles.act == 0),
    (74, run0.stats[0]!.bank[6]!.cycles.act == 0),
    (74, run0.stats[0]!.bank[7]!.cycles.act == 0),
    (70, run0.stats[0]!.bank[8]!.cycles.act == 20),
    (74, run0.stats[0]!.bank[9]!.cycles.act == 0),
    (74, run0.stats[0]!.bank[10]!.cycles.act == 0),
    (72, run0.stats[0]!.bank[11]!.cycles.act == 55),
    (74, run0.stats[0]!.bank[12]!.cycles.act == 0),
    (74, run0.stats[0]!.bank[13]!.cycles.act == 0),
    (74, run0.stats[0]!.bank[14]!.cycles.act == 0),
    (74, run0.stats[0]!.bank[15]!.cycles.act == 0),
    (81, run0.stats[0]!.bank[0]!.cycles.pre == 25),
    (87, run0.stats[0]!.bank[1]!.cycles.pre == 100),
    (87, run0.stats[0]!.bank[2]!.cycles.pre == 100),
    (83, run0.stats[0]!.bank[3]!.cycles.pre == 80),
    (87, run0.stats[0]!.bank[4]!.cycles.pre == 100),
    (87, run0.stats[0]!.bank[5]!.cycles.pre == 100),
    (87, run0.stats[0]!.bank[6]!.cycles.pre == 100),
    (87, run0.stats[0]!.bank[7]!.cycles.pre == 100),
    (83, run0.stats[0]!.bank[8]!.cycles.pre == 80),
    (87, run0.stats[0]!.bank[9]!.cycles.pre == 100),
    (87, run0.stats[0]!.bank[10]!.cycles.pre == 100),
    (85, run0.stats[0]!.bank[11]!.cycles.pre == 45),
    (87, run0.stats[0]!.bank[12]!.cycles.pre == 100),
    (87, run0.stats[0]!.bank[13]!.cycles.pre == 100),
    (87, run0.stats[0]!.bank[14]!.cycles.pre == 100),
    (87, run0.stats[0]!.bank[15]!.cycles.pre == 100),
    (92, run0.stats[0]!.bank[0]!.cycles.powerDownAct == 0),
    (92, run0.stats[0]!.bank[1]!.cycles.powerDownAct == 0),
    (92, run0.stats[0]!.bank[2]!.cycles.powerDownAct == 0),
    (92, run0.stats[0]!.bank[3]!.cycles.powerDownAct == 0),
    (92, run0.stats[0]!.bank[4]!.cycles.powerDownAct == 0),
    (92, run0.stats[0]!.bank[5]!.cycles.powerDownAct == 0),
    (92, run0.stats[0]!.bank[6]!.cycles.powerDownAct == 0),
    (92, run0.stats[0]!.bank[7]!.cycles.powerDownAct == 0),
    (92, run0.stats[0]!.bank[8]!.cycles.powerDownAct == 0),
    (92, run0.stats[0]!.bank[9]!.cycles.powerDownAct == 0),
    (92, run0.stats[0]!.bank[10]!.cycles.powerDownAct == 0),
    (92, run0.stats[0]!.bank[11]!.cycles.powerDownAct == 0),
    (92, run0.stats[0]!.bank[12]!.cycles.powerDownAct == 0),
    (92, run0.stats[0]!.bank[13]!.cycles.powerDownAct == 0),
    (92, run0.stats[0]!.bank[14]!.cycles.powerDownAct == 0),
    (92, run0.stats[0]!.bank[15]!.cycles.powerDownAct == 0),
    (95, run0.stats[0]!.bank[0]!.cycles.powerDownPre == 0),
    (95, run0.stats[0]!.bank[1]!.cycles.powerDownPre == 0),
    (95, run0.stats[0]!.bank[2]!.cycles.powerDownPre == 0),
    (95, run0.stats[0]!.bank[3]!.cycles.powerDownPre == 0),
    (95, run0.stats[0]!.bank[4]!.cycles.powerDownPre == 0),
    (95, run0.stats[0]!.bank[5]!.cycles.powerDownPre == 0),
    (95, run0.stats[0]!.bank[6]!.cycles.powerDownPre == 0),
    (95, run0.stats[0]!.bank[7]!.cycles.powerDownPre == 0),
    (95, run0.stats[0]!.bank[8]!.cycles.powerDownPre == 0),
    (95, run0.stats[0]!.bank[9]!.cycles.powerDownPre == 0),
    (95, run0.stats[0]!.bank[10]!.cycles.powerDownPre == 0),
    (95, run0.stats[0]!.bank[11]!.cycles.powerDownPre == 0),
    (95, run0.stats[0]!.bank[12]!.cycles.powerDownPre == 0),
    (95, run0.stats[0]!.bank[13]!.cycles.powerDownPre == 0),
    (95, run0.stats[0]!.bank[14]!.cycles.powerDownPre == 0),
    (95, run0.stats[0]!.bank[15]!.cycles.powerDownPre == 0),
    (98, run0.stats[0]!.bank[0]!.cycles.selfRefresh == 0),
    (98, run0.stats[0]!.bank[1]!.cycles.selfRefresh == 0),
    (98, run0.stats[0]!.bank[2]!.cycles.selfRefresh == 0),
    (98, run0.stats[0]!.bank[3]!.cycles.selfRefresh == 0),
    (98, run0.stats[0]!.bank[4]!.cycles.selfRefresh == 0),
    (98, run0.stats[0]!.bank[5]!.cycles.selfRefresh == 0),
    (98, run0.stats[0]!.bank[6]!.cycles.selfRefresh == 0),
    (98, run0.stats[0]!.bank[7]!.cycles.selfRefresh == 0),
    (98, run0.stats[0]!.bank[8]!.cycles.selfRefresh == 0),
    (98, run0.stats[0]!.bank[9]!.cycles.selfRefresh == 0),
    (98, run0.stats[0]!.bank[10]!.cycles.selfRefresh == 0),
    (98, run0.stats[0]!.bank[11]!.cycles.selfRefresh == 0),
    (98, run0.stats[0]!.bank[12]!.cycles.selfRefresh == 0),
    (98, run0.stats[0]!.bank[13]!.cycles.selfRefresh == 0),
    (98, run0.stats[0]!.bank[14]!.cycles.selfRefresh == 0),
    (98, run0.stats[0]!.bank[15]!.cycles.selfRefresh == 0)]

#guard failing checks == []

end ddr5_10.Counters_and_Cycles

namespace ddr5_10.Energy

def run0 : Log := run .ddr5 (ddr5) [
    .core { t := 0, type := .ACT },
    .core { t := 15, type := .RD },
    .core { t := 20, type := .ACT, co := { bank := 11 } },
    .core { t := 55, type := .PREA },
    .core { t := 70, type := .REFSB },
    .core { t := 75, type := .REFSB, co := { bank := 11 } },
    .core { t := 100, type := .END_OF_SIMULATION },
    .coreEnergy 100]

def checks : List (Nat × Bool) := [
    (0, run0.ok),
    (110, (nearest (((run0.energies[0]!.aggregated.eAct : Rat) * 1000000000000) : Rat) : Rat) == 359),
    (111, (nearest (((run0.energies[0]!.aggregated.ePre : Rat) * 1000000000000) : Rat) : Rat) == 415),
    (112, (nearest (((run0.energies[0]!.aggregated.eRD : Rat) * 1000000000000) : Rat) : Rat) == 436),
    (113, (nearest (((run0.energies[0]!.shared.sref : Rat) * 1000000000000) : Rat) : Rat) == 0),
    (114, (nearest (((run0.energies[0]!.shared.pdnA : Rat) * 1000000000000) : Rat) : Rat) == 0),
    (115, (nearest (((run0.energies[0]!.shared.pdnP : Rat) * 1000000000000) : Rat) : Rat) == 0),
    (116, (nearest (((run0.energies[0]!.aggregated.eBgAct : Rat) * 1000000000000) : Rat) : Rat) == 2733),
    (117, (nearest (((run0.energies[0]!.shared.bgActShared : Rat) * 1000000000000) : Rat) : Rat) == 2705),
    (118, (nearest (((run0.energies[0]!.aggregated.eBgPre : Rat) * 1000000000000) : Rat) : Rat) == 623),
    (119, (nearest (((run0.energies[0]!.aggregated.eRefSB : Rat) * 1000000000000) : Rat) : Rat) == 2696),
    (120, (nearest (((((((((run0.energies[0]!.aggregated.total : Rat) + (run0.energies[0]!.shared.sref : Rat)) : Rat) + (run0.energies[0]!.shared.pdnA : Rat)) : Rat) + (run0.energies[0]!.shared.pdnP : Rat)) : Rat) * 1000000000000) : Rat) : Rat) == 7262)]

#guard failing checks == []

end ddr5_10.Energy

/-! ## tests/tests_drampower/core/DDR5/ddr5_test_pattern_11.cpp -/

namespace ddr5_11.Counters_and_Cycles

def run0 : Log := run .ddr5 (ddr5) [
    .core { t := 0, type := .ACT },
    .core { t := 15, type := .RD },
    .core { t := 20, type := .ACT, co := { bank := 11 } },
    .core { t := 25, type := .ACT, co := { bank := 3 } },
    .core { t := 40, type := .WR, co := { bank := 11 } },
    .core { t := 45, type := .RD, co := { bank := 3 } },
    .core { t := 55, type := .PRESB },
    .core { t := 65, type := .PRESB, co := { bank := 11 } },
    .core { t := 100, type := .END_OF_SIMULATION },
    .stats]

def checks : List (Nat × Bool) := [
    (0, run0.ok),
    (61, run0.stats[0]!.rankTotal[0]!.cycles.act == 65),
    (62, run0.stats[0]!.rankTotal[0]!.cycles.pre == 35),
    (63, run0.stats[0]!.rankTotal[0]!.cycles.selfRefresh == 0),
    (64, run0.stats[0]!.rankTotal[0]!.cycles.powerDownAct == 0),
    (65, run0.stats[0]!.rankTotal[0]!.cycles.powerDownPre == 0),
    (70, run0.stats[0]!.bank[0]!.cycles.act == 55),
    (76, run0.stats[0]!.bank[1]!.cycles.act == 0),
    (76, run0.stats[0]!.bank[2]!.cycles.act == 0),
    (72, run0.stats[0]!.bank[3]!.cycles.act == 40),
    (76, run0.stats[0]!.bank[4]!.cycles.act == 0),
    (76, run0.stats[0]!.bank[5]!.cycles.act == 0),
    (76, run0.stats[0]!.bank[6]!.cycles.act == 0),
    (76, run0.stats[0]!.bank[7]!.cycles.act == 0),
    (76, run0.stats[0]!.bank[8]!.cycles.act == 0),
    (76, run0.stats[0]!.bank[9]!.cycles.act == 0),
    (76, run0.stats[0]!.bank[10]!.cycles.act == 0),
    (74, run0.stats[0]!.bank[11]!.cycles.act == 45),
    (76, run0.stats[0]!.bank[12]!.cycles.act == 0),
    (76, run0.stats[0]!.bank[13]!.cycles.act == 0),
    (76, run0.stats[0]!.bank[14]!.cycles.act == 0),
    (76, run0.stats[0]!.bank[15]!.cycles.act == 0),
    (83, run0.stats[0]!.bank[0]!.cycles.pre == 45),
    (89, run0.stats[0]!.bank[1]!.cycles.pre == 100),
    (89, run0.stats[0]!.bank[2]!.cycles.pre == 100),
    (85, run0.stats[0]!.bank[3]!.cycles.pre == 60),
    (89, run0.stats[0]!.bank[4]!.cycles.pre == 100),
    (89, run0.stats[0]!.bank[5]!.cycles.pre == 100),
    (89, run0.stats[0]!.bank[6]!.cycles.pre == 100),
    (89, run0.stats[0]!.bank[7]!.cycles.pre == 100),
    (89, run0.stats[0]!.bank[8]!.cycles.pre == 100),
    (89, run0.stats[0]!.bank[9]!.cycles.pre == 100),
    (89, run0.stats[0]!.bank[10]!.cycles.pre == 100),
    (87, run0.stats[0]!.bank[11]!.cycles.pre == 55),
    (89, run0.stats[0]!.bank[12]!.cycles.pre == 100),
    (89, run0.stats[0]!.bank[13]!.cycles.pre == 100),
    (89, run0.stats[0]!.bank[14]!.cycles.pre == 100),
    (89, run0.stats[0]!.bank[15]!.cycles.pre == 100),
    (94, run0.stats[0]!.bank[0]!.cycles.powerDownAct == 0),
    (94, run0.stats[0]!.bank[1]!.cycles.powerDownAct == 0),
    (94, run0.stats[0]!.bank[2]!.cycles.powerDownAct == 0),
    (94, run0.stats[0]!.bank[3]!.cycles.powerDownAct == 0),
    (94, run0.stats[0]!.bank[4]!.cycles.powerDownAct == 0),
    (94, run0.stats[0]!.bank[5]!.cycles.powerDownAct == 0),
    (94, run0.stats[0]!.bank[6]!.cycles.powerDownAct == 0),
    (94, run0.stats[0]!.bank[7]!.cycles.powerDownAct == 0),
    (94, run0.stats[0]!.bank[8]!.cycles.powerDownAct == 0),
    (94, run0.stats[0]!.bank[9]!.cycles.powerDownAct == 0),
    (94, run0.stats[0]!.bank[10]!.cycles.powerDownAct == 0),
    (94, run0.stats[0]!.bank[11]!.cycles.powerDownAct == 0),
    (94, run0.stats[0]!.bank[12]!.cycles.powerDownAct == 0),
    (94, run0.stats[0]!.bank[13]!.cycles.powerDownAct == 0),
    (94, run0.stats[0]!.bank[14]!.cycles.powerDownAct == 0),
    (94, run0.stats[0]!.bank[15]!.cycles.powerDownAct == 0),
    (97, run0.stats[0]!.bank[0]!.cycles.powerDownPre == 0),
    (97, run0.stats[0]!.bank[1]!.cycles.powerDownPre == 0),
    (97, run0.stats[0]!.bank[2]!.cycles.powerDownPre == 0),
    (97, run0.stats[0]!.bank[3]!.cycles.powerDownPre == 0),
    (97, run0.stats[0]!.bank[4]!.cycles.powerDownPre == 0),
    (97, run0.stats[0]!.bank[5]!.cycles.powerDownPre == 0),
    (97, run0.stats[0]!.bank[6]!.cycles.powerDownPre == 0),
    (97, run0.stats[0]!.bank[7]!.cycles.powerDownPre == 0),
    (97, run0.stats[0]!.bank[8]!.cycles.powerDownPre == 0),
    (97, run0.stats[0]!.bank[9]!.cycles.powerDownPre == 0),
    (97, run0.stats[0]!.bank[10]!.cycles.powerDownPre == 0),
    (97, run0.stats[0]!.bank[11]!.cycles.powerDownPre == 0),
    (97, run0.stats[0]!.bank[12]!.cycles.powerDownPre == 0),
    (97, run0.stats[0]!.bank[13]!.cycles.powerDownPre == 0),
    (97, run0.stats[0]!.bank[14]!.cycles.powerDownPre == 0),
    (97, run0.stats[0]!.bank[15]!.cycles.powerDownPre == 0),
    (100, run0.stats[0]!.bank[0]!.cycles.selfRefresh == 0),
    (100, run0.stats[0]!.bank[1]!.cycles.selfRefresh == 0),
    (100, run0.stats[0]!.bank[2]!.cycles.selfRefresh == 0),
    (100, run0.stats[0]!.bank[3]!.cycles.selfRefresh == 0),
    (100, run0.stats[0]!.bank[4]!.cycles.selfRefresh == 0),
    (100, run0.stats[0]!.bank[5]!.cycles.selfRefresh == 0),
    (100, run0.stats[0]!.bank[6]!.cycles.selfRefresh == 0),
    (100, run0.stats[0]!.bank[7]!.cycles.selfRefresh == 0),
    (100, run0.stats[0]!.bank[8]!.cycles.selfRefresh == 0),
    (100, run0.stats[0]!.bank[9]!.cycles.selfRefresh == 0),
    (100, run0.stats[0]!.bank[10]!.cycles.selfRefresh == 0),
    (100, run0.stats[0]!.bank[11]!.cycles.selfRefresh == 0),
    (100, run0.stats[0]!.bank[12]!.cycles.selfRefresh == 0),
    (100, run0.stats[0]!.bank[13]!.cycles.selfRefresh == 0),
    (100, run0.stats[0]!.bank[14]!.cycles.selfRefresh == 0),
    (100, run0.stats[0]!.bank[15]!.cycles.selfRefresh == 0)]

#guard failing checks == []

end ddr5_11.Counters_and_Cycles

namespace ddr5_11.Energy

def run0 : Log := run .ddr5 (ddr5) [
    .core { t := 0, type := .ACT },
    .core { t := 15, type := .RD },
    .core { t := 20, type := .ACT, co := { bank := 11 } },
    .core { t := 25, type := .ACT, co := { bank := 3 } },
    .core { t := 40, type := .WR, co := { bank := 11 } },
    .core { t := 45, type := .RD, co := { bank := 3 } },
    .core { t := 55, type := .PRESB },
    .core { t := 65, type := .PRESB, co := { bank := 11 } },
    .core { t := 100, type := .END_OF_SIMULATION },
    .coreEnergy 100]

def checks : List (Nat × Bool) := [
    (0, run0.ok),
    (113, (nearest (((run0.energies[0]!.aggregated.eAct : Rat) * 1000000000000) : Rat) : Rat) == 538),
    (114, (nearest (((run0.energies[0]!.aggregated.ePre : Rat) * 1000000000000) : Rat) : Rat) == 623),
    (115, (nearest (((run0.energies[0]!.aggregated.eRD : Rat) * 1000000000000) : Rat) : Rat) == 871),
    (116, (nearest (((run0.energies[0]!.aggregated.eWR : Rat) * 1000000000000) : Rat) : Rat) == 353),
    (117, (nearest (((run0.energies[0]!.shared.sref : Rat) * 1000000000000) : Rat) : Rat) == 0),
    (118, (nearest (((run0.energies[0]!.shared.pdnA : Rat) * 1000000000000) : Rat) : Rat) == 0),
    (119, (nearest (((run0.energies[0]!.shared.pdnP : Rat) * 1000000000000) : Rat) : Rat) == 0),
    (120, (nearest (((run0.energies[0]!.aggregated.eBgAct : Rat) * 1000000000000) : Rat) : Rat) == 2221),
    (121, (nearest (((run0.energies[0]!.shared.bgActShared : Rat) * 1000000000000) : Rat) : Rat) == 2198),
    (122, (nearest (((run0.energies[0]!.aggregated.eBgPre : Rat) * 1000000000000) : Rat) : Rat) == 1090),
    (123, (nearest (((run0.energies[0]!.aggregated.eRefSB : Rat) * 1000000000000) : Rat) : Rat) == 0),
    (124, (nearest (((((((((run0.energies[0]!.aggregated.total : Rat) + (run0.energies[0]!.shared.sref : Rat)) : Rat) + (run0.energies[0]!.shared.pdnA : Rat)) : Rat) + (run0.energies[0]!.shared.pdnP : Rat)) : Rat) * 1000000000000) : Rat) : Rat) == 5697)]

#guard failing checks == []

end ddr5_11.Energy

/-! ## tests/tests_drampower/core/DDR5/ddr5_test_pattern_12.cpp -/

namespace ddr5_12.Pattern1

def run0 : Log := run .ddr5 ({ ddr5 with
  core := { ddr5.core with numberOfRanks := 1, numberOfBanks := 8, banksPerGroup := 8, numberOfBankGroups := 1, tRAS := 10, tRP := 10 },
  power := { ddr5.power with devices := 1, ranks := 1, banks := 8, bankGroups := 1, burstLength := 8, dataRate := 2, tCK := 1, tRAS := 10, tRP := 10, rho := (333333333/1000000000), domains := (ddr5.power.domains.modify 0 fun d => { d with v := 1, i0 := 64, i3n := 32, i2n := 8, iBeta := 64 }) },
  iface := { ddr5.iface with bitWidth := 16, devices := 1, ranks := 1, bankGroups := 1, burstLength := 8, dataRate := 2 },
  wires := { ddr5.wires with bitWidth := 16, dataRate := 2, tCK := 1 } }) [
    .core { t := 0, type := .ACT },
    .core { t := 10, type := .ACT, co := { bank := 1 } },
    .core { t := 15, type := .PRE },
    .core { t := 25, type := .ACT, co := { bank := 3 } },
    .core { t := 25, type := .PRE, co := { bank := 1 } },
    .core { t := 30, type := .ACT },
    .core { t := 35, type := .ACT, co := { bank := 2 } },
    .core { t := 40, type := .PRE, co := { bank := 1 } },
    .core { t := 40, type := .PRE, co := { bank := 3 } },
    .core { t := 45, type := .PRE },
    .core { t := 50, type := .PRE, co := { bank := 2 } },
    .core { t := 85, type := .ACT, co := { bank := 7 } },
    .core { t := 100, type := .PRE, co := { bank := 7 } },
    .core { t := 120, type := .ACT, co := { bank := 6 } },
    .core { t := 125, type := .END_OF_SIMULATION },
    .stats]

def checks : List (Nat × Bool) := [
    (0, run0.ok),
    (80, run0.stats[0]!.rankTotal[0]!.cycles.act == 70),
    (81, run0.stats[0]!.rankTotal[0]!.cycles.pre == 55),
    (84, run0.stats[0]!.bank[0]!.cycles.act == 30),
    (86, run0.stats[0]!.bank[1]!.cycles.act == 15),
    (87, run0.stats[0]!.bank[2]!.cycles.act == 15),
    (88, run0.stats[0]!.bank[3]!.cycles.act == 15),
    (89, run0.stats[0]!.bank[7]!.cycles.act == 15),
    (91, run0.stats[0]!.bank[6]!.cycles.act == 5),
    (93, run0.stats[0]!.bank[4]!.cycles.act == 0),
    (94, run0.stats[0]!.bank[5]!.cycles.act == 0),
    (97, run0.stats[0]!.bank[0]!.cycles.pre == 95),
    (99, run0.stats[0]!.bank[1]!.cycles.pre == 110),
    (100, run0.stats[0]!.bank[2]!.cycles.pre == 110),
    (101, run0.stats[0]!.bank[3]!.cycles.pre == 110),
    (102, run0.stats[0]!.bank[7]!.cycles.pre == 110),
    (104, run0.stats[0]!.bank[6]!.cycles.pre == 120),
    (106, run0.stats[0]!.bank[4]!.cycles.pre == 125),
    (107, run0.stats[0]!.bank[5]!.cycles.pre == 125),
    (110, run0.stats[0]!.bank[0]!.counter.act == 2),
    (112, run0.stats[0]!.bank[1]!.counter.act == 1),
    (113, run0.stats[0]!.bank[2]!.counter.act == 1),
    (114, run0.stats[0]!.bank[3]!.counter.act == 1),
    (115, run0.stats[0]!.bank[6]!.counter.act == 1),
    (116, run0.stats[0]!.bank[7]!.counter.act == 1),
    (118, run0.stats[0]!.bank[4]!.counter.act == 0),
    (119, run0.stats[0]!.bank[5]!.counter.act == 0),
    (122, run0.stats[0]!.bank[0]!.counter.pre == 2),
    (124, run0.stats[0]!.bank[1]!.counter.pre == 1),
    (125, run0.stats[0]!.bank[2]!.counter.pre == 1),
    (126, run0.stats[0]!.bank[3]!.counter.pre == 1),
    (127, run0.stats[0]!.bank[7]!.counter.pre == 1),
    (129, run0.stats[0]!.bank[6]!.counter.pre == 0),
    (130, run0.stats[0]!.bank[4]!.counter.pre == 0),
    (131, run0.stats[0]!.bank[5]!.counter.pre == 0)]

#guard failing checks == []

end ddr5_12.Pattern1

namespace ddr5_12.CalcEnergy

def run0 : Log := run .ddr5 ({ ddr5 with
  core := { ddr5.core with numberOfRanks := 1, numberOfBanks := 8, banksPerGroup := 8, numberOfBankGroups := 1, tRAS := 10, tRP := 10 },
  power := { ddr5.power with devices := 1, ranks := 1, banks := 8, bankGroups := 1, burstLength := 8, dataRate := 2, tCK := 1, tRAS := 10, tRP := 10, rho := (333333333/1000000000), domains := (ddr5.power.domains.modify 0 fun d => { d with v := 1, i0 := 64, i3n := 32, i2n := 8, iBeta := 64 }) },
  iface := { ddr5.iface with bitWidth := 16, devices := 1, ranks := 1, bankGroups := 1, burstLength := 8, dataRate := 2 },
  wires := { ddr5.wires with bitWidth := 16, dataRate := 2, tCK := 1 } }) [
    .core { t := 0, type := .ACT },
    .core { t := 10, type := .ACT, co := { bank := 1 } },
    .core { t := 15, type := .PRE },
    .core { t := 25, type := .ACT, co := { bank := 3 } },
    .core { t := 25, type := .PRE, co := { bank := 1 } },
    .core { t := 30, type := .ACT },
    .core { t := 35, type := .ACT, co := { bank := 2 } },
    .core { t := 40, type := .PRE, co := { bank := 1 } },
    .core { t := 40, type := .PRE, co := { bank := 3 } },
    .core { t := 45, type := .PRE },
    .core { t := 50, type := .PRE, co := { bank := 2 } },
    .core { t := 85, type := .ACT, co := { bank := 7 } },
    .core { t := 100, type := .PRE, co := { bank := 7 } },
    .core { t := 120, type := .ACT, co := { bank := 6 } },
    .core { t := 125, type := .END_OF_SIMULATION },
    .coreEnergy 125]

def checks : List (Nat × Bool) := [
    (0, run0.ok),
    (148, (whole (run0.energies[0]!.aggregated.eAct : Rat) : Rat) == 3220),
    (149, (whole (run0.energies[0]!.bank[0]!.eAct : Rat) : Rat) == 920),
    (150, (whole (run0.energies[0]!.bank[1]!.eAct : Rat) : Rat) == 460),
    (151, (whole (run0.energies[0]!.bank[2]!.eAct : Rat) : Rat) == 460),
    (152, (whole (run0.energies[0]!.bank[3]!.eAct : Rat) : Rat) == 460),
    (153, (whole (run0.energies[0]!.bank[4]!.eAct : Rat) : Rat) == 0),
    (154, (whole (run0.energies[0]!.bank[5]!.eAct : Rat) : Rat) == 0),
    (155, (whole (run0.energies[0]!.bank[6]!.eAct : Rat) : Rat) == 460),
    (156, (whole (run0.energies[0]!.bank[7]!.eAct : Rat) : Rat) == 460),
    (158, (whole (run0.energies[0]!.aggregated.ePre : Rat) : Rat) == 3360),
    (159, (whole (run0.energies[0]!.bank[0]!.ePre : Rat) : Rat) == 1120),
    (160, (whole (run0.energies[0]!.bank[1]!.ePre : Rat) : Rat) == 560),
    (161, (whole (run0.energies[0]!.bank[2]!.ePre : Rat) : Rat) == 560),
    (162, (whole (run0.energies[0]!.bank[3]!.ePre : Rat) : Rat) == 560),
    (163, (whole (run0.energies[0]!.bank[4]!.ePre : Rat) : Rat) == 0),
    (164, (whole (run0.energies[0]!.bank[5]!.ePre : Rat) : Rat) == 0),
    (165, (whole (run0.energies[0]!.bank[6]!.ePre : Rat) : Rat) == 0),
    (166, (whole (run0.energies[0]!.bank[7]!.ePre : Rat) : Rat) == 560),
    (168, (whole (run0.energies[0]!.bank[0]!.eBgAct : Rat) : Rat) == 60),
    (169, (whole (run0.energies[0]!.bank[1]!.eBgAct : Rat) : Rat) == 30),
    (170, (whole (run0.energies[0]!.bank[2]!.eBgAct : Rat) : Rat) == 30),
    (171, (whole (run0.energies[0]!.bank[3]!.eBgAct : Rat) : Rat) == 30),
    (172, (whole (run0.energies[0]!.bank[4]!.eBgAct : Rat) : Rat) == 0),
    (173, (whole (run0.energies[0]!.bank[5]!.eBgAct : Rat) : Rat) == 0),
    (174, (whole (run0.energies[0]!.bank[6]!.eBgAct : Rat) : Rat) == 10),
    (175, (whole (run0.energies[0]!.bank[7]!.eBgAct : Rat) : Rat) == 30),
    (176, (nearest (run0.energies[0]!.shared.bgActShared : Rat) : Rat) == 1120),
    (177, (nearest (run0.energies[0]!.aggregated.eBgAct : Rat) : Rat) == 1310),
    (179, (whole (run0.energies[0]!.aggregated.eBgPre : Rat) : Rat) == 440),
    (180, (whole (run0.energies[0]!.bank[0]!.eBgPre : Rat) : Rat) == 55),
    (181, (whole (run0.energies[0]!.bank[1]!.eBgPre : Rat) : Rat) == 55),
    (182, (whole (run0.energies[0]!.bank[2]!.eBgPre : Rat) : Rat) == 55),
    (183, (whole (run0.energies[0]!.bank[3]!.eBgPre : Rat) : Rat) == 55),
    (184, (whole (run0.energies[0]!.bank[4]!.eBgPre : Rat) : Rat) == 55),
    (185, (whole (run0.energies[0]!.bank[5]!.eBgPre : Rat) : Rat) == 55),
    (186, (whole (run0.energies[0]!.bank[6]!.eBgPre : Rat) : Rat) == 55),
    (187, (whole (run0.energies[0]!.bank[7]!.eBgPre : Rat) : Rat) == 55)]

#guard failing checks == []

end ddr5_12.CalcEnergy

/-! ## tests/tests_drampower/core/DDR5/ddr5_test_pattern_13.cpp -/

namespace ddr5_13.Pattern_2

def run0 : Log := run .ddr5 ({ ddr5 with
  core := { ddr5.core with numberOfRanks := 1, numberOfBanks := 8, banksPerGroup := 8, numberOfBankGroups := 1 },
  power := { ddr5.power with devices := 1, ranks := 1, banks := 8, bankGroups := 1, tCK := 1, burstLength := 16, dataRate := 2, domains := (ddr5.power.domains.modify 0 fun d => { d with v := 1, i0 := 64, i3n := 32, i4r := 72, i4w := 96, iBeta := 64 }) },
  iface := { ddr5.iface with bitWidth := 16, devices := 1, ranks := 1, bankGroups := 1, burstLength := 16, dataRate := 2 },
  wires := { ddr5.wires with bitWidth := 16, tCK := 1, dataRate := 2 } }) [
    .core { t := 0, type := .ACT },
    .core { t := 5, type := .ACT, co := { bank := 1 } },
    .core { t := 10, type := .ACT, co := { bank := 2 } },
    .core { t := 15, type := .ACT, co := { bank := 3 } },
    .core { t := 20, type := .ACT, co := { bank := 4 } },
    .core { t := 25, type := .ACT, co := { bank := 5 } },
    .core { t := 30, type := .ACT, co := { bank := 6 } },
    .core { t := 35, type := .ACT, co := { bank := 7 } },
    .core { t := 35, type := .RD },
    .core { t := 40, type := .RD },
    .core { t := 40, type := .RD, co := { bank := 1 } },
    .core { t := 45, type := .RD },
    .core { t := 45, type := .RD, co := { bank := 2 } },
    .core { t := 50, type := .RD, co := { bank := 3 } },
    .core { t := 55, type := .RD, co := { bank := 4 } },
    .core { t := 60, type := .RD, co := { bank := 5 } },
    .core { t := 65, type := .RD, co := { bank := 6 } },
    .core { t := 70, type := .RD, co := { bank := 7 } },
    .core { t := 75, type := .RD, co := { bank := 7 } },
    .core { t := 80, type := .RD, co := { bank := 7 } },
    .core { t := 85, type := .WR, co := { bank := 7 } },
    .core { t := 90, type := .WR, co := { bank := 6 } },
    .core { t := 95, type := .WR, co := { bank := 5 } },
    .core { t := 100, type := .WR, co := { bank := 4 } },
    .core { t := 105, type := .WR, co := { bank := 3 } },
    .core { t := 110, type := .WR, co := { bank := 2 } },
    .core { t := 110, type := .WR },
    .core { t := 115, type := .WR, co := { bank := 1 } },
    .core { t := 115, type := .RD },
    .core { t := 120, type := .WR },
    .core { t := 120, type := .END_OF_SIMULATION },
    .look]

def checks : List (Nat × Bool) := [
    (0, run0.ok),
    (97, ((run0.cores[0]!.ranks 0).banks 0).counter.reads == 4),
    (98, ((run0.cores[0]!.ranks 0).banks 1).counter.reads == 1),
    (99, ((run0.cores[0]!.ranks 0).banks 2).counter.reads == 1),
    (100, ((run0.cores[0]!.ranks 0).banks 3).counter.reads == 1),
    (101, ((run0.cores[0]!.ranks 0).banks 4).counter.reads == 1),
    (102, ((run0.cores[0]!.ranks 0).banks 5).counter.reads == 1),
    (103, ((run0.cores[0]!.ranks 0).banks 6).counter.reads == 1),
    (104, ((run0.cores[0]!.ranks 0).banks 7).counter.reads == 3),
    (107, ((run0.cores[0]!.ranks 0).banks 0).counter.writes == 2),
    (108, ((run0.cores[0]!.ranks 0).banks 1).counter.writes == 1),
    (109, ((run0.cores[0]!.ranks 0).banks 2).counter.writes == 1),
    (110, ((run0.cores[0]!.ranks 0).banks 3).counter.writes == 1),
    (111, ((run0.cores[0]!.ranks 0).banks 4).counter.writes == 1),
    (112, ((run0.cores[0]!.ranks 0).banks 5).counter.writes == 1),
    (113, ((run0.cores[0]!.ranks 0).banks 6).counter.writes == 1),
    (114, ((run0.cores[0]!.ranks 0).banks 7).counter.writes == 1)]

#guard failing checks == []

end ddr5_13.Pattern_2

namespace ddr5_13.CalcEnergy

def run0 : Log := run .ddr5 ({ ddr5 with
  core := { ddr5.core with numberOfRanks := 1, numberOfBanks := 8, banksPerGroup := 8, numberOfBankGroups := 1 },
  power := { ddr5.power with devices := 1, ranks := 1, banks := 8, bankGroups := 1, tCK := 1, burstLength := 16, dataRate := 2, domains := (ddr5.power.domains.modify 0 fun d => { d with v := 1, i0 := 64, i3n := 32, i4r := 72, i4w := 96, iBeta := 64 }) },
  iface := { ddr5.iface with bitWidth := 16, devices := 1, ranks := 1, bankGroups := 1, burstLength := 16, dataRate := 2 },
  wires := { ddr5.wires with bitWidth := 16, tCK := 1, dataRate := 2 } }) [
    .core { t := 0, type := .ACT },
    .core { t := 5, type := .ACT, co := { bank := 1 } },
    .core { t := 10, type := .ACT, co := { bank := 2 } },
    .core { t := 15, type := .ACT, co := { bank := 3 } },
    .core { t := 20, type := .ACT, co := { bank := 4 } },
    .core { t := 25, type := .ACT, co := { bank := 5 } },
    .core { t := 30, type := .ACT, co := { bank := 6 } },
    .core { t := 35, type := .ACT, co := { bank := 7 } },
    .core { t := 35, type := .RD },
    .core { t := 40, type := .RD },
    .core { t := 40, type := .RD, co := { bank := 1 } },
    .core { t := 45, type := .RD },
    .core { t := 45, type := .RD, co := { bank := 2 } },
    .core { t := 50, type := .RD, co := { bank := 3 } },
    .core { t := 55, type := .RD, co := { bank := 4 } },
    .core { t := 60, type := .RD, co := { bank := 5 } },
    .core { t := 65, type := .RD, co := { bank := 6 } },
    .core { t := 70, type := .RD, co := { bank := 7 } },
    .core { t := 75, type := .RD, co := { bank := 7 } },
    .core { t := 80, type := .RD, co := { bank := 7 } },
    .core { t := 85, type := .WR, co := { bank := 7 } },
    .core { t := 90, type := .WR, co := { bank := 6 } },
    .core { t := 95, type := .WR, co := { bank := 5 } },
    .core { t := 100, type := .WR, co := { bank := 4 } },
    .core { t := 105, type := .WR, co := { bank := 3 } },
    .core { t := 110, type := .WR, co := { bank := 2 } },
    .core { t := 110, type := .WR },
    .core { t := 115, type := .WR, co := { bank := 1 } },
    .core { t := 115, type := .RD },
    .core { t := 120, type := .WR },
    .core { t := 120, type := .END_OF_SIMULATION },
    .coreEnergy 125]

def checks : List (Nat × Bool) := [
    (0, run0.ok),
    (131, (whole (run0.energies[0]!.aggregated.eRD : Rat) : Rat) == 4160),
    (132, (whole (run0.energies[0]!.bank[0]!.eRD : Rat) : Rat) == 1280),
    (133, (whole (run0.energies[0]!.bank[1]!.eRD : Rat) : Rat) == 320),
    (134, (whole (run0.energies[0]!.bank[2]!.eRD : Rat) : Rat) == 320),
    (135, (whole (run0.energies[0]!.bank[3]!.eRD : Rat) : Rat) == 320),
    (136, (whole (run0.energies[0]!.bank[4]!.eRD : Rat) : Rat) == 320),
    (137, (whole (run0.energies[0]!.bank[5]!.eRD : Rat) : Rat) == 320),
    (138, (whole (run0.energies[0]!.bank[6]!.eRD : Rat) : Rat) == 320),
    (139, (whole (run0.energies[0]!.bank[7]!.eRD : Rat) : Rat) == 960),
    (141, (whole (run0.energies[0]!.aggregated.eWR : Rat) : Rat) == 4608),
    (142, (whole (run0.energies[0]!.bank[0]!.eWR : Rat) : Rat) == 1024),
    (143, (whole (run0.energies[0]!.bank[1]!.eWR : Rat) : Rat) == 512),
    (144, (whole (run0.energies[0]!.bank[2]!.eWR : Rat) : Rat) == 512),
    (145, (whole (run0.energies[0]!.bank[3]!.eWR : Rat) : Rat) == 512),
    (146, (whole (run0.energies[0]!.bank[4]!.eWR : Rat) : Rat) == 512),
    (147, (whole (run0.energies[0]!.bank[5]!.eWR : Rat) : Rat) == 512),
    (148, (whole (run0.energies[0]!.bank[6]!.eWR : Rat) : Rat) == 512),
    (149, (whole (run0.energies[0]!.bank[7]!.eWR : Rat) : Rat) == 512)]

#guard failing checks == []

end ddr5_13.CalcEnergy

/-! ## tests/tests_drampower/core/DDR5/ddr5_test_pattern_14.cpp -/

namespace ddr5_14.Test

def run0 : Log := run .ddr5 ({ ddr5 with
  core := { ddr5.core with numberOfRanks := 1, numberOfBanks := 8, banksPerGroup := 8, numberOfBankGroups := 1, tRAS := 20, tRP := 10, prechargeOffsetRD := 10, prechargeOffsetWR := 20 },
  power := { ddr5.power with devices := 1, ranks := 1, banks := 8, bankGroups := 1, tRAS := 20, tCK := 1, tRP := 10, rho := (333333333/1000000000), burstLength := 16, dataRate := 2, domains := (ddr5.power.domains.modify 0 fun d => { d with v := 1, i0 := 64, i2n := 8, i3n := 32, i4r := 72, i4w := 96, iBeta := 64 }) },
  iface := { ddr5.iface with bitWidth := 16, devices := 1, ranks := 1, bankGroups := 1, burstLength := 16, dataRate := 2 },
  wires := { ddr5.wires with bitWidth := 16, tCK := 1, dataRate := 2 } }) [
    .core { t := 0, type := .ACT },
    .core { t := 10, type := .RDA },
    .core { t := 15, type := .ACT, co := { bank := 1 } },
    .core { t := 15, type := .ACT, co := { bank := 2 } },
    .core { t := 25, type := .WRA, co := { bank := 1 } },
    .core { t := 30, type := .PRE },
    .core { t := 35, type := .RDA, co := { bank := 2 } },
    .core { t := 50, type := .ACT },
    .core { t := 50, type := .ACT, co := { bank := 2 } },
    .core { t := 60, type := .WRA },
    .core { t := 60, type := .RDA, co := { bank := 2 } },
    .core { t := 75, type := .ACT, co := { bank := 1 } },
    .core { t := 80, type := .ACT },
    .core { t := 85, type := .WRA },
    .core { t := 95, type := .RDA, co := { bank := 1 } },
    .core { t := 125, type := .END_OF_SIMULATION },
    .stats]

def checks : List (Nat × Bool) := [
    (0, run0.ok),
    (93, run0.stats[0]!.bank[0]!.counter.act == 3),
    (94, run0.stats[0]!.bank[1]!.counter.act == 2),
    (95, run0.stats[0]!.bank[2]!.counter.act == 2),
    (96, run0.stats[0]!.bank[3]!.counter.act == 0),
    (97, run0.stats[0]!.bank[4]!.counter.act == 0),
    (98, run0.stats[0]!.bank[5]!.counter.act == 0),
    (99, run0.stats[0]!.bank[6]!.counter.act == 0),
    (100, run0.stats[0]!.bank[7]!.counter.act == 0),
    (103, run0.stats[0]!.bank[0]!.counter.readAuto == 1),
    (104, run0.stats[0]!.bank[1]!.counter.readAuto == 1),
    (105, run0.stats[0]!.bank[2]!.counter.readAuto == 2),
    (106, run0.stats[0]!.bank[3]!.counter.readAuto == 0),
    (107, run0.stats[0]!.bank[4]!.counter.readAuto == 0),
    (108, run0.stats[0]!.bank[5]!.counter.readAuto == 0),
    (109, run0.stats[0]!.bank[6]!.counter.readAuto == 0),
    (110, run0.stats[0]!.bank[7]!.counter.readAuto == 0),
    (113, run0.stats[0]!.bank[0]!.counter.writeAuto == 2),
    (114, run0.stats[0]!.bank[1]!.counter.writeAuto == 1),
    (115, run0.stats[0]!.bank[2]!.counter.writeAuto == 0),
    (116, run0.stats[0]!.bank[3]!.counter.writeAuto == 0),
    (117, run0.stats[0]!.bank[4]!.counter.writeAuto == 0),
    (118, run0.stats[0]!.bank[5]!.counter.writeAuto == 0),
    (119, run0.stats[0]!.bank[6]!.counter.writeAuto == 0),
    (120, run0.stats[0]!.bank[7]!.counter.writeAuto == 0),
    (123, run0.stats[0]!.rankTotal[0]!.cycles.act == 100),
    (124, run0.stats[0]!.rankTotal[0]!.cycles.pre == 25),
    (127, run0.stats[0]!.bank[0]!.cycles.act == 75),
    (128, run0.stats[0]!.bank[1]!.cycles.act == 60),
    (129, run0.stats[0]!.bank[2]!.cycles.act == 50),
    (130, run0.stats[0]!.bank[3]!.cycles.act == 0),
    (131, run0.stats[0]!.bank[4]!.cycles.act == 0),
    (132, run0.stats[0]!.bank[5]!.cycles.act == 0),
    (133, run0.stats[0]!.bank[6]!.cycles.act == 0),
    (134, run0.stats[0]!.bank[7]!.cycles.act == 0),
    (137, run0.stats[0]!.bank[0]!.cycles.pre == 50),
    (138, run0.stats[0]!.bank[1]!.cycles.pre == 65),
    (139, run0.stats[0]!.bank[2]!.cycles.pre == 75),
    (140, run0.stats[0]!.bank[3]!.cycles.pre == 125),
    (141, run0.stats[0]!.bank[4]!.cycles.pre == 125),
    (142, run0.stats[0]!.bank[5]!.cycles.pre == 125),
    (143, run0.stats[0]!.bank[6]!.cycles.pre == 125),
    (144, run0.stats[0]!.bank[7]!.cycles.pre == 125)]

#guard failing checks == []

end ddr5_14.Test

namespace ddr5_14.CalcEnergy

def run0 : Log := run .ddr5 ({ ddr5 with
  core := { ddr5.core with numberOfRanks := 1, numberOfBanks := 8, banksPerGroup := 8, numberOfBankGroups := 1, tRAS := 20, tRP := 10, prechargeOffsetRD := 10, prechargeOffsetWR := 20 },
  power := { ddr5.power with devices := 1, ranks := 1, banks := 8, bankGroups := 1, tRAS := 20, tCK := 1, tRP := 10, rho := (333333333/1000000000), burstLength := 16, dataRate := 2, domains := (ddr5.power.domains.modify 0 fun d => { d with v := 1, i0 := 64, i2n := 8, i3n := 32, i4r := 72, i4w := 96, iBeta := 64 }) },
  iface := { ddr5.iface with bitWidth := 16, devices := 1, ranks := 1, bankGroups := 1, burstLength := 16, dataRate := 2 },
  wires := { ddr5.wires with bitWidth := 16, tCK := 1, dataRate := 2 } }) [
    .core { t := 0, type := .ACT },
    .core { t := 10, type := .RDA },
    .core { t := 15, type := .ACT, co := { bank := 1 } },
    .core { t := 15, type := .ACT, co := { bank := 2 } },
    .core { t := 25, type := .WRA, co := { bank := 1 } },
    .core { t := 30, type := .PRE },
    .core { t := 35, type := .RDA, co := { bank := 2 } },
    .core { t := 50, type := .ACT },
    .core { t := 50, type := .ACT, co := { bank := 2 } },
    .core { t := 60, type := .WRA },
    .core { t := 60, type := .RDA, co := { bank := 2 } },
    .core { t := 75, type := .ACT, co := { bank := 1 } },
    .core { t := 80, type := .ACT },
    .core { t := 85, type := .WRA },
    .core { t := 95, type := .RDA, co := { bank := 1 } },
    .core { t := 125, type := .END_OF_SIMULATION },
    .coreEnergy 125]

def checks : List (Nat × Bool) := [
    (0, run0.ok),
    (161, (nearest (run0.energies[0]!.aggregated.eBgAct : Rat) : Rat) == 1970),
    (162, (nearest (run0.energies[0]!.shared.bgActShared : Rat) : Rat) == 1600),
    (163, (whole (run0.energies[0]!.bank[0]!.eBgAct : Rat) : Rat) == 150),
    (164, (whole (run0.energies[0]!.bank[1]!.eBgAct : Rat) : Rat) == 120),
    (165, (whole (run0.energies[0]!.bank[2]!.eBgAct : Rat) : Rat) == 100),
    (166, (whole (run0.energies[0]!.bank[3]!.eBgAct : Rat) : Rat) == 0),
    (167, (whole (run0.energies[0]!.bank[4]!.eBgAct : Rat) : Rat) == 0),
    (168, (whole (run0.energies[0]!.bank[5]!.eBgAct : Rat) : Rat) == 0),
    (169, (whole (run0.energies[0]!.bank[6]!.eBgAct : Rat) : Rat) == 0),
    (170, (whole (run0.energies[0]!.bank[7]!.eBgAct : Rat) : Rat) == 0),
    (172, (whole (run0.energies[0]!.aggregated.eBgPre : Rat) : Rat) == 200),
    (173, (whole (run0.energies[0]!.bank[0]!.eBgPre : Rat) : Rat) == 25),
    (174, (whole (run0.energies[0]!.bank[1]!.eBgPre : Rat) : Rat) == 25),
    (175, (whole (run0.energies[0]!.bank[2]!.eBgPre : Rat) : Rat) == 25),
    (176, (whole (run0.energies[0]!.bank[3]!.eBgPre : Rat) : Rat) == 25),
    (177, (whole (run0.energies[0]!.bank[4]!.eBgPre : Rat) : Rat) == 25),
    (178, (whole (run0.energies[0]!.bank[5]!.eBgPre : Rat) : Rat) == 25),
    (179, (whole (run0.energies[0]!.bank[6]!.eBgPre : Rat) : Rat) == 25),
    (180, (whole (run0.energies[0]!.bank[7]!.eBgPre : Rat) : Rat) == 25),
    (182, (whole (run0.energies[0]!.aggregated.eRDA : Rat) : Rat) == 1280),
    (183, (whole (run0.energies[0]!.bank[0]!.eRDA : Rat) : Rat) == 320),
    (184, (whole (run0.energies[0]!.bank[1]!.eRDA : Rat) : Rat) == 320),
    (185, (whole (run0.energies[0]!.bank[2]!.eRDA : Rat) : Rat) == 640),
    (186, (whole (run0.energies[0]!.bank[3]!.eRDA : Rat) : Rat) == 0),
    (187, (whole (run0.energies[0]!.bank[4]!.eRDA : Rat) : Rat) == 0),
    (188, (whole (run0.energies[0]!.bank[5]!.eRDA : Rat) : Rat) == 0),
    (189, (whole (run0.energies[0]!.bank[6]!.eRDA : Rat) : Rat) == 0),
    (190, (whole (run0.energies[0]!.bank[7]!.eRDA : Rat) : Rat) == 0),
    (192, (whole (run0.energies[0]!.aggregated.eWRA : Rat) : Rat) == 1536),
    (193, (whole (run0.energies[0]!.bank[0]!.eWRA : Rat) : Rat) == 1024),
    (194, (whole (run0.energies[0]!.bank[1]!.eWRA : Rat) : Rat) == 512),
    (195, (whole (run0.energies[0]!.bank[2]!.eWRA : Rat) : Rat) == 0),
    (196, (whole (run0.energies[0]!.bank[3]!.eWRA : Rat) : Rat) == 0),
    (197, (whole (run0.energies[0]!.bank[4]!.eWRA : Rat) : Rat) == 0),
    (198, (whole (run0.energies[0]!.bank[5]!.eWRA : Rat) : Rat) == 0),
    (199, (whole (run0.energies[0]!.bank[6]!.eWRA : Rat) : Rat) == 0),
    (200, (whole (run0.energies[0]!.bank[7]!.eWRA : Rat) : Rat) == 0),
    (202, (whole (run0.energies[0]!.aggregated.ePreRDA : Rat) : Rat) == 2240),
    (203, (whole (run0.energies[0]!.bank[0]!.ePreRDA : Rat) : Rat) == 560),
    (204, (whole (run0.energies[0]!.bank[1]!.ePreRDA : Rat) : Rat) == 560),
    (205, (whole (run0.energies[0]!.bank[2]!.ePreRDA : Rat) : Rat) == 1120),
    (206, (whole (run0.energies[0]!.bank[3]!.ePreRDA : Rat) : Rat) == 0),
    (207, (whole (run0.energies[0]!.bank[4]!.ePreRDA : Rat) : Rat) == 0),
    (208, (whole (run0.energies[0]!.bank[5]!.ePreRDA : Rat) : Rat) == 0),
    (209, (whole (run0.energies[0]!.bank[6]!.ePreRDA : Rat) : Rat) == 0),
    (210, (whole (run0.energies[0]!.bank[7]!.ePreRDA : Rat) : Rat) == 0),
    (212, (whole (run0.energies[0]!.aggregated.ePreWRA : Rat) : Rat) == 1680),
    (213, (whole (run0.energies[0]!.bank[0]!.ePreWRA : Rat) : Rat) == 1120),
    (214, (whole (run0.energies[0]!.bank[1]!.ePreWRA : Rat) : Rat) == 560),
    (215, (whole (run0.energies[0]!.bank[2]!.ePreWRA : Rat) : Rat) == 0),
    (216, (whole (run0.energies[0]!.bank[3]!.ePreWRA : Rat) : Rat) == 0),
    (217, (whole (run0.energies[0]!.bank[4]!.ePreWRA : Rat) : Rat) == 0),
    (218, (whole (run0.energies[0]!.bank[5]!.ePreWRA : Rat) : Rat) == 0),
    (219, (whole (run0.energies[0]!.bank[6]!.ePreWRA : Rat) : Rat) == 0),
    (220, (whole (run0.energies[0]!.bank[7]!.ePreWRA : Rat) : Rat) == 0)]

#guard failing checks == []

end ddr5_14.CalcEnergy

/-! ## tests/tests_drampower/core/DDR5/ddr5_test_pattern_15.cpp -/

namespace ddr5_15.Test

def run0 : Log := run .ddr5 ({ ddr5 with
  core := { ddr5.core with numberOfRanks := 1, numberOfBanks := 8, banksPerGroup := 8, numberOfBankGroups := 1, tRAS := 20, tRP := 10 },
  power := { ddr5.power with devices := 1, ranks := 1, banks := 8, bankGroups := 1, tRAS := 20, tCK := 1, tRP := 10, rho := (333333333/1000000000), burstLength := 16, dataRate := 2, domains := (ddr5.power.domains.modify 0 fun d => { d with v := 1, i0 := 64, i2n := 8, i3n := 32, i4r := 72, i4w := 72, iBeta := 64 }) },
  iface := { ddr5.iface with bitWidth := 16, devices := 1, ranks := 1, bankGroups := 1, burstLength := 16, dataRate := 2 },
  wires := { ddr5.wires with bitWidth := 16, tCK := 1, dataRate := 2 } }) [
    .core { t := 0, type := .ACT },
    .core { t := 5, type := .ACT, co := { bank := 1 } },
    .core { t := 10, type := .ACT, co := { bank := 2 } },
    .core { t := 15, type := .PRE },
    .core { t := 20, type := .PREA },
    .core { t := 25, type := .PRE, co := { bank := 1 } },
    .core { t := 30, type := .PREA },
    .core { t := 40, type := .ACT },
    .core { t := 40, type := .ACT, co := { bank := 3 } },
    .core { t := 50, type := .PRE, co := { bank := 3 } },
    .core { t := 125, type := .END_OF_SIMULATION },
    .stats]

def checks : List (Nat × Bool) := [
    (0, run0.ok),
    (87, run0.stats[0]!.bank[0]!.counter.act == 2),
    (88, run0.stats[0]!.bank[1]!.counter.act == 1),
    (89, run0.stats[0]!.bank[2]!.counter.act == 1),
    (90, run0.stats[0]!.bank[3]!.counter.act == 1),
    (91, run0.stats[0]!.bank[4]!.counter.act == 0),
    (94, run0.stats[0]!.rankTotal[0]!.cycles.act == 105),
    (95, run0.stats[0]!.rankTotal[0]!.cycles.pre == 20),
    (98, run0.stats[0]!.bank[0]!.cycles.act == 100),
    (99, run0.stats[0]!.bank[1]!.cycles.act == 15),
    (100, run0.stats[0]!.bank[2]!.cycles.act == 10),
    (101, run0.stats[0]!.bank[3]!.cycles.act == 10),
    (102, run0.stats[0]!.bank[4]!.cycles.act == 0),
    (105, run0.stats[0]!.bank[0]!.cycles.pre == 25),
    (106, run0.stats[0]!.bank[1]!.cycles.pre == 110),
    (107, run0.stats[0]!.bank[2]!.cycles.pre == 115),
    (108, run0.stats[0]!.bank[3]!.cycles.pre == 115),
    (109, run0.stats[0]!.bank[4]!.cycles.pre == 125)]

#guard failing checks == []

end ddr5_15.Test

namespace ddr5_15.CalcEnergy

def run0 : Log := run .ddr5 ({ ddr5 with
  core := { ddr5.core with numberOfRanks := 1, numberOfBanks := 8, banksPerGroup := 8, numberOfBankGroups := 1, tRAS := 20, tRP := 10 },
  power := { ddr5.power with devices := 1, ranks := 1, banks := 8, bankGroups := 1, tRAS := 20, tCK := 1, tRP := 10, rho := (333333333/1000000000), burstLength := 16, dataRate := 2, domains := (ddr5.power.domains.modify 0 fun d => { d with v := 1, i0 := 64, i2n := 8, i3n := 32, i4r := 72, i4w := 72, iBeta := 64 }) },
  iface := { ddr5.iface with bitWidth := 16, devices := 1, ranks := 1, bankGroups := 1, burstLength := 16, dataRate := 2 },
  wires := { ddr5.wires with bitWidth := 16, tCK := 1, dataRate := 2 } }) [
    .core { t := 0, type := .ACT },
    .core { t := 5, type := .ACT, co := { bank := 1 } },
    .core { t := 10, type := .ACT, co := { bank := 2 } },
    .core { t := 15, type := .PRE },
    .core { t := 20, type := .PREA },
    .core { t := 25, type := .PRE, co := { bank := 1 } },
    .core { t := 30, type := .PREA },
    .core { t := 40, type := .ACT },
    .core { t := 40, type := .ACT, co := { bank := 3 } },
    .core { t := 50, type := .PRE, co := { bank := 3 } },
    .core { t := 125, type := .END_OF_SIMULATION },
    .coreEnergy 125]

def checks : List (Nat × Bool) := [
    (0, run0.ok),
    (126, (whole (run0.energies[0]!.aggregated.eAct : Rat) : Rat) == 4600),
    (127, (whole (run0.energies[0]!.bank[0]!.eAct : Rat) : Rat) == 1840),
    (128, (whole (run0.energies[0]!.bank[1]!.eAct : Rat) : Rat) == 920),
    (129, (whole (run0.energies[0]!.bank[2]!.eAct : Rat) : Rat) == 920),
    (130, (whole (run0.energies[0]!.bank[3]!.eAct : Rat) : Rat) == 920),
    (131, (whole (run0.energies[0]!.bank[4]!.eAct : Rat) : Rat) == 0),
    (132, (whole (run0.energies[0]!.bank[5]!.eAct : Rat) : Rat) == 0),
    (133, (whole (run0.energies[0]!.bank[6]!.eAct : Rat) : Rat) == 0),
    (134, (whole (run0.energies[0]!.bank[7]!.eAct : Rat) : Rat) == 0),
    (136, (whole (run0.energies[0]!.aggregated.ePre : Rat) : Rat) == 2240),
    (137, (whole (run0.energies[0]!.bank[0]!.ePre : Rat) : Rat) == 560),
    (138, (whole (run0.energies[0]!.bank[1]!.ePre : Rat) : Rat) == 560),
    (139, (whole (run0.energies[0]!.bank[2]!.ePre : Rat) : Rat) == 560),
    (140, (whole (run0.energies[0]!.bank[3]!.ePre : Rat) : Rat) == 560),
    (141, (whole (run0.energies[0]!.bank[4]!.ePre : Rat) : Rat) == 0),
    (142, (whole (run0.energies[0]!.bank[5]!.ePre : Rat) : Rat) == 0),
    (143, (whole (run0.energies[0]!.bank[6]!.ePre : Rat) : Rat) == 0),
    (144, (whole (run0.energies[0]!.bank[7]!.ePre : Rat) : Rat) == 0),
    (146, (nearest (run0.energies[0]!.aggregated.eBgAct : Rat) : Rat) == 1950),
    (147, (nearest (run0.energies[0]!.shared.bgActShared : Rat) : Rat) == 1680),
    (148, (whole (run0.energies[0]!.bank[0]!.eBgAct : Rat) : Rat) == 200),
    (149, (whole (run0.energies[0]!.bank[1]!.eBgAct : Rat) : Rat) == 30),
    (150, (whole (run0.energies[0]!.bank[2]!.eBgAct : Rat) : Rat) == 20),
    (151, (whole (run0.energies[0]!.bank[3]!.eBgAct : Rat) : Rat) == 20),
    (152, (whole (run0.energies[0]!.bank[4]!.eBgAct : Rat) : Rat) == 0),
    (153, (whole (run0.energies[0]!.bank[5]!.eBgAct : Rat) : Rat) == 0),
    (154, (whole (run0.energies[0]!.bank[6]!.eBgAct : Rat) : Rat) == 0),
    (155, (whole (run0.energies[0]!.bank[7]!.eBgAct : Rat) : Rat) == 0),
    (157, (whole (run0.energies[0]!.aggregated.eBgPre : Rat) : Rat) == 160),
    (158, (whole (run0.energies[0]!.bank[0]!.eBgPre : Rat) : Rat) == 20),
    (159, (whole (run0.energies[0]!.bank[1]!.eBgPre : Rat) : Rat) == 20),
    (160, (whole (run0.energies[0]!.bank[2]!.eBgPre : Rat) : Rat) == 20),
    (161, (whole (run0.energies[0]!.bank[3]!.eBgPre : Rat) : Rat) == 20),
    (162, (whole (run0.energies[0]!.bank[4]!.eBgPre : Rat) : Rat) == 20),
    (163, (whole (run0.energies[0]!.bank[5]!.eBgPre : Rat) : Rat) == 20),
    (164, (whole (run0.energies[0]!.bank[6]!.eBgPre : Rat) : Rat) == 20),
    (165, (whole (run0.energies[0]!.bank[7]!.eBgPre : Rat) : Rat) == 20)]

#guard failing checks == []

end ddr5_15.CalcEnergy

/-! ## tests/tests_drampower/core/DDR5/ddr5_test_pattern_16.cpp -/

namespace ddr5_16.Test

def run0 : Log := run .ddr5 ({ ddr5 with
  core := { ddr5.core with numberOfRanks := 1, numberOfBanks := 8, numberOfBankGroups := 2, banksPerGroup := 4, tRAS := 10, tRFCsb := 25, tRP := 10 },
  power := { ddr5.power with devices := 1, ranks := 1, banks := 8, bankGroups := 2, tRAS := 10, tRFCpb := 25, tCK := 1, tRP := 10, rho := (333333333/1000000000), burstLength := 16, dataRate := 2, domains := (ddr5.power.domains.modify 0 fun d => { d with v := 1, i0 := 64, i2n := 8, i3n := 32, i4r := 72, i4w := 72, i5c := 28, iBeta := 64 }) },
  iface := { ddr5.iface with bitWidth := 16, devices := 1, ranks := 1, bankGroups := 2, burstLength := 16, dataRate := 2 },
  wires := { ddr5.wires with bitWidth := 16, tCK := 1, dataRate := 2 } }) [
    .core { t := 0, type := .REFSB },
    .core { t := 10, type := .REFSB, co := { bank := 1 } },
    .core { t := 45, type := .REFSB, co := { bank := 2 } },
    .core { t := 50, type := .ACT, co := { bank := 7 } },
    .core { t := 55, type := .ACT, co := { bank := 3 } },
    .core { t := 70, type := .PRE, co := { bank := 7 } },
    .core { t := 80, type := .PRESB, co := { bank := 3 } },
    .core { t := 95, type := .REFSB, co := { bank := 3 } },
    .core { t := 100, type := .REFSB },
    .core { t := 125, type := .END_OF_SIMULATION },
    .stats]

def checks : List (Nat × Bool) := [
    (0, run0.ok),
    (86, run0.stats[0]!.bank[3]!.counter.act == 1),
    (87, run0.stats[0]!.bank[7]!.counter.act == 1),
    (90, run0.stats[0]!.bank[3]!.counter.pre == 1),
    (91, run0.stats[0]!.bank[7]!.counter.pre == 1),
    (94, run0.stats[0]!.bank[0]!.counter.refSameBank == 2),
    (95, run0.stats[0]!.bank[4]!.counter.refSameBank == 2),
    (97, run0.stats[0]!.bank[1]!.counter.refSameBank == 1),
    (98, run0.stats[0]!.bank[2]!.counter.refSameBank == 1),
    (99, run0.stats[0]!.bank[3]!.counter.refSameBank == 1),
    (100, run0.stats[0]!.bank[5]!.counter.refSameBank == 1),
    (101, run0.stats[0]!.bank[6]!.counter.refSameBank == 1),
    (102, run0.stats[0]!.bank[7]!.counter.refSameBank == 1),
    (105, run0.stats[0]!.rankTotal[0]!.cycles.act == 100),
    (106, run0.stats[0]!.rankTotal[0]!.cycles.pre == 25),
    (109, run0.stats[0]!.bank[0]!.cycles.act == 50),
    (110, run0.stats[0]!.bank[4]!.cycles.act == 50),
    (111, run0.stats[0]!.bank[3]!.cycles.act == 50),
    (112, run0.stats[0]!.bank[1]!.cycles.act == 25),
    (113, run0.stats[0]!.bank[2]!.cycles.act == 25),
    (114, run0.stats[0]!.bank[5]!.cycles.act == 25),
    (115, run0.stats[0]!.bank[6]!.cycles.act == 25),
    (116, run0.stats[0]!.bank[7]!.cycles.act == 45),
    (119, run0.stats[0]!.bank[0]!.cycles.pre == 75),
    (120, run0.stats[0]!.bank[3]!.cycles.pre == 75),
    (121, run0.stats[0]!.bank[4]!.cycles.pre == 75),
    (122, run0.stats[0]!.bank[1]!.cycles.pre == 100),
    (123, run0.stats[0]!.bank[2]!.cycles.pre == 100),
    (124, run0.stats[0]!.bank[5]!.cycles.pre == 100),
    (125, run0.stats[0]!.bank[6]!.cycles.pre == 100),
    (126, run0.stats[0]!.bank[7]!.cycles.pre == 80)]

#guard failing checks == []

end ddr5_16.Test

namespace ddr5_16.CalcEnergy

def run0 : Log := run .ddr5 ({ ddr5 with
  core := { ddr5.core with numberOfRanks := 1, numberOfBanks := 8, numberOfBankGroups := 2, banksPerGroup := 4, tRAS := 10, tRFCsb := 25, tRP := 10 },
  power := { ddr5.power with devices := 1, ranks := 1, banks := 8, bankGroups := 2, tRAS := 10, tRFCpb := 25, tCK := 1, tRP := 10, rho := (333333333/1000000000), burstLength := 16, dataRate := 2, domains := (ddr5.power.domains.modify 0 fun d => { d with v := 1, i0 := 64, i2n := 8, i3n := 32, i4r := 72, i4w := 72, i5c := 28, iBeta := 64 }) },
  iface := { ddr5.iface with bitWidth := 16, devices := 1, ranks := 1, bankGroups := 2, burstLength := 16, dataRate := 2 },
  wires := { ddr5.wires with bitWidth := 16, tCK := 1, dataRate := 2 } }) [
    .core { t := 0, type := .REFSB },
    .core { t := 10, type := .REFSB, co := { bank := 1 } },
    .core { t := 45, type := .REFSB, co := { bank := 2 } },
    .core { t := 50, type := .ACT, co := { bank := 7 } },
    .core { t := 55, type := .ACT, co := { bank := 3 } },
    .core { t := 70, type := .PRE, co := { bank := 7 } },
    .core { t := 80, type := .PRESB, co := { bank := 3 } },
    .core { t := 95, type := .REFSB, co := { bank := 3 } },
    .core { t := 100, type := .REFSB },
    .core { t := 125, type := .END_OF_SIMULATION },
    .coreEnergy 125]

def checks : List (Nat × Bool) := [
    (0, run0.ok),
    (143, (nearest (run0.energies[0]!.aggregated.eBgAct : Rat) : Rat) == 2190),
    (144, (nearest (run0.energies[0]!.shared.bgActShared : Rat) : Rat) == 1600),
    (145, (whole (run0.energies[0]!.bank[0]!.eBgAct : Rat) : Rat) == 100),
    (146, (whole (run0.energies[0]!.bank[1]!.eBgAct : Rat) : Rat) == 50),
    (147, (whole (run0.energies[0]!.bank[2]!.eBgAct : Rat) : Rat) == 50),
    (148, (whole (run0.energies[0]!.bank[3]!.eBgAct : Rat) : Rat) == 100),
    (149, (whole (run0.energies[0]!.bank[4]!.eBgAct : Rat) : Rat) == 100),
    (150, (whole (run0.energies[0]!.bank[5]!.eBgAct : Rat) : Rat) == 50),
    (151, (whole (run0.energies[0]!.bank[6]!.eBgAct : Rat) : Rat) == 50),
    (152, (whole (run0.energies[0]!.bank[7]!.eBgAct : Rat) : Rat) == 90),
    (154, (whole (run0.energies[0]!.aggregated.eBgPre : Rat) : Rat) == 200),
    (155, (whole (run0.energies[0]!.bank[0]!.eBgPre : Rat) : Rat) == 25),
    (156, (whole (run0.energies[0]!.bank[1]!.eBgPre : Rat) : Rat) == 25),
    (157, (whole (run0.energies[0]!.bank[2]!.eBgPre : Rat) : Rat) == 25),
    (158, (whole (run0.energies[0]!.bank[3]!.eBgPre : Rat) : Rat) == 25),
    (159, (whole (run0.energies[0]!.bank[4]!.eBgPre : Rat) : Rat) == 25),
    (160, (whole (run0.energies[0]!.bank[5]!.eBgPre : Rat) : Rat) == 25),
    (161, (whole (run0.energies[0]!.bank[6]!.eBgPre : Rat) : Rat) == 25),
    (162, (whole (run0.energies[0]!.bank[7]!.eBgPre : Rat) : Rat) == 25),
    (164, (whole (run0.energies[0]!.aggregated.ePre : Rat) : Rat) == 1120),
    (165, (whole (run0.energies[0]!.bank[3]!.ePre : Rat) : Rat) == 560),
    (166, (whole (run0.energies[0]!.bank[7]!.ePre : Rat) : Rat) == 560),
    (168, (whole (run0.energies[0]!.aggregated.eRefSB : Rat) : Rat) == 1000),
    (169, (whole (run0.energies[0]!.bank[0]!.eRefSB : Rat) : Rat) == 200),
    (170, (whole (run0.energies[0]!.bank[1]!.eRefSB : Rat) : Rat) == 100),
    (171, (whole (run0.energies[0]!.bank[2]!.eRefSB : Rat) : Rat) == 100),
    (172, (whole (run0.energies[0]!.bank[3]!.eRefSB : Rat) : Rat) == 100),
    (173, (whole (run0.energies[0]!.bank[4]!.eRefSB : Rat) : Rat) == 200),
    (174, (whole (run0.energies[0]!.bank[5]!.eRefSB : Rat) : Rat) == 100),
    (175, (whole (run0.energies[0]!.bank[6]!.eRefSB : Rat) : Rat) == 100),
    (176, (whole (run0.energies[0]!.bank[7]!.eRefSB : Rat) : Rat) == 100)]

#guard failing checks == []

end ddr5_16.CalcEnergy

/-! ## tests/tests_drampower/core/DDR5/ddr5_test_pattern_17.cpp -/

namespace ddr5_17.Test

def run0 : Log := run .ddr5 ({ ddr5 with
  core := { ddr5.core with numberOfRanks := 1, numberOfBanks := 8, numberOfBankGroups := 2, banksPerGroup := 4, tRAS := 10, tRCD := 20, tRFC := 25, tRP := 20 },
  power := { ddr5.power with devices := 1, ranks := 1, banks := 8, bankGroups := 2, tRAS := 10, tRFC := 25, tRP := 20, tCK := 1, rho := (333333333/1000000000), burstLength := 16, dataRate := 2, domains := (ddr5.power.domains.modify 0 fun d => { d with v := 1, i0 := 64, i2n := 8, i2p := 6, i3n := 32, i3p := 20, i4r := 72, i4w := 72, i5c := 28, iBeta := 64 }) },
  iface := { ddr5.iface with bitWidth := 16, devices := 1, ranks := 1, bankGroups := 2, burstLength := 16, dataRate := 2 },
  wires := { ddr5.wires with bitWidth := 16, tCK := 1, dataRate := 2 } }) [
    .core { t := 0, type := .ACT },
    .core { t := 20, type := .PDEA },
    .core { t := 30, type := .PDXA },
    .core { t := 40, type := .PRE },
    .core { t := 60, type := .PDEP },
    .core { t := 65, type := .PDXP },
    .core { t := 75, type := .REFA },
    .core { t := 100, type := .PDEP },
    .core { t := 125, type := .END_OF_SIMULATION },
    .stats]

def checks : List (Nat × Bool) := [
    (0, run0.ok),
    (87, run0.stats[0]!.bank[0]!.counter.act == 1),
    (90, run0.stats[0]!.bank[0]!.counter.pre == 1),
    (93, run0.stats[0]!.rankTotal[0]!.cycles.act == 55),
    (94, run0.stats[0]!.rankTotal[0]!.cycles.act == 55),
    (95, run0.stats[0]!.rankTotal[0]!.cycles.pre == 30),
    (96, run0.stats[0]!.rankTotal[0]!.cycles.powerDownAct == 10),
    (97, run0.stats[0]!.rankTotal[0]!.cycles.powerDownPre == 30),
    (100, run0.stats[0]!.bank[0]!.cycles.act == 55),
    (100, run0.stats[0]!.bank[0]!.cycles.act == 55),
    (101, run0.stats[0]!.bank[1]!.cycles.act == 25),
    (101, run0.stats[0]!.bank[1]!.cycles.act == 25),
    (102, run0.stats[0]!.bank[2]!.cycles.act == 25),
    (102, run0.stats[0]!.bank[2]!.cycles.act == 25),
    (103, run0.stats[0]!.bank[3]!.cycles.act == 25),
    (103, run0.stats[0]!.bank[3]!.cycles.act == 25),
    (104, run0.stats[0]!.bank[4]!.cycles.act == 25),
    (104, run0.stats[0]!.bank[4]!.cycles.act == 25),
    (105, run0.stats[0]!.bank[5]!.cycles.act == 25),
    (105, run0.stats[0]!.bank[5]!.cycles.act == 25),
    (106, run0.stats[0]!.bank[6]!.cycles.act == 25),
    (106, run0.stats[0]!.bank[6]!.cycles.act == 25),
    (107, run0.stats[0]!.bank[7]!.cycles.act == 25),
    (107, run0.stats[0]!.bank[7]!.cycles.act == 25),
    (110, run0.stats[0]!.bank[0]!.cycles.pre == 30),
    (111, run0.stats[0]!.bank[1]!.cycles.pre == 60),
    (112, run0.stats[0]!.bank[2]!.cycles.pre == 60),
    (113, run0.stats[0]!.bank[3]!.cycles.pre == 60),
    (114, run0.stats[0]!.bank[4]!.cycles.pre == 60),
    (115, run0.stats[0]!.bank[5]!.cycles.pre == 60),
    (116, run0.stats[0]!.bank[6]!.cycles.pre == 60),
    (117, run0.stats[0]!.bank[7]!.cycles.pre == 60)]

#guard failing checks == []

end ddr5_17.Test

namespace ddr5_17.CalcEnergy

def run0 : Log := run .ddr5 ({ ddr5 with
  core := { ddr5.core with numberOfRanks := 1, numberOfBanks := 8, numberOfBankGroups := 2, banksPerGroup := 4, tRAS := 10, tRCD := 20, tRFC := 25, tRP := 20 },
  power := { ddr5.power with devices := 1, ranks := 1, banks := 8, bankGroups := 2, tRAS := 10, tRFC := 25, tRP := 20, tCK := 1, rho := (333333333/1000000000), burstLength := 16, dataRate := 2, domains := (ddr5.power.domains.modify 0 fun d => { d with v := 1, i0 := 64, i2n := 8, i2p := 6, i3n := 32, i3p := 20, i4r := 72, i4w := 72, i5c := 28, iBeta := 64 }) },
  iface := { ddr5.iface with bitWidth := 16, devices := 1, ranks := 1, bankGroups := 2, burstLength := 16, dataRate := 2 },
  wires := { ddr5.wires with bitWidth := 16, tCK := 1, dataRate := 2 } }) [
    .core { t := 0, type := .ACT },
    .core { t := 20, type := .PDEA },
    .core { t := 30, type := .PDXA },
    .core { t := 40, type := .PRE },
    .core { t := 60, type := .PDEP },
    .core { t := 65, type := .PDXP },
    .core { t := 75, type := .REFA },
    .core { t := 100, type := .PDEP },
    .core { t := 125, type := .END_OF_SIMULATION },
    .coreEnergy 125]

def checks : List (Nat × Bool) := [
    (0, run0.ok),
    (134, (nearest (run0.energies[0]!.aggregated.eBgAct : Rat) : Rat) == 1340),
    (135, (nearest (run0.energies[0]!.shared.bgActShared : Rat) : Rat) == 880),
    (136, (whole (run0.energies[0]!.bank[0]!.eBgAct : Rat) : Rat) == 110),
    (137, (whole (run0.energies[0]!.bank[1]!.eBgAct : Rat) : Rat) == 50),
    (138, (whole (run0.energies[0]!.bank[2]!.eBgAct : Rat) : Rat) == 50),
    (139, (whole (run0.energies[0]!.bank[3]!.eBgAct : Rat) : Rat) == 50),
    (140, (whole (run0.energies[0]!.bank[4]!.eBgAct : Rat) : Rat) == 50),
    (141, (whole (run0.energies[0]!.bank[5]!.eBgAct : Rat) : Rat) == 50),
    (142, (whole (run0.energies[0]!.bank[6]!.eBgAct : Rat) : Rat) == 50),
    (143, (whole (run0.energies[0]!.bank[7]!.eBgAct : Rat) : Rat) == 50),
    (145, (whole (run0.energies[0]!.aggregated.eBgPre : Rat) : Rat) == 240),
    (146, (whole (run0.energies[0]!.bank[0]!.eBgPre : Rat) : Rat) == 30),
    (147, (whole (run0.energies[0]!.bank[1]!.eBgPre : Rat) : Rat) == 30),
    (148, (whole (run0.energies[0]!.bank[2]!.eBgPre : Rat) : Rat) == 30),
    (149, (whole (run0.energies[0]!.bank[3]!.eBgPre : Rat) : Rat) == 30),
    (150, (whole (run0.energies[0]!.bank[4]!.eBgPre : Rat) : Rat) == 30),
    (151, (whole (run0.energies[0]!.bank[5]!.eBgPre : Rat) : Rat) == 30),
    (152, (whole (run0.energies[0]!.bank[6]!.eBgPre : Rat) : Rat) == 30),
    (153, (whole (run0.energies[0]!.bank[7]!.eBgPre : Rat) : Rat) == 30),
    (155, (whole (run0.energies[0]!.shared.pdnA : Rat) : Rat) == 200),
    (156, (whole (run0.energies[0]!.shared.pdnP : Rat) : Rat) == 180)]

#guard failing checks == []

end ddr5_17.CalcEnergy

/-! ## tests/tests_drampower/core/DDR5/ddr5_test_pattern_18.cpp -/

namespace ddr5_18.Test

def run0 : Log := run .ddr5 ({ ddr5 with
  core := { ddr5.core with numberOfRanks := 1, numberOfBanks := 8, numberOfBankGroups := 2, banksPerGroup := 4, tRAS := 10, tRCD := 20, tRFC := 25, tRP := 20 },
  power := { ddr5.power with devices := 1, ranks := 1, banks := 8, bankGroups := 2, tRAS := 10, tRFC := 25, tRP := 20, tCK := 1, rho := (333333333/1000000000), burstLength := 16, dataRate := 2, domains := (ddr5.power.domains.modify 0 fun d => { d with v := 1, i0 := 64, i2n := 8, i2p := 6, i3n := 32, i3p := 20, i4r := 72, i4w := 72, i5c := 28, iBeta := 64 }) },
  iface := { ddr5.iface with bitWidth := 16, devices := 1, ranks := 1, bankGroups := 2, burstLength := 16, dataRate := 2 },
  wires := { ddr5.wires with bitWidth := 16, tCK := 1, dataRate := 2 } }) [
    .core { t := 0, type := .ACT },
    .core { t := 5, type := .PDEA },
    .core { t := 30, type := .PDXA },
    .core { t := 40, type := .PRE },
    .core { t := 45, type := .PDEP },
    .core { t := 65, type := .PDXP },
    .core { t := 75, type := .REFA },
    .core { t := 85, type := .PDEP },
    .core { t := 90, type := .PDXP },
    .core { t := 125, type := .END_OF_SIMULATION },
    .stats]

def checks : List (Nat × Bool) := [
    (0, run0.ok),
    (88, run0.stats[0]!.bank[0]!.counter.act == 1),
    (91, run0.stats[0]!.bank[0]!.counter.pre == 1),
    (94, run0.stats[0]!.rankTotal[0]!.cycles.act == 55),
    (95, run0.stats[0]!.rankTotal[0]!.cycles.pre == 55),
    (96, run0.stats[0]!.rankTotal[0]!.cycles.powerDownAct == 10),
    (97, run0.stats[0]!.rankTotal[0]!.cycles.powerDownPre == 5),
    (100, run0.stats[0]!.bank[0]!.cycles.act == 55),
    (101, run0.stats[0]!.bank[1]!.cycles.act == 25),
    (102, run0.stats[0]!.bank[2]!.cycles.act == 25),
    (103, run0.stats[0]!.bank[3]!.cycles.act == 25),
    (104, run0.stats[0]!.bank[4]!.cycles.act == 25),
    (105, run0.stats[0]!.bank[5]!.cycles.act == 25),
    (106, run0.stats[0]!.bank[6]!.cycles.act == 25),
    (107, run0.stats[0]!.bank[7]!.cycles.act == 25),
    (110, run0.stats[0]!.bank[0]!.cycles.pre == 55),
    (111, run0.stats[0]!.bank[1]!.cycles.pre == 85),
    (112, run0.stats[0]!.bank[2]!.cycles.pre == 85),
    (113, run0.stats[0]!.bank[3]!.cycles.pre == 85),
    (114, run0.stats[0]!.bank[4]!.cycles.pre == 85),
    (115, run0.stats[0]!.bank[5]!.cycles.pre == 85),
    (116, run0.stats[0]!.bank[6]!.cycles.pre == 85),
    (117, run0.stats[0]!.bank[7]!.cycles.pre == 85)]

#guard failing checks == []

end ddr5_18.Test

namespace ddr5_18.CalcWindow

def run0 : Log := run .ddr5 ({ ddr5 with
  core := { ddr5.core with numberOfRanks := 1, numberOfBanks := 8, numberOfBankGroups := 2, banksPerGroup := 4, tRAS := 10, tRCD := 20, tRFC := 25, tRP := 20 },
  power := { ddr5.power with devices := 1, ranks := 1, banks := 8, bankGroups := 2, tRAS := 10, tRFC := 25, tRP := 20, tCK := 1, rho := (333333333/1000000000), burstLength := 16, dataRate := 2, domains := (ddr5.power.domains.modify 0 fun d => { d with v := 1, i0 := 64, i2n := 8, i2p := 6, i3n := 32, i3p := 20, i4r := 72, i4w := 72, i5c := 28, iBeta := 64 }) },
  iface := { ddr5.iface with bitWidth := 16, devices := 1, ranks := 1, bankGroups := 2, burstLength := 16, dataRate := 2 },
  wires := { ddr5.wires with bitWidth := 16, tCK := 1, dataRate := 2 } }) [
    .core { t := 0, type := .ACT },
    .core { t := 5, type := .PDEA },
    .window 5,
    .window 10,
    .window 15,
    .window 20,
    .window 25,
    .core { t := 30, type := .PDXA },
    .window 30,
    .window 35,
    .core { t := 40, type := .PRE },
    .window 40,
    .core { t := 45, type := .PDEP },
    .window 45,
    .window 50,
    .window 55,
    .window 60,
    .core { t := 65, type := .PDXP },
    .window 65,
    .window 70,
    .core { t := 75, type := .REFA },
    .window 75,
    .window 80,
    .core { t := 85, type := .PDEP },
    .window 85,
    .core { t := 90, type := .PDXP },
    .window 90,
    .window 95,
    .window 100,
    .window 105,
    .window 110,
    .window 115,
    .window 120,
    .core { t := 125, type := .END_OF_SIMULATION },
    .window 125]

def checks : List (Nat × Bool) := [
    (0, run0.ok),
    (138, run0.stats[0]!.rankTotal[0]!.cycles.act == 5),
    (139, run0.stats[0]!.bank[0]!.cycles.act == 5),
    (139, run0.stats[0]!.bank[0]!.cycles.pre == 0),
    (140, run0.stats[0]!.bank[1]!.cycles.act == 0),
    (140, run0.stats[0]!.bank[1]!.cycles.pre == 5),
    (144, run0.stats[1]!.rankTotal[0]!.cycles.act == 10),
    (145, run0.stats[1]!.bank[0]!.cycles.act == 10),
    (145, run0.stats[1]!.bank[0]!.cycles.pre == 0),
    (146, run0.stats[1]!.bank[1]!.cycles.act == 0),
    (146, run0.stats[1]!.bank[1]!.cycles.pre == 10),
    (150, run0.stats[2]!.rankTotal[0]!.cycles.act == 15),
    (151, run0.stats[2]!.bank[0]!.cycles.act == 15),
    (151, run0.stats[2]!.bank[0]!.cycles.pre == 0),
    (152, run0.stats[2]!.bank[1]!.cycles.act == 0),
    (152, run0.stats[2]!.bank[1]!.cycles.pre == 15),
    (156, run0.stats[3]!.rankTotal[0]!.cycles.act == 20),
    (157, run0.stats[3]!.bank[0]!.cycles.act == 20),
    (157, run0.stats[3]!.bank[0]!.cycles.pre == 0),
    (158, run0.stats[3]!.bank[1]!.cycles.act == 0),
    (158, run0.stats[3]!.bank[1]!.cycles.pre == 20),
    (162, run0.stats[4]!.rankTotal[0]!.cycles.act == 20),
    (163, run0.stats[4]!.rankTotal[0]!.cycles.powerDownAct == 5),
    (164, run0.stats[4]!.bank[0]!.cycles.act == 20),
    (164, run0.stats[4]!.bank[0]!.cycles.pre == 0),
    (165, run0.stats[4]!.bank[1]!.cycles.act == 0),
    (165, run0.stats[4]!.bank[1]!.cycles.pre == 20),
    (169, run0.stats[5]!.rankTotal[0]!.cycles.act == 20),
    (170, run0.stats[5]!.rankTotal[0]!.cycles.powerDownAct == 10),
    (171, run0.stats[5]!.bank[0]!.cycles.act == 20),
    (171, run0.stats[5]!.bank[0]!.cycles.pre == 0),
    (172, run0.stats[5]!.bank[1]!.cycles.act == 0),
    (172, run0.stats[5]!.bank[1]!.cycles.pre == 20),
    (176, run0.stats[6]!.rankTotal[0]!.cycles.act == 25),
    (177, run0.stats[6]!.rankTotal[0]!.cycles.powerDownAct == 10),
    (178, run0.stats[6]!.bank[0]!.cycles.act == 25),
    (178, run0.stats[6]!.bank[0]!.cycles.pre == 0),
    (179, run0.stats[6]!.bank[1]!.cycles.act == 0),
    (179, run0.stats[6]!.bank[1]!.cycles.pre == 25),
    (183, run0.stats[7]!.rankTotal[0]!.cycles.act == 30),
    (184, run0.stats[7]!.rankTotal[0]!.cycles.powerDownAct == 10),
    (185, run0.stats[7]!.bank[0]!.cycles.act == 30),
    (185, run0.stats[7]!.bank[0]!.cycles.pre == 0),
    (186, run0.stats[7]!.bank[1]!.cycles.act == 0),
    (186, run0.stats[7]!.bank[1]!.cycles.pre == 30),
    (190, run0.stats[8]!.rankTotal[0]!.cycles.act == 30),
    (190, run0.stats[8]!.rankTotal[0]!.cycles.pre == 5),
    (191, run0.stats[8]!.rankTotal[0]!.cycles.powerDownAct == 10),
    (192, run0.stats[8]!.bank[0]!.cycles.act == 30),
    (192, run0.stats[8]!.bank[0]!.cycles.pre == 5),
    (193, run0.stats[8]!.bank[1]!.cycles.act == 0),
    (193, run0.stats[8]!.bank[1]!.cycles.pre == 35),
    (197, run0.stats[9]!.rankTotal[0]!.cycles.act == 30),
    (197, run0.stats[9]!.rankTotal[0]!.cycles.pre == 10),
    (198, run0.stats[9]!.rankTotal[0]!.cycles.powerDownAct == 10),
    (199, run0.stats[9]!.bank[0]!.cycles.act == 30),
    (199, run0.stats[9]!.bank[0]!.cycles.pre == 10),
    (200, run0.stats[9]!.bank[1]!.cycles.act == 0),
    (200, run0.stats[9]!.bank[1]!.cycles.pre == 40),
    (204, run0.stats[10]!.rankTotal[0]!.cycles.act == 30),
    (204, run0.stats[10]!.rankTotal[0]!.cycles.pre == 15),
    (205, run0.stats[10]!.rankTotal[0]!.cycles.powerDownAct == 10),
    (206, run0.stats[10]!.bank[0]!.cycles.act == 30),
    (206, run0.stats[10]!.bank[0]!.cycles.pre == 15),
    (207, run0.stats[10]!.bank[1]!.cycles.act == 0),
    (207, run0.stats[10]!.bank[1]!.cycles.pre == 45),
    (211, run0.stats[11]!.rankTotal[0]!.cycles.act == 30),
    (211, run0.stats[11]!.rankTotal[0]!.cycles.pre == 20),
    (212, run0.stats[11]!.rankTotal[0]!.cycles.powerDownAct == 10),
    (213, run0.stats[11]!.bank[0]!.cycles.act == 30),
    (213, run0.stats[11]!.bank[0]!.cycles.pre == 20),
    (214, run0.stats[11]!.bank[1]!.cycles.act == 0),
    (214, run0.stats[11]!.bank[1]!.cycles.pre == 50),
    (218, run0.stats[12]!.rankTotal[0]!.cycles.act == 30),
    (218, run0.stats[12]!.rankTotal[0]!.cycles.pre == 20),
    (219, run0.stats[12]!.rankTotal[0]!.cycles.powerDownAct == 10),
    (219, run0.stats[12]!.rankTotal[0]!.cycles.powerDownPre == 5),
    (220, run0.stats[12]!.bank[0]!.cycles.act == 30),
    (220, run0.stats[12]!.bank[0]!.cycles.pre == 20),
    (221, run0.stats[12]!.bank[1]!.cycles.act == 0),
    (221, run0.stats[12]!.bank[1]!.cycles.pre == 50),
    (225, run0.stats[13]!.rankTotal[0]!.cycles.act == 30),
    (225, run0.stats[13]!.rankTotal[0]!.cycles.pre == 25),
    (226, run0.stats[13]!.rankTotal[0]!.cycles.powerDownAct == 10),
    (226, run0.stats[13]!.rankTotal[0]!.cycles.powerDownPre == 5),
    (227, run0.stats[13]!.bank[0]!.cycles.act == 30),
    (227, run0.stats[13]!.bank[0]!.cycles.pre == 25),
    (228, run0.stats[13]!.bank[1]!.cycles.act == 0),
    (228, run0.stats[13]!.bank[1]!.cycles.pre == 55),
    (232, run0.stats[14]!.rankTotal[0]!.cycles.act == 30),
    (232, run0.stats[14]!.rankTotal[0]!.cycles.pre == 30),
    (233, run0.stats[14]!.rankTotal[0]!.cycles.powerDownAct == 10),
    (233, run0.stats[14]!.rankTotal[0]!.cycles.powerDownPre == 5),
    (234, run0.stats[14]!.bank[0]!.cycles.act == 30),
    (234, run0.stats[14]!.bank[0]!.cycles.pre == 30),
    (235, run0.stats[14]!.bank[1]!.cycles.act == 0),
    (235, run0.stats[14]!.bank[1]!.cycles.pre == 60),
    (239, run0.stats[15]!.rankTotal[0]!.cycles.act == 35),
    (239, run0.stats[15]!.rankTotal[0]!.cycles.pre == 30),
    (240, run0.stats[15]!.rankTotal[0]!.cycles.powerDownAct == 10),
    (240, run0.stats[15]!.rankTotal[0]!.cycles.powerDownPre == 5),
    (241, run0.stats[15]!.bank[0]!.cycles.act == 35),
    (241, run0.stats[15]!.bank[0]!.cycles.pre == 30),
    (242, run0.stats[15]!.bank[1]!.cycles.act == 5),
    (242, run0.stats[15]!.bank[1]!.cycles.pre == 60),
    (246, run0.stats[16]!.rankTotal[0]!.cycles.act == 40),
    (246, run0.stats[16]!.rankTotal[0]!.cycles.pre == 30),
    (247, run0.stats[16]!.rankTotal[0]!.cycles.powerDownAct == 10),
    (247, run0.stats[16]!.rankTotal[0]!.cycles.powerDownPre == 5),
    (248, run0.stats[16]!.bank[0]!.cycles.act == 40),
    (248, run0.stats[16]!.bank[0]!.cycles.pre == 30),
    (249, run0.stats[16]!.bank[1]!.cycles.act == 10),
    (249, run0.stats[16]!.bank[1]!.cycles.pre == 60),
    (253, run0.stats[17]!.rankTotal[0]!.cycles.act == 45),
    (253, run0.stats[17]!.rankTotal[0]!.cycles.pre == 30),
    (254, run0.stats[17]!.rankTotal[0]!.cycles.powerDownAct == 10),
    (254, run0.stats[17]!.rankTotal[0]!.cycles.powerDownPre == 5),
    (255, run0.stats[17]!.bank[0]!.cycles.act == 45),
    (255, run0.stats[17]!.bank[0]!.cycles.pre == 30),
    (256, run0.stats[17]!.bank[1]!.cycles.act == 15),
    (256, run0.stats[17]!.bank[1]!.cycles.pre == 60),
    (260, run0.stats[18]!.rankTotal[0]!.cycles.act == 50),
    (260, run0.stats[18]!.rankTotal[0]!.cycles.pre == 30),
    (261, run0.stats[18]!.rankTotal[0]!.cycles.powerDownAct == 10),
    (261, run0.stats[18]!.rankTotal[0]!.cycles.powerDownPre == 5),
    (262, run0.stats[18]!.bank[0]!.cycles.act == 50),
    (262, run0.stats[18]!.bank[0]!.cycles.pre == 30),
    (263, run0.stats[18]!.bank[1]!.cycles.act == 20),
    (263, run0.stats[18]!.bank[1]!.cycles.pre == 60),
    (267, run0.stats[19]!.rankTotal[0]!.cycles.act == 55),
    (267, run0.stats[19]!.rankTotal[0]!.cycles.pre == 30),
    (268, run0.stats[19]!.rankTotal[0]!.cycles.powerDownAct == 10),
    (268, run0.stats[19]!.rankTotal[0]!.cycles.powerDownPre == 5),
    (269, run0.stats[19]!.bank[0]!.cycles.act == 55),
    (269, run0.stats[19]!.bank[0]!.cycles.pre == 30),
    (270, run0.stats[19]!.bank[1]!.cycles.act == 25),
    (270, run0.stats[19]!.bank[1]!.cycles.pre == 60),
    (274, run0.stats[20]!.rankTotal[0]!.cycles.act == 55),
    (274, run0.stats[20]!.rankTotal[0]!.cycles.pre == 35),
    (275, run0.stats[20]!.rankTotal[0]!.cycles.powerDownAct == 10),
    (275, run0.stats[20]!.rankTotal[0]!.cycles.powerDownPre == 5),
    (276, run0.stats[20]!.bank[0]!.cycles.act == 55),
    (276, run0.stats[20]!.bank[0]!.cycles.pre == 35),
    (277, run0.stats[20]!.bank[1]!.cycles.act == 25),
    (277, run0.stats[20]!.bank[1]!.cycles.pre == 65),
    (281, run0.stats[21]!.rankTotal[0]!.cycles.act == 55),
    (281, run0.stats[21]!.rankTotal[0]!.cycles.pre == 40),
    (282, run0.stats[21]!.rankTotal[0]!.cycles.powerDownAct == 10),
    (282, run0.stats[21]!.rankTotal[0]!.cycles.powerDownPre == 5),
    (283, run0.stats[21]!.bank[0]!.cycles.act == 55),
    (283, run0.stats[21]!.bank[0]!.cycles.pre == 40),
    (284, run0.stats[21]!.bank[1]!.cycles.act == 25),
    (284, run0.stats[21]!.bank[1]!.cycles.pre == 70),
    (288, run0.stats[22]!.rankTotal[0]!.cycles.act == 55),
    (288, run0.stats[22]!.rankTotal[0]!.cycles.pre == 45),
    (289, run0.stats[22]!.rankTotal[0]!.cycles.powerDownAct == 10),
    (289, run0.stats[22]!.rankTotal[0]!.cycles.powerDownPre == 5),
    (290, run0.stats[22]!.bank[0]!.cycles.act == 55),
    (290, run0.stats[22]!.bank[0]!.cycles.pre == 45),
    (291, run0.stats[22]!.bank[1]!.cycles.act == 25),
    (291, run0.stats[22]!.bank[1]!.cycles.pre == 75),
    (295, run0.stats[23]!.rankTotal[0]!.cycles.act == 55),
    (295, run0.stats[23]!.rankTotal[0]!.cycles.pre == 50),
    (296, run0.stats[23]!.rankTotal[0]!.cycles.powerDownAct == 10),
    (296, run0.stats[23]!.rankTotal[0]!.cycles.powerDownPre == 5),
    (297, run0.stats[23]!.bank[0]!.cycles.act == 55),
    (297, run0.stats[23]!.bank[0]!.cycles.pre == 50),
    (298, run0.stats[23]!.bank[1]!.cycles.act == 25),
    (298, run0.stats[23]!.bank[1]!.cycles.pre == 80),
    (302, run0.stats[24]!.rankTotal[0]!.cycles.act == 55),
    (302, run0.stats[24]!.rankTotal[0]!.cycles.pre == 55),
    (303, run0.stats[24]!.rankTotal[0]!.cycles.powerDownAct == 10),
    (303, run0.stats[24]!.rankTotal[0]!.cycles.powerDownPre == 5),
    (304, run0.stats[24]!.bank[0]!.cycles.act == 55),
    (304, run0.stats[24]!.bank[0]!.cycles.pre == 55),
    (305, run0.stats[24]!.bank[1]!.cycles.act == 25),
    (305, run0.stats[24]!.bank[1]!.cycles.pre == 85)]

#guard failing checks == []

end ddr5_18.CalcWindow

namespace ddr5_18.CalcEnergy

def run0 : Log := run .ddr5 ({ ddr5 with
  core := { ddr5.core with numberOfRanks := 1, numberOfBanks := 8, numberOfBankGroups := 2, banksPerGroup := 4, tRAS := 10, tRCD := 20, tRFC := 25, tRP := 20 },
  power := { ddr5.power with devices := 1, ranks := 1, banks := 8, bankGroups := 2, tRAS := 10, tRFC := 25, tRP := 20, tCK := 1, rho := (333333333/1000000000), burstLength := 16, dataRate := 2, domains := (ddr5.power.domains.modify 0 fun d => { d with v := 1, i0 := 64, i2n := 8, i2p := 6, i3n := 32, i3p := 20, i4r := 72, i4w := 72, i5c := 28, iBeta := 64 }) },
  iface := { ddr5.iface with bitWidth := 16, devices := 1, ranks := 1, bankGroups := 2, burstLength := 16, dataRate := 2 },
  wires := { ddr5.wires with bitWidth := 16, tCK := 1, dataRate := 2 } }) [
    .core { t := 0, type := .ACT },
    .core { t := 5, type := .PDEA },
    .core { t := 30, type := .PDXA },
    .core { t := 40, type := .PRE },
    .core { t := 45, type := .PDEP },
    .core { t := 65, type := .PDXP },
    .core { t := 75, type := .REFA },
    .core { t := 85, type := .PDEP },
    .core { t := 90, type := .PDXP },
    .core { t := 125, type := .END_OF_SIMULATION },
    .coreEnergy 125]

def checks : List (Nat × Bool) := [
    (0, run0.ok),
    (324, (nearest (run0.energies[0]!.aggregated.eBgAct : Rat) : Rat) == 1340),
    (325, (nearest (run0.energies[0]!.shared.bgActShared : Rat) : Rat) == 880),
    (326, (whole (run0.energies[0]!.bank[0]!.eBgAct : Rat) : Rat) == 110),
    (327, (whole (run0.energies[0]!.bank[1]!.eBgAct : Rat) : Rat) == 50),
    (328, (whole (run0.energies[0]!.bank[2]!.eBgAct : Rat) : Rat) == 50),
    (329, (whole (run0.energies[0]!.bank[3]!.eBgAct : Rat) : Rat) == 50),
    (330, (whole (run0.energies[0]!.bank[4]!.eBgAct : Rat) : Rat) == 50),
    (331, (whole (run0.energies[0]!.bank[5]!.eBgAct : Rat) : Rat) == 50),
    (332, (whole (run0.energies[0]!.bank[6]!.eBgAct : Rat) : Rat) == 50),
    (333, (whole (run0.energies[0]!.bank[7]!.eBgAct : Rat) : Rat) == 50),
    (335, (whole (run0.energies[0]!.aggregated.eBgPre : Rat) : Rat) == 440),
    (336, (whole (run0.energies[0]!.bank[0]!.eBgPre : Rat) : Rat) == 55),
    (337, (whole (run0.energies[0]!.bank[1]!.eBgPre : Rat) : Rat) == 55),
    (338, (whole (run0.energies[0]!.bank[2]!.eBgPre : Rat) : Rat) == 55),
    (339, (whole (run0.energies[0]!.bank[3]!.eBgPre : Rat) : Rat) == 55),
    (340, (whole (run0.energies[0]!.bank[4]!.eBgPre : Rat) : Rat) == 55),
    (341, (whole (run0.energies[0]!.bank[5]!.eBgPre : Rat) : Rat) == 55),
    (342, (whole (run0.energies[0]!.bank[6]!.eBgPre : Rat) : Rat) == 55),
    (343, (whole (run0.energies[0]!.bank[7]!.eBgPre : Rat) : Rat) == 55),
    (345, (whole (run0.energies[0]!.shared.pdnA : Rat) : Rat) == 200),
    (346, (whole (run0.energies[0]!.shared.pdnP : Rat) : Rat) == 30)]

#guard failing checks == []

end ddr5_18.CalcEnergy

end DRAMPower.Tests
