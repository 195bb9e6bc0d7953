import Verif.Tests.Resources

/-!
# Tests of the LPDDR6 core

Generated by conformance/gen.py, do not edit. The numbers in the lists of checks are lines of the test file.
-/

namespace DRAMPower.Tests

/-! ## tests/tests_drampower/core/LPDDR6/lpddr6_multidevice_tests.cpp -/

namespace lpddr6_multidevice_tests.Counters_and_Cycles

def run0 : Log := run .lpddr6 ({ lpddr6 with
  power := { lpddr6.power with devices := 5 },
  iface := { lpddr6.iface with devices := 5 } }) [
    .core { t := 0, type := .ACT },
    .core { t := 15, type := .RD },
    .core { t := 20, type := .ACT, co := { bank := 3 } },
    .core { t := 35, type := .RD, co := { bank := 3 } },
    .core { t := 40, type := .RD },
    .core { t := 50, type := .PREA },
    .core { t := 70, type := .END_OF_SIMULATION },
    .stats]

def checks : List (Nat × Bool) := [
    (0, run0.ok),
    (87, run0.stats[0]!.bank[0]!.counter.act == 1),
    (89, run0.stats[0]!.bank[1]!.counter.act == 0),
    (89, run0.stats[0]!.bank[2]!.counter.act == 0),
    (87, run0.stats[0]!.bank[3]!.counter.act == 1),
    (89, run0.stats[0]!.bank[4]!.counter.act == 0),
    (89, run0.stats[0]!.bank[5]!.counter.act == 0),
    (89, run0.stats[0]!.bank[6]!.counter.act == 0),
    (89, run0.stats[0]!.bank[7]!.counter.act == 0),
    (89, run0.stats[0]!.bank[8]!.counter.act == 0),
    (89, run0.stats[0]!.bank[9]!.counter.act == 0),
    (89, run0.stats[0]!.bank[10]!.counter.act == 0),
    (89, run0.stats[0]!.bank[11]!.counter.act == 0),
    (89, run0.stats[0]!.bank[12]!.counter.act == 0),
    (89, run0.stats[0]!.bank[13]!.counter.act == 0),
    (89, run0.stats[0]!.bank[14]!.counter.act == 0),
    (89, run0.stats[0]!.bank[15]!.counter.act == 0),
    (95, run0.stats[0]!.bank[0]!.counter.reads == 2),
    (99, run0.stats[0]!.bank[1]!.counter.reads == 0),
    (99, run0.stats[0]!.bank[2]!.counter.reads == 0),
    (97, run0.stats[0]!.bank[3]!.counter.reads == 1),
    (99, run0.stats[0]!.bank[4]!.counter.reads == 0),
    (99, run0.stats[0]!.bank[5]!.counter.reads == 0),
    (99, run0.stats[0]!.bank[6]!.counter.reads == 0),
    (99, run0.stats[0]!.bank[7]!.counter.reads == 0),
    (99, run0.stats[0]!.bank[8]!.counter.reads == 0),
    (99, run0.stats[0]!.bank[9]!.counter.reads == 0),
    (99, run0.stats[0]!.bank[10]!.counter.reads == 0),
    (99, run0.stats[0]!.bank[11]!.counter.reads == 0),
    (99, run0.stats[0]!.bank[12]!.counter.reads == 0),
    (99, run0.stats[0]!.bank[13]!.counter.reads == 0),
    (99, run0.stats[0]!.bank[14]!.counter.reads == 0),
    (99, run0.stats[0]!.bank[15]!.counter.reads == 0),
    (105, run0.stats[0]!.bank[0]!.counter.pre == 1),
    (107, run0.stats[0]!.bank[1]!.counter.pre == 0),
    (107, run0.stats[0]!.bank[2]!.counter.pre == 0),
    (105, run0.stats[0]!.bank[3]!.counter.pre == 1),
    (107, run0.stats[0]!.bank[4]!.counter.pre == 0),
    (107, run0.stats[0]!.bank[5]!.counter.pre == 0),
    (107, run0.stats[0]!.bank[6]!.counter.pre == 0),
    (107, run0.stats[0]!.bank[7]!.counter.pre == 0),
    (107, run0.stats[0]!.bank[8]!.counter.pre == 0),
    (107, run0.stats[0]!.bank[9]!.counter.pre == 0),
    (107, run0.stats[0]!.bank[10]!.counter.pre == 0),
    (107, run0.stats[0]!.bank[11]!.counter.pre == 0),
    (107, run0.stats[0]!.bank[12]!.counter.pre == 0),
    (107, run0.stats[0]!.bank[13]!.counter.pre == 0),
    (107, run0.stats[0]!.bank[14]!.counter.pre == 0),
    (107, run0.stats[0]!.bank[15]!.counter.pre == 0),
    (111, run0.stats[0]!.rankTotal[0]!.cycles.act == 50),
    (112, run0.stats[0]!.rankTotal[0]!.cycles.pre == 20),
    (117, run0.stats[0]!.bank[0]!.cycles.act == 50),
    (121, run0.stats[0]!.bank[1]!.cycles.act == 0),
    (121, run0.stats[0]!.bank[2]!.cycles.act == 0),
    (119, run0.stats[0]!.bank[3]!.cycles.act == 30),
    (121, run0.stats[0]!.bank[4]!.cycles.act == 0),
    (121, run0.stats[0]!.bank[5]!.cycles.act == 0),
    (121, run0.stats[0]!.bank[6]!.cycles.act == 0),
    (121, run0.stats[0]!.bank[7]!.cycles.act == 0),
    (121, run0.stats[0]!.bank[8]!.cycles.act == 0),
    (121, run0.stats[0]!.bank[9]!.cycles.act == 0),
    (121, run0.stats[0]!.bank[10]!.cycles.act == 0),
    (121, run0.stats[0]!.bank[11]!.cycles.act == 0),
    (121, run0.stats[0]!.bank[12]!.cycles.act == 0),
    (121, run0.stats[0]!.bank[13]!.cycles.act == 0),
    (121, run0.stats[0]!.bank[14]!.cycles.act == 0),
    (121, run0.stats[0]!.bank[15]!.cycles.act == 0),
    (131, run0.stats[0]!.bank[1]!.cycles.pre == 70),
    (131, run0.stats[0]!.bank[2]!.cycles.pre == 70),
    (129, run0.stats[0]!.bank[3]!.cycles.pre == 40),
    (131, run0.stats[0]!.bank[4]!.cycles.pre == 70),
    (131, run0.stats[0]!.bank[5]!.cycles.pre == 70),
    (131, run0.stats[0]!.bank[6]!.cycles.pre == 70),
    (131, run0.stats[0]!.bank[7]!.cycles.pre == 70),
    (131, run0.stats[0]!.bank[8]!.cycles.pre == 70),
    (131, run0.stats[0]!.bank[9]!.cycles.pre == 70),
    (131, run0.stats[0]!.bank[10]!.cycles.pre == 70),
    (131, run0.stats[0]!.bank[11]!.cycles.pre == 70),
    (131, run0.stats[0]!.bank[12]!.cycles.pre == 70),
    (131, run0.stats[0]!.bank[13]!.cycles.pre == 70),
    (131, run0.stats[0]!.bank[14]!.cycles.pre == 70),
    (131, run0.stats[0]!.bank[15]!.cycles.pre == 70)]

#guard failing checks == []

end lpddr6_multidevice_tests.Counters_and_Cycles

namespace lpddr6_multidevice_tests.Energy

def run0 : Log := run .lpddr6 ({ lpddr6 with
  power := { lpddr6.power with devices := 5 },
  iface := { lpddr6.iface with devices := 5 } }) [
    .core { t := 0, type := .ACT },
    .core { t := 15, type := .RD },
    .core { t := 20, type := .ACT, co := { bank := 3 } },
    .core { t := 35, type := .RD, co := { bank := 3 } },
    .core { t := 40, type := .RD },
    .core { t := 50, type := .PREA },
    .core { t := 70, type := .END_OF_SIMULATION },
    .coreEnergy 70]

def checks : List (Nat × Bool) := [
    (0, run0.ok),
    (143, run0.energies[0]!.bank.length == 80),
    (148, run0.energies[0]!.bank[0]!.eAct == run0.energies[0]!.bank[0]!.eAct),
    (149, run0.energies[0]!.bank[0]!.ePre == run0.energies[0]!.bank[0]!.ePre),
    (150, run0.energies[0]!.bank[0]!.eRD == run0.energies[0]!.bank[0]!.eRD),
    (151, run0.energies[0]!.bank[0]!.eBgAct == run0.energies[0]!.bank[0]!.eBgAct),
    (152, run0.energies[0]!.bank[0]!.eBgPre == run0.energies[0]!.bank[0]!.eBgPre),
    (148, run0.energies[0]!.bank[1]!.eAct == run0.energies[0]!.bank[1]!.eAct),
    (149, run0.energies[0]!.bank[1]!.ePre == run0.energies[0]!.bank[1]!.ePre),
    (150, run0.energies[0]!.bank[1]!.eRD == run0.energies[0]!.bank[1]!.eRD),
    (151, run0.energies[0]!.bank[1]!.eBgAct == run0.energies[0]!.bank[1]!.eBgAct),
    (152, run0.energies[0]!.bank[1]!.eBgPre == run0.energies[0]!.bank[1]!.eBgPre),
    (148, run0.energies[0]!.bank[2]!.eAct == run0.energies[0]!.bank[2]!.eAct),
    (149, run0.energies[0]!.bank[2]!.ePre == run0.energies[0]!.bank[2]!.ePre),
    (150, run0.energies[0]!.bank[2]!.eRD == run0.energies[0]!.bank[2]!.eRD),
    (151, run0.energies[0]!.bank[2]!.eBgAct == run0.energies[0]!.bank[2]!.eBgAct),
    (152, run0.energies[0]!.bank[2]!.eBgPre == run0.energies[0]!.bank[2]!.eBgPre),
    (148, run0.energies[0]!.bank[3]!.eAct == run0.energies[0]!.bank[3]!.eAct),
    (149, run0.energies[0]!.bank[3]!.ePre == run0.energies[0]!.bank[3]!.ePre),
    (150, run0.energies[0]!.bank[3]!.eRD == run0.energies[0]!.bank[3]!.eRD),
    (151, run0.energies[0]!.bank[3]!.eBgAct == run0.energies[0]!.bank[3]!.eBgAct),
    (152, run0.energies[0]!.bank[3]!.eBgPre == run0.energies[0]!.bank[3]!.eBgPre),
    (148, run0.energies[0]!.bank[4]!.eAct == run0.energies[0]!.bank[4]!.eAct),
    (149, run0.energies[0]!.bank[4]!.ePre == run0.energies[0]!.bank[4]!.ePre),
    (150, run0.energies[0]!.bank[4]!.eRD == run0.energies[0]!.bank[4]!.eRD),
    (151, run0.energies[0]!.bank[4]!.eBgAct == run0.energies[0]!.bank[4]!.eBgAct),
    (152, run0.energies[0]!.bank[4]!.eBgPre == run0.energies[0]!.bank[4]!.eBgPre),
    (148, run0.energies[0]!.bank[5]!.eAct == run0.energies[0]!.bank[5]!.eAct),
    (149, run0.energies[0]!.bank[5]!.ePre == run0.energies[0]!.bank[5]!.ePre),
    (150, run0.energies[0]!.bank[5]!.eRD == run0.energies[0]!.bank[5]!.eRD),
    (151, run0.energies[0]!.bank[5]!.eBgAct == run0.energies[0]!.bank[5]!.eBgAct),
    (152, run0.energies[0]!.bank[5]!.eBgPre == run0.energies[0]!.bank[5]!.eBgPre),
    (148, run0.energies[0]!.bank[6]!.eAct == run0.energies[0]!.bank[6]!.eAct),
    (149, run0.energies[0]!.bank[6]!.ePre == run0.energies[0]!.bank[6]!.ePre),
    (150, run0.energies[0]!.bank[6]!.eRD == run0.energies[0]!.bank[6]!.eRD),
    (151, run0.energies[0]!.bank[6]!.eBgAct == run0.energies[0]!.bank[6]!.eBgAct),
    (152, run0.energies[0]!.bank[6]!.eBgPre == run0.energies[0]!.bank[6]!.eBgPre),
    (148, run0.energies[0]!.bank[7]!.eAct == run0.energies[0]!.bank[7]!.eAct),
    (149, run0.energies[0]!.bank[7]!.ePre == run0.energies[0]!.bank[7]!.ePre),
    (150, run0.energies[0]!.bank[7]!.eRD == run0.energies[0]!.bank[7]!.eRD),
    (151, run0.energies[0]!.bank[7]!.eBgAct == run0.energies[0]!.bank[7]!.eBgAct),
    (152, run0.energies[0]!.bank[7]!.eBgPre == run0.energies[0]!.bank[7]!.eBgPre),
    (148, run0.energies[0]!.bank[8]!.eAct == run0.energies[0]!.bank[8]!.eAct),
    (149, run0.energies[0]!.bank[8]!.ePre == run0.energies[0]!.bank[8]!.ePre),
    (150, run0.energies[0]!.bank[8]!.eRD == run0.energies[0]!.bank[8]!.eRD),
    (151, run0.energies[0]!.bank[8]!.eBgAct == run0.energies[0]!.bank[8]!.eBgAct),
    (152, run0.energies[0]!.bank[8]!.eBgPre == run0.energies[0]!.bank[8]!.eBgPre),
    (148, run0.energies[0]!.bank[9]!.eAct == run0.energies[0]!.bank[9]!.eAct),
    (149, run0.energies[0]!.bank[9]!.ePre == run0.energies[0]!.bank[9]!.ePre),
    (150, run0.energies[0]!.bank[9]!.eRD == run0.energies[0]!.bank[9]!.eRD),
    (151, run0.energies[0]!.bank[9]!.eBgAct == run0.energies[0]!.bank[9]!.eBgAct),
    (152, run0.energies[0]!.bank[9]!.eBgPre == run0.energies[0]!.bank[9]!.eBgPre),
    (148, run0.energies[0]!.bank[10]!.eAct == run0.energies[0]!.bank[10]!.eAct),
    (149, run0.energies[0]!.bank[10]!.ePre == run0.energies[0]!.bank[10]!.ePre),
    (150, run0.energies[0]!.bank[10]!.eRD == run0.energies[0]!.bank[10]!.eRD),
    (151, run0.energies[0]!.bank[10]!.eBgAct == run0.energies[0]!.bank[10]!.eBgAct),
    (152, run0.energies[0]!.bank[10]!.eBgPre == run0.energies[0]!.bank[10]!.eBgPre),
    (148, run0.energies[0]!.bank[11]!.eAct == run0.energies[0]!.bank[11]!.eAct),
    (149, run0.energies[0]!.bank[11]!.ePre == run0.energies[0]!.bank[11]!.ePre),
    (150, run0.energies[0]!.bank[11]!.eRD == run0.energies[0]!.bank[11]!.eRD),
    (151, run0.energies[0]!.bank[11]!.eBgAct == run0.energies[0]!.bank[11]!.eBgAct),
    (152, run0.energies[0]!.bank[11]!.eBgPre == run0.energies[0]!.bank[11]!.eBgPre),
    (148, run0.energies[0]!.bank[12]!.eAct == run0.energies[0]!.bank[12]!.eAct),
    (149, run0.energies[0]!.bank[12]!.ePre == run0.energies[0]!.bank[12]!.ePre),
    (150, run0.energies[0]!.bank[12]!.eRD == run0.energies[0]!.bank[12]!.eRD),
    (151, run0.energies[0]!.bank[12]!.eBgAct == run0.energies[0]!.bank[12]!.eBgAct),
    (152, run0.energies[0]!.bank[12]!.eBgPre == run0.energies[0]!.bank[12]!.eBgPre),
    (148, run0.energies[0]!.bank[13]!.eAct == run0.energies[0]!.bank[13]!.eAct),
    (149, run0.energies[0]!.bank[13]!.ePre == run0.energies[0]!.bank[13]!.ePre),
    (150, run0.energies[0]!.bank[13]!.eRD == run0.energies[0]!.bank[13]!.eRD),
    (151, run0.energies[0]!.bank[13]!.eBgAct == run0.energies[0]!.bank[13]!.eBgAct),
    (152, run0.energies[0]!.bank[13]!.eBgPre == run0.energies[0]!.bank[13]!.eBgPre),
    (148, run0.energies[0]!.bank[14]!.eAct == run0.energies[0]!.bank[14]!.eAct),
    (149, run0.energies[0]!.bank[14]!.ePre == run0.energies[0]!.bank[14]!.ePre),
    (150, run0.energies[0]!.bank[14]!.eRD == run0.energies[0]!.bank[14]!.eRD),
    (151, run0.energies[0]!.bank[14]!.eBgAct == run0.energies[0]!.bank[14]!.eBgAct),
    (152, run0.energies[0]!.bank[14]!.eBgPre == run0.energies[0]!.bank[14]!.eBgPre),
    (148, run0.energies[0]!.bank[15]!.eAct == run0.energies[0]!.bank[15]!.eAct),
    (149, run0.energies[0]!.bank[15]!.ePre == run0.energies[0]!.bank[15]!.ePre),
    (150, run0.energies[0]!.bank[15]!.eRD == run0.energies[0]!.bank[15]!.eRD),
    (151, run0.energies[0]!.bank[15]!.eBgAct == run0.energies[0]!.bank[15]!.eBgAct),
    (152, run0.energies[0]!.bank[15]!.eBgPre == run0.energies[0]!.bank[15]!.eBgPre),
    (148, run0.energies[0]!.bank[16]!.eAct == run0.energies[0]!.bank[0]!.eAct),
    (149, run0.energies[0]!.bank[16]!.ePre == run0.energies[0]!.bank[0]!.ePre),
    (150, run0.energies[0]!.bank[16]!.eRD == run0.energies[0]!.bank[0]!.eRD),
    (151, run0.energies[0]!.bank[16]!.eBgAct == run0.energies[0]!.bank[0]!.eBgAct),
    (152, run0.energies[0]!.bank[16]!.eBgPre == run0.energies[0]!.bank[0]!.eBgPre),
    (148, run0.energies[0]!.bank[17]!.eAct == run0.energies[0]!.bank[1]!.eAct),
    (149, run0.energies[0]!.bank[17]!.ePre == run0.energies[0]!.bank[1]!.ePre),
    (150, run0.energies[0]!.bank[17]!.eRD == run0.energies[0]!.bank[1]!.eRD),
    (151, run0.energies[0]!.bank[17]!.eBgAct == run0.energies[0]!.bank[1]!.eBgAct),
    (152, run0.energies[0]!.bank[17]!.eBgPre == run0.energies[0]!.bank[1]!.eBgPre),
    (148, run0.energies[0]!.bank[18]!.eAct == run0.energies[0]!.bank[2]!.eAct),
    (149, run0.energies[0]!.bank[18]!.ePre == run0.energies[0]!.bank[2]!.ePre),
    (150, run0.energies[0]!.bank[18]!.eRD == run0.energies[0]!.bank[2]!.eRD),
    (151, run0.energies[0]!.bank[18]!.eBgAct == run0.energies[0]!.bank[2]!.eBgAct),
    (152, run0.energies[0]!.bank[18]!.eBgPre == run0.energies[0]!.bank[2]!.eBgPre),
    (148, run0.energies[0]!.bank[19]!.eAct == run0.energies[0]!.bank[3]!.eAct),
    (149, run0.energies[0]!.bank[19]!.ePre == run0.energies[0]!.bank[3]!.ePre),
    (150, run0.energies[0]!.bank[19]!.eRD == run0.energies[0]!.bank[3]!.eRD),
    (151, run0.energies[0]!.bank[19]!.eBgAct == run0.energies[0]!.bank[3]!.eBgAct),
    (152, run0.energies[0]!.bank[19]!.eBgPre == run0.energies[0]!.bank[3]!.eBgPre),
    (148, run0.energies[0]!.bank[20]!.eAct == run0.energies[0]!.bank[4]!.eAct),
    (149, run0.energies[0]!.bank[20]!.ePre == run0.energies[0]!.bank[4]!.ePre),
    (150, run0.energies[0]!.bank[20]!.eRD == run0.energies[0]!.bank[4]!.eRD),
    (151, run0.energies[0]!.bank[20]!.eBgAct == run0.energies[0]!.bank[4]!.eBgAct),
    (152, run0.energies[0]!.bank[20]!.eBgPre == run0.energies[0]!.bank[4]!.eBgPre),
    (148, run0.energies[0]!.bank[21]!.eAct == run0.energies[0]!.bank[5]!.eAct),
    (149, run0.energies[0]!.bank[21]!.ePre == run0.energies[0]!.bank[5]!.ePre),
    (150, run0.energies[0]!.bank[21]!.eRD == run0.energies[0]!.bank[5]!.eRD),
    (151, run0.energies[0]!.bank[21]!.eBgAct == run0.energies[0]!.bank[5]!.eBgAct),
    (152, run0.energies[0]!.bank[21]!.eBgPre == run0.energies[0]!.bank[5]!.eBgPre),
    (148, run0.energies[0]!.bank[22]!.eAct == run0.energies[0]!.bank[6]!.eAct),
    (149, run0.energies[0]!.bank[22]!.ePre == run0.energies[0]!.bank[6]!.ePre),
    (150, run0.energies[0]!.bank[22]!.eRD == run0.energies[0]!.bank[6]!.eRD),
    (151, run0.energies[0]!.bank[22]!.eBgAct == run0.energies[0]!.bank[6]!.eBgAct),
    (152, run0.energies[0]!.bank[22]!.eBgPre == run0.energies[0]!.bank[6]!.eBgPre),
    (148, run0.energies[0]!.bank[23]!.eAct == run0.energies[0]!.bank[7]!.eAct),
    (149, run0.energies[0]!.bank[23]!.ePre == run0.energies[0]!.bank[7]!.ePre),
    (150, run0.energies[0]!.bank[23]!.eRD == run0.energies[0]!.bank[7]!.eRD),
    (151, run0.energies[0]!.bank[23]!.eBgAct == run0.energies[0]!.bank[7]!.eBgAct),
    (152, run0.energies[0]!.bank[23]!.eBgPre == run0.energies[0]!.bank[7]!.eBgPre),
    (148, run0.energies[0]!.bank[24]!.eAct == run0.energies[0]!.bank[8]!.eAct),
    (149, run0.energies[0]!.bank[24]!.ePre == run0.energies[0]!.bank[8]!.ePre),
    (150, run0.energies[0]!.bank[24]!.eRD == run0.energies[0]!.bank[8]!.eRD),
    (151, run0.energies[0]!.bank[24]!.eBgAct == run0.energies[0]!.bank[8]!.eBgAct),
    (152, run0.energies[0]!.bank[24]!.eBgPre == run0.energies[0]!.bank[8]!.eBgPre),
    (148, run0.energies[0]!.bank[25]!.eAct == run0.energies[0]!.bank[9]!.eAct),
    (149, run0.energies[0]!.bank[25]!.ePre == run0.energies[0]!.bank[9]!.ePre),
    (150, run0.energies[0]!.bank[25]!.eRD == run0.energies[0]!.bank[9]!.eRD),
    (151, run0.energies[0]!.bank[25]!.eBgAct == run0.energies[0]!.bank[9]!.eBgAct),
    (152, run0.energies[0]!.bank[25]!.eBgPre == run0.energies[0]!.bank[9]!.eBgPre),
    (148, run0.energies[0]!.bank[26]!.eAct == run0.energies[0]!.bank[10]!.eAct),
    (149, run0.energies[0]!.bank[26]!.ePre == run0.energies[0]!.bank[10]!.ePre),
    (150, run0.energies[0]!.bank[26]!.eRD == run0.energies[0]!.bank[10]!.eRD),
    (151, run0.energies[0]!.bank[26]!.eBgAct == run0.energies[0]!.bank[10]!.eBgAct),
    (152, run0.energies[0]!.bank[26]!.eBgPre == run0.energies[0]!.bank[10]!.eBgPre),
    (148, run0.energies[0]!.bank[27]!.eAct == run0.energies[0]!.bank[11]!.eAct),
    (149, run0.energies[0]!.bank[27]!.ePre == run0.energies[0]!.bank[11]!.ePre),
    (150, run0.energies[0]!.bank[27]!.eRD == run0.energies[0]!.bank[11]!.eRD),
    (151, run0.energies[0]!.bank[27]!.eBgAct == run0.energies[0]!.bank[11]!.eBgAct),
    (152, run0.energies[0]!.bank[27]!.eBgPre == run0.energies[0]!.bank[11]!.eBgPre),
    (148, run0.energies[0]!.bank[28]!.eAct == run0.energies[0]!.bank[12]!.eAct),
    (149, run0.energies[0]!.bank[28]!.ePre == run0.energies[0]!.bank[12]!.ePre),
    (150, run0.energies[0]!.bank[28]!.eRD == run0.energies[0]!.bank[12]!.eRD),
    (151, run0.energies[0]!.bank[28]!.eBgAct == run0.energies[0]!.bank[12]!.eBgAct),
    (152, run0.energies[0]!.bank[28]!.eBgPre == run0.energies[0]!.bank[12]!.eBgPre),
    (148, run0.energies[0]!.bank[29]!.eAct == run0.energies[0]!.bank[13]!.eAct),
    (149, run0.energies[0]!.bank[29]!.ePre == run0.energies[0]!.bank[13]!.ePre),
    (150, run0.energies[0]!.bank[29]!.eRD == run0.energies[0]!.bank[13]!.eRD),
    (151, run0.energies[0]!.bank[29]!.eBgAct == run0.energies[0]!.bank[13]!.eBgAct),
    (152, run0.energies[0]!.bank[29]!.eBgPre == run0.energies[0]!.bank[13]!.eBgPre),
    (148, run0.energies[0]!.bank[30]!.eAct == run0.energies[0]!.bank[14]!.eAct),
    (149, run0.energies[0]!.bank[30]!.ePre == run0.energies[0]!.bank[14]!.ePre),
    (150, run0.energies[0]!.bank[30]!.eRD == run0.energies[0]!.bank[14]!.eRD),
    (151, run0.energies[0]!.bank[30]!.eBgAct == run0.energies[0]!.bank[14]!.eBgAct),
    (152, run0.energies[0]!.bank[30]!.eBgPre == run0.energies[0]!.bank[14]!.eBgPre),
    (148, run0.energies[0]!.bank[31]!.eAct == run0.energies[0]!.bank[15]!.eAct),
    (149, run0.energies[0]!.bank[31]!.ePre == run0.energies[0]!.bank[15]!.ePre),
    (150, run0.energies[0]!.bank[31]!.eRD == run0.energies[0]!.bank[15]!.eRD),
    (151, run0.energies[0]!.bank[31]!.eBgAct == run0.energies[0]!.bank[15]!.eBgAct),
    (152, run0.energies[0]!.bank[31]!.eBgPre == run0.energies[0]!.bank[15]!.eBgPre),
    (148, run0.energies[0]!.bank[32]!.eAct == run0.energies[0]!.bank[0]!.eAct),
    (149, run0.energies[0]!.bank[32]!.ePre == run0.energies[0]!.bank[0]!.ePre),
    (150, run0.energies[0]!.bank[32]!.eRD == run0.energies[0]!.bank[0]!.eRD),
    (151, run0.energies[0]!.bank[32]!.eBgAct == run0.energies[0]!.bank[0]!.eBgAct),
    (152, run0.energies[0]!.bank[32]!.eBgPre == run0.energies[0]!.bank[0]!.eBgPre),
    (148, run0.energies[0]!.bank[33]!.eAct == run0.energies[0]!.bank[1]!.eAct),
    (149, run0.energies[0]!.bank[33]!.ePre == run0.energies[0]!.bank[1]!.ePre),
    (150, run0.energies[0]!.bank[33]!.eRD == run0.energies[0]!.bank[1]!.eRD),
    (151, run0.energies[0]!.bank[33]!.eBgAct == run0.energies[0]!.bank[1]!.eBgAct),
    (152, run0.energies[0]!.bank[33]!.eBgPre == run0.energies[0]!.bank[1]!.eBgPre),
    (148, run0.energies[0]!.bank[34]!.eAct == run0.energies[0]!.bank[2]!.eAct),
    (149, run0.energies[0]!.bank[34]!.ePre == run0.energies[0]!.bank[2]!.ePre),
    (150, run0.energies[0]!.bank[34]!.eRD == run0.energies[0]!.bank[2]!.eRD),
    (151, run0.energies[0]!.bank[34]!.eBgAct == run0.energies[0]!.bank[2]!.eBgAct),
    (152, run0.energies[0]!.bank[34]!.eBgPre == run0.energies[0]!.bank[2]!.eBgPre),
    (148, run0.energies[0]!.bank[35]!.eAct == run0.energies[0]!.bank[3]!.eAct),
    (149, run0.energies[0]!.bank[35]!.ePre == run0.energies[0]!.bank[3]!.ePre),
    (150, run0.energies[0]!.bank[35]!.eRD == run0.energies[0]!.bank[3]!.eRD),
    (151, run0.energies[0]!.bank[35]!.eBgAct == run0.energies[0]!.bank[3]!.eBgAct),
    (152, run0.energies[0]!.bank[35]!.eBgPre == run0.energies[0]!.bank[3]!.eBgPre),
    (148, run0.energies[0]!.bank[36]!.eAct == run0.energies[0]!.bank[4]!.eAct),
    (149, run0.energies[0]!.bank[36]!.ePre == run0.energies[0]!.bank[4]!.ePre),
    (150, run0.energies[0]!.bank[36]!.eRD == run0.energies[0]!.bank[4]!.eRD),
    (151, run0.energies[0]!.bank[36]!.eBgAct == run0.energies[0]!.bank[4]!.eBgAct),
    (152, run0.energies[0]!.bank[36]!.eBgPre == run0.energies[0]!.bank[4]!.eBgPre),
    (148, run0.energies[0]!.bank[37]!.eAct == run0.energies[0]!.bank[5]!.eAct),
    (149, run0.energies[0]!.bank[37]!.ePre == run0.energies[0]!.bank[5]!.ePre),
    (150, run0.energies[0]!.bank[37]!.eRD == run0.energies[0]!.bank[5]!.eRD),
    (151, run0.energies[0]!.bank[37]!.eBgAct == run0.energies[0]!.bank[5]!.eBgAct),
    (152, run0.energies[0]!.bank[37]!.eBgPre == run0.energies[0]!.bank[5]!.eBgPre),
    (148, run0.energies[0]!.bank[38]!.eAct == run0.energies[0]!.bank[6]!.eAct),
    (149, run0.energies[0]!.bank[38]!.ePre == run0.energies[0]!.bank[6]!.ePre),
    (150, run0.energies[0]!.bank[38]!.eRD == run0.energies[0]!.bank[6]!.eRD),
    (151, run0.energies[0]!.bank[38]!.eBgAct == run0.energies[0]!.bank[6]!.eBgAct),
    (152, run0.energies[0]!.bank[38]!.eBgPre == run0.energies[0]!.bank[6]!.eBgPre),
    (148, run0.energies[0]!.bank[39]!.eAct == run0.energies[0]!.bank[7]!.eAct),
    (149, run0.energies[0]!.bank[39]!.ePre == run0.energies[0]!.bank[7]!.ePre),
    (150, run0.energies[0]!.bank[39]!.eRD == run0.energies[0]!.bank[7]!.eRD),
    (151, run0.energies[0]!.bank[39]!.eBgAct == run0.energies[0]!.bank[7]!.eBgAct),
    (152, run0.energies[0]!.bank[39]!.eBgPre == run0.energies[0]!.bank[7]!.eBgPre),
    (148, run0.energies[0]!.bank[40]!.eAct == run0.energies[0]!.bank[8]!.eAct),
    (149, run0.energies[0]!.bank[40]!.ePre == run0.energies[0]!.bank[8]!.ePre),
    (150, run0.energies[0]!.bank[40]!.eRD == run0.energies[0]!.bank[8]!.eRD),
    (151, run0.energies[0]!.bank[40]!.eBgAct == run0.energies[0]!.bank[8]!.eBgAct),
    (152, run0.energies[0]!.bank[40]!.eBgPre == run0.energies[0]!.bank[8]!.eBgPre),
    (148, run0.energies[0]!.bank[41]!.eAct == run0.energies[0]!.bank[9]!.eAct),
    (149, run0.energies[0]!.bank[41]!.ePre == run0.energies[0]!.bank[9]!.ePre),
    (150, run0.energies[0]!.bank[41]!.eRD == run0.energies[0]!.bank[9]!.eRD),
    (151, run0.energies[0]!.bank[41]!.eBgAct == run0.energies[0]!.bank[9]!.eBgAct),
    (152, run0.energies[0]!.bank[41]!.eBgPre == run0.energies[0]!.bank[9]!.eBgPre),
    (148, run0.energies[0]!.bank[42]!.eAct == run0.energies[0]!.bank[10]!.eAct),
    (149, run0.energies[0]!.bank[42]!.ePre == run0.energies[0]!.bank[10]!.ePre),
    (150, run0.energies[0]!.bank[42]!.eRD == run0.energies[0]!.bank[10]!.eRD),
    (151, run0.energies[0]!.bank[42]!.eBgAct == run0.energies[0]!.bank[10]!.eBgAct),
    (152, run0.energies[0]!.bank[42]!.eBgPre == run0.energies[0]!.bank[10]!.eBgPre),
    (148, run0.energies[0]!.bank[43]!.eAct == run0.energies[0]!.bank[11]!.eAct),
    (149, run0.energies[0]!.bank[43]!.ePre == run0.energies[0]!.bank[11]!.ePre),
    (150, run0.energies[0]!.bank[43]!.eRD == run0.energies[0]!.bank[11]!.eRD),
    (151, run0.energies[0]!.bank[43]!.eBgAct == run0.energies[0]!.bank[11]!.eBgAct),
    (152, run0.energies[0]!.bank[43]!.eBgPre == run0.energies[0]!.bank[11]!.eBgPre),
    (148, run0.energies[0]!.bank[44]!.eAct == run0.energies[0]!.bank[12]!.eAct),
    (149, run0.energies[0]!.bank[44]!.ePre == run0.energies[0]!.bank[12]!.ePre),
    (150, run0.energies[0]!.bank[44]!.eRD == run0.energies[0]!.bank[12]!.eRD),
    (151, run0.energies[0]!.bank[44]!.eBgAct == run0.energies[0]!.bank[12]!.eBgAct),
    (152, run0.energies[0]!.bank[44]!.eBgPre == run0.energies[0]!.bank[12]!.eBgPre),
    (148, run0.energies[0]!.bank[45]!.eAct == run0.energies[0]!.bank[13]!.eAct),
    (149, run0.energies[0]!.bank[45]!.ePre == run0.energies[0]!.bank[13]!.ePre),
    (150, run0.energies[0]!.bank[45]!.eRD == run0.energies[0]!.bank[13]!.eRD),
    (151, run0.energies[0]!.bank[45]!.eBgAct == run0.energies[0]!.bank[13]!.eBgAct),
    (152, run0.energies[0]!.bank[45]!.eBgPre == run0.energies[0]!.bank[13]!.eBgPre),
    (148, run0.energies[0]!.bank[46]!.eAct == run0.energies[0]!.bank[14]!.eAct),
    (149, run0.energies[0]!.bank[46]!.ePre == run0.energies[0]!.bank[14]!.ePre),
    (150, run0.energies[0]!.bank[46]!.eRD == run0.energies[0]!.bank[14]!.eRD),
    (151, run0.energies[0]!.bank[46]!.eBgAct == run0.energies[0]!.bank[14]!.eBgAct),
    (152, run0.energies[0]!.bank[46]!.eBgPre == run0.energies[0]!.bank[14]!.eBgPre),
    (148, run0.energies[0]!.bank[47]!.eAct == run0.energies[0]!.bank[15]!.eAct),
    (149, run0.energies[0]!.bank[47]!.ePre == run0.energies[0]!.bank[15]!.ePre),
    (150, run0.energies[0]!.bank[47]!.eRD == run0.energies[0]!.bank[15]!.eRD),
    (151, run0.energies[0]!.bank[47]!.eBgAct == run0.energies[0]!.bank[15]!.eBgAct),
    (152, run0.energies[0]!.bank[47]!.eBgPre == run0.energies[0]!.bank[15]!.eBgPre),
    (148, run0.energies[0]!.bank[48]!.eAct == run0.energies[0]!.bank[0]!.eAct),
    (149, run0.energies[0]!.bank[48]!.ePre == run0.energies[0]!.bank[0]!.ePre),
    (150, run0.energies[0]!.bank[48]!.eRD == run0.energies[0]!.bank[0]!.eRD),
    (151, run0.energies[0]!.bank[48]!.eBgAct == run0.energies[0]!.bank[0]!.eBgAct),
    (152, run0.energies[0]!.bank[48]!.eBgPre == run0.energies[0]!.bank[0]!.eBgPre),
    (148, run0.energies[0]!.bank[49]!.eAct == run0.energies[0]!.bank[1]!.eAct),
    (149, run0.energies[0]!.bank[49]!.ePre == run0.energies[0]!.bank[1]!.ePre),
    (150, run0.energies[0]!.bank[49]!.eRD == run0.energies[0]!.bank[1]!.eRD),
    (151, run0.energies[0]!.bank[49]!.eBgAct == run0.energies[0]!.bank[1]!.eBgAct),
    (152, run0.energies[0]!.bank[49]!.eBgPre == run0.energies[0]!.bank[1]!.eBgPre),
    (148, run0.energies[0]!.bank[50]!.eAct == run0.energies[0]!.bank[2]!.eAct),
    (149, run0.energies[0]!.bank[50]!.ePre == run0.energies[0]!.bank[2]!.ePre),
    (150, run0.energies[0]!.bank[50]!.eRD == run0.energies[0]!.bank[2]!.eRD),
    (151, run0.energies[0]!.bank[50]!.eBgAct == run0.energies[0]!.bank[2]!.eBgAct),
    (152, run0.energies[0]!.bank[50]!.eBgPre == run0.energies[0]!.bank[2]!.eBgPre),
    (148, run0.energies[0]!.bank[51]!.eAct == run0.energies[0]!.bank[3]!.eAct),
    (149, run0.energies[0]!.bank[51]!.ePre == run0.energies[0]!.bank[3]!.ePre),
    (150, run0.energies[0]!.bank[51]!.eRD == run0.energies[0]!.bank[3]!.eRD),
    (151, run0.energies[0]!.bank[51]!.eBgAct == run0.energies[0]!.bank[3]!.eBgAct),
    (152, run0.energies[0]!.bank[51]!.eBgPre == run0.energies[0]!.bank[3]!.eBgPre),
    (148, run0.energies[0]!.bank[52]!.eAct == run0.energies[0]!.bank[4]!.eAct),
    (149, run0.energies[0]!.bank[52]!.ePre == run0.energies[0]!.bank[4]!.ePre),
    (150, run0.energies[0]!.bank[52]!.eRD == run0.energies[0]!.bank[4]!.eRD),
    (151, run0.energies[0]!.bank[52]!.eBgAct == run0.energies[0]!.bank[4]!.eBgAct),
    (152, run0.energies[0]!.bank[52]!.eBgPre == run0.energies[0]!.bank[4]!.eBgPre),
    (148, run0.energies[0]!.bank[53]!.eAct == run0.energies[0]!.bank[5]!.eAct),
    (149, run0.energies[0]!.bank[53]!.ePre == run0.energies[0]!.bank[5]!.ePre),
    (150, run0.energies[0]!.bank[53]!.eRD == run0.energies[0]!.bank[5]!.eRD),
    (151, run0.energies[0]!.bank[53]!.eBgAct == run0.energies[0]!.bank[5]!.eBgAct),
    (152, run0.energies[0]!.bank[53]!.eBgPre == run0.energies[0]!.bank[5]!.eBgPre),
    (148, run0.energies[0]!.bank[54]!.eAct == run0.energies[0]!.bank[6]!.eAct),
    (149, run0.energies[0]!.bank[54]!.ePre == run0.energies[0]!.bank[6]!.ePre),
    (150, run0.energies[0]!.bank[54]!.eRD == run0.energies[0]!.bank[6]!.eRD),
    (151, run0.energies[0]!.bank[54]!.eBgAct == run0.energies[0]!.bank[6]!.eBgAct),
    (152, run0.energies[0]!.bank[54]!.eBgPre == run0.energies[0]!.bank[6]!.eBgPre),
    (148, run0.energies[0]!.bank[55]!.eAct == run0.energies[0]!.bank[7]!.eAct),
    (149, run0.energies[0]!.bank[55]!.ePre == run0.energies[0]!.bank[7]!.ePre),
    (150, run0.energies[0]!.bank[55]!.eRD == run0.energies[0]!.bank[7]!.eRD),
    (151, run0.energies[0]!.bank[55]!.eBgAct == run0.energies[0]!.bank[7]!.eBgAct),
    (152, run0.energies[0]!.bank[55]!.eBgPre == run0.energies[0]!.bank[7]!.eBgPre),
    (148, run0.energies[0]!.bank[56]!.eAct == run0.energies[0]!.bank[8]!.eAct),
    (149, run0.energies[0]!.bank[56]!.ePre == run0.energies[0]!.bank[8]!.ePre),
    (150, run0.energies[0]!.bank[56]!.eRD == run0.energies[0]!.bank[8]!.eRD),
    (151, run0.energies[0]!.bank[56]!.eBgAct == run0.energies[0]!.bank[8]!.eBgAct),
    (152, run0.energies[0]!.bank[56]!.eBgPre == run0.energies[0]!.bank[8]!.eBgPre),
    (148, run0.energies[0]!.bank[57]!.eAct == run0.energies[0]!.bank[9]!.eAct),
    (149, run0.energies[0]!.bank[57]!.ePre == run0.energies[0]!.bank[9]!.ePre),
    (150, run0.energies[0]!.bank[57]!.eRD == run0.energies[0]!.bank[9]!.eRD),
    (151, run0.energies[0]!.bank[57]!.eBgAct == run0.energies[0]!.bank[9]!.eBgAct),
    (152, run0.energies[0]!.bank[57]!.eBgPre == run0.energies[0]!.bank[9]!.eBgPre),
    (148, run0.energies[0]!.bank[58]!.eAct == run0.energies[0]!.bank[10]!.eAct),
    (149, run0.energies[0]!.bank[58]!.ePre == run0.energies[0]!.bank[10]!.ePre),
    (150, run0.energies[0]!.bank[58]!.eRD == run0.energies[0]!.bank[10]!.eRD),
    (151, run0.energies[0]!.bank[58]!.eBgAct == run0.energies[0]!.bank[10]!.eBgAct),
    (152, run0.energies[0]!.bank[58]!.eBgPre == run0.energies[0]!.bank[10]!.eBgPre),
    (148, run0.energies[0]!.bank[59]!.eAct == run0.energies[0]!.bank[11]!.eAct),
    (149, run0.energies[0]!.bank[59]!.ePre == run0.energies[0]!.bank[11]!.ePre),
    (150, run0.energies[0]!.bank[59]!.eRD == run0.energies[0]!.bank[11]!.eRD),
    (151, run0.energies[0]!.bank[59]!.eBgAct == run0.energies[0]!.bank[11]!.eBgAct),
    (152, run0.energies[0]!.bank[59]!.eBgPre == run0.energies[0]!.bank[11]!.eBgPre),
    (148, run0.energies[0]!.bank[60]!.eAct == run0.energies[0]!.bank[12]!.eAct),
    (149, run0.energies[0]!.bank[60]!.ePre == run0.energies[0]!.bank[12]!.ePre),
    (150, run0.energies[0]!.bank[60]!.eRD == run0.energies[0]!.bank[12]!.eRD),
    (151, run0.energies[0]!.bank[60]!.eBgAct == run0.energies[0]!.bank[12]!.eBgAct),
    (152, run0.energies[0]!.bank[60]!.eBgPre == run0.energies[0]!.bank[12]!.eBgPre),
    (148, run0.energies[0]!.bank[61]!.eAct == run0.energies[0]!.bank[13]!.eAct),
    (149, run0.energies[0]!.bank[61]!.ePre == run0.energies[0]!.bank[13]!.ePre),
    (150, run0.energies[0]!.bank[61]!.eRD == run0.energies[0]!.bank[13]!.eRD),
    (151, run0.energies[0]!.bank[61]!.eBgAct == run0.energies[0]!.bank[13]!.eBgAct),
    (152, run0.energies[0]!.bank[61]!.eBgPre == run0.energies[0]!.bank[13]!.eBgPre),
    (148, run0.energies[0]!.bank[62]!.eAct == run0.energies[0]!.bank[14]!.eAct),
    (149, run0.energies[0]!.bank[62]!.ePre == run0.energies[0]!.bank[14]!.ePre),
    (150, run0.energies[0]!.bank[62]!.eRD == run0.energies[0]!.bank[14]!.eRD),
    (151, run0.energies[0]!.bank[62]!.eBgAct == run0.energies[0]!.bank[14]!.eBgAct),
    (152, run0.energies[0]!.bank[62]!.eBgPre == run0.energies[0]!.bank[14]!.eBgPre),
    (148, run0.energies[0]!.bank[63]!.eAct == run0.energies[0]!.bank[15]!.eAct),
    (149, run0.energies[0]!.bank[63]!.ePre == run0.energies[0]!.bank[15]!.ePre),
    (150, run0.energies[0]!.bank[63]!.eRD == run0.energies[0]!.bank[15]!.eRD),
    (151, run0.energies[0]!.bank[63]!.eBgAct == run0.energies[0]!.bank[15]!.eBgAct),
    (152, run0.energies[0]!.bank[63]!.eBgPre == run0.energies[0]!.bank[15]!.eBgPre),
    (148, run0.energies[0]!.bank[64]!.eAct == run0.energies[0]!.bank[0]!.eAct),
    (149, run0.energies[0]!.bank[64]!.ePre == run0.energies[0]!.bank[0]!.ePre),
    (150, run0.energies[0]!.bank[64]!.eRD == run0.energies[0]!.bank[0]!.eRD),
    (151, run0.energies[0]!.bank[64]!.eBgAct == run0.energies[0]!.bank[0]!.eBgAct),
    (152, run0.energies[0]!.bank[64]!.eBgPre == run0.energies[0]!.bank[0]!.eBgPre),
    (148, run0.energies[0]!.bank[65]!.eAct == run0.energies[0]!.bank[1]!.eAct),
    (149, run0.energies[0]!.bank[65]!.ePre == run0.energies[0]!.bank[1]!.ePre),
    (150, run0.energies[0]!.bank[65]!.eRD == run0.energies[0]!.bank[1]!.eRD),
    (151, run0.energies[0]!.bank[65]!.eBgAct == run0.energies[0]!.bank[1]!.eBgAct),
    (152, run0.energies[0]!.bank[65]!.eBgPre == run0.energies[0]!.bank[1]!.eBgPre),
    (148, run0.energies[0]!.bank[66]!.eAct == run0.energies[0]!.bank[2]!.eAct),
    (149, run0.energies[0]!.bank[66]!.ePre == run0.energies[0]!.bank[2]!.ePre),
    (150, run0.energies[0]!.bank[66]!.eRD == run0.energies[0]!.bank[2]!.eRD),
    (151, run0.energies[0]!.bank[66]!.eBgAct == run0.energies[0]!.bank[2]!.eBgAct),
    (152, run0.energies[0]!.bank[66]!.eBgPre == run0.energies[0]!.bank[2]!.eBgPre),
    (148, run0.energies[0]!.bank[67]!.eAct == run0.energies[0]!.bank[3]!.eAct),
    (149, run0.energies[0]!.bank[67]!.ePre == run0.energies[0]!.bank[3]!.ePre),
    (150, run0.energies[0]!.bank[67]!.eRD == run0.energies[0]!.bank[3]!.eRD),
    (151, run0.energies[0]!.bank[67]!.eBgAct == run0.energies[0]!.bank[3]!.eBgAct),
    (152, run0.energies[0]!.bank[67]!.eBgPre == run0.energies[0]!.bank[3]!.eBgPre),
    (148, run0.energies[0]!.bank[68]!.eAct == run0.energies[0]!.bank[4]!.eAct),
    (149, run0.energies[0]!.bank[68]!.ePre == run0.energies[0]!.bank[4]!.ePre),
    (150, run0.energies[0]!.bank[68]!.eRD == run0.energies[0]!.bank[4]!.eRD),
    (151, run0.energies[0]!.bank[68]!.eBgAct == run0.energies[0]!.bank[4]!.eBgAct),
    (152, run0.energies[0]!.bank[68]!.eBgPre == run0.energies[0]!.bank[4]!.eBgPre),
    (148, run0.energies[0]!.bank[69]!.eAct == run0.energies[0]!.bank[5]!.eAct),
    (149, run0.energies[0]!.bank[69]!.ePre == run0.energies[0]!.bank[5]!.ePre),
    (150, run0.energies[0]!.bank[69]!.eRD == run0.energies[0]!.bank[5]!.eRD),
    (151, run0.energies[0]!.bank[69]!.eBgAct == run0.energies[0]!.bank[5]!.eBgAct),
    (152, run0.energies[0]!.bank[69]!.eBgPre == run0.energies[0]!.bank[5]!.eBgPre),
    (148, run0.energies[0]!.bank[70]!.eAct == run0.energies[0]!.bank[6]!.eAct),
    (149, run0.energies[0]!.bank[70]!.ePre == run0.energies[0]!.bank[6]!.ePre),
    (150, run0.energies[0]!.bank[70]!.eRD == run0.energies[0]!.bank[6]!.eRD),
    (151, run0.energies[0]!.bank[70]!.eBgAct == run0.energies[0]!.bank[6]!.eBgAct),
    (152, run0.energies[0]!.bank[70]!.eBgPre == run0.energies[0]!.bank[6]!.eBgPre),
    (148, run0.energies[0]!.bank[71]!.eAct == run0.energies[0]!.bank[7]!.eAct),
    (149, run0.energies[0]!.bank[71]!.ePre == run0.energies[0]!.bank[7]!.ePre),
    (150, run0.energies[0]!.bank[71]!.eRD == run0.energies[0]!.bank[7]!.eRD),
    (151, run0.energies[0]!.bank[71]!.eBgAct == run0.energies[0]!.bank[7]!.eBgAct),
    (152, run0.energies[0]!.bank[71]!.eBgPre == run0.energies[0]!.bank[7]!.eBgPre),
    (148, run0.energies[0]!.bank[72]!.eAct == run0.energies[0]!.bank[8]!.eAct),
    (149, run0.energies[0]!.bank[72]!.ePre == run0.energies[0]!.bank[8]!.ePre),
    (150, run0.energies[0]!.bank[72]!.eRD == run0.energies[0]!.bank[8]!.eRD),
    (151, run0.energies[0]!.bank[72]!.eBgAct == run0.energies[0]!.bank[8]!.eBgAct),
    (152, run0.energies[0]!.bank[72]!.eBgPre == run0.energies[0]!.bank[8]!.eBgPre),
    (148, run0.energies[0]!.bank[73]!.eAct == run0.energies[0]!.bank[9]!.eAct),
    (149, run0.energies[0]!.bank[73]!.ePre == run0.energies[0]!.bank[9]!.ePre),
    (150, run0.energies[0]!.bank[73]!.eRD == run0.energies[0]!.bank[9]!.eRD),
    (151, run0.energies[0]!.bank[73]!.eBgAct == run0.energies[0]!.bank[9]!.eBgAct),
    (152, run0.energies[0]!.bank[73]!.eBgPre == run0.energies[0]!.bank[9]!.eBgPre),
    (148, run0.energies[0]!.bank[74]!.eAct == run0.energies[0]!.bank[10]!.eAct),
    (149, run0.energies[0]!.bank[74]!.ePre == run0.energies[0]!.bank[10]!.ePre),
    (150, run0.energies[0]!.bank[74]!.eRD == run0.energies[0]!.bank[10]!.eRD),
    (151, run0.energies[0]!.bank[74]!.eBgAct == run0.energies[0]!.bank[10]!.eBgAct),
    (152, run0.energies[0]!.bank[74]!.eBgPre == run0.energies[0]!.bank[10]!.eBgPre),
    (148, run0.energies[0]!.bank[75]!.eAct == run0.energies[0]!.bank[11]!.eAct),
    (149, run0.energies[0]!.bank[75]!.ePre == run0.energies[0]!.bank[11]!.ePre),
    (150, run0.energies[0]!.bank[75]!.eRD == run0.energies[0]!.bank[11]!.eRD),
    (151, run0.energies[0]!.bank[75]!.eBgAct == run0.energies[0]!.bank[11]!.eBgAct),
    (152, run0.energies[0]!.bank[75]!.eBgPre == run0.energies[0]!.bank[11]!.eBgPre),
    (148, run0.energies[0]!.bank[76]!.eAct == run0.energies[0]!.bank[12]!.eAct),
    (149, run0.energies[0]!.bank[76]!.ePre == run0.energies[0]!.bank[12]!.ePre),
    (150, run0.energies[0]!.bank[76]!.eRD == run0.energies[0]!.bank[12]!.eRD),
    (151, run0.energies[0]!.bank[76]!.eBgAct == run0.energies[0]!.bank[12]!.eBgAct),
    (152, run0.energies[0]!.bank[76]!.eBgPre == run0.energies[0]!.bank[12]!.eBgPre),
    (148, run0.energies[0]!.bank[77]!.eAct == run0.energies[0]!.bank[13]!.eAct),
    (149, run0.energies[0]!.bank[77]!.ePre == run0.energies[0]!.bank[13]!.ePre),
    (150, run0.energies[0]!.bank[77]!.eRD == run0.energies[0]!.bank[13]!.eRD),
    (151, run0.energies[0]!.bank[77]!.eBgAct == run0.energies[0]!.bank[13]!.eBgAct),
    (152, run0.energies[0]!.bank[77]!.eBgPre == run0.energies[0]!.bank[13]!.eBgPre),
    (148, run0.energies[0]!.bank[78]!.eAct == run0.energies[0]!.bank[14]!.eAct),
    (149, run0.energies[0]!.bank[78]!.ePre == run0.energies[0]!.bank[14]!.ePre),
    (150, run0.energies[0]!.bank[78]!.eRD == run0.energies[0]!.bank[14]!.eRD),
    (151, run0.energies[0]!.bank[78]!.eBgAct == run0.energies[0]!.bank[14]!.eBgAct),
    (152, run0.energies[0]!.bank[78]!.eBgPre == run0.energies[0]!.bank[14]!.eBgPre),
    (148, run0.energies[0]!.bank[79]!.eAct == run0.energies[0]!.bank[15]!.eAct),
    (149, run0.energies[0]!.bank[79]!.ePre == run0.energies[0]!.bank[15]!.ePre),
    (150, run0.energies[0]!.bank[79]!.eRD == run0.energies[0]!.bank[15]!.eRD),
    (151, run0.energies[0]!.bank[79]!.eBgAct == run0.energies[0]!.bank[15]!.eBgAct),
    (152, run0.energies[0]!.bank[79]!.eBgPre == run0.energies[0]!.bank[15]!.eBgPre),
    (156, (nearest (((run0.energies[0]!.aggregated.eAct : Rat) * 1000000000000) : Rat) : Rat) == 1962),
    (157, (nearest (((run0.energies[0]!.aggregated.ePre : Rat) * 1000000000000) : Rat) : Rat) == 2077),
    (158, (nearest (((run0.energies[0]!.aggregated.eRD : Rat) * 1000000000000) : Rat) : Rat) == 3375),
    (159, (nearest (((run0.energies[0]!.aggregated.eBgAct : Rat) * 1000000000000) : Rat) : Rat) == 8163),
    (160, (nearest (((run0.energies[0]!.shared.bgActShared : Rat) * 1000000000000) : Rat) : Rat) == 7933),
    (161, (nearest (((run0.energies[0]!.aggregated.eBgPre : Rat) * 1000000000000) : Rat) : Rat) == 3115),
    (162, (nearest (((run0.energies[0]!.aggregated.total : Rat) * 1000000000000) : Rat) : Rat) == 18692)]

#guard failing checks == []

end lpddr6_multidevice_tests.Energy

/-! ## tests/tests_drampower/core/LPDDR6/lpddr6_multirank_tests.cpp -/

def lpddr6_multirank_tests.wr_data : List UInt8 := [
  0, 0, 0, 0, 0, 0, 0, 255, 0, 0, 0, 0, 0, 0, 0, 0, 0, 0, 0, 0, 0, 0, 0, 0, 0, 0, 0, 0, 0, 0, 0, 255]

def lpddr6_multirank_tests.rd_data : List UInt8 := [
  0, 0, 0, 0, 0, 0, 0, 1, 0, 0, 0, 0, 0, 0, 0, 0, 0, 0, 0, 0, 0, 0, 0, 0, 0, 0, 0, 0, 0, 0, 0, 0]

namespace lpddr6_multirank_tests.Pattern_1

def run0 : Log := run .lpddr6 ({ lpddr6 with
  core := { lpddr6.core with numberOfRanks := 2 },
  power := { lpddr6.power with ranks := 2 },
  iface := { lpddr6.iface with ranks := 2 } }) [
    .core { t := 0, type := .ACT, co := { bank := 1 } },
    .iface { t := 0, type := .ACT, co := { bank := 1 } },
    .core { t := 4, type := .ACT, co := { bank := 1, rank := 1 } },
    .iface { t := 4, type := .ACT, co := { bank := 1, rank := 1 } },
    .core { t := 8, type := .WR, co := { bank := 1, column := 4 }, nBits := 256, data := some lpddr6_multirank_tests.wr_data },
    .iface { t := 8, type := .WR, co := { bank := 1, column := 4 }, nBits := 256, data := some lpddr6_multirank_tests.wr_data },
    .core { t := 12, type := .RD, co := { bank := 1, rank := 1, column := 4 }, nBits := 256, data := some lpddr6_multirank_tests.rd_data },
    .iface { t := 12, type := .RD, co := { bank := 1, rank := 1, column := 4 }, nBits := 256, data := some lpddr6_multirank_tests.rd_data },
    .core { t := 16, type := .PRE, co := { bank := 1, rank := 1 } },
    .iface { t := 16, type := .PRE, co := { bank := 1, rank := 1 } },
    .core { t := 21, type := .PRE, co := { bank := 1 } },
    .iface { t := 21, type := .PRE, co := { bank := 1 } },
    .core { t := 26, type := .END_OF_SIMULATION },
    .iface { t := 26, type := .END_OF_SIMULATION },
    .stats]

def checks : List (Nat × Bool) := [
    (0, run0.ok),
    (74, run0.stats[0]!.bank.length == 32),
    (76, run0.stats[0]!.bank[1]!.cycles.act == 21),
    (77, run0.stats[0]!.bank[17]!.cycles.act == 12),
    (78, run0.stats[0]!.bank[1]!.cycles.pre == 5),
    (79, run0.stats[0]!.bank[17]!.cycles.pre == 14),
    (81, run0.stats[0]!.rankTotal[0]!.cycles.act == 21),
    (82, run0.stats[0]!.rankTotal[1]!.cycles.act == 12)]

#guard failing checks == []

end lpddr6_multirank_tests.Pattern_1

namespace lpddr6_multirank_tests.Pattern_2

def run0 : Log := run .lpddr6 ({ lpddr6 with
  core := { lpddr6.core with numberOfRanks := 2 },
  power := { lpddr6.power with ranks := 2 },
  iface := { lpddr6.iface with ranks := 2 } }) [
    .core { t := 0, type := .ACT },
    .iface { t := 0, type := .ACT },
    .core { t := 5, type := .ACT, co := { rank := 1 } },
    .iface { t := 5, type := .ACT, co := { rank := 1 } },
    .core { t := 22, type := .ACT, co := { bank := 3, rank := 1 } },
    .iface { t := 22, type := .ACT, co := { bank := 3, rank := 1 } },
    .core { t := 35, type := .RD, co := { bank := 3, rank := 1 }, nBits := 256, data := some lpddr6_multirank_tests.rd_data },
    .iface { t := 35, type := .RD, co := { bank := 3, rank := 1 }, nBits := 256, data := some lpddr6_multirank_tests.rd_data },
    .core { t := 55, type := .RD, co := { column := 3 }, nBits := 256, data := some lpddr6_multirank_tests.rd_data },
    .iface { t := 55, type := .RD, co := { column := 3 }, nBits := 256, data := some lpddr6_multirank_tests.rd_data },
    .core { t := 60, type := .PREA },
    .iface { t := 60, type := .PREA },
    .core { t := 65, type := .PREA, co := { rank := 1 } },
    .iface { t := 65, type := .PREA, co := { rank := 1 } },
    .core { t := 75, type := .REFA },
    .iface { t := 75, type := .REFA },
    .core { t := 80, type := .REFA, co := { rank := 1 } },
    .iface { t := 80, type := .REFA, co := { rank := 1 } },
    .core { t := 130, type := .END_OF_SIMULATION },
    .iface { t := 130, type := .END_OF_SIMULATION },
    .stats]

def checks : List (Nat × Bool) := [
    (0, run0.ok),
    (100, run0.stats[0]!.bank.length == 32),
    (101, run0.stats[0]!.bank[0]!.cycles.act == 85),
    (102, run0.stats[0]!.bank[16]!.cycles.act == 85),
    (103, run0.stats[0]!.bank[19]!.cycles.act == 68),
    (105, run0.stats[0]!.bank[0]!.cycles.pre == 45),
    (106, run0.stats[0]!.bank[16]!.cycles.pre == 45),
    (107, run0.stats[0]!.bank[19]!.cycles.pre == 62),
    (109, run0.stats[0]!.rankTotal[0]!.cycles.act == 85),
    (110, run0.stats[0]!.rankTotal[1]!.cycles.act == 85)]

#guard failing checks == []

end lpddr6_multirank_tests.Pattern_2

/-! ## tests/tests_drampower/core/LPDDR6/lpddr6_test_pattern_0.cpp -/

namespace lpddr6_0.Counters_and_Cycles

def run0 : Log := run .lpddr6 (lpddr6) [
    .core { t := 0, type := .ACT },
    .core { t := 15, type := .PRE },
    .core { t := 15, type := .END_OF_SIMULATION },
    .stats]

def checks : List (Nat × Bool) := [
    (0, run0.ok),
    (53, run0.stats[0]!.bank[0]!.counter.act == 1),
    (54, run0.stats[0]!.bank[1]!.counter.act == 0),
    (54, run0.stats[0]!.bank[2]!.counter.act == 0),
    (54, run0.stats[0]!.bank[3]!.counter.act == 0),
    (54, run0.stats[0]!.bank[4]!.counter.act == 0),
    (54, run0.stats[0]!.bank[5]!.counter.act == 0),
    (54, run0.stats[0]!.bank[6]!.counter.act == 0),
    (54, run0.stats[0]!.bank[7]!.counter.act == 0),
    (54, run0.stats[0]!.bank[8]!.counter.act == 0),
    (54, run0.stats[0]!.bank[9]!.counter.act == 0),
    (54, run0.stats[0]!.bank[10]!.counter.act == 0),
    (54, run0.stats[0]!.bank[11]!.counter.act == 0),
    (54, run0.stats[0]!.bank[12]!.counter.act == 0),
    (54, run0.stats[0]!.bank[13]!.counter.act == 0),
    (54, run0.stats[0]!.bank[14]!.counter.act == 0),
    (54, run0.stats[0]!.bank[15]!.counter.act == 0),
    (58, run0.stats[0]!.rankTotal[0]!.cycles.act == 15),
    (59, run0.stats[0]!.rankTotal[0]!.cycles.pre == 0),
    (62, run0.stats[0]!.bank[0]!.cycles.act == 15),
    (64, run0.stats[0]!.bank[1]!.cycles.act == 0),
    (64, run0.stats[0]!.bank[2]!.cycles.act == 0),
    (64, run0.stats[0]!.bank[3]!.cycles.act == 0),
    (64, run0.stats[0]!.bank[4]!.cycles.act == 0),
    (64, run0.stats[0]!.bank[5]!.cycles.act == 0),
    (64, run0.stats[0]!.bank[6]!.cycles.act == 0),
    (64, run0.stats[0]!.bank[7]!.cycles.act == 0),
    (64, run0.stats[0]!.bank[8]!.cycles.act == 0),
    (64, run0.stats[0]!.bank[9]!.cycles.act == 0),
    (64, run0.stats[0]!.bank[10]!.cycles.act == 0),
    (64, run0.stats[0]!.bank[11]!.cycles.act == 0),
    (64, run0.stats[0]!.bank[12]!.cycles.act == 0),
    (64, run0.stats[0]!.bank[13]!.cycles.act == 0),
    (64, run0.stats[0]!.bank[14]!.cycles.act == 0),
    (64, run0.stats[0]!.bank[15]!.cycles.act == 0),
    (67, run0.stats[0]!.bank[0]!.cycles.pre == 0),
    (69, run0.stats[0]!.bank[1]!.cycles.pre == 15),
    (69, run0.stats[0]!.bank[2]!.cycles.pre == 15),
    (69, run0.stats[0]!.bank[3]!.cycles.pre == 15),
    (69, run0.stats[0]!.bank[4]!.cycles.pre == 15),
    (69, run0.stats[0]!.bank[5]!.cycles.pre == 15),
    (69, run0.stats[0]!.bank[6]!.cycles.pre == 15),
    (69, run0.stats[0]!.bank[7]!.cycles.pre == 15),
    (69, run0.stats[0]!.bank[8]!.cycles.pre == 15),
    (69, run0.stats[0]!.bank[9]!.cycles.pre == 15),
    (69, run0.stats[0]!.bank[10]!.cycles.pre == 15),
    (69, run0.stats[0]!.bank[11]!.cycles.pre == 15),
    (69, run0.stats[0]!.bank[12]!.cycles.pre == 15),
    (69, run0.stats[0]!.bank[13]!.cycles.pre == 15),
    (69, run0.stats[0]!.bank[14]!.cycles.pre == 15),
    (69, run0.stats[0]!.bank[15]!.cycles.pre == 15)]

#guard failing checks == []

end lpddr6_0.Counters_and_Cycles

namespace lpddr6_0.Energy

def run0 : Log := run .lpddr6 (lpddr6) [
    .core { t := 0, type := .ACT },
    .core { t := 15, type := .PRE },
    .core { t := 15, type := .END_OF_SIMULATION },
    .coreEnergy 15]

def checks : List (Nat × Bool) := [
    (0, run0.ok),
    (81, (nearest (((run0.energies[0]!.aggregated.eAct : Rat) * 1000000000000) : Rat) : Rat) == 196),
    (82, (nearest (((run0.energies[0]!.aggregated.ePre : Rat) * 1000000000000) : Rat) : Rat) == 208),
    (83, (nearest (((run0.energies[0]!.shared.bgActShared : Rat) * 1000000000000) : Rat) : Rat) == 476),
    (84, (nearest (((run0.energies[0]!.aggregated.eBgAct : Rat) * 1000000000000) : Rat) : Rat) == 485),
    (85, (((nearest (run0.energies[0]!.aggregated.eBgPre : Rat) : Rat) * 1000000000000) : Rat) == 0),
    (86, (nearest (((run0.energies[0]!.aggregated.total : Rat) * 1000000000000) : Rat) : Rat) == 888)]

#guard failing checks == []

end lpddr6_0.Energy

/-! ## tests/tests_drampower/core/LPDDR6/lpddr6_test_pattern_1.cpp -/

namespace lpddr6_1.Counters_and_Cycles

def run0 : Log := run .lpddr6 (lpddr6) [
    .core { t := 0, type := .ACT },
    .core { t := 15, type := .RD },
    .core { t := 35, type := .PRE },
    .core { t := 35, type := .END_OF_SIMULATION },
    .stats]

def checks : List (Nat × Bool) := [
    (0, run0.ok),
    (54, run0.stats[0]!.bank[0]!.counter.act == 1),
    (56, run0.stats[0]!.bank[1]!.counter.act == 0),
    (56, run0.stats[0]!.bank[2]!.counter.act == 0),
    (56, run0.stats[0]!.bank[3]!.counter.act == 0),
    (56, run0.stats[0]!.bank[4]!.counter.act == 0),
    (56, run0.stats[0]!.bank[5]!.counter.act == 0),
    (56, run0.stats[0]!.bank[6]!.counter.act == 0),
    (56, run0.stats[0]!.bank[7]!.counter.act == 0),
    (56, run0.stats[0]!.bank[8]!.counter.act == 0),
    (56, run0.stats[0]!.bank[9]!.counter.act == 0),
    (56, run0.stats[0]!.bank[10]!.counter.act == 0),
    (56, run0.stats[0]!.bank[11]!.counter.act == 0),
    (56, run0.stats[0]!.bank[12]!.counter.act == 0),
    (56, run0.stats[0]!.bank[13]!.counter.act == 0),
    (56, run0.stats[0]!.bank[14]!.counter.act == 0),
    (56, run0.stats[0]!.bank[15]!.counter.act == 0),
    (59, run0.stats[0]!.bank[0]!.counter.reads == 1),
    (61, run0.stats[0]!.bank[1]!.counter.reads == 0),
    (61, run0.stats[0]!.bank[2]!.counter.reads == 0),
    (61, run0.stats[0]!.bank[3]!.counter.reads == 0),
    (61, run0.stats[0]!.bank[4]!.counter.reads == 0),
    (61, run0.stats[0]!.bank[5]!.counter.reads == 0),
    (61, run0.stats[0]!.bank[6]!.counter.reads == 0),
    (61, run0.stats[0]!.bank[7]!.counter.reads == 0),
    (61, run0.stats[0]!.bank[8]!.counter.reads == 0),
    (61, run0.stats[0]!.bank[9]!.counter.reads == 0),
    (61, run0.stats[0]!.bank[10]!.counter.reads == 0),
    (61, run0.stats[0]!.bank[11]!.counter.reads == 0),
    (61, run0.stats[0]!.bank[12]!.counter.reads == 0),
    (61, run0.stats[0]!.bank[13]!.counter.reads == 0),
    (61, run0.stats[0]!.bank[14]!.counter.reads == 0),
    (61, run0.stats[0]!.bank[15]!.counter.reads == 0),
    (64, run0.stats[0]!.bank[0]!.counter.pre == 1),
    (66, run0.stats[0]!.bank[1]!.counter.pre == 0),
    (66, run0.stats[0]!.bank[2]!.counter.pre == 0),
    (66, run0.stats[0]!.bank[3]!.counter.pre == 0),
    (66, run0.stats[0]!.bank[4]!.counter.pre == 0),
    (66, run0.stats[0]!.bank[5]!.counter.pre == 0),
    (66, run0.stats[0]!.bank[6]!.counter.pre == 0),
    (66, run0.stats[0]!.bank[7]!.counter.pre == 0),
    (66, run0.stats[0]!.bank[8]!.counter.pre == 0),
    (66, run0.stats[0]!.bank[9]!.counter.pre == 0),
    (66, run0.stats[0]!.bank[10]!.counter.pre == 0),
    (66, run0.stats[0]!.bank[11]!.counter.pre == 0),
    (66, run0.stats[0]!.bank[12]!.counter.pre == 0),
    (66, run0.stats[0]!.bank[13]!.counter.pre == 0),
    (66, run0.stats[0]!.bank[14]!.counter.pre == 0),
    (66, run0.stats[0]!.bank[15]!.counter.pre == 0),
    (69, run0.stats[0]!.rankTotal[0]!.cycles.act == 35),
    (70, run0.stats[0]!.rankTotal[0]!.cycles.pre == 0),
    (73, run0.stats[0]!.bank[0]!.cycles.act == 35),
    (75, run0.stats[0]!.bank[1]!.cycles.act == 0),
    (75, run0.stats[0]!.bank[2]!.cycles.act == 0),
    (75, run0.stats[0]!.bank[3]!.cycles.act == 0),
    (75, run0.stats[0]!.bank[4]!.cycles.act == 0),
    (75, run0.stats[0]!.bank[5]!.cycles.act == 0),
    (75, run0.stats[0]!.bank[6]!.cycles.act == 0),
    (75, run0.stats[0]!.bank[7]!.cycles.act == 0),
    (75, run0.stats[0]!.bank[8]!.cycles.act == 0),
    (75, run0.stats[0]!.bank[9]!.cycles.act == 0),
    (75, run0.stats[0]!.bank[10]!.cycles.act == 0),
    (75, run0.stats[0]!.bank[11]!.cycles.act == 0),
    (75, run0.stats[0]!.bank[12]!.cycles.act == 0),
    (75, run0.stats[0]!.bank[13]!.cycles.act == 0),
    (75, run0.stats[0]!.bank[14]!.cycles.act == 0),
    (75, run0.stats[0]!.bank[15]!.cycles.act == 0),
    (78, run0.stats[0]!.bank[0]!.cycles.pre == 0),
    (80, run0.stats[0]!.bank[1]!.cycles.pre == 35),
    (80, run0.stats[0]!.bank[2]!.cycles.pre == 35),
    (80, run0.stats[0]!.bank[3]!.cycles.pre == 35),
    (80, run0.stats[0]!.bank[4]!.cycles.pre == 35),
    (80, run0.stats[0]!.bank[5]!.cycles.pre == 35),
    (80, run0.stats[0]!.bank[6]!.cycles.pre == 35),
    (80, run0.stats[0]!.bank[7]!.cycles.pre == 35),
    (80, run0.stats[0]!.bank[8]!.cycles.pre == 35),
    (80, run0.stats[0]!.bank[9]!.cycles.pre == 35),
    (80, run0.stats[0]!.bank[10]!.cycles.pre == 35),
    (80, run0.stats[0]!.bank[11]!.cycles.pre == 35),
    (80, run0.stats[0]!.bank[12]!.cycles.pre == 35),
    (80, run0.stats[0]!.bank[13]!.cycles.pre == 35),
    (80, run0.stats[0]!.bank[14]!.cycles.pre == 35),
    (80, run0.stats[0]!.bank[15]!.cycles.pre == 35)]

#guard failing checks == []

end lpddr6_1.Counters_and_Cycles

namespace lpddr6_1.Energy

def run0 : Log := run .lpddr6 (lpddr6) [
    .core { t := 0, type := .ACT },
    .core { t := 15, type := .RD },
    .core { t := 35, type := .PRE },
    .core { t := 35, type := .END_OF_SIMULATION },
    .coreEnergy 35]

def checks : List (Nat × Bool) := [
    (0, run0.ok),
    (92, (nearest (((run0.energies[0]!.aggregated.eAct : Rat) * 1000000000000) : Rat) : Rat) == 196),
    (93, (nearest (((run0.energies[0]!.aggregated.ePre : Rat) * 1000000000000) : Rat) : Rat) == 208),
    (94, (nearest (((run0.energies[0]!.aggregated.eRD : Rat) * 1000000000000) : Rat) : Rat) == 225),
    (95, (nearest (((run0.energies[0]!.aggregated.eBgAct : Rat) * 1000000000000) : Rat) : Rat) == 1131),
    (96, (nearest (((run0.energies[0]!.shared.bgActShared : Rat) * 1000000000000) : Rat) : Rat) == 1111),
    (97, (nearest (((run0.energies[0]!.aggregated.eBgPre : Rat) * 1000000000000) : Rat) : Rat) == 0),
    (98, (nearest (((run0.energies[0]!.aggregated.total : Rat) * 1000000000000) : Rat) : Rat) == 1760)]

#guard failing checks == []

end lpddr6_1.Energy

/-! ## tests/tests_drampower/core/LPDDR6/lpddr6_test_pattern_2.cpp -/

namespace lpddr6_2.Counters_and_Cycles

def run0 : Log := run .lpddr6 (lpddr6) [
    .core { t := 0, type := .ACT },
    .core { t := 15, type := .RD },
    .core { t := 35, type := .PRE },
    .core { t := 50, type := .END_OF_SIMULATION },
    .stats]

def checks : List (Nat × Bool) := [
    (0, run0.ok),
    (55, run0.stats[0]!.bank[0]!.counter.act == 1),
    (57, run0.stats[0]!.bank[1]!.counter.act == 0),
    (57, run0.stats[0]!.bank[2]!.counter.act == 0),
    (57, run0.stats[0]!.bank[3]!.counter.act == 0),
    (57, run0.stats[0]!.bank[4]!.counter.act == 0),
    (57, run0.stats[0]!.bank[5]!.counter.act == 0),
    (57, run0.stats[0]!.bank[6]!.counter.act == 0),
    (57, run0.stats[0]!.bank[7]!.counter.act == 0),
    (57, run0.stats[0]!.bank[8]!.counter.act == 0),
    (57, run0.stats[0]!.bank[9]!.counter.act == 0),
    (57, run0.stats[0]!.bank[10]!.counter.act == 0),
    (57, run0.stats[0]!.bank[11]!.counter.act == 0),
    (57, run0.stats[0]!.bank[12]!.counter.act == 0),
    (57, run0.stats[0]!.bank[13]!.counter.act == 0),
    (57, run0.stats[0]!.bank[14]!.counter.act == 0),
    (57, run0.stats[0]!.bank[15]!.counter.act == 0),
    (60, run0.stats[0]!.bank[0]!.counter.reads == 1),
    (62, run0.stats[0]!.bank[1]!.counter.reads == 0),
    (62, run0.stats[0]!.bank[2]!.counter.reads == 0),
    (62, run0.stats[0]!.bank[3]!.counter.reads == 0),
    (62, run0.stats[0]!.bank[4]!.counter.reads == 0),
    (62, run0.stats[0]!.bank[5]!.counter.reads == 0),
    (62, run0.stats[0]!.bank[6]!.counter.reads == 0),
    (62, run0.stats[0]!.bank[7]!.counter.reads == 0),
    (62, run0.stats[0]!.bank[8]!.counter.reads == 0),
    (62, run0.stats[0]!.bank[9]!.counter.reads == 0),
    (62, run0.stats[0]!.bank[10]!.counter.reads == 0),
    (62, run0.stats[0]!.bank[11]!.counter.reads == 0),
    (62, run0.stats[0]!.bank[12]!.counter.reads == 0),
    (62, run0.stats[0]!.bank[13]!.counter.reads == 0),
    (62, run0.stats[0]!.bank[14]!.counter.reads == 0),
    (62, run0.stats[0]!.bank[15]!.counter.reads == 0),
    (65, run0.stats[0]!.bank[0]!.counter.pre == 1),
    (67, run0.stats[0]!.bank[1]!.counter.pre == 0),
    (67, run0.stats[0]!.bank[2]!.counter.pre == 0),
    (67, run0.stats[0]!.bank[3]!.counter.pre == 0),
    (67, run0.stats[0]!.bank[4]!.counter.pre == 0),
    (67, run0.stats[0]!.bank[5]!.counter.pre == 0),
    (67, run0.stats[0]!.bank[6]!.counter.pre == 0),
    (67, run0.stats[0]!.bank[7]!.counter.pre == 0),
    (67, run0.stats[0]!.bank[8]!.counter.pre == 0),
    (67, run0.stats[0]!.bank[9]!.counter.pre == 0),
    (67, run0.stats[0]!.bank[10]!.counter.pre == 0),
    (67, run0.stats[0]!.bank[11]!.counter.pre == 0),
    (67, run0.stats[0]!.bank[12]!.counter.pre == 0),
    (67, run0.stats[0]!.bank[13]!.counter.pre == 0),
    (67, run0.stats[0]!.bank[14]!.counter.pre == 0),
    (67, run0.stats[0]!.bank[15]!.counter.pre == 0),
    (70, run0.stats[0]!.rankTotal[0]!.cycles.act == 35),
    (71, run0.stats[0]!.rankTotal[0]!.cycles.pre == 15),
    (74, run0.stats[0]!.bank[0]!.cycles.act == 35),
    (76, run0.stats[0]!.bank[1]!.cycles.act == 0),
    (76, run0.stats[0]!.bank[2]!.cycles.act == 0),
    (76, run0.stats[0]!.bank[3]!.cycles.act == 0),
    (76, run0.stats[0]!.bank[4]!.cycles.act == 0),
    (76, run0.stats[0]!.bank[5]!.cycles.act == 0),
    (76, run0.stats[0]!.bank[6]!.cycles.act == 0),
    (76, run0.stats[0]!.bank[7]!.cycles.act == 0),
    (76, run0.stats[0]!.bank[8]!.cycles.act == 0),
    (76, run0.stats[0]!.bank[9]!.cycles.act == 0),
    (76, run0.stats[0]!.bank[10]!.cycles.act == 0),
    (76, run0.stats[0]!.bank[11]!.cycles.act == 0),
    (76, run0.stats[0]!.bank[12]!.cycles.act == 0),
    (76, run0.stats[0]!.bank[13]!.cycles.act == 0),
    (76, run0.stats[0]!.bank[14]!.cycles.act == 0),
    (76, run0.stats[0]!.bank[15]!.cycles.act == 0),
    (79, run0.stats[0]!.bank[0]!.cycles.pre == 15),
    (81, run0.stats[0]!.bank[1]!.cycles.pre == 50),
    (81, run0.stats[0]!.bank[2]!.cycles.pre == 50),
    (81, run0.stats[0]!.bank[3]!.cycles.pre == 50),
    (81, run0.stats[0]!.bank[4]!.cycles.pre == 50),
    (81, run0.stats[0]!.bank[5]!.cycles.pre == 50),
    (81, run0.stats[0]!.bank[6]!.cycles.pre == 50),
    (81, run0.stats[0]!.bank[7]!.cycles.pre == 50),
    (81, run0.stats[0]!.bank[8]!.cycles.pre == 50),
    (81, run0.stats[0]!.bank[9]!.cycles.pre == 50),
    (81, run0.stats[0]!.bank[10]!.cycles.pre == 50),
    (81, run0.stats[0]!.bank[11]!.cycles.pre == 50),
    (81, run0.stats[0]!.bank[12]!.cycles.pre == 50),
    (81, run0.stats[0]!.bank[13]!.cycles.pre == 50),
    (81, run0.stats[0]!.bank[14]!.cycles.pre == 50),
    (81, run0.stats[0]!.bank[15]!.cycles.pre == 50)]

#guard failing checks == []

end lpddr6_2.Counters_and_Cycles

namespace lpddr6_2.Energy

def run0 : Log := run .lpddr6 (lpddr6) [
    .core { t := 0, type := .ACT },
    .core { t := 15, type := .RD },
    .core { t := 35, type := .PRE },
    .core { t := 50, type := .END_OF_SIMULATION },
    .coreEnergy 50]

def checks : List (Nat × Bool) := [
    (0, run0.ok),
    (92, (nearest (((run0.energies[0]!.aggregated.eAct : Rat) * 1000000000000) : Rat) : Rat) == 196),
    (93, (nearest (((run0.energies[0]!.aggregated.ePre : Rat) * 1000000000000) : Rat) : Rat) == 208),
    (94, (nearest (((run0.energies[0]!.aggregated.eRD : Rat) * 1000000000000) : Rat) : Rat) == 225),
    (95, (nearest (((run0.energies[0]!.aggregated.eBgAct : Rat) * 1000000000000) : Rat) : Rat) == 1131),
    (96, (nearest (((run0.energies[0]!.shared.bgActShared : Rat) * 1000000000000) : Rat) : Rat) == 1111),
    (97, (nearest (((run0.energies[0]!.aggregated.eBgPre : Rat) * 1000000000000) : Rat) : Rat) == 467),
    (98, (nearest (((run0.energies[0]!.aggregated.total : Rat) * 1000000000000) : Rat) : Rat) == 2227)]

#guard failing checks == []

end lpddr6_2.Energy

/-! ## tests/tests_drampower/core/LPDDR6/lpddr6_test_pattern_3.cpp -/

namespace lpddr6_3.Counters_and_Cycles

def run0 : Log := run .lpddr6 (lpddr6) [
    .core { t := 0, type := .ACT },
    .core { t := 15, type := .RD },
    .core { t := 20, type := .ACT, co := { bank := 3 } },
    .core { t := 35, type := .PRE },
    .core { t := 45, type := .PRE, co := { bank := 3 } },
    .core { t := 50, type := .END_OF_SIMULATION },
    .stats]

def checks : List (Nat × Bool) := [
    (0, run0.ok),
    (59, run0.stats[0]!.bank[0]!.counter.act == 1),
    (61, run0.stats[0]!.bank[1]!.counter.act == 0),
    (61, run0.stats[0]!.bank[2]!.counter.act == 0),
    (59, run0.stats[0]!.bank[3]!.counter.act == 1),
    (61, run0.stats[0]!.bank[4]!.counter.act == 0),
    (61, run0.stats[0]!.bank[5]!.counter.act == 0),
    (61, run0.stats[0]!.bank[6]!.counter.act == 0),
    (61, run0.stats[0]!.bank[7]!.counter.act == 0),
    (61, run0.stats[0]!.bank[8]!.counter.act == 0),
    (61, run0.stats[0]!.bank[9]!.counter.act == 0),
    (61, run0.stats[0]!.bank[10]!.counter.act == 0),
    (61, run0.stats[0]!.bank[11]!.counter.act == 0),
    (61, run0.stats[0]!.bank[12]!.counter.act == 0),
    (61, run0.stats[0]!.bank[13]!.counter.act == 0),
    (61, run0.stats[0]!.bank[14]!.counter.act == 0),
    (61, run0.stats[0]!.bank[15]!.counter.act == 0),
    (67, run0.stats[0]!.bank[0]!.counter.reads == 1),
    (69, run0.stats[0]!.bank[1]!.counter.reads == 0),
    (69, run0.stats[0]!.bank[2]!.counter.reads == 0),
    (69, run0.stats[0]!.bank[3]!.counter.reads == 0),
    (69, run0.stats[0]!.bank[4]!.counter.reads == 0),
    (69, run0.stats[0]!.bank[5]!.counter.reads == 0),
    (69, run0.stats[0]!.bank[6]!.counter.reads == 0),
    (69, run0.stats[0]!.bank[7]!.counter.reads == 0),
    (69, run0.stats[0]!.bank[8]!.counter.reads == 0),
    (69, run0.stats[0]!.bank[9]!.counter.reads == 0),
    (69, run0.stats[0]!.bank[10]!.counter.reads == 0),
    (69, run0.stats[0]!.bank[11]!.counter.reads == 0),
    (69, run0.stats[0]!.bank[12]!.counter.reads == 0),
    (69, run0.stats[0]!.bank[13]!.counter.reads == 0),
    (69, run0.stats[0]!.bank[14]!.counter.reads == 0),
    (69, run0.stats[0]!.bank[15]!.counter.reads == 0),
    (75, run0.stats[0]!.bank[0]!.counter.pre == 1),
    (77, run0.stats[0]!.bank[1]!.counter.pre == 0),
    (77, run0.stats[0]!.bank[2]!.counter.pre == 0),
    (75, run0.stats[0]!.bank[3]!.counter.pre == 1),
    (77, run0.stats[0]!.bank[4]!.counter.pre == 0),
    (77, run0.stats[0]!.bank[5]!.counter.pre == 0),
    (77, run0.stats[0]!.bank[6]!.counter.pre == 0),
    (77, run0.stats[0]!.bank[7]!.counter.pre == 0),
    (77, run0.stats[0]!.bank[8]!.counter.pre == 0),
    (77, run0.stats[0]!.bank[9]!.counter.pre == 0),
    (77, run0.stats[0]!.bank[10]!.counter.pre == 0),
    (77, run0.stats[0]!.bank[11]!.counter.pre == 0),
    (77, run0.stats[0]!.bank[12]!.counter.pre == 0),
    (77, run0.stats[0]!.bank[13]!.counter.pre == 0),
    (77, run0.stats[0]!.bank[14]!.counter.pre == 0),
    (77, run0.stats[0]!.bank[15]!.counter.pre == 0),
    (81, run0.stats[0]!.rankTotal[0]!.cycles.act == 45),
    (82, run0.stats[0]!.rankTotal[0]!.cycles.pre == 5),
    (87, run0.stats[0]!.bank[0]!.cycles.act == 35),
    (91, run0.stats[0]!.bank[1]!.cycles.act == 0),
    (91, run0.stats[0]!.bank[2]!.cycles.act == 0),
    (89, run0.stats[0]!.bank[3]!.cycles.act == 25),
    (91, run0.stats[0]!.bank[4]!.cycles.act == 0),
    (91, run0.stats[0]!.bank[5]!.cycles.act == 0),
    (91, run0.stats[0]!.bank[6]!.cycles.act == 0),
    (91, run0.stats[0]!.bank[7]!.cycles.act == 0),
    (91, run0.stats[0]!.bank[8]!.cycles.act == 0),
    (91, run0.stats[0]!.bank[9]!.cycles.act == 0),
    (91, run0.stats[0]!.bank[10]!.cycles.act == 0),
    (91, run0.stats[0]!.bank[11]!.cycles.act == 0),
    (91, run0.stats[0]!.bank[12]!.cycles.act == 0),
    (91, run0.stats[0]!.bank[13]!.cycles.act == 0),
    (91, run0.stats[0]!.bank[14]!.cycles.act == 0),
    (91, run0.stats[0]!.bank[15]!.cycles.act == 0),
    (101, run0.stats[0]!.bank[1]!.cycles.pre == 50),
    (101, run0.stats[0]!.bank[2]!.cycles.pre == 50),
    (99, run0.stats[0]!.bank[3]!.cycles.pre == 25),
    (101, run0.stats[0]!.bank[4]!.cycles.pre == 50),
    (101, run0.stats[0]!.bank[5]!.cycles.pre == 50),
    (101, run0.stats[0]!.bank[6]!.cycles.pre == 50),
    (101, run0.stats[0]!.bank[7]!.cycles.pre == 50),
    (101, run0.stats[0]!.bank[8]!.cycles.pre == 50),
    (101, run0.stats[0]!.bank[9]!.cycles.pre == 50),
    (101, run0.stats[0]!.bank[10]!.cycles.pre == 50),
    (101, run0.stats[0]!.bank[11]!.cycles.pre == 50),
    (101, run0.stats[0]!.bank[12]!.cycles.pre == 50),
    (101, run0.stats[0]!.bank[13]!.cycles.pre == 50),
    (101, run0.stats[0]!.bank[14]!.cycles.pre == 50),
    (101, run0.stats[0]!.bank[15]!.cycles.pre == 50)]

#guard failing checks == []

end lpddr6_3.Counters_and_Cycles

namespace lpddr6_3.Energy

def run0 : Log := run .lpddr6 (lpddr6) [
    .core { t := 0, type := .ACT },
    .core { t := 15, type := .RD },
    .core { t := 20, type := .ACT, co := { bank := 3 } },
    .core { t := 35, type := .PRE },
    .core { t := 45, type := .PRE, co := { bank := 3 } },
    .core { t := 50, type := .END_OF_SIMULATION },
    .coreEnergy 50]

def checks : List (Nat × Bool) := [
    (0, run0.ok),
    (113, (nearest (((run0.energies[0]!.aggregated.eAct : Rat) * 1000000000000) : Rat) : Rat) == 392),
    (114, (nearest (((run0.energies[0]!.aggregated.ePre : Rat) * 1000000000000) : Rat) : Rat) == 415),
    (115, (nearest (((run0.energies[0]!.aggregated.eRD : Rat) * 1000000000000) : Rat) : Rat) == 225),
    (116, (nearest (((run0.energies[0]!.aggregated.eBgAct : Rat) * 1000000000000) : Rat) : Rat) == 1462),
    (117, (nearest (((run0.energies[0]!.shared.bgActShared : Rat) * 1000000000000) : Rat) : Rat) == 1428),
    (118, (nearest (((run0.energies[0]!.aggregated.eBgPre : Rat) * 1000000000000) : Rat) : Rat) == 156),
    (119, (nearest (((run0.energies[0]!.aggregated.total : Rat) * 1000000000000) : Rat) : Rat) == 2651)]

#guard failing checks == []

end lpddr6_3.Energy

/-! ## tests/tests_drampower/core/LPDDR6/lpddr6_test_pattern_4.cpp -/

namespace lpddr6_4.Counters_and_Cycles

def run0 : Log := run .lpddr6 (lpddr6) [
    .core { t := 0, type := .ACT },
    .core { t := 15, type := .RD },
    .core { t := 20, type := .ACT, co := { bank := 3 } },
    .core { t := 35, type := .RD, co := { bank := 3 } },
    .core { t := 40, type := .RD },
    .core { t := 50, type := .PREA },
    .core { t := 70, type := .END_OF_SIMULATION },
    .stats]

def checks : List (Nat × Bool) := [
    (0, run0.ok),
    (60, run0.stats[0]!.bank[0]!.counter.act == 1),
    (62, run0.stats[0]!.bank[1]!.counter.act == 0),
    (62, run0.stats[0]!.bank[2]!.counter.act == 0),
    (60, run0.stats[0]!.bank[3]!.counter.act == 1),
    (62, run0.stats[0]!.bank[4]!.counter.act == 0),
    (62, run0.stats[0]!.bank[5]!.counter.act == 0),
    (62, run0.stats[0]!.bank[6]!.counter.act == 0),
    (62, run0.stats[0]!.bank[7]!.counter.act == 0),
    (62, run0.stats[0]!.bank[8]!.counter.act == 0),
    (62, run0.stats[0]!.bank[9]!.counter.act == 0),
    (62, run0.stats[0]!.bank[10]!.counter.act == 0),
    (62, run0.stats[0]!.bank[11]!.counter.act == 0),
    (62, run0.stats[0]!.bank[12]!.counter.act == 0),
    (62, run0.stats[0]!.bank[13]!.counter.act == 0),
    (62, run0.stats[0]!.bank[14]!.counter.act == 0),
    (62, run0.stats[0]!.bank[15]!.counter.act == 0),
    (68, run0.stats[0]!.bank[0]!.counter.reads == 2),
    (72, run0.stats[0]!.bank[1]!.counter.reads == 0),
    (72, run0.stats[0]!.bank[2]!.counter.reads == 0),
    (70, run0.stats[0]!.bank[3]!.counter.reads == 1),
    (72, run0.stats[0]!.bank[4]!.counter.reads == 0),
    (72, run0.stats[0]!.bank[5]!.counter.reads == 0),
    (72, run0.stats[0]!.bank[6]!.counter.reads == 0),
    (72, run0.stats[0]!.bank[7]!.counter.reads == 0),
    (72, run0.stats[0]!.bank[8]!.counter.reads == 0),
    (72, run0.stats[0]!.bank[9]!.counter.reads == 0),
    (72, run0.stats[0]!.bank[10]!.counter.reads == 0),
    (72, run0.stats[0]!.bank[11]!.counter.reads == 0),
    (72, run0.stats[0]!.bank[12]!.counter.reads == 0),
    (72, run0.stats[0]!.bank[13]!.counter.reads == 0),
    (72, run0.stats[0]!.bank[14]!.counter.reads == 0),
    (72, run0.stats[0]!.bank[15]!.counter.reads == 0),
    (78, run0.stats[0]!.bank[0]!.counter.pre == 1),
    (80, run0.stats[0]!.bank[1]!.counter.pre == 0),
    (80, run0.stats[0]!.bank[2]!.counter.pre == 0),
    (78, run0.stats[0]!.bank[3]!.counter.pre == 1),
    (80, run0.stats[0]!.bank[4]!.counter.pre == 0),
    (80, run0.stats[0]!.bank[5]!.counter.pre == 0),
    (80, run0.stats[0]!.bank[6]!.counter.pre == 0),
    (80, run0.stats[0]!.bank[7]!.counter.pre == 0),
    (80, run0.stats[0]!.bank[8]!.counter.pre == 0),
    (80, run0.stats[0]!.bank[9]!.counter.pre == 0),
    (80, run0.stats[0]!.bank[10]!.counter.pre == 0),
    (80, run0.stats[0]!.bank[11]!.counter.pre == 0),
    (80, run0.stats[0]!.bank[12]!.counter.pre == 0),
    (80, run0.stats[0]!.bank[13]!.counter.pre == 0),
    (80, run0.stats[0]!.bank[14]!.counter.pre == 0),
    (80, run0.stats[0]!.bank[15]!.counter.pre == 0),
    (84, run0.stats[0]!.rankTotal[0]!.cycles.act == 50),
    (85, run0.stats[0]!.rankTotal[0]!.cycles.pre == 20),
    (90, run0.stats[0]!.bank[0]!.cycles.act == 50),
    (94, run0.stats[0]!.bank[1]!.cycles.act == 0),
    (94, run0.stats[0]!.bank[2]!.cycles.act == 0),
    (92, run0.stats[0]!.bank[3]!.cycles.act == 30),
    (94, run0.stats[0]!.bank[4]!.cycles.act == 0),
    (94, run0.stats[0]!.bank[5]!.cycles.act == 0),
    (94, run0.stats[0]!.bank[6]!.cycles.act == 0),
    (94, run0.stats[0]!.bank[7]!.cycles.act == 0),
    (94, run0.stats[0]!.bank[8]!.cycles.act == 0),
    (94, run0.stats[0]!.bank[9]!.cycles.act == 0),
    (94, run0.stats[0]!.bank[10]!.cycles.act == 0),
    (94, run0.stats[0]!.bank[11]!.cycles.act == 0),
    (94, run0.stats[0]!.bank[12]!.cycles.act == 0),
    (94, run0.stats[0]!.bank[13]!.cycles.act == 0),
    (94, run0.stats[0]!.bank[14]!.cycles.act == 0),
    (94, run0.stats[0]!.bank[15]!.cycles.act == 0),
    (104, run0.stats[0]!.bank[1]!.cycles.pre == 70),
    (104, run0.stats[0]!.bank[2]!.cycles.pre == 70),
    (102, run0.stats[0]!.bank[3]!.cycles.pre == 40),
    (104, run0.stats[0]!.bank[4]!.cycles.pre == 70),
    (104, run0.stats[0]!.bank[5]!.cycles.pre == 70),
    (104, run0.stats[0]!.bank[6]!.cycles.pre == 70),
    (104, run0.stats[0]!.bank[7]!.cycles.pre == 70),
    (104, run0.stats[0]!.bank[8]!.cycles.pre == 70),
    (104, run0.stats[0]!.bank[9]!.cycles.pre == 70),
    (104, run0.stats[0]!.bank[10]!.cycles.pre == 70),
    (104, run0.stats[0]!.bank[11]!.cycles.pre == 70),
    (104, run0.stats[0]!.bank[12]!.cycles.pre == 70),
    (104, run0.stats[0]!.bank[13]!.cycles.pre == 70),
    (104, run0.stats[0]!.bank[14]!.cycles.pre == 70),
    (104, run0.stats[0]!.bank[15]!.cycles.pre == 70)]

#guard failing checks == []

end lpddr6_4.Counters_and_Cycles

namespace lpddr6_4.Energy

def run0 : Log := run .lpddr6 (lpddr6) [
    .core { t := 0, type := .ACT },
    .core { t := 15, type := .RD },
    .core { t := 20, type := .ACT, co := { bank := 3 } },
    .core { t := 35, type := .RD, co := { bank := 3 } },
    .core { t := 40, type := .RD },
    .core { t := 50, type := .PREA },
    .core { t := 70, type := .END_OF_SIMULATION },
    .coreEnergy 70]

def checks : List (Nat × Bool) := [
    (0, run0.ok),
    (116, (nearest (((run0.energies[0]!.aggregated.eAct : Rat) * 1000000000000) : Rat) : Rat) == 392),
    (117, (nearest (((run0.energies[0]!.aggregated.ePre : Rat) * 1000000000000) : Rat) : Rat) == 415),
    (118, (nearest (((run0.energies[0]!.aggregated.eRD : Rat) * 1000000000000) : Rat) : Rat) == 675),
    (119, (nearest (((run0.energies[0]!.aggregated.eBgAct : Rat) * 1000000000000) : Rat) : Rat) == 1633),
    (120, (nearest (((run0.energies[0]!.shared.bgActShared : Rat) * 1000000000000) : Rat) : Rat) == 1587),
    (121, (nearest (((run0.energies[0]!.aggregated.eBgPre : Rat) * 1000000000000) : Rat) : Rat) == 623),
    (122, (nearest (((run0.energies[0]!.aggregated.total : Rat) * 1000000000000) : Rat) : Rat) == 3738)]

#guard failing checks == []

end lpddr6_4.Energy

/-! ## tests/tests_drampower/core/LPDDR6/lpddr6_test_pattern_5.cpp -/

namespace lpddr6_5.Counters_and_Cycles

def run0 : Log := run .lpddr6 (lpddr6) [
    .core { t := 0, type := .ACT },
    .core { t := 15, type := .RD },
    .core { t := 20, type := .ACT, co := { bank := 3 } },
    .core { t := 35, type := .RD, co := { bank := 3 } },
    .core { t := 40, type := .RD },
    .core { t := 50, type := .PREA },
    .core { t := 65, type := .REFA },
    .core { t := 100, type := .END_OF_SIMULATION },
    .stats]

def checks : List (Nat × Bool) := [
    (0, run0.ok),
    (61, run0.stats[0]!.bank[0]!.counter.act == 1),
    (63, run0.stats[0]!.bank[1]!.counter.act == 0),
    (63, run0.stats[0]!.bank[2]!.counter.act == 0),
    (61, run0.stats[0]!.bank[3]!.counter.act == 1),
    (63, run0.stats[0]!.bank[4]!.counter.act == 0),
    (63, run0.stats[0]!.bank[5]!.counter.act == 0),
    (63, run0.stats[0]!.bank[6]!.counter.act == 0),
    (63, run0.stats[0]!.bank[7]!.counter.act == 0),
    (63, run0.stats[0]!.bank[8]!.counter.act == 0),
    (63, run0.stats[0]!.bank[9]!.counter.act == 0),
    (63, run0.stats[0]!.bank[10]!.counter.act == 0),
    (63, run0.stats[0]!.bank[11]!.counter.act == 0),
    (63, run0.stats[0]!.bank[12]!.counter.act == 0),
    (63, run0.stats[0]!.bank[13]!.counter.act == 0),
    (63, run0.stats[0]!.bank[14]!.counter.act == 0),
    (63, run0.stats[0]!.bank[15]!.counter.act == 0),
    (69, run0.stats[0]!.bank[0]!.counter.reads == 2),
    (73, run0.stats[0]!.bank[1]!.counter.reads == 0),
    (73, run0.stats[0]!.bank[2]!.counter.reads == 0),
    (71, run0.stats[0]!.bank[3]!.counter.reads == 1),
    (73, run0.stats[0]!.bank[4]!.counter.reads == 0),
    (73, run0.stats[0]!.bank[5]!.counter.reads == 0),
    (73, run0.stats[0]!.bank[6]!.counter.reads == 0),
    (73, run0.stats[0]!.bank[7]!.counter.reads == 0),
    (73, run0.stats[0]!.bank[8]!.counter.reads == 0),
    (73, run0.stats[0]!.bank[9]!.counter.reads == 0),
    (73, run0.stats[0]!.bank[10]!.counter.reads == 0),
    (73, run0.stats[0]!.bank[11]!.counter.reads == 0),
    (73, run0.stats[0]!.bank[12]!.counter.reads == 0),
    (73, run0.stats[0]!.bank[13]!.counter.reads == 0),
    (73, run0.stats[0]!.bank[14]!.counter.reads == 0),
    (73, run0.stats[0]!.bank[15]!.counter.reads == 0),
    (79, run0.stats[0]!.bank[0]!.counter.pre == 1),
    (81, run0.stats[0]!.bank[1]!.counter.pre == 0),
    (81, run0.stats[0]!.bank[2]!.counter.pre == 0),
    (79, run0.stats[0]!.bank[3]!.counter.pre == 1),
    (81, run0.stats[0]!.bank[4]!.counter.pre == 0),
    (81, run0.stats[0]!.bank[5]!.counter.pre == 0),
    (81, run0.stats[0]!.bank[6]!.counter.pre == 0),
    (81, run0.stats[0]!.bank[7]!.counter.pre == 0),
    (81, run0.stats[0]!.bank[8]!.counter.pre == 0),
    (81, run0.stats[0]!.bank[9]!.counter.pre == 0),
    (81, run0.stats[0]!.bank[10]!.counter.pre == 0),
    (81, run0.stats[0]!.bank[11]!.counter.pre == 0),
    (81, run0.stats[0]!.bank[12]!.counter.pre == 0),
    (81, run0.stats[0]!.bank[13]!.counter.pre == 0),
    (81, run0.stats[0]!.bank[14]!.counter.pre == 0),
    (81, run0.stats[0]!.bank[15]!.counter.pre == 0),
    (86, run0.stats[0]!.bank[0]!.counter.refAllBank == 1),
    (86, run0.stats[0]!.bank[1]!.counter.refAllBank == 1),
    (86, run0.stats[0]!.bank[2]!.counter.refAllBank == 1),
    (86, run0.stats[0]!.bank[3]!.counter.refAllBank == 1),
    (86, run0.stats[0]!.bank[4]!.counter.refAllBank == 1),
    (86, run0.stats[0]!.bank[5]!.counter.refAllBank == 1),
    (86, run0.stats[0]!.bank[6]!.counter.refAllBank == 1),
    (86, run0.stats[0]!.bank[7]!.counter.refAllBank == 1),
    (86, run0.stats[0]!.bank[8]!.counter.refAllBank == 1),
    (86, run0.stats[0]!.bank[9]!.counter.refAllBank == 1),
    (86, run0.stats[0]!.bank[10]!.counter.refAllBank == 1),
    (86, run0.stats[0]!.bank[11]!.counter.refAllBank == 1),
    (86, run0.stats[0]!.bank[12]!.counter.refAllBank == 1),
    (86, run0.stats[0]!.bank[13]!.counter.refAllBank == 1),
    (86, run0.stats[0]!.bank[14]!.counter.refAllBank == 1),
    (86, run0.stats[0]!.bank[15]!.counter.refAllBank == 1),
    (90, run0.stats[0]!.rankTotal[0]!.cycles.act == 75),
    (91, run0.stats[0]!.rankTotal[0]!.cycles.pre == 25),
    (96, run0.stats[0]!.bank[0]!.cycles.act == 75),
    (100, run0.stats[0]!.bank[1]!.cycles.act == 25),
    (100, run0.stats[0]!.bank[2]!.cycles.act == 25),
    (98, run0.stats[0]!.bank[3]!.cycles.act == 55),
    (100, run0.stats[0]!.bank[4]!.cycles.act == 25),
    (100, run0.stats[0]!.bank[5]!.cycles.act == 25),
    (100, run0.stats[0]!.bank[6]!.cycles.act == 25),
    (100, run0.stats[0]!.bank[7]!.cycles.act == 25),
    (100, run0.stats[0]!.bank[8]!.cycles.act == 25),
    (100, run0.stats[0]!.bank[9]!.cycles.act == 25),
    (100, run0.stats[0]!.bank[10]!.cycles.act == 25),
    (100, run0.stats[0]!.bank[11]!.cycles.act == 25),
    (100, run0.stats[0]!.bank[12]!.cycles.act == 25),
    (100, run0.stats[0]!.bank[13]!.cycles.act == 25),
    (100, run0.stats[0]!.bank[14]!.cycles.act == 25),
    (100, run0.stats[0]!.bank[15]!.cycles.act == 25),
    (110, run0.stats[0]!.bank[1]!.cycles.pre == 75),
    (110, run0.stats[0]!.bank[2]!.cycles.pre == 75),
    (108, run0.stats[0]!.bank[3]!.cycles.pre == 45),
    (110, run0.stats[0]!.bank[4]!.cycles.pre == 75),
    (110, run0.stats[0]!.bank[5]!.cycles.pre == 75),
    (110, run0.stats[0]!.bank[6]!.cycles.pre == 75),
    (110, run0.stats[0]!.bank[7]!.cycles.pre == 75),
    (110, run0.stats[0]!.bank[8]!.cycles.pre == 75),
    (110, run0.stats[0]!.bank[9]!.cycles.pre == 75),
    (110, run0.stats[0]!.bank[10]!.cycles.pre == 75),
    (110, run0.stats[0]!.bank[11]!.cycles.pre == 75),
    (110, run0.stats[0]!.bank[12]!.cycles.pre == 75),
    (110, run0.stats[0]!.bank[13]!.cycles.pre == 75),
    (110, run0.stats[0]!.bank[14]!.cycles.pre == 75),
    (110, run0.stats[0]!.bank[15]!.cycles.pre == 75)]

#guard failing checks == []

end lpddr6_5.Counters_and_Cycles

namespace lpddr6_5.Energy

def run0 : Log := run .lpddr6 (lpddr6) [
    .core { t := 0, type := .ACT },
    .core { t := 15, type := .RD },
    .core { t := 20, type := .ACT, co := { bank := 3 } },
    .core { t := 35, type := .RD, co := { bank := 3 } },
    .core { t := 40, type := .RD },
    .core { t := 50, type := .PREA },
    .core { t := 65, type := .REFA },
    .core { t := 100, type := .END_OF_SIMULATION },
    .coreEnergy 100]

def checks : List (Nat × Bool) := [
    (0, run0.ok),
    (122, (nearest (((run0.energies[0]!.aggregated.eAct : Rat) * 1000000000000) : Rat) : Rat) == 392),
    (123, (nearest (((run0.energies[0]!.aggregated.ePre : Rat) * 1000000000000) : Rat) : Rat) == 415),
    (124, (nearest (((run0.energies[0]!.aggregated.eRD : Rat) * 1000000000000) : Rat) : Rat) == 675),
    (125, (nearest (((run0.energies[0]!.aggregated.eRefAB : Rat) * 1000000000000) : Rat) : Rat) == 1699),
    (126, (nearest (((run0.energies[0]!.aggregated.eRefSB : Rat) * 1000000000000) : Rat) : Rat) == 0),
    (127, (nearest (((run0.energies[0]!.aggregated.eRefPB : Rat) * 1000000000000) : Rat) : Rat) == 0),
    (128, (nearest (((run0.energies[0]!.aggregated.eRef2B : Rat) * 1000000000000) : Rat) : Rat) == 0),
    (129, (nearest (((run0.energies[0]!.aggregated.eBgAct : Rat) * 1000000000000) : Rat) : Rat) == 2657),
    (130, (nearest (((run0.energies[0]!.shared.bgActShared : Rat) * 1000000000000) : Rat) : Rat) == 2380),
    (131, (nearest (((run0.energies[0]!.aggregated.eBgPre : Rat) * 1000000000000) : Rat) : Rat) == 779),
    (132, (nearest (((run0.energies[0]!.aggregated.total : Rat) * 1000000000000) : Rat) : Rat) == 6617)]

#guard failing checks == []

end lpddr6_5.Energy

/-! ## tests/tests_drampower/core/LPDDR6/lpddr6_test_pattern_6.cpp -/

namespace lpddr6_6.Counters_and_Cycles

def run0 : Log := run .lpddr6 (lpddr6) [
    .core { t := 0, type := .ACT },
    .core { t := 15, type := .RDA },
    .core { t := 20, type := .ACT, co := { bank := 3 } },
    .core { t := 35, type := .RD, co := { bank := 3 } },
    .core { t := 50, type := .PREA },
    .core { t := 65, type := .REFA },
    .core { t := 100, type := .END_OF_SIMULATION },
    .stats]

def checks : List (Nat × Bool) := [
    (0, run0.ok),
    (60, run0.stats[0]!.bank[0]!.counter.act == 1),
    (62, run0.stats[0]!.bank[1]!.counter.act == 0),
    (62, run0.stats[0]!.bank[2]!.counter.act == 0),
    (60, run0.stats[0]!.bank[3]!.counter.act == 1),
    (62, run0.stats[0]!.bank[4]!.counter.act == 0),
    (62, run0.stats[0]!.bank[5]!.counter.act == 0),
    (62, run0.stats[0]!.bank[6]!.counter.act == 0),
    (62, run0.stats[0]!.bank[7]!.counter.act == 0),
    (62, run0.stats[0]!.bank[8]!.counter.act == 0),
    (62, run0.stats[0]!.bank[9]!.counter.act == 0),
    (62, run0.stats[0]!.bank[10]!.counter.act == 0),
    (62, run0.stats[0]!.bank[11]!.counter.act == 0),
    (62, run0.stats[0]!.bank[12]!.counter.act == 0),
    (62, run0.stats[0]!.bank[13]!.counter.act == 0),
    (62, run0.stats[0]!.bank[14]!.counter.act == 0),
    (62, run0.stats[0]!.bank[15]!.counter.act == 0),
    (70, run0.stats[0]!.bank[0]!.counter.reads == 0),
    (70, run0.stats[0]!.bank[1]!.counter.reads == 0),
    (70, run0.stats[0]!.bank[2]!.counter.reads == 0),
    (68, run0.stats[0]!.bank[3]!.counter.reads == 1),
    (70, run0.stats[0]!.bank[4]!.counter.reads == 0),
    (70, run0.stats[0]!.bank[5]!.counter.reads == 0),
    (70, run0.stats[0]!.bank[6]!.counter.reads == 0),
    (70, run0.stats[0]!.bank[7]!.counter.reads == 0),
    (70, run0.stats[0]!.bank[8]!.counter.reads == 0),
    (70, run0.stats[0]!.bank[9]!.counter.reads == 0),
    (70, run0.stats[0]!.bank[10]!.counter.reads == 0),
    (70, run0.stats[0]!.bank[11]!.counter.reads == 0),
    (70, run0.stats[0]!.bank[12]!.counter.reads == 0),
    (70, run0.stats[0]!.bank[13]!.counter.reads == 0),
    (70, run0.stats[0]!.bank[14]!.counter.reads == 0),
    (70, run0.stats[0]!.bank[15]!.counter.reads == 0),
    (75, run0.stats[0]!.bank[0]!.counter.readAuto == 1),
    (77, run0.stats[0]!.bank[1]!.counter.readAuto == 0),
    (77, run0.stats[0]!.bank[2]!.counter.readAuto == 0),
    (77, run0.stats[0]!.bank[3]!.counter.readAuto == 0),
    (77, run0.stats[0]!.bank[4]!.counter.readAuto == 0),
    (77, run0.stats[0]!.bank[5]!.counter.readAuto == 0),
    (77, run0.stats[0]!.bank[6]!.counter.readAuto == 0),
    (77, run0.stats[0]!.bank[7]!.counter.readAuto == 0),
    (77, run0.stats[0]!.bank[8]!.counter.readAuto == 0),
    (77, run0.stats[0]!.bank[9]!.counter.readAuto == 0),
    (77, run0.stats[0]!.bank[10]!.counter.readAuto == 0),
    (77, run0.stats[0]!.bank[11]!.counter.readAuto == 0),
    (77, run0.stats[0]!.bank[12]!.counter.readAuto == 0),
    (77, run0.stats[0]!.bank[13]!.counter.readAuto == 0),
    (77, run0.stats[0]!.bank[14]!.counter.readAuto == 0),
    (77, run0.stats[0]!.bank[15]!.counter.readAuto == 0),
    (83, run0.stats[0]!.bank[0]!.counter.pre == 1),
    (85, run0.stats[0]!.bank[1]!.counter.pre == 0),
    (85, run0.stats[0]!.bank[2]!.counter.pre == 0),
    (83, run0.stats[0]!.bank[3]!.counter.pre == 1),
    (85, run0.stats[0]!.bank[4]!.counter.pre == 0),
    (85, run0.stats[0]!.bank[5]!.counter.pre == 0),
    (85, run0.stats[0]!.bank[6]!.counter.pre == 0),
    (85, run0.stats[0]!.bank[7]!.counter.pre == 0),
    (85, run0.stats[0]!.bank[8]!.counter.pre == 0),
    (85, run0.stats[0]!.bank[9]!.counter.pre == 0),
    (85, run0.stats[0]!.bank[10]!.counter.pre == 0),
    (85, run0.stats[0]!.bank[11]!.counter.pre == 0),
    (85, run0.stats[0]!.bank[12]!.counter.pre == 0),
    (85, run0.stats[0]!.bank[13]!.counter.pre == 0),
    (85, run0.stats[0]!.bank[14]!.counter.pre == 0),
    (85, run0.stats[0]!.bank[15]!.counter.pre == 0),
    (90, run0.stats[0]!.bank[0]!.counter.refAllBank == 1),
    (90, run0.stats[0]!.bank[1]!.counter.refAllBank == 1),
    (90, run0.stats[0]!.bank[2]!.counter.refAllBank == 1),
    (90, run0.stats[0]!.bank[3]!.counter.refAllBank == 1),
    (90, run0.stats[0]!.bank[4]!.counter.refAllBank == 1),
    (90, run0.stats[0]!.bank[5]!.counter.refAllBank == 1),
    (90, run0.stats[0]!.bank[6]!.counter.refAllBank == 1),
    (90, run0.stats[0]!.bank[7]!.counter.refAllBank == 1),
    (90, run0.stats[0]!.bank[8]!.counter.refAllBank == 1),
    (90, run0.stats[0]!.bank[9]!.counter.refAllBank == 1),
    (90, run0.stats[0]!.bank[10]!.counter.refAllBank == 1),
    (90, run0.stats[0]!.bank[11]!.counter.refAllBank == 1),
    (90, run0.stats[0]!.bank[12]!.counter.refAllBank == 1),
    (90, run0.stats[0]!.bank[13]!.counter.refAllBank == 1),
    (90, run0.stats[0]!.bank[14]!.counter.refAllBank == 1),
    (90, run0.stats[0]!.bank[15]!.counter.refAllBank == 1),
    (94, run0.stats[0]!.rankTotal[0]!.cycles.act == 75),
    (95, run0.stats[0]!.rankTotal[0]!.cycles.pre == 25),
    (100, run0.stats[0]!.bank[0]!.cycles.act == 45),
    (104, run0.stats[0]!.bank[1]!.cycles.act == 25),
    (104, run0.stats[0]!.bank[2]!.cycles.act == 25),
    (102, run0.stats[0]!.bank[3]!.cycles.act == 55),
    (104, run0.stats[0]!.bank[4]!.cycles.act == 25),
    (104, run0.stats[0]!.bank[5]!.cycles.act == 25),
    (104, run0.stats[0]!.bank[6]!.cycles.act == 25),
    (104, run0.stats[0]!.bank[7]!.cycles.act == 25),
    (104, run0.stats[0]!.bank[8]!.cycles.act == 25),
    (104, run0.stats[0]!.bank[9]!.cycles.act == 25),
    (104, run0.stats[0]!.bank[10]!.cycles.act == 25),
    (104, run0.stats[0]!.bank[11]!.cycles.act == 25),
    (104, run0.stats[0]!.bank[12]!.cycles.act == 25),
    (104, run0.stats[0]!.bank[13]!.cycles.act == 25),
    (104, run0.stats[0]!.bank[14]!.cycles.act == 25),
    (104, run0.stats[0]!.bank[15]!.cycles.act == 25),
    (114, run0.stats[0]!.bank[1]!.cycles.pre == 75),
    (114, run0.stats[0]!.bank[2]!.cycles.pre == 75),
    (112, run0.stats[0]!.bank[3]!.cycles.pre == 45),
    (114, run0.stats[0]!.bank[4]!.cycles.pre == 75),
    (114, run0.stats[0]!.bank[5]!.cycles.pre == 75),
    (114, run0.stats[0]!.bank[6]!.cycles.pre == 75),
    (114, run0.stats[0]!.bank[7]!.cycles.pre == 75),
    (114, run0.stats[0]!.bank[8]!.cycles.pre == 75),
    (114, run0.stats[0]!.bank[9]!.cycles.pre == 75),
    (114, run0.stats[0]!.bank[10]!.cycles.pre == 75),
    (114, run0.stats[0]!.bank[11]!.cycles.pre == 75),
    (114, run0.stats[0]!.bank[12]!.cycles.pre == 75),
    (114, run0.stats[0]!.bank[13]!.cycles.pre == 75),
    (114, run0.stats[0]!.bank[14]!.cycles.pre == 75),
    (114, run0.stats[0]!.bank[15]!.cycles.pre == 75)]

#guard failing checks == []

end lpddr6_6.Counters_and_Cycles

namespace lpddr6_6.Energy

def run0 : Log := run .lpddr6 (lpddr6) [
    .core { t := 0, type := .ACT },
    .core { t := 15, type := .RDA },
    .core { t := 20, type := .ACT, co := { bank := 3 } },
    .core { t := 35, type := .RD, co := { bank := 3 } },
    .core { t := 50, type := .PREA },
    .core { t := 65, type := .REFA },
    .core { t := 100, type := .END_OF_SIMULATION },
    .coreEnergy 100]

def checks : List (Nat × Bool) := [
    (0, run0.ok),
    (126, (nearest (((run0.energies[0]!.aggregated.eAct : Rat) * 1000000000000) : Rat) : Rat) == 392),
    (127, (nearest (((run0.energies[0]!.aggregated.ePre : Rat) * 1000000000000) : Rat) : Rat) == 415),
    (128, (nearest (((run0.energies[0]!.aggregated.eRD : Rat) * 1000000000000) : Rat) : Rat) == 225),
    (129, (nearest (((run0.energies[0]!.aggregated.eRDA : Rat) * 1000000000000) : Rat) : Rat) == 225),
    (130, (nearest (((run0.energies[0]!.aggregated.eRefAB : Rat) * 1000000000000) : Rat) : Rat) == 1699),
    (131, (nearest (((run0.energies[0]!.aggregated.eRefSB : Rat) * 1000000000000) : Rat) : Rat) == 0),
    (132, (nearest (((run0.energies[0]!.aggregated.eRef2B : Rat) * 1000000000000) : Rat) : Rat) == 0),
    (133, (nearest (((run0.energies[0]!.aggregated.eBgAct : Rat) * 1000000000000) : Rat) : Rat) == 2639),
    (134, (nearest (((run0.energies[0]!.shared.bgActShared : Rat) * 1000000000000) : Rat) : Rat) == 2380),
    (135, (nearest (((run0.energies[0]!.aggregated.eBgPre : Rat) * 1000000000000) : Rat) : Rat) == 779),
    (136, (nearest (((run0.energies[0]!.aggregated.total : Rat) * 1000000000000) : Rat) : Rat) == 6375)]

#guard failing checks == []

end lpddr6_6.Energy

/-! ## tests/tests_drampower/core/LPDDR6/lpddr6_test_pattern_7.cpp -/

namespace lpddr6_7.Counters_and_Cycles

def run0 : Log := run .lpddr6 (lpddr6) [
    .core { t := 0, type := .SREFEN },
    .core { t := 40, type := .SREFEX },
    .core { t := 100, type := .END_OF_SIMULATION },
    .stats]

def checks : List (Nat × Bool) := [
    (0, run0.ok),
    (54, run0.stats[0]!.bank[0]!.counter.act == 0),
    (54, run0.stats[0]!.bank[1]!.counter.act == 0),
    (54, run0.stats[0]!.bank[2]!.counter.act == 0),
    (54, run0.stats[0]!.bank[3]!.counter.act == 0),
    (54, run0.stats[0]!.bank[4]!.counter.act == 0),
    (54, run0.stats[0]!.bank[5]!.counter.act == 0),
    (54, run0.stats[0]!.bank[6]!.counter.act == 0),
    (54, run0.stats[0]!.bank[7]!.counter.act == 0),
    (54, run0.stats[0]!.bank[8]!.counter.act == 0),
    (54, run0.stats[0]!.bank[9]!.counter.act == 0),
    (54, run0.stats[0]!.bank[10]!.counter.act == 0),
    (54, run0.stats[0]!.bank[11]!.counter.act == 0),
    (54, run0.stats[0]!.bank[12]!.counter.act == 0),
    (54, run0.stats[0]!.bank[13]!.counter.act == 0),
    (54, run0.stats[0]!.bank[14]!.counter.act == 0),
    (54, run0.stats[0]!.bank[15]!.counter.act == 0),
    (57, run0.stats[0]!.bank[0]!.counter.refAllBank == 1),
    (57, run0.stats[0]!.bank[1]!.counter.refAllBank == 1),
    (57, run0.stats[0]!.bank[2]!.counter.refAllBank == 1),
    (57, run0.stats[0]!.bank[3]!.counter.refAllBank == 1),
    (57, run0.stats[0]!.bank[4]!.counter.refAllBank == 1),
    (57, run0.stats[0]!.bank[5]!.counter.refAllBank == 1),
    (57, run0.stats[0]!.bank[6]!.counter.refAllBank == 1),
    (57, run0.stats[0]!.bank[7]!.counter.refAllBank == 1),
    (57, run0.stats[0]!.bank[8]!.counter.refAllBank == 1),
    (57, run0.stats[0]!.bank[9]!.counter.refAllBank == 1),
    (57, run0.stats[0]!.bank[10]!.counter.refAllBank == 1),
    (57, run0.stats[0]!.bank[11]!.counter.refAllBank == 1),
    (57, run0.stats[0]!.bank[12]!.counter.refAllBank == 1),
    (57, run0.stats[0]!.bank[13]!.counter.refAllBank == 1),
    (57, run0.stats[0]!.bank[14]!.counter.refAllBank == 1),
    (57, run0.stats[0]!.bank[15]!.counter.refAllBank == 1),
    (61, run0.stats[0]!.rankTotal[0]!.cycles.act == 25),
    (62, run0.stats[0]!.rankTotal[0]!.cycles.pre == 60),
    (63, run0.stats[0]!.rankTotal[0]!.cycles.selfRefresh == 15),
    (66, run0.stats[0]!.bank[0]!.cycles.act == 25),
    (66, run0.stats[0]!.bank[1]!.cycles.act == 25),
    (66, run0.stats[0]!.bank[2]!.cycles.act == 25),
    (66, run0.stats[0]!.bank[3]!.cycles.act == 25),
    (66, run0.stats[0]!.bank[4]!.cycles.act == 25),
    (66, run0.stats[0]!.bank[5]!.cycles.act == 25),
    (66, run0.stats[0]!.bank[6]!.cycles.act == 25),
    (66, run0.stats[0]!.bank[7]!.cycles.act == 25),
    (66, run0.stats[0]!.bank[8]!.cycles.act == 25),
    (66, run0.stats[0]!.bank[9]!.cycles.act == 25),
    (66, run0.stats[0]!.bank[10]!.cycles.act == 25),
    (66, run0.stats[0]!.bank[11]!.cycles.act == 25),
    (66, run0.stats[0]!.bank[12]!.cycles.act == 25),
    (66, run0.stats[0]!.bank[13]!.cycles.act == 25),
    (66, run0.stats[0]!.bank[14]!.cycles.act == 25),
    (66, run0.stats[0]!.bank[15]!.cycles.act == 25),
    (69, run0.stats[0]!.bank[0]!.cycles.pre == 60),
    (69, run0.stats[0]!.bank[1]!.cycles.pre == 60),
    (69, run0.stats[0]!.bank[2]!.cycles.pre == 60),
    (69, run0.stats[0]!.bank[3]!.cycles.pre == 60),
    (69, run0.stats[0]!.bank[4]!.cycles.pre == 60),
    (69, run0.stats[0]!.bank[5]!.cycles.pre == 60),
    (69, run0.stats[0]!.bank[6]!.cycles.pre == 60),
    (69, run0.stats[0]!.bank[7]!.cycles.pre == 60),
    (69, run0.stats[0]!.bank[8]!.cycles.pre == 60),
    (69, run0.stats[0]!.bank[9]!.cycles.pre == 60),
    (69, run0.stats[0]!.bank[10]!.cycles.pre == 60),
    (69, run0.stats[0]!.bank[11]!.cycles.pre == 60),
    (69, run0.stats[0]!.bank[12]!.cycles.pre == 60),
    (69, run0.stats[0]!.bank[13]!.cycles.pre == 60),
    (69, run0.stats[0]!.bank[14]!.cycles.pre == 60),
    (69, run0.stats[0]!.bank[15]!.cycles.pre == 60),
    (72, run0.stats[0]!.bank[0]!.cycles.selfRefresh == 15),
    (72, run0.stats[0]!.bank[1]!.cycles.selfRefresh == 15),
    (72, run0.stats[0]!.bank[2]!.cycles.selfRefresh == 15),
    (72, run0.stats[0]!.bank[3]!.cycles.selfRefresh == 15),
    (72, run0.stats[0]!.bank[4]!.cycles.selfRefresh == 15),
    (72, run0.stats[0]!.bank[5]!.cycles.selfRefresh == 15),
    (72, run0.stats[0]!.bank[6]!.cycles.selfRefresh == 15),
    (72, run0.stats[0]!.bank[7]!.cycles.selfRefresh == 15),
    (72, run0.stats[0]!.bank[8]!.cycles.selfRefresh == 15),
    (72, run0.stats[0]!.bank[9]!.cycles.selfRefresh == 15),
    (72, run0.stats[0]!.bank[10]!.cycles.selfRefresh == 15),
    (72, run0.stats[0]!.bank[11]!.cycles.selfRefresh == 15),
    (72, run0.stats[0]!.bank[12]!.cycles.selfRefresh == 15),
    (72, run0.stats[0]!.bank[13]!.cycles.selfRefresh == 15),
    (72, run0.stats[0]!.bank[14]!.cycles.selfRefresh == 15),
    (72, run0.stats[0]!.bank[15]!.cycles.selfRefresh == 15)]

#guard failing checks == []

end lpddr6_7.Counters_and_Cycles

namespace lpddr6_7.Energy

def run0 : Log := run .lpddr6 (lpddr6) [
    .core { t := 0, type := .SREFEN },
    .core { t := 40, type := .SREFEX },
    .core { t := 100, type := .END_OF_SIMULATION },
    .coreEnergy 100]

def checks : List (Nat × Bool) := [
    (0, run0.ok),
    (84, (nearest (((run0.energies[0]!.aggregated.eAct : Rat) * 1000000000000) : Rat) : Rat) == 0),
    (85, (nearest (((run0.energies[0]!.aggregated.ePre : Rat) * 1000000000000) : Rat) : Rat) == 0),
    (86, (nearest (((run0.energies[0]!.aggregated.eRefAB : Rat) * 1000000000000) : Rat) : Rat) == 1699),
    (87, (nearest (((run0.energies[0]!.shared.sref : Rat) * 1000000000000) : Rat) : Rat) == 280),
    (88, (nearest (((run0.energies[0]!.aggregated.eBgAct : Rat) * 1000000000000) : Rat) : Rat) == 1024),
    (89, (nearest (((run0.energies[0]!.shared.bgActShared : Rat) * 1000000000000) : Rat) : Rat) == 793),
    (90, (nearest (((run0.energies[0]!.aggregated.eBgPre : Rat) * 1000000000000) : Rat) : Rat) == 1869),
    (91, (nearest (((((run0.energies[0]!.aggregated.total : Rat) + (run0.energies[0]!.shared.sref : Rat)) : Rat) * 1000000000000) : Rat) : Rat) == 4873)]

#guard failing checks == []

end lpddr6_7.Energy

/-! ## tests/tests_drampower/core/LPDDR6/lpddr6_test_pattern_9.cpp -/

namespace lpddr6_9.Counters_and_Cycles

def run0 : Log := run .lpddr6 (lpddr6) [
    .core { t := 5, type := .ACT },
    .core { t := 15, type := .ACT, co := { bank := 5 } },
    .core { t := 20, type := .RD },
    .core { t := 30, type := .PDEA },
    .core { t := 50, type := .PDXA },
    .core { t := 55, type := .RD, co := { bank := 5 } },
    .core { t := 60, type := .RD },
    .core { t := 70, type := .PREA },
    .core { t := 80, type := .PDEP },
    .core { t := 95, type := .PDXP },
    .core { t := 100, type := .END_OF_SIMULATION },
    .stats]

def checks : List (Nat × Bool) := [
    (0, run0.ok),
    (63, run0.stats[0]!.rankTotal[0]!.cycles.act == 45),
    (64, run0.stats[0]!.rankTotal[0]!.cycles.pre == 20),
    (65, run0.stats[0]!.rankTotal[0]!.cycles.selfRefresh == 0),
    (66, run0.stats[0]!.rankTotal[0]!.cycles.powerDownAct == 20),
    (67, run0.stats[0]!.rankTotal[0]!.cycles.powerDownPre == 15),
    (72, run0.stats[0]!.bank[0]!.cycles.act == 45),
    (76, run0.stats[0]!.bank[1]!.cycles.act == 0),
    (76, run0.stats[0]!.bank[2]!.cycles.act == 0),
    (76, run0.stats[0]!.bank[3]!.cycles.act == 0),
    (76, run0.stats[0]!.bank[4]!.cycles.act == 0),
    (74, run0.stats[0]!.bank[5]!.cycles.act == 35),
    (76, run0.stats[0]!.bank[6]!.cycles.act == 0),
    (76, run0.stats[0]!.bank[7]!.cycles.act == 0),
    (76, run0.stats[0]!.bank[8]!.cycles.act == 0),
    (76, run0.stats[0]!.bank[9]!.cycles.act == 0),
    (76, run0.stats[0]!.bank[10]!.cycles.act == 0),
    (76, run0.stats[0]!.bank[11]!.cycles.act == 0),
    (76, run0.stats[0]!.bank[12]!.cycles.act == 0),
    (76, run0.stats[0]!.bank[13]!.cycles.act == 0),
    (76, run0.stats[0]!.bank[14]!.cycles.act == 0),
    (76, run0.stats[0]!.bank[15]!.cycles.act == 0),
    (83, run0.stats[0]!.bank[0]!.cycles.pre == 20),
    (87, run0.stats[0]!.bank[1]!.cycles.pre == 65),
    (87, run0.stats[0]!.bank[2]!.cycles.pre == 65),
    (87, run0.stats[0]!.bank[3]!.cycles.pre == 65),
    (87, run0.stats[0]!.bank[4]!.cycles.pre == 65),
    (85, run0.stats[0]!.bank[5]!.cycles.pre == 30),
    (87, run0.stats[0]!.bank[6]!.cycles.pre == 65),
    (87, run0.stats[0]!.bank[7]!.cycles.pre == 65),
    (87, run0.stats[0]!.bank[8]!.cycles.pre == 65),
    (87, run0.stats[0]!.bank[9]!.cycles.pre == 65),
    (87, run0.stats[0]!.bank[10]!.cycles.pre == 65),
    (87, run0.stats[0]!.bank[11]!.cycles.pre == 65),
    (87, run0.stats[0]!.bank[12]!.cycles.pre == 65),
    (87, run0.stats[0]!.bank[13]!.cycles.pre == 65),
    (87, run0.stats[0]!.bank[14]!.cycles.pre == 65),
    (87, run0.stats[0]!.bank[15]!.cycles.pre == 65),
    (92, run0.stats[0]!.bank[0]!.cycles.powerDownAct == 20),
    (92, run0.stats[0]!.bank[1]!.cycles.powerDownAct == 20),
    (92, run0.stats[0]!.bank[2]!.cycles.powerDownAct == 20),
    (92, run0.stats[0]!.bank[3]!.cycles.powerDownAct == 20),
    (92, run0.stats[0]!.bank[4]!.cycles.powerDownAct == 20),
    (92, run0.stats[0]!.bank[5]!.cycles.powerDownAct == 20),
    (92, run0.stats[0]!.bank[6]!.cycles.powerDownAct == 20),
    (92, run0.stats[0]!.bank[7]!.cycles.powerDownAct == 20),
    (92, run0.stats[0]!.bank[8]!.cycles.powerDownAct == 20),
    (92, run0.stats[0]!.bank[9]!.cycles.powerDownAct == 20),
    (92, run0.stats[0]!.bank[10]!.cycles.powerDownAct == 20),
    (92, run0.stats[0]!.bank[11]!.cycles.powerDownAct == 20),
    (92, run0.stats[0]!.bank[12]!.cycles.powerDownAct == 20),
    (92, run0.stats[0]!.bank[13]!.cycles.powerDownAct == 20),
    (92, run0.stats[0]!.bank[14]!.cycles.powerDownAct == 20),
    (92, run0.stats[0]!.bank[15]!.cycles.powerDownAct == 20),
    (95, run0.stats[0]!.bank[0]!.cycles.powerDownPre == 15),
    (95, run0.stats[0]!.bank[1]!.cycles.powerDownPre == 15),
    (95, run0.stats[0]!.bank[2]!.cycles.powerDownPre == 15),
    (95, run0.stats[0]!.bank[3]!.cycles.powerDownPre == 15),
    (95, run0.stats[0]!.bank[4]!.cycles.powerDownPre == 15),
    (95, run0.stats[0]!.bank[5]!.cycles.powerDownPre == 15),
    (95, run0.stats[0]!.bank[6]!.cycles.powerDownPre == 15),
    (95, run0.stats[0]!.bank[7]!.cycles.powerDownPre == 15),
    (95, run0.stats[0]!.bank[8]!.cycles.powerDownPre == 15),
    (95, run0.stats[0]!.bank[9]!.cycles.powerDownPre == 15),
    (95, run0.stats[0]!.bank[10]!.cycles.powerDownPre == 15),
    (95, run0.stats[0]!.bank[11]!.cycles.powerDownPre == 15),
    (95, run0.stats[0]!.bank[12]!.cycles.powerDownPre == 15),
    (95, run0.stats[0]!.bank[13]!.cycles.powerDownPre == 15),
    (95, run0.stats[0]!.bank[14]!.cycles.powerDownPre == 15),
    (95, run0.stats[0]!.bank[15]!.cycles.powerDownPre == 15),
    (98, run0.stats[0]!.bank[0]!.cycles.selfRefresh == 0),
    (98, run0.stats[0]!.bank[1]!.cycles.selfRefresh == 0),
    (98, run0.stats[0]!.bank[2]!.cycles.selfRefresh == 0),
    (98, run0.stats[0]!.bank[3]!.cycles.selfRefresh == 0),
    (98, run0.stats[0]!.bank[4]!.cycles.selfRefresh == 0),
    (98, run0.stats[0]!.bank[5]!.cycles.selfRefresh == 0),
    (98, run0.stats[0]!.bank[6]!.cycles.selfRefresh == 0),
    (98, run0.stats[0]!.bank[7]!.cycles.selfRefresh == 0),
    (98, run0.stats[0]!.bank[8]!.cycles.selfRefresh == 0),
    (98, run0.stats[0]!.bank[9]!.cycles.selfRefresh == 0),
    (98, run0.stats[0]!.bank[10]!.cycles.selfRefresh == 0),
    (98, run0.stats[0]!.bank[11]!.cycles.selfRefresh == 0),
    (98, run0.stats[0]!.bank[12]!.cycles.selfRefresh == 0),
    (98, run0.stats[0]!.bank[13]!.cycles.selfRefresh == 0),
    (98, run0.stats[0]!.bank[14]!.cycles.selfRefresh == 0),
    (98, run0.stats[0]!.bank[15]!.cycles.selfRefresh == 0)]

#guard failing checks == []

end lpddr6_9.Counters_and_Cycles

namespace lpddr6_9.Energy

def run0 : Log := run .lpddr6 (lpddr6) [
    .core { t := 5, type := .ACT },
    .core { t := 15, type := .ACT, co := { bank := 5 } },
    .core { t := 20, type := .RD },
    .core { t := 30, type := .PDEA },
    .core { t := 50, type := .PDXA },
    .core { t := 55, type := .RD, co := { bank := 5 } },
    .core { t := 60, type := .RD },
    .core { t := 70, type := .PREA },
    .core { t := 80, type := .PDEP },
    .core { t := 95, type := .PDXP },
    .core { t := 100, type := .END_OF_SIMULATION },
    .coreEnergy 100]

def checks : List (Nat × Bool) := [
    (0, run0.ok),
    (110, (nearest (((run0.energies[0]!.aggregated.eAct : Rat) * 1000000000000) : Rat) : Rat) == 392),
    (111, (nearest (((run0.energies[0]!.aggregated.ePre : Rat) * 1000000000000) : Rat) : Rat) == 415),
    (112, (nearest (((run0.energies[0]!.aggregated.eRD : Rat) * 1000000000000) : Rat) : Rat) == 675),
    (113, (nearest (((run0.energies[0]!.shared.sref : Rat) * 1000000000000) : Rat) : Rat) == 0),
    (114, (nearest (((run0.energies[0]!.shared.pdnA : Rat) * 1000000000000) : Rat) : Rat) == 415),
    (115, (nearest (((run0.energies[0]!.shared.pdnP : Rat) * 1000000000000) : Rat) : Rat) == 235),
    (116, (nearest (((run0.energies[0]!.aggregated.eBgAct : Rat) * 1000000000000) : Rat) : Rat) == 1474),
    (117, (nearest (((run0.energies[0]!.shared.bgActShared : Rat) * 1000000000000) : Rat) : Rat) == 1428),
    (118, (nearest (((run0.energies[0]!.aggregated.eBgPre : Rat) * 1000000000000) : Rat) : Rat) == 623),
    (119, (nearest (((((((((run0.energies[0]!.aggregated.total : Rat) + (run0.energies[0]!.shared.sref : Rat)) : Rat) + (run0.energies[0]!.shared.pdnA : Rat)) : Rat) + (run0.energies[0]!.shared.pdnP : Rat)) : Rat) * 1000000000000) : Rat) : Rat) == 4231)]

#guard failing checks == []

end lpddr6_9.Energy

/-! ## tests/tests_drampower/core/LPDDR6/lpddr6_test_pattern_11.cpp -/

namespace lpddr6_11.Counters_and_Cycles

def run0 : Log := run .lpddr6 (lpddr6) [
    .core { t := 0, type := .ACT },
    .core { t := 5, type := .ACT, co := { bank := 2 } },
    .core { t := 15, type := .ACT, co := { bank := 10 } },
    .core { t := 30, type := .PREA },
    .core { t := 40, type := .REFDB, co := { bank := 9 } },
    .core { t := 50, type := .REFDB, co := { bank := 5 } },
    .core { t := 100, type := .END_OF_SIMULATION },
    .stats]

def checks : List (Nat × Bool) := [
    (0, run0.ok),
    (59, run0.stats[0]!.rankTotal[0]!.cycles.act == 60),
    (60, run0.stats[0]!.rankTotal[0]!.cycles.pre == 40),
    (61, run0.stats[0]!.rankTotal[0]!.cycles.selfRefresh == 0),
    (62, run0.stats[0]!.rankTotal[0]!.cycles.powerDownAct == 0),
    (63, run0.stats[0]!.rankTotal[0]!.cycles.powerDownPre == 0),
    (68, run0.stats[0]!.bank[0]!.cycles.act == 30),
    (74, run0.stats[0]!.bank[1]!.cycles.act == 20),
    (70, run0.stats[0]!.bank[2]!.cycles.act == 25),
    (76, run0.stats[0]!.bank[3]!.cycles.act == 0),
    (76, run0.stats[0]!.bank[4]!.cycles.act == 0),
    (74, run0.stats[0]!.bank[5]!.cycles.act == 20),
    (76, run0.stats[0]!.bank[6]!.cycles.act == 0),
    (76, run0.stats[0]!.bank[7]!.cycles.act == 0),
    (76, run0.stats[0]!.bank[8]!.cycles.act == 0),
    (74, run0.stats[0]!.bank[9]!.cycles.act == 20),
    (72, run0.stats[0]!.bank[10]!.cycles.act == 15),
    (76, run0.stats[0]!.bank[11]!.cycles.act == 0),
    (76, run0.stats[0]!.bank[12]!.cycles.act == 0),
    (74, run0.stats[0]!.bank[13]!.cycles.act == 20),
    (76, run0.stats[0]!.bank[14]!.cycles.act == 0),
    (76, run0.stats[0]!.bank[15]!.cycles.act == 0),
    (83, run0.stats[0]!.bank[0]!.cycles.pre == 70),
    (89, run0.stats[0]!.bank[1]!.cycles.pre == 80),
    (85, run0.stats[0]!.bank[2]!.cycles.pre == 75),
    (91, run0.stats[0]!.bank[3]!.cycles.pre == 100),
    (91, run0.stats[0]!.bank[4]!.cycles.pre == 100),
    (89, run0.stats[0]!.bank[5]!.cycles.pre == 80),
    (91, run0.stats[0]!.bank[6]!.cycles.pre == 100),
    (91, run0.stats[0]!.bank[7]!.cycles.pre == 100),
    (91, run0.stats[0]!.bank[8]!.cycles.pre == 100),
    (89, run0.stats[0]!.bank[9]!.cycles.pre == 80),
    (87, run0.stats[0]!.bank[10]!.cycles.pre == 85),
    (91, run0.stats[0]!.bank[11]!.cycles.pre == 100),
    (91, run0.stats[0]!.bank[12]!.cycles.pre == 100),
    (89, run0.stats[0]!.bank[13]!.cycles.pre == 80),
    (91, run0.stats[0]!.bank[14]!.cycles.pre == 100),
    (91, run0.stats[0]!.bank[15]!.cycles.pre == 100),
    (96, run0.stats[0]!.bank[0]!.cycles.powerDownAct == 0),
    (96, run0.stats[0]!.bank[1]!.cycles.powerDownAct == 0),
    (96, run0.stats[0]!.bank[2]!.cycles.powerDownAct == 0),
    (96, run0.stats[0]!.bank[3]!.cycles.powerDownAct == 0),
    (96, run0.stats[0]!.bank[4]!.cycles.powerDownAct == 0),
    (96, run0.stats[0]!.bank[5]!.cycles.powerDownAct == 0),
    (96, run0.stats[0]!.bank[6]!.cycles.powerDownAct == 0),
    (96, run0.stats[0]!.bank[7]!.cycles.powerDownAct == 0),
    (96, run0.stats[0]!.bank[8]!.cycles.powerDownAct == 0),
    (96, run0.stats[0]!.bank[9]!.cycles.powerDownAct == 0),
    (96, run0.stats[0]!.bank[10]!.cycles.powerDownAct == 0),
    (96, run0.stats[0]!.bank[11]!.cycles.powerDownAct == 0),
    (96, run0.stats[0]!.bank[12]!.cycles.powerDownAct == 0),
    (96, run0.stats[0]!.bank[13]!.cycles.powerDownAct == 0),
    (96, run0.stats[0]!.bank[14]!.cycles.powerDownAct == 0),
    (96, run0.stats[0]!.bank[15]!.cycles.powerDownAct == 0),
    (99, run0.stats[0]!.bank[0]!.cycles.powerDownPre == 0),
    (99, run0.stats[0]!.bank[1]!.cycles.powerDownPre == 0),
    (99, run0.stats[0]!.bank[2]!.cycles.powerDownPre == 0),
    (99, run0.stats[0]!.bank[3]!.cycles.powerDownPre == 0),
    (99, run0.stats[0]!.bank[4]!.cycles.powerDownPre == 0),
    (99, run0.stats[0]!.bank[5]!.cycles.powerDownPre == 0),
    (99, run0.stats[0]!.bank[6]!.cycles.powerDownPre == 0),
    (99, run0.stats[0]!.bank[7]!.cycles.powerDownPre == 0),
    (99, run0.stats[0]!.bank[8]!.cycles.powerDownPre == 0),
    (99, run0.stats[0]!.bank[9]!.cycles.powerDownPre == 0),
    (99, run0.stats[0]!.bank[10]!.cycles.powerDownPre == 0),
    (99, run0.stats[0]!.bank[11]!.cycles.powerDownPre == 0),
    (99, run0.stats[0]!.bank[12]!.cycles.powerDownPre == 0),
    (99, run0.stats[0]!.bank[13]!.cycles.powerDownPre == 0),
    (99, run0.stats[0]!.bank[14]!.cycles.powerDownPre == 0),
    (99, run0.stats[0]!.bank[15]!.cycles.powerDownPre == 0),
    (102, run0.stats[0]!.bank[0]!.cycles.selfRefresh == 0),
    (102, run0.stats[0]!.bank[1]!.cycles.selfRefresh == 0),
    (102, run0.stats[0]!.bank[2]!.cycles.selfRefresh == 0),
    (102, run0.stats[0]!.bank[3]!.cycles.selfRefresh == 0),
    (102, run0.stats[0]!.bank[4]!.cycles.selfRefresh == 0),
    (102, run0.stats[0]!.bank[5]!.cycles.selfRefresh == 0),
    (102, run0.stats[0]!.bank[6]!.cycles.selfRefresh == 0),
    (102, run0.stats[0]!.bank[7]!.cycles.selfRefresh == 0),
    (102, run0.stats[0]!.bank[8]!.cycles.selfRefresh == 0),
    (102, run0.stats[0]!.bank[9]!.cycles.selfRefresh == 0),
    (102, run0.stats[0]!.bank[10]!.cycles.selfRefresh == 0),
    (102, run0.stats[0]!.bank[11]!.cycles.selfRefresh == 0),
    (102, run0.stats[0]!.bank[12]!.cycles.selfRefresh == 0),
    (102, run0.stats[0]!.bank[13]!.cycles.selfRefresh == 0),
    (102, run0.stats[0]!.bank[14]!.cycles.selfRefresh == 0),
    (102, run0.stats[0]!.bank[15]!.cycles.selfRefresh == 0)]

#guard failing checks == []

end lpddr6_11.Counters_and_Cycles

namespace lpddr6_11.Energy

def run0 : Log := run .lpddr6 (lpddr6) [
    .core { t := 0, type := .ACT },
    .core { t := 5, type := .ACT, co := { bank := 2 } },
    .core { t := 15, type := .ACT, co := { bank := 10 } },
    .core { t := 30, type := .PREA },
    .core { t := 40, type := .REFDB, co := { bank := 9 } },
    .core { t := 50, type := .REFDB, co := { bank := 5 } },
    .core { t := 100, type := .END_OF_SIMULATION },
    .coreEnergy 100]

def checks : List (Nat × Bool) := [
    (0, run0.ok),
    (114, (nearest (((run0.energies[0]!.aggregated.eAct : Rat) * 1000000000000) : Rat) : Rat) == 588),
    (115, (nearest (((run0.energies[0]!.aggregated.ePre : Rat) * 1000000000000) : Rat) : Rat) == 623),
    (116, (nearest (((run0.energies[0]!.aggregated.eRD : Rat) * 1000000000000) : Rat) : Rat) == 0),
    (117, (nearest (((run0.energies[0]!.aggregated.eRefDB : Rat) * 1000000000000) : Rat) : Rat) == 1215),
    (118, (nearest (((run0.energies[0]!.aggregated.eRef2B : Rat) * 1000000000000) : Rat) : Rat) == 0),
    (119, (nearest (((run0.energies[0]!.aggregated.eRefPB : Rat) * 1000000000000) : Rat) : Rat) == 0),
    (120, (nearest (((run0.energies[0]!.shared.sref : Rat) * 1000000000000) : Rat) : Rat) == 0),
    (121, (nearest (((run0.energies[0]!.shared.pdnA : Rat) * 1000000000000) : Rat) : Rat) == 0),
    (122, (nearest (((run0.energies[0]!.shared.pdnP : Rat) * 1000000000000) : Rat) : Rat) == 0),
    (123, (nearest (((run0.energies[0]!.aggregated.eBgAct : Rat) * 1000000000000) : Rat) : Rat) == 1990),
    (124, (nearest (((run0.energies[0]!.shared.bgActShared : Rat) * 1000000000000) : Rat) : Rat) == 1904),
    (125, (nearest (((run0.energies[0]!.aggregated.eBgPre : Rat) * 1000000000000) : Rat) : Rat) == 1246),
    (126, (nearest (((((((((run0.energies[0]!.aggregated.total : Rat) + (run0.energies[0]!.shared.sref : Rat)) : Rat) + (run0.energies[0]!.shared.pdnA : Rat)) : Rat) + (run0.energies[0]!.shared.pdnP : Rat)) : Rat) * 1000000000000) : Rat) : Rat) == 5663)]

#guard failing checks == []

end lpddr6_11.Energy

/-! ## tests/tests_drampower/core/LPDDR6/lpddr6_test_pattern_12.cpp -/

namespace lpddr6_12.Pattern1

def run0 : Log := run .lpddr6 ({ lpddr6 with
  core := { lpddr6.core with numberOfRanks := 1, numberOfBanks := 8, banksPerGroup := 8, numberOfBankGroups := 1, tRAS := 10, tRP := 10 },
  power := { lpddr6.power with ranks := 1, banks := 8, bankGroups := 1, burstLength := 8, dataRate := 2, devices := 1, tRAS := 10, tRP := 10, tCK := (1/1000000000), tWCK := (1/1000000000), rho := (333333333/1000000000), domains := (lpddr6.power.domains.modify 0 fun d => { d with v := 1, i0 := (8/125), i3n := (4/125), i2n := (1/125), iBeta := (8/125) }) },
  iface := { lpddr6.iface with ranks := 1, bankGroups := 1, burstLength := 8, dataRate := 2, devices := 1, bitWidth := 16, wckToCk := 2 },
  wires := { lpddr6.wires with dataRate := 2, bitWidth := 16, tCK := (1/1000000000), tWCK := (1/1000000000) } }) [
    .core { t := 0, type := .ACT },
    .core { t := 10, type := .ACT, co := { bank := 1 } },
    .core { t := 15, type := .PRE },
    .core { t := 25, type := .ACT, co := { bank := 3 } },
    .core { t := 25, type := .PRE, co := { bank := 1 } },
    .core { t := 30, type := .ACT },
    .core { t := 35, type := .ACT, co := { bank := 2 } },
    .core { t := 40, type := .PRE, co := { bank := 1 } },
    .core { t := 40, type := .PRE, co := { bank := 3 } },
    .core { t := 45, type := .PRE },
    .core { t := 50, type := .PRE, co := { bank := 2 } },
    .core { t := 85, type := .ACT, co := { bank := 7 } },
    .core { t := 100, type := .PRE, co := { bank := 7 } },
    .core { t := 120, type := .ACT, co := { bank := 6 } },
    .core { t := 125, type := .END_OF_SIMULATION },
    .stats]

def checks : List (Nat × Bool) := [
    (0, run0.ok),
    (87, run0.stats[0]!.rankTotal[0]!.cycles.act == 70),
    (88, run0.stats[0]!.rankTotal[0]!.cycles.pre == 55),
    (91, run0.stats[0]!.bank[0]!.cycles.act == 30),
    (93, run0.stats[0]!.bank[1]!.cycles.act == 15),
    (94, run0.stats[0]!.bank[2]!.cycles.act == 15),
    (95, run0.stats[0]!.bank[3]!.cycles.act == 15),
    (96, run0.stats[0]!.bank[7]!.cycles.act == 15),
    (98, run0.stats[0]!.bank[6]!.cycles.act == 5),
    (100, run0.stats[0]!.bank[4]!.cycles.act == 0),
    (101, run0.stats[0]!.bank[5]!.cycles.act == 0),
    (104, run0.stats[0]!.bank[0]!.cycles.pre == 95),
    (106, run0.stats[0]!.bank[1]!.cycles.pre == 110),
    (107, run0.stats[0]!.bank[2]!.cycles.pre == 110),
    (108, run0.stats[0]!.bank[3]!.cycles.pre == 110),
    (109, run0.stats[0]!.bank[7]!.cycles.pre == 110),
    (111, run0.stats[0]!.bank[6]!.cycles.pre == 120),
    (113, run0.stats[0]!.bank[4]!.cycles.pre == 125),
    (114, run0.stats[0]!.bank[5]!.cycles.pre == 125),
    (117, run0.stats[0]!.bank[0]!.counter.act == 2),
    (119, run0.stats[0]!.bank[1]!.counter.act == 1),
    (120, run0.stats[0]!.bank[2]!.counter.act == 1),
    (121, run0.stats[0]!.bank[3]!.counter.act == 1),
    (122, run0.stats[0]!.bank[6]!.counter.act == 1),
    (123, run0.stats[0]!.bank[7]!.counter.act == 1),
    (125, run0.stats[0]!.bank[4]!.counter.act == 0),
    (126, run0.stats[0]!.bank[5]!.counter.act == 0),
    (129, run0.stats[0]!.bank[0]!.counter.pre == 2),
    (131, run0.stats[0]!.bank[1]!.counter.pre == 1),
    (132, run0.stats[0]!.bank[2]!.counter.pre == 1),
    (133, run0.stats[0]!.bank[3]!.counter.pre == 1),
    (134, run0.stats[0]!.bank[7]!.counter.pre == 1),
    (136, run0.stats[0]!.bank[6]!.counter.pre == 0),
    (137, run0.stats[0]!.bank[4]!.counter.pre == 0),
    (138, run0.stats[0]!.bank[5]!.counter.pre == 0)]

#guard failing checks == []

end lpddr6_12.Pattern1

namespace lpddr6_12.CalcEnergy

def run0 : Log := run .lpddr6 ({ lpddr6 with
  core := { lpddr6.core with numberOfRanks := 1, numberOfBanks := 8, banksPerGroup := 8, numberOfBankGroups := 1, tRAS := 10, tRP := 10 },
  power := { lpddr6.power with ranks := 1, banks := 8, bankGroups := 1, burstLength := 8, dataRate := 2, devices := 1, tRAS := 10, tRP := 10, tCK := (1/1000000000), tWCK := (1/1000000000), rho := (333333333/1000000000), domains := (lpddr6.power.domains.modify 0 fun d => { d with v := 1, i0 := (8/125), i3n := (4/125), i2n := (1/125), iBeta := (8/125) }) },
  iface := { lpddr6.iface with ranks := 1, bankGroups := 1, burstLength := 8, dataRate := 2, devices := 1, bitWidth := 16, wckToCk := 2 },
  wires := { lpddr6.wires with dataRate := 2, bitWidth := 16, tCK := (1/1000000000), tWCK := (1/1000000000) } }) [
    .core { t := 0, type := .ACT },
    .core { t := 10, type := .ACT, co := { bank := 1 } },
    .core { t := 15, type := .PRE },
    .core { t := 25, type := .ACT, co := { bank := 3 } },
    .core { t := 25, type := .PRE, co := { bank := 1 } },
    .core { t := 30, type := .ACT },
    .core { t := 35, type := .ACT, co := { bank := 2 } },
    .core { t := 40, type := .PRE, co := { bank := 1 } },
    .core { t := 40, type := .PRE, co := { bank := 3 } },
    .core { t := 45, type := .PRE },
    .core { t := 50, type := .PRE, co := { bank := 2 } },
    .core { t := 85, type := .ACT, co := { bank := 7 } },
    .core { t := 100, type := .PRE, co := { bank := 7 } },
    .core { t := 120, type := .ACT, co := { bank := 6 } },
    .core { t := 125, type := .END_OF_SIMULATION },
    .coreEnergy 125]

def checks : List (Nat × Bool) := [
    (0, run0.ok),
    (155, (nearest (((run0.energies[0]!.aggregated.eAct : Rat) * 1000000000000) : Rat) : Rat) == 2240),
    (156, (nearest (((run0.energies[0]!.bank[0]!.eAct : Rat) * 1000000000000) : Rat) : Rat) == 640),
    (157, (nearest (((run0.energies[0]!.bank[1]!.eAct : Rat) * 1000000000000) : Rat) : Rat) == 320),
    (158, (nearest (((run0.energies[0]!.bank[2]!.eAct : Rat) * 1000000000000) : Rat) : Rat) == 320),
    (159, (nearest (((run0.energies[0]!.bank[3]!.eAct : Rat) * 1000000000000) : Rat) : Rat) == 320),
    (160, (nearest (((run0.energies[0]!.bank[4]!.eAct : Rat) * 1000000000000) : Rat) : Rat) == 0),
    (161, (nearest (((run0.energies[0]!.bank[5]!.eAct : Rat) * 1000000000000) : Rat) : Rat) == 0),
    (162, (nearest (((run0.energies[0]!.bank[6]!.eAct : Rat) * 1000000000000) : Rat) : Rat) == 320),
    (163, (nearest (((run0.energies[0]!.bank[7]!.eAct : Rat) * 1000000000000) : Rat) : Rat) == 320),
    (165, (nearest (((run0.energies[0]!.aggregated.ePre : Rat) * 1000000000000) : Rat) : Rat) == 3360),
    (166, (nearest (((run0.energies[0]!.bank[0]!.ePre : Rat) * 1000000000000) : Rat) : Rat) == 1120),
    (167, (nearest (((run0.energies[0]!.bank[1]!.ePre : Rat) * 1000000000000) : Rat) : Rat) == 560),
    (168, (nearest (((run0.energies[0]!.bank[2]!.ePre : Rat) * 1000000000000) : Rat) : Rat) == 560),
    (169, (nearest (((run0.energies[0]!.bank[3]!.ePre : Rat) * 1000000000000) : Rat) : Rat) == 560),
    (170, (nearest (((run0.energies[0]!.bank[4]!.ePre : Rat) * 1000000000000) : Rat) : Rat) == 0),
    (171, (nearest (((run0.energies[0]!.bank[5]!.ePre : Rat) * 1000000000000) : Rat) : Rat) == 0),
    (172, (nearest (((run0.energies[0]!.bank[6]!.ePre : Rat) * 1000000000000) : Rat) : Rat) == 0),
    (173, (nearest (((run0.energies[0]!.bank[7]!.ePre : Rat) * 1000000000000) : Rat) : Rat) == 560),
    (175, (nearest (((run0.energies[0]!.bank[0]!.eBgAct : Rat) * 1000000000000) : Rat) : Rat) == 144),
    (176, (nearest (((run0.energies[0]!.bank[1]!.eBgAct : Rat) * 1000000000000) : Rat) : Rat) == 72),
    (177, (nearest (((run0.energies[0]!.bank[2]!.eBgAct : Rat) * 1000000000000) : Rat) : Rat) == 72),
    (178, (nearest (((run0.energies[0]!.bank[3]!.eBgAct : Rat) * 1000000000000) : Rat) : Rat) == 72),
    (179, (nearest (((run0.energies[0]!.bank[4]!.eBgAct : Rat) * 1000000000000) : Rat) : Rat) == 0),
    (180, (nearest (((run0.energies[0]!.bank[5]!.eBgAct : Rat) * 1000000000000) : Rat) : Rat) == 0),
    (181, (nearest (((run0.energies[0]!.bank[6]!.eBgAct : Rat) * 1000000000000) : Rat) : Rat) == 24),
    (182, (nearest (((run0.energies[0]!.bank[7]!.eBgAct : Rat) * 1000000000000) : Rat) : Rat) == 72),
    (183, (nearest (((run0.energies[0]!.shared.bgActShared : Rat) * 1000000000000) : Rat) : Rat) == 1904),
    (184, (nearest (((run0.energies[0]!.aggregated.eBgAct : Rat) * 1000000000000) : Rat) : Rat) == 2360),
    (187, (nearest (((run0.energies[0]!.aggregated.eBgPre : Rat) * 1000000000000) : Rat) : Rat) == 440),
    (188, (nearest (((run0.energies[0]!.bank[0]!.eBgPre : Rat) * 1000000000000) : Rat) : Rat) == 55),
    (189, (nearest (((run0.energies[0]!.bank[1]!.eBgPre : Rat) * 1000000000000) : Rat) : Rat) == 55),
    (190, (nearest (((run0.energies[0]!.bank[2]!.eBgPre : Rat) * 1000000000000) : Rat) : Rat) == 55),
    (191, (nearest (((run0.energies[0]!.bank[3]!.eBgPre : Rat) * 1000000000000) : Rat) : Rat) == 55),
    (192, (nearest (((run0.energies[0]!.bank[4]!.eBgPre : Rat) * 1000000000000) : Rat) : Rat) == 55),
    (193, (nearest (((run0.energies[0]!.bank[5]!.eBgPre : Rat) * 1000000000000) : Rat) : Rat) == 55),
    (194, (nearest (((run0.energies[0]!.bank[6]!.eBgPre : Rat) * 1000000000000) : Rat) : Rat) == 55),
    (195, (nearest (((run0.energies[0]!.bank[7]!.eBgPre : Rat) * 1000000000000) : Rat) : Rat) == 55)]

#guard failing checks == []

end lpddr6_12.CalcEnergy

/-! ## tests/tests_drampower/core/LPDDR6/lpddr6_test_pattern_13.cpp -/

namespace lpddr6_13.Pattern_2

def run0 : Log := run .lpddr6 ({ lpddr6 with
  core := { lpddr6.core with numberOfRanks := 1, numberOfBanks := 8, banksPerGroup := 8, numberOfBankGroups := 1, prechargeOffsetRD := 11, prechargeOffsetWR := 19 },
  power := { lpddr6.power with ranks := 1, banks := 8, bankGroups := 1, devices := 1, tCK := (1/1000000000), tWCK := (1/1000000000), rho := 1, burstLength := 16, dataRate := 2, domains := (lpddr6.power.domains.modify 0 fun d => { d with v := 1, i0 := (8/125), i3n := (4/125), i4r := (9/125), i4w := (12/125), iBeta := (8/125) }) },
  iface := { lpddr6.iface with ranks := 1, bankGroups := 1, devices := 1, bitWidth := 16, wckToCk := 1, burstLength := 16, dataRate := 2 },
  wires := { lpddr6.wires with bitWidth := 16, tCK := (1/1000000000), tWCK := (1/1000000000), dataRate := 2 } }) [
    .core { t := 0, type := .ACT },
    .core { t := 5, type := .ACT, co := { bank := 1 } },
    .core { t := 10, type := .ACT, co := { bank := 2 } },
    .core { t := 15, type := .ACT, co := { bank := 3 } },
    .core { t := 20, type := .ACT, co := { bank := 4 } },
    .core { t := 25, type := .ACT, co := { bank := 5 } },
    .core { t := 30, type := .ACT, co := { bank := 6 } },
    .core { t := 35, type := .ACT, co := { bank := 7 } },
    .core { t := 35, type := .RD },
    .core { t := 40, type := .RD },
    .core { t := 40, type := .RD, co := { bank := 1 } },
    .core { t := 45, type := .RD },
    .core { t := 45, type := .RD, co := { bank := 2 } },
    .core { t := 50, type := .RD, co := { bank := 3 } },
    .core { t := 55, type := .RD, co := { bank := 4 } },
    .core { t := 60, type := .RD, co := { bank := 5 } },
    .core { t := 65, type := .RD, co := { bank := 6 } },
    .core { t := 70, type := .RD, co := { bank := 7 } },
    .core { t := 75, type := .RD, co := { bank := 7 } },
    .core { t := 80, type := .RD, co := { bank := 7 } },
    .core { t := 85, type := .WR, co := { bank := 7 } },
    .core { t := 90, type := .WR, co := { bank := 6 } },
    .core { t := 95, type := .WR, co := { bank := 5 } },
    .core { t := 100, type := .WR, co := { bank := 4 } },
    .core { t := 105, type := .WR, co := { bank := 3 } },
    .core { t := 110, type := .WR, co := { bank := 2 } },
    .core { t := 110, type := .WR },
    .core { t := 115, type := .WR, co := { bank := 1 } },
    .core { t := 115, type := .RD },
    .core { t := 120, type := .WR },
    .core { t := 120, type := .END_OF_SIMULATION },
    .look]

def checks : List (Nat × Bool) := [
    (0, run0.ok),
    (104, ((run0.cores[0]!.ranks 0).banks 0).counter.reads == 4),
    (105, ((run0.cores[0]!.ranks 0).banks 1).counter.reads == 1),
    (106, ((run0.cores[0]!.ranks 0).banks 2).counter.reads == 1),
    (107, ((run0.cores[0]!.ranks 0).banks 3).counter.reads == 1),
    (108, ((run0.cores[0]!.ranks 0).banks 4).counter.reads == 1),
    (109, ((run0.cores[0]!.ranks 0).banks 5).counter.reads == 1),
    (110, ((run0.cores[0]!.ranks 0).banks 6).counter.reads == 1),
    (111, ((run0.cores[0]!.ranks 0).banks 7).counter.reads == 3),
    (114, ((run0.cores[0]!.ranks 0).banks 0).counter.writes == 2),
    (115, ((run0.cores[0]!.ranks 0).banks 1).counter.writes == 1),
    (116, ((run0.cores[0]!.ranks 0).banks 2).counter.writes == 1),
    (117, ((run0.cores[0]!.ranks 0).banks 3).counter.writes == 1),
    (118, ((run0.cores[0]!.ranks 0).banks 4).counter.writes == 1),
    (119, ((run0.cores[0]!.ranks 0).banks 5).counter.writes == 1),
    (120, ((run0.cores[0]!.ranks 0).banks 6).counter.writes == 1),
    (121, ((run0.cores[0]!.ranks 0).banks 7).counter.writes == 1)]

#guard failing checks == []

end lpddr6_13.Pattern_2

namespace lpddr6_13.CalcEnergy

def run0 : Log := run .lpddr6 ({ lpddr6 with
  core := { lpddr6.core with numberOfRanks := 1, numberOfBanks := 8, banksPerGroup := 8, numberOfBankGroups := 1, prechargeOffsetRD := 11, prechargeOffsetWR := 19 },
  power := { lpddr6.power with ranks := 1, banks := 8, bankGroups := 1, devices := 1, tCK := (1/1000000000), tWCK := (1/1000000000), rho := 1, burstLength := 16, dataRate := 2, domains := (lpddr6.power.domains.modify 0 fun d => { d with v := 1, i0 := (8/125), i3n := (4/125), i4r := (9/125), i4w := (12/125), iBeta := (8/125) }) },
  iface := { lpddr6.iface with ranks := 1, bankGroups := 1, devices := 1, bitWidth := 16, wckToCk := 1, burstLength := 16, dataRate := 2 },
  wires := { lpddr6.wires with bitWidth := 16, tCK := (1/1000000000), tWCK := (1/1000000000), dataRate := 2 } }) [
    .core { t := 0, type := .ACT },
    .core { t := 5, type := .ACT, co := { bank := 1 } },
    .core { t := 10, type := .ACT, co := { bank := 2 } },
    .core { t := 15, type := .ACT, co := { bank := 3 } },
    .core { t := 20, type := .ACT, co := { bank := 4 } },
    .core { t := 25, type := .ACT, co := { bank := 5 } },
    .core { t := 30, type := .ACT, co := { bank := 6 } },
    .core { t := 35, type := .ACT, co := { bank := 7 } },
    .core { t := 35, type := .RD },
    .core { t := 40, type := .RD },
    .core { t := 40, type := .RD, co := { bank := 1 } },
    .core { t := 45, type := .RD },
    .core { t := 45, type := .RD, co := { bank := 2 } },
    .core { t := 50, type := .RD, co := { bank := 3 } },
    .core { t := 55, type := .RD, co := { bank := 4 } },
    .core { t := 60, type := .RD, co := { bank := 5 } },
    .core { t := 65, type := .RD, co := { bank := 6 } },
    .core { t := 70, type := .RD, co := { bank := 7 } },
    .core { t := 75, type := .RD, co := { bank := 7 } },
    .core { t := 80, type := .RD, co := { bank := 7 } },
    .core { t := 85, type := .WR, co := { bank := 7 } },
    .core { t := 90, type := .WR, co := { bank := 6 } },
    .core { t := 95, type := .WR, co := { bank := 5 } },
    .core { t := 100, type := .WR, co := { bank := 4 } },
    .core { t := 105, type := .WR, co := { bank := 3 } },
    .core { t := 110, type := .WR, co := { bank := 2 } },
    .core { t := 110, type := .WR },
    .core { t := 115, type := .WR, co := { bank := 1 } },
    .core { t := 115, type := .RD },
    .core { t := 120, type := .WR },
    .core { t := 120, type := .END_OF_SIMULATION },
    .coreEnergy 125]

def checks : List (Nat × Bool) := [
    (0, run0.ok),
    (138, (nearest (((run0.energies[0]!.aggregated.eRD : Rat) * 1000000000000) : Rat) : Rat) == 4160),
    (139, (nearest (((run0.energies[0]!.bank[0]!.eRD : Rat) * 1000000000000) : Rat) : Rat) == 1280),
    (140, (nearest (((run0.energies[0]!.bank[1]!.eRD : Rat) * 1000000000000) : Rat) : Rat) == 320),
    (141, (nearest (((run0.energies[0]!.bank[2]!.eRD : Rat) * 1000000000000) : Rat) : Rat) == 320),
    (142, (nearest (((run0.energies[0]!.bank[3]!.eRD : Rat) * 1000000000000) : Rat) : Rat) == 320),
    (143, (nearest (((run0.energies[0]!.bank[4]!.eRD : Rat) * 1000000000000) : Rat) : Rat) == 320),
    (144, (nearest (((run0.energies[0]!.bank[5]!.eRD : Rat) * 1000000000000) : Rat) : Rat) == 320),
    (145, (nearest (((run0.energies[0]!.bank[6]!.eRD : Rat) * 1000000000000) : Rat) : Rat) == 320),
    (146, (nearest (((run0.energies[0]!.bank[7]!.eRD : Rat) * 1000000000000) : Rat) : Rat) == 960),
    (148, (nearest (((run0.energies[0]!.aggregated.eWR : Rat) * 1000000000000) : Rat) : Rat) == 4608),
    (149, (nearest (((run0.energies[0]!.bank[0]!.eWR : Rat) * 1000000000000) : Rat) : Rat) == 1024),
    (150, (nearest (((run0.energies[0]!.bank[1]!.eWR : Rat) * 1000000000000) : Rat) : Rat) == 512),
    (151, (nearest (((run0.energies[0]!.bank[2]!.eWR : Rat) * 1000000000000) : Rat) : Rat) == 512),
    (152, (nearest (((run0.energies[0]!.bank[3]!.eWR : Rat) * 1000000000000) : Rat) : Rat) == 512),
    (153, (nearest (((run0.energies[0]!.bank[4]!.eWR : Rat) * 1000000000000) : Rat) : Rat) == 512),
    (154, (nearest (((run0.energies[0]!.bank[5]!.eWR : Rat) * 1000000000000) : Rat) : Rat) == 512),
    (155, (nearest (((run0.energies[0]!.bank[6]!.eWR : Rat) * 1000000000000) : Rat) : Rat) == 512),
    (156, (nearest (((run0.energies[0]!.bank[7]!.eWR : Rat) * 1000000000000) : Rat) : Rat) == 512)]

#guard failing checks == []

end lpddr6_13.CalcEnergy

/-! ## tests/tests_drampower/core/LPDDR6/lpddr6_test_pattern_14.cpp -/

namespace lpddr6_14.Test

def run0 : Log := run .lpddr6 ({ lpddr6 with
  core := { lpddr6.core with numberOfRanks := 1, numberOfBanks := 8, banksPerGroup := 8, numberOfBankGroups := 1, tRAS := 20, tRP := 10, prechargeOffsetRD := 10, prechargeOffsetWR := 20 },
  power := { lpddr6.power with ranks := 1, banks := 8, bankGroups := 1, devices := 1, tRAS := 20, tCK := (1/1000000000), tWCK := (1/1000000000), tRP := 10, rho := (333333333/1000000000), burstLength := 16, dataRate := 2, domains := (lpddr6.power.domains.modify 0 fun d => { d with v := 1, i0 := (8/125), i2n := (1/125), i3n := (4/125), i4r := (9/125), i4w := (12/125), iBeta := (8/125) }) },
  iface := { lpddr6.iface with ranks := 1, bankGroups := 1, devices := 1, bitWidth := 16, wckToCk := 1, burstLength := 16, dataRate := 2 },
  wires := { lpddr6.wires with bitWidth := 16, tCK := (1/1000000000), tWCK := (1/1000000000), dataRate := 2 } }) [
    .core { t := 0, type := .ACT },
    .core { t := 10, type := .RDA },
    .core { t := 15, type := .ACT, co := { bank := 1 } },
    .core { t := 15, type := .ACT, co := { bank := 2 } },
    .core { t := 25, type := .WRA, co := { bank := 1 } },
    .core { t := 30, type := .PRE },
    .core { t := 35, type := .RDA, co := { bank := 2 } },
    .core { t := 50, type := .ACT },
    .core { t := 50, type := .ACT, co := { bank := 2 } },
    .core { t := 60, type := .WRA },
    .core { t := 60, type := .RDA, co := { bank := 2 } },
    .core { t := 75, type := .ACT, co := { bank := 1 } },
    .core { t := 80, type := .ACT },
    .core { t := 85, type := .WRA },
    .core { t := 95, type := .RDA, co := { bank := 1 } },
    .core { t := 125, type := .END_OF_SIMULATION },
    .stats]

def checks : List (Nat × Bool) := [
    (0, run0.ok),
    (97, run0.stats[0]!.bank[0]!.counter.act == 3),
    (98, run0.stats[0]!.bank[1]!.counter.act == 2),
    (99, run0.stats[0]!.bank[2]!.counter.act == 2),
    (100, run0.stats[0]!.bank[3]!.counter.act == 0),
    (101, run0.stats[0]!.bank[4]!.counter.act == 0),
    (102, run0.stats[0]!.bank[5]!.counter.act == 0),
    (103, run0.stats[0]!.bank[6]!.counter.act == 0),
    (104, run0.stats[0]!.bank[7]!.counter.act == 0),
    (107, run0.stats[0]!.bank[0]!.counter.readAuto == 1),
    (108, run0.stats[0]!.bank[1]!.counter.readAuto == 1),
    (109, run0.stats[0]!.bank[2]!.counter.readAuto == 2),
    (110, run0.stats[0]!.bank[3]!.counter.readAuto == 0),
    (111, run0.stats[0]!.bank[4]!.counter.readAuto == 0),
    (112, run0.stats[0]!.bank[5]!.counter.readAuto == 0),
    (113, run0.stats[0]!.bank[6]!.counter.readAuto == 0),
    (114, run0.stats[0]!.bank[7]!.counter.readAuto == 0),
    (117, run0.stats[0]!.bank[0]!.counter.writeAuto == 2),
    (118, run0.stats[0]!.bank[1]!.counter.writeAuto == 1),
    (119, run0.stats[0]!.bank[2]!.counter.writeAuto == 0),
    (120, run0.stats[0]!.bank[3]!.counter.writeAuto == 0),
    (121, run0.stats[0]!.bank[4]!.counter.writeAuto == 0),
    (122, run0.stats[0]!.bank[5]!.counter.writeAuto == 0),
    (123, run0.stats[0]!.bank[6]!.counter.writeAuto == 0),
    (124, run0.stats[0]!.bank[7]!.counter.writeAuto == 0),
    (127, run0.stats[0]!.rankTotal[0]!.cycles.act == 100),
    (128, run0.stats[0]!.rankTotal[0]!.cycles.pre == 25),
    (131, run0.stats[0]!.bank[0]!.cycles.act == 75),
    (132, run0.stats[0]!.bank[1]!.cycles.act == 60),
    (133, run0.stats[0]!.bank[2]!.cycles.act == 50),
    (134, run0.stats[0]!.bank[3]!.cycles.act == 0),
    (135, run0.stats[0]!.bank[4]!.cycles.act == 0),
    (136, run0.stats[0]!.bank[5]!.cycles.act == 0),
    (137, run0.stats[0]!.bank[6]!.cycles.act == 0),
    (138, run0.stats[0]!.bank[7]!.cycles.act == 0),
    (141, run0.stats[0]!.bank[0]!.cycles.pre == 50),
    (142, run0.stats[0]!.bank[1]!.cycles.pre == 65),
    (143, run0.stats[0]!.bank[2]!.cycles.pre == 75),
    (144, run0.stats[0]!.bank[3]!.cycles.pre == 125),
    (145, run0.stats[0]!.bank[4]!.cycles.pre == 125),
    (146, run0.stats[0]!.bank[5]!.cycles.pre == 125),
    (147, run0.stats[0]!.bank[6]!.cycles.pre == 125),
    (148, run0.stats[0]!.bank[7]!.cycles.pre == 125)]

#guard failing checks == []

end lpddr6_14.Test

namespace lpddr6_14.CalcEnergy

def run0 : Log := run .lpddr6 ({ lpddr6 with
  core := { lpddr6.core with numberOfRanks := 1, numberOfBanks := 8, banksPerGroup := 8, numberOfBankGroups := 1, tRAS := 20, tRP := 10, prechargeOffsetRD := 10, prechargeOffsetWR := 20 },
  power := { lpddr6.power with ranks := 1, banks := 8, bankGroups := 1, devices := 1, tRAS := 20, tCK := (1/1000000000), tWCK := (1/1000000000), tRP := 10, rho := (333333333/1000000000), burstLength := 16, dataRate := 2, domains := (lpddr6.power.domains.modify 0 fun d => { d with v := 1, i0 := (8/125), i2n := (1/125), i3n := (4/125), i4r := (9/125), i4w := (12/125), iBeta := (8/125) }) },
  iface := { lpddr6.iface with ranks := 1, bankGroups := 1, devices := 1, bitWidth := 16, wckToCk := 1, burstLength := 16, dataRate := 2 },
  wires := { lpddr6.wires with bitWidth := 16, tCK := (1/1000000000), tWCK := (1/1000000000), dataRate := 2 } }) [
    .core { t := 0, type := .ACT },
    .core { t := 10, type := .RDA },
    .core { t := 15, type := .ACT, co := { bank := 1 } },
    .core { t := 15, type := .ACT, co := { bank := 2 } },
    .core { t := 25, type := .WRA, co := { bank := 1 } },
    .core { t := 30, type := .PRE },
    .core { t := 35, type := .RDA, co := { bank := 2 } },
    .core { t := 50, type := .ACT },
    .core { t := 50, type := .ACT, co := { bank := 2 } },
    .core { t := 60, type := .WRA },
    .core { t := 60, type := .RDA, co := { bank := 2 } },
    .core { t := 75, type := .ACT, co := { bank := 1 } },
    .core { t := 80, type := .ACT },
    .core { t := 85, type := .WRA },
    .core { t := 95, type := .RDA, co := { bank := 1 } },
    .core { t := 125, type := .END_OF_SIMULATION },
    .coreEnergy 125]

def checks : List (Nat × Bool) := [
    (0, run0.ok),
    (165, (nearest (((run0.energies[0]!.aggregated.eBgAct : Rat) * 1000000000000) : Rat) : Rat) == 3608),
    (166, (nearest (((run0.energies[0]!.shared.bgActShared : Rat) * 1000000000000) : Rat) : Rat) == 2720),
    (167, (nearest (((run0.energies[0]!.bank[0]!.eBgAct : Rat) * 1000000000000) : Rat) : Rat) == 360),
    (168, (nearest (((run0.energies[0]!.bank[1]!.eBgAct : Rat) * 1000000000000) : Rat) : Rat) == 288),
    (169, (nearest (((run0.energies[0]!.bank[2]!.eBgAct : Rat) * 1000000000000) : Rat) : Rat) == 240),
    (170, (nearest (((run0.energies[0]!.bank[3]!.eBgAct : Rat) * 1000000000000) : Rat) : Rat) == 0),
    (171, (nearest (((run0.energies[0]!.bank[4]!.eBgAct : Rat) * 1000000000000) : Rat) : Rat) == 0),
    (172, (nearest (((run0.energies[0]!.bank[5]!.eBgAct : Rat) * 1000000000000) : Rat) : Rat) == 0),
    (173, (nearest (((run0.energies[0]!.bank[6]!.eBgAct : Rat) * 1000000000000) : Rat) : Rat) == 0),
    (174, (nearest (((run0.energies[0]!.bank[7]!.eBgAct : Rat) * 1000000000000) : Rat) : Rat) == 0),
    (176, (nearest (((run0.energies[0]!.aggregated.eBgPre : Rat) * 1000000000000) : Rat) : Rat) == 200),
    (177, (nearest (((run0.energies[0]!.bank[0]!.eBgPre : Rat) * 1000000000000) : Rat) : Rat) == 25),
    (178, (nearest (((run0.energies[0]!.bank[1]!.eBgPre : Rat) * 1000000000000) : Rat) : Rat) == 25),
    (179, (nearest (((run0.energies[0]!.bank[2]!.eBgPre : Rat) * 1000000000000) : Rat) : Rat) == 25),
    (180, (nearest (((run0.energies[0]!.bank[3]!.eBgPre : Rat) * 1000000000000) : Rat) : Rat) == 25),
    (181, (nearest (((run0.energies[0]!.bank[4]!.eBgPre : Rat) * 1000000000000) : Rat) : Rat) == 25),
    (182, (nearest (((run0.energies[0]!.bank[5]!.eBgPre : Rat) * 1000000000000) : Rat) : Rat) == 25),
    (183, (nearest (((run0.energies[0]!.bank[6]!.eBgPre : Rat) * 1000000000000) : Rat) : Rat) == 25),
    (184, (nearest (((run0.energies[0]!.bank[7]!.eBgPre : Rat) * 1000000000000) : Rat) : Rat) == 25),
    (186, (nearest (((run0.energies[0]!.aggregated.eRDA : Rat) * 1000000000000) : Rat) : Rat) == 1126),
    (187, (nearest (((run0.energies[0]!.bank[0]!.eRDA : Rat) * 1000000000000) : Rat) : Rat) == 282),
    (188, (nearest (((run0.energies[0]!.bank[1]!.eRDA : Rat) * 1000000000000) : Rat) : Rat) == 282),
    (189, (nearest (((run0.energies[0]!.bank[2]!.eRDA : Rat) * 1000000000000) : Rat) : Rat) == 563),
    (190, (nearest (((run0.energies[0]!.bank[3]!.eRDA : Rat) * 1000000000000) : Rat) : Rat) == 0),
    (191, (nearest (((run0.energies[0]!.bank[4]!.eRDA : Rat) * 1000000000000) : Rat) : Rat) == 0),
    (192, (nearest (((run0.energies[0]!.bank[5]!.eRDA : Rat) * 1000000000000) : Rat) : Rat) == 0),
    (193, (nearest (((run0.energies[0]!.bank[6]!.eRDA : Rat) * 1000000000000) : Rat) : Rat) == 0),
    (194, (nearest (((run0.energies[0]!.bank[7]!.eRDA : Rat) * 1000000000000) : Rat) : Rat) == 0),
    (196, (nearest (((run0.energies[0]!.aggregated.eWRA : Rat) * 1000000000000) : Rat) : Rat) == 1421),
    (197, (nearest (((run0.energies[0]!.bank[0]!.eWRA : Rat) * 1000000000000) : Rat) : Rat) == 947),
    (198, (nearest (((run0.energies[0]!.bank[1]!.eWRA : Rat) * 1000000000000) : Rat) : Rat) == 474),
    (199, (nearest (((run0.energies[0]!.bank[2]!.eWRA : Rat) * 1000000000000) : Rat) : Rat) == 0),
    (200, (nearest (((run0.energies[0]!.bank[3]!.eWRA : Rat) * 1000000000000) : Rat) : Rat) == 0),
    (201, (nearest (((run0.energies[0]!.bank[4]!.eWRA : Rat) * 1000000000000) : Rat) : Rat) == 0),
    (202, (nearest (((run0.energies[0]!.bank[5]!.eWRA : Rat) * 1000000000000) : Rat) : Rat) == 0),
    (203, (nearest (((run0.energies[0]!.bank[6]!.eWRA : Rat) * 1000000000000) : Rat) : Rat) == 0),
    (204, (nearest (((run0.energies[0]!.bank[7]!.eWRA : Rat) * 1000000000000) : Rat) : Rat) == 0),
    (206, (nearest (((run0.energies[0]!.aggregated.ePreRDA : Rat) * 1000000000000) : Rat) : Rat) == 2240),
    (207, (nearest (((run0.energies[0]!.bank[0]!.ePreRDA : Rat) * 1000000000000) : Rat) : Rat) == 560),
    (208, (nearest (((run0.energies[0]!.bank[1]!.ePreRDA : Rat) * 1000000000000) : Rat) : Rat) == 560),
    (209, (nearest (((run0.energies[0]!.bank[2]!.ePreRDA : Rat) * 1000000000000) : Rat) : Rat) == 1120),
    (210, (nearest (((run0.energies[0]!.bank[3]!.ePreRDA : Rat) * 1000000000000) : Rat) : Rat) == 0),
    (211, (nearest (((run0.energies[0]!.bank[4]!.ePreRDA : Rat) * 1000000000000) : Rat) : Rat) == 0),
    (212, (nearest (((run0.energies[0]!.bank[5]!.ePreRDA : Rat) * 1000000000000) : Rat) : Rat) == 0),
    (213, (nearest (((run0.energies[0]!.bank[6]!.ePreRDA : Rat) * 1000000000000) : Rat) : Rat) == 0),
    (214, (nearest (((run0.energies[0]!.bank[7]!.ePreRDA : Rat) * 1000000000000) : Rat) : Rat) == 0),
    (216, (nearest (((run0.energies[0]!.aggregated.ePreWRA : Rat) * 1000000000000) : Rat) : Rat) == 1680),
    (217, (nearest (((run0.energies[0]!.bank[0]!.ePreWRA : Rat) * 1000000000000) : Rat) : Rat) == 1120),
    (218, (nearest (((run0.energies[0]!.bank[1]!.ePreWRA : Rat) * 1000000000000) : Rat) : Rat) == 560),
    (219, (nearest (((run0.energies[0]!.bank[2]!.ePreWRA : Rat) * 1000000000000) : Rat) : Rat) == 0),
    (220, (nearest (((run0.energies[0]!.bank[3]!.ePreWRA : Rat) * 1000000000000) : Rat) : Rat) == 0),
    (221, (nearest (((run0.energies[0]!.bank[4]!.ePreWRA : Rat) * 1000000000000) : Rat) : Rat) == 0),
    (222, (nearest (((run0.energies[0]!.bank[5]!.ePreWRA : Rat) * 1000000000000) : Rat) : Rat) == 0),
    (223, (nearest (((run0.energies[0]!.bank[6]!.ePreWRA : Rat) * 1000000000000) : Rat) : Rat) == 0),
    (224, (nearest (((run0.energies[0]!.bank[7]!.ePreWRA : Rat) * 1000000000000) : Rat) : Rat) == 0)]

#guard failing checks == []

end lpddr6_14.CalcEnergy

/-! ## tests/tests_drampower/core/LPDDR6/lpddr6_test_pattern_15.cpp -/

namespace lpddr6_15.Test

def run0 : Log := run .lpddr6 ({ lpddr6 with
  core := { lpddr6.core with numberOfRanks := 1, numberOfBanks := 8, banksPerGroup := 8, numberOfBankGroups := 1, tRAS := 10, tRP := 10 },
  power := { lpddr6.power with ranks := 1, banks := 8, bankGroups := 1, devices := 1, tRAS := 10, tCK := (1/1000000000), tWCK := (1/1000000000), tRP := 10, rho := (333333333/1000000000), burstLength := 16, dataRate := 2, domains := (lpddr6.power.domains.modify 0 fun d => { d with v := 1, i0 := (8/125), i2n := (1/125), i3n := (4/125), i4r := (9/125), i4w := (9/125), iBeta := (8/125) }) },
  iface := { lpddr6.iface with ranks := 1, bankGroups := 1, devices := 1, bitWidth := 16, wckToCk := 2, burstLength := 16, dataRate := 2 },
  wires := { lpddr6.wires with bitWidth := 16, tCK := (1/1000000000), tWCK := (1/1000000000), dataRate := 2 } }) [
    .core { t := 0, type := .ACT },
    .core { t := 5, type := .ACT, co := { bank := 1 } },
    .core { t := 10, type := .ACT, co := { bank := 2 } },
    .core { t := 15, type := .PRE },
    .core { t := 20, type := .PREA },
    .core { t := 25, type := .PRE, co := { bank := 1 } },
    .core { t := 30, type := .PREA },
    .core { t := 40, type := .ACT },
    .core { t := 40, type := .ACT, co := { bank := 3 } },
    .core { t := 50, type := .PRE, co := { bank := 3 } },
    .core { t := 125, type := .END_OF_SIMULATION },
    .stats]

def checks : List (Nat × Bool) := [
    (0, run0.ok),
    (87, run0.stats[0]!.bank[0]!.counter.act == 2),
    (88, run0.stats[0]!.bank[1]!.counter.act == 1),
    (89, run0.stats[0]!.bank[2]!.counter.act == 1),
    (90, run0.stats[0]!.bank[3]!.counter.act == 1),
    (91, run0.stats[0]!.bank[4]!.counter.act == 0),
    (94, run0.stats[0]!.rankTotal[0]!.cycles.act == 105),
    (95, run0.stats[0]!.rankTotal[0]!.cycles.pre == 20),
    (98, run0.stats[0]!.bank[0]!.cycles.act == 100),
    (99, run0.stats[0]!.bank[1]!.cycles.act == 15),
    (100, run0.stats[0]!.bank[2]!.cycles.act == 10),
    (101, run0.stats[0]!.bank[3]!.cycles.act == 10),
    (102, run0.stats[0]!.bank[4]!.cycles.act == 0),
    (105, run0.stats[0]!.bank[0]!.cycles.pre == 25),
    (106, run0.stats[0]!.bank[1]!.cycles.pre == 110),
    (107, run0.stats[0]!.bank[2]!.cycles.pre == 115),
    (108, run0.stats[0]!.bank[3]!.cycles.pre == 115),
    (109, run0.stats[0]!.bank[4]!.cycles.pre == 125)]

#guard failing checks == []

end lpddr6_15.Test

namespace lpddr6_15.CalcEnergy

def run0 : Log := run .lpddr6 ({ lpddr6 with
  core := { lpddr6.core with numberOfRanks := 1, numberOfBanks := 8, banksPerGroup := 8, numberOfBankGroups := 1, tRAS := 10, tRP := 10 },
  power := { lpddr6.power with ranks := 1, banks := 8, bankGroups := 1, devices := 1, tRAS := 10, tCK := (1/1000000000), tWCK := (1/1000000000), tRP := 10, rho := (333333333/1000000000), burstLength := 16, dataRate := 2, domains := (lpddr6.power.domains.modify 0 fun d => { d with v := 1, i0 := (8/125), i2n := (1/125), i3n := (4/125), i4r := (9/125), i4w := (9/125), iBeta := (8/125) }) },
  iface := { lpddr6.iface with ranks := 1, bankGroups := 1, devices := 1, bitWidth := 16, wckToCk := 2, burstLength := 16, dataRate := 2 },
  wires := { lpddr6.wires with bitWidth := 16, tCK := (1/1000000000), tWCK := (1/1000000000), dataRate := 2 } }) [
    .core { t := 0, type := .ACT },
    .core { t := 5, type := .ACT, co := { bank := 1 } },
    .core { t := 10, type := .ACT, co := { bank := 2 } },
    .core { t := 15, type := .PRE },
    .core { t := 20, type := .PREA },
    .core { t := 25, type := .PRE, co := { bank := 1 } },
    .core { t := 30, type := .PREA },
    .core { t := 40, type := .ACT },
    .core { t := 40, type := .ACT, co := { bank := 3 } },
    .core { t := 50, type := .PRE, co := { bank := 3 } },
    .core { t := 125, type := .END_OF_SIMULATION },
    .coreEnergy 125]

def checks : List (Nat × Bool) := [
    (0, run0.ok),
    (126, (nearest (((run0.energies[0]!.aggregated.eAct : Rat) * 1000000000000) : Rat) : Rat) == 1600),
    (127, (nearest (((run0.energies[0]!.bank[0]!.eAct : Rat) * 1000000000000) : Rat) : Rat) == 640),
    (128, (nearest (((run0.energies[0]!.bank[1]!.eAct : Rat) * 1000000000000) : Rat) : Rat) == 320),
    (129, (nearest (((run0.energies[0]!.bank[2]!.eAct : Rat) * 1000000000000) : Rat) : Rat) == 320),
    (130, (nearest (((run0.energies[0]!.bank[3]!.eAct : Rat) * 1000000000000) : Rat) : Rat) == 320),
    (131, (nearest (((run0.energies[0]!.bank[4]!.eAct : Rat) * 1000000000000) : Rat) : Rat) == 0),
    (132, (nearest (((run0.energies[0]!.bank[5]!.eAct : Rat) * 1000000000000) : Rat) : Rat) == 0),
    (133, (nearest (((run0.energies[0]!.bank[6]!.eAct : Rat) * 1000000000000) : Rat) : Rat) == 0),
    (134, (nearest (((run0.energies[0]!.bank[7]!.eAct : Rat) * 1000000000000) : Rat) : Rat) == 0),
    (136, (nearest (((run0.energies[0]!.aggregated.ePre : Rat) * 1000000000000) : Rat) : Rat) == 2240),
    (137, (nearest (((run0.energies[0]!.bank[0]!.ePre : Rat) * 1000000000000) : Rat) : Rat) == 560),
    (138, (nearest (((run0.energies[0]!.bank[1]!.ePre : Rat) * 1000000000000) : Rat) : Rat) == 560),
    (139, (nearest (((run0.energies[0]!.bank[2]!.ePre : Rat) * 1000000000000) : Rat) : Rat) == 560),
    (140, (nearest (((run0.energies[0]!.bank[3]!.ePre : Rat) * 1000000000000) : Rat) : Rat) == 560),
    (141, (nearest (((run0.energies[0]!.bank[4]!.ePre : Rat) * 1000000000000) : Rat) : Rat) == 0),
    (142, (nearest (((run0.energies[0]!.bank[5]!.ePre : Rat) * 1000000000000) : Rat) : Rat) == 0),
    (143, (nearest (((run0.energies[0]!.bank[6]!.ePre : Rat) * 1000000000000) : Rat) : Rat) == 0),
    (144, (nearest (((run0.energies[0]!.bank[7]!.ePre : Rat) * 1000000000000) : Rat) : Rat) == 0),
    (146, (nearest (((run0.energies[0]!.aggregated.eBgAct : Rat) * 1000000000000) : Rat) : Rat) == 3504),
    (147, (nearest (((run0.energies[0]!.shared.bgActShared : Rat) * 1000000000000) : Rat) : Rat) == 2856),
    (148, (nearest (((run0.energies[0]!.bank[0]!.eBgAct : Rat) * 1000000000000) : Rat) : Rat) == 480),
    (149, (nearest (((run0.energies[0]!.bank[1]!.eBgAct : Rat) * 1000000000000) : Rat) : Rat) == 72),
    (150, (nearest (((run0.energies[0]!.bank[2]!.eBgAct : Rat) * 1000000000000) : Rat) : Rat) == 48),
    (151, (nearest (((run0.energies[0]!.bank[3]!.eBgAct : Rat) * 1000000000000) : Rat) : Rat) == 48),
    (152, (nearest (((run0.energies[0]!.bank[4]!.eBgAct : Rat) * 1000000000000) : Rat) : Rat) == 0),
    (153, (nearest (((run0.energies[0]!.bank[5]!.eBgAct : Rat) * 1000000000000) : Rat) : Rat) == 0),
    (154, (nearest (((run0.energies[0]!.bank[6]!.eBgAct : Rat) * 1000000000000) : Rat) : Rat) == 0),
    (155, (nearest (((run0.energies[0]!.bank[7]!.eBgAct : Rat) * 1000000000000) : Rat) : Rat) == 0),
    (157, (nearest (((run0.energies[0]!.aggregated.eBgPre : Rat) * 1000000000000) : Rat) : Rat) == 160),
    (158, (nearest (((run0.energies[0]!.bank[0]!.eBgPre : Rat) * 1000000000000) : Rat) : Rat) == 20),
    (159, (nearest (((run0.energies[0]!.bank[1]!.eBgPre : Rat) * 1000000000000) : Rat) : Rat) == 20),
    (160, (nearest (((run0.energies[0]!.bank[2]!.eBgPre : Rat) * 1000000000000) : Rat) : Rat) == 20),
    (161, (nearest (((run0.energies[0]!.bank[3]!.eBgPre : Rat) * 1000000000000) : Rat) : Rat) == 20),
    (162, (nearest (((run0.energies[0]!.bank[4]!.eBgPre : Rat) * 1000000000000) : Rat) : Rat) == 20),
    (163, (nearest (((run0.energies[0]!.bank[5]!.eBgPre : Rat) * 1000000000000) : Rat) : Rat) == 20),
    (164, (nearest (((run0.energies[0]!.bank[6]!.eBgPre : Rat) * 1000000000000) : Rat) : Rat) == 20),
    (165, (nearest (((run0.energies[0]!.bank[7]!.eBgPre : Rat) * 1000000000000) : Rat) : Rat) == 20)]

#guard failing checks == []

end lpddr6_15.CalcEnergy

/-! ## tests/tests_drampower/core/LPDDR6/lpddr6_test_pattern_16.cpp -/

namespace lpddr6_16.Test

def run0 : Log := run .lpddr6 ({ lpddr6 with
  core := { lpddr6.core with numberOfRanks := 1, numberOfBanks := 16, banksPerGroup := 8, numberOfBankGroups := 1, tRAS := 10, tRFCDB := 25, tRP := 10, prechargeOffsetRD := 10, prechargeOffsetWR := 29 },
  power := { lpddr6.power with ranks := 1, banks := 16, bankGroups := 1, devices := 1, tRAS := 10, tRFCpb := 25, tCK := (1/1000000000), tWCK := (1/1000000000), tRP := 10, tREFI := 1, rho := (333333333/1000000000), burstLength := 16, dataRate := 2, domains := (lpddr6.power.domains.modify 0 fun d => { d with v := 1, i0 := (8/125), i2n := (1/125), i3n := (4/125), i4r := (9/125), i4w := (9/125), i5pb := (751/125), iBeta := (8/125) }) },
  iface := { lpddr6.iface with ranks := 1, bankGroups := 1, devices := 1, bitWidth := 16, wckToCk := 1, burstLength := 16, dataRate := 2 },
  wires := { lpddr6.wires with bitWidth := 16, tCK := (1/1000000000), tWCK := (1/1000000000), dataRate := 2 } }) [
    .core { t := 0, type := .ACT },
    .core { t := 0, type := .ACT, co := { bank := 1 } },
    .core { t := 0, type := .ACT, co := { bank := 2 } },
    .core { t := 15, type := .PRE },
    .core { t := 20, type := .REFDB },
    .core { t := 25, type := .PRE, co := { bank := 1 } },
    .core { t := 30, type := .RDA, co := { bank := 2 } },
    .core { t := 50, type := .REFDB, co := { bank := 2 } },
    .core { t := 60, type := .ACT, co := { bank := 1 } },
    .core { t := 80, type := .PRE, co := { bank := 1 } },
    .core { t := 85, type := .REFDB, co := { bank := 1 } },
    .core { t := 85, type := .REFDB },
    .core { t := 125, type := .END_OF_SIMULATION },
    .stats]

def checks : List (Nat × Bool) := [
    (0, run0.ok),
    (96, run0.stats[0]!.bank[0]!.counter.act == 1),
    (97, run0.stats[0]!.bank[1]!.counter.act == 2),
    (98, run0.stats[0]!.bank[2]!.counter.act == 1),
    (99, run0.stats[0]!.bank[3]!.counter.act == 0),
    (102, run0.stats[0]!.bank[0]!.counter.pre == 1),
    (103, run0.stats[0]!.bank[1]!.counter.pre == 2),
    (104, run0.stats[0]!.bank[2]!.counter.pre == 1),
    (105, run0.stats[0]!.bank[3]!.counter.pre == 0),
    (108, run0.stats[0]!.bank[0]!.counter.refDualBanks == 2),
    (109, run0.stats[0]!.bank[1]!.counter.refDualBanks == 1),
    (110, run0.stats[0]!.bank[2]!.counter.refDualBanks == 1),
    (111, run0.stats[0]!.bank[3]!.counter.refDualBanks == 0),
    (113, run0.stats[0]!.bank[8]!.counter.refDualBanks == 2),
    (114, run0.stats[0]!.bank[9]!.counter.refDualBanks == 1),
    (115, run0.stats[0]!.bank[10]!.counter.refDualBanks == 1),
    (116, run0.stats[0]!.bank[11]!.counter.refDualBanks == 0),
    (119, run0.stats[0]!.rankTotal[0]!.cycles.act == 100),
    (120, run0.stats[0]!.rankTotal[0]!.cycles.pre == 25),
    (123, run0.stats[0]!.bank[0]!.cycles.act == 65),
    (124, run0.stats[0]!.bank[1]!.cycles.act == 70),
    (125, run0.stats[0]!.bank[2]!.cycles.act == 65),
    (126, run0.stats[0]!.bank[3]!.cycles.act == 0),
    (129, run0.stats[0]!.bank[0]!.cycles.pre == 60),
    (130, run0.stats[0]!.bank[1]!.cycles.pre == 55),
    (131, run0.stats[0]!.bank[2]!.cycles.pre == 60),
    (132, run0.stats[0]!.bank[3]!.cycles.pre == 125)]

#guard failing checks == []

end lpddr6_16.Test

namespace lpddr6_16.CalcEnergy

def run0 : Log := run .lpddr6 ({ lpddr6 with
  core := { lpddr6.core with numberOfRanks := 1, numberOfBanks := 16, banksPerGroup := 8, numberOfBankGroups := 1, tRAS := 10, tRFCDB := 25, tRP := 10, prechargeOffsetRD := 10, prechargeOffsetWR := 29 },
  power := { lpddr6.power with ranks := 1, banks := 16, bankGroups := 1, devices := 1, tRAS := 10, tRFCpb := 25, tCK := (1/1000000000), tWCK := (1/1000000000), tRP := 10, tREFI := 1, rho := (333333333/1000000000), burstLength := 16, dataRate := 2, domains := (lpddr6.power.domains.modify 0 fun d => { d with v := 1, i0 := (8/125), i2n := (1/125), i3n := (4/125), i4r := (9/125), i4w := (9/125), i5pb := (751/125), iBeta := (8/125) }) },
  iface := { lpddr6.iface with ranks := 1, bankGroups := 1, devices := 1, bitWidth := 16, wckToCk := 1, burstLength := 16, dataRate := 2 },
  wires := { lpddr6.wires with bitWidth := 16, tCK := (1/1000000000), tWCK := (1/1000000000), dataRate := 2 } }) [
    .core { t := 0, type := .ACT },
    .core { t := 0, type := .ACT, co := { bank := 1 } },
    .core { t := 0, type := .ACT, co := { bank := 2 } },
    .core { t := 15, type := .PRE },
    .core { t := 20, type := .REFDB },
    .core { t := 25, type := .PRE, co := { bank := 1 } },
    .core { t := 30, type := .RDA, co := { bank := 2 } },
    .core { t := 50, type := .REFDB, co := { bank := 2 } },
    .core { t := 60, type := .ACT, co := { bank := 1 } },
    .core { t := 80, type := .PRE, co := { bank := 1 } },
    .core { t := 85, type := .REFDB, co := { bank := 1 } },
    .core { t := 85, type := .REFDB },
    .core { t := 125, type := .END_OF_SIMULATION },
    .coreEnergy 125]

def checks : List (Nat × Bool) := [
    (0, run0.ok),
    (150, (nearest (((run0.energies[0]!.aggregated.eBgAct : Rat) * 1000000000000) : Rat) : Rat) == 3733),
    (151, (nearest (((run0.energies[0]!.shared.bgActShared : Rat) * 1000000000000) : Rat) : Rat) == 2933),
    (152, (nearest (((run0.energies[0]!.bank[0]!.eBgAct : Rat) * 1000000000000) : Rat) : Rat) == 173),
    (153, (nearest (((run0.energies[0]!.bank[1]!.eBgAct : Rat) * 1000000000000) : Rat) : Rat) == 187),
    (154, (nearest (((run0.energies[0]!.bank[2]!.eBgAct : Rat) * 1000000000000) : Rat) : Rat) == 173),
    (155, (nearest (((run0.energies[0]!.bank[3]!.eBgAct : Rat) * 1000000000000) : Rat) : Rat) == 0),
    (156, (nearest (((run0.energies[0]!.bank[4]!.eBgAct : Rat) * 1000000000000) : Rat) : Rat) == 0),
    (157, (nearest (((run0.energies[0]!.bank[5]!.eBgAct : Rat) * 1000000000000) : Rat) : Rat) == 0),
    (158, (nearest (((run0.energies[0]!.bank[6]!.eBgAct : Rat) * 1000000000000) : Rat) : Rat) == 0),
    (159, (nearest (((run0.energies[0]!.bank[7]!.eBgAct : Rat) * 1000000000000) : Rat) : Rat) == 0),
    (161, (nearest (((run0.energies[0]!.aggregated.eBgPre : Rat) * 1000000000000) : Rat) : Rat) == 200),
    (162, (nearest (((run0.energies[0]!.bank[0]!.eBgPre : Rat) * 1000000000000) : Rat) : Rat) == 13),
    (163, (nearest (((run0.energies[0]!.bank[1]!.eBgPre : Rat) * 1000000000000) : Rat) : Rat) == 13),
    (164, (nearest (((run0.energies[0]!.bank[2]!.eBgPre : Rat) * 1000000000000) : Rat) : Rat) == 13),
    (165, (nearest (((run0.energies[0]!.bank[3]!.eBgPre : Rat) * 1000000000000) : Rat) : Rat) == 13),
    (166, (nearest (((run0.energies[0]!.bank[4]!.eBgPre : Rat) * 1000000000000) : Rat) : Rat) == 13),
    (167, (nearest (((run0.energies[0]!.bank[5]!.eBgPre : Rat) * 1000000000000) : Rat) : Rat) == 13),
    (168, (nearest (((run0.energies[0]!.bank[6]!.eBgPre : Rat) * 1000000000000) : Rat) : Rat) == 13),
    (169, (nearest (((run0.energies[0]!.bank[7]!.eBgPre : Rat) * 1000000000000) : Rat) : Rat) == 13),
    (171, (nearest (((run0.energies[0]!.aggregated.eRefDB : Rat) * 1000000000000) : Rat) : Rat) == 333),
    (172, (nearest (((run0.energies[0]!.bank[0]!.eRefDB : Rat) * 1000000000000) : Rat) : Rat) == 83),
    (173, (nearest (((run0.energies[0]!.bank[1]!.eRefDB : Rat) * 1000000000000) : Rat) : Rat) == 42),
    (174, (nearest (((run0.energies[0]!.bank[2]!.eRefDB : Rat) * 1000000000000) : Rat) : Rat) == 42),
    (175, (nearest (((run0.energies[0]!.bank[3]!.eRefDB : Rat) * 1000000000000) : Rat) : Rat) == 0),
    (176, (nearest (((run0.energies[0]!.bank[4]!.eRefDB : Rat) * 1000000000000) : Rat) : Rat) == 0),
    (177, (nearest (((run0.energies[0]!.bank[5]!.eRefDB : Rat) * 1000000000000) : Rat) : Rat) == 0),
    (178, (nearest (((run0.energies[0]!.bank[6]!.eRefDB : Rat) * 1000000000000) : Rat) : Rat) == 0),
    (179, (nearest (((run0.energies[0]!.bank[7]!.eRefDB : Rat) * 1000000000000) : Rat) : Rat) == 0)]

#guard failing checks == []

end lpddr6_16.CalcEnergy

/-! ## tests/tests_drampower/core/LPDDR6/lpddr6_test_pattern_17.cpp -/

namespace lpddr6_17.Test

def run0 : Log := run .lpddr6 ({ lpddr6 with
  core := { lpddr6.core with numberOfRanks := 1, numberOfBanks := 16, numberOfBankGroups := 2, tRAS := 10, tRFCDB := 25, tRP := 10 },
  power := { lpddr6.power with ranks := 1, banks := 16, bankGroups := 2, devices := 1, tRAS := 10, tRFCpb := 25, tCK := (1/1000000000), tWCK := (1/1000000000), tRP := 10, tREFI := 1, rho := (333333333/1000000000), burstLength := 16, dataRate := 2, domains := (lpddr6.power.domains.modify 0 fun d => { d with v := 1, i0 := (8/125), i2n := (1/125), i3n := (4/125), i4r := (9/125), i4w := (9/125), i5pb := (10009/1000), iBeta := (8/125) }) },
  iface := { lpddr6.iface with ranks := 1, bankGroups := 2, devices := 1, bitWidth := 16, wckToCk := 2, burstLength := 16, dataRate := 2 },
  wires := { lpddr6.wires with bitWidth := 16, tCK := (1/1000000000), tWCK := (1/1000000000), dataRate := 2 } }) [
    .core { t := 0, type := .REFDB },
    .core { t := 5, type := .REFDB, co := { bank := 1 } },
    .core { t := 40, type := .REFDB, co := { bank := 4 } },
    .core { t := 45, type := .ACT },
    .core { t := 70, type := .PRE },
    .core { t := 80, type := .REFDB },
    .core { t := 125, type := .END_OF_SIMULATION },
    .stats]

def checks : List (Nat × Bool) := [
    (0, run0.ok),
    (87, run0.stats[0]!.bank[0]!.counter.act == 1),
    (90, run0.stats[0]!.bank[0]!.counter.pre == 1),
    (93, run0.stats[0]!.bank[0]!.counter.refDualBanks == 2),
    (94, run0.stats[0]!.bank[8]!.counter.refDualBanks == 2),
    (96, run0.stats[0]!.bank[1]!.counter.refDualBanks == 1),
    (97, run0.stats[0]!.bank[4]!.counter.refDualBanks == 1),
    (98, run0.stats[0]!.bank[9]!.counter.refDualBanks == 1),
    (99, run0.stats[0]!.bank[12]!.counter.refDualBanks == 1),
    (102, run0.stats[0]!.rankTotal[0]!.cycles.act == 85),
    (103, run0.stats[0]!.rankTotal[0]!.cycles.pre == 40),
    (106, run0.stats[0]!.bank[0]!.cycles.act == 75),
    (108, run0.stats[0]!.bank[8]!.cycles.act == 50),
    (110, run0.stats[0]!.bank[1]!.cycles.act == 25),
    (111, run0.stats[0]!.bank[9]!.cycles.act == 25),
    (112, run0.stats[0]!.bank[4]!.cycles.act == 25),
    (113, run0.stats[0]!.bank[12]!.cycles.act == 25),
    (115, run0.stats[0]!.bank[5]!.cycles.act == 0),
    (116, run0.stats[0]!.bank[13]!.cycles.act == 0),
    (119, run0.stats[0]!.bank[0]!.cycles.pre == 50),
    (121, run0.stats[0]!.bank[8]!.cycles.pre == 75),
    (123, run0.stats[0]!.bank[1]!.cycles.pre == 100),
    (124, run0.stats[0]!.bank[9]!.cycles.pre == 100),
    (125, run0.stats[0]!.bank[4]!.cycles.pre == 100),
    (126, run0.stats[0]!.bank[12]!.cycles.pre == 100),
    (128, run0.stats[0]!.bank[5]!.cycles.pre == 125),
    (129, run0.stats[0]!.bank[7]!.cycles.pre == 125)]

#guard failing checks == []

end lpddr6_17.Test

namespace lpddr6_17.CalcEnergy

def run0 : Log := run .lpddr6 ({ lpddr6 with
  core := { lpddr6.core with numberOfRanks := 1, numberOfBanks := 16, numberOfBankGroups := 2, tRAS := 10, tRFCDB := 25, tRP := 10 },
  power := { lpddr6.power with ranks := 1, banks := 16, bankGroups := 2, devices := 1, tRAS := 10, tRFCpb := 25, tCK := (1/1000000000), tWCK := (1/1000000000), tRP := 10, tREFI := 1, rho := (333333333/1000000000), burstLength := 16, dataRate := 2, domains := (lpddr6.power.domains.modify 0 fun d => { d with v := 1, i0 := (8/125), i2n := (1/125), i3n := (4/125), i4r := (9/125), i4w := (9/125), i5pb := (10009/1000), iBeta := (8/125) }) },
  iface := { lpddr6.iface with ranks := 1, bankGroups := 2, devices := 1, bitWidth := 16, wckToCk := 2, burstLength := 16, dataRate := 2 },
  wires := { lpddr6.wires with bitWidth := 16, tCK := (1/1000000000), tWCK := (1/1000000000), dataRate := 2 } }) [
    .core { t := 0, type := .REFDB },
    .core { t := 5, type := .REFDB, co := { bank := 1 } },
    .core { t := 40, type := .REFDB, co := { bank := 4 } },
    .core { t := 45, type := .ACT },
    .core { t := 70, type := .PRE },
    .core { t := 80, type := .REFDB },
    .core { t := 125, type := .END_OF_SIMULATION },
    .coreEnergy 125]

def checks : List (Nat × Bool) := [
    (0, run0.ok),
    (147, (nearest (((run0.energies[0]!.aggregated.eBgAct : Rat) * 1000000000000) : Rat) : Rat) == 3093),
    (148, (nearest (((run0.energies[0]!.shared.bgActShared : Rat) * 1000000000000) : Rat) : Rat) == 2493),
    (149, (nearest (((run0.energies[0]!.bank[0]!.eBgAct : Rat) * 1000000000000) : Rat) : Rat) == 200),
    (150, (nearest (((run0.energies[0]!.bank[1]!.eBgAct : Rat) * 1000000000000) : Rat) : Rat) == 67),
    (151, (nearest (((run0.energies[0]!.bank[2]!.eBgAct : Rat) * 1000000000000) : Rat) : Rat) == 0),
    (152, (nearest (((run0.energies[0]!.bank[3]!.eBgAct : Rat) * 1000000000000) : Rat) : Rat) == 0),
    (153, (nearest (((run0.energies[0]!.bank[4]!.eBgAct : Rat) * 1000000000000) : Rat) : Rat) == 67),
    (154, (nearest (((run0.energies[0]!.bank[5]!.eBgAct : Rat) * 1000000000000) : Rat) : Rat) == 0),
    (155, (nearest (((run0.energies[0]!.bank[6]!.eBgAct : Rat) * 1000000000000) : Rat) : Rat) == 0),
    (156, (nearest (((run0.energies[0]!.bank[7]!.eBgAct : Rat) * 1000000000000) : Rat) : Rat) == 0),
    (158, (nearest (((run0.energies[0]!.aggregated.eBgPre : Rat) * 1000000000000) : Rat) : Rat) == 320),
    (159, (nearest (((run0.energies[0]!.bank[0]!.eBgPre : Rat) * 1000000000000) : Rat) : Rat) == 20),
    (160, (nearest (((run0.energies[0]!.bank[1]!.eBgPre : Rat) * 1000000000000) : Rat) : Rat) == 20),
    (161, (nearest (((run0.energies[0]!.bank[2]!.eBgPre : Rat) * 1000000000000) : Rat) : Rat) == 20),
    (162, (nearest (((run0.energies[0]!.bank[3]!.eBgPre : Rat) * 1000000000000) : Rat) : Rat) == 20),
    (163, (nearest (((run0.energies[0]!.bank[4]!.eBgPre : Rat) * 1000000000000) : Rat) : Rat) == 20),
    (164, (nearest (((run0.energies[0]!.bank[5]!.eBgPre : Rat) * 1000000000000) : Rat) : Rat) == 20),
    (165, (nearest (((run0.energies[0]!.bank[6]!.eBgPre : Rat) * 1000000000000) : Rat) : Rat) == 20),
    (166, (nearest (((run0.energies[0]!.bank[7]!.eBgPre : Rat) * 1000000000000) : Rat) : Rat) == 20),
    (168, (nearest (((run0.energies[0]!.aggregated.eRefDB : Rat) * 1000000000000) : Rat) : Rat) == 2334),
    (169, (nearest (((run0.energies[0]!.bank[0]!.eRefDB : Rat) * 1000000000000) : Rat) : Rat) == 583),
    (170, (nearest (((run0.energies[0]!.bank[1]!.eRefDB : Rat) * 1000000000000) : Rat) : Rat) == 292),
    (171, (nearest (((run0.energies[0]!.bank[2]!.eRefDB : Rat) * 1000000000000) : Rat) : Rat) == 0),
    (172, (nearest (((run0.energies[0]!.bank[3]!.eRefDB : Rat) * 1000000000000) : Rat) : Rat) == 0),
    (173, (nearest (((run0.energies[0]!.bank[4]!.eRefDB : Rat) * 1000000000000) : Rat) : Rat) == 292),
    (174, (nearest (((run0.energies[0]!.bank[5]!.eRefDB : Rat) * 1000000000000) : Rat) : Rat) == 0),
    (175, (nearest (((run0.energies[0]!.bank[6]!.eRefDB : Rat) * 1000000000000) : Rat) : Rat) == 0),
    (176, (nearest (((run0.energies[0]!.bank[7]!.eRefDB : Rat) * 1000000000000) : Rat) : Rat) == 0)]

#guard failing checks == []

end lpddr6_17.CalcEnergy

/-! ## tests/tests_drampower/core/LPDDR6/lpddr6_test_pattern_18.cpp -/

namespace lpddr6_18.Test

def run0 : Log := run .lpddr6 ({ lpddr6 with
  core := { lpddr6.core with numberOfRanks := 1, numberOfBanks := 8, numberOfBankGroups := 2, banksPerGroup := 4, tRAS := 10, tRCDR := 20, tRCDW := 20, tRFCDB := 25, tRFC := 25, tRP := 20 },
  power := { lpddr6.power with ranks := 1, banks := 8, bankGroups := 2, devices := 1, tRAS := 10, tRFCpb := 25, tRFC := 25, tRP := 20, tCK := (1/1000000000), tWCK := (1/1000000000), tREFI := 1, rho := (333333333/1000000000), burstLength := 16, dataRate := 2, domains := (lpddr6.power.domains.modify 0 fun d => { d with v := 1, i0 := (8/125), i2n := (1/125), i2p := (3/500), i3n := (4/125), i3p := (1/50), i4r := (9/125), i4w := (9/125), i5pb := (3/100), iBeta := (8/125) }) },
  iface := { lpddr6.iface with ranks := 1, bankGroups := 2, devices := 1, bitWidth := 16, wckToCk := 2, burstLength := 16, dataRate := 2 },
  wires := { lpddr6.wires with bitWidth := 16, tCK := (1/1000000000), tWCK := (1/1000000000), dataRate := 2 } }) [
    .core { t := 0, type := .ACT },
    .core { t := 20, type := .PDEA },
    .core { t := 30, type := .PDXA },
    .core { t := 40, type := .PRE },
    .core { t := 60, type := .PDEP },
    .core { t := 65, type := .PDXP },
    .core { t := 75, type := .REFA },
    .core { t := 100, type := .PDEP },
    .core { t := 125, type := .END_OF_SIMULATION },
    .stats]

def checks : List (Nat × Bool) := [
    (0, run0.ok),
    (93, run0.stats[0]!.bank[0]!.counter.act == 1),
    (96, run0.stats[0]!.bank[0]!.counter.pre == 1),
    (99, run0.stats[0]!.rankTotal[0]!.cycles.act == 55),
    (100, run0.stats[0]!.rankTotal[0]!.cycles.act == 55),
    (101, run0.stats[0]!.rankTotal[0]!.cycles.pre == 30),
    (102, run0.stats[0]!.rankTotal[0]!.cycles.powerDownAct == 10),
    (103, run0.stats[0]!.rankTotal[0]!.cycles.powerDownPre == 30),
    (106, run0.stats[0]!.bank[0]!.cycles.act == 55),
    (106, run0.stats[0]!.bank[0]!.cycles.act == 55),
    (107, run0.stats[0]!.bank[1]!.cycles.act == 25),
    (107, run0.stats[0]!.bank[1]!.cycles.act == 25),
    (108, run0.stats[0]!.bank[2]!.cycles.act == 25),
    (108, run0.stats[0]!.bank[2]!.cycles.act == 25),
    (109, run0.stats[0]!.bank[3]!.cycles.act == 25),
    (109, run0.stats[0]!.bank[3]!.cycles.act == 25),
    (110, run0.stats[0]!.bank[4]!.cycles.act == 25),
    (110, run0.stats[0]!.bank[4]!.cycles.act == 25),
    (111, run0.stats[0]!.bank[5]!.cycles.act == 25),
    (111, run0.stats[0]!.bank[5]!.cycles.act == 25),
    (112, run0.stats[0]!.bank[6]!.cycles.act == 25),
    (112, run0.stats[0]!.bank[6]!.cycles.act == 25),
    (113, run0.stats[0]!.bank[7]!.cycles.act == 25),
    (113, run0.stats[0]!.bank[7]!.cycles.act == 25),
    (116, run0.stats[0]!.bank[0]!.cycles.pre == 30),
    (117, run0.stats[0]!.bank[1]!.cycles.pre == 60),
    (118, run0.stats[0]!.bank[2]!.cycles.pre == 60),
    (119, run0.stats[0]!.bank[3]!.cycles.pre == 60),
    (120, run0.stats[0]!.bank[4]!.cycles.pre == 60),
    (121, run0.stats[0]!.bank[5]!.cycles.pre == 60),
    (122, run0.stats[0]!.bank[6]!.cycles.pre == 60),
    (123, run0.stats[0]!.bank[7]!.cycles.pre == 60)]

#guard failing checks == []

end lpddr6_18.Test

namespace lpddr6_18.CalcEnergy

def run0 : Log := run .lpddr6 ({ lpddr6 with
  core := { lpddr6.core with numberOfRanks := 1, numberOfBanks := 8, numberOfBankGroups := 2, banksPerGroup := 4, tRAS := 10, tRCDR := 20, tRCDW := 20, tRFCDB := 25, tRFC := 25, tRP := 20 },
  power := { lpddr6.power with ranks := 1, banks := 8, bankGroups := 2, devices := 1, tRAS := 10, tRFCpb := 25, tRFC := 25, tRP := 20, tCK := (1/1000000000), tWCK := (1/1000000000), tREFI := 1, rho := (333333333/1000000000), burstLength := 16, dataRate := 2, domains := (lpddr6.power.domains.modify 0 fun d => { d with v := 1, i0 := (8/125), i2n := (1/125), i2p := (3/500), i3n := (4/125), i3p := (1/50), i4r := (9/125), i4w := (9/125), i5pb := (3/100), iBeta := (8/125) }) },
  iface := { lpddr6.iface with ranks := 1, bankGroups := 2, devices := 1, bitWidth := 16, wckToCk := 2, burstLength := 16, dataRate := 2 },
  wires := { lpddr6.wires with bitWidth := 16, tCK := (1/1000000000), tWCK := (1/1000000000), dataRate := 2 } }) [
    .core { t := 0, type := .ACT },
    .core { t := 20, type := .PDEA },
    .core { t := 30, type := .PDXA },
    .core { t := 40, type := .PRE },
    .core { t := 60, type := .PDEP },
    .core { t := 65, type := .PDXP },
    .core { t := 75, type := .REFA },
    .core { t := 100, type := .PDEP },
    .core { t := 125, type := .END_OF_SIMULATION },
    .coreEnergy 125]

def checks : List (Nat × Bool) := [
    (0, run0.ok),
    (140, (nearest (((run0.energies[0]!.aggregated.eBgAct : Rat) * 1000000000000) : Rat) : Rat) == 2600),
    (141, (nearest (((run0.energies[0]!.shared.bgActShared : Rat) * 1000000000000) : Rat) : Rat) == 1496),
    (142, (nearest (((run0.energies[0]!.bank[0]!.eBgAct : Rat) * 1000000000000) : Rat) : Rat) == 264),
    (143, (nearest (((run0.energies[0]!.bank[1]!.eBgAct : Rat) * 1000000000000) : Rat) : Rat) == 120),
    (144, (nearest (((run0.energies[0]!.bank[2]!.eBgAct : Rat) * 1000000000000) : Rat) : Rat) == 120),
    (145, (nearest (((run0.energies[0]!.bank[3]!.eBgAct : Rat) * 1000000000000) : Rat) : Rat) == 120),
    (146, (nearest (((run0.energies[0]!.bank[4]!.eBgAct : Rat) * 1000000000000) : Rat) : Rat) == 120),
    (147, (nearest (((run0.energies[0]!.bank[5]!.eBgAct : Rat) * 1000000000000) : Rat) : Rat) == 120),
    (148, (nearest (((run0.energies[0]!.bank[6]!.eBgAct : Rat) * 1000000000000) : Rat) : Rat) == 120),
    (149, (nearest (((run0.energies[0]!.bank[7]!.eBgAct : Rat) * 1000000000000) : Rat) : Rat) == 120),
    (151, (nearest (((run0.energies[0]!.aggregated.eBgPre : Rat) * 1000000000000) : Rat) : Rat) == 240),
    (152, (nearest (((run0.energies[0]!.bank[0]!.eBgPre : Rat) * 1000000000000) : Rat) : Rat) == 30),
    (153, (nearest (((run0.energies[0]!.bank[1]!.eBgPre : Rat) * 1000000000000) : Rat) : Rat) == 30),
    (154, (nearest (((run0.energies[0]!.bank[2]!.eBgPre : Rat) * 1000000000000) : Rat) : Rat) == 30),
    (155, (nearest (((run0.energies[0]!.bank[3]!.eBgPre : Rat) * 1000000000000) : Rat) : Rat) == 30),
    (156, (nearest (((run0.energies[0]!.bank[4]!.eBgPre : Rat) * 1000000000000) : Rat) : Rat) == 30),
    (157, (nearest (((run0.energies[0]!.bank[5]!.eBgPre : Rat) * 1000000000000) : Rat) : Rat) == 30),
    (158, (nearest (((run0.energies[0]!.bank[6]!.eBgPre : Rat) * 1000000000000) : Rat) : Rat) == 30),
    (159, (nearest (((run0.energies[0]!.bank[7]!.eBgPre : Rat) * 1000000000000) : Rat) : Rat) == 30),
    (161, (nearest (((run0.energies[0]!.shared.pdnA : Rat) * 1000000000000) : Rat) : Rat) == 200),
    (162, (nearest (((run0.energies[0]!.shared.pdnP : Rat) * 1000000000000) : Rat) : Rat) == 180)]

#guard failing checks == []

end lpddr6_18.CalcEnergy

/-! ## tests/tests_drampower/core/LPDDR6/lpddr6_test_pattern_19.cpp -/

namespace lpddr6_19.Test

def run0 : Log := run .lpddr6 ({ lpddr6 with
  core := { lpddr6.core with numberOfRanks := 1, numberOfBanks := 8, numberOfBankGroups := 2, banksPerGroup := 4, tRAS := 10, tRCDR := 20, tRCDW := 20, tRFCDB := 25, tRFC := 25, tRP := 20 },
  power := { lpddr6.power with ranks := 1, banks := 8, bankGroups := 2, devices := 1, tRAS := 10, tRFCpb := 25, tRFC := 25, tRP := 20, tCK := (1/1000000000), tWCK := (1/1000000000), tREFI := 1, rho := (333333333/1000000000), burstLength := 16, dataRate := 2, domains := (lpddr6.power.domains.modify 0 fun d => { d with v := 1, i0 := (8/125), i2n := (1/125), i2p := (3/500), i3n := (4/125), i3p := (1/50), i4r := (9/125), i4w := (9/125), i5pb := (3/100), iBeta := (8/125) }) },
  iface := { lpddr6.iface with ranks := 1, bankGroups := 2, devices := 1, bitWidth := 16, wckToCk := 2, burstLength := 16, dataRate := 2 },
  wires := { lpddr6.wires with bitWidth := 16, tCK := (1/1000000000), tWCK := (1/1000000000), dataRate := 2 } }) [
    .core { t := 0, type := .ACT },
    .core { t := 5, type := .PDEA },
    .core { t := 30, type := .PDXA },
    .core { t := 40, type := .PRE },
    .core { t := 45, type := .PDEP },
    .core { t := 65, type := .PDXP },
    .core { t := 75, type := .REFA },
    .core { t := 85, type := .PDEP },
    .core { t := 90, type := .PDXP },
    .core { t := 125, type := .END_OF_SIMULATION },
    .stats]

def checks : List (Nat × Bool) := [
    (0, run0.ok),
    (94, run0.stats[0]!.bank[0]!.counter.act == 1),
    (97, run0.stats[0]!.bank[0]!.counter.pre == 1),
    (100, run0.stats[0]!.rankTotal[0]!.cycles.act == 55),
    (101, run0.stats[0]!.rankTotal[0]!.cycles.pre == 55),
    (102, run0.stats[0]!.rankTotal[0]!.cycles.powerDownAct == 10),
    (103, run0.stats[0]!.rankTotal[0]!.cycles.powerDownPre == 5),
    (106, run0.stats[0]!.bank[0]!.cycles.act == 55),
    (107, run0.stats[0]!.bank[1]!.cycles.act == 25),
    (108, run0.stats[0]!.bank[2]!.cycles.act == 25),
    (109, run0.stats[0]!.bank[3]!.cycles.act == 25),
    (110, run0.stats[0]!.bank[4]!.cycles.act == 25),
    (111, run0.stats[0]!.bank[5]!.cycles.act == 25),
    (112, run0.stats[0]!.bank[6]!.cycles.act == 25),
    (113, run0.stats[0]!.bank[7]!.cycles.act == 25),
    (116, run0.stats[0]!.bank[0]!.cycles.pre == 55),
    (117, run0.stats[0]!.bank[1]!.cycles.pre == 85),
    (118, run0.stats[0]!.bank[2]!.cycles.pre == 85),
    (119, run0.stats[0]!.bank[3]!.cycles.pre == 85),
    (120, run0.stats[0]!.bank[4]!.cycles.pre == 85),
    (121, run0.stats[0]!.bank[5]!.cycles.pre == 85),
    (122, run0.stats[0]!.bank[6]!.cycles.pre == 85),
    (123, run0.stats[0]!.bank[7]!.cycles.pre == 85)]

#guard failing checks == []

end lpddr6_19.Test

namespace lpddr6_19.CalcWindow

def run0 : Log := run .lpddr6 ({ lpddr6 with
  core := { lpddr6.core with numberOfRanks := 1, numberOfBanks := 8, numberOfBankGroups := 2, banksPerGroup := 4, tRAS := 10, tRCDR := 20, tRCDW := 20, tRFCDB := 25, tRFC := 25, tRP := 20 },
  power := { lpddr6.power with ranks := 1, banks := 8, bankGroups := 2, devices := 1, tRAS := 10, tRFCpb := 25, tRFC := 25, tRP := 20, tCK := (1/1000000000), tWCK := (1/1000000000), tREFI := 1, rho := (333333333/1000000000), burstLength := 16, dataRate := 2, domains := (lpddr6.power.domains.modify 0 fun d => { d with v := 1, i0 := (8/125), i2n := (1/125), i2p := (3/500), i3n := (4/125), i3p := (1/50), i4r := (9/125), i4w := (9/125), i5pb := (3/100), iBeta := (8/125) }) },
  iface := { lpddr6.iface with ranks := 1, bankGroups := 2, devices := 1, bitWidth := 16, wckToCk := 2, burstLength := 16, dataRate := 2 },
  wires := { lpddr6.wires with bitWidth := 16, tCK := (1/1000000000), tWCK := (1/1000000000), dataRate := 2 } }) [
    .core { t := 0, type := .ACT },
    .core { t := 5, type := .PDEA },
    .window 5,
    .window 10,
    .window 15,
    .window 20,
    .window 25,
    .core { t := 30, type := .PDXA },
    .window 30,
    .window 35,
    .core { t := 40, type := .PRE },
    .window 40,
    .core { t := 45, type := .PDEP },
    .window 45,
    .window 50,
    .window 55,
    .window 60,
    .core { t := 65, type := .PDXP },
    .window 65,
    .window 70,
    .core { t := 75, type := .REFA },
    .window 75,
    .window 80,
    .core { t := 85, type := .PDEP },
    .window 85,
    .core { t := 90, type := .PDXP },
    .window 90,
    .window 95,
    .window 100,
    .window 105,
    .window 110,
    .window 115,
    .window 120,
    .core { t := 125, type := .END_OF_SIMULATION },
    .window 125]

def checks : List (Nat × Bool) := [
    (0, run0.ok),
    (144, run0.stats[0]!.rankTotal[0]!.cycles.act == 5),
    (145, run0.stats[0]!.bank[0]!.cycles.act == 5),
    (145, run0.stats[0]!.bank[0]!.cycles.pre == 0),
    (146, run0.stats[0]!.bank[1]!.cycles.act == 0),
    (146, run0.stats[0]!.bank[1]!.cycles.pre == 5),
    (150, run0.stats[1]!.rankTotal[0]!.cycles.act == 10),
    (151, run0.stats[1]!.bank[0]!.cycles.act == 10),
    (151, run0.stats[1]!.bank[0]!.cycles.pre == 0),
    (152, run0.stats[1]!.bank[1]!.cycles.act == 0),
    (152, run0.stats[1]!.bank[1]!.cycles.pre == 10),
    (156, run0.stats[2]!.rankTotal[0]!.cycles.act == 15),
    (157, run0.stats[2]!.bank[0]!.cycles.act == 15),
    (157, run0.stats[2]!.bank[0]!.cycles.pre == 0),
    (158, run0.stats[2]!.bank[1]!.cycles.act == 0),
    (158, run0.stats[2]!.bank[1]!.cycles.pre == 15),
    (162, run0.stats[3]!.rankTotal[0]!.cycles.act == 20),
    (163, run0.stats[3]!.bank[0]!.cycles.act == 20),
    (163, run0.stats[3]!.bank[0]!.cycles.pre == 0),
    (164, run0.stats[3]!.bank[1]!.cycles.act == 0),
    (164, run0.stats[3]!.bank[1]!.cycles.pre == 20),
    (168, run0.stats[4]!.rankTotal[0]!.cycles.act == 20),
    (169, run0.stats[4]!.rankTotal[0]!.cycles.powerDownAct == 5),
    (170, run0.stats[4]!.bank[0]!.cycles.act == 20),
    (170, run0.stats[4]!.bank[0]!.cycles.pre == 0),
    (171, run0.stats[4]!.bank[1]!.cycles.act == 0),
    (171, run0.stats[4]!.bank[1]!.cycles.pre == 20),
    (175, run0.stats[5]!.rankTotal[0]!.cycles.act == 20),
    (176, run0.stats[5]!.rankTotal[0]!.cycles.powerDownAct == 10),
    (177, run0.stats[5]!.bank[0]!.cycles.act == 20),
    (177, run0.stats[5]!.bank[0]!.cycles.pre == 0),
    (178, run0.stats[5]!.bank[1]!.cycles.act == 0),
    (178, run0.stats[5]!.bank[1]!.cycles.pre == 20),
    (182, run0.stats[6]!.rankTotal[0]!.cycles.act == 25),
    (183, run0.stats[6]!.rankTotal[0]!.cycles.powerDownAct == 10),
    (184, run0.stats[6]!.bank[0]!.cycles.act == 25),
    (184, run0.stats[6]!.bank[0]!.cycles.pre == 0),
    (185, run0.stats[6]!.bank[1]!.cycles.act == 0),
    (185, run0.stats[6]!.bank[1]!.cycles.pre == 25),
    (189, run0.stats[7]!.rankTotal[0]!.cycles.act == 30),
    (190, run0.stats[7]!.rankTotal[0]!.cycles.powerDownAct == 10),
    (191, run0.stats[7]!.bank[0]!.cycles.act == 30),
    (191, run0.stats[7]!.bank[0]!.cycles.pre == 0),
    (192, run0.stats[7]!.bank[1]!.cycles.act == 0),
    (192, run0.stats[7]!.bank[1]!.cycles.pre == 30),
    (196, run0.stats[8]!.rankTotal[0]!.cycles.act == 30),
    (196, run0.stats[8]!.rankTotal[0]!.cycles.pre == 5),
    (197, run0.stats[8]!.rankTotal[0]!.cycles.powerDownAct == 10),
    (198, run0.stats[8]!.bank[0]!.cycles.act == 30),
    (198, run0.stats[8]!.bank[0]!.cycles.pre == 5),
    (199, run0.stats[8]!.bank[1]!.cycles.act == 0),
    (199, run0.stats[8]!.bank[1]!.cycles.pre == 35),
    (203, run0.stats[9]!.rankTotal[0]!.cycles.act == 30),
    (203, run0.stats[9]!.rankTotal[0]!.cycles.pre == 10),
    (204, run0.stats[9]!.rankTotal[0]!.cycles.powerDownAct == 10),
    (205, run0.stats[9]!.bank[0]!.cycles.act == 30),
    (205, run0.stats[9]!.bank[0]!.cycles.pre == 10),
    (206, run0.stats[9]!.bank[1]!.cycles.act == 0),
    (206, run0.stats[9]!.bank[1]!.cycles.pre == 40),
    (210, run0.stats[10]!.rankTotal[0]!.cycles.act == 30),
    (210, run0.stats[10]!.rankTotal[0]!.cycles.pre == 15),
    (211, run0.stats[10]!.rankTotal[0]!.cycles.powerDownAct == 10),
    (212, run0.stats[10]!.bank[0]!.cycles.act == 30),
    (212, run0.stats[10]!.bank[0]!.cycles.pre == 15),
    (213, run0.stats[10]!.bank[1]!.cycles.act == 0),
    (213, run0.stats[10]!.bank[1]!.cycles.pre == 45),
    (217, run0.stats[11]!.rankTotal[0]!.cycles.act == 30),
    (217, run0.stats[11]!.rankTotal[0]!.cycles.pre == 20),
    (218, run0.stats[11]!.rankTotal[0]!.cycles.powerDownAct == 10),
    (219, run0.stats[11]!.bank[0]!.cycles.act == 30),
    (219, run0.stats[11]!.bank[0]!.cycles.pre == 20),
    (220, run0.stats[11]!.bank[1]!.cycles.act == 0),
    (220, run0.stats[11]!.bank[1]!.cycles.pre == 50),
    (224, run0.stats[12]!.rankTotal[0]!.cycles.act == 30),
    (224, run0.stats[12]!.rankTotal[0]!.cycles.pre == 20),
    (225, run0.stats[12]!.rankTotal[0]!.cycles.powerDownAct == 10),
    (225, run0.stats[12]!.rankTotal[0]!.cycles.powerDownPre == 5),
    (226, run0.stats[12]!.bank[0]!.cycles.act == 30),
    (226, run0.stats[12]!.bank[0]!.cycles.pre == 20),
    (227, run0.stats[12]!.bank[1]!.cycles.act == 0),
    (227, run0.stats[12]!.bank[1]!.cycles.pre == 50),
    (231, run0.stats[13]!.rankTotal[0]!.cycles.act == 30),
    (231, run0.stats[13]!.rankTotal[0]!.cycles.pre == 25),
    (232, run0.stats[13]!.rankTotal[0]!.cycles.powerDownAct == 10),
    (232, run0.stats[13]!.rankTotal[0]!.cycles.powerDownPre == 5),
    (233, run0.stats[13]!.bank[0]!.cycles.act == 30),
    (233, run0.stats[13]!.bank[0]!.cycles.pre == 25),
    (234, run0.stats[13]!.bank[1]!.cycles.act == 0),
    (234, run0.stats[13]!.bank[1]!.cycles.pre == 55),
    (238, run0.stats[14]!.rankTotal[0]!.cycles.act == 30),
    (238, run0.stats[14]!.rankTotal[0]!.cycles.pre == 30),
    (239, run0.stats[14]!.rankTotal[0]!.cycles.powerDownAct == 10),
    (239, run0.stats[14]!.rankTotal[0]!.cycles.powerDownPre == 5),
    (240, run0.stats[14]!.bank[0]!.cycles.act == 30),
    (240, run0.stats[14]!.bank[0]!.cycles.pre == 30),
    (241, run0.stats[14]!.bank[1]!.cycles.act == 0),
    (241, run0.stats[14]!.bank[1]!.cycles.pre == 60),
    (245, run0.stats[15]!.rankTotal[0]!.cycles.act == 35),
    (245, run0.stats[15]!.rankTotal[0]!.cycles.pre == 30),
    (246, run0.stats[15]!.rankTotal[0]!.cycles.powerDownAct == 10),
    (246, run0.stats[15]!.rankTotal[0]!.cycles.powerDownPre == 5),
    (247, run0.stats[15]!.bank[0]!.cycles.act == 35),
    (247, run0.stats[15]!.bank[0]!.cycles.pre == 30),
    (248, run0.stats[15]!.bank[1]!.cycles.act == 5),
    (248, run0.stats[15]!.bank[1]!.cycles.pre == 60),
    (252, run0.stats[16]!.rankTotal[0]!.cycles.act == 40),
    (252, run0.stats[16]!.rankTotal[0]!.cycles.pre == 30),
    (253, run0.stats[16]!.rankTotal[0]!.cycles.powerDownAct == 10),
    (253, run0.stats[16]!.rankTotal[0]!.cycles.powerDownPre == 5),
    (254, run0.stats[16]!.bank[0]!.cycles.act == 40),
    (254, run0.stats[16]!.bank[0]!.cycles.pre == 30),
    (255, run0.stats[16]!.bank[1]!.cycles.act == 10),
    (255, run0.stats[16]!.bank[1]!.cycles.pre == 60),
    (259, run0.stats[17]!.rankTotal[0]!.cycles.act == 45),
    (259, run0.stats[17]!.rankTotal[0]!.cycles.pre == 30),
    (260, run0.stats[17]!.rankTotal[0]!.cycles.powerDownAct == 10),
    (260, run0.stats[17]!.rankTotal[0]!.cycles.powerDownPre == 5),
    (261, run0.stats[17]!.bank[0]!.cycles.act == 45),
    (261, run0.stats[17]!.bank[0]!.cycles.pre == 30),
    (262, run0.stats[17]!.bank[1]!.cycles.act == 15),
    (262, run0.stats[17]!.bank[1]!.cycles.pre == 60),
    (266, run0.stats[18]!.rankTotal[0]!.cycles.act == 50),
    (266, run0.stats[18]!.rankTotal[0]!.cycles.pre == 30),
    (267, run0.stats[18]!.rankTotal[0]!.cycles.powerDownAct == 10),
    (267, run0.stats[18]!.rankTotal[0]!.cycles.powerDownPre == 5),
    (268, run0.stats[18]!.bank[0]!.cycles.act == 50),
    (268, run0.stats[18]!.bank[0]!.cycles.pre == 30),
    (269, run0.stats[18]!.bank[1]!.cycles.act == 20),
    (269, run0.stats[18]!.bank[1]!.cycles.pre == 60),
    (273, run0.stats[19]!.rankTotal[0]!.cycles.act == 55),
    (273, run0.stats[19]!.rankTotal[0]!.cycles.pre == 30),
    (274, run0.stats[19]!.rankTotal[0]!.cycles.powerDownAct == 10),
    (274, run0.stats[19]!.rankTotal[0]!.cycles.powerDownPre == 5),
    (275, run0.stats[19]!.bank[0]!.cycles.act == 55),
    (275, run0.stats[19]!.bank[0]!.cycles.pre == 30),
    (276, run0.stats[19]!.bank[1]!.cycles.act == 25),
    (276, run0.stats[19]!.bank[1]!.cycles.pre == 60),
    (280, run0.stats[20]!.rankTotal[0]!.cycles.act == 55),
    (280, run0.stats[20]!.rankTotal[0]!.cycles.pre == 35),
    (281, run0.stats[20]!.rankTotal[0]!.cycles.powerDownAct == 10),
    (281, run0.stats[20]!.rankTotal[0]!.cycles.powerDownPre == 5),
    (282, run0.stats[20]!.bank[0]!.cycles.act == 55),
    (282, run0.stats[20]!.bank[0]!.cycles.pre == 35),
    (283, run0.stats[20]!.bank[1]!.cycles.act == 25),
    (283, run0.stats[20]!.bank[1]!.cycles.pre == 65),
    (287, run0.stats[21]!.rankTotal[0]!.cycles.act == 55),
    (287, run0.stats[21]!.rankTotal[0]!.cycles.pre == 40),
    (288, run0.stats[21]!.rankTotal[0]!.cycles.powerDownAct == 10),
    (288, run0.stats[21]!.rankTotal[0]!.cycles.powerDownPre == 5),
    (289, run0.stats[21]!.bank[0]!.cycles.act == 55),
    (289, run0.stats[21]!.bank[0]!.cycles.pre == 40),
    (290, run0.stats[21]!.bank[1]!.cycles.act == 25),
    (290, run0.stats[21]!.bank[1]!.cycles.pre == 70),
    (294, run0.stats[22]!.rankTotal[0]!.cycles.act == 55),
    (294, run0.stats[22]!.rankTotal[0]!.cycles.pre == 45),
    (295, run0.stats[22]!.rankTotal[0]!.cycles.powerDownAct == 10),
    (295, run0.stats[22]!.rankTotal[0]!.cycles.powerDownPre == 5),
    (296, run0.stats[22]!.bank[0]!.cycles.act == 55),
    (296, run0.stats[22]!.bank[0]!.cycles.pre == 45),
    (297, run0.stats[22]!.bank[1]!.cycles.act == 25),
    (297, run0.stats[22]!.bank[1]!.cycles.pre == 75),
    (301, run0.stats[23]!.rankTotal[0]!.cycles.act == 55),
    (301, run0.stats[23]!.rankTotal[0]!.cycles.pre == 50),
    (302, run0.stats[23]!.rankTotal[0]!.cycles.powerDownAct == 10),
    (302, run0.stats[23]!.rankTotal[0]!.cycles.powerDownPre == 5),
    (303, run0.stats[23]!.bank[0]!.cycles.act == 55),
    (303, run0.stats[23]!.bank[0]!.cycles.pre == 50),
    (304, run0.stats[23]!.bank[1]!.cycles.act == 25),
    (304, run0.stats[23]!.bank[1]!.cycles.pre == 80),
    (308, run0.stats[24]!.rankTotal[0]!.cycles.act == 55),
    (308, run0.stats[24]!.rankTotal[0]!.cycles.pre == 55),
    (309, run0.stats[24]!.rankTotal[0]!.cycles.powerDownAct == 10),
    (309, run0.stats[24]!.rankTotal[0]!.cycles.powerDownPre == 5),
    (310, run0.stats[24]!.bank[0]!.cycles.act == 55),
    (310, run0.stats[24]!.bank[0]!.cycles.pre == 55),
    (311, run0.stats[24]!.bank[1]!.cycles.act == 25),
    (311, run0.stats[24]!.bank[1]!.cycles.pre == 85)]

#guard failing checks == []

end lpddr6_19.CalcWindow

namespace lpddr6_19.CalcEnergy

def run0 : Log := run .lpddr6 ({ lpddr6 with
  core := { lpddr6.core with numberOfRanks := 1, numberOfBanks := 8, numberOfBankGroups := 2, banksPerGroup := 4, tRAS := 10, tRCDR := 20, tRCDW := 20, tRFCDB := 25, tRFC := 25, tRP := 20 },
  power := { lpddr6.power with ranks := 1, banks := 8, bankGroups := 2, devices := 1, tRAS := 10, tRFCpb := 25, tRFC := 25, tRP := 20, tCK := (1/1000000000), tWCK := (1/1000000000), tREFI := 1, rho := (333333333/1000000000), burstLength := 16, dataRate := 2, domains := (lpddr6.power.domains.modify 0 fun d => { d with v := 1, i0 := (8/125), i2n := (1/125), i2p := (3/500), i3n := (4/125), i3p := (1/50), i4r := (9/125), i4w := (9/125), i5pb := (3/100), iBeta := (8/125) }) },
  iface := { lpddr6.iface with ranks := 1, bankGroups := 2, devices := 1, bitWidth := 16, wckToCk := 2, burstLength := 16, dataRate := 2 },
  wires := { lpddr6.wires with bitWidth := 16, tCK := (1/1000000000), tWCK := (1/1000000000), dataRate := 2 } }) [
    .core { t := 0, type := .ACT },
    .core { t := 5, type := .PDEA },
    .core { t := 30, type := .PDXA },
    .core { t := 40, type := .PRE },
    .core { t := 45, type := .PDEP },
    .core { t := 65, type := .PDXP },
    .core { t := 75, type := .REFA },
    .core { t := 85, type := .PDEP },
    .core { t := 90, type := .PDXP },
    .core { t := 125, type := .END_OF_SIMULATION },
    .coreEnergy 125]

def checks : List (Nat × Bool) := [
    (0, run0.ok),
    (330, (nearest (((run0.energies[0]!.aggregated.eBgAct : Rat) * 1000000000000) : Rat) : Rat) == 2600),
    (331, (nearest (((run0.energies[0]!.shared.bgActShared : Rat) * 1000000000000) : Rat) : Rat) == 1496),
    (332, (nearest (((run0.energies[0]!.bank[0]!.eBgAct : Rat) * 1000000000000) : Rat) : Rat) == 264),
    (333, (nearest (((run0.energies[0]!.bank[1]!.eBgAct : Rat) * 1000000000000) : Rat) : Rat) == 120),
    (334, (nearest (((run0.energies[0]!.bank[2]!.eBgAct : Rat) * 1000000000000) : Rat) : Rat) == 120),
    (335, (nearest (((run0.energies[0]!.bank[3]!.eBgAct : Rat) * 1000000000000) : Rat) : Rat) == 120),
    (336, (nearest (((run0.energies[0]!.bank[4]!.eBgAct : Rat) * 1000000000000) : Rat) : Rat) == 120),
    (337, (nearest (((run0.energies[0]!.bank[5]!.eBgAct : Rat) * 1000000000000) : Rat) : Rat) == 120),
    (338, (nearest (((run0.energies[0]!.bank[6]!.eBgAct : Rat) * 1000000000000) : Rat) : Rat) == 120),
    (339, (nearest (((run0.energies[0]!.bank[7]!.eBgAct : Rat) * 1000000000000) : Rat) : Rat) == 120),
    (341, (nearest (((run0.energies[0]!.aggregated.eBgPre : Rat) * 1000000000000) : Rat) : Rat) == 440),
    (342, (nearest (((run0.energies[0]!.bank[0]!.eBgPre : Rat) * 1000000000000) : Rat) : Rat) == 55),
    (343, (nearest (((run0.energies[0]!.bank[1]!.eBgPre : Rat) * 1000000000000) : Rat) : Rat) == 55),
    (344, (nearest (((run0.energies[0]!.bank[2]!.eBgPre : Rat) * 1000000000000) : Rat) : Rat) == 55),
    (345, (nearest (((run0.energies[0]!.bank[3]!.eBgPre : Rat) * 1000000000000) : Rat) : Rat) == 55),
    (346, (nearest (((run0.energies[0]!.bank[4]!.eBgPre : Rat) * 1000000000000) : Rat) : Rat) == 55),
    (347, (nearest (((run0.energies[0]!.bank[5]!.eBgPre : Rat) * 1000000000000) : Rat) : Rat) == 55),
    (348, (nearest (((run0.energies[0]!.bank[6]!.eBgPre : Rat) * 1000000000000) : Rat) : Rat) == 55),
    (349, (nearest (((run0.energies[0]!.bank[7]!.eBgPre : Rat) * 1000000000000) : Rat) : Rat) == 55),
    (351, (nearest (((run0.energies[0]!.shared.pdnA : Rat) * 1000000000000) : Rat) : Rat) == 200),
    (352, (nearest (((run0.energies[0]!.shared.pdnP : Rat) * 1000000000000) : Rat) : Rat) == 30)]

#guard failing checks == []

end lpddr6_19.CalcEnergy

end DRAMPower.Tests
