import Verif.Model.Bus
import Verif.Model.Pin
import Verif.Model.Clock
import Verif.Model.Interval
import Verif.Tests.Run

/-!
# Tests of the bus, the pin, the clock and the interval

Generated by conformance/misc.py, do not edit. The numbers in the lists of checks are lines of the test file.
-/

namespace DRAMPower.Tests

/-! ## tests/tests_misc/test_bus.cpp -/

namespace test_bus.EmptyTest

def bus_0 : Except Err (Bus 8) := Bus.init 8 8 1 .L

def checks : List (Nat × Bool) := [
    (35, (do (← bus_0).at? 0 : Except Err (BitVec 8)).toOption == some 0#8),
    (36, (do (← bus_0).at? 1 : Except Err (BitVec 8)).toOption == some 0#8)]

#guard failing checks == []

end test_bus.EmptyTest

namespace test_bus.Load_Width_8_Single

def bus_0 : Except Err (Bus 8) := Bus.init 8 8 1 .L
def bus_1 : Except Err (Bus 8) := do ((← bus_0).loadWord 0 175 1)

def checks : List (Nat × Bool) := [
    (44, (do (← bus_1).at? 0 : Except Err (BitVec 8)).toOption == some 175#8),
    (45, (do (← bus_1).at? 1 : Except Err (BitVec 8)).toOption == some 0#8)]

#guard failing checks == []

end test_bus.Load_Width_8_Single

namespace test_bus.Load_Width_4

def bus_0 : Except Err (Bus 4) := Bus.init 4 4 1 .L
def bus_1 : Except Err (Bus 4) := do ((← bus_0).loadWord 0 175 2)

def checks : List (Nat × Bool) := [
    (53, (do (← bus_1).at? 0 : Except Err (BitVec 4)).toOption == some 10#4),
    (54, (do (← bus_1).at? 1 : Except Err (BitVec 4)).toOption == some 15#4)]

#guard failing checks == []

end test_bus.Load_Width_4

namespace test_bus.Load_Width_8

def bus_0 : Except Err (Bus 8) := Bus.init 8 8 1 .L
def bus_1 : Except Err (Bus 8) := do ((← bus_0).loadWord 0 10902 2)

def checks : List (Nat × Bool) := [
    (62, (do (← bus_1).at? 0 : Except Err (BitVec 8)).toOption == some 42#8),
    (63, (do (← bus_1).at? 1 : Except Err (BitVec 8)).toOption == some 150#8)]

#guard failing checks == []

end test_bus.Load_Width_8

namespace test_bus.Load_Width_4_Cont

def bus_0 : Except Err (Bus 4) := Bus.init 4 4 1 .L
def bus_1 : Except Err (Bus 4) := do ((← bus_0).loadWord 0 175 2)
def bus_2 : Except Err (Bus 4) := do ((← bus_1).loadWord 2 81 2)
def bus_3 : Except Err (Bus 4) := do ((← bus_2).loadWord 5 1311 3)

def checks : List (Nat × Bool) := [
    (72, (do (← bus_1).at? 0 : Except Err (BitVec 4)).toOption == some 10#4),
    (73, (do (← bus_1).at? 1 : Except Err (BitVec 4)).toOption == some 15#4),
    (74, (do (← bus_1).at? 2 : Except Err (BitVec 4)).toOption == some 0#4),
    (77, (do (← bus_2).at? 2 : Except Err (BitVec 4)).toOption == some 5#4),
    (78, (do (← bus_2).at? 3 : Except Err (BitVec 4)).toOption == some 1#4),
    (79, (do (← bus_2).at? 4 : Except Err (BitVec 4)).toOption == some 0#4),
    (82, (do (← bus_3).at? 5 : Except Err (BitVec 4)).toOption == some 5#4),
    (83, (do (← bus_3).at? 6 : Except Err (BitVec 4)).toOption == some 1#4),
    (84, (do (← bus_3).at? 7 : Except Err (BitVec 4)).toOption == some 15#4),
    (85, (do (← bus_3).at? 8 : Except Err (BitVec 4)).toOption == some 0#4)]

#guard failing checks == []

end test_bus.Load_Width_4_Cont

namespace test_bus.Stats_Empty_1

def bus_0 : Except Err (Bus 4) := Bus.init 4 4 1 .L

def checks : List (Nat × Bool) := [
    (92, (do (← bus_0).getStats 0 : Except Err BusStats).toOption.map (·.ones) == some 0),
    (93, (do (← bus_0).getStats 0 : Except Err BusStats).toOption.map (·.zeroes) == some 0),
    (94, (do (← bus_0).getStats 0 : Except Err BusStats).toOption.map (·.bitChanges) == some 0),
    (95, (do (← bus_0).getStats 0 : Except Err BusStats).toOption.map (·.onesToZeroes) == some 0),
    (96, (do (← bus_0).getStats 0 : Except Err BusStats).toOption.map (·.zeroesToOnes) == some 0)]

#guard failing checks == []

end test_bus.Stats_Empty_1

namespace test_bus.Stats_Empty_2

def bus_0 : Except Err (Bus 4) := Bus.init 4 4 1 .L
def bus_1 : Except Err (Bus 4) := do ((← bus_0).loadWord 0 175 2)

def checks : List (Nat × Bool) := [
    (104, (do (← bus_1).getStats 0 : Except Err BusStats).toOption.map (·.ones) == some 0),
    (105, (do (← bus_1).getStats 0 : Except Err BusStats).toOption.map (·.zeroes) == some 0),
    (106, (do (← bus_1).getStats 0 : Except Err BusStats).toOption.map (·.bitChanges) == some 0),
    (107, (do (← bus_1).getStats 0 : Except Err BusStats).toOption.map (·.onesToZeroes) == some 0),
    (108, (do (← bus_1).getStats 0 : Except Err BusStats).toOption.map (·.zeroesToOnes) == some 0)]

#guard failing checks == []

end test_bus.Stats_Empty_2

namespace test_bus.Stats_Basic_1

def bus_0 : Except Err (Bus 4) := Bus.init 4 4 1 .L
def bus_1 : Except Err (Bus 4) := do ((← bus_0).loadWord 1 15 1)

def checks : List (Nat × Bool) := [
    (116, (do (← bus_0).getStats 0 : Except Err BusStats).toOption.map (·.ones) == some 0),
    (117, (do (← bus_0).getStats 0 : Except Err BusStats).toOption.map (·.zeroes) == some 0),
    (118, (do (← bus_0).getStats 0 : Except Err BusStats).toOption.map (·.bitChanges) == some 0),
    (119, (do (← bus_0).getStats 0 : Except Err BusStats).toOption.map (·.onesToZeroes) == some 0),
    (120, (do (← bus_0).getStats 0 : Except Err BusStats).toOption.map (·.zeroesToOnes) == some 0),
    (124, (do (← bus_1).getStats 1 : Except Err BusStats).toOption.map (·.ones) == some 0),
    (125, (do (← bus_1).getStats 1 : Except Err BusStats).toOption.map (·.zeroes) == some 4),
    (126, (do (← bus_1).getStats 1 : Except Err BusStats).toOption.map (·.onesToZeroes) == some 0),
    (127, (do (← bus_1).getStats 1 : Except Err BusStats).toOption.map (·.zeroesToOnes) == some 0),
    (128, (do (← bus_1).getStats 1 : Except Err BusStats).toOption.map (·.bitChanges) == some 0),
    (131, (do (← bus_1).getStats 2 : Except Err BusStats).toOption.map (·.ones) == some 4),
    (132, (do (← bus_1).getStats 2 : Except Err BusStats).toOption.map (·.zeroes) == some 4),
    (133, (do (← bus_1).getStats 2 : Except Err BusStats).toOption.map (·.onesToZeroes) == some 0),
    (134, (do (← bus_1).getStats 2 : Except Err BusStats).toOption.map (·.zeroesToOnes) == some 4),
    (135, (do (← bus_1).getStats 2 : Except Err BusStats).toOption.map (·.bitChanges) == some 4),
    (138, (do (← bus_1).getStats 3 : Except Err BusStats).toOption.map (·.ones) == some 4),
    (139, (do (← bus_1).getStats 3 : Except Err BusStats).toOption.map (·.zeroes) == some 8),
    (140, (do (← bus_1).getStats 3 : Except Err BusStats).toOption.map (·.onesToZeroes) == some 4),
    (141, (do (← bus_1).getStats 3 : Except Err BusStats).toOption.map (·.zeroesToOnes) == some 4),
    (142, (do (← bus_1).getStats 3 : Except Err BusStats).toOption.map (·.bitChanges) == some 8),
    (145, (do (← bus_1).getStats 4 : Except Err BusStats).toOption.map (·.ones) == some 4),
    (146, (do (← bus_1).getStats 4 : Except Err BusStats).toOption.map (·.zeroes) == some 12),
    (147, (do (← bus_1).getStats 4 : Except Err BusStats).toOption.map (·.onesToZeroes) == some 4),
    (148, (do (← bus_1).getStats 4 : Except Err BusStats).toOption.map (·.zeroesToOnes) == some 4),
    (149, (do (← bus_1).getStats 4 : Except Err BusStats).toOption.map (·.bitChanges) == some 8)]

#guard failing checks == []

end test_bus.Stats_Basic_1

namespace test_bus.Stats_Basic_2

def bus_0 : Except Err (Bus 4) := Bus.init 4 4 1 .L
def bus_1 : Except Err (Bus 4) := do ((← bus_0).loadWord 2 15 1)

def checks : List (Nat × Bool) := [
    (157, (do (← bus_0).getStats 0 : Except Err BusStats).toOption.map (·.ones) == some 0),
    (158, (do (← bus_0).getStats 0 : Except Err BusStats).toOption.map (·.zeroes) == some 0),
    (159, (do (← bus_0).getStats 0 : Except Err BusStats).toOption.map (·.bitChanges) == some 0),
    (160, (do (← bus_0).getStats 0 : Except Err BusStats).toOption.map (·.onesToZeroes) == some 0),
    (161, (do (← bus_0).getStats 0 : Except Err BusStats).toOption.map (·.zeroesToOnes) == some 0),
    (164, (do (← bus_0).getStats 1 : Except Err BusStats).toOption.map (·.ones) == some 0),
    (165, (do (← bus_0).getStats 1 : Except Err BusStats).toOption.map (·.zeroes) == some 4),
    (166, (do (← bus_0).getStats 1 : Except Err BusStats).toOption.map (·.onesToZeroes) == some 0),
    (167, (do (← bus_0).getStats 1 : Except Err BusStats).toOption.map (·.zeroesToOnes) == some 0),
    (168, (do (← bus_0).getStats 1 : Except Err BusStats).toOption.map (·.bitChanges) == some 0),
    (172, (do (← bus_1).getStats 2 : Except Err BusStats).toOption.map (·.ones) == some 0),
    (173, (do (← bus_1).getStats 2 : Except Err BusStats).toOption.map (·.zeroes) == some 8),
    (174, (do (← bus_1).getStats 2 : Except Err BusStats).toOption.map (·.onesToZeroes) == some 0),
    (175, (do (← bus_1).getStats 2 : Except Err BusStats).toOption.map (·.zeroesToOnes) == some 0),
    (176, (do (← bus_1).getStats 2 : Except Err BusStats).toOption.map (·.bitChanges) == some 0),
    (179, (do (← bus_1).getStats 3 : Except Err BusStats).toOption.map (·.ones) == some 4),
    (180, (do (← bus_1).getStats 3 : Except Err BusStats).toOption.map (·.zeroes) == some 8),
    (181, (do (← bus_1).getStats 3 : Except Err BusStats).toOption.map (·.onesToZeroes) == some 0),
    (182, (do (← bus_1).getStats 3 : Except Err BusStats).toOption.map (·.zeroesToOnes) == some 4),
    (183, (do (← bus_1).getStats 3 : Except Err BusStats).toOption.map (·.bitChanges) == some 4),
    (186, (do (← bus_1).getStats 4 : Except Err BusStats).toOption.map (·.ones) == some 4),
    (187, (do (← bus_1).getStats 4 : Except Err BusStats).toOption.map (·.zeroes) == some 12),
    (188, (do (← bus_1).getStats 4 : Except Err BusStats).toOption.map (·.onesToZeroes) == some 4),
    (189, (do (← bus_1).getStats 4 : Except Err BusStats).toOption.map (·.zeroesToOnes) == some 4),
    (190, (do (← bus_1).getStats 4 : Except Err BusStats).toOption.map (·.bitChanges) == some 8)]

#guard failing checks == []

end test_bus.Stats_Basic_2

namespace test_bus.Stats_Basic_3

def bus_0 : Except Err (Bus 4) := Bus.init 4 4 1 .L
def bus_1 : Except Err (Bus 4) := do ((← bus_0).loadWord 4 15 1)

def checks : List (Nat × Bool) := [
    (198, (do (← bus_0).getStats 0 : Except Err BusStats).toOption.map (·.ones) == some 0),
    (199, (do (← bus_0).getStats 0 : Except Err BusStats).toOption.map (·.zeroes) == some 0),
    (200, (do (← bus_0).getStats 0 : Except Err BusStats).toOption.map (·.bitChanges) == some 0),
    (201, (do (← bus_0).getStats 0 : Except Err BusStats).toOption.map (·.onesToZeroes) == some 0),
    (202, (do (← bus_0).getStats 0 : Except Err BusStats).toOption.map (·.zeroesToOnes) == some 0),
    (205, (do (← bus_0).getStats 1 : Except Err BusStats).toOption.map (·.ones) == some 0),
    (206, (do (← bus_0).getStats 1 : Except Err BusStats).toOption.map (·.zeroes) == some 4),
    (207, (do (← bus_0).getStats 1 : Except Err BusStats).toOption.map (·.onesToZeroes) == some 0),
    (208, (do (← bus_0).getStats 1 : Except Err BusStats).toOption.map (·.zeroesToOnes) == some 0),
    (209, (do (← bus_0).getStats 1 : Except Err BusStats).toOption.map (·.bitChanges) == some 0),
    (212, (do (← bus_0).getStats 2 : Except Err BusStats).toOption.map (·.ones) == some 0),
    (213, (do (← bus_0).getStats 2 : Except Err BusStats).toOption.map (·.zeroes) == some 8),
    (214, (do (← bus_0).getStats 2 : Except Err BusStats).toOption.map (·.onesToZeroes) == some 0),
    (215, (do (← bus_0).getStats 2 : Except Err BusStats).toOption.map (·.zeroesToOnes) == some 0),
    (216, (do (← bus_0).getStats 2 : Except Err BusStats).toOption.map (·.bitChanges) == some 0),
    (219, (do (← bus_0).getStats 3 : Except Err BusStats).toOption.map (·.ones) == some 0),
    (220, (do (← bus_0).getStats 3 : Except Err BusStats).toOption.map (·.zeroes) == some 12),
    (221, (do (← bus_0).getStats 3 : Except Err BusStats).toOption.map (·.onesToZeroes) == some 0),
    (222, (do (← bus_0).getStats 3 : Except Err BusStats).toOption.map (·.zeroesToOnes) == some 0),
    (223, (do (← bus_0).getStats 3 : Except Err BusStats).toOption.map (·.bitChanges) == some 0),
    (227, (do (← bus_1).getStats 4 : Except Err BusStats).toOption.map (·.ones) == some 0),
    (228, (do (← bus_1).getStats 4 : Except Err BusStats).toOption.map (·.zeroes) == some 16),
    (229, (do (← bus_1).getStats 4 : Except Err BusStats).toOption.map (·.onesToZeroes) == some 0),
    (230, (do (← bus_1).getStats 4 : Except Err BusStats).toOption.map (·.zeroesToOnes) == some 0),
    (231, (do (← bus_1).getStats 4 : Except Err BusStats).toOption.map (·.bitChanges) == some 0)]

#guard failing checks == []

end test_bus.Stats_Basic_3

namespace test_bus.Stats_4

def bus_0 : Except Err (Bus 4) := Bus.init 4 4 1 .L
def bus_1 : Except Err (Bus 4) := do ((← bus_0).loadWord 0 175 2)

def checks : List (Nat × Bool) := [
    (241, (do (← bus_1).getStats 0 : Except Err BusStats).toOption.map (·.ones) == some 0),
    (242, (do (← bus_1).getStats 0 : Except Err BusStats).toOption.map (·.zeroes) == some 0),
    (243, (do (← bus_1).getStats 0 : Except Err BusStats).toOption.map (·.bitChanges) == some 0),
    (244, (do (← bus_1).getStats 0 : Except Err BusStats).toOption.map (·.onesToZeroes) == some 0),
    (245, (do (← bus_1).getStats 0 : Except Err BusStats).toOption.map (·.zeroesToOnes) == some 0),
    (248, (do (← bus_1).getStats 1 : Except Err BusStats).toOption.map (·.ones) == some 2),
    (249, (do (← bus_1).getStats 1 : Except Err BusStats).toOption.map (·.zeroes) == some 2),
    (250, (do (← bus_1).getStats 1 : Except Err BusStats).toOption.map (·.bitChanges) == some 2),
    (251, (do (← bus_1).getStats 1 : Except Err BusStats).toOption.map (·.onesToZeroes) == some 0),
    (252, (do (← bus_1).getStats 1 : Except Err BusStats).toOption.map (·.zeroesToOnes) == some 2),
    (255, (do (← bus_1).getStats 2 : Except Err BusStats).toOption.map (·.ones) == some 6),
    (256, (do (← bus_1).getStats 2 : Except Err BusStats).toOption.map (·.zeroes) == some 2),
    (257, (do (← bus_1).getStats 2 : Except Err BusStats).toOption.map (·.bitChanges) == some 4),
    (258, (do (← bus_1).getStats 2 : Except Err BusStats).toOption.map (·.onesToZeroes) == some 0),
    (259, (do (← bus_1).getStats 2 : Except Err BusStats).toOption.map (·.zeroesToOnes) == some 4),
    (262, (do (← bus_1).getStats 3 : Except Err BusStats).toOption.map (·.ones) == some 6),
    (263, (do (← bus_1).getStats 3 : Except Err BusStats).toOption.map (·.zeroes) == some 6),
    (264, (do (← bus_1).getStats 3 : Except Err BusStats).toOption.map (·.bitChanges) == some 8),
    (265, (do (← bus_1).getStats 3 : Except Err BusStats).toOption.map (·.onesToZeroes) == some 4),
    (266, (do (← bus_1).getStats 3 : Except Err BusStats).toOption.map (·.zeroesToOnes) == some 4)]

#guard failing checks == []

end test_bus.Stats_4

namespace test_bus.Stats_4_Idle

def bus_0 : Except Err (Bus 4) := Bus.init 4 4 1 .L
def bus_1 : Except Err (Bus 4) := do ((← bus_0).loadWord 0 175 2)

def checks : List (Nat × Bool) := [
    (276, (do (← bus_1).getStats 3 : Except Err BusStats).toOption.map (·.ones) == some 6),
    (277, (do (← bus_1).getStats 3 : Except Err BusStats).toOption.map (·.zeroes) == some 6),
    (278, (do (← bus_1).getStats 3 : Except Err BusStats).toOption.map (·.bitChanges) == some 8),
    (279, (do (← bus_1).getStats 3 : Except Err BusStats).toOption.map (·.onesToZeroes) == some 4),
    (280, (do (← bus_1).getStats 3 : Except Err BusStats).toOption.map (·.zeroesToOnes) == some 4),
    (283, (do (← bus_1).getStats 4 : Except Err BusStats).toOption.map (·.ones) == some 6),
    (284, (do (← bus_1).getStats 4 : Except Err BusStats).toOption.map (·.zeroes) == some 10),
    (285, (do (← bus_1).getStats 4 : Except Err BusStats).toOption.map (·.bitChanges) == some 8),
    (286, (do (← bus_1).getStats 4 : Except Err BusStats).toOption.map (·.onesToZeroes) == some 4),
    (287, (do (← bus_1).getStats 4 : Except Err BusStats).toOption.map (·.zeroesToOnes) == some 4),
    (290, (do (← bus_1).getStats 5 : Except Err BusStats).toOption.map (·.ones) == some 6),
    (291, (do (← bus_1).getStats 5 : Except Err BusStats).toOption.map (·.zeroes) == some 14),
    (292, (do (← bus_1).getStats 5 : Except Err BusStats).toOption.map (·.bitChanges) == some 8),
    (293, (do (← bus_1).getStats 5 : Except Err BusStats).toOption.map (·.onesToZeroes) == some 4),
    (294, (do (← bus_1).getStats 5 : Except Err BusStats).toOption.map (·.zeroesToOnes) == some 4)]

#guard failing checks == []

end test_bus.Stats_4_Idle

namespace test_bus.Stats_8

def bus_0 : Except Err (Bus 8) := Bus.init 8 8 1 .L
def bus_1 : Except Err (Bus 8) := do ((← bus_0).loadWord 0 44905 2)

def checks : List (Nat × Bool) := [
    (307, (do (← bus_1).getStats 1 : Except Err BusStats).toOption.map (·.ones) == some 6),
    (308, (do (← bus_1).getStats 1 : Except Err BusStats).toOption.map (·.zeroes) == some 2),
    (309, (do (← bus_1).getStats 1 : Except Err BusStats).toOption.map (·.bitChanges) == some 6),
    (310, (do (← bus_1).getStats 1 : Except Err BusStats).toOption.map (·.onesToZeroes) == some 0),
    (311, (do (← bus_1).getStats 1 : Except Err BusStats).toOption.map (·.zeroesToOnes) == some 6),
    (314, (do (← bus_1).getStats 2 : Except Err BusStats).toOption.map (·.ones) == some 10),
    (315, (do (← bus_1).getStats 2 : Except Err BusStats).toOption.map (·.zeroes) == some 6),
    (316, (do (← bus_1).getStats 2 : Except Err BusStats).toOption.map (·.bitChanges) == some 10),
    (317, (do (← bus_1).getStats 2 : Except Err BusStats).toOption.map (·.onesToZeroes) == some 3),
    (318, (do (← bus_1).getStats 2 : Except Err BusStats).toOption.map (·.zeroesToOnes) == some 7)]

#guard failing checks == []

end test_bus.Stats_8

namespace test_bus.Stats_Second_Load_4

def bus_0 : Except Err (Bus 4) := Bus.init 4 4 1 .L
def bus_1 : Except Err (Bus 4) := do ((← bus_0).loadWord 0 175 2)
def bus_2 : Except Err (Bus 4) := do ((← bus_1).loadWord 2 105 2)

def checks : List (Nat × Bool) := [
    (328, (do (← bus_1).getStats 2 : Except Err BusStats).toOption.map (·.ones) == some 6),
    (329, (do (← bus_1).getStats 2 : Except Err BusStats).toOption.map (·.zeroes) == some 2),
    (330, (do (← bus_1).getStats 2 : Except Err BusStats).toOption.map (·.bitChanges) == some 4),
    (331, (do (← bus_1).getStats 2 : Except Err BusStats).toOption.map (·.onesToZeroes) == some 0),
    (332, (do (← bus_1).getStats 2 : Except Err BusStats).toOption.map (·.zeroesToOnes) == some 4),
    (337, (do (← bus_2).getStats 3 : Except Err BusStats).toOption.map (·.ones) == some 8),
    (338, (do (← bus_2).getStats 3 : Except Err BusStats).toOption.map (·.zeroes) == some 4),
    (339, (do (← bus_2).getStats 3 : Except Err BusStats).toOption.map (·.bitChanges) == some 6),
    (340, (do (← bus_2).getStats 3 : Except Err BusStats).toOption.map (·.onesToZeroes) == some 2),
    (341, (do (← bus_2).getStats 3 : Except Err BusStats).toOption.map (·.zeroesToOnes) == some 4),
    (344, (do (← bus_2).getStats 4 : Except Err BusStats).toOption.map (·.ones) == some 10),
    (345, (do (← bus_2).getStats 4 : Except Err BusStats).toOption.map (·.zeroes) == some 6),
    (346, (do (← bus_2).getStats 4 : Except Err BusStats).toOption.map (·.bitChanges) == some 10),
    (347, (do (← bus_2).getStats 4 : Except Err BusStats).toOption.map (·.onesToZeroes) == some 4),
    (348, (do (← bus_2).getStats 4 : Except Err BusStats).toOption.map (·.zeroesToOnes) == some 6)]

#guard failing checks == []

end test_bus.Stats_Second_Load_4

namespace test_bus.Load_4_cycles

def bus_0 : Except Err (Bus 4) := Bus.init 4 4 1 .L
def bus_1 : Except Err (Bus 4) := do ((← bus_0).loadWord 0 44947 4)

def checks : List (Nat × Bool) := [
    (366, (do (← bus_1).getStats 1 : Except Err BusStats).toOption.map (·.ones) == some 2),
    (367, (do (← bus_1).getStats 1 : Except Err BusStats).toOption.map (·.zeroes) == some 2),
    (368, (do (← bus_1).getStats 1 : Except Err BusStats).toOption.map (·.bitChanges) == some 2),
    (369, (do (← bus_1).getStats 1 : Except Err BusStats).toOption.map (·.onesToZeroes) == some 0),
    (370, (do (← bus_1).getStats 1 : Except Err BusStats).toOption.map (·.zeroesToOnes) == some 2),
    (373, (do (← bus_1).getStats 2 : Except Err BusStats).toOption.map (·.ones) == some 6),
    (374, (do (← bus_1).getStats 2 : Except Err BusStats).toOption.map (·.zeroes) == some 2),
    (375, (do (← bus_1).getStats 2 : Except Err BusStats).toOption.map (·.bitChanges) == some 4),
    (376, (do (← bus_1).getStats 2 : Except Err BusStats).toOption.map (·.onesToZeroes) == some 0),
    (377, (do (← bus_1).getStats 2 : Except Err BusStats).toOption.map (·.zeroesToOnes) == some 4),
    (380, (do (← bus_1).getStats 3 : Except Err BusStats).toOption.map (·.ones) == some 8),
    (381, (do (← bus_1).getStats 3 : Except Err BusStats).toOption.map (·.zeroes) == some 4),
    (382, (do (← bus_1).getStats 3 : Except Err BusStats).toOption.map (·.bitChanges) == some 6),
    (383, (do (← bus_1).getStats 3 : Except Err BusStats).toOption.map (·.onesToZeroes) == some 2),
    (384, (do (← bus_1).getStats 3 : Except Err BusStats).toOption.map (·.zeroesToOnes) == some 4),
    (387, (do (← bus_1).getStats 4 : Except Err BusStats).toOption.map (·.ones) == some 10),
    (388, (do (← bus_1).getStats 4 : Except Err BusStats).toOption.map (·.zeroes) == some 6),
    (389, (do (← bus_1).getStats 4 : Except Err BusStats).toOption.map (·.bitChanges) == some 8),
    (390, (do (← bus_1).getStats 4 : Except Err BusStats).toOption.map (·.onesToZeroes) == some 3),
    (391, (do (← bus_1).getStats 4 : Except Err BusStats).toOption.map (·.zeroesToOnes) == some 5),
    (394, (do (← bus_1).getStats 5 : Except Err BusStats).toOption.map (·.ones) == some 10),
    (395, (do (← bus_1).getStats 5 : Except Err BusStats).toOption.map (·.zeroes) == some 10),
    (396, (do (← bus_1).getStats 5 : Except Err BusStats).toOption.map (·.bitChanges) == some 10),
    (397, (do (← bus_1).getStats 5 : Except Err BusStats).toOption.map (·.onesToZeroes) == some 5),
    (398, (do (← bus_1).getStats 5 : Except Err BusStats).toOption.map (·.zeroesToOnes) == some 5)]

#guard failing checks == []

end test_bus.Load_4_cycles

namespace test_bus.Load_Data

def bus_0 : Except Err (Bus 16) := Bus.init 16 16 1 .L
def bus_1 : Except Err (Bus 16) := do ((← bus_0).load 0 [0, 0, 0, 3, 0, 0, 0, 2, 0, 0, 0, 1, 0, 0, 0, 1] 128)

def checks : List (Nat × Bool) := [
    (419, (do (← bus_1).getStats 1 : Except Err BusStats).toOption.map (·.ones) == some 1),
    (420, (do (← bus_1).getStats 1 : Except Err BusStats).toOption.map (·.zeroes) == some 15),
    (421, (do (← bus_1).getStats 1 : Except Err BusStats).toOption.map (·.zeroesToOnes) == some 1),
    (422, (do (← bus_1).getStats 1 : Except Err BusStats).toOption.map (·.onesToZeroes) == some 0),
    (425, (do (← bus_1).getStats 2 : Except Err BusStats).toOption.map (·.ones) == some 1),
    (426, (do (← bus_1).getStats 2 : Except Err BusStats).toOption.map (·.zeroes) == some 31),
    (427, (do (← bus_1).getStats 2 : Except Err BusStats).toOption.map (·.zeroesToOnes) == some 1),
    (428, (do (← bus_1).getStats 2 : Except Err BusStats).toOption.map (·.onesToZeroes) == some 1),
    (431, (do (← bus_1).getStats 3 : Except Err BusStats).toOption.map (·.ones) == some 2),
    (432, (do (← bus_1).getStats 3 : Except Err BusStats).toOption.map (·.zeroes) == some 46),
    (433, (do (← bus_1).getStats 3 : Except Err BusStats).toOption.map (·.zeroesToOnes) == some 2),
    (434, (do (← bus_1).getStats 3 : Except Err BusStats).toOption.map (·.onesToZeroes) == some 1),
    (437, (do (← bus_1).getStats 4 : Except Err BusStats).toOption.map (·.ones) == some 2),
    (438, (do (← bus_1).getStats 4 : Except Err BusStats).toOption.map (·.zeroes) == some 62),
    (439, (do (← bus_1).getStats 4 : Except Err BusStats).toOption.map (·.zeroesToOnes) == some 2),
    (440, (do (← bus_1).getStats 4 : Except Err BusStats).toOption.map (·.onesToZeroes) == some 2),
    (443, (do (← bus_1).getStats 5 : Except Err BusStats).toOption.map (·.ones) == some 3),
    (444, (do (← bus_1).getStats 5 : Except Err BusStats).toOption.map (·.zeroes) == some 77),
    (445, (do (← bus_1).getStats 5 : Except Err BusStats).toOption.map (·.zeroesToOnes) == some 3),
    (446, (do (← bus_1).getStats 5 : Except Err BusStats).toOption.map (·.onesToZeroes) == some 2),
    (449, (do (← bus_1).getStats 6 : Except Err BusStats).toOption.map (·.ones) == some 3),
    (450, (do (← bus_1).getStats 6 : Except Err BusStats).toOption.map (·.zeroes) == some 93),
    (451, (do (← bus_1).getStats 6 : Except Err BusStats).toOption.map (·.zeroesToOnes) == some 3),
    (452, (do (← bus_1).getStats 6 : Except Err BusStats).toOption.map (·.onesToZeroes) == some 3),
    (455, (do (← bus_1).getStats 7 : Except Err BusStats).toOption.map (·.ones) == some 5),
    (456, (do (← bus_1).getStats 7 : Except Err BusStats).toOption.map (·.zeroes) == some 107),
    (457, (do (← bus_1).getStats 7 : Except Err BusStats).toOption.map (·.zeroesToOnes) == some 5),
    (458, (do (← bus_1).getStats 7 : Except Err BusStats).toOption.map (·.onesToZeroes) == some 3),
    (461, (do (← bus_1).getStats 8 : Except Err BusStats).toOption.map (·.ones) == some 5),
    (462, (do (← bus_1).getStats 8 : Except Err BusStats).toOption.map (·.zeroes) == some 123),
    (463, (do (← bus_1).getStats 8 : Except Err BusStats).toOption.map (·.zeroesToOnes) == some 5),
    (464, (do (← bus_1).getStats 8 : Except Err BusStats).toOption.map (·.onesToZeroes) == some 5),
    (467, (do (← bus_1).getStats 9 : Except Err BusStats).toOption.map (·.ones) == some 5),
    (468, (do (← bus_1).getStats 9 : Except Err BusStats).toOption.map (·.zeroes) == some 139),
    (469, (do (← bus_1).getStats 9 : Except Err BusStats).toOption.map (·.zeroesToOnes) == some 5),
    (470, (do (← bus_1).getStats 9 : Except Err BusStats).toOption.map (·.onesToZeroes) == some 5)]

#guard failing checks == []

end test_bus.Load_Data

namespace test_bus.Test_001

def bus_0 : Except Err (Bus 6) := Bus.init 6 6 1 .L
def bus_1 : Except Err (Bus 6) := do ((← bus_0).loadWord 0 8519696 4)
def bus_2 : Except Err (Bus 6) := do ((← bus_1).loadWord 4 2491552 4)
def bus_3 : Except Err (Bus 6) := do ((← bus_2).loadWord 10 4588704 4)

def checks : List (Nat × Bool) := [
    (505, (do (← bus_1).getStats 1 : Except Err BusStats).toOption.map (·.ones) == some 1),
    (506, (do (← bus_1).getStats 1 : Except Err BusStats).toOption.map (·.zeroes) == some 5),
    (507, (do (← bus_1).getStats 1 : Except Err BusStats).toOption.map (·.zeroesToOnes) == some 1),
    (508, (do (← bus_1).getStats 1 : Except Err BusStats).toOption.map (·.onesToZeroes) == some 0),
    (511, (do (← bus_1).getStats 2 : Except Err BusStats).toOption.map (·.ones) == some 2),
    (512, (do (← bus_1).getStats 2 : Except Err BusStats).toOption.map (·.zeroes) == some 10),
    (513, (do (← bus_1).getStats 2 : Except Err BusStats).toOption.map (·.zeroesToOnes) == some 1),
    (514, (do (← bus_1).getStats 2 : Except Err BusStats).toOption.map (·.onesToZeroes) == some 0),
    (517, (do (← bus_1).getStats 3 : Except Err BusStats).toOption.map (·.ones) == some 2),
    (518, (do (← bus_1).getStats 3 : Except Err BusStats).toOption.map (·.zeroes) == some 16),
    (519, (do (← bus_1).getStats 3 : Except Err BusStats).toOption.map (·.zeroesToOnes) == some 1),
    (520, (do (← bus_1).getStats 3 : Except Err BusStats).toOption.map (·.onesToZeroes) == some 1),
    (523, (do (← bus_1).getStats 4 : Except Err BusStats).toOption.map (·.ones) == some 3),
    (524, (do (← bus_1).getStats 4 : Except Err BusStats).toOption.map (·.zeroes) == some 21),
    (525, (do (← bus_1).getStats 4 : Except Err BusStats).toOption.map (·.zeroesToOnes) == some 2),
    (526, (do (← bus_1).getStats 4 : Except Err BusStats).toOption.map (·.onesToZeroes) == some 1),
    (531, (do (← bus_2).getStats 5 : Except Err BusStats).toOption.map (·.ones) == some 5),
    (532, (do (← bus_2).getStats 5 : Except Err BusStats).toOption.map (·.zeroes) == some 25),
    (533, (do (← bus_2).getStats 5 : Except Err BusStats).toOption.map (·.zeroesToOnes) == some 4),
    (534, (do (← bus_2).getStats 5 : Except Err BusStats).toOption.map (·.onesToZeroes) == some 2),
    (537, (do (← bus_2).getStats 6 : Except Err BusStats).toOption.map (·.ones) == some 6),
    (538, (do (← bus_2).getStats 6 : Except Err BusStats).toOption.map (·.zeroes) == some 30),
    (539, (do (← bus_2).getStats 6 : Except Err BusStats).toOption.map (·.zeroesToOnes) == some 5),
    (540, (do (← bus_2).getStats 6 : Except Err BusStats).toOption.map (·.onesToZeroes) == some 4),
    (543, (do (← bus_2).getStats 7 : Except Err BusStats).toOption.map (·.ones) == some 8),
    (544, (do (← bus_2).getStats 7 : Except Err BusStats).toOption.map (·.zeroes) == some 34),
    (545, (do (← bus_2).getStats 7 : Except Err BusStats).toOption.map (·.zeroesToOnes) == some 7),
    (546, (do (← bus_2).getStats 7 : Except Err BusStats).toOption.map (·.onesToZeroes) == some 5),
    (549, (do (← bus_2).getStats 8 : Except Err BusStats).toOption.map (·.ones) == some 9),
    (550, (do (← bus_2).getStats 8 : Except Err BusStats).toOption.map (·.zeroes) == some 39),
    (551, (do (← bus_2).getStats 8 : Except Err BusStats).toOption.map (·.zeroesToOnes) == some 8),
    (552, (do (← bus_2).getStats 8 : Except Err BusStats).toOption.map (·.onesToZeroes) == some 7),
    (555, (do (← bus_2).getStats 9 : Except Err BusStats).toOption.map (·.ones) == some 9),
    (556, (do (← bus_2).getStats 9 : Except Err BusStats).toOption.map (·.zeroes) == some 45),
    (557, (do (← bus_2).getStats 9 : Except Err BusStats).toOption.map (·.zeroesToOnes) == some 8),
    (558, (do (← bus_2).getStats 9 : Except Err BusStats).toOption.map (·.onesToZeroes) == some 8),
    (565, (do (← bus_3).getStats 11 : Except Err BusStats).toOption.map (·.ones) == some 11),
    (566, (do (← bus_3).getStats 11 : Except Err BusStats).toOption.map (·.zeroes) == some 55),
    (567, (do (← bus_3).getStats 11 : Except Err BusStats).toOption.map (·.zeroesToOnes) == some 10),
    (568, (do (← bus_3).getStats 11 : Except Err BusStats).toOption.map (·.onesToZeroes) == some 8)]

#guard failing checks == []

end test_bus.Test_001

/-! ## tests/tests_misc/test_bus_extended.cpp -/

namespace test_bus_extended.EmptyIdleLow_1

def bus_0 : Except Err (Bus 8) := Bus.init 8 8 1 .L

def checks : List (Nat × Bool) := [
    (52, (do (← bus_0).at? 0 : Except Err (BitVec 8)).toOption == some (0)),
    (53, (do (← bus_0).at? 1 : Except Err (BitVec 8)).toOption == some (0))]

#guard failing checks == []

end test_bus_extended.EmptyIdleLow_1

namespace test_bus_extended.EmptyIdleLow_2

def bus_0 : Except Err (Bus 8) := Bus.init 8 8 1 .L

def checks : List (Nat × Bool) := [
    (64, (do (← bus_0).at? 0 : Except Err (BitVec 8)).toOption == some (0)),
    (65, (do (← bus_0).at? 1 : Except Err (BitVec 8)).toOption == some (0))]

#guard failing checks == []

end test_bus_extended.EmptyIdleLow_2

namespace test_bus_extended.EmptyIdleLow_3

def bus_0 : Except Err (Bus 8) := Bus.init 8 8 1 .L

def checks : List (Nat × Bool) := [
    (76, (do (← bus_0).at? 0 : Except Err (BitVec 8)).toOption == some (0)),
    (77, (do (← bus_0).at? 1 : Except Err (BitVec 8)).toOption == some (0))]

#guard failing checks == []

end test_bus_extended.EmptyIdleLow_3

namespace test_bus_extended.EmptyIdleHigh_1

def bus_0 : Except Err (Bus 8) := Bus.init 8 8 1 .H

def checks : List (Nat × Bool) := [
    (88, (do (← bus_0).at? 0 : Except Err (BitVec 8)).toOption == some (BitVec.allOnes _)),
    (89, (do (← bus_0).at? 1 : Except Err (BitVec 8)).toOption == some (BitVec.allOnes _))]

#guard failing checks == []

end test_bus_extended.EmptyIdleHigh_1

namespace test_bus_extended.EmptyIdleHigh_2

def bus_0 : Except Err (Bus 8) := Bus.init 8 8 1 .H

def checks : List (Nat × Bool) := [
    (100, (do (← bus_0).at? 0 : Except Err (BitVec 8)).toOption == some (BitVec.allOnes _)),
    (101, (do (← bus_0).at? 1 : Except Err (BitVec 8)).toOption == some (BitVec.allOnes _))]

#guard failing checks == []

end test_bus_extended.EmptyIdleHigh_2

namespace test_bus_extended.EmptyIdleHigh_3

def bus_0 : Except Err (Bus 8) := Bus.init 8 8 1 .H

def checks : List (Nat × Bool) := [
    (112, (do (← bus_0).at? 0 : Except Err (BitVec 8)).toOption == some (BitVec.allOnes _)),
    (113, (do (← bus_0).at? 1 : Except Err (BitVec 8)).toOption == some (BitVec.allOnes _))]

#guard failing checks == []

end test_bus_extended.EmptyIdleHigh_3

namespace test_bus_extended.Load_Width_8

def bus_0 : Except Err (Bus 8) := Bus.init 8 8 1 .L
def bus_1 : Except Err (Bus 8) := do ((← bus_0).loadWord 0 10902 2)

def checks : List (Nat × Bool) := [
    (126, (do (← bus_1).at? 0 : Except Err (BitVec 8)).toOption == some 42#8),
    (127, (do (← bus_1).at? 1 : Except Err (BitVec 8)).toOption == some 150#8)]

#guard failing checks == []

end test_bus_extended.Load_Width_8

namespace test_bus_extended.Stats_Pattern_Datarate_1

def bus_0 : Except Err (Bus 128) := Bus.init 128 128 2 .L

def checks : List (Nat × Bool) := [
    (240, (do (← bus_0).getStats 3 : Except Err BusStats).toOption.map (·.ones) == some 0),
    (241, (do (← bus_0).getStats 3 : Except Err BusStats).toOption.map (·.zeroes) == some 768),
    (242, (do (← bus_0).getStats 3 : Except Err BusStats).toOption.map (·.onesToZeroes) == some 0),
    (243, (do (← bus_0).getStats 3 : Except Err BusStats).toOption.map (·.zeroesToOnes) == some 0),
    (244, (do (← bus_0).getStats 3 : Except Err BusStats).toOption.map (·.bitChanges) == some 0)]

#guard failing checks == []

end test_bus_extended.Stats_Pattern_Datarate_1

namespace test_bus_extended.Stats_Pattern_Datarate_2

def bus_0 : Except Err (Bus 128) := Bus.init 128 128 13 .L

def checks : List (Nat × Bool) := [
    (255, (do (← bus_0).getStats 47 : Except Err BusStats).toOption.map (·.ones) == some 0),
    (256, (do (← bus_0).getStats 47 : Except Err BusStats).toOption.map (·.zeroes) == some 78208),
    (257, (do (← bus_0).getStats 47 : Except Err BusStats).toOption.map (·.onesToZeroes) == some 0),
    (258, (do (← bus_0).getStats 47 : Except Err BusStats).toOption.map (·.zeroesToOnes) == some 0),
    (259, (do (← bus_0).getStats 47 : Except Err BusStats).toOption.map (·.bitChanges) == some 0)]

#guard failing checks == []

end test_bus_extended.Stats_Pattern_Datarate_2

/-! ## tests/tests_misc/test_pin.cpp -/

namespace test_pin.Load_Init_L_Idle_L_0

def pin_8_0 : Except Err (Pin 8) := .ok (Pin.init 8 .L .L)
def pin_8_1 : Except Err (Pin 8) := do ((← pin_8_0).set 0 .H)
def pin_8_2 : Except Err (Pin 8) := do ((← pin_8_1).set 24 .L)

def checks : List (Nat × Bool) := [
    (150, (do (← pin_8_1).getStats 0 1 : Except Err BusStats).toOption == some { zeroes := 0, ones := 0, zeroesToOnes := 0, onesToZeroes := 0, bitChanges := 0 }),
    (154, (do (← pin_8_1).getStats 1 1 : Except Err BusStats).toOption == some { zeroes := 0, ones := 1, zeroesToOnes := 1, onesToZeroes := 0, bitChanges := 1 }),
    (158, (do (← pin_8_1).getStats 2 1 : Except Err BusStats).toOption == some { zeroes := 1, ones := 1, zeroesToOnes := 1, onesToZeroes := 1, bitChanges := 2 }),
    (162, (do (← pin_8_1).getStats 23 1 : Except Err BusStats).toOption == some { zeroes := 22, ones := 1, zeroesToOnes := 1, onesToZeroes := 1, bitChanges := 2 }),
    (169, (do (← pin_8_2).getStats 45 1 : Except Err BusStats).toOption == some { zeroes := 44, ones := 1, zeroesToOnes := 1, onesToZeroes := 1, bitChanges := 2 })]

#guard failing checks == []

end test_pin.Load_Init_L_Idle_L_0

namespace test_pin.Load_Init_H_Idle_L_0

def pin_8_0 : Except Err (Pin 8) := .ok (Pin.init 8 .H .L)
def pin_8_1 : Except Err (Pin 8) := do ((← pin_8_0).set 0 .H)
def pin_8_2 : Except Err (Pin 8) := do ((← pin_8_1).set 24 .L)

def checks : List (Nat × Bool) := [
    (181, (do (← pin_8_1).getStats 0 1 : Except Err BusStats).toOption == some { zeroes := 0, ones := 0, zeroesToOnes := 0, onesToZeroes := 0, bitChanges := 0 }),
    (185, (do (← pin_8_1).getStats 1 1 : Except Err BusStats).toOption == some { zeroes := 0, ones := 1, zeroesToOnes := 0, onesToZeroes := 0, bitChanges := 0 }),
    (189, (do (← pin_8_1).getStats 2 1 : Except Err BusStats).toOption == some { zeroes := 1, ones := 1, zeroesToOnes := 0, onesToZeroes := 1, bitChanges := 1 }),
    (193, (do (← pin_8_1).getStats 23 1 : Except Err BusStats).toOption == some { zeroes := 22, ones := 1, zeroesToOnes := 0, onesToZeroes := 1, bitChanges := 1 }),
    (200, (do (← pin_8_2).getStats 45 1 : Except Err BusStats).toOption == some { zeroes := 44, ones := 1, zeroesToOnes := 0, onesToZeroes := 1, bitChanges := 1 })]

#guard failing checks == []

end test_pin.Load_Init_H_Idle_L_0

namespace test_pin.Load_Init_H_Idle_H_1

def pin_8_0 : Except Err (Pin 8) := .ok (Pin.init 8 .H .H)
def pin_8_1 : Except Err (Pin 8) := do ((← pin_8_0).set 1 .L)
def pin_8_2 : Except Err (Pin 8) := do ((← pin_8_1).set 24 .L)

def checks : List (Nat × Bool) := [
    (210, (do (← pin_8_0).getStats 0 1 : Except Err BusStats).toOption == some { zeroes := 0, ones := 0, zeroesToOnes := 0, onesToZeroes := 0, bitChanges := 0 }),
    (217, (do (← pin_8_1).getStats 1 1 : Except Err BusStats).toOption == some { zeroes := 0, ones := 1, zeroesToOnes := 0, onesToZeroes := 0, bitChanges := 0 }),
    (221, (do (← pin_8_1).getStats 2 1 : Except Err BusStats).toOption == some { zeroes := 1, ones := 1, zeroesToOnes := 0, onesToZeroes := 1, bitChanges := 1 }),
    (225, (do (← pin_8_1).getStats 3 1 : Except Err BusStats).toOption == some { zeroes := 1, ones := 2, zeroesToOnes := 1, onesToZeroes := 1, bitChanges := 2 }),
    (229, (do (← pin_8_1).getStats 23 1 : Except Err BusStats).toOption == some { zeroes := 1, ones := 22, zeroesToOnes := 1, onesToZeroes := 1, bitChanges := 2 }),
    (236, (do (← pin_8_2).getStats 46 1 : Except Err BusStats).toOption == some { zeroes := 2, ones := 44, zeroesToOnes := 2, onesToZeroes := 2, bitChanges := 4 })]

#guard failing checks == []

end test_pin.Load_Init_H_Idle_H_1

namespace test_pin.Load_Init_L_Idle_H_1

def pin_8_0 : Except Err (Pin 8) := .ok (Pin.init 8 .L .H)
def pin_8_1 : Except Err (Pin 8) := do ((← pin_8_0).set 1 .L)
def pin_8_2 : Except Err (Pin 8) := do ((← pin_8_1).set 24 .L)

def checks : List (Nat × Bool) := [
    (246, (do (← pin_8_0).getStats 0 1 : Except Err BusStats).toOption == some { zeroes := 0, ones := 0, zeroesToOnes := 0, onesToZeroes := 0, bitChanges := 0 }),
    (253, (do (← pin_8_1).getStats 1 1 : Except Err BusStats).toOption == some { zeroes := 0, ones := 1, zeroesToOnes := 1, onesToZeroes := 0, bitChanges := 1 }),
    (257, (do (← pin_8_1).getStats 2 1 : Except Err BusStats).toOption == some { zeroes := 1, ones := 1, zeroesToOnes := 1, onesToZeroes := 1, bitChanges := 2 }),
    (261, (do (← pin_8_1).getStats 3 1 : Except Err BusStats).toOption == some { zeroes := 1, ones := 2, zeroesToOnes := 2, onesToZeroes := 1, bitChanges := 3 }),
    (265, (do (← pin_8_1).getStats 23 1 : Except Err BusStats).toOption == some { zeroes := 1, ones := 22, zeroesToOnes := 2, onesToZeroes := 1, bitChanges := 3 }),
    (272, (do (← pin_8_2).getStats 46 1 : Except Err BusStats).toOption == some { zeroes := 2, ones := 44, zeroesToOnes := 3, onesToZeroes := 2, bitChanges := 5 })]

#guard failing checks == []

end test_pin.Load_Init_L_Idle_H_1

namespace test_pin.Idle_to_Burst_to_Idle

def pin_8_0 : Except Err (Pin 8) := .ok (Pin.init 8 .L .L)
def pin_8_1 : Except Err (Pin 8) := do ((← pin_8_0).set 10 .H)
def pin_8_2 : Except Err (Pin 8) := do ((← pin_8_1).set 10 .H)
def pin_8_3 : Except Err (Pin 8) := do ((← pin_8_2).set 10 .H)
def pin_8_4 : Except Err (Pin 8) := do ((← pin_8_3).set 10 .H)
def pin_8_5 : Except Err (Pin 8) := do ((← pin_8_4).set 10 .H)
def pin_8_6 : Except Err (Pin 8) := do ((← pin_8_5).set 25 .H)
def pin_8_7 : Except Err (Pin 8) := do ((← pin_8_6).set 25 .L)
def pin_8_8 : Except Err (Pin 8) := do ((← pin_8_7).set 25 .H)

def checks : List (Nat × Bool) := [
    (282, (do (← pin_8_0).getStats 9 1 : Except Err BusStats).toOption == some { zeroes := 9, ones := 0, zeroesToOnes := 0, onesToZeroes := 0, bitChanges := 0 }),
    (294, (do (← pin_8_5).getStats 10 1 : Except Err BusStats).toOption == some { zeroes := 10, ones := 0, zeroesToOnes := 0, onesToZeroes := 0, bitChanges := 0 }),
    (298, (do (← pin_8_5).getStats 11 1 : Except Err BusStats).toOption == some { zeroes := 10, ones := 1, zeroesToOnes := 1, onesToZeroes := 0, bitChanges := 1 }),
    (302, (do (← pin_8_5).getStats 12 1 : Except Err BusStats).toOption == some { zeroes := 10, ones := 2, zeroesToOnes := 1, onesToZeroes := 0, bitChanges := 1 }),
    (306, (do (← pin_8_5).getStats 13 1 : Except Err BusStats).toOption == some { zeroes := 10, ones := 3, zeroesToOnes := 1, onesToZeroes := 0, bitChanges := 1 }),
    (310, (do (← pin_8_5).getStats 14 1 : Except Err BusStats).toOption == some { zeroes := 10, ones := 4, zeroesToOnes := 1, onesToZeroes := 0, bitChanges := 1 }),
    (314, (do (← pin_8_5).getStats 15 1 : Except Err BusStats).toOption == some { zeroes := 10, ones := 5, zeroesToOnes := 1, onesToZeroes := 0, bitChanges := 1 }),
    (318, (do (← pin_8_5).getStats 16 1 : Except Err BusStats).toOption == some { zeroes := 11, ones := 5, zeroesToOnes := 1, onesToZeroes := 1, bitChanges := 2 }),
    (322, (do (← pin_8_5).getStats 24 1 : Except Err BusStats).toOption == some { zeroes := 19, ones := 5, zeroesToOnes := 1, onesToZeroes := 1, bitChanges := 2 }),
    (333, (do (← pin_8_8).getStats 25 1 : Except Err BusStats).toOption == some { zeroes := 20, ones := 5, zeroesToOnes := 1, onesToZeroes := 1, bitChanges := 2 }),
    (337, (do (← pin_8_8).getStats 26 1 : Except Err BusStats).toOption == some { zeroes := 20, ones := 6, zeroesToOnes := 2, onesToZeroes := 1, bitChanges := 3 }),
    (341, (do (← pin_8_8).getStats 27 1 : Except Err BusStats).toOption == some { zeroes := 21, ones := 6, zeroesToOnes := 2, onesToZeroes := 2, bitChanges := 4 }),
    (345, (do (← pin_8_8).getStats 28 1 : Except Err BusStats).toOption == some { zeroes := 21, ones := 7, zeroesToOnes := 3, onesToZeroes := 2, bitChanges := 5 }),
    (349, (do (← pin_8_8).getStats 29 1 : Except Err BusStats).toOption == some { zeroes := 22, ones := 7, zeroesToOnes := 3, onesToZeroes := 3, bitChanges := 6 }),
    (354, (do (← pin_8_8).getStats 48 1 : Except Err BusStats).toOption == some { zeroes := 41, ones := 7, zeroesToOnes := 3, onesToZeroes := 3, bitChanges := 6 })]

#guard failing checks == []

end test_pin.Idle_to_Burst_to_Idle

namespace test_pin.SeamlessBursts

def pin_8_0 : Except Err (Pin 8) := .ok (Pin.init 8 .L .L)
def pin_8_1 : Except Err (Pin 8) := do ((← pin_8_0).set 10 .H)
def pin_8_2 : Except Err (Pin 8) := do ((← pin_8_1).set 10 .H)
def pin_8_3 : Except Err (Pin 8) := do ((← pin_8_2).set 10 .H)
def pin_8_4 : Except Err (Pin 8) := do ((← pin_8_3).set 10 .H)
def pin_8_5 : Except Err (Pin 8) := do ((← pin_8_4).set 10 .H)
def pin_8_6 : Except Err (Pin 8) := do ((← pin_8_5).set 15 .H)
def pin_8_7 : Except Err (Pin 8) := do ((← pin_8_6).set 15 .L)
def pin_8_8 : Except Err (Pin 8) := do ((← pin_8_7).set 15 .H)

def checks : List (Nat × Bool) := [
    (366, (do (← pin_8_0).getStats 9 1 : Except Err BusStats).toOption == some { zeroes := 9, ones := 0, zeroesToOnes := 0, onesToZeroes := 0, bitChanges := 0 }),
    (378, (do (← pin_8_5).getStats 10 1 : Except Err BusStats).toOption == some { zeroes := 10, ones := 0, zeroesToOnes := 0, onesToZeroes := 0, bitChanges := 0 }),
    (382, (do (← pin_8_5).getStats 11 1 : Except Err BusStats).toOption == some { zeroes := 10, ones := 1, zeroesToOnes := 1, onesToZeroes := 0, bitChanges := 1 }),
    (386, (do (← pin_8_5).getStats 12 1 : Except Err BusStats).toOption == some { zeroes := 10, ones := 2, zeroesToOnes := 1, onesToZeroes := 0, bitChanges := 1 }),
    (390, (do (← pin_8_5).getStats 13 1 : Except Err BusStats).toOption == some { zeroes := 10, ones := 3, zeroesToOnes := 1, onesToZeroes := 0, bitChanges := 1 }),
    (394, (do (← pin_8_5).getStats 14 1 : Except Err BusStats).toOption == some { zeroes := 10, ones := 4, zeroesToOnes := 1, onesToZeroes := 0, bitChanges := 1 }),
    (404, (do (← pin_8_8).getStats 15 1 : Except Err BusStats).toOption == some { zeroes := 10, ones := 5, zeroesToOnes := 1, onesToZeroes := 0, bitChanges := 1 }),
    (409, (do (← pin_8_8).getStats 16 1 : Except Err BusStats).toOption == some { zeroes := 10, ones := 6, zeroesToOnes := 1, onesToZeroes := 0, bitChanges := 1 }),
    (413, (do (← pin_8_8).getStats 17 1 : Except Err BusStats).toOption == some { zeroes := 11, ones := 6, zeroesToOnes := 1, onesToZeroes := 1, bitChanges := 2 }),
    (417, (do (← pin_8_8).getStats 18 1 : Except Err BusStats).toOption == some { zeroes := 11, ones := 7, zeroesToOnes := 2, onesToZeroes := 1, bitChanges := 3 }),
    (421, (do (← pin_8_8).getStats 19 1 : Except Err BusStats).toOption == some { zeroes := 12, ones := 7, zeroesToOnes := 2, onesToZeroes := 2, bitChanges := 4 }),
    (426, (do (← pin_8_8).getStats 48 1 : Except Err BusStats).toOption == some { zeroes := 41, ones := 7, zeroesToOnes := 2, onesToZeroes := 2, bitChanges := 4 })]

#guard failing checks == []

end test_pin.SeamlessBursts

/-! ## tests/tests_misc/test_clock.cpp -/

namespace test_clock.Test_1

def clock_0 : Except Err Clock := .ok (Clock.init)

def checks : List (Nat × Bool) := [
    (26, (do pure ((← clock_0).getStats 0) : Except Err BusStats).toOption.map (·.zeroes) == some 0),
    (27, (do pure ((← clock_0).getStats 0) : Except Err BusStats).toOption.map (·.ones) == some 0),
    (30, (do pure ((← clock_0).getStats 1) : Except Err BusStats).toOption.map (·.zeroes) == some 1),
    (31, (do pure ((← clock_0).getStats 1) : Except Err BusStats).toOption.map (·.ones) == some 1),
    (34, (do pure ((← clock_0).getStats 2) : Except Err BusStats).toOption.map (·.zeroes) == some 2),
    (35, (do pure ((← clock_0).getStats 2) : Except Err BusStats).toOption.map (·.ones) == some 2),
    (38, (do pure ((← clock_0).getStats 10) : Except Err BusStats).toOption.map (·.zeroes) == some 10),
    (39, (do pure ((← clock_0).getStats 10) : Except Err BusStats).toOption.map (·.ones) == some 10)]

#guard failing checks == []

end test_clock.Test_1

namespace test_clock.Test_Period

def clock_0 : Except Err Clock := .ok (Clock.init)

def checks : List (Nat × Bool) := [
    (51, (do pure ((← clock_0).getStats 0) : Except Err BusStats).toOption.map (·.zeroes) == some 0),
    (52, (do pure ((← clock_0).getStats 0) : Except Err BusStats).toOption.map (·.ones) == some 0),
    (55, (do pure ((← clock_0).getStats 1) : Except Err BusStats).toOption.map (·.zeroes) == some 1),
    (56, (do pure ((← clock_0).getStats 1) : Except Err BusStats).toOption.map (·.ones) == some 1),
    (59, (do pure ((← clock_0).getStats 2) : Except Err BusStats).toOption.map (·.zeroes) == some 2),
    (60, (do pure ((← clock_0).getStats 2) : Except Err BusStats).toOption.map (·.ones) == some 2),
    (63, (do pure ((← clock_0).getStats 3) : Except Err BusStats).toOption.map (·.zeroes) == some 3),
    (64, (do pure ((← clock_0).getStats 3) : Except Err BusStats).toOption.map (·.ones) == some 3),
    (67, (do pure ((← clock_0).getStats 4) : Except Err BusStats).toOption.map (·.zeroes) == some 4),
    (68, (do pure ((← clock_0).getStats 4) : Except Err BusStats).toOption.map (·.ones) == some 4),
    (71, (do pure ((← clock_0).getStats 5) : Except Err BusStats).toOption.map (·.zeroes) == some 5),
    (72, (do pure ((← clock_0).getStats 5) : Except Err BusStats).toOption.map (·.ones) == some 5),
    (75, (do pure ((← clock_0).getStats 6) : Except Err BusStats).toOption.map (·.zeroes) == some 6),
    (76, (do pure ((← clock_0).getStats 6) : Except Err BusStats).toOption.map (·.ones) == some 6),
    (79, (do pure ((← clock_0).getStats 7) : Except Err BusStats).toOption.map (·.zeroes) == some 7),
    (80, (do pure ((← clock_0).getStats 7) : Except Err BusStats).toOption.map (·.ones) == some 7)]

#guard failing checks == []

end test_clock.Test_Period

namespace test_clock.Test_Stop_Start

def clock_0 : Except Err Clock := .ok (Clock.init)
def clock_1 : Except Err (Clock) := do ((← clock_0).stop 5)
def clock_2 : Except Err (Clock) := do ((← clock_1).start 7)

def checks : List (Nat × Bool) := [
    (92, (do pure ((← clock_1).getStats 5) : Except Err BusStats).toOption.map (·.zeroes) == some 5),
    (93, (do pure ((← clock_1).getStats 5) : Except Err BusStats).toOption.map (·.ones) == some 5),
    (96, (do pure ((← clock_1).getStats 6) : Except Err BusStats).toOption.map (·.zeroes) == some 5),
    (97, (do pure ((← clock_1).getStats 6) : Except Err BusStats).toOption.map (·.ones) == some 5),
    (102, (do pure ((← clock_2).getStats 7) : Except Err BusStats).toOption.map (·.zeroes) == some 5),
    (103, (do pure ((← clock_2).getStats 7) : Except Err BusStats).toOption.map (·.ones) == some 5),
    (106, (do pure ((← clock_2).getStats 8) : Except Err BusStats).toOption.map (·.zeroes) == some 6),
    (107, (do pure ((← clock_2).getStats 8) : Except Err BusStats).toOption.map (·.ones) == some 6)]

#guard failing checks == []

end test_clock.Test_Stop_Start

/-! ## tests/tests_misc/test_interval.cpp -/

namespace test_interval.Constructor

def i_0 : Except Err Interval := .ok {  }

def checks : List (Nat × Bool) := [
    (23, (do let i ← i_0; pure i.isOpen : Except Err Bool).toOption == some false),
    (24, (do let i ← i_0; pure (i.start.isSome && i.stop.isSome) : Except Err Bool).toOption == some false),
    (25, (do let i ← i_0; pure (i.count) : Except Err Nat).toOption == some 0),
    (26, (do let i ← i_0; pure (i.countAt 50) : Except Err Nat).toOption == some 0)]

#guard failing checks == []

end test_interval.Constructor

namespace test_interval.Open

def i_0 : Except Err Interval := .ok { start := some 20 }

def checks : List (Nat × Bool) := [
    (33, (do let i ← i_0; pure i.isOpen : Except Err Bool).toOption == some true),
    (34, (do let i ← i_0; pure (i.start.isSome && i.stop.isSome) : Except Err Bool).toOption == some false),
    (36, (do let i ← i_0; pure (i.getStart) : Except Err Nat).toOption == some 20),
    (38, (do let i ← i_0; pure (i.count) : Except Err Nat).toOption == some 0),
    (39, (do let i ← i_0; pure (i.countAt 15) : Except Err Nat).toOption == some 0),
    (40, (do let i ← i_0; pure (i.countAt 20) : Except Err Nat).toOption == some 0),
    (41, (do let i ← i_0; pure (i.countAt 25) : Except Err Nat).toOption == some 5)]

#guard failing checks == []

end test_interval.Open

namespace test_interval.Close

def i_0 : Except Err Interval := .ok { start := some 20 }
def i_1 : Except Err (Interval) := do (pure ((← i_0).close 30))

def checks : List (Nat × Bool) := [
    (48, (do let i ← i_0; pure i.isOpen : Except Err Bool).toOption == some true),
    (49, (do let i ← i_0; pure (i.start.isSome && i.stop.isSome) : Except Err Bool).toOption == some false),
    (51, (do pure ((← i_1).count - (← i_0).count) : Except Err Nat).toOption == some 10),
    (53, (do let i ← i_1; pure i.isOpen : Except Err Bool).toOption == some false),
    (54, (do let i ← i_1; pure (i.start.isSome && i.stop.isSome) : Except Err Bool).toOption == some true),
    (56, (do let i ← i_1; pure (i.count) : Except Err Nat).toOption == some 10),
    (57, (do let i ← i_1; pure (i.countAt 30) : Except Err Nat).toOption == some 10),
    (58, (do let i ← i_1; pure (i.countAt 35) : Except Err Nat).toOption == some 10)]

#guard failing checks == []

end test_interval.Close

namespace test_interval.Reset

def i_0 : Except Err Interval := .ok {  }
def i_1 : Except Err (Interval) := do (pure ((← i_0).startAt 20))
def i_2 : Except Err (Interval) := do (pure ((← i_1).close 30))
def i_3 : Except Err (Interval) := do (pure { (← i_2) with start := none, stop := none })

def checks : List (Nat × Bool) := [
    (65, (do pure ((← i_2).count - (← i_1).count) : Except Err Nat).toOption == some 10),
    (69, (do let i ← i_3; pure i.isOpen : Except Err Bool).toOption == some false),
    (70, (do let i ← i_3; pure (i.start.isSome && i.stop.isSome) : Except Err Bool).toOption == some false),
    (72, (do let i ← i_3; pure (i.count) : Except Err Nat).toOption == some 10),
    (73, (do let i ← i_3; pure (i.countAt 30) : Except Err Nat).toOption == some 10),
    (74, (do let i ← i_3; pure (i.countAt 35) : Except Err Nat).toOption == some 10)]

#guard failing checks == []

end test_interval.Reset

namespace test_interval.Restart

def i_0 : Except Err Interval := .ok {  }
def i_1 : Except Err (Interval) := do (pure ((← i_0).startAt 20))
def i_2 : Except Err (Interval) := do (pure ((← i_1).close 30))
def i_3 : Except Err (Interval) := do (pure ((← i_2).startAt 50))
def i_4 : Except Err (Interval) := do (pure ((← i_3).close 60))

def checks : List (Nat × Bool) := [
    (82, (do pure ((← i_2).count - (← i_1).count) : Except Err Nat).toOption == some 10),
    (86, (do let i ← i_3; pure i.isOpen : Except Err Bool).toOption == some true),
    (87, (do let i ← i_3; pure (i.start.isSome && i.stop.isSome) : Except Err Bool).toOption == some false),
    (89, (do let i ← i_3; pure (i.count) : Except Err Nat).toOption == some 10),
    (90, (do let i ← i_3; pure (i.countAt 55) : Except Err Nat).toOption == some 15),
    (92, (do pure ((← i_4).count - (← i_3).count) : Except Err Nat).toOption == some 10),
    (93, (do let i ← i_4; pure (i.count) : Except Err Nat).toOption == some 20),
    (94, (do let i ← i_4; pure (i.countAt 65) : Except Err Nat).toOption == some 20)]

#guard failing checks == []

end test_interval.Restart

end DRAMPower.Tests
