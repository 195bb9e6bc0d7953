import Verif.Model.Rounded
import Verif.Model.Toggling

/-!
# The toggling-rate model in floating point

`TogglingHandle::get_stats` with the operations on `double` in the order the code does them and an arbitrary arithmetic (`Model/Rounded`). All
else, calls and state, is that of `Model/Toggling`; a `Rate` is the number the `double` holds. Paths relative to
`/repo/src/DRAMPower/DRAMPower/`.
-/

namespace DRAMPower

/-- The number. -/
def Rate.value (r : Rate) : Rat := r.num / r.den

/-- Conversion of a `double` to `uint64_t`: towards zero, undefined outside of the range. -/
def truncate (x : Rat) : Except Err Nat :=
  if x ≤ -1 ∨ 2 ^ 64 ≤ x then .error (.ub "double to uint64_t") else .ok x.floor.toNat

/-- `stats.ones = count * duty_cycle` (dram/Interface.cpp 176). -/
def Arith.toggleOnes (A : Arith) (duty : Rat) (n : Nat) : Rat := A.mul (A.nat n) duty

/-- `stats.zeroes = count * (1 - duty_cycle)` (dram/Interface.cpp 177). -/
def Arith.toggleZeroes (A : Arith) (duty : Rat) (n : Nat) : Rat := A.mul (A.nat n) (A.sub 1 duty)

/-- `stats.ones_to_zeroes = count * toggling_rate / 2` (dram/Interface.cpp 178). -/
def Arith.toggleFalls (A : Arith) (rate : Rat) (n : Nat) : Rat := A.div (A.mul (A.nat n) rate) 2

/-- `get_stats` (dram/Interface.cpp 151-194). -/
def Arith.togglingStats (A : Arith) (h : Toggling) (t : Nat) : Except Err BusStats := do
  let vt := t * h.datarate
  let count := if h.enabled ∧ !h.handled then
      if vt < h.lastLength + h.lastLoad then h.count + usub vt h.lastLoad else h.count + h.lastLength
    else h.count
  let disableTime := if h.enabled then h.disableTime else h.disableTime + usub vt h.disableTimestamp
  let ones ← truncate (A.toggleOnes h.dutyCycle.value count)
  let zeroes ← truncate (A.toggleZeroes h.dutyCycle.value count)
  let o2z ← truncate (A.toggleFalls h.togglingRate.value count)
  let idle := usub (usub vt disableTime) count
  match h.idle with
  | .invalid => .error (.exception "Invalid TogglingRateIdlePattern")
  | .L => .ok { ones := ones * h.width, zeroes := (zeroes + idle) * h.width, onesToZeroes := o2z * h.width
                zeroesToOnes := o2z * h.width, bitChanges := o2z * h.width + o2z * h.width }
  | .H => .ok { ones := (ones + idle) * h.width, zeroes := zeroes * h.width, onesToZeroes := o2z * h.width
                zeroesToOnes := o2z * h.width, bitChanges := o2z * h.width + o2z * h.width }

end DRAMPower
