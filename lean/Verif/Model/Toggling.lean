import Verif.Model.BusStats

/-!
# The toggling-rate model of a bus

Paths in comments are relative to `/repo/src/DRAMPower/DRAMPower/`.

Simplifications: the `double` rates are rational numbers in [0, 1] (`Rate`) and the conversions from `double` to
`uint64_t` in `get_stats` truncate the exact product; timestamps are unbounded.
-/

namespace DRAMPower

/-- A rate in [0, 1], `num / den`. -/
structure Rate where
  num : Nat
  den : Nat
  pos : 0 < den
  le : num ≤ den
deriving DecidableEq, Repr

/-- `TogglingRateIdlePattern` (DRAMUtils; used in dram/Interface.cpp 173-182). -/
inductive ToggleIdle | L | H | invalid
deriving DecidableEq, Repr

/-- Data members of `TogglingHandle` (dram/Interface.h 32-41); `last_burst` (18-28) is flattened. -/
structure Toggling where
  width : Nat
  datarate : Nat
  togglingRate : Rate
  dutyCycle : Rate
  idle : ToggleIdle
  enabled : Bool
  lastLength : Nat := 0
  lastLoad : Nat := 0
  handled : Bool := true
  count : Nat := 0
  disableTimestamp : Nat := 0
  disableTime : Nat := 0
deriving DecidableEq, Repr

namespace Toggling

/-- Constructor (dram/Interface.cpp 21-33); the assertions on the rates are part of the type `Rate`. -/
def init (width datarate : Nat) (togglingRate dutyCycle : Rate) (idle : ToggleIdle) (enabled : Bool := true) : Except Err Toggling :=
  if width = 0 then .error (.assertion "width > 0")
  else if datarate = 0 then .error (.assertion "datarate > 0")
  else .ok { width, datarate, togglingRate, dutyCycle, idle, enabled }

/-- `disable` (dram/Interface.cpp 35-52). -/
def disable (h : Toggling) (t : Nat) : Toggling :=
  let vt := t * h.datarate
  if !h.enabled then h
  else
    let count := if !h.handled then
        if h.lastLength + h.lastLoad ≤ vt then h.count + h.lastLength else h.count + usub vt h.lastLoad
      else h.count
    { h with count, handled := true, disableTimestamp := vt, enabled := false }

/-- `enable` (dram/Interface.cpp 54-61). -/
def enable (h : Toggling) (t : Nat) : Toggling :=
  if h.enabled then h
  else { h with disableTime := h.disableTime + usub (t * h.datarate) h.disableTimestamp, enabled := true }

/-- `setTogglingRateAndDutyCycle` (dram/Interface.cpp 94-99). -/
def setRates (h : Toggling) (togglingRate dutyCycle : Rate) (idle : ToggleIdle) : Toggling :=
  { h with togglingRate, dutyCycle, idle }

/-- `incCountBurstLength` (dram/Interface.cpp 119-145). -/
def incBurst (h : Toggling) (t length : Nat) : Except Err Toggling :=
  let vt := t * h.datarate
  if !h.handled ∧ vt < h.lastLength + h.lastLoad then .error (.assertion "burst overlaps the last burst")
  else
    let count := if !h.handled then h.count + h.lastLength else h.count
    if h.enabled then .ok { h with count, lastLength := length, lastLoad := vt, handled := false }
    else .ok { h with count, handled := true }

/-- `incCountBitLength` (dram/Interface.cpp 146-150). -/
def incBits (h : Toggling) (t bits : Nat) : Except Err Toggling :=
  if h.width = 0 then .error (.ub "bitlength % width")
  else if bits % h.width ≠ 0 then .error (.assertion "bitlength % width == 0")
  else h.incBurst t (bits / h.width)

/-- `get_stats` (dram/Interface.cpp 151-194). The products with the rates are truncated:
`⌊count * duty⌋`, `⌊count * (1 - duty)⌋`, `⌊count * rate / 2⌋`. -/
def getStats (h : Toggling) (t : Nat) : Except Err BusStats :=
  let vt := t * h.datarate
  let count := if h.enabled ∧ !h.handled then
      if vt < h.lastLength + h.lastLoad then h.count + usub vt h.lastLoad else h.count + h.lastLength
    else h.count
  let disableTime := if h.enabled then h.disableTime else h.disableTime + usub vt h.disableTimestamp
  let ones := count * h.dutyCycle.num / h.dutyCycle.den
  let zeroes := count * (h.dutyCycle.den - h.dutyCycle.num) / h.dutyCycle.den
  let o2z := count * h.togglingRate.num / (2 * h.togglingRate.den)
  let idle := usub (usub vt disableTime) count
  match h.idle with
  | .invalid => .error (.exception "Invalid TogglingRateIdlePattern")
  | .L => .ok { ones := ones * h.width, zeroes := (zeroes + idle) * h.width, onesToZeroes := o2z * h.width
                zeroesToOnes := o2z * h.width, bitChanges := o2z * h.width + o2z * h.width }
  | .H => .ok { ones := (ones + idle) * h.width, zeroes := zeroes * h.width, onesToZeroes := o2z * h.width
                zeroesToOnes := o2z * h.width, bitChanges := o2z * h.width + o2z * h.width }

end Toggling

/-- Calls on the toggling-rate model. -/
inductive ToggleOp
  | transfer (t bits : Nat)
  | disable (t : Nat)
  | enable (t : Nat)
  | rates (togglingRate dutyCycle : Rate) (idle : ToggleIdle)

/-- One call. -/
def Toggling.step (h : Toggling) : ToggleOp → Except Err Toggling
  | .transfer t bits => h.incBits t bits
  | .disable t => .ok (h.disable t)
  | .enable t => .ok (h.enable t)
  | .rates r d i => .ok (h.setRates r d i)

/-- A sequence of calls. -/
def Toggling.run (h : Toggling) : List ToggleOp → Except Err Toggling
  | [] => .ok h
  | op :: ops => match h.step op with
    | .ok h => h.run ops
    | .error e => .error e

end DRAMPower
