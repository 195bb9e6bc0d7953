/-!
# Unsigned arithmetic and interval counters

Paths in comments are relative to `/repo/src/DRAMPower/DRAMPower/`.
-/

namespace DRAMPower

/-- Subtraction of two `uint64_t` values (C++ unsigned arithmetic, wraps modulo 2^64).
Both operands are taken to be below 2^64. -/
def usub (a b : Nat) : Nat := if b ≤ a then a - b else a + 2 ^ 64 - b

/-- Point update of a vector modelled as a function from indices. -/
def upd {α : Type} (f : Nat → α) (i : Nat) (v : α) : Nat → α := fun j => if j = i then v else f j

/-- `util::interval_counter<uint64_t>` (util/cycle_stats.h 13-29): accumulated count plus the
optional start and end of the most recent interval. `end` is named `stop` here. -/
structure Interval where
  count : Nat := 0
  start : Option Nat := none
  stop : Option Nat := none
deriving DecidableEq, Repr

namespace Interval

/-- util/cycle_stats.h 31: `start.value_or(0)`. -/
def getStart (i : Interval) : Nat := i.start.getD 0

/-- util/cycle_stats.h 32: `end.value_or(0)`. -/
def getEnd (i : Interval) : Nat := i.stop.getD 0

/-- util/cycle_stats.h 34: `start && !end`. -/
def isOpen (i : Interval) : Bool := i.start.isSome && i.stop.isNone

/-- util/cycle_stats.h 41-46. `timestamp > *start` holds in the subtracting branch, so the
subtraction cannot wrap; the `*start` access is guarded by `is_open()`. -/
def countAt (i : Interval) (t : Nat) : Nat :=
  if i.isOpen && decide (t > i.getStart) then i.count + t - i.getStart else i.count

/-- util/cycle_stats.h 52-61: no effect unless open; otherwise sets `end` and accumulates
`timestamp - *start` (unsigned; modelled as the wrapped value of `count + timestamp - *start`). -/
def close (i : Interval) (t : Nat) : Interval :=
  if i.isOpen then { i with stop := some t, count := usub (i.count + t) i.getStart } else i

/-- util/cycle_stats.h 68-71: overwrites `start` and forgets `end`, even when already open. -/
def startAt (i : Interval) (t : Nat) : Interval := { i with start := some t, stop := none }

/-- util/cycle_stats.h 73-76. -/
def startIfNotRunning (i : Interval) (t : Nat) : Interval :=
  if i.isOpen then i else i.startAt t

end Interval
end DRAMPower
