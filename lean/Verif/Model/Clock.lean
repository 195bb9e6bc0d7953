import Verif.Model.BusStats

/-!
# Clocks and strobes

Paths in comments are relative to `/repo/src/DRAMPower/DRAMPower/`. Timestamps are unbounded.
-/

namespace DRAMPower

/-- Data members of `Clock` (util/clock.h 19-21). -/
structure Clock where
  lastStart : Option Nat
  stats : BusStats := {}
  dataRate : Nat
deriving DecidableEq, Repr

namespace Clock

/-- `count` (util/clock.h 24-36). -/
def count (c : Clock) (duration : Nat) : BusStats where
  ones := duration * c.dataRate / 2
  zeroes := duration * c.dataRate / 2
  zeroesToOnes := duration * c.dataRate / 2
  onesToZeroes := duration * c.dataRate / 2
  bitChanges := duration * c.dataRate / 2 + duration * c.dataRate / 2

/-- Constructor (util/clock.h 39-46). -/
def init (dataRate : Nat := 2) (stopped : Bool := false) : Clock :=
  { lastStart := if stopped then none else some 0, dataRate }

/-- `stop` (util/clock.h 49-56). -/
def stop (c : Clock) (t : Nat) : Except Err Clock :=
  match c.lastStart with
  | none => .error (.assertion "last_start.has_value()")
  | some s => if s < t then .ok { c with stats := c.stats + c.count (t - s), lastStart := none }
    else .error (.assertion "*last_start < t")

/-- `start` (util/clock.h 58-62). -/
def start (c : Clock) (t : Nat) : Except Err Clock :=
  match c.lastStart with
  | some _ => .error (.assertion "!last_start.has_value()")
  | none => .ok { c with lastStart := some t }

/-- `get_stats_at` (util/clock.h 65-74); the subtraction wraps. -/
def getStats (c : Clock) (t : Nat) : BusStats :=
  match c.lastStart with
  | none => c.stats
  | some s => c.stats + c.count (usub t s)

end Clock

/-- Calls on a clock. -/
inductive ClockOp
  | start (t : Nat)
  | stop (t : Nat)
deriving Repr

/-- A sequence of calls. -/
def Clock.run (c : Clock) : List ClockOp → Except Err Clock
  | [] => .ok c
  | .start t :: ops => c.start t >>= fun c => c.run ops
  | .stop t :: ops => c.stop t >>= fun c => c.run ops

end DRAMPower
