import Verif.Model.Toggling

/-!
# Activity of a bus, beat by beat

For the toggling-rate model only three things matter about a beat: the model is switched off, the bus is idle, or it
transfers data.
-/

namespace DRAMPower.Spec

/-- Per beat: `none` off, `some false` idle, `some true` transferring. -/
abbrev Activity := Nat → Option Bool

/-- Number of beats before `T` with a given activity. -/
def Activity.beats (a : Activity) (what : Option Bool) : Nat → Nat
  | 0 => 0
  | T + 1 => a.beats what T + if a T = what then 1 else 0

/-- Effect of a call: a transfer occupies `bits / width` beats unless the model is off, switching off or on lasts from then on. -/
def Activity.drive (width datarate : Nat) (a : Activity) : ToggleOp → Activity
  | .transfer t bits => fun k =>
    if a (t * datarate) ≠ none ∧ t * datarate ≤ k ∧ k < t * datarate + bits / width then some true else a k
  | .disable t => fun k => if t * datarate ≤ k then none else a k
  | .enable t => fun k => if t * datarate ≤ k ∧ a k = none then some false else a k
  | .rates .. => a

/-- The activity after a sequence of calls, starting idle or off. -/
def Activity.after (width datarate : Nat) (enabled : Bool) (ops : List ToggleOp) : Activity :=
  ops.foldl (Activity.drive width datarate) fun _ => if enabled then some false else none

/-- Closed form: `n` transferring beats, `i` idle beats, figures per wire truncated, times the width. -/
def toggleStats (width : Nat) (togglingRate dutyCycle : Rate) (idleHigh : Bool) (n i : Nat) : BusStats where
  ones := width * (n * dutyCycle.num / dutyCycle.den + if idleHigh then i else 0)
  zeroes := width * (n * (dutyCycle.den - dutyCycle.num) / dutyCycle.den + if idleHigh then 0 else i)
  onesToZeroes := width * (n * togglingRate.num / (2 * togglingRate.den))
  zeroesToOnes := width * (n * togglingRate.num / (2 * togglingRate.den))
  bitChanges := 2 * (width * (n * togglingRate.num / (2 * togglingRate.den)))

/-- Times of the calls do not decrease, starting from beat `lo`. -/
def ToggleTimed (datarate : Nat) : Nat → List ToggleOp → Prop
  | _, [] => True
  | lo, .transfer t _ :: ops => lo ≤ t * datarate ∧ ToggleTimed datarate (t * datarate) ops
  | lo, .disable t :: ops => lo ≤ t * datarate ∧ ToggleTimed datarate (t * datarate) ops
  | lo, .enable t :: ops => lo ≤ t * datarate ∧ ToggleTimed datarate (t * datarate) ops
  | lo, .rates .. :: ops => ToggleTimed datarate lo ops

/-- The beat of the last call (at least `lo`). -/
def lastCall (datarate : Nat) : Nat → List ToggleOp → Nat
  | lo, [] => lo
  | _, .transfer t _ :: ops => lastCall datarate (t * datarate) ops
  | _, .disable t :: ops => lastCall datarate (t * datarate) ops
  | _, .enable t :: ops => lastCall datarate (t * datarate) ops
  | lo, .rates .. :: ops => lastCall datarate lo ops

end DRAMPower.Spec
