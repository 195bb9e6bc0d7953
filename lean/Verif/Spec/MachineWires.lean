import Verif.Model.MachineWires

/-!
# Calls whose times in beats fit into 64 bits
-/

namespace DRAMPower.Spec

/-- The call as the program gets it. -/
def busWord : BusOp → Machine.BusOp
  | .load t data n => .load (UInt64.ofNat t) data (UInt64.ofNat n)
  | .disable t => .disable (UInt64.ofNat t)
  | .enable t => .enable (UInt64.ofNat t)

/-- The call as the program gets it. -/
def clockWord : ClockOp → Machine.ClockOp
  | .start t => .start (UInt64.ofNat t)
  | .stop t => .stop (UInt64.ofNat t)

/-- The call as the program gets it. -/
def toggleWord : ToggleOp → Machine.ToggleOp
  | .transfer t bits => .transfer (UInt64.ofNat t) (UInt64.ofNat bits)
  | .disable t => .disable (UInt64.ofNat t)
  | .enable t => .enable (UInt64.ofNat t)
  | .rates r d i => .rates r d i

/-- A time that fits, in cycles and in beats. -/
def TimeFits (rate t : Nat) : Prop := t < 2 ^ 64 ∧ t * rate < 2 ^ 64

/-- A transfer that ends before the beat 2^64. -/
def TransferFits (width rate t bits : Nat) : Prop := t < 2 ^ 64 ∧ bits < 2 ^ 64 ∧ t * rate + bits / width < 2 ^ 64

/-- A call on a bus of `width` wires with `rate` beats per cycle. -/
def BusCallFits (width rate : Nat) : BusOp → Prop
  | .load t _ n => TransferFits width rate t n
  | .disable t => TimeFits rate t
  | .enable t => TimeFits rate t

/-- A call on a clock. -/
def ClockCallFits (rate : Nat) : ClockOp → Prop
  | .start t => TimeFits rate t
  | .stop t => TimeFits rate t

/-- Calls on the toggling-rate model in the order of time, none before `now`. -/
def ToggleCallsFit (width rate : Nat) : Nat → List ToggleOp → Prop
  | _, [] => True
  | now, .transfer t bits :: ops => now ≤ t ∧ TransferFits width rate t bits ∧ ToggleCallsFit width rate t ops
  | now, .disable t :: ops => now ≤ t ∧ TimeFits rate t ∧ ToggleCallsFit width rate t ops
  | now, .enable t :: ops => now ≤ t ∧ TimeFits rate t ∧ ToggleCallsFit width rate t ops
  | now, .rates _ _ _ :: ops => ToggleCallsFit width rate now ops

/-- The time of the last call, `now` if there is none. -/
def lastToggle : Nat → List ToggleOp → Nat
  | now, [] => now
  | _, .transfer t _ :: ops => lastToggle t ops
  | _, .disable t :: ops => lastToggle t ops
  | _, .enable t :: ops => lastToggle t ops
  | now, .rates _ _ _ :: ops => lastToggle now ops

/-- A time of a pin of at most `N` stored bits. Setting a level multiplies the time by the rate twice (util/pin.h 125, 145). -/
def PinTimeFits (N rate t : Nat) : Prop := t < 2 ^ 64 ∧ t * rate + N + 1 < 2 ^ 64 ∧ t * rate * rate < 2 ^ 64

/-- Figures that start again at 0 after 2^64 - 1. -/
def figuresMod (s : BusStats) : BusStats where
  ones := s.ones % 2 ^ 64
  zeroes := s.zeroes % 2 ^ 64
  bitChanges := s.bitChanges % 2 ^ 64
  onesToZeroes := s.onesToZeroes % 2 ^ 64
  zeroesToOnes := s.zeroesToOnes % 2 ^ 64

/-- The figures the program reports. -/
def figuresOf (s : Machine.BusStats) : BusStats where
  ones := s.ones.toNat
  zeroes := s.zeroes.toNat
  bitChanges := s.bitChanges.toNat
  onesToZeroes := s.onesToZeroes.toNat
  zeroesToOnes := s.zeroesToOnes.toNat

/-- Every figure that fits into 64 bits is reported as it is. -/
structure Exact (reported s : BusStats) : Prop where
  ones : s.ones < 2 ^ 64 → reported.ones = s.ones
  zeroes : s.zeroes < 2 ^ 64 → reported.zeroes = s.zeroes
  bitChanges : s.bitChanges < 2 ^ 64 → reported.bitChanges = s.bitChanges
  onesToZeroes : s.onesToZeroes < 2 ^ 64 → reported.onesToZeroes = s.onesToZeroes
  zeroesToOnes : s.zeroesToOnes < 2 ^ 64 → reported.zeroesToOnes = s.zeroesToOnes

end DRAMPower.Spec
