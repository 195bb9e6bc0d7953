import Verif.Model.Pin

/-!
# Reference waveform of a pin

Level per beat; high-impedance beats and transitions from or to them count nothing.
-/

namespace DRAMPower.Spec

/-- Level of the pin in every beat. -/
abbrev PinLine := Nat → PinState

/-- Contribution of a beat with level `now` after the level `before`. -/
def pinBeat (before now : PinState) : BusStats where
  ones := if now = .H then 1 else 0
  zeroes := if now = .L then 1 else 0
  bitChanges := if (before = .L ∧ now = .H) ∨ (before = .H ∧ now = .L) then 1 else 0
  onesToZeroes := if before = .H ∧ now = .L then 1 else 0
  zeroesToOnes := if before = .L ∧ now = .H then 1 else 0

/-- Level before beat `k`; before beat 0 it is the initial level. -/
def PinLine.before (line : PinLine) (initial : PinState) : Nat → PinState
  | 0 => initial
  | k + 1 => line k

/-- Sum over all beats before beat `T`. -/
def PinLine.stats (line : PinLine) (initial : PinState) : Nat → BusStats
  | 0 => {}
  | T + 1 => line.stats initial T + pinBeat (line.before initial T) (line T)

/-- A burst puts its levels on the pin, one per beat from beat `t` on. -/
def PinLine.burst (line : PinLine) (t : Nat) (bits : List PinState) : PinLine := fun k =>
  if t ≤ k ∧ k < t + bits.length then bits.getD (k - t) .L else line k

/-- The waveform of a history of bursts: idle outside. -/
def PinLine.after (idle : PinState) (bursts : List (Nat × List PinState)) : PinLine :=
  bursts.foldl (fun l b => l.burst b.1 b.2) fun _ => idle

/-- Non-empty bursts of at most `N` driven (not high-impedance) levels, none starting before its predecessor ends. -/
def PinBursts (N : Nat) : Nat → List (Nat × List PinState) → Prop
  | _, [] => True
  | free, (t, bits) :: rest =>
    free ≤ t ∧ bits ≠ [] ∧ bits.length ≤ N ∧ (∀ b ∈ bits, b ≠ .Z) ∧ PinBursts N (t + bits.length) rest

end DRAMPower.Spec
