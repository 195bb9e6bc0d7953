import Verif.Model.BusStats

/-!
# Reference waveforms

What a bus carries, beat by beat, written without bit sets, burst storage or accumulated statistics. Only the
record `BusStats` (the observable result) is shared with the model.
-/

namespace DRAMPower.Spec

/-- Levels of the wires `0, 1, …` during one beat. -/
abbrev Levels := Nat → Bool

/-- The state of a bus over time: `none` while it is off, otherwise the levels of its wires. -/
abbrev Line := Nat → Option Levels

/-- Number of wires below `width` with a property. -/
def wires (width : Nat) (p : Nat → Bool) : Nat := (List.range width).countP p

/-- Contribution of one beat: levels during the beat and transitions from the levels before it. -/
def beat (width : Nat) (before now : Levels) : BusStats where
  ones := wires width fun j => now j
  zeroes := wires width fun j => !now j
  bitChanges := wires width fun j => before j != now j
  onesToZeroes := wires width fun j => before j && !now j
  zeroesToOnes := wires width fun j => !before j && now j

/-- Levels before beat `k`: those of the previous beat, the idle levels at the start and after the bus was off. -/
def Line.before (line : Line) (idle : Levels) (k : Nat) : Levels :=
  match k with
  | 0 => idle
  | k + 1 => (line k).getD idle

/-- Contribution of beat `k`; a bus that is off contributes nothing. -/
def Line.at (width : Nat) (idle : Levels) (line : Line) (k : Nat) : BusStats :=
  match line k with
  | none => {}
  | some now => beat width (line.before idle k) now

/-- Sum over all beats before beat `T`. -/
def Line.stats (width : Nat) (idle : Levels) (line : Line) : Nat → BusStats
  | 0 => {}
  | T + 1 => line.stats width idle T + line.at width idle T

/-- Bit `i` of a sequence of bytes, least significant bit of each byte first. -/
def bitOf (data : List UInt8) (i : Nat) : Bool := (data.getD (i / 8) 0).toNat / 2 ^ (i % 8) % 2 == 1

/-- Word `i` of a payload: wire `j` carries payload bit `i * width + j`. -/
def payloadWord (width : Nat) (data : List UInt8) (i : Nat) : Levels := fun j => bitOf data (i * width + j)

/-- The beats of a payload of `n` words, in transmission order: the last word of the payload goes first. -/
def lastFirst (width : Nat) (data : List UInt8) (n : Nat) (i : Nat) : Levels := payloadWord width data (n - 1 - i)

/-- The other order: the first word of the payload goes first. -/
def firstFirst (width : Nat) (data : List UInt8) (_n : Nat) (i : Nat) : Levels := payloadWord width data i

/-- Calls that change what a bus carries. -/
inductive Drive
  | send (t : Nat) (data : List UInt8) (nBits : Nat)
  | off (t : Nat)
  | on (t : Nat)

/-- Effect of a call at clock `t` (beat `t * datarate`) on the line: a payload occupies as many beats as it has whole
words, unless the bus is off; switching off silences the line from then on; switching on makes it idle. -/
def Line.drive (width datarate : Nat) (order : Nat → List UInt8 → Nat → Nat → Levels) (idle : Levels) (line : Line) : Drive → Line
  | .send t data nBits => fun k =>
    let s := t * datarate
    let n := nBits / width
    if (line s).isSome && decide (s ≤ k) && decide (k < s + n) then some (order width data n (k - s)) else line k
  | .off t => fun k => if t * datarate ≤ k then none else line k
  | .on t => fun k => if t * datarate ≤ k then some ((line k).getD idle) else line k

/-- The line after a sequence of calls, starting idle (or off). -/
def Line.after (width datarate : Nat) (order : Nat → List UInt8 → Nat → Nat → Levels) (idle : Levels) (enabled : Bool)
    (ds : List Drive) : Line :=
  ds.foldl (Line.drive width datarate order idle) (fun _ => if enabled then some idle else none)

end DRAMPower.Spec
