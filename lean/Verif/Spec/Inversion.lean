import Verif.Spec.Waveform

/-!
# Data bus inversion as seen from outside

A burst is a list of words of `w` bits; `sub` consecutive words form a chunk, which has one inversion flag.
-/

namespace DRAMPower.Spec

variable {w : Nat}

/-- What a receiver makes of transmitted words: it un-inverts every word of a chunk whose flag is set. -/
def received (sub : Nat) (flag : Nat → Bool) (words : List (BitVec w)) : List (BitVec w) :=
  words.mapIdx fun i v => if flag (i / sub) then ~~~ v else v

/-- Chunk `c` of a burst. -/
def chunk (sub : Nat) (words : List (BitVec w)) (c : Nat) : List (BitVec w) := (words.drop (c * sub)).take sub

/-- Number of wire-beats at a level in a list of words. -/
def levels (level : Bool) (words : List (BitVec w)) : Nat :=
  (words.map fun v => wires w fun j => v.getLsbD j == level).sum

/-- Number of wires that toggle between two beats. -/
def toggled (u v : BitVec w) : Nat := wires w fun j => u.getLsbD j != v.getLsbD j

/-- The word on the wires of word `i` one beat earlier: of the beat before the burst, or of the burst itself. A beat is
`beat.length` words. -/
def earlier (beat words : List (BitVec w)) (i : Nat) : BitVec w :=
  if h : i < beat.length then beat[i] else words.getD (i - beat.length) 0

/-- The last beat of a burst. -/
def lastBeat (n : Nat) (words : List (BitVec w)) : List (BitVec w) := words.drop (words.length - n)

end DRAMPower.Spec
