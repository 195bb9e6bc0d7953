import Verif.Spec.Waveform

/-!
# Layout of an LPDDR6 burst

A burst has 24 beats on 12 data lines, that is 288 places, numbered beat by beat. Lines 4, 5, 10 and 11 are reserved for
the metadata in beats 8 to 11 and for the DBI flags in beats 20 to 23; all other places carry the payload, four
consecutive payload bits on the same line.
-/

namespace DRAMPower.Spec

/-- What a place of a burst carries: a payload bit, a metadata bit or a DBI flag. -/
inductive Source
  | payload (j : Fin 256)
  | metadata (k : Fin 16)
  | inversion (k : Fin 16)
deriving DecidableEq

/-- Place of data line `dq` in a beat. -/
def placeAt (beat dq : Nat) : Nat := 12 * beat + dq

/-- The reserved lines, in order. -/
def reservedLine (n : Nat) : Nat := [4, 5, 10, 11].getD n 0

/-- The other lines, in order. -/
def freeLine (n : Nat) : Nat := [0, 1, 2, 3, 6, 7, 8, 9].getD n 0

/-- The place of each bit: half a burst (12 beats) carries 128 payload bits, 48 in each of the first two groups of four
beats, 32 in the third. -/
def Source.place : Source → Nat
  | .payload j =>
    let half := j.val / 128
    let r := j.val % 128
    let line := if r < 96 then r % 48 / 4 else freeLine ((r - 96) / 4)
    placeAt (12 * half + 4 * (r / 48) + r % 4) line
  | .metadata k => placeAt (8 + k.val % 4) (reservedLine (k.val / 4))
  | .inversion k => placeAt (20 + k.val % 4) (reservedLine (k.val / 4))

/-- Bit of the formatted data at a place of a burst. The first place is the last bit, as the data bus transmits the last
word of a payload first. -/
def placeBit (out : List UInt8) (nbursts burst place : Nat) : Bool := bitOf out (288 * nbursts - 1 - (288 * burst + place))

/-- What a bit of burst `burst` is: bit `256*burst + j` of the payload, bit `k` of the burst's metadata word, DBI flag
`16*burst + k`. -/
def Source.value (data : List UInt8) (metadata : Nat → BitVec 16) (flags : List Bool) (burst : Nat) : Source → Bool
  | .payload j => bitOf data (256 * burst + j)
  | .metadata k => (metadata burst).getLsbD k
  | .inversion k => flags.getD (16 * burst + k) false

end DRAMPower.Spec
