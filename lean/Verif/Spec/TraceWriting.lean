import Verif.Spec.TraceFile
import Verif.Spec.TraceText

/-!
# How a program writes a trace file

One line for each command: `timestamp,command,rank,bank group,bank,row,column` and for commands with data `,payload`. Numbers are decimal, a
payload has two digits for each byte.
-/

namespace DRAMPower.Spec

/-- The digits of a byte. -/
def hexByte (b : UInt8) : List Char := [Nat.digitChar (b.toNat / 16), Nat.digitChar (b.toNat % 16)]

/-- The name of a command. -/
def traceName (t : CmdType) : List Char := ((traceNames.find? (·.2 = t)).map (·.1.toList)).getD []

/-- The values of the line for a command. -/
def traceRow (c : ICmd) : List (List Char) :=
  [Nat.toDigits 10 c.t, traceName c.type, Nat.toDigits 10 c.co.rank, Nat.toDigits 10 c.co.bankGroup, Nat.toDigits 10 c.co.bank,
    Nat.toDigits 10 c.co.row, Nat.toDigits 10 c.co.column] ++ match c.data with
  | some bytes => [bytes.flatMap hexByte]
  | none => []

/-- The content of the file. -/
def traceText (cs : List ICmd) : List Char := cs.flatMap fun c => [','].intercalate (traceRow c) ++ ['\n']

/-- The format can express the command: it has a name, numbers of 63 bits, data exactly if its kind carries data, whole bytes, at most four
million; the fields only LPDDR6 has are the defaults. -/
structure Writable (c : ICmd) : Prop where
  name : c.type ∈ traceNames.map (·.2)
  numbers : ∀ n ∈ numbersOf c, n < 2 ^ 63
  data : c.type ∈ carriesData ↔ c.data.isSome
  bits : c.nBits = 8 * (c.data.getD []).length
  size : (c.data.getD []).length ≤ 4000000
  dbank : c.dbank = (c.co.bank + 8) % 16
  subChannel : c.subChannel = 0

end DRAMPower.Spec
