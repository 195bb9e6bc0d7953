import Verif.Model.Core

/-!
# Command line tool

Paths in comments are relative to `/repo/src/cli/lib/DRAMPower/cli/`.

Simplifications: a string is a list of characters, each one byte; `std::isspace` is that of the C locale; the CSV library
(splitting into rows, conversion of the integer fields) is modelled in `Model/CliRun` and `Model/CsvText`.
-/

namespace DRAMPower

/-- `std::isspace` in the C locale. -/
def isSpace (c : Char) : Bool := c == ' ' || c == '\t' || c == '\n' || c == '\x0b' || c == '\x0c' || c == '\x0d'

/-- Value of a digit in base 16 as understood by `strtol`. -/
def hexDigit (c : Char) : Option Nat :=
  if '0' ≤ c ∧ c ≤ '9' then some (c.toNat - '0'.toNat)
  else if 'a' ≤ c ∧ c ≤ 'f' then some (c.toNat - 'a'.toNat + 10)
  else if 'A' ≤ c ∧ c ≤ 'F' then some (c.toNat - 'A'.toNat + 10)
  else none

/-- Leading digits of a string. -/
def leadingDigits : List Char → List Nat
  | [] => []
  | c :: cs => match hexDigit c with
    | none => []
    | some d => d :: leadingDigits cs

/-- Optional prefix `0x` of base 16: only skipped if a digit follows. -/
def skipPrefix : List Char → List Char
  | '0' :: 'x' :: c :: cs => if (hexDigit c).isSome then c :: cs else '0' :: 'x' :: c :: cs
  | '0' :: 'X' :: c :: cs => if (hexDigit c).isSome then c :: cs else '0' :: 'X' :: c :: cs
  | cs => cs

/-- Optional sign. -/
def takeSign : List Char → Bool × List Char
  | '-' :: cs => (true, cs)
  | '+' :: cs => (false, cs)
  | cs => (false, cs)

/-- `std::stoi(s, nullptr, 16)` as called in util.cpp 30: `strtol` skips white space, then takes an optional sign, an
optional prefix and the longest sequence of digits; what follows is ignored. -/
def stoi16 (s : List Char) : Except Err Int :=
  let (neg, s) := takeSign (s.dropWhile isSpace)
  let digits := leadingDigits (skipPrefix s)
  if digits.isEmpty then .error (.exception "stoi: invalid_argument")
  else
    let n : Nat := digits.foldl (fun v d => 16 * v + d) 0
    let v : Int := if neg then -(n : Int) else n
    if v < -2147483648 ∨ 2147483647 < v then .error (.exception "stoi: out_of_range") else .ok v

/-- Whether a string starts with `0x` or `0X` (util.cpp 18). -/
def hasPrefix : List Char → Bool
  | '0' :: 'x' :: _ => true
  | '0' :: 'X' :: _ => true
  | _ => false

/-- `hexStringToUint8Array` (util.cpp 5-33): the array; its length is the returned `size`. -/
def hexStringToUint8Array (data : List Char) : Except Err (List UInt8) :=
  if data.length % 2 ≠ 0 then .error (.exception "Invalid hex string length")
  else
    let size := if hasPrefix data then data.length / 2 - 1 else data.length / 2
    let hexString := if hasPrefix data then data.drop 2 else data
    (List.range size).mapM fun i => do
      let v ← stoi16 ((hexString.drop (i * 2)).take 2)
      pure (UInt8.ofNat (v % 256).toNat)

/-- The entry of the bank energies a bank of a device of a rank is printed with: `energy_offset + b` (run.cpp 194-197 and
226-233; 199-203 writes the labels of the same entry). -/
def cliOffset (bankcount devicecount r d b : Nat) : Nat := r * bankcount * devicecount + d * bankcount + b

/-- The labels `jsonFileResult` writes (run.cpp 191-205): entry `i` is that of the last `(r, d, b)` writing it. An index
beyond the end makes `at` throw. -/
def cliLabels (rankcount devicecount bankcount : Nat) (entries : List (Option (Nat × Nat × Nat))) :
    Except Err (List (Option (Nat × Nat × Nat))) :=
  (List.range rankcount).foldlM (fun l r => (List.range devicecount).foldlM (fun l d => (List.range bankcount).foldlM (fun l b =>
    let i := cliOffset bankcount devicecount r d b
    if i < l.length then .ok (l.set i (some (r, d, b))) else .error (.exception "at")) l) l) entries

end DRAMPower
