/-!
# Hexadecimal payloads

What a payload string spells, written without the parsing functions of the C library.
-/

namespace DRAMPower.Spec

/-- The hexadecimal digits with their values. -/
def digits : List (Char × Nat) :=
  [('0', 0), ('1', 1), ('2', 2), ('3', 3), ('4', 4), ('5', 5), ('6', 6), ('7', 7), ('8', 8), ('9', 9),
   ('a', 10), ('b', 11), ('c', 12), ('d', 13), ('e', 14), ('f', 15),
   ('A', 10), ('B', 11), ('C', 12), ('D', 13), ('E', 14), ('F', 15)]

/-- `s` is a sequence of pairs of digits spelling the bytes: the high digit of each byte first. -/
inductive Spells : List Char → List UInt8 → Prop
  | nil : Spells [] []
  | byte {a b : Char} {x y : Nat} {s : List Char} {l : List UInt8} (ha : (a, x) ∈ digits) (hb : (b, y) ∈ digits) (h : Spells s l) :
    Spells (a :: b :: s) (UInt8.ofNat (16 * x + y) :: l)

/-- The string is a payload: digits with or without prefix. -/
def Payload (s : List Char) (l : List UInt8) : Prop := Spells s l ∨ ∃ p, (p = 'x' ∨ p = 'X') ∧ ∃ s', s = '0' :: p :: s' ∧ Spells s' l

end DRAMPower.Spec
