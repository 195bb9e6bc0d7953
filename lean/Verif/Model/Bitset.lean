import Verif.Model.BusStats

/-!
# Bit sets

Paths in comments are relative to `/repo/src/DRAMPower/DRAMPower/util/`.

Simplifications: `std::bitset<n>` is `BitVec n`; the block size is positive. `vector::at` beyond the end throws. The methods of
`sub_bitset` assert before they throw, the outcome is the assertion.
-/

namespace DRAMPower

/-- The first `n` bits set: the loop of `makeLastElementMask` (dynamic_bitset.h 57-62) and `makeMask` (sub_bitset.h 58-63). -/
def lowBits (w n : Nat) : BitVec w := (List.range n).foldl (fun m i => setBit m i true) 0

/-- `dynamic_bitset` (dynamic_bitset.h 25-27). -/
structure DynBitset (b : Nat) where
  numBits : Nat := 0
  mask : BitVec b := 0
  buffer : List (BitVec b) := []
deriving DecidableEq, Repr

namespace DynBitset

variable {b : Nat}

/-- Number of blocks (dynamic_bitset.h 31, 37). -/
def blocks (b n : Nat) : Nat := if n % b ≠ 0 then n / b + 1 else n / b

/-- `dynamic_bitset(num_bits)` (dynamic_bitset.h 29-34). -/
def new (b n : Nat) : DynBitset b := { numBits := n, buffer := List.replicate (blocks b n) 0, mask := lowBits b (n % b) }

/-- `buffer[i / blocksize][i % blocksize] = v`. -/
def put (l : List (BitVec b)) (i : Nat) (v : Bool) : List (BitVec b) := l.modify (i / b) fun x => setBit x (i % b) v

/-- `dynamic_bitset(num_bits, value)` (dynamic_bitset.h 35-48): the accumulator is zero after 64 shifts. -/
def ofValue (b n : Nat) (value : BitVec 64) : DynBitset b where
  numBits := n
  buffer := ((List.range n).foldl (fun (s : List (BitVec b) × BitVec 64) i => (put s.1 i (value &&& s.2 != 0), s.2 <<< 1))
    (List.replicate (blocks b n) 0, 1)).1
  mask := lowBits b (n % b)

/-- `count` (dynamic_bitset.h 64-77). -/
def count (d : DynBitset b) : Nat :=
  (d.buffer.foldl (fun (s : Nat × Nat) x =>
    (if s.2 > d.numBits then s.1 + popcount (x &&& d.mask) else s.1 + popcount x, s.2 + b)) (0, b)).1

/-- `push_back` (dynamic_bitset.h 79-87). -/
def push (d : DynBitset b) (v : Bool) : DynBitset b :=
  let buffer := if d.numBits % b = 0 then d.buffer ++ [0] else d.buffer
  { numBits := d.numBits + 1
    buffer := buffer.modify (buffer.length - 1) fun x => setBit x (d.numBits % b) v
    mask := lowBits b ((d.numBits + 1) % b) }

/-- `set(n, value)` (dynamic_bitset.h 88-90). -/
def set (d : DynBitset b) (n : Nat) (v : Bool) : Except Err (DynBitset b) :=
  if n / b < d.buffer.length then .ok { d with buffer := put d.buffer n v } else .error (.exception "vector::at")

/-- `set()` (dynamic_bitset.h 91-95). -/
def setAll (d : DynBitset b) : DynBitset b := { d with buffer := d.buffer.map fun _ => BitVec.allOnes b }

/-- `reset()` (dynamic_bitset.h 96-100). -/
def reset (d : DynBitset b) : DynBitset b := { d with buffer := d.buffer.map fun _ => 0 }

/-- `flip()` (dynamic_bitset.h 101-105) and `operator~` (159-167). -/
def flip (d : DynBitset b) : DynBitset b := { d with buffer := d.buffer.map fun x => ~~~ x }

/-- `operator[]` (dynamic_bitset.h 117-118). -/
def get (d : DynBitset b) (n : Nat) : Except Err Bool :=
  match d.buffer[n / b]? with
  | some x => .ok (x.getLsbD (n % b))
  | none => .error (.exception "vector::at")

/-- `flip(n)` (dynamic_bitset.h 106-108). -/
def flipAt (d : DynBitset b) (n : Nat) : Except Err (DynBitset b) :=
  match d.buffer[n / b]? with
  | some x => .ok { d with buffer := put d.buffer n (!x.getLsbD (n % b)) }
  | none => .error (.exception "vector::at")

/-- `clear` (dynamic_bitset.h 109-112). -/
def clear (d : DynBitset b) : DynBitset b := { d with buffer := [], numBits := 0 }

/-- `operator==` for equal block sizes (dynamic_bitset.h 120-133). -/
def eq (d e : DynBitset b) : Bool :=
  if d.numBits ≠ e.numBits then false
  else (List.range d.buffer.length).all fun i => d.buffer.getD i 0 == e.buffer.getD i 0

/-- `operator==` for different block sizes (dynamic_bitset.h 134-147). -/
def eqMixed {b' : Nat} (d : DynBitset b) (e : DynBitset b') : Except Err Bool :=
  if d.numBits ≠ e.numBits then .ok false
  else (List.range d.numBits).foldlM (fun r i => do
    let x ← d.get i
    let y ← e.get i
    pure (r && x == y)) true

/-- `operator==(unsigned long)` (dynamic_bitset.h 152-154). -/
def eqValue (d : DynBitset b) (v : BitVec 64) : Bool := d.eq (ofValue b d.numBits v)

/-- `operator^=`, `operator&=`, `operator|=` (dynamic_bitset.h 168-194) with the operation on blocks. -/
def zip (f : BitVec b → BitVec b → BitVec b) (d e : DynBitset b) : Except Err (DynBitset b) :=
  if d.numBits ≠ e.numBits then .error (.assertion "size() == rhs.size()")
  else .ok { d with buffer := (List.range d.buffer.length).map fun i => f (d.buffer.getD i 0) (e.buffer.getD i 0) }

end DynBitset

/-- `sub_bitset` (sub_bitset.h 21-23). -/
structure SubBitset (w : Nat) where
  width : Nat := 0
  buffer : BitVec w := 0
  mask : BitVec w := 0
deriving DecidableEq, Repr

namespace SubBitset

variable {w : Nat}

/-- `sub_bitset(width)` (sub_bitset.h 25-34). -/
def new (w n : Nat) : Except Err (SubBitset w) :=
  if n ≤ w then .ok { width := n, mask := lowBits w n } else .error (.assertion "width <= max_width")

/-- `sub_bitset(width, value)` (sub_bitset.h 35-49). -/
def ofValue (w n : Nat) (value : BitVec 64) : Except Err (SubBitset w) :=
  if n ≤ w then
    .ok { width := n
          buffer := ((List.range n).foldl (fun (s : BitVec w × BitVec 64) i => (setBit s.1 i (value &&& s.2 != 0), s.2 <<< 1)) (0, 1)).1
          mask := lowBits w n }
  else .error (.assertion "width <= max_width")

/-- `count` (sub_bitset.h 65-67). -/
def count (d : SubBitset w) : Nat := popcount d.buffer

/-- `set(n, value)` (sub_bitset.h 69-75). -/
def set (d : SubBitset w) (n : Nat) (v : Bool) : Except Err (SubBitset w) :=
  if n < d.width then .ok { d with buffer := setBit d.buffer n v } else .error (.assertion "n < width")

/-- `set()` (sub_bitset.h 76-79). -/
def setAll (d : SubBitset w) : SubBitset w := { d with buffer := BitVec.allOnes w &&& d.mask }

/-- `reset()` (sub_bitset.h 80-82). -/
def reset (d : SubBitset w) : SubBitset w := { d with buffer := 0 }

/-- `flip()` (sub_bitset.h 83-86) and `operator~` (128-133). -/
def flip (d : SubBitset w) : SubBitset w := { d with buffer := ~~~ d.buffer &&& d.mask }

/-- `operator[]` (sub_bitset.h 95-108). -/
def get (d : SubBitset w) (n : Nat) : Except Err Bool :=
  if n < d.width then .ok (d.buffer.getLsbD n) else .error (.assertion "n < width")

/-- `flip(n)` (sub_bitset.h 87-93). -/
def flipAt (d : SubBitset w) (n : Nat) : Except Err (SubBitset w) :=
  if n < d.width then .ok { d with buffer := setBit d.buffer n (!d.buffer.getLsbD n) } else .error (.assertion "n < width")

/-- `operator==` (sub_bitset.h 110-116) for equal maximal widths. -/
def eq (d e : SubBitset w) : Bool := if d.width ≠ e.width then false else d.buffer == e.buffer

/-- `operator^=` (sub_bitset.h 134-140) and `operator|=` (147-153). -/
def zipMasked (f : BitVec w → BitVec w → BitVec w) (d e : SubBitset w) : Except Err (SubBitset w) :=
  if d.width ≠ e.width then .error (.assertion "size() == rhs.size()")
  else .ok { d with buffer := f d.buffer e.buffer &&& d.mask }

/-- `operator&=` (sub_bitset.h 141-146). -/
def and (d e : SubBitset w) : Except Err (SubBitset w) :=
  if d.width ≠ e.width then .error (.assertion "size() == rhs.size()")
  else .ok { d with buffer := d.buffer &&& e.buffer }

end SubBitset

end DRAMPower
