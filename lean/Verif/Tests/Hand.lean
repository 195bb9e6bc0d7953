import Verif.Model.Format
import Verif.Model.Bitset
import Verif.Model.Pattern
import Verif.Model.Bus
import Verif.Model.Pin
import Verif.Tests.Run

/-!
# Unit tests of the repository translated by hand

The tests of `/repo/tests` the scripts in `conformance` do not translate. The numbers in the lists of checks are lines of the test file.
-/

namespace DRAMPower.Tests.Hand

/-! ## tests/tests_misc/test_bus_extended.cpp: Load_Width_64 (134-165), Load_Width_512 (167-197) -/

/-- The word with byte `i` equal to `i`. -/
def countingWord (n : Nat) : Nat := (List.range n).foldl (fun x i => x + i * 256 ^ i) 0

def loaded (n : Nat) : Except Err (BitVec (8 * n)) := do
  let b ← Bus.init (8 * n) (8 * n) 1 .L
  let b ← b.load 0 ((List.range n).map UInt8.ofNat) (8 * n)
  b.at? 0

#guard (loaded 8).toOption == some (BitVec.ofNat _ (countingWord 8))
#guard (loaded 64).toOption == some (BitVec.ofNat _ (countingWord 64))

/-! ## tests/tests_misc/test_pin.cpp: Idle_L_0 (74-106), Idle_H_0 (108-140) -/

def pinStats (first idle : PinState) (t rate : Nat) : Option BusStats := ((Pin.init 8 first idle).getStats t rate).toOption

#guard [1, 2].all fun r => pinStats .H .L 0 r == some {}
#guard [(1, 1), (48, 1), (24, 2), (96, 1), (48, 2)].all fun (t, r) =>
  pinStats .H .L t r == some { zeroes := t * r, onesToZeroes := 1, bitChanges := 1 }
#guard (List.range' 97 (1024 - 97)).all fun t => pinStats .H .L t 1 == some { zeroes := t, onesToZeroes := 1, bitChanges := 1 }
#guard [1, 2].all fun r => pinStats .L .H 0 r == some {}
#guard [(1, 1), (48, 1), (24, 2), (96, 1), (48, 2)].all fun (t, r) =>
  pinStats .L .H t r == some { ones := t * r, zeroesToOnes := 1, bitChanges := 1 }
#guard (List.range' 97 (1024 - 97)).all fun t => pinStats .L .H t 1 == some { ones := t, zeroesToOnes := 1, bitChanges := 1 }

/-! ## tests/tests_misc/test_pattern.cpp -/

def pattern : List Desc := [
  .H, .L, .X, .V, .AP, .BL, .H, .L,
  .BA 0, .BA 1, .BA 2, .BA 3, .BA 4, .BA 5, .BA 6, .BA 7,
  .BG 0, .BG 1, .BG 2, .X, .X, .X, .X, .X,
  .C 0, .C 1, .C 2, .C 3, .C 4,
  .R 0, .R 1, .R 2]

def pattern2 : List Desc := [.BA 0, .BA 1, .BA 2, .BA 3, .X, .X, .X, .X]

def overrides (b : BitSpec) : Overrides := .ofList [(.X, b), (.V, b), (.AP, b), (.BL, b)]

def co : Coord := { bank := 1, bankGroup := 2, rank := 3, row := 4, column := 17 }

def encoded (co : Coord) (p : List Desc) (s : Overrides) (last : BitVec 64) : Option Nat := ((encode co p s last).toOption).map (·.toNat)

#guard encoded co pattern (overrides .L) 0 == some 2189443209
#guard encoded { bank := 0xB, bankGroup := 2, rank := 3, row := 4 } pattern2 (.ofList [(.X, .LAST_BIT)]) 0b0101 == some 0b11010101
#guard encoded co pattern (overrides .H) 0 == some 3196084105
#guard encoded co pattern (overrides .LAST_BIT) 0xAAAAAAAAAAAAAAAA == some 2860534409
#guard encoded co pattern (overrides .LAST_BIT) (0xAAAAAAAAAAAAAAAA ||| 0b1111100000000) == some 2860539785
#guard encoded { bank := 7, bankGroup := 3, rank := 3, row := 7, column := 17 } pattern (overrides .LAST_BIT) 2860539785 ==
  some 2866864015

/-! ## tests/tests_misc/test_misc.cpp -/

def chunked (width : Nat) (data : List UInt8) (nBits : Nat) : Option (List Nat) :=
  ((({} : BusContainer width).insertData 0 width data nBits).toOption).map fun d =>
    (List.range d.count).map fun i => (d.getBurst i).toNat

#guard chunked 6 [0b11000000, 0b10101111, 0b00000010, 0b00111111, 0b11110000, 0b10101011, 0b00010101, 0b11110000, 0b10101011, 0b11000000,
    0b00001111, 0b11111100] 96 ==
  some [0b111111, 0b000000, 0b111111, 0b000000, 0b101010, 0b111111, 0b000000, 0b010101, 0b101010, 0b111111, 0b000000, 0b111111,
    0b000000, 0b101010, 0b111111, 0b000000]
#guard chunked 4 [0b00010101, 0b10101111] 12 == some [0b1111, 0b0001, 0b0101]

/-- The inputs of BitChanges, ZeroToOne and OneToZero with the three expected numbers. -/
def flips : List (BitVec 64 × BitVec 64 × Nat × Nat × Nat) := [
  (0, BitVec.allOnes 64, 64, 64, 0),
  (BitVec.allOnes 64, 0, 64, 0, 64),
  (BitVec.allOnes 64, BitVec.allOnes 64, 0, 0, 0),
  (0, 1, 1, 1, 0),
  (1 <<< 63, 1, 2, 1, 1),
  (0b10101010, 0b01010101, 8, 4, 4),
  (0, 0b1010, 2, 2, 0)]

#guard flips.all fun (a, b, n, up, down) =>
  let d := Bus.diff 64 a b
  d.bitChanges == n && d.zeroesToOnes == up && d.onesToZeroes == down

/-! ## tests/tests_misc/test_dynamic_bitset.cpp -/

def bits (b n v : Nat) : DynBitset b := .ofValue b n (BitVec.ofNat 64 v)

#guard ({} : DynBitset 4).numBits == 0
#guard (bits 8 8 0b11110011).numBits == 8
#guard (bits 4 4 0b101010).numBits == 4
#guard (bits 8 8 0b11110011).clear.numBits == 0
#guard (({} : DynBitset 4).push false).numBits == 1
#guard ((({} : DynBitset 4).push false).push true).numBits == 2
#guard (List.range 4).map (fun i => ((bits 4 4 0b10101010).get i).toOption) == [some false, some true, some false, some true]
#guard (List.range 2).map (fun i => (((({} : DynBitset 4).push false).push true).get i).toOption) == [some false, some true]
#guard ((do (← (({} : DynBitset 4).push false).set 0 true).get 0 : Except Err Bool).toOption) == some true
#guard [(bits 4 4 0b1111).count, (bits 4 4 0b11110000).count, (bits 6 6 0b11111111).count, (bits 8 8 0b11110000).count,
  (bits 4 8 0b1111).count, (bits 5 8 0b10010110).count] == [4, 0, 6, 4, 4, 4]
#guard ({} : DynBitset 4).eq {}
#guard (bits 4 4 0b1111).eq (bits 4 4 0b1111)
#guard ((bits 4 4 0b1111).eqMixed (bits 8 4 0b11111111)).toOption == some true
#guard ((bits 4 4 0b1111).eqMixed (bits 2 4 0b11110000)).toOption == some false
#guard ((bits 8 4 0b11111111).eqMixed (bits 2 4 0b11110000)).toOption == some false
#guard ((bits 8 4 0b11111111).eqMixed (bits 1 8 0b1111)).toOption == some false
#guard [0b1111, 0b11111111, 0b11, 0b11110000].map ((bits 4 4 0b1111).eqValue) == [true, true, false, false]
#guard ((do (← (({} : DynBitset 4).push true).flipAt 0).get 0 : Except Err Bool).toOption) == some false
#guard !(bits 8 8 0b1111).eq (bits 8 8 0b1111).flip
#guard [0b11110000, 0b11111111, 0].map ((bits 8 8 0b1111).flip.eqValue) == [true, false, false]

/-- A binary operation of two bit sets of 8 bits compared with a number. -/
def op (f : BitVec 8 → BitVec 8 → BitVec 8) (x y r : Nat) : Bool :=
  ((DynBitset.zip f (bits 8 8 x) (bits 8 8 y)).toOption.map (·.eqValue (BitVec.ofNat 64 r))) == some true

#guard op (· &&& ·) 0 0 0 && op (· &&& ·) 0 0xFF 0 && op (· &&& ·) 0xFF 0x81 0x81 && op (· &&& ·) 0x81 0x99 0x81 &&
  op (· &&& ·) 0x99 0x99 0x99
#guard op (· ||| ·) 0 0 0 && op (· ||| ·) 0 0xFF 0xFF && op (· ||| ·) 0 0x80 0x80 && op (· ||| ·) 0x80 0x19 0x99
#guard op (· ^^^ ·) 0 0 0 && op (· ^^^ ·) 0 0xEF 0xEF && op (· ^^^ ·) 0xEF 0x80 0x6F && op (· ^^^ ·) 0 0x80 0x80 && op (· ^^^ ·) 0x80 0x19 0x99

/-! ## tests/tests_drampower/interface/test_dbi_lpddr6.cpp: FormatData_0 (63-102) -/

def block : List UInt8 := [0xFF, 0x00, 0xFF, 0x00, 0xFF, 0x00, 0xFF, 0x00] ++ List.replicate 24 0xFF

def formattedBlock : List UInt8 := [
  0xBD, 0xDF, 0xFB, 0xBD, 0xDF, 0xFB, 0xFF, 0xFF, 0xFF, 0xFF, 0xFF, 0xFF, 0xFF, 0xFF, 0xFF, 0xFF, 0xFF, 0xFF,
  0x3F, 0xCF, 0xFF, 0x3F, 0xCF, 0xFF, 0xFF, 0xFC, 0xCF, 0xFF, 0xFC, 0xCF, 0xCC, 0xCC, 0xCC, 0xCC, 0xCC, 0xCC]

def half : List Bool := List.replicate 4 true ++ List.replicate 8 false ++ List.replicate 4 true

def formatted (shift : Option (Nat → Bool)) : Except Err (Option (List UInt8) × Nat) := do
  let f : Formatter := ({} : Formatter).setMetaData 0b1010101001010101 0b1010101001010101
  let (_, r) ← f.formatData shift (some (block ++ block)) 512 (some (half ++ half))
  pure r

/-! The test itself shifts a 32-bit value by more than 31 (undefined); the result is as expected whatever the shift returns. -/
#guard formatted none matches .error (.ub _)
#guard [true, false].all fun b => (formatted (some fun _ => b)).toOption == some (some (formattedBlock ++ formattedBlock), 576)

end DRAMPower.Tests.Hand
