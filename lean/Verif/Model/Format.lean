import Verif.Model.BusStats

/-!
# LPDDR6 burst formatter

Paths in comments are relative to `/repo/src/DRAMPower/DRAMPower/`.

The DBI value is shifted by up to 47 places although it has 32 bits. Such a shift is undefined behaviour. The model has
both readings: with `shift = none` it stops with `Err.ub`, with `shift = some f` a shift by `k ≥ 32` yields a value whose
lowest bit is the unknown `f k`.
-/

namespace DRAMPower

/-- `LPDDR6Interface::dataBitMapping` (standards/lpddr6/LPDDR6Interface.h 46-84). -/
def dataBitMapping : List Nat := [
  0,  4,  8,  12, 16, 20, 24, 28, 32, 36, 40, 44,
  1,  5,  9,  13, 17, 21, 25, 29, 33, 37, 41, 45,
  2,  6,  10, 14, 18, 22, 26, 30, 34, 38, 42, 46,
  3,  7,  11, 15, 19, 23, 27, 31, 35, 39, 43, 47,
  48, 52, 56, 60, 64, 68, 72, 76, 80, 84, 88, 92,
  49, 53, 57, 61, 65, 69, 73, 77, 81, 85, 89, 93,
  50, 54, 58, 62, 66, 70, 74, 78, 82, 86, 90, 94,
  51, 55, 59, 63, 67, 71, 75, 79, 83, 87, 91, 95,
  96, 100, 104, 108, 112, 116, 120, 124,
  97, 101, 105, 109, 113, 117, 121, 125,
  98, 102, 106, 110, 114, 118, 122, 126,
  99, 103, 107, 111, 115, 119, 123, 127,
  128, 132, 136, 140, 144, 148, 152, 156, 160, 164, 168, 172,
  129, 133, 137, 141, 145, 149, 153, 157, 161, 165, 169, 173,
  130, 134, 138, 142, 146, 150, 154, 158, 162, 166, 170, 174,
  131, 135, 139, 143, 147, 151, 155, 159, 163, 167, 171, 175,
  176, 180, 184, 188, 192, 196, 200, 204, 208, 212, 216, 220,
  177, 181, 185, 189, 193, 197, 201, 205, 209, 213, 217, 221,
  178, 182, 186, 190, 194, 198, 202, 206, 210, 214, 218, 222,
  179, 183, 187, 191, 195, 199, 203, 207, 211, 215, 219, 223,
  224, 228, 232, 236, 240, 244, 248, 252,
  225, 229, 233, 237, 241, 245, 249, 253,
  226, 230, 234, 238, 242, 246, 250, 254,
  227, 231, 235, 239, 243, 247, 251, 255,
  0, 0, 0, 0, 0, 0, 0, 0,
  0, 0, 0, 0, 0, 0, 0, 0,
  0, 0, 0, 0, 0, 0, 0, 0,
  0, 0, 0, 0, 0, 0, 0, 0]

/-- `LPDDR6Interface::DataFormatter` (standards/lpddr6/LPDDR6Interface.h 96-104). -/
structure Formatter where
  result : List UInt8 := []
  metaData : BitVec 16 × BitVec 16 := (0, 0)
deriving DecidableEq

/-- `setMetaData` (standards/lpddr6/LPDDR6Interface.cpp 292-295). -/
def Formatter.setMetaData (f : Formatter) (m1 m2 : BitVec 16) : Formatter := { f with metaData := (m1, m2) }

/-- `getMetaData` (standards/lpddr6/LPDDR6Interface.cpp 297-299). -/
def Formatter.getMetaData (f : Formatter) : BitVec 16 × BitVec 16 := f.metaData

/-- Local variables of the loops (standards/lpddr6/LPDDR6Interface.cpp 422-424) and `m_formatResult`. -/
structure FormatState where
  result : List UInt8
  dataBitIdx : Nat := 0
  burst : Nat := 0
  dq : Nat := 0
deriving DecidableEq

/-- `m_metaData[burst24]` (standards/lpddr6/LPDDR6Interface.cpp 445); the index is 0 or 1. -/
def Formatter.metaOf (f : Formatter) (burst24 : Nat) : BitVec 16 := if burst24 = 0 then f.metaData.1 else f.metaData.2

/-- `dbival` (standards/lpddr6/LPDDR6Interface.cpp 414-420). -/
def dbival (inversion : Option (List Bool)) : BitVec 32 :=
  match inversion with
  | none => 0
  | some flags =>
    (List.range (min flags.length 32)).foldl (fun v i => v ||| BitVec.ofNat 32 ((flags.getD i false).toNat <<< i)) 0

/-- `(dbival >> k) & 1` (standards/lpddr6/LPDDR6Interface.cpp 446). -/
def dbiShift (shift : Option (Nat → Bool)) (v : BitVec 32) (k : Nat) : Except Err Bool :=
  if k < 32 then .ok (v.getLsbD k)
  else match shift with
    | none => .error (.ub "dbival >> 32")
    | some f => .ok (f k)

/-- `isSpecialRow`, `isMeta`, `isDbi`, `isData` (standards/lpddr6/LPDDR6Interface.cpp 431-436). -/
def isSpecialRow (dq : Nat) : Bool := dq == 4 || dq == 5 || dq == 10 || dq == 11
/-- See `isSpecialRow`. -/
def isMeta (burst dq : Nat) : Bool := (8 ≤ burst && burst < 12) && isSpecialRow dq
/-- See `isSpecialRow`. -/
def isDbi (burst dq : Nat) : Bool := (20 ≤ burst && burst < 24) && isSpecialRow dq
/-- See `isSpecialRow`. -/
def isData (burst dq : Nat) : Bool := !(isMeta burst dq || isDbi burst dq)

/-- `bitOffset` (standards/lpddr6/LPDDR6Interface.cpp 439-441); the subtraction never goes below 0. -/
def bitOffset (burst dq : Nat) : Nat :=
  ((dq >>> 2 &&& 2) ||| (dq &&& 1)) * (isSpecialRow dq).toNat * 4
    + (burst - ((isMeta burst dq).toNat * 8 + (isDbi burst dq).toNat * 20))

/-- `result[k >> 3] |= v << (k & 7)` (standards/lpddr6/LPDDR6Interface.cpp 450). -/
def orBit (bytes : List UInt8) (k : Nat) (v : Bool) : List UInt8 :=
  bytes.modify (k >>> 3) fun b => UInt8.ofNat (b.toNat ||| (v.toNat <<< (k &&& 7)))

/-- Body of the inner loop (standards/lpddr6/LPDDR6Interface.cpp 430-458). The index of `dataBitMapping` and that of the
result are in range; an access beyond the end of the payload is undefined. -/
def formatStep (shift : Option (Nat → Bool)) (data : List UInt8) (metaData : BitVec 16) (dbi : BitVec 32) (nbursts burst24 : Nat)
    (s : FormatState) (i : Nat) : Except Err FormatState :=
  let off := bitOffset s.burst s.dq
  let mapping := 256 * burst24 + dataBitMapping.getD s.dataBitIdx 0
  if data.length ≤ mapping >>> 3 then .error (.ub "inputData")
  else
    let dataBit := (data.getD (mapping >>> 3) 0).toNat.testBit (mapping &&& 7)
    let metaBit := metaData.getLsbD off
    match dbiShift shift dbi (16 * burst24 + off) with
    | .error e => .error e
    | .ok dbiBit =>
      let v := (dbiBit && isDbi s.burst s.dq) || (metaBit && isMeta s.burst s.dq) || (dataBit && isData s.burst s.dq)
      .ok { result := orBit s.result (nbursts * 288 - 1 - (burst24 * 288 + i)) v
            dataBitIdx := s.dataBitIdx + (isData s.burst s.dq).toNat
            burst := if s.dq + 1 = 12 then s.burst + 1 else s.burst
            dq := if s.dq + 1 = 12 then 0 else s.dq + 1 }

/-- Body of the outer loop (standards/lpddr6/LPDDR6Interface.cpp 426-459). -/
def formatBurst (shift : Option (Nat → Bool)) (data : List UInt8) (f : Formatter) (dbi : BitVec 32) (nbursts : Nat)
    (result : List UInt8) (burst24 : Nat) : Except Err (List UInt8) :=
  match (List.range 288).foldlM (formatStep shift data (f.metaOf burst24) dbi nbursts burst24) { result } with
  | .error e => .error e
  | .ok s => .ok s.result

/-- `DataFormatter::formatData` (standards/lpddr6/LPDDR6Interface.cpp 393-461): the formatter afterwards and the returned
tuple. -/
def Formatter.formatData (shift : Option (Nat → Bool)) (f : Formatter) (inputData : Option (List UInt8)) (nBits : Nat)
    (inversion : Option (List Bool)) : Except Err (Formatter × Option (List UInt8) × Nat) :=
  if ¬ (288 - 32 = nBits ∨ 2 * (288 - 32) = nBits) then .error (.assertion "Invalid burst")
  else
    let nbursts := if 2 * (288 - 32) = nBits then 2 else 1
    match inputData with
    | none => .ok (f, none, nBits + nbursts * 32)
    | some data =>
      let cleared := List.replicate (nbursts * 36) 0 ++ f.result.drop (nbursts * 36)
      match (List.range nbursts).foldlM (formatBurst shift data f (dbival inversion) nbursts) cleared with
      | .error e => .error e
      | .ok out => .ok ({ f with result := out }, some out, nbursts * 288)

end DRAMPower
