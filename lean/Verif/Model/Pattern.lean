import Verif.Model.BusStats

/-!
# Command/address encoding

Paths in comments are relative to `/repo/src/DRAMPower/DRAMPower/`.

Simplification: `std::unordered_map<pattern_t, PatternEncoderBitSpec>` is an association list
without order; only lookup, insertion and removal are used by the encoder.
-/

namespace DRAMPower

/-- `pattern_descriptor::t` (command/Pattern.h 17-27); the numbered families carry their number. -/
inductive Desc
  | H | L | V | X
  | A (i : Fin 18) | BG (i : Fin 3) | BA (i : Fin 9) | C (i : Fin 17) | R (i : Fin 24)
  | CID (i : Fin 4) | AP | BL
deriving DecidableEq, Repr

/-- `PatternEncoderBitSpec` (command/Pattern.h 30-36). -/
inductive BitSpec | L | H | LAST_BIT | INVALID
deriving DecidableEq, Repr

/-- The map inside `BasePatternEncoderOverrides` (command/Pattern.h 47-52). -/
abbrev Overrides := List (Desc × BitSpec)

namespace Overrides

/-- `getSetting` (command/Pattern.h 70-76). -/
def get (s : Overrides) (d : Desc) : BitSpec :=
  match s.find? fun e => e.1 == d with
  | some e => e.2
  | none => .INVALID

/-- `removeSetting` (command/Pattern.h 83-85). -/
def erase (s : Overrides) (d : Desc) : Overrides := s.filter fun e => e.1 != d

/-- One iteration of `updateSettings` (command/Pattern.h 65-68): `settings[d] = b`. -/
def set (s : Overrides) (d : Desc) (b : BitSpec) : Overrides := (d, b) :: s.erase d

/-- `updateSettings` (command/Pattern.h 63-69). -/
def update (s : Overrides) (l : List (Desc × BitSpec)) : Overrides :=
  l.foldl (fun s e => s.set e.1 e.2) s

/-- The initializer-list constructor (command/Pattern.h 56-61): `emplace` keeps the first entry. -/
def ofList (l : List (Desc × BitSpec)) : Overrides :=
  l.foldl (fun s e => if s.any (fun x => x.1 == e.1) then s else s ++ [e]) []

/-- `patternApplyBitSpec` (command/Pattern.h 94-117). -/
def apply (s : Overrides) (d : Desc) (last default : Bool) : Bool :=
  match s.get d with
  | .L => false
  | .H => true
  | .LAST_BIT => last
  | .INVALID => default

end Overrides

/-- `TargetCoordinate` (command/Command.h 11-22). -/
structure Coord where
  bank : Nat := 0
  bankGroup : Nat := 0
  rank : Nat := 0
  row : Nat := 0
  column : Nat := 0
deriving DecidableEq, Repr

/-- `DefaultEncoder::encode`, the switch (command/Pattern.cpp 25-198): the value written to
`bitset[n]`, or `none` for the descriptors without a case (`default`, nothing is written).
The `std::bitset<32>` copies of the coordinates (13-16) are only read at indices below 32, so they
are the bits of the coordinate itself. -/
def encodeBit (co : Coord) (s : Overrides) (last : Bool) : Desc → Option Bool
  | .H => some true
  | .L => some false
  | .BL => some (s.apply .BL last true)
  | .CID i => some (s.apply (.CID i) last true)
  | .V => some (s.apply .V last false)
  | .X => some (s.apply .X last false)
  | .AP => some (s.apply .AP last false)
  | .BA i => some (co.bank.testBit i)
  | .BG i => some (co.bankGroup.testBit i)
  | .C i =>
    -- 89-103 and 119-121 consult the overrides, 104-118 and 122-139 do not
    if i ≤ 4 ∨ i = 10 then some (s.apply (.C i) last (co.column.testBit i))
    else some (co.column.testBit i)
  | .R i => if i ≤ 17 then some (co.row.testBit i) else none
  | .A _ => none

/-- `bitset[n] = v` in the switch; descriptors without a case leave the bit alone
(command/Pattern.cpp 26-197). -/
def writeBit (b : BitVec 64) (n : Nat) : Option Bool → BitVec 64
  | some v => setBit b n v
  | none => b

/-- The loop shared by both encoders (command/Pattern.cpp 22-201,
standards/lpddr6/LPDDR6Pattern.cpp 29-154): descriptor by descriptor from bit `n` downwards.
After the last descriptor the code decrements `n` past zero and does not use it any more. -/
def encodeLoop {D : Type} (f : Nat → D → Option Bool) : List D → Nat → BitVec 64 → BitVec 64
  | [], _, b => b
  | d :: ds, n, b =>
    encodeLoop f ds (n - 1) (writeBit b n (f n d))

/-- `DefaultEncoder::encode` (command/Pattern.cpp 8-204). -/
def encode (co : Coord) (p : List Desc) (s : Overrides) (last : BitVec 64) :
    Except Err (BitVec 64) :=
  let n := usub p.length 1
  if n < 64 then .ok (encodeLoop (fun n => encodeBit co s (last.getLsbD n)) p n 0#64)
  else .error (.assertion "n < 64")

/-- The mutable part of `PatternHandler` (util/PatternHandler.h 112-115). -/
structure CaHandler where
  settings : Overrides := []
  lastPattern : BitVec 64 := 0#64
deriving DecidableEq, Repr

/-- `getCommandPattern` (util/PatternHandler.h 80-89); `table` is `m_commandPatternMap` with the
empty list for a command without a registered pattern; the map has `COUNT` entries. -/
def CaHandler.command (table : CmdType → List Desc) (h : CaHandler) (c : CmdType) (co : Coord) :
    Except Err (CaHandler × BitVec 64) :=
  if c = .COUNT then .error (.ub "pattern map index out of range")
  else if table c = [] then .error (.exception "No pattern registered for this command")
  else do
    let w ← encode co (table c) h.settings h.lastPattern
    return ({ h with lastPattern := w }, w)

/-- `DDR4Interface::registerPatterns` (standards/ddr4/DDR4Interface.cpp 51-141; line ranges beside the
entries). -/
def ddr4Patterns : CmdType → List Desc
  -- 54-58
  | .ACT => [.L, .L, .R 16, .R 15, .R 14, .BG 0, .BG 1, .BA 0, .BA 1, .V, .V, .V, .R 12, .R 17,
    .R 13, .R 11, .R 10, .R 0, .R 1, .R 2, .R 3, .R 4, .R 5, .R 6, .R 7, .R 8, .R 9]
  -- 60-64
  | .PRE => [.L, .H, .L, .H, .L, .BG 0, .BG 1, .BA 0, .BA 1, .V, .V, .V, .V, .V, .V, .V, .L, .V,
    .V, .V, .V, .V, .V, .V, .V, .V, .V]
  -- 66-70
  | .PREA => [.L, .H, .L, .H, .L, .V, .V, .V, .V, .V, .V, .V, .V, .V, .V, .V, .H, .V, .V, .V, .V,
    .V, .V, .V, .V, .V, .V]
  -- 72-76
  | .REFA => [.L, .H, .L, .L, .H, .V, .V, .V, .V, .V, .V, .V, .V, .V, .V, .V, .V, .V, .V, .V, .V,
    .V, .V, .V, .V, .V, .V]
  -- 78-82
  | .RD => [.L, .H, .H, .L, .H, .BG 0, .BG 1, .BA 0, .BA 1, .V, .V, .V, .V, .V, .V, .V, .L, .C 0,
    .C 1, .C 2, .C 3, .C 4, .C 5, .C 6, .C 7, .C 8, .C 9]
  -- 84-88
  | .RDA => [.L, .H, .H, .L, .H, .BG 0, .BG 1, .BA 0, .BA 1, .V, .V, .V, .V, .V, .V, .V, .H, .C
    0, .C 1, .C 2, .C 3, .C 4, .C 5, .C 6, .C 7, .C 8, .C 9]
  -- 90-94
  | .WR => [.L, .H, .H, .L, .L, .BG 0, .BG 1, .BA 0, .BA 1, .V, .V, .V, .V, .V, .V, .V, .L, .C 0,
    .C 1, .C 2, .C 3, .C 4, .C 5, .C 6, .C 7, .C 8, .C 9]
  -- 96-100
  | .WRA => [.L, .H, .H, .L, .L, .BG 0, .BG 1, .BA 0, .BA 1, .V, .V, .V, .V, .V, .V, .V, .H, .C
    0, .C 1, .C 2, .C 3, .C 4, .C 5, .C 6, .C 7, .C 8, .C 9]
  -- 102-106
  | .SREFEN => [.L, .H, .L, .L, .H, .V, .V, .V, .V, .V, .V, .V, .V, .V, .V, .V, .V, .V, .V, .V,
    .V, .V, .V, .V, .V, .V, .V]
  -- 108-116
  | .SREFEX => [.H, .X, .X, .X, .X, .X, .X, .X, .X, .X, .X, .X, .X, .X, .X, .X, .X, .X, .X, .X,
    .X, .X, .X, .X, .X, .X, .X, .L, .H, .H, .H, .H, .V, .V, .V, .V, .V, .V, .V, .V, .V, .V, .V,
    .V, .V, .V, .V, .V, .V, .V, .V, .V, .V, .V]
  -- 118-122
  | .PDEA => [.H, .X, .X, .X, .X, .X, .X, .X, .X, .X, .X, .X, .X, .X, .X, .X, .X, .X, .X, .X, .X,
    .X, .X, .X, .X, .X, .X]
  -- 124-128
  | .PDEP => [.H, .X, .X, .X, .X, .X, .X, .X, .X, .X, .X, .X, .X, .X, .X, .X, .X, .X, .X, .X, .X,
    .X, .X, .X, .X, .X, .X]
  -- 130-134
  | .PDXA => [.H, .X, .X, .X, .X, .X, .X, .X, .X, .X, .X, .X, .X, .X, .X, .X, .X, .X, .X, .X, .X,
    .X, .X, .X, .X, .X, .X]
  -- 136-140
  | .PDXP => [.H, .X, .X, .X, .X, .X, .X, .X, .X, .X, .X, .X, .X, .X, .X, .X, .X, .X, .X, .X, .X,
    .X, .X, .X, .X, .X, .X]
  | _ => []

/-- `DDR5Interface::registerPatterns` (standards/ddr5/DDR5Interface.cpp 48-120). -/
def ddr5Patterns : CmdType → List Desc
  -- 51-55
  | .ACT => [.L, .L, .R 0, .R 1, .R 2, .R 3, .BA 0, .BA 1, .BG 0, .BG 1, .BG 2, .CID 0, .CID 1,
    .CID 2, .R 4, .R 5, .R 6, .R 7, .R 8, .R 9, .R 10, .R 11, .R 12, .R 13, .R 14, .R 15, .R 16,
    .CID 3]
  -- 57-59
  | .PRE => [.H, .H, .L, .H, .H, .CID 3, .BA 0, .BA 1, .BG 0, .BG 1, .BG 2, .CID 0, .CID 1, .CID
    2]
  -- 61-64
  | .RD => [.H, .L, .H, .H, .H, .H, .BA 0, .BA 1, .BG 0, .BG 1, .BG 2, .CID 0, .CID 1, .CID 2, .C
    2, .C 3, .C 4, .C 5, .C 6, .C 7, .C 8, .C 9, .C 10, .V, .H, .V, .V, .CID 3]
  -- 66-69
  | .RDA => [.H, .L, .H, .H, .H, .H, .BA 0, .BA 1, .BG 0, .BG 1, .BG 2, .CID 0, .CID 1, .CID 2,
    .C 2, .C 3, .C 4, .C 5, .C 6, .C 7, .C 8, .C 9, .C 10, .V, .L, .V, .V, .CID 3]
  -- 71-74
  | .WR => [.H, .L, .H, .H, .L, .H, .BA 0, .BA 1, .BG 0, .BG 1, .BG 2, .CID 0, .CID 1, .CID 2,
    .V, .C 3, .C 4, .C 5, .C 6, .C 7, .C 8, .C 9, .C 10, .V, .H, .H, .V, .CID 3]
  -- 76-79
  | .WRA => [.H, .L, .H, .H, .L, .H, .BA 0, .BA 1, .BG 0, .BG 1, .BG 2, .CID 0, .CID 1, .CID 2,
    .V, .C 3, .C 4, .C 5, .C 6, .C 7, .C 8, .C 9, .C 10, .V, .L, .H, .V, .CID 3]
  -- 81-83
  | .PRESB => [.H, .H, .L, .H, .L, .CID 3, .BA 0, .BA 1, .V, .V, .H, .CID 0, .CID 1, .CID 2]
  -- 85-87
  | .REFSB => [.H, .H, .L, .L, .H, .CID 3, .BA 0, .BA 1, .V, .V, .H, .CID 0, .CID 1, .CID 2]
  -- 89-91
  | .REFA => [.H, .H, .L, .L, .H, .CID 3, .V, .V, .V, .V, .L, .CID 0, .CID 1, .CID 2]
  -- 93-95
  | .PREA => [.H, .H, .L, .H, .L, .CID 3, .V, .V, .V, .V, .L, .CID 0, .CID 1, .CID 2]
  -- 97-99
  | .SREFEN => [.H, .H, .H, .L, .H, .V, .V, .V, .V, .H, .L, .V, .V, .V]
  -- 101-103
  | .PDEA => [.H, .H, .H, .L, .H, .V, .V, .V, .V, .V, .H, .L, .V, .V]
  -- 105-107
  | .PDEP => [.H, .H, .H, .L, .H, .V, .V, .V, .V, .V, .H, .L, .V, .V]
  -- 109-111
  | .PDXA => [.H, .H, .H, .H, .H, .V, .V, .V, .V, .V, .V, .V, .V, .V]
  -- 113-115
  | .PDXP => [.H, .H, .H, .H, .H, .V, .V, .V, .V, .V, .V, .V, .V, .V]
  -- 117-119
  | .NOP => [.H, .H, .H, .H, .H, .V, .V, .V, .V, .V, .V, .V, .V, .V]
  | _ => []

/-- `LPDDR4Interface::registerPatterns` (standards/lpddr4/LPDDR4Interface.cpp 48-115). -/
def lpddr4Patterns : CmdType → List Desc
  -- 51-56
  | .ACT => [.H, .L, .R 12, .R 13, .R 14, .R 15, .BA 0, .BA 1, .BA 2, .R 16, .R 10, .R 11, .R 17,
    .R 18, .R 6, .R 7, .R 8, .R 9, .R 0, .R 1, .R 2, .R 3, .R 4, .R 5]
  -- 58-61
  | .PRE => [.L, .L, .L, .L, .H, .L, .BA 0, .BA 1, .BA 2, .V, .V, .V]
  -- 63-66
  | .PREA => [.L, .L, .L, .L, .H, .H, .V, .V, .V, .V, .V, .V]
  -- 68-71
  | .REFB => [.L, .L, .L, .H, .L, .L, .BA 0, .BA 1, .BA 2, .V, .V, .V]
  -- 73-78
  | .RD => [.L, .H, .L, .L, .L, .BL, .BA 0, .BA 1, .BA 2, .V, .C 9, .L, .L, .H, .L, .L, .H, .C 8,
    .C 2, .C 3, .C 4, .C 5, .C 6, .C 7]
  -- 80-85
  | .RDA => [.L, .H, .L, .L, .L, .BL, .BA 0, .BA 1, .BA 2, .V, .C 9, .H, .L, .H, .L, .L, .H, .C
    8, .C 2, .C 3, .C 4, .C 5, .C 6, .C 7]
  -- 87-92
  | .WR => [.L, .L, .H, .L, .L, .BL, .BA 0, .BA 1, .BA 2, .V, .C 9, .L, .L, .H, .L, .L, .H, .C 8,
    .C 2, .C 3, .C 4, .C 5, .C 6, .C 7]
  -- 94-99
  | .WRA => [.L, .L, .H, .L, .L, .BL, .BA 0, .BA 1, .BA 2, .V, .C 9, .H, .L, .H, .L, .L, .H, .C
    8, .C 2, .C 3, .C 4, .C 5, .C 6, .C 7]
  -- 101-104
  | .REFA => [.L, .L, .L, .H, .L, .H, .V, .V, .V, .V, .V, .V]
  -- 106-109
  | .SREFEN => [.L, .L, .L, .H, .H, .V, .V, .V, .V, .V, .V, .V]
  -- 111-114
  | .SREFEX => [.L, .L, .H, .L, .H, .V, .V, .V, .V, .V, .V, .V]
  | _ => []

/-- Position 9 of an LPDDR5 pattern: `pattern[9] = BG0` with bank groups
(standards/lpddr5/LPDDR5Interface.cpp 65, 79, 93, 109, 120, 134, 148, 162, 180). -/
def bank2 (a : BankArch) (d : Desc) : Desc := if a = .mbg then .BG 0 else d

/-- Position 10 of an LPDDR5 pattern: `pattern[10] = BG1` with bank groups, `pattern[10] = v8` with
eight banks (the lines after those of `bank2`). -/
def bank3 (a : BankArch) (d v8 : Desc) : Desc :=
  if a = .mbg then .BG 1 else if a = .m8b then v8 else d

/-- `LPDDR5Interface::registerPatterns` (standards/lpddr5/LPDDR5Interface.cpp 44-239). -/
def lpddr5Patterns (a : BankArch) : CmdType → List Desc
  -- 52
  | .ACT => [.H, .H, .H, .R 14, .R 15, .R 16, .R 17, .BA 0, .BA 1, (bank2 a (.BA 2)), (bank3 a
    (.BA 3) .V), .R 11, .R 12, .R 13, .H, .H, .L, .R 7, .R 8, .R 9, .R 10, .R 0, .R 1, .R 2, .R
    3, .R 4, .R 5, .R 6]
  -- 72
  | .PRE => [.L, .L, .L, .H, .H, .H, .H, .BA 0, .BA 1, (bank2 a (.BA 2)), (bank3 a (.BA 3) .V),
    .V, .V, .L]
  -- 86
  | .PREA => [.L, .L, .L, .H, .H, .H, .H, .V, .V, (bank2 a .V), (bank3 a .V .V), .V, .V, .H]
  -- 102
  | .REFB => [.L, .L, .L, .H, .H, .H, .L, .BA 0, .BA 1, (bank2 a (.BA 2)), .V, .V, .V, .L]
  -- 113
  | .RD => [.H, .L, .L, .C 0, .C 3, .C 4, .C 5, .BA 0, .BA 1, (bank2 a (.BA 2)), (bank3 a (.BA 3)
    .L), .C 1, .C 2, .L]
  -- 127
  | .RDA => [.H, .L, .L, .C 0, .C 3, .C 4, .C 5, .BA 0, .BA 1, (bank2 a (.BA 2)), (bank3 a (.BA
    3) .L), .C 1, .C 2, .H]
  -- 141
  | .WR => [.L, .H, .H, .C 0, .C 3, .C 4, .C 5, .BA 0, .BA 1, (bank2 a (.BA 2)), (bank3 a (.BA 3)
    .V), .C 1, .C 2, .L]
  -- 155
  | .WRA => [.L, .H, .H, .C 0, .C 3, .C 4, .C 5, .BA 0, .BA 1, (bank2 a (.BA 2)), (bank3 a (.BA
    3) .V), .C 1, .C 2, .H]
  -- 173
  | .REFA => [.L, .L, .L, .H, .H, .H, .L, .V, .V, (bank2 a .V), .V, .V, .V, .H]
  -- 172-174
  | .REFP2B => if a = .mbg ∨ a = .m16b then [.L, .L, .L, .H, .H, .H, .L, .BA 0, .BA 1, (bank2 a
    (.BA 2)), .V, .V, .V, .L] else []
  -- 184-189
  | .SREFEN => [.L, .L, .L, .H, .L, .H, .H, .V, .V, .V, .V, .V, .L, .L]
  -- 191-196
  | .SREFEX => [.L, .L, .L, .H, .L, .H, .L, .V, .V, .V, .V, .V, .V, .V]
  -- 198-203
  | .PDEA => [.L, .L, .L, .H, .L, .H, .H, .V, .V, .V, .V, .V, .L, .H]
  -- 205-210
  | .PDEP => [.L, .L, .L, .H, .L, .H, .H, .V, .V, .V, .V, .V, .L, .H]
  -- 212-217
  | .PDXA => [.L, .L, .L, .H, .L, .H, .L, .V, .V, .V, .V, .V, .V, .V]
  -- 219-224
  | .PDXP => [.L, .L, .L, .H, .L, .H, .L, .V, .V, .V, .V, .V, .V, .V]
  -- 226-231
  | .DSMEN => [.L, .L, .L, .H, .L, .H, .H, .V, .V, .V, .V, .V, .H, .L]
  -- 233-238
  | .DSMEX => [.L, .L, .L, .H, .L, .H, .L, .V, .V, .V, .V, .V, .V, .V]
  | _ => []

/-- The pattern tables of the four standards that use the default encoder. LPDDR6 has its own
descriptors (`lpddr6Patterns`). -/
def patterns (a : BankArch) : Std → CmdType → List Desc
  | .ddr4 => ddr4Patterns
  | .ddr5 => ddr5Patterns
  | .lpddr4 => lpddr4Patterns
  | .lpddr5 => lpddr5Patterns a
  | .lpddr6 => fun _ => []

/-- The handler after construction (standards/ddr4/DDR4Interface.cpp 43-46 with
DDR4Interface.h 48, standards/ddr5/DDR5Interface.cpp 33-43 with DDR5Interface.h 41, standards/lpddr4/LPDDR4Interface.cpp 40-43,
standards/lpddr5/LPDDR5Interface.cpp 39). -/
def caInit : Std → CaHandler
  | .ddr4 => { settings := Overrides.ofList [(.V, .H), (.X, .H)], lastPattern := 0x7ffffff#64 }
  | .ddr5 => { settings := Overrides.ofList [(.V, .H), (.X, .H), (.C 0, .H), (.C 1, .H)]
               lastPattern := 0x3fff#64 }
  | .lpddr4 => { settings := Overrides.ofList [(.C 0, .L), (.C 1, .L)] }
  | .lpddr5 => {}
  | .lpddr6 => {}

/-- `handleOverrides(length, read)` (standards/ddr4/DDR4Interface.cpp 236-286,
standards/ddr5/DDR5Interface.cpp 161-228, standards/lpddr4/LPDDR4Interface.cpp 174-199,
standards/lpddr5/LPDDR5Interface.cpp 306-322; LPDDR6 has none). -/
def handleOverrides (s : Overrides) (length : Nat) (read : Bool) : Std → Overrides
  | .ddr4 =>
    if read then s.update [(.C 2, .L), (.C 1, .L), (.C 0, .L)]
    else if length = 4 then s.update [(.C 2, .L), (.C 1, .H), (.C 0, .H)]
    else s.update [(.C 2, .H), (.C 1, .H), (.C 0, .H)]
  | .ddr5 =>
    if length = 8 then
      if read then (s.erase (.C 10)).update [(.C 3, .L), (.C 2, .L)]
      else (s.erase (.C 10)).update [(.C 3, .L), (.C 2, .H)]
    else if length = 32 then
      if read then s.update [(.C 10, .L), (.C 3, .L), (.C 2, .L)]
      else s.update [(.C 10, .L), (.C 3, .H), (.C 2, .H)]
    else
      if read then (s.erase (.C 10)).update [(.C 3, .L), (.C 2, .L)]
      else (s.erase (.C 10)).update [(.C 3, .H), (.C 2, .H)]
  | .lpddr4 =>
    if length = 32 then s.update [(.C 4, .L), (.C 3, .L), (.C 2, .L), (.BL, .H)]
    else (s.erase (.C 4)).update [(.C 3, .L), (.C 2, .L), (.BL, .L)]
  | .lpddr5 => if length = 32 then s.update [(.C 0, .L)] else s.erase (.C 0)
  | .lpddr6 => s

/-! ## LPDDR6 -/

/-- `pattern_descriptor_LPDDR6::t` (standards/lpddr6/LPDDR6Pattern.h 12-28). -/
inductive Desc6
  | H | L | V | X
  | BG (i : Fin 2) | DBG (i : Fin 2) | BA (i : Fin 2) | C (i : Fin 6) | R (i : Fin 17)
  | BL | SC | PAR
deriving DecidableEq, Repr

/-- `LPDDR6TargetCoordinate` (standards/lpddr6/LPDDR6Command.h 13-24). -/
structure Coord6 where
  bank : Nat := 0
  dbank : Nat := 8
  bankGroup : Nat := 0
  rank : Nat := 0
  row : Nat := 0
  column : Nat := 0
  subChannel : Nat := 0
deriving DecidableEq, Repr

/-- The conversion constructor (standards/lpddr6/LPDDR6Command.cpp 8-15). -/
def Coord6.ofCoord (c : Coord) : Coord6 where
  bank := c.bank
  dbank := (c.bank + 8) % 16
  bankGroup := c.bankGroup
  rank := c.rank
  row := c.row
  column := c.column

/-- `LPDDR6PatternExtraData` (standards/lpddr6/LPDDR6Pattern.h 30-43). -/
structure Extra6 where
  currentBurstLength : Nat := 0
  numberOfBankGroups : Nat := 4
  parityCheckMode : Bool := false
deriving DecidableEq, Repr

/-- `LPDDR6Encoder::encode`, the switch (standards/lpddr6/LPDDR6Pattern.cpp 32-152). The masks of
16-22 keep exactly the bits that are read. -/
def encodeBit6 (co : Coord6) (x : Extra6) : Desc6 → Option Bool
  | .H => some true
  | .L => some false
  | .X => some false
  | .V => some false
  | .BL => some (24 == x.currentBurstLength)
  | .BA i => some (co.bank.testBit i)
  | .BG i => some (co.bankGroup.testBit i)
  | .DBG i => some ((co.dbank / x.numberOfBankGroups).testBit i)
  | .C i =>
    if i = 0 then some (if 24 == x.currentBurstLength then co.column.testBit 0 else false)
    else some (co.column.testBit i)
  | .R i => some (co.row.testBit i)
  | .SC => some (1 == co.subChannel)
  | .PAR => none

/-- `LPDDR6Encoder::encode` (standards/lpddr6/LPDDR6Pattern.cpp 11-165). The assertion of 75 is
checked before the loop instead of inside it; nothing observable happens in between. -/
def encode6 (co : Coord6) (p : List Desc6) (x : Extra6) : Except Err (BitVec 64) :=
  if x.numberOfBankGroups = 0 then .error (.ub "modulo by zero")
  else if co.dbank % x.numberOfBankGroups ≠ 0 then .error (.assertion "Invalid bank configuration")
  else
    let n := usub p.length 1
    if ¬ n < 64 then .error (.assertion "n < 64")
    else if Desc6.C 0 ∈ p ∧ ¬ (24 = x.currentBurstLength ∨ 48 = x.currentBurstLength) then
      .error (.assertion "Invalid burstlength")
    else
      let b := encodeLoop (fun _ => encodeBit6 co x) p n 0#64
      if x.parityCheckMode then
        -- `pattern[2]` without a bounds check (157)
        match p[2]? with
        | none => .error (.ub "pattern index out of range")
        | some d =>
          if d = .PAR then .ok (setBit b (p.length - 3) (1 == popcount b % 2))
          else .ok b
      else .ok b

/-- `pre_gen` (standards/lpddr6/LPDDR6Interface.cpp 127-138). -/
def preGen (ab : Bool) : List Desc6 :=
  [.L, .L, .L, .PAR, .H, .H, .V, .SC, .V, .V, .V, if ab then .H else .L,
    if ab then .X else .BA 0, if ab then .X else .BA 1,
    if ab then .X else .BG 0, if ab then .X else .BG 1]

/-- `ref_gen` (standards/lpddr6/LPDDR6Interface.cpp 143-154). -/
def refGen (rfm : Desc6) (ab : Bool) : List Desc6 :=
  [.L, .L, .L, .PAR, .H, .L, rfm, .SC,
    if ab then .X else .DBG 0, if ab then .X else .DBG 1, .V, if ab then .H else .L,
    if ab then .X else .BA 0, if ab then .X else .BA 1,
    if ab then .X else .BG 0, if ab then .X else .BG 1]

/-- `wr_gen` (standards/lpddr6/LPDDR6Interface.cpp 182-193). -/
def wrGen (ap : Desc6) : List Desc6 :=
  [.BL, .L, .H, .PAR, .C 0, .C 1, ap, .SC, .C 2, .C 3, .C 4, .C 5, .BA 0, .BA 1, .BG 0, .BG 1]

/-- `rd_gen` (standards/lpddr6/LPDDR6Interface.cpp 198-209). -/
def rdGen (ap : Desc6) : List Desc6 :=
  [.BL, .H, .L, .PAR, .C 0, .C 1, ap, .SC, .C 2, .C 3, .C 4, .C 5, .BA 0, .BA 1, .BG 0, .BG 1]

/-- `LPDDR6Interface::registerPatterns` (standards/lpddr6/LPDDR6Interface.cpp 48-212). -/
def lpddr6Patterns : CmdType → List Desc6
  -- 57-67
  | .NOP => [.L, .L, .L, .PAR, .L, .L, .L, .V, .X, .X, .X, .X, .X, .X, .X, .X]
  -- 70-81
  | .PDEA => [.L, .L, .L, .PAR, .L, .H, .L, .V, .X, .X, .X, .X, .X, .X, .X, .X]
  | .PDEP => [.L, .L, .L, .PAR, .L, .H, .L, .V, .X, .X, .X, .X, .X, .X, .X, .X]
  -- 84-95
  | .PDXA => [.V, .X, .X, .X, .V, .X, .X, .X, .V, .X, .X, .X, .V, .X, .X, .X]
  | .PDXP => [.V, .X, .X, .X, .V, .X, .X, .X, .V, .X, .X, .X, .V, .X, .X, .X]
  -- 98-111, `sre_gen(H)`
  | .SREFEN => [.L, .L, .L, .PAR, .L, .L, .H, .H, .X, .X, .X, .X, .X, .X, .X, .X]
  -- 114-124
  | .SREFEX => [.L, .L, .L, .PAR, .L, .H, .H, .V, .X, .X, .X, .X, .X, .X, .X, .X]
  -- 139-140
  | .PRE => preGen false
  | .PREA => preGen true
  -- 155-156
  | .REFDB => refGen .L false
  | .REFA => refGen .L true
  -- 159-179
  | .ACT => [.H, .H, .H, .PAR, .H, .R 15, .R 16, .SC, .R 11, .R 12, .R 13, .R 14,
      .BA 0, .BA 1, .BG 0, .BG 1, .H, .H, .H, .PAR, .L, .R 8, .R 9, .R 10,
      .R 4, .R 5, .R 6, .R 7, .R 0, .R 1, .R 2, .R 3]
  -- 194-195
  | .WR => wrGen .L
  | .WRA => wrGen .H
  -- 210-211
  | .RD => rdGen .L
  | .RDA => rdGen .H
  | _ => []

/-- `PatternHandler` of LPDDR6: the overrides are never set nor read, only the extra data and the
last word remain (standards/lpddr6/LPDDR6Interface.cpp 41, 45). -/
structure CaHandler6 where
  extra : Extra6 := {}
  lastPattern : BitVec 64 := 0#64
deriving DecidableEq, Repr

/-- `getCommandPattern` (util/PatternHandler.h 80-89) for LPDDR6. -/
def CaHandler6.command (h : CaHandler6) (c : CmdType) (co : Coord6) :
    Except Err (CaHandler6 × BitVec 64) :=
  if c = .COUNT then .error (.ub "pattern map index out of range")
  else if lpddr6Patterns c = [] then .error (.exception "No pattern registered for this command")
  else do
    let w ← encode6 co (lpddr6Patterns c) h.extra
    return ({ h with lastPattern := w }, w)

end DRAMPower
