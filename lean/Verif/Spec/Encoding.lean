import Verif.Model.Pattern

/-!
# What a command word should say

Written from the meaning of the descriptors, without reference to the encoders: a pattern is sent
most significant position first, the last position is bit 0.
-/

namespace DRAMPower.Spec

/-- The coordinate bit a descriptor names; `none` for descriptors that name no coordinate. -/
def named (co : Coord) : Desc → Option Bool
  | .BA i => some (co.bank.testBit i)
  | .BG i => some (co.bankGroup.testBit i)
  | .C i => some (co.column.testBit i)
  | .R i => some (co.row.testBit i)
  | _ => none

/-- The same for LPDDR6. `DBG` names a bit of the second bank's bank group, with `groups` bank
groups. -/
def named6 (groups : Nat) (co : Coord6) : Desc6 → Option Bool
  | .BA i => some (co.bank.testBit i)
  | .BG i => some (co.bankGroup.testBit i)
  | .DBG i => some ((co.dbank / groups).testBit i)
  | .C i => some (co.column.testBit i)
  | .R i => some (co.row.testBit i)
  | .SC => some (co.subChannel == 1)
  | _ => none

/-- Position `i` of a pattern of `len` positions in the word. -/
def position (w : BitVec 64) (len i : Nat) : Bool := w.getLsbD (len - 1 - i)

/-- The overrides after any sequence of data transfers `(burst length, is a read)`. -/
def settingsAfter (std : Std) (calls : List (Nat × Bool)) : Overrides :=
  calls.foldl (fun s c => handleOverrides s c.1 c.2 std) (caInit std).settings

/-- The descriptors a data transfer may fix to a level: the low column bits addressed by the burst
itself, and the burst-length bit of LPDDR4. -/
def burstBits : Std → List Desc
  | .ddr4 => [.C 0, .C 1, .C 2]
  | .ddr5 => [.C 0, .C 1, .C 2, .C 3, .C 10]
  | .lpddr4 => [.C 0, .C 1, .C 2, .C 3, .C 4, .BL]
  | .lpddr5 => [.C 0]
  | .lpddr6 => []

/-- Groups of commands that share one entry of the pattern table (commands outside every group are
alone). -/
def shared (a : BankArch) : Std → List (List CmdType)
  | .ddr4 => [[.REFA, .SREFEN], [.PDEA, .PDEP, .PDXA, .PDXP]]
  | .ddr5 => [[.NOP, .PDXA, .PDXP], [.PDEA, .PDEP]]
  | .lpddr4 => []
  | .lpddr5 => (if a = .m8b then [] else [[.REFB, .REFP2B]]) ++
      [[.PDEA, .PDEP], [.SREFEX, .PDXA, .PDXP, .DSMEX]]
  | .lpddr6 => [[.NOP, .PDXA, .PDXP], [.PDEA, .PDEP]]

/-- Two commands are in one group. -/
def together (g : List (List CmdType)) (c c' : CmdType) : Bool :=
  g.any fun l => l.contains c && l.contains c'

/-- The descriptors `F from .. F (to - 1)` of a family. -/
def family {n : Nat} {D : Type} (f : Fin n → D) (start stop : Nat) : List D :=
  ((List.finRange n).filter fun i => decide (start ≤ i.val ∧ i.val < stop)).map f

/-- The bank address of a standard. -/
def bankBits (a : BankArch) : Std → List Desc
  | .ddr4 => family .BA 0 2 ++ family .BG 0 2
  | .ddr5 => family .BA 0 2 ++ family .BG 0 3
  | .lpddr4 => family .BA 0 3
  | .lpddr5 => if a = .mbg then family .BA 0 2 ++ family .BG 0 2
      else if a = .m8b then family .BA 0 3 else family .BA 0 4
  | .lpddr6 => []

/-- The coordinate bits each command has to carry. -/
def carried (a : BankArch) (std : Std) (c : CmdType) : List Desc :=
  match std, c with
  | .ddr4, .ACT => bankBits a .ddr4 ++ family .R 0 18
  | .ddr4, .RD | .ddr4, .RDA | .ddr4, .WR | .ddr4, .WRA => bankBits a .ddr4 ++ family .C 0 10
  | .ddr4, .PRE => bankBits a .ddr4
  | .ddr5, .ACT => bankBits a .ddr5 ++ family .R 0 17
  | .ddr5, .RD | .ddr5, .RDA => bankBits a .ddr5 ++ family .C 2 11
  | .ddr5, .WR | .ddr5, .WRA => bankBits a .ddr5 ++ family .C 3 11
  | .ddr5, .PRE => bankBits a .ddr5
  | .ddr5, .PRESB | .ddr5, .REFSB => family .BA 0 2
  | .lpddr4, .ACT => bankBits a .lpddr4 ++ family .R 0 19
  | .lpddr4, .RD | .lpddr4, .RDA | .lpddr4, .WR | .lpddr4, .WRA =>
    bankBits a .lpddr4 ++ family .C 2 10
  | .lpddr4, .PRE | .lpddr4, .REFB => bankBits a .lpddr4
  | .lpddr5, .ACT => bankBits a .lpddr5 ++ family .R 0 18
  | .lpddr5, .RD | .lpddr5, .RDA | .lpddr5, .WR | .lpddr5, .WRA =>
    bankBits a .lpddr5 ++ family .C 0 6
  | .lpddr5, .PRE => bankBits a .lpddr5
  | .lpddr5, .REFB => if a = .mbg then family .BA 0 2 ++ family .BG 0 1 else family .BA 0 3
  | _, _ => []

/-- The same for LPDDR6. -/
def carried6 : CmdType → List Desc6
  | .ACT => family .BA 0 2 ++ family .BG 0 2 ++ family .R 0 17 ++ [.SC]
  | .RD | .RDA | .WR | .WRA => family .BA 0 2 ++ family .BG 0 2 ++ family .C 0 6 ++ [.SC]
  | .PRE => family .BA 0 2 ++ family .BG 0 2 ++ [.SC]
  | .REFDB => family .BA 0 2 ++ family .BG 0 2 ++ family .DBG 0 2 ++ [.SC]
  | .PREA | .REFA => [.SC]
  | _ => []

/-- Even parity of a word. -/
def even (w : BitVec 64) : Prop := popcount w % 2 = 0

end DRAMPower.Spec
