import Verif.Model.Core

/-!
# Which commands concern a bank of a rank
-/

namespace DRAMPower.Spec

/-- Power-down commands. -/
def powerDown : CmdType → Bool
  | .PDEA | .PDEP | .PDXA | .PDXP => true
  | _ => false

/-- Does a command to the rank concern bank `b`: is it addressed to the bank, to a set of banks that
contains it, or to the whole rank? Bank `b` is bank `b % banksPerGroup` of group `b / banksPerGroup`. -/
def concerns (ms : MemSpec) (b : Nat) (c : Cmd) : Bool :=
  match c.type with
  | .ACT | .PRE | .RD | .RDA | .WR | .WRA | .REFB => b == c.bank
  | .PRESB | .REFSB => decide (∃ g < ms.numberOfBankGroups, b = g * ms.banksPerGroup + c.bank % ms.banksPerGroup)
  | .REFP2B => b == c.bank || b == (c.bank + ms.perTwoBankOffset) % 16
  | .REFDB => b == c.bank || b == c.dbank
  | .NOP | .END_OF_SIMULATION | .COUNT => false
  | _ => true

end DRAMPower.Spec
