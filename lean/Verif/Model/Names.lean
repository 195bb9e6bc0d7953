import Verif.Model.Core

/-!
# Command names

Paths in comments are relative to `/repo/src/DRAMPower/DRAMPower/`. Values of the enumeration outside its enumerators are
not modelled (`to_string` has no result for them).
-/

namespace DRAMPower

/-- `CmdTypeUtil::needs_data` (command/CmdType.h 44-56). -/
def CmdType.needsData : CmdType → Bool
  | .RD | .RDA | .WR | .WRA => true
  | _ => false

/-- `CmdTypeUtil::from_string` (command/CmdType.h 59-108). -/
def CmdType.fromString (s : String) : CmdType :=
  if s = "NOP" then .NOP
  else if s = "ACT" then .ACT
  else if s = "PRE" then .PRE
  else if s = "PREA" then .PREA
  else if s = "PRESB" then .PRESB
  else if s = "REFA" then .REFA
  else if s = "REFB" then .REFB
  else if s = "REFSB" then .REFSB
  else if s = "REFP2B" then .REFP2B
  else if s = "REFDB" then .REFDB
  else if s = "RD" then .RD
  else if s = "RDA" then .RDA
  else if s = "WR" then .WR
  else if s = "WRA" then .WRA
  else if s = "PDEA" then .PDEA
  else if s = "PDEP" then .PDEP
  else if s = "PDXA" then .PDXA
  else if s = "PDXP" then .PDXP
  else if s = "SREFEN" then .SREFEN
  else if s = "SREFEX" then .SREFEX
  else if s = "DSMEN" then .DSMEN
  else if s = "DSMEX" then .DSMEX
  else if s = "END" then .END_OF_SIMULATION
  else .NOP

/-- `CmdTypeUtil::to_string` (command/CmdType.h 111-163). -/
def CmdType.toStr : CmdType → String
  | .NOP | .COUNT => "NOP"
  | .ACT => "ACT"
  | .PRE => "PRE"
  | .PREA => "PREA"
  | .REFA => "REFA"
  | .REFB => "REFB"
  | .RD => "RD"
  | .RDA => "RDA"
  | .WR => "WR"
  | .WRA => "WRA"
  | .REFSB => "REFSB"
  | .REFP2B => "REFP2B"
  | .REFDB => "REFDB"
  | .PRESB => "PRESB"
  | .PDEA => "PDEA"
  | .PDEP => "PDEP"
  | .PDXA => "PDXA"
  | .PDXP => "PDXP"
  | .SREFEN => "SREFEN"
  | .SREFEX => "SREFEX"
  | .DSMEN => "DSMEN"
  | .DSMEX => "DSMEX"
  | .END_OF_SIMULATION => "END_OF_SIMULATION"

end DRAMPower
