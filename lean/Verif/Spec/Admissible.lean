import Verif.Spec.Seamless

/-!
# Traces whose commands find the busses free

The specification reads the commands only: a command occupies the command bus for a number of beats that depends on its
type, a data command occupies the data bus (shared by both directions and all ranks) for the beats of its payload.
-/

namespace DRAMPower.Spec

/-- Beats a command occupies on the command bus; zero if it is not sent. -/
def caBeats : Std → CmdType → Nat
  | _, .END_OF_SIMULATION => 0
  | .ddr4, .SREFEX => 2
  | .ddr4, _ => 1
  | .ddr5, .ACT | .ddr5, .RD | .ddr5, .RDA | .ddr5, .WR | .ddr5, .WRA => 2
  | .ddr5, _ => 1
  | .lpddr4, .ACT | .lpddr4, .RD | .lpddr4, .RDA | .lpddr4, .WR | .lpddr4, .WRA => 4
  | .lpddr4, .PDEA | .lpddr4, .PDEP | .lpddr4, .PDXA | .lpddr4, .PDXP => 0
  | .lpddr4, _ => 2
  | .lpddr5, .ACT => 4
  | .lpddr5, _ => 2
  | .lpddr6, .ACT => 8
  | .lpddr6, _ => 4

/-- Beats of a payload on the data bus. LPDDR6 adds 32 bits of metadata to every 256 bits. -/
def dataBeats (std : Std) (sp : IfSpec) (c : ICmd) : Nat :=
  if std = .lpddr6 ∧ c.nBits ≠ 0 then (c.nBits + c.nBits / 256 * 32) / (sp.bitWidth * sp.devices) else burstBeats sp c

/-- A data command brings what it announces, in whole beats, and takes at least one clock cycle. -/
structure Carries (std : Std) (sp : IfSpec) (c : ICmd) : Prop where
  long : sp.dataRate ≤ dataBeats std sp c
  bytes : ∀ d, c.data = some d → c.nBits ≤ 8 * d.length
  whole : std ≠ .lpddr6 → c.nBits % (sp.bitWidth * sp.devices) = 0
  /-- bursts of 24 or 48 beats, with the width 12 of the standard -/
  lpddr6 : std = .lpddr6 → (c.nBits = 256 ∨ c.nBits = 512 ∨ c.nBits = 0) ∧ (dataBeats std sp c = 24 ∨ dataBeats std sp c = 48)
  /-- bursts of 48 beats shift a 32 bit value by more than 31 places (property C36) -/
  shift : std = .lpddr6 → c.nBits = 512 → c.data.isSome → sp.shift.isSome

/-- Every command finds the command bus free from beat `ca` on and, if it transfers data, the data bus from beat `dq` on.
LPDDR6: the second bank of a command is a multiple of the number of bank groups. -/
def Admissible (std : Std) (sp : IfSpec) : Nat → Nat → List ICmd → Prop
  | _, _, [] => True
  | ca, dq, c :: cs =>
    (caBeats std c.type ≠ 0 → ca ≤ c.t * caRate std) ∧
    (direction c.type ≠ none → dq ≤ c.t * sp.dataRate ∧ Carries std sp c) ∧
    (std = .lpddr6 → caBeats std c.type ≠ 0 → 0 < sp.bankGroups ∧ c.dbank % sp.bankGroups = 0) ∧
    Admissible std sp (if caBeats std c.type = 0 then ca else c.t * caRate std + caBeats std c.type)
      (if direction c.type = none then dq else c.t * sp.dataRate + dataBeats std sp c) cs

end DRAMPower.Spec
