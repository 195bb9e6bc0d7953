import Verif.Spec.Admissible
import Verif.Model.SimObject

/-!
# Traces that the data bus inversion can follow

The specification reads the commands only.
-/

namespace DRAMPower.Spec

/-- Levels that an inversion line of a standard can take in one burst: the line has to remember every beat of the burst and, possibly, the
return to the idle level. LPDDR6 transmits its flags with the data, DDR5 does not invert. -/
def lineRoom : Std → Option Nat
  | .ddr4 => some 8
  | .lpddr4 | .lpddr5 => some 32
  | .ddr5 | .lpddr6 => none

/-- Bursts are shorter than the lines allow, the payloads of a direction never get longer, and the lines of a standard that has them transfer no data
after the end. -/
structure Invertible (std : Std) (sp : IfSpec) (cs : List ICmd) : Prop where
  short : ∀ room, lineRoom std = some room → ∀ c ∈ cs, direction c.type ≠ none → dataBeats std sp c < room
  sizes : cs.Pairwise fun a b => direction a.type ≠ none → direction b.type = direction a.type → b.nBits ≤ a.nBits
  ends : lineRoom std ≠ none → cs.Pairwise fun a b => a.type = .END_OF_SIMULATION → direction b.type = none

/-- The trace of commands in a session. -/
def traceOf (us : List SimCall) : List ICmd := us.filterMap fun
  | .command c => some c
  | _ => none

/-- Besides `doCommand` the session only switches the extensions and looks at the simulator. -/
def steering : SimCall → Prop
  | .coreCommand _ | .iface _ | .window _ => False
  | _ => True

instance (u : SimCall) : Decidable (steering u) := by cases u <;> unfold steering <;> infer_instance

/-- The error at the end of a run of the core. -/
def failure : Except Err Core → Option Err
  | .ok _ => none
  | .error e => some e

end DRAMPower.Spec
