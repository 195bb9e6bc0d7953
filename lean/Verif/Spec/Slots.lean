import Verif.Spec.Admissible
import Verif.Spec.Trace

/-!
# What occupies the wires, and when

The specification reads the commands only. A slot is the number of the first beat and the number of the first beat after it.
-/

namespace DRAMPower.Spec

/-- Beats of the command bus a command occupies. -/
def commandSlot (std : Std) (c : ICmd) : Option (Nat × Nat) :=
  if caBeats std c.type = 0 then none else some (c.t * commandRate std, c.t * commandRate std + caBeats std c.type)

/-- A data command transfers something: a payload, or whatever the toggling-rate model assumes. -/
def Transfers (sp : IfSpec) (c : ICmd) : Prop := sp.toggling.isSome ∨ (c.nBits ≠ 0 ∧ c.data.isSome)

instance (sp : IfSpec) (c : ICmd) : Decidable (Transfers sp c) := by unfold Transfers; infer_instance

/-- Beats of the data bus that a burst of a direction occupies. -/
def burstSlot (std : Std) (sp : IfSpec) (read : Bool) (c : ICmd) : Option (Nat × Nat) :=
  if direction c.type = some read ∧ Transfers sp c then some (c.t * sp.dataRate, c.t * sp.dataRate + dataBeats std sp c) else none

/-- The same for bursts of both directions. -/
def anySlot (std : Std) (sp : IfSpec) (c : ICmd) : Option (Nat × Nat) := (burstSlot std sp true c).or (burstSlot std sp false c)

/-- No slot begins before those listed earlier are over. -/
def OneAfterAnother (slots : List (Nat × Nat)) : Prop := slots.Pairwise fun a b => a.2 ≤ b.1

instance (l : List (Nat × Nat)) : Decidable (OneAfterAnother l) := by unfold OneAfterAnother; infer_instance

/-- The commands among the calls of a session. -/
def commandsOf (ops : List IfOp) : List ICmd := ops.filterMap fun op => match op with
  | .cmd c => some c
  | _ => none

/-- The part of a trace that asks the device for something. -/
def withoutEnd (cs : List ICmd) : List ICmd := cs.filter fun c => c.type != .END_OF_SIMULATION

end DRAMPower.Spec
