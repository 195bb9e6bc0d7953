import Verif.Spec.WireEnergy

/-!
# Wires between two traces

When all wires are idle, so that another trace may follow as if nothing had been sent before, and what the sum of two interface energies is.
-/

namespace DRAMPower.Spec

/-- The beat before time `T` and all later ones are idle, on the command bus and on the data busses: every command and every burst ends
before that beat. -/
structure WiresIdle (std : Std) (sp : IfSpec) (cs : List ICmd) (T : Nat) : Prop where
  commands : ∀ c ∈ cs, caBeats std c.type = 0 ∨ c.t * commandRate std + caBeats std c.type < T * commandRate std
  bursts : ∀ c ∈ cs, direction c.type ≠ none → dataBeats std sp c = 0 ∨ c.t * sp.dataRate + dataBeats std sp c < T * sp.dataRate

instance (std : Std) (sp : IfSpec) (cs : List ICmd) (T : Nat) : Decidable (WiresIdle std sp cs T) :=
  decidable_of_iff ((∀ c ∈ cs, caBeats std c.type = 0 ∨ c.t * commandRate std + caBeats std c.type < T * commandRate std) ∧
      ∀ c ∈ cs, direction c.type ≠ none → dataBeats std sp c = 0 ∨ c.t * sp.dataRate + dataBeats std sp c < T * sp.dataRate)
    ⟨fun ⟨a, b⟩ => ⟨a, b⟩, fun ⟨a, b⟩ => ⟨a, b⟩⟩

/-- Sum of two interface energies, part by part. -/
def sumInfo (a b : InterfaceInfo) : InterfaceInfo where
  controller := { dynamic := a.controller.dynamic + b.controller.dynamic, static := a.controller.static + b.controller.static }
  dram := { dynamic := a.dram.dynamic + b.dram.dynamic, static := a.dram.static + b.dram.static }

/-- `n` times an interface energy. -/
def timesInfo (n : Nat) (a : InterfaceInfo) : InterfaceInfo where
  controller := { dynamic := n * a.controller.dynamic, static := n * a.controller.static }
  dram := { dynamic := n * a.dram.dynamic, static := n * a.dram.static }

end DRAMPower.Spec
