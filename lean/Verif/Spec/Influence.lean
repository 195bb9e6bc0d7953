import Verif.Spec.SimSession
import Mathlib.Data.List.Forall2

/-!
# Which parts of a session may show up in which figures
-/

namespace DRAMPower.Spec

/-- The same command with other bytes, as many as before. -/
def otherBytes (c c' : ICmd) : Prop :=
  c' = { c with data := c'.data } ∧ c'.data.map List.length = c.data.map List.length

instance (c c' : ICmd) : Decidable (otherBytes c c') := by unfold otherBytes; infer_instance

/-- The same command for another row, column, bank group or subchannel. -/
def otherPlace (c c' : ICmd) : Prop :=
  c' = { c with co := { c.co with row := c'.co.row, column := c'.co.column, bankGroup := c'.co.bankGroup }, subChannel := c'.subChannel }

instance (c c' : ICmd) : Decidable (otherPlace c c') := by unfold otherPlace; infer_instance

/-- The same calls, with commands that are related. -/
inductive sameCall (R : ICmd → ICmd → Prop) : SimCall → SimCall → Prop
  | command {c c' : ICmd} (h : R c c') : sameCall R (.command c) (.command c')
  | coreCommand {c c' : ICmd} (h : R c c') : sameCall R (.coreCommand c) (.coreCommand c')
  | ifaceCommand {c c' : ICmd} (h : R c c') : sameCall R (.iface (.cmd c)) (.iface (.cmd c'))
  | other (u : SimCall) : sameCall R u u

/-- A reply without the figures of the data wires and the inversion wires. -/
def withoutData : SimReply → SimReply
  | .stats s => .stats { s with readBus := {}, writeBus := {}, readDBI := {}, writeDBI := {} }
  | r => r

/-- A reply without the figures of the data wires. -/
def withoutDataBus : SimReply → SimReply
  | .stats s => .stats { s with readBus := {}, writeBus := {} }
  | r => r

/-- A reply without the figures of the command wires. -/
def withoutCommandBus : SimReply → SimReply
  | .stats s => .stats { s with commandBus := {} }
  | r => r

/-- The call switches inversion on. -/
def turnsOn : SimCall → Bool
  | .setDBI e | .iface (.dbi e) => e
  | _ => false

end DRAMPower.Spec
