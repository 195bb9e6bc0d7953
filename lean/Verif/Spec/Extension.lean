import Verif.Model.Extension

/-!
# Histories of extensions

Which extension a user may expect after a history of registrations and calls: of each type the one registered last, with all later changes.
-/

namespace DRAMPower.Spec

/-- Operations of a user. -/
inductive ExtOp
  | register (type hooks : Nat) (state : ExtState)
  | use (type : Nat) (f : ExtState → ExtState)
  | hook (h : Nat) (f : ExtState → ExtState)

/-- The hook `h` names a hook of the extension: its lowest bit. -/
def hookMatches (digits hooks h : Nat) : Prop := ∃ i, i < digits ∧ hooks.testBit i = true ∧ h.testBit i = true ∧ ∀ j, j < i → h.testBit j = false

instance (digits hooks h : Nat) : Decidable (hookMatches digits hooks h) :=
  decidable_of_iff (∃ i, i < digits ∧ (hooks.testBit i = true ∧ h.testBit i = true ∧ ∀ j, j < i → h.testBit j = false)) Iff.rfl

/-- The extension of a type, with its hooks, after the operations. -/
def current (digits : Nat) (type : Nat) (s : Option (Nat × ExtState)) : ExtOp → Option (Nat × ExtState)
  | .register t k st => if t = type then some (k, st) else s
  | .use t f => if t = type then s.map fun x => (x.1, f x.2) else s
  | .hook h f => s.map fun x => (x.1, if hookMatches digits x.1 h then f x.2 else x.2)

def extension (digits : Nat) (ops : List ExtOp) (type : Nat) : Option (Nat × ExtState) := ops.foldl (current digits type) none

/-- The types and hooks registered, in this order. -/
def registered (ops : List ExtOp) : List (Nat × Nat) :=
  ops.filterMap fun
    | .register t k _ => some (t, k)
    | _ => none

/-- No type is registered twice. -/
def Unique (ops : List ExtOp) : Prop := ((registered ops).map (·.1)).Nodup

/-- The kind of the state, and the size of a custom one. -/
def sameKind : ExtState → ExtState → Prop
  | .dbi _, .dbi _ => True
  | .metaData _ _, .metaData _ _ => True
  | .custom a, .custom b => a.length = b.length
  | _, _ => False

end DRAMPower.Spec
