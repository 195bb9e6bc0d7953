import Verif.Model.StaticExtension

/-!
# What a user may expect of the static extension manager
-/

namespace DRAMPower.Spec

variable {E W : Type}

/-- Extension `i` supports one of the hooks in `hook`. -/
def supportsHook (m : StaticManager E) (hook i : Nat) : Prop := ∃ x k, m[i]? = some x ∧ x.hooks.testBit k = true ∧ hook.testBit k = true

/-- The list of calls a user may expect: extension and function. Extensions first to last, for each the functions first to last. -/
structure Calls (m : StaticManager E) (hook n : Nat) (l : List (Nat × Nat)) : Prop where
  mem : ∀ i j, (i, j) ∈ l ↔ supportsHook m hook i ∧ j < n
  order : l.Pairwise fun a b => a.1 < b.1 ∨ a.1 = b.1 ∧ a.2 < b.2

/-- One call: the function changes the extension and the world, nothing else. -/
def oneCall (fs : List (HookFn E W)) (m : StaticManager E × W) (c : Nat × Nat) : StaticManager E × W :=
  match m.1[c.1]?, fs[c.2]? with
  | some x, some f => (m.1.set c.1 { x with state := (f c.1 x.state m.2).1 }, (f c.1 x.state m.2).2)
  | _, _ => m

end DRAMPower.Spec
