import Mathlib.Data.Nat.Bitwise

/-!
# The static extension manager

Paths in comments are relative to `/repo/src/DRAMPower/DRAMPower/util/`.

Simplifications: the states of all extension classes are one type `E`. A function given to `callHook` may change the extension it is called for and
whatever it has captured, the world `W`; which class it is called for is its first argument (the functions are templates). The functions are taken
to be callable any number of times (`std::forward` passes a temporary as an rvalue to every call).
-/

namespace DRAMPower

/-- An extension of the tuple: the result of `getSupportedHooks`, and its state. -/
structure StaticExt (E : Type) where
  hooks : Nat
  state : E
deriving DecidableEq, Repr

/-- A function given to `callHook`. -/
abbrev HookFn (E W : Type) := Nat → E → W → E × W

/-- `StaticExtensionManager` (extension_manager_static.h 47-131): the tuple of the extensions. -/
abbrev StaticManager (E : Type) := List (StaticExt E)

namespace StaticManager

variable {E W : Type}

/-- `tryCallFunctor` for extension number `i` (extension_manager_static.h 21-30). -/
def tryCall (i : Nat) (m : StaticManager E × W) (f : HookFn E W) : StaticManager E × W :=
  match m.1[i]? with
  | some x => (m.1.set i { x with state := (f i x.state m.2).1 }, (f i x.state m.2).2)
  | none => m

/-- `callHookIfSupported` with `callHookIfSupportedImpl` (extension_manager_static.h 32-35, 77-88): the functions one after the other. -/
def callIfSupported (hook : Nat) (fs : List (HookFn E W)) (m : StaticManager E × W) (i : Nat) : StaticManager E × W :=
  match m.1[i]? with
  | some x => if x.hooks &&& hook ≠ 0 then fs.foldl (tryCall i) m else m
  | none => m

/-- `callHook` with `callHookImpl` (extension_manager_static.h 63-75, 98-107): the extensions one after the other. -/
def callHook (m : StaticManager E) (hook : Nat) (fs : List (HookFn E W)) (w : W) : StaticManager E × W :=
  if 0 < fs.length then (List.range m.length).foldl (callIfSupported hook fs) (m, w) else (m, w)

/-- `withExtension` for the extension at position `i` (extension_manager_static.h 127-130). -/
def withExtension (m : StaticManager E) (i : Nat) (f : E → E) : StaticManager E := m.modify i fun x => { x with state := f x.state }

end StaticManager

end DRAMPower
