import Verif.Model.Serialize

/-!
# Extensions

Paths in comments are relative to `/repo/src/DRAMPower/DRAMPower/util/`.

Simplifications: a C++ type is a number, an object is its position in the list of all objects ever made; only the manager owns extensions
(nobody keeps a locked pointer), so an object is alive while the map or the hook cache refers to it. The state of an extension is that of the two
classes of extensions.h or, for a class of the user, a fixed number of bytes. The unordered map is a list of pairs. `digits` is the number
of value bits of the hook enumeration, at most 64; zero stands for `ExtensionManager` without hooks. A stream with too few bytes is an
error.
-/

namespace DRAMPower
open Ser

/-- State of `extensions::DBI` (extensions.h 56), `extensions::MetaData` (extensions.h 88) or of a class of the user. -/
inductive ExtState
  | dbi (enabled : Bool)
  | metaData (m1 m2 : BitVec 16)
  | custom (bytes : List UInt8)
deriving DecidableEq, Repr

namespace ExtState

/-- `DBI::enable` (extensions.cpp 10-21) with the answer of the callback. -/
def enable (callback : Bool → Bool) (e : Bool) (s : ExtState) : ExtState :=
  match s with
  | dbi _ => if callback e then dbi e else s
  | s => s

/-- `DBI::isEnabled` (extensions.cpp 23-25). -/
def isEnabled : ExtState → Bool
  | dbi e => e
  | _ => false

/-- `serialize` (extensions.cpp 27-29, 47-51). -/
def serialize (s : ExtState) (out : Bytes) : Bytes :=
  match s with
  | dbi e => putBool e out
  | metaData m1 m2 => out ++ le 2 m1.toNat ++ le 2 m2.toNat
  | custom b => out ++ b

/-- A read of the stream. -/
def read {α : Type} (x : Option α) : Except Err α :=
  match x with
  | some a => .ok a
  | none => .error (.exception "stream")

/-- `deserialize` (extensions.cpp 30-32, 52-58). -/
def deserialize (s : ExtState) (i : Bytes) : Except Err (ExtState × Bytes) :=
  match s with
  | dbi _ => do
    let (e, i) ← read (getBool i)
    pure (dbi e, i)
  | metaData _ _ => do
    let (m1, i) ← read (getBytes 2 i)
    let (m2, i) ← read (getBytes 2 i)
    pure (metaData (BitVec.ofNat 16 (fromLe m1)) (BitVec.ofNat 16 (fromLe m2)), i)
  | custom b => do
    let (b', i) ← read (getBytes b.length i)
    pure (custom b', i)

end ExtState

/-- An extension object: its class, the hooks it supports (`getSupportedHooks`, extension_base.h 20) and its state. -/
structure ExtObj where
  type : Nat
  hooks : Nat
  state : ExtState
deriving DecidableEq, Repr

/-- `ExtensionManager` and `ExtensionManagerWithHooks` (extension_manager.h 42-51, 147-162). -/
structure ExtManager where
  objs : List ExtObj := []
  exts : List (Nat × Nat) := []
  ser : List Nat := []
  cache : List (List Nat) := []
deriving DecidableEq, Repr

namespace ExtManager

/-- `ExtensionManager()` (extension_manager.h 73) and `ExtensionManagerWithHooks()` with `initializeHooks` (169-173, 190-192). -/
def init (digits : Nat) : ExtManager := { cache := List.replicate digits [] }

/-- The loop of `updateHookCache` (extension_manager.h 181-185): `1 << i` is a shift of an `int`, undefined from 32. -/
def cacheLoop (cache : List (List Nat)) (hooks obj : Nat) : Except Err (List (List Nat)) :=
  (List.range cache.length).foldlM (fun c i =>
    if 32 ≤ i then .error (.ub "1 << i") else .ok (if hooks.testBit i then c.modify i (· ++ [obj]) else c)) cache

/-- `registerExtension` (extension_manager.h 59-69, 77-80, 196-199): `m_extensions[typeIndex] = ext` replaces an older object. -/
def register (m : ExtManager) (type hooks : Nat) (state : ExtState) : Except Err ExtManager := do
  let i := m.objs.length
  let cache ← cacheLoop m.cache hooks i
  pure { objs := m.objs ++ [{ type, hooks, state }]
         exts := (type, i) :: m.exts.filter fun e => e.1 != type
         ser := m.ser ++ [i]
         cache }

/-- `m_extensions.find` (extension_manager.h 90-91, 114-115). -/
def find (m : ExtManager) (type : Nat) : Option Nat := m.exts.lookup type

/-- `hasExtension` (extension_manager.h 98-106). -/
def has (m : ExtManager) (type : Nat) : Bool := (m.find type).isSome

/-- `getExtension` (extension_manager.h 83-95): the object, or none for the empty pointer. -/
def get (m : ExtManager) (type : Nat) : Option ExtObj :=
  match m.find type with
  | some i => m.objs[i]?
  | none => none

/-- A function applied to an object. -/
def change (f : ExtState → ExtState) (o : ExtObj) : ExtObj := { o with state := f o.state }

/-- `withExtension` (extension_manager.h 109-119). -/
def withExtension (m : ExtManager) (type : Nat) (f : ExtState → ExtState) : ExtManager :=
  match m.find type with
  | some i => { m with objs := m.objs.modify i (change f) }
  | none => m

/-- `countZeros` (extension_manager.h 27-38). -/
def countZeros (digits value : Nat) : Nat := ((List.range digits).find? fun i => value.testBit i).getD digits

/-- The objects a hook is called for, in this order (extension_manager.h 204-211). -/
def invoked (m : ExtManager) (hook : Nat) : List Nat := (m.cache[countZeros m.cache.length hook]?).getD []

/-- `callHook` (extension_manager.h 202-212). -/
def callHook (m : ExtManager) (hook : Nat) (f : ExtState → ExtState) : ExtManager :=
  { m with objs := (m.invoked hook).foldl (fun o i => o.modify i (change f)) m.objs }

/-- `weak_ptr::lock` succeeds. -/
def alive (m : ExtManager) (i : Nat) : Bool := m.exts.any (fun e => e.2 == i) || m.cache.any fun l => l.contains i

/-- Body of the loop of `serialize` (extension_manager.h 122-128). -/
def saveStep (m : ExtManager) (out : Bytes) (i : Nat) : Except Err Bytes :=
  match m.alive i, m.objs[i]? with
  | true, some o => .ok (o.state.serialize out)
  | _, _ => .error (.exception "Empty shared_pointer in ExtensionManager is not allowed")

/-- `serialize` (extension_manager.h 121-129). -/
def serialize (m : ExtManager) (out : Bytes) : Except Err Bytes := m.ser.foldlM m.saveStep out

/-- Body of the loop of `deserialize` (extension_manager.h 131-137). -/
def restoreStep (m : ExtManager) (s : List ExtObj × Bytes) (i : Nat) : Except Err (List ExtObj × Bytes) :=
  match m.alive i, s.1[i]? with
  | true, some o => do
    let (st, rest) ← o.state.deserialize s.2
    pure (s.1.set i { o with state := st }, rest)
  | _, _ => .error (.exception "Empty shared_pointer in ExtensionManager is not allowed")

/-- `deserialize` (extension_manager.h 130-138). -/
def deserialize (m : ExtManager) (i : Bytes) : Except Err (ExtManager × Bytes) := do
  let (objs, i) ← m.ser.foldlM m.restoreStep (m.objs, i)
  pure ({ m with objs }, i)

end ExtManager

end DRAMPower
