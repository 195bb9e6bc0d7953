import Verif.Model.SimObject
import Verif.Model.Session
import Verif.Spec.Restore

/-!
# Sessions with a whole simulator

What the calls of a session mean for the core and for the interface, which settings of the extensions a user may expect, and what a user
sees.
-/

namespace DRAMPower.Spec

/-- The simulator offers inversion of the data bus: all standards but DDR5, and not DDR4 devices of four bits. -/
def inverts (std : Std) (sp : IfSpec) : Bool := std != .ddr5 && !(std == .ddr4 && sp.bitWidth == 4)

/-- The part of a session the core sees. -/
def coreOps (us : List SimCall) : List Op :=
  us.filterMap fun
    | .command c | .coreCommand c => some (.cmd c.core)
    | .window t => some (.query t)
    | _ => none

/-- The part of a session the interface sees. -/
def ifOps (std : Std) (sp : IfSpec) (us : List SimCall) : List IfOp :=
  us.filterMap fun
    | .command c => some (.cmd c)
    | .iface op => some op
    | .setDBI e => if inverts std sp then some (.dbi e) else none
    | .setMetaData a b => if std = .lpddr6 then some (.metaData a b) else none
    | _ => none

/-- The last value given to the DBI extension, off at the beginning. -/
def lastDBI (us : List SimCall) : Bool :=
  us.foldl (fun b u => match u with | .setDBI e => e | _ => b) false

/-- The last words given to the metadata extension. -/
def lastMetaData (us : List SimCall) : BitVec 16 × BitVec 16 :=
  us.foldl (fun m u => match u with | .setMetaData a b => (a, b) | _ => m) (0, 0)

/-- The call exists for the standard. -/
def callable (std : Std) : SimCall → Prop
  | .iface op => offered std op
  | _ => True

instance (std : Std) (u : SimCall) : Decidable (callable std u) := by cases u <;> unfold callable <;> infer_instance

/-- The extensions are not bypassed by calls on `getInterface()`. -/
def throughExtensions : SimCall → Prop
  | .iface (.dbi _) | .iface (.metaData _ _) => False
  | _ => True

instance (u : SimCall) : Decidable (throughExtensions u) := by
  unfold throughExtensions; split <;> infer_instance

/-- What a user sees: the replies, and how the session ends. -/
def replies {std : Std} {N : Nat} (ms : MemSpec) (sp : IfSpec) (o : SimObject std N) : List SimCall → List SimReply × Option Err
  | [] => ([], none)
  | u :: us => match o.step ms sp u with
    | .ok (o, r) => let (rs, e) := replies ms sp o us
      (r :: rs, e)
    | .error e => ([], some e)

/-- The session ends without undefined behaviour. -/
def definedSession {std : Std} {N : Nat} (ms : MemSpec) (sp : IfSpec) (o : SimObject std N) (us : List SimCall) : Prop :=
  ∀ m, (replies ms sp o us).2 ≠ some (.ub m)

end DRAMPower.Spec
