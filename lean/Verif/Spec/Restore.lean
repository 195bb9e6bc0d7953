import Verif.Model.InterfaceSerialize

/-!
# Sessions with an interface, and what saving and restoring is about
-/

namespace DRAMPower.Spec

/-- The calls a standard offers: DDR5 has no DBI; only LPDDR6 has metadata, parity and `enable`/`disable`. -/
def offered (std : Std) : IfOp → Prop
  | .cmd _ => True
  | .dbi _ => std ≠ .ddr5
  | .metaData _ _ | .parity _ | .enable _ | .disable _ => std = .lpddr6

instance (std : Std) (op : IfOp) : Decidable (offered std op) := by cases op <;> unfold offered <;> infer_instance

/-- What is known of the standard library: the entries of a map are visited in some order, and `reserve(n)` takes room
for at least `n` elements, but not more than a `resize(n)` that has to reallocate. -/
structure Faithful (k : Codec) (sp : IfSpec) : Prop where
  order : ∀ s, (k.order s).Perm s
  enough : ∀ n, n ≤ k.reserve n
  zero : k.reserve 0 = 0
  atMost : ∀ m n, k.reserve n ≤ max n (sp.grow m n)

/-- The metadata after a call. -/
def metaStep (m : BitVec 16 × BitVec 16) : IfOp → BitVec 16 × BitVec 16
  | .metaData a b => (a, b)
  | _ => m

/-- The metadata after a number of calls. -/
def metaAfter (ops : List IfOp) : BitVec 16 × BitVec 16 := ops.foldl metaStep (0, 0)

/-- Whether the interface is enabled after a call. -/
def onStep (b : Bool) : IfOp → Bool
  | .enable _ => true
  | .disable _ => false
  | _ => b

/-- Whether the interface is enabled after a number of calls. -/
def onAfter (start : Bool) (ops : List IfOp) : Bool := ops.foldl onStep start

/-- What the user of an interface does. -/
inductive Use
  | call (op : IfOp)
  | query (t : Nat)

/-- What the user sees: the answers to the queries, and how the session ends. -/
def watch {std : Std} {N : Nat} (sp : IfSpec) (i : Interface std N) : List Use → List (SimStats × Nat) × Option Err
  | [] => ([], none)
  | .call op :: us => match i.step sp op with
    | .ok i => watch sp i us
    | .error e => ([], some e)
  | .query t :: us => match i.getWindowStats sp t {} with
    | .ok s => let (a, e) := watch sp i us
      ((s, i.lastCommandTime) :: a, e)
    | .error e => ([], some e)

/-- The session ends without undefined behaviour. -/
def defined {std : Std} {N : Nat} (sp : IfSpec) (i : Interface std N) (us : List Use) : Prop :=
  ∀ m, (watch sp i us).2 ≠ some (.ub m)

end DRAMPower.Spec
