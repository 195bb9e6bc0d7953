import Verif.Model.BusStats

/-!
# Sequences of bits

What the operations of the bit sets mean on a plain list of bits.
-/

namespace DRAMPower.Spec

/-- How a bit set can be made and changed. -/
inductive BitExpr
  | empty
  | zeros (n : Nat)
  | value (n : Nat) (v : BitVec 64)
  | push (e : BitExpr) (v : Bool)
  | set (e : BitExpr) (i : Nat) (v : Bool)
  | setAll (e : BitExpr)
  | reset (e : BitExpr)
  | flip (e : BitExpr)
  | flipAt (e : BitExpr) (i : Nat)
  | clear (e : BitExpr)
  | xor (e f : BitExpr)
  | and (e f : BitExpr)
  | or (e f : BitExpr)

namespace BitExpr

/-- A change that needs an index in range. -/
def inRange (l : Option (List Bool)) (i : Nat) (f : List Bool → List Bool) : Option (List Bool) :=
  match l with
  | some l => if i < l.length then some (f l) else none
  | none => none

/-- An operation of two sequences of the same length. -/
def both (f : Bool → Bool → Bool) (l m : Option (List Bool)) : Option (List Bool) :=
  match l, m with
  | some l, some m => if l.length = m.length then some (List.zipWith f l m) else none
  | _, _ => none

/-- The bits; none if an index is out of range or two lengths differ. -/
def bits : BitExpr → Option (List Bool)
  | empty => some []
  | zeros n => some (List.replicate n false)
  | value n v => some ((List.range n).map fun i => v.getLsbD i)
  | push e v => e.bits.map (· ++ [v])
  | set e i v => inRange e.bits i (·.set i v)
  | setAll e => e.bits.map fun l => l.map fun _ => true
  | reset e => e.bits.map fun l => l.map fun _ => false
  | flip e => e.bits.map fun l => l.map not
  | flipAt e i => inRange e.bits i (·.modify i not)
  | clear e => e.bits.map fun _ => []
  | xor e f => both Bool.xor e.bits f.bits
  | and e f => both Bool.and e.bits f.bits
  | or e f => both Bool.or e.bits f.bits

/-- No operation on all bits is applied while the number of bits is not a multiple of `b`. -/
def aligned (b : Nat) : BitExpr → Prop
  | empty | zeros _ | value _ _ => True
  | push e _ | set e _ _ | reset e | flipAt e _ | clear e => e.aligned b
  | setAll e | flip e => e.aligned b ∧ ∀ l, e.bits = some l → b ∣ l.length
  | xor e f | and e f | or e f => e.aligned b ∧ f.aligned b

/-- Only what a bit set of fixed width offers: no growing, widths up to `w`. -/
def fixed (w : Nat) : BitExpr → Prop
  | empty => True
  | zeros n | value n _ => n ≤ w
  | push _ _ | clear _ => False
  | set e _ _ | setAll e | reset e | flip e | flipAt e _ => e.fixed w
  | xor e f | and e f | or e f => e.fixed w ∧ f.fixed w

end BitExpr

end DRAMPower.Spec
