import Verif.Model.Copies
import Verif.Spec.SimSession

/-!
# What a user expects of several simulators

Each simulator answers as if it had been constructed on its own and given the calls made to it, for a copy after those made to its source
before it was copied. An assigned simulator is from then on a copy of the one assigned to it.
-/

namespace DRAMPower.Spec

/-- The calls each simulator has received, by its number; `none` after destruction. -/
def historyStep (l : List (Option (List SimCall))) : WorldOp → List (Option (List SimCall))
  | .new => l ++ [some []]
  | .copy j => l ++ [(l[j]?).join]
  | .assign moved j k => let l := l.set j (l[k]?).join; if moved then l.set k none else l
  | .destroy j => l.set j none
  | .call j u => l.modify j fun h => h.map (· ++ [u])

/-- The calls each simulator has received in a program. -/
def histories (ops : List WorldOp) : List (Option (List SimCall)) := ops.foldl historyStep []

/-- The reply of a new simulator to a call after the calls `h`. -/
def replyAlone (std : Std) (N : Nat) (ms : MemSpec) (sp : IfSpec) (h : List SimCall) (u : SimCall) : Except Err SimReply :=
  match SimObject.init std N ms sp with
  | .error e => .error e
  | .ok o => match o.run ms sp h with
    | .error e => .error e
    | .ok o => (o.step ms sp u).map (·.2)

/-- The program makes no copies and no assignments. -/
def noCopies (ops : List WorldOp) : Prop := (∀ j, WorldOp.copy j ∉ ops) ∧ ∀ b j k, WorldOp.assign b j k ∉ ops

/-- The call does not concern inversion or metadata (DDR5 has neither, only LPDDR6 has metadata). -/
def plainCall (std : Std) : SimCall → Prop
  | .setDBI _ => std = .ddr5
  | .setMetaData _ _ | .getMetaData => std ≠ .lpddr6
  | .iface (.dbi e) => e = false
  | _ => True

/-- No call of the program concerns inversion or metadata. -/
def plainProgram (std : Std) (ops : List WorldOp) : Prop := ∀ j u, WorldOp.call j u ∈ ops → plainCall std u

end DRAMPower.Spec
