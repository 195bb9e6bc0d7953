import Verif.Model.Router

/-!
# What a user may expect of the router
-/

namespace DRAMPower.Spec

variable {S : Type}

/-- The handler of commands of a type after the registrations: the one registered last, otherwise the default. -/
def handlerFor (default : CmdHandler S) : List (CmdType × CmdHandler S) → CmdType → CmdHandler S
  | [], _ => default
  | (a, h) :: regs, ty => if ∃ x ∈ regs, x.1 = ty then handlerFor default regs ty else if a = ty then h else default

/-- What a handler does; an empty one cannot be called. -/
def outcome (h : CmdHandler S) (c : Cmd) (s : S) : Except Err S :=
  match h with
  | some f => f c s
  | none => .error (.exception "bad_function_call")

/-- The default if the user gives none: do nothing. -/
def defaultHandler : Option (CmdHandler S) → CmdHandler S
  | some h => h
  | none => some fun _ s => .ok s

end DRAMPower.Spec
