import Verif.Model.Core

/-!
# Routing of commands to handlers

Paths in comments are relative to `/repo/src/DRAMPower/DRAMPower/`.

Simplifications: a handler (`std::function<void(const Command&)>`) is a function that changes a state `S`, or none if the `std::function` is empty;
of the command the part in `Cmd` is kept.
-/

namespace DRAMPower

/-- The values of the enumeration (command/CmdType.h 15-40). -/
def CmdType.value : CmdType → Nat
  | .NOP => 0
  | .RD => 1
  | .WR => 2
  | .RDA => 3
  | .WRA => 4
  | .ACT => 5
  | .PRE => 6
  | .REFB => 7
  | .REFP2B => 8
  | .REFDB => 9
  | .PRESB => 10
  | .REFSB => 11
  | .PREA => 12
  | .REFA => 13
  | .PDEA => 14
  | .PDEP => 15
  | .PDXA => 16
  | .PDXP => 17
  | .SREFEN => 18
  | .SREFEX => 19
  | .DSMEN => 20
  | .DSMEX => 21
  | .END_OF_SIMULATION => 22
  | .COUNT => 23

/-- `commandHandler_t` (util/Router.h 19). -/
abbrev CmdHandler (S : Type) := Option (Cmd → S → Except Err S)

/-- `Router` (util/Router.h 14-60). -/
structure Router (S : Type) where
  handlers : List (CmdHandler S)

namespace Router

variable {S : Type}

/-- The constructor (util/Router.h 32-34): `defaultHandler.value_or([](const Command&) {})` in every place. -/
def init (default : Option (CmdHandler S)) : Router S :=
  { handlers := List.replicate CmdType.COUNT.value (default.getD (some fun _ s => .ok s)) }

/-- `routeCommand` (util/Router.h 39-44). -/
def route (r : Router S) (type : CmdType) (h : CmdHandler S) : Except Err (Router S) :=
  if type.value < r.handlers.length then .ok { handlers := r.handlers.set type.value h }
  else .error (.assertion "m_router.size() > cmd")

/-- `executeCommand` (util/Router.h 47-51). -/
def execute (r : Router S) (c : Cmd) (s : S) : Except Err S :=
  match r.handlers[c.type.value]? with
  | some (some h) => h c s
  | some none => .error (.exception "bad_function_call")
  | none => .error (.assertion "m_router.size() > command.type")

/-- `size` (util/Router.h 52-55). -/
def size (r : Router S) : Nat := r.handlers.length

end Router

end DRAMPower
