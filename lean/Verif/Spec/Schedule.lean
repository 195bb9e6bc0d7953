import Verif.Model.Core

/-!
# Event logs: what "deferred commands run exactly once, in order, never early or late" means

A log records, in the order in which things happen, the explicit commands, the deferred commands they
issue, and the moments at which deferred commands take effect.
-/

namespace DRAMPower.Spec

/-- A deferred command: numbered in the order in which deferred commands are issued. -/
structure Deferred where
  id : Nat
  t : Nat
  rank : Nat
  imp : Imp
deriving DecidableEq, Repr

inductive Event
  | cmd (c : Cmd)
  /-- A deferred command is issued. -/
  | issue (d : Deferred)
  /-- A deferred command takes effect. -/
  | exec (d : Deferred)
deriving DecidableEq, Repr

/-- Earlier time, or same time and issued earlier. -/
def Deferred.before (a b : Deferred) : Prop := a.t < b.t ∨ (a.t = b.t ∧ a.id < b.id)

/-- The scheduling discipline, for a log observed until time `T`. -/
structure WellScheduled (log : List Event) (T : Nat) : Prop where
  /-- Numbers are given in order of issue. -/
  numbered : log.Pairwise fun x y => ∀ a b, x = .issue a → y = .issue b → a.id < b.id
  /-- Only what has been issued before takes effect. -/
  issued : ∀ l₁ d l₂, log = l₁ ++ .exec d :: l₂ → .issue d ∈ l₁
  /-- Deferred commands take effect by increasing time, and in order of issue if they have the same
  time. In particular none takes effect twice. -/
  ordered : log.Pairwise fun x y => ∀ a b, x = .exec a → y = .exec b → a.before b
  /-- At an explicit command, exactly those deferred commands issued so far have taken effect whose
  time is not later than that of the command. -/
  inTime : ∀ l₁ c l₂, log = l₁ ++ .cmd c :: l₂ → ∀ d, .issue d ∈ l₁ → (.exec d ∈ l₁ ↔ d.t ≤ c.t)
  /-- At the end of the observation, exactly the due ones have taken effect. -/
  final : ∀ d, .issue d ∈ log → (.exec d ∈ log ↔ d.t ≤ T)

/-- The explicit commands of a log. -/
def commands (log : List Event) : List Cmd := log.filterMap fun | .cmd c => some c | _ => none

/-- Time of the latest command, explicit or deferred, that has taken effect. -/
def latest (log : List Event) : Nat :=
  log.foldl (fun m e => match e with | .cmd c => max m c.t | .exec d => max m d.t | .issue _ => m) 0

/-- The deferred commands issued by one explicit command, numbered from `n` on. -/
def issues (n rank : Nat) (imps : List (Nat × Imp)) : List Event :=
  (imps.zipIdx n).map fun (i, k) => .issue { id := k, t := i.1, rank := rank, imp := i.2 }

/-- `Replays std ms ranks n log ranks' n'`: the effects of the log, applied one after the other to
`ranks`, give `ranks'`; each explicit command issues exactly what its handler returns; a deferred
command has its effect (`exec`) with the rank it was issued for and its own time. -/
inductive Replays (std : Std) (ms : MemSpec) : (Nat → Rank) → Nat → List Event → (Nat → Rank) → Nat → Prop
  | nil (ranks n) : Replays std ms ranks n [] ranks n
  | noEffect {ranks n c l ranks' n'} (h : c.type = .END_OF_SIMULATION ∨ (std = .ddr5 ∧ c.type = .NOP)) :
      Replays std ms ranks n l ranks' n' → Replays std ms ranks n (.cmd c :: l) ranks' n'
  | cmd {ranks n c r imps l ranks' n'} (h : handle std ms (ranks c.rank) c = .ok (r, imps)) :
      Replays std ms (upd ranks c.rank r) (n + imps.length) l ranks' n' →
      Replays std ms ranks n (.cmd c :: (issues n c.rank imps ++ l)) ranks' n'
  | exec {ranks n d l ranks' n'} :
      Replays std ms (upd ranks d.rank (DRAMPower.exec std (ranks d.rank) d.t d.imp)) n l ranks' n' →
      Replays std ms ranks n (.exec d :: l) ranks' n'

end DRAMPower.Spec
