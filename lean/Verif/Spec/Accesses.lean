import Verif.Model.Core
import Verif.Model.Simulator

/-!
# Leaving out reads and writes

A trace some of whose commands are marked to be left out.
-/

namespace DRAMPower.Spec

/-- The whole trace; the mark says whether a command is kept. -/
def whole {α : Type} (l : List (α × Bool)) : List α := l.map (·.1)

/-- The trace without the commands that are not kept. -/
def kept {α : Type} (l : List (α × Bool)) : List α := (l.filter (·.2)).map (·.1)

/-- Only reads and writes (without auto-precharge) are left out. -/
def AccessesOnly (l : List (Cmd × Bool)) : Prop := ∀ p ∈ l, p.2 = false → p.1.type = .RD ∨ p.1.type = .WR

/-- How many commands of a type to a bank are left out. -/
def leftOut (l : List (Cmd × Bool)) (ty : CmdType) (rank bank : Nat) : Nat :=
  l.countP fun p => !p.2 && decide (p.1.type = ty ∧ p.1.rank = rank ∧ p.1.bank = bank)

/-- How many commands of a type are left out in the whole memory. -/
def leftOutAll (ms : MemSpec) (l : List (Cmd × Bool)) (ty : CmdType) : Nat :=
  ((List.range ms.numberOfRanks).map fun i => ((List.range ms.numberOfBanks).map fun b => leftOut l ty i b).sum).sum

/-- The marked trace as the core sees it. -/
def coreMarks (l : List (ICmd × Bool)) : List (Cmd × Bool) := l.map fun p => (p.1.core, p.2)

end DRAMPower.Spec
