import Verif.Spec.Timeline

/-!
# A precharge power-down more

Two traces that differ by one precharge power-down of a rank, and what that may change.
-/

namespace DRAMPower.Spec

/-- `E` and `X` request entry to and exit from a precharge power-down; the commands `m` between them are not for the rank. -/
structure Naps (std : Std) (E X : Cmd) (m : List Cmd) : Prop where
  entry : E.type = .PDEP
  exit : X.type = .PDXP
  rank : X.rank = E.rank
  others : ∀ c ∈ m, c.rank ≠ E.rank ∨ unaddressed std c.type = true

/-- Cycles before `t` from the entry to the exit of the power-down, each at the earliest permitted time; `l` are the commands before. -/
def asleep (std : Std) (ms : MemSpec) (l : List Cmd) (E X : Cmd) (t : Nat) : Nat :=
  let s := (forRank std E.rank l).foldl (apply std ms) {}
  min t (pdTime std ms (s.settle X.t) X.t) - pdTime std ms (s.settle E.t) E.t

/-- `y` has `n` cycles in precharge power-down which `x` has in precharge standby; nothing else differs. -/
structure Moved (n : Nat) (x y : Cycles) : Prop where
  pre : x.pre = y.pre + n
  powerDownPre : y.powerDownPre = x.powerDownPre + n
  act : y.act = x.act
  powerDownAct : y.powerDownAct = x.powerDownAct
  selfRefresh : y.selfRefresh = x.selfRefresh
  deepSleepMode : y.deepSleepMode = x.deepSleepMode

end DRAMPower.Spec
