import Verif.Model.Session

/-!
# The queue of implicit commands with the binary search of the library

`Verif.Model.Core` inserts in front of the first later entry. The code uses `std::upper_bound` (util/ImplicitCommandHandler.h 21-23), a binary
search, which finds some place on a queue that is not sorted. Here is the core with that search, written as in libstdc++ (`std::__upper_bound`,
bits/stl_algo.h; not code of the repository). `C08_search` shows that no call can tell the difference.

Paths in comments are relative to `/repo/src/DRAMPower/DRAMPower/`.
-/

namespace DRAMPower

/-- `std::upper_bound` on the positions from `first` on, `len` of them; `later i`: the entry at `i` is later than the new one. -/
def upperBound (later : Nat → Bool) (first len : Nat) : Nat :=
  if len = 0 then first
  else if later (first + len / 2) then upperBound later first (len / 2)
  else upperBound later (first + len / 2 + 1) (len - len / 2 - 1)
termination_by len
decreasing_by all_goals omega

/-- `details::addImplicitCommand` (util/ImplicitCommandHandler.h 16-26). -/
def addSearched (e : QEntry) (q : List QEntry) : List QEntry :=
  let k := upperBound (fun i => match q[i]? with | some x => decide (e.t < x.t) | none => true) 0 q.length
  q.take k ++ e :: q.drop k

/-- `enqueue` with the search. -/
def enqueueSearched (rank : Nat) (imps : List (Nat × Imp)) (q : List QEntry) : List QEntry :=
  imps.foldl (fun q i => addSearched { t := i.1, rank := rank, imp := i.2 } q) q

/-- `doCommand` with the search (the lines of `Core.doCommand`). -/
def Core.doCommandSearched (std : Std) (ms : MemSpec) (c : Core) (cmd : Cmd) : Except Err Core :=
  let c := c.process std cmd.t
  let c := { c with last := max cmd.t c.last }
  if isNoEffect std cmd.type then .ok c
  else if cmd.rank < ms.numberOfRanks then
    match handle std ms (c.ranks cmd.rank) cmd with
    | .ok (r, imps) => .ok { c with ranks := upd c.ranks cmd.rank r, queue := enqueueSearched cmd.rank imps c.queue }
    | .error e => .error e
  else .error (.assertion "ranks.size()>cmd.targetCoordinate.rank")

/-- A sequence of calls with the search (as `Core.session`). -/
def Core.sessionSearched (std : Std) (ms : MemSpec) (c : Core) : List Op → Except Err (Core × List CoreStats)
  | [] => .ok (c, [])
  | .cmd cmd :: ops => match c.doCommandSearched std ms cmd with
    | .ok c => c.sessionSearched std ms ops
    | .error e => .error e
  | .query t :: ops =>
    match (c.getWindowStats std ms t).1.sessionSearched std ms ops with
    | .ok (c', ans) => .ok (c', (c.getWindowStats std ms t).2 :: ans)
    | .error e => .error e

end DRAMPower
