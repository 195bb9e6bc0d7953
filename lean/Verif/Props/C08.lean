import Verif.Lemmas.Schedule
import Verif.Lemmas.QueueSearch
import Verif.Props.Examples

/-!
# C08: implicit commands run exactly once, in time order, never early or late
# C11: last command time

The scheduling discipline is `Spec.WellScheduled` (Spec/Schedule.lean).
-/

namespace DRAMPower

open Spec

/-- For every accepted trace with non-decreasing timestamps and every observation time `T` there is an
event log that contains exactly the explicit commands of the trace, obeys the scheduling discipline, and
whose effects, one after the other, produce the state of the simulator at `T`; the last command time is
the time of the latest event that took effect. -/
theorem C08 (std : Std) (ms : MemSpec) (cmds : List Cmd) (ho : Ordered cmds) (c : Core)
    (hr : (Core.init ms).run std ms cmds = .ok c) (T : Nat) (hT : NotBefore cmds T) :
    ∃ log, WellScheduled log T ∧ commands log = cmds ∧
      (∃ n, Replays std ms (fun _ => { nBanks := ms.numberOfBanks }) 0 log (c.getWindowStats std ms T).1.ranks n) ∧
      (c.getWindowStats std ms T).1.lastCommandTime = latest log := by
  obtain ⟨tq, n, log, now, h, hl, hb⟩ := SInv.run (init_sinv std ms) ho (by simp) hr
  have h0 : SInv std ms (Core.init ms).ranks { ranks := c.ranks, queue := tq.map (·.toQ), last := c.last } tq n log now := by
    rw [h.erase]; exact h
  obtain ⟨tq1, log1, h1, hgt, hc1⟩ := SInv.process h0 (hb T (Nat.zero_le _) hT)
  rw [h.erase] at h1
  refine ⟨log1, ⟨h1.numbered, h1.issued, h1.ordered, h1.inTime, ?_⟩, ?_, ⟨n, h1.rep⟩, h1.last⟩
  · intro d hd
    constructor
    · exact h1.past d
    · intro hle
      apply Classical.byContradiction
      intro hne
      have := hgt d ((h1.pend d).2 ⟨hd, hne⟩)
      omega
  · rw [hc1, hl]; simp [commands]

/-- No deferred command takes effect twice (consequence of `ordered`). -/
theorem C08_once (log : List Event) (T : Nat) (h : WellScheduled log T) (d : Deferred) :
    (log.filter (· = .exec d)).length ≤ 1 := by
  have hp := h.ordered.filter (fun e => decide (e = .exec d))
  cases hf : log.filter (fun e => decide (e = .exec d)) with
  | nil => simp
  | cons x l =>
    cases l with
    | nil => simp
    | cons y l =>
      exfalso
      rw [hf] at hp
      have hx : x = .exec d := by
        have : x ∈ log.filter (fun e => decide (e = .exec d)) := by rw [hf]; simp
        simpa using (List.mem_filter.1 this).2
      have hy : y = .exec d := by
        have : y ∈ log.filter (fun e => decide (e = .exec d)) := by rw [hf]; simp
        simpa using (List.mem_filter.1 this).2
      have := (List.pairwise_cons.1 hp).1 y (by simp) d d hx hy
      unfold Deferred.before at this
      omega

/-- The same simulator with the binary search of the library in its queue (`Verif.Model.QueueSearch`): every sequence of commands and queries,
in any order of time, has the same outcome and the same answers. So nothing here depends on how the place in the queue is found. -/
theorem C08_search (std : Std) (ms : MemSpec) (ops : List Op) : (Core.init ms).sessionSearched std ms ops = (Core.init ms).session std ms ops :=
  sessionSearched_eq (by simp [Core.init, Sorted])

/-- On a queue that is not sorted the search would find another place. -/
theorem C08_search_sorted : ∃ e q, addSearched e q ≠ addImplicit e q :=
  ⟨{ t := 2, rank := 0, imp := .pre 0 }, [{ t := 3, rank := 0, imp := .pre 0 }, { t := 1, rank := 0, imp := .pre 0 }], by decide +kernel⟩

/-! ## The hypotheses can be met -/

/-- A trace with pending commands of several ranks, two of them at the same time (bank 0 of rank 0 and
rank 1 at time 13). -/
def c08Trace : List Cmd :=
  [{ t := 0, type := .ACT }, { t := 5, type := .REFA, rank := 1 }, { t := 9, type := .RDA },
   { t := 9, type := .PDEP, rank := 1 }]

example (std : Std) : Ordered c08Trace ∧ NotBefore c08Trace 13 ∧ ((Core.init Ex.ms).run std Ex.ms c08Trace).isOk = true ∧
    (match (Core.init Ex.ms).run std Ex.ms c08Trace with | .ok c => c.queue.map (·.t) | _ => []) = [13, 13, 13, 13, 13, 13] := by
  refine ⟨?_, ?_, ?_, ?_⟩ <;> cases std <;> decide +kernel

/-- A session with six entries in the queue, all executed by the query. -/
example (std : Std) : (match (Core.init Ex.ms).sessionSearched std Ex.ms (c08Trace.map .cmd) with | .ok x => x.1.queue.length | _ => 0) = 6 ∧
    (match (Core.init Ex.ms).sessionSearched std Ex.ms (c08Trace.map .cmd ++ [.query 13]) with | .ok x => (x.1.queue.length, x.1.last) | _ => (1, 0)) =
      (0, 13) := by
  cases std <;> decide +kernel

end DRAMPower
