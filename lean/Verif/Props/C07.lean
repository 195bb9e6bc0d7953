import Verif.Sim.Trace
import Verif.Props.Examples

/-!
# C07: ranks are independent
-/

namespace DRAMPower

open Spec

/-- What `getWindowStats` reports about rank `i`: its entry of `rank_total` and its banks. -/
def rankView (ms : MemSpec) (s : CoreStats) (i : Nat) : Option Cycles × (Nat → Option BankStats) :=
  (s.rankTotal[i]?, fun b => if b < ms.numberOfBanks then s.bank[i * ms.numberOfBanks + b]? else none)

theorem rankView_eq {std ms c t i} (hi : i < ms.numberOfRanks) :
    rankView ms (Core.getWindowStats std ms c t).2 i = (some (rankStats std ((c.process std t).ranks i) t),
      fun b => if b < ms.numberOfBanks then some (bankStats std ((c.process std t).ranks i) t b) else none) := by
  unfold rankView
  rw [stats_rank hi]
  congr 1
  funext b
  split
  · rename_i hb; exact stats_bank hi hb
  · rfl

/-- Two accepted traces that contain the same commands for rank `i` report the same about it. -/
theorem C07_same_commands (std : Std) (ms : MemSpec) (cmds cmds' : List Cmd) (ho : Ordered cmds) (ho' : Ordered cmds')
    (i : Nat) (hi : i < ms.numberOfRanks) (he : forRank std i cmds = forRank std i cmds')
    (c c' : Core) (hc : (Core.init ms).run std ms cmds = .ok c) (hc' : (Core.init ms).run std ms cmds' = .ok c')
    (t : Nat) (ht : NotBefore cmds t) (ht' : NotBefore cmds' t) :
    rankView ms (c.getWindowStats std ms t).2 i = rankView ms (c'.getWindowStats std ms t).2 i := by
  obtain ⟨_, s, h1, h2⟩ := run_rank ho hc i
  obtain ⟨_, s', h1', h2'⟩ := run_rank ho' hc' i
  rw [he, h1'] at h1
  injection h1 with h1
  have : (c.process std t).ranks i = (c'.process std t).ranks i := by
    have := (h2 t ht).trans ((congrArg (rproc std t) h1.symm).trans (h2' t ht').symm)
    exact congrArg Prod.fst this
  rw [rankView_eq hi, rankView_eq hi, this]

theorem forRank_filter (std : Std) (i j : Nat) (cmds : List Cmd) :
    forRank std j (cmds.filter fun c => c.rank = i) = if i = j then forRank std j cmds else [] := by
  unfold forRank
  rw [List.filter_filter]
  split
  · rename_i h
    subst h
    congr 1; funext c
    by_cases hc : c.rank = i <;> simp [hc]
  · rename_i h
    rw [List.filter_eq_nil_iff]
    intro c _
    by_cases hc : c.rank = i
    · simp [hc, h]
    · simp [hc]

/-- Dropping all commands to other ranks from an accepted trace leaves an accepted trace that reports the
same about rank `i` at every window end. -/
theorem C07_drop_other_ranks (std : Std) (ms : MemSpec) (cmds : List Cmd) (ho : Ordered cmds)
    (c : Core) (hc : (Core.init ms).run std ms cmds = .ok c) (i : Nat) (hi : i < ms.numberOfRanks) :
    ∃ c', (Core.init ms).run std ms (cmds.filter fun c => c.rank = i) = .ok c' ∧
      ∀ t, NotBefore cmds t →
        rankView ms (c.getWindowStats std ms t).2 i = rankView ms (c'.getWindowStats std ms t).2 i := by
  have ho' : Ordered (cmds.filter fun c => c.rank = i) := List.Pairwise.filter _ ho
  have hok : ∃ c', (Core.init ms).run std ms (cmds.filter fun c => c.rank = i) = .ok c' := by
    refine run_ok (T := 0) (s := fun _ => ({ nBanks := ms.numberOfBanks }, [])) (init_sorted ms) ho'.times
      (fun _ _ => rfl) ?_ ?_
    · intro cmd hcmd
      have := (List.mem_filter.1 hcmd).2
      simp only [decide_eq_true_eq] at this
      exact .inr (by omega)
    · intro j _
      rw [rankCmds_eq, forRank_filter]
      split
      · rename_i h; subst h
        obtain ⟨_, s, h1, _⟩ := run_rank ho hc i
        exact ⟨s, h1⟩
      · exact ⟨_, rfl⟩
  obtain ⟨c', hc'⟩ := hok
  refine ⟨c', hc', ?_⟩
  intro t ht
  refine C07_same_commands std ms cmds _ ho ho' i hi ?_ c c' hc hc' t ht (fun x hx => ht x (List.mem_filter.1 hx).1)
  rw [forRank_filter, if_pos rfl]

/-! ## The hypotheses can be met -/

example (std : Std) : Ordered Ex.traffic ∧ ((Core.init Ex.ms).run std Ex.ms Ex.traffic).isOk = true ∧
    (Ex.traffic.filter fun c => c.rank = 1).length = 5 ∧ (Ex.traffic.filter fun c => c.rank = 0).length = 8 := by
  refine ⟨?_, ?_, ?_, ?_⟩ <;> cases std <;> decide +kernel

/-- The theorem also covers accepted traces that are not legal, e.g. an ACT to an open bank. -/
example (std : Std) : ((Core.init Ex.ms).run std Ex.ms [{ t := 0, type := .ACT }, { t := 1, type := .ACT },
    { t := 1, type := .RD, rank := 1 }]).isOk = true := by cases std <;> decide +kernel

end DRAMPower
