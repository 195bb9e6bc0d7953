import Verif.Sim.Trace
import Verif.Props.Examples

/-!
# C01: per-bank cycle accounting is exact

`Spec.bankTime` counts the cycles of the reference timeline of `Spec/Timeline.lean`.
-/

namespace DRAMPower

open Spec

/-- Full statement: after a legal trace, the cycle figures reported for every bank and every window
end are the numbers of cycles the bank spends in each state on the reference timeline. -/
def C01_statement (std : Std) : Prop :=
  ∀ ms cmds, ValidSpec std ms → LegalTrace std ms cmds →
  ∀ c, (Core.init ms).run std ms cmds = .ok c →
  ∀ t, NotBefore cmds t → ∀ i < ms.numberOfRanks, ∀ b < ms.numberOfBanks,
    ((c.getWindowStats std ms t).2.bank[i * ms.numberOfBanks + b]?).map (·.cycles) =
      some (cycles fun k => bankTime std ms (forRank std i cmds) b k t)

/-- The same for traces without the power-down situations excluded by `benignCmd`. Missing from the
full statement: active power-down entered while an auto-precharge is pending, exactly at a refresh
end, or (LPDDR6) without open bank; there the full statement is false (`C01_violation`). -/
theorem C01_partial (std : Std) (ms : MemSpec) (cmds : List Cmd) (hv : ValidSpec std ms)
    (ht : TameTrace std ms cmds) (c : Core) (hr : (Core.init ms).run std ms cmds = .ok c)
    (t : Nat) (hT : NotBefore cmds t) (i : Nat) (hi : i < ms.numberOfRanks) (b : Nat) (hb : b < ms.numberOfBanks) :
    ((c.getWindowStats std ms t).2.bank[i * ms.numberOfBanks + b]?).map (·.cycles) =
      some (cycles fun k => bankTime std ms (forRank std i cmds) b k t) := by
  obtain ⟨σ, ent, hR, _, _⟩ := tame_rel hv ht hr hT hi
  rw [stats_bank hi hb, Option.map_some, bankStats_eq (ht.tame i hi) hR hb]

/-- DDR4: the full statement. -/
theorem C01_ddr4 : C01_statement .ddr4 := by
  intro ms cmds hv hl c hr t hT i hi b hb
  exact C01_partial .ddr4 ms cmds hv (legal_tame_ddr4 hl) c hr t hT i hi b hb

/-- All standards: every legal trace without active power-down. -/
theorem C01_noActivePowerDown (std : Std) (ms : MemSpec) (cmds : List Cmd) (hv : ValidSpec std ms)
    (hl : LegalTrace std ms cmds) (hn : ∀ c ∈ cmds, c.type ≠ .PDEA)
    (c : Core) (hr : (Core.init ms).run std ms cmds = .ok c)
    (t : Nat) (hT : NotBefore cmds t) (i : Nat) (hi : i < ms.numberOfRanks) (b : Nat) (hb : b < ms.numberOfBanks) :
    ((c.getWindowStats std ms t).2.bank[i * ms.numberOfBanks + b]?).map (·.cycles) =
      some (cycles fun k => bankTime std ms (forRank std i cmds) b k t) :=
  C01_partial std ms cmds hv (legal_tame_noPda hl hn) c hr t hT i hi b hb

/-- Some core accepts the trace and reports figures for bank `b` of rank 0 that differ from the
timeline at time `t`. -/
def c01Wrong (std : Std) (ms : MemSpec) (cmds : List Cmd) (b t : Nat) : Bool :=
  match (Core.init ms).run std ms cmds with
  | .ok c => decide (((c.getWindowStats std ms t).2.bank[b]?).map (·.cycles) ≠
      some (cycles fun k => bankTime std ms (forRank std 0 cmds) b k t))
  | .error _ => false

theorem c01_refute {std ms cmds b t} (hv : ValidSpec std ms) (hl : LegalTrace std ms cmds) (hT : NotBefore cmds t)
    (hi : 0 < ms.numberOfRanks) (hb : b < ms.numberOfBanks) (hw : c01Wrong std ms cmds b t = true) :
    ¬ C01_statement std := by
  intro h
  unfold c01Wrong at hw
  split at hw
  · rename_i c hc
    have := h ms cmds hv hl c hc t hT 0 hi b hb
    rw [Nat.zero_mul, Nat.zero_add] at this
    simp [this] at hw
  · simp at hw

/-- DDR5, LPDDR4, LPDDR5, LPDDR6: false in general. A bank whose refresh ends exactly when an active
power-down begins is counted as active again after the power-down, for ever. -/
theorem C01_violation (std : Std) (hs : std ≠ .ddr4) : ¬ C01_statement std := by
  cases std
  · exact absurd rfl hs
  all_goals
    refine c01_refute (ms := Ex.ms) (cmds := Ex.refreshThenPd) (b := 0) (t := 60) ?_ ?_ ?_ ?_ ?_ ?_ <;> decide +kernel

/-- Another way to violate it: an auto-precharge that falls into an active power-down. -/
theorem C01_violation' (std : Std) (hs : std ≠ .ddr4) : ¬ C01_statement std := by
  cases std
  · exact absurd rfl hs
  all_goals
    refine c01_refute (ms := Ex.ms) (cmds := Ex.autoPreInPd) (b := 0) (t := 60) ?_ ?_ ?_ ?_ ?_ ?_ <;> decide +kernel

/-! ## The hypotheses can be met -/

/-- Traffic on two ranks is legal for every standard and accepted; some figures. -/
example (std : Std) : ValidSpec std Ex.ms ∧ LegalTrace std Ex.ms Ex.traffic ∧ (∀ c ∈ Ex.traffic, c.type ≠ .PDEA) ∧
    NotBefore Ex.traffic 50 := by
  refine ⟨?_, ?_, ?_, ?_⟩ <;> cases std <;> decide +kernel

example (std : Std) : ValidSpec std Ex.ms ∧ TameTrace std Ex.ms Ex.activePd ∧ NotBefore Ex.activePd 50 := by
  refine ⟨?_, ?_, ?_⟩ <;> cases std <;> decide +kernel

example : (match (Core.init Ex.ms).run .ddr5 Ex.ms Ex.activePd with
    | .ok c => (c.getWindowStats .ddr5 Ex.ms 50).2.bank[0]?.map (·.cycles)
    | .error _ => none) = some { act := 20, pre := 24, powerDownAct := 6 } := by decide +kernel

/-- DDR4 traces with any active power-down. -/
example : LegalTrace .ddr4 Ex.ms Ex.autoPreInPd ∧ ¬ TameTrace .ddr5 Ex.ms Ex.autoPreInPd := by
  constructor <;> decide +kernel

end DRAMPower
