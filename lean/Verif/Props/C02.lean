import Verif.Sim.Trace
import Verif.Props.Examples

/-!
# C02: per-rank cycle accounting is exact

`Spec.rankTime` counts cycles of the reference timeline: a rank is active while at least one of its
banks is open or refreshing and the rank is in no low-power mode.
-/

namespace DRAMPower

open Spec

/-- Full statement. -/
def C02_statement (std : Std) : Prop :=
  ∀ ms cmds, ValidSpec std ms → LegalTrace std ms cmds →
  ∀ c, (Core.init ms).run std ms cmds = .ok c →
  ∀ t, NotBefore cmds t → ∀ i < ms.numberOfRanks,
    (c.getWindowStats std ms t).2.rankTotal[i]? =
      some (cycles fun k => rankTime std ms (forRank std i cmds) k t)

/-- Missing from the full statement: the active power-down situations excluded by `benignCmd`
(not DDR4), for which it is false (`C02_violation`). -/
theorem C02_partial (std : Std) (ms : MemSpec) (cmds : List Cmd) (hv : ValidSpec std ms)
    (ht : TameTrace std ms cmds) (c : Core) (hr : (Core.init ms).run std ms cmds = .ok c)
    (t : Nat) (hT : NotBefore cmds t) (i : Nat) (hi : i < ms.numberOfRanks) :
    (c.getWindowStats std ms t).2.rankTotal[i]? =
      some (cycles fun k => rankTime std ms (forRank std i cmds) k t) := by
  obtain ⟨σ, ent, hR, _, _⟩ := tame_rel hv ht hr hT hi
  rw [stats_rank hi, rankStats_eq (ht.tame i hi) hR]

/-- DDR4: the full statement. -/
theorem C02_ddr4 : C02_statement .ddr4 := by
  intro ms cmds hv hl c hr t hT i hi
  exact C02_partial .ddr4 ms cmds hv (legal_tame_ddr4 hl) c hr t hT i hi

/-- All standards: every legal trace without active power-down. -/
theorem C02_noActivePowerDown (std : Std) (ms : MemSpec) (cmds : List Cmd) (hv : ValidSpec std ms)
    (hl : LegalTrace std ms cmds) (hn : ∀ c ∈ cmds, c.type ≠ .PDEA)
    (c : Core) (hr : (Core.init ms).run std ms cmds = .ok c)
    (t : Nat) (hT : NotBefore cmds t) (i : Nat) (hi : i < ms.numberOfRanks) :
    (c.getWindowStats std ms t).2.rankTotal[i]? =
      some (cycles fun k => rankTime std ms (forRank std i cmds) k t) :=
  C02_partial std ms cmds hv (legal_tame_noPda hl hn) c hr t hT i hi

/-- The rank category `act` is the union of the banks' `act` phases: nothing else is hidden in
`rankCategory`. -/
theorem C02_timeline_union (std : Std) (ms : MemSpec) (h : List Cmd) (τ : Nat) :
    rankCategory std ms h τ = .act ↔ ∃ b < ms.numberOfBanks, category std ms h b τ = .act := by
  unfold rankCategory category rankCat bankCat
  cases hl : (stateAt std ms h τ).mode.low τ with
  | none =>
    simp only [Option.getD_none]
    constructor
    · intro hh
      split at hh
      · rename_i he
        obtain ⟨b, hb, ho⟩ := he
        exact ⟨b, hb, by rw [if_pos ho]⟩
      · simp at hh
    · rintro ⟨b, hb, hh⟩
      rw [if_pos]
      refine ⟨b, hb, ?_⟩
      split at hh
      · assumption
      · simp at hh
  | some k =>
    simp only [Option.getD_some]
    have hk : k ≠ .act := by
      intro h'; subst h'
      unfold Mode.low at hl
      split at hl
      · simp at hl
      · split at hl
        · rw [Option.some_inj] at hl; split at hl <;> simp at hl
        · simp at hl
      · split at hl <;> simp at hl
      · simp at hl
    constructor
    · intro h'; exact absurd h' hk
    · rintro ⟨_, _, h'⟩; exact h'

/-- Some core accepts the trace and reports figures for rank 0 that differ from the timeline. -/
def c02Wrong (std : Std) (ms : MemSpec) (cmds : List Cmd) (t : Nat) : Bool :=
  match (Core.init ms).run std ms cmds with
  | .ok c => decide ((c.getWindowStats std ms t).2.rankTotal[0]? ≠
      some (cycles fun k => rankTime std ms (forRank std 0 cmds) k t))
  | .error _ => false

theorem c02_refute {std ms cmds t} (hv : ValidSpec std ms) (hl : LegalTrace std ms cmds) (hT : NotBefore cmds t)
    (hi : 0 < ms.numberOfRanks) (hw : c02Wrong std ms cmds t = true) : ¬ C02_statement std := by
  intro h
  unfold c02Wrong at hw
  split at hw
  · rename_i c hc
    simp [h ms cmds hv hl c hc t hT 0 hi] at hw
  · simp at hw

/-- DDR5, LPDDR4, LPDDR5, LPDDR6: false in general; after the power-down the rank is counted as
active although all its banks are precharged. -/
theorem C02_violation (std : Std) (hs : std ≠ .ddr4) : ¬ C02_statement std := by
  cases std
  · exact absurd rfl hs
  all_goals
    refine c02_refute (ms := Ex.ms) (cmds := Ex.refreshThenPd) (t := 60) ?_ ?_ ?_ ?_ ?_ <;> decide +kernel

/-! ## The hypotheses can be met -/

example (std : Std) : ValidSpec std Ex.ms ∧ LegalTrace std Ex.ms Ex.traffic ∧ (∀ c ∈ Ex.traffic, c.type ≠ .PDEA) ∧
    TameTrace std Ex.ms Ex.activePd ∧ NotBefore Ex.traffic 50 := by
  refine ⟨?_, ?_, ?_, ?_, ?_⟩ <;> cases std <;> decide +kernel

example : (match (Core.init Ex.ms).run .lpddr6 Ex.ms Ex.activePd with
    | .ok c => (c.getWindowStats .lpddr6 Ex.ms 50).2.rankTotal[0]?
    | .error _ => none) = some { act := 21, pre := 24, powerDownAct := 5 } := by decide +kernel

end DRAMPower
