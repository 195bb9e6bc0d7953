import Verif.Sim.Trace
import Verif.Props.Examples

/-!
# C03: the reported cycles add up to the window, no unsigned underflow

The model computes `pre` (and `selfRefresh`) with a subtraction that wraps modulo 2^64 (`usub`), so a
wrapped value shows up as a sum that is larger than the window.
-/

namespace DRAMPower

open Spec

/-- Sum of all reported figures. -/
def Cycles.sum (c : Cycles) : Nat :=
  c.act + c.pre + c.powerDownAct + c.powerDownPre + c.selfRefresh + c.deepSleepMode

/-- Full statement. -/
def C03_statement (std : Std) : Prop :=
  ∀ ms cmds, ValidSpec std ms → LegalTrace std ms cmds →
  ∀ c, (Core.init ms).run std ms cmds = .ok c → ∀ t, NotBefore cmds t →
    (∀ x ∈ (c.getWindowStats std ms t).2.bank, x.cycles.sum = t) ∧
    (∀ x ∈ (c.getWindowStats std ms t).2.rankTotal, x.sum = t)

/-- Missing from the full statement: the active power-down situations excluded by `benignCmd`
(not DDR4), for which it is false (`C03_violation`). -/
theorem C03_partial (std : Std) (ms : MemSpec) (cmds : List Cmd) (hv : ValidSpec std ms)
    (ht : TameTrace std ms cmds) (c : Core) (hr : (Core.init ms).run std ms cmds = .ok c)
    (t : Nat) (hT : NotBefore cmds t) :
    (∀ x ∈ (c.getWindowStats std ms t).2.bank, x.cycles.sum = t) ∧
    (∀ x ∈ (c.getWindowStats std ms t).2.rankTotal, x.sum = t) := by
  constructor
  · intro x hx
    simp only [Core.getWindowStats, Core.statsAt, List.mem_flatMap, List.mem_map, List.mem_range] at hx
    obtain ⟨i, hi, b, hb, rfl⟩ := hx
    obtain ⟨σ, ent, hR, _, _⟩ := tame_rel hv ht hr hT hi
    rw [bankStats_eq (ht.tame i hi) hR hb]
    exact count_partition (category std ms (forRank std i cmds) b) t
  · intro x hx
    simp only [Core.getWindowStats, Core.statsAt, List.mem_map, List.mem_range] at hx
    obtain ⟨i, hi, rfl⟩ := hx
    obtain ⟨σ, ent, hR, _, _⟩ := tame_rel hv ht hr hT hi
    rw [rankStats_eq (ht.tame i hi) hR]
    exact count_partition (rankCategory std ms (forRank std i cmds)) t

/-- DDR4: the full statement. -/
theorem C03_ddr4 : C03_statement .ddr4 := by
  intro ms cmds hv hl c hr t hT
  exact C03_partial .ddr4 ms cmds hv (legal_tame_ddr4 hl) c hr t hT

/-- All standards: every legal trace without active power-down. -/
theorem C03_noActivePowerDown (std : Std) (ms : MemSpec) (cmds : List Cmd) (hv : ValidSpec std ms)
    (hl : LegalTrace std ms cmds) (hn : ∀ c ∈ cmds, c.type ≠ .PDEA)
    (c : Core) (hr : (Core.init ms).run std ms cmds = .ok c) (t : Nat) (hT : NotBefore cmds t) :
    (∀ x ∈ (c.getWindowStats std ms t).2.bank, x.cycles.sum = t) ∧
    (∀ x ∈ (c.getWindowStats std ms t).2.rankTotal, x.sum = t) :=
  C03_partial std ms cmds hv (legal_tame_noPda hl hn) c hr t hT

/-- A wrapped subtraction cannot be part of figures that add up: if the sum of the other figures
exceeded `t`, the reported `pre` would be at least `2^64 - sum` and the total larger than `t`. -/
theorem C03_wrap_visible (t used : Nat) (h : t < used) : usub t used + used ≠ t := by
  unfold usub
  split <;> omega

/-- `refreshThenPd` followed by a precharge power-down. -/
def c03Trace : List Cmd := Ex.refreshThenPd ++ [{ t := 50, type := .PDEP }]

/-- Figures of bank 0 of rank 0 at time `t`, if the trace is accepted. -/
def bank0At (std : Std) (ms : MemSpec) (cmds : List Cmd) (t : Nat) : Option Cycles :=
  match (Core.init ms).run std ms cmds with
  | .ok c => ((c.getWindowStats std ms t).2.bank[0]?).map (·.cycles)
  | .error _ => none

/-- DDR5, LPDDR4, LPDDR5, LPDDR6: false in general; the precharged time wraps around. -/
theorem C03_violation (std : Std) (hs : std ≠ .ddr4) : ¬ C03_statement std := by
  intro h
  have hw : bank0At std Ex.ms c03Trace 200 =
      some { act := 178, pre := 2 ^ 64 + 200 - 340, powerDownAct := 12, powerDownPre := 150 } := by
    cases std
    · exact absurd rfl hs
    all_goals decide +kernel
  unfold bank0At at hw
  split at hw
  · rename_i c hc
    have h1 := (h Ex.ms c03Trace (by cases std <;> decide +kernel) (by cases std <;> decide +kernel) c hc 200
      (by decide +kernel)).1
    obtain ⟨x, hx, hx'⟩ := Option.map_eq_some_iff.1 hw
    have := h1 x (List.mem_of_getElem? hx)
    rw [hx'] at this
    revert this
    decide
  · simp at hw

/-! ## The hypotheses can be met -/

example (std : Std) : ValidSpec std Ex.ms ∧ LegalTrace std Ex.ms Ex.traffic ∧ (∀ c ∈ Ex.traffic, c.type ≠ .PDEA) ∧
    TameTrace std Ex.ms Ex.activePd ∧ NotBefore Ex.traffic 50 ∧ ((Core.init Ex.ms).run std Ex.ms Ex.traffic).isOk = true := by
  refine ⟨?_, ?_, ?_, ?_, ?_, ?_⟩ <;> cases std <;> decide +kernel

end DRAMPower
