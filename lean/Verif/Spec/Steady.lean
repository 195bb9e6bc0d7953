import Verif.Model.Interface

/-!
# A memory left alone

Nobody sends commands any more. What one cycle of waiting adds to the statistics.
-/

namespace DRAMPower.Spec

/-- Statistics that start with `b` and to which each of `n` cycles adds `d`. -/
def grown (b d : SimStats) : Nat → SimStats
  | 0 => b
  | n + 1 => (grown b d n).add d

/-- `k` cycles, each in one state, and nothing counted. -/
def Waits (k : Nat) (c : CycleStats) : Prop :=
  c.counter = {} ∧ c.prepos = {} ∧
  c.cycles.act + c.cycles.pre + c.cycles.powerDownAct + c.cycles.powerDownPre + c.cycles.selfRefresh + c.cycles.deepSleepMode = k

instance (k : Nat) (c : CycleStats) : Decidable (Waits k c) := by unfold Waits; infer_instance

/-- Statistics of `k` cycles of waiting: every bank and every rank is in one state in each of them, no command is counted. -/
structure Waited (k ranks banks : Nat) (d : SimStats) : Prop where
  bank : ∀ c ∈ d.bank, Waits k c
  rank : ∀ c ∈ d.rankTotal, Waits k c
  banks : d.bank.length = ranks * banks
  ranks : d.rankTotal.length = ranks

/-- A data clock that never stops has an even number of levels per cycle (`floor` in the count would otherwise make odd and even cycles differ). -/
def EvenDataClock (std : Std) (sp : IfSpec) : Prop :=
  std = .lpddr5 ∨ std = .lpddr6 → sp.wckAlwaysOn = true → 2 ∣ sp.dataRate / sp.wckToCk

instance (std : Std) (sp : IfSpec) : Decidable (EvenDataClock std sp) := by unfold EvenDataClock; infer_instance

end DRAMPower.Spec
