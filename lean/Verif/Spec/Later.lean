import Mathlib.Data.List.Forall2
import Verif.Model.Core

/-!
# The same trace at a later time

What it means that two traces, and the statistics of two cores, differ only in when they start.
-/

namespace DRAMPower

/-- The same commands, every one `d` cycles later. -/
def later (d : Nat) (cmds : List Cmd) : List Cmd := cmds.map fun c => { c with t := c.t + d }

/-- Every read or write with auto-precharge is preceded by an activation of its bank (not necessarily a legal one). -/
def OpensFirst (cmds : List Cmd) : Prop :=
  ∀ before c after, cmds = before ++ c :: after → c.type = .RDA ∨ c.type = .WRA →
    ∃ a ∈ before, a.type = .ACT ∧ a.rank = c.rank ∧ a.bank = c.bank

/-- No command at time 0, or none that leaves the active power-down (DDR4 needs neither). -/
def NotAtZero (std : Std) (cmds : List Cmd) : Prop :=
  std = .ddr4 ∨ (∀ c ∈ cmds, c.type ≠ .PDXA) ∨ ∀ c ∈ cmds, 0 < c.t

/-- The reported cycles up to `t` and those of the run that is `d` later up to `t + d`: all times agree but the time in precharged
standby, which is `d` longer. (`pre` is computed as `t` minus the other times; the equation for it is claimed when that
difference is not negative.) -/
def CyclesLater (d t : Nat) (x y : Cycles) : Prop :=
  y.act = x.act ∧ y.powerDownAct = x.powerDownAct ∧ y.powerDownPre = x.powerDownPre ∧ y.selfRefresh = x.selfRefresh ∧
    y.deepSleepMode = x.deepSleepMode ∧
    (x.act + x.powerDownAct + x.powerDownPre + x.selfRefresh + x.deepSleepMode ≤ t → y.pre = x.pre + d)

/-- The same for whole statistics: equally many banks and ranks, pairwise equal counters, pairwise `CyclesLater`. -/
def StatsLater (d t : Nat) (x y : CoreStats) : Prop :=
  List.Forall₂ (fun a b => b.counter = a.counter ∧ CyclesLater d t a.cycles b.cycles) x.bank y.bank ∧
    List.Forall₂ (CyclesLater d t) x.rankTotal y.rankTotal

end DRAMPower
