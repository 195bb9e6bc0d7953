import Verif.Props.C09
import Verif.Props.C03

/-!
# C12: window statistics are monotone in time
-/

namespace DRAMPower

open Spec

/-- Component-wise order. -/
def Cycles.le (a b : Cycles) : Prop :=
  a.act ≤ b.act ∧ a.pre ≤ b.pre ∧ a.powerDownAct ≤ b.powerDownAct ∧ a.powerDownPre ≤ b.powerDownPre ∧
  a.selfRefresh ≤ b.selfRefresh ∧ a.deepSleepMode ≤ b.deepSleepMode

instance (a b : Cycles) : Decidable (a.le b) := by unfold Cycles.le; infer_instance

/-- Component-wise order. -/
def Counters.le (a b : Counters) : Prop :=
  a.act ≤ b.act ∧ a.pre ≤ b.pre ∧ a.reads ≤ b.reads ∧ a.writes ≤ b.writes ∧ a.refAllBank ≤ b.refAllBank ∧
  a.refPerBank ≤ b.refPerBank ∧ a.refPerTwoBanks ≤ b.refPerTwoBanks ∧ a.refDualBanks ≤ b.refDualBanks ∧
  a.refSameBank ≤ b.refSameBank ∧ a.readAuto ≤ b.readAuto ∧ a.writeAuto ≤ b.writeAuto

instance (a b : Counters) : Decidable (a.le b) := by unfold Counters.le; infer_instance

/-- Full statement: for all windows `t ≤ t'` after the last command, every counter and every figure of every bank and
rank is at most as large at `t` as at `t'`, and the figures together grow by `t' - t`. -/
def C12_statement (std : Std) : Prop :=
  ∀ ms cmds, ValidSpec std ms → LegalTrace std ms cmds →
  ∀ c, (Core.init ms).run std ms cmds = .ok c → ∀ t t', NotBefore cmds t → t ≤ t' →
    (∀ i < ms.numberOfRanks, ∀ b < ms.numberOfBanks, ∃ x x',
      (c.getWindowStats std ms t).2.bank[i * ms.numberOfBanks + b]? = some x ∧
      (c.getWindowStats std ms t').2.bank[i * ms.numberOfBanks + b]? = some x' ∧
      x.counter.le x'.counter ∧ x.cycles.le x'.cycles ∧ x'.cycles.sum = x.cycles.sum + (t' - t)) ∧
    (∀ i < ms.numberOfRanks, ∃ x x',
      (c.getWindowStats std ms t).2.rankTotal[i]? = some x ∧ (c.getWindowStats std ms t').2.rankTotal[i]? = some x' ∧
      x.le x' ∧ x'.sum = x.sum + (t' - t))

theorem countP_range_mono {p : Nat → Bool} {t t' : Nat} (h : t ≤ t') : (List.range t).countP p ≤ (List.range t').countP p := by
  obtain ⟨k, rfl⟩ := Nat.le.dest h
  rw [List.range_add, List.countP_append]
  omega

theorem cycles_mono {f : Nat → Cat} {t t' : Nat} (h : t ≤ t') :
    (cycles fun k => (List.range t).countP fun τ => decide (f τ = k)).le (cycles fun k => (List.range t').countP fun τ => decide (f τ = k)) :=
  ⟨countP_range_mono h, countP_range_mono h, countP_range_mono h, countP_range_mono h, countP_range_mono h, countP_range_mono h⟩

theorem exec_pre_mono (std : Std) (r : Rank) (t : Nat) (i : Imp) (b : Nat) :
    (r.banks b).counter.pre ≤ ((exec std r t i).banks b).counter.pre := by
  cases i with
  | pre b' =>
    simp only [exec]
    rw [handlePre_banks]
    split
    · rename_i h; subst h
      unfold Bank.prech
      split
      · exact Nat.le_refl _
      · simp
    · exact Nat.le_refl _
  | refEnd b' =>
    have : ∀ (p : Prop) [Decidable p] (x : Bank) (a : Interval), x.counter = (r.banks b').counter →
        ((if p then r.setBank b' x else { r.setBank b' x with act := a }).banks b).counter = (r.banks b).counter := by
      intro p _ x a hx
      split <;> (simp only [Rank.setBank, upd]; split)
      · rename_i h; rw [h, hx]
      · rfl
      · rename_i h; rw [h, hx]
      · rfl
    cases std <;> simp only [exec, DDR4.execRefEnd, Shared.execRefEnd] <;> rw [this _ _ _ (by rfl)] <;> exact Nat.le_refl _
  | srefEnter => exact Nat.le_refl _
  | pdaEnter =>
    cases std <;> simp only [exec, DDR4.execPdaEnter, Shared.execPdaEnter] <;>
      rw [mapBanks_counter (by intro x; rfl) b] <;> exact Nat.le_refl _
  | pdaExit =>
    cases std <;> simp only [exec, DDR4.execPdaExit, Shared.execPdaExit, LPDDR6.execPdaExit] <;>
      (try split) <;> rw [mapBanks_counter (by intro x; split <;> rfl) b] <;> exact Nat.le_refl _
  | pdpEnter =>
    cases std <;> simp only [exec, DDR4.execPdpEnter, Shared.execPdpEnter] <;>
      (try rw [mapBanks_counter (by intro x; rfl) b]) <;> exact Nat.le_refl _
  | pdpExit =>
    cases std <;> simp only [exec, DDR4.execPdpExit, Shared.execPdpExit] <;>
      (try rw [mapBanks_counter (by intro x; split <;> rfl) b]) <;> exact Nat.le_refl _

theorem processQ_pre_mono {std t} {q : List QEntry} : ∀ {ranks last} (i b : Nat),
    ((ranks i).banks b).counter.pre ≤ (((processQ std t ranks last q).ranks i).banks b).counter.pre := by
  induction q with
  | nil => intros; exact Nat.le_refl _
  | cons e q ih =>
    intro ranks last i b
    simp only [processQ]
    split
    · refine Nat.le_trans ?_ (ih i b)
      simp only [upd]
      split
      · rename_i h; rw [h]; exact exec_pre_mono ..
      · exact Nat.le_refl _
    · exact Nat.le_refl _

/-- Counters: for every accepted trace and all `t ≤ t'`. -/
theorem C12_counters (std : Std) (ms : MemSpec) (cmds : List Cmd) (c : Core)
    (_hr : (Core.init ms).run std ms cmds = .ok c) (t t' : Nat) (h : t ≤ t')
    (i : Nat) (hi : i < ms.numberOfRanks) (b : Nat) (hb : b < ms.numberOfBanks) :
    ∃ x x', (c.getWindowStats std ms t).2.bank[i * ms.numberOfBanks + b]? = some x ∧
      (c.getWindowStats std ms t').2.bank[i * ms.numberOfBanks + b]? = some x' ∧ x.counter.le x'.counter := by
  refine ⟨_, _, stats_bank hi hb, stats_bank hi hb, ?_⟩
  show ((((c.process std t).ranks i).banks b).counter).le (((c.process std t').ranks i).banks b).counter
  rw [← Core.process_process (c := c) h]
  have h1 : ((((c.process std t).process std t').ranks i).banks b).counter.noPre = (((c.process std t).ranks i).banks b).counter.noPre :=
    processQ_noPre i b
  have h2 : (((c.process std t).ranks i).banks b).counter.pre ≤ ((((c.process std t).process std t').ranks i).banks b).counter.pre :=
    processQ_pre_mono i b
  generalize (((c.process std t).ranks i).banks b).counter = x at *
  generalize ((((c.process std t).process std t').ranks i).banks b).counter = y at *
  obtain ⟨x1, x2, x3, x4, x5, x6, x7, x8, x9, x10, x11⟩ := x
  obtain ⟨y1, y2, y3, y4, y5, y6, y7, y8, y9, y10, y11⟩ := y
  simp only [Counters.noPre, Counters.mk.injEq] at h1 h2
  simp only [Counters.le]
  omega

/-- Missing from the full statement: the active power-down situations excluded by `benignCmd` (not DDR4),
for which it is false (`C12_violation`). -/
theorem C12_partial (std : Std) (ms : MemSpec) (cmds : List Cmd) (hv : ValidSpec std ms)
    (ht : TameTrace std ms cmds) (c : Core) (hr : (Core.init ms).run std ms cmds = .ok c)
    (t t' : Nat) (hT : NotBefore cmds t) (h : t ≤ t') :
    (∀ i < ms.numberOfRanks, ∀ b < ms.numberOfBanks, ∃ x x',
      (c.getWindowStats std ms t).2.bank[i * ms.numberOfBanks + b]? = some x ∧
      (c.getWindowStats std ms t').2.bank[i * ms.numberOfBanks + b]? = some x' ∧
      x.counter.le x'.counter ∧ x.cycles.le x'.cycles ∧ x'.cycles.sum = x.cycles.sum + (t' - t)) ∧
    (∀ i < ms.numberOfRanks, ∃ x x',
      (c.getWindowStats std ms t).2.rankTotal[i]? = some x ∧ (c.getWindowStats std ms t').2.rankTotal[i]? = some x' ∧
      x.le x' ∧ x'.sum = x.sum + (t' - t)) := by
  have hT' : NotBefore cmds t' := fun x hx => Nat.le_trans (hT x hx) h
  have s1 := C03_partial std ms cmds hv ht c hr t hT
  have s2 := C03_partial std ms cmds hv ht c hr t' hT'
  constructor
  · intro i hi b hb
    obtain ⟨x, x', hx, hx', hc⟩ := C12_counters std ms cmds c hr t t' h i hi b hb
    refine ⟨x, x', hx, hx', hc, ?_, ?_⟩
    · obtain ⟨σ, ent, hR, _, _⟩ := tame_rel hv ht hr hT hi
      obtain ⟨σ', ent', hR', _, _⟩ := tame_rel hv ht hr hT' hi
      rw [stats_bank hi hb] at hx hx'
      injection hx with hx; injection hx' with hx'
      rw [← hx, ← hx', bankStats_eq (ht.tame i hi) hR hb, bankStats_eq (ht.tame i hi) hR' hb]
      exact cycles_mono h
    · rw [s1.1 x (List.mem_of_getElem? hx), s2.1 x' (List.mem_of_getElem? hx')]
      omega
  · intro i hi
    refine ⟨_, _, stats_rank hi, stats_rank hi, ?_, ?_⟩
    · obtain ⟨σ, ent, hR, _, _⟩ := tame_rel hv ht hr hT hi
      obtain ⟨σ', ent', hR', _, _⟩ := tame_rel hv ht hr hT' hi
      rw [rankStats_eq (ht.tame i hi) hR, rankStats_eq (ht.tame i hi) hR']
      exact cycles_mono h
    · rw [s1.2 _ (List.mem_of_getElem? (stats_rank hi)), s2.2 _ (List.mem_of_getElem? (stats_rank hi))]
      omega

theorem C12_ddr4 : C12_statement .ddr4 := fun ms cmds hv hl c hr t t' hT h =>
  C12_partial .ddr4 ms cmds hv (legal_tame_ddr4 hl) c hr t t' hT h

/-- All standards: every legal trace without active power-down. -/
theorem C12_noActivePowerDown (std : Std) (ms : MemSpec) (cmds : List Cmd) (hv : ValidSpec std ms)
    (hl : LegalTrace std ms cmds) (hn : ∀ c ∈ cmds, c.type ≠ .PDEA)
    (c : Core) (hr : (Core.init ms).run std ms cmds = .ok c) (t t' : Nat) (hT : NotBefore cmds t) (h : t ≤ t') :
    (∀ i < ms.numberOfRanks, ∀ b < ms.numberOfBanks, ∃ x x',
      (c.getWindowStats std ms t).2.bank[i * ms.numberOfBanks + b]? = some x ∧
      (c.getWindowStats std ms t').2.bank[i * ms.numberOfBanks + b]? = some x' ∧
      x.counter.le x'.counter ∧ x.cycles.le x'.cycles ∧ x'.cycles.sum = x.cycles.sum + (t' - t)) ∧
    (∀ i < ms.numberOfRanks, ∃ x x',
      (c.getWindowStats std ms t).2.rankTotal[i]? = some x ∧ (c.getWindowStats std ms t').2.rankTotal[i]? = some x' ∧
      x.le x' ∧ x'.sum = x.sum + (t' - t)) :=
  C12_partial std ms cmds hv (legal_tame_noPda hl hn) c hr t t' hT h

/-- DDR5, LPDDR4, LPDDR5, LPDDR6: false in general; in the trace of `C03_violation` the (wrapped) precharged
time decreases when the window grows. -/
theorem C12_violation (std : Std) (hs : std ≠ .ddr4) : ¬ C12_statement std := by
  intro h
  have hw : ∀ x x', bank0At std Ex.ms c03Trace 200 = some x → bank0At std Ex.ms c03Trace 210 = some x' → ¬ x.le x' := by
    cases std
    · exact absurd rfl hs
    all_goals
      intro x x' h1 h2
      have e1 := Option.some_inj.1 (h1.symm.trans (show _ = some _ by rfl))
      have e2 := Option.some_inj.1 (h2.symm.trans (show _ = some _ by rfl))
      subst e1 e2
      decide +kernel
  have hok : ((Core.init Ex.ms).run std Ex.ms c03Trace).isOk = true := by cases std <;> decide +kernel
  unfold bank0At at hw
  cases hc : (Core.init Ex.ms).run std Ex.ms c03Trace with
  | error e => rw [hc] at hok; cases hok
  | ok c =>
    simp only [hc] at hw
    obtain ⟨x, x', h1, h2, _, h3, _⟩ := (h Ex.ms c03Trace (by cases std <;> decide +kernel) (by cases std <;> decide +kernel) c hc 200 210
      (by decide +kernel) (by omega)).1 0 (by decide) 0 (by decide)
    rw [Nat.zero_mul, Nat.zero_add] at h1 h2
    exact hw _ _ (by rw [h1]; rfl) (by rw [h2]; rfl) h3

/-! ## The hypotheses can be met -/

example (std : Std) : ValidSpec std Ex.ms ∧ LegalTrace std Ex.ms Ex.traffic ∧ (∀ c ∈ Ex.traffic, c.type ≠ .PDEA) ∧
    TameTrace std Ex.ms Ex.activePd ∧ NotBefore Ex.traffic 50 ∧ ((Core.init Ex.ms).run std Ex.ms Ex.traffic).isOk = true := by
  refine ⟨?_, ?_, ?_, ?_, ?_, ?_⟩ <;> cases std <;> decide +kernel

end DRAMPower
