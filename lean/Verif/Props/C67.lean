import Verif.Lemmas.Power
import Verif.Props.C01
import Verif.Props.C53

/-!
# C67: the core energy is the power drawn over time

End to end: construction, commands, query, energy calculation on one side; on the other side the reference timeline of
`Spec/Timeline.lean` and the currents of the data sheet (`Spec/Power.lean`).

* `C67_partial`: traces without the power-down situations of `benignCmd`. Full statement `C67_statement`: for every legal trace, refuted
  by `C67_violation` (not DDR4).
* `C67_ddr4`, `C67_noActivePowerDown`: the full statement.
* `C67_waiting_partial`: what a longer window adds.
-/

namespace DRAMPower
open Spec

variable {std : Std} {N : Nat} {ms : MemSpec} {sp : IfSpec} {ps : PowerSpec}

/-- Full statement. -/
def C67_statement (std : Std) : Prop :=
  ∀ (N : Nat) (ms : MemSpec) (sp : IfSpec) (ps : PowerSpec) (cs : List ICmd) (s0 s s1 : Simulator std N) (t : Nat) (e : Energy),
    ValidSpec std ms → Fits std ms ps → LegalTrace std ms (cs.map ICmd.core) → Simulator.init std N ms sp = .ok s0 →
    s0.run ms sp cs = .done s → (∀ c ∈ cs, c.t ≤ t) → s.calcCoreEnergy ms sp ps t = .ok (s1, e) →
    e.total = coreEnergy std ms ps (cs.map ICmd.core) t

theorem ranks_of_ok {x : SimStats} {e : Energy} (h : ps.calcEnergy std x = .ok e) : ps.ranks ≤ x.rankTotal.length := by
  unfold PowerSpec.calcEnergy at h
  split at h
  · cases h
  split at h
  · cases h
  · rename_i hn
    exact Nat.le_of_not_lt fun hl => hn (.inr hl)

/-- A rank and a voltage domain. -/
theorem rank_charge {x : SimStats} {cmds : List Cmd} {c : Core} {t i : Nat} (d : Domain) (hv : ValidSpec std ms) (hf : Fits std ms ps)
    (hdiv : 0 ∉ ps.divisors std) (ht : TameTrace std ms cmds) (hr : (Core.init ms).run std ms cmds = .ok c) (hT : NotBefore cmds t)
    (hi : i < ms.numberOfRanks) (hb : x.bank = (c.getWindowStats std ms t).2.toSim.bank)
    (hk : (x.rankTotal.getD i {}).cycles = ((c.getWindowStats std ms t).2.toSim.rankTotal.getD i {}).cycles) :
    ps.rankSum std x i d = (ps.devices : Rat) * (d.v * rankCharge std ms ps d (forRank std i cmds) t) := by
  have hB := PowerSpec.banks_ne hdiv
  have hs := legal_supports (ht.tame i hi)
  have hrank : (x.rankTotal.getD i {}).cycles = cycles fun k => rankTime std ms (forRank std i cmds) k t := by
    rw [hk, List.getD_eq_getElem?_getD]
    simp only [CoreStats.toSim, List.getElem?_map]
    rw [C02_partial std ms cmds hv ht c hr t hT i hi]
    rfl
  have hbank : ∀ b < ms.numberOfBanks, ∀ rank : CycleStats, bankTotal (ps.bankEnergy std d (x.bank.getD (i * ms.numberOfBanks + b) {}) rank) =
      ps.cmdEnergy std d (tally ms (forRank std i cmds) b) +
      E_pre d.v d.iBeta d.i2n ps.t_RP ((((forRank std i cmds).foldl (apply std ms) {}).settle t).bank b).pres +
      d.v * (ps.I_1 std d - ps.I_rho std d) * (bankTime std ms (forRank std i cmds) b .act t : Rat) * ps.tCK +
      (1 / (ps.banks : Rat)) * d.v * d.i2n * ((rank.cycles.pre : Rat) * ps.tCK) := by
    intro b hb' rank
    have c1 := C01_partial std ms cmds hv ht c hr t hT i hi b hb'
    have c2 := C09 std ms cmds hv.groups (fun cmd hc => by
      unfold twoBanks
      rcases ht.ranks cmd hc with hu | hu
      · cases hcm : cmd.type <;> simp [hcm, unaddressed] at hu ⊢
      · have : cmd ∈ forRank std cmd.rank cmds ∨ unaddressed std cmd.type = true := by
          by_cases hn : unaddressed std cmd.type = true
          · exact .inr hn
          · exact .inl (List.mem_filter.2 ⟨hc, by simp [hn]⟩)
        rcases this with hm | hn
        · have := (legal_supports (ht.tame cmd.rank hu) cmd hm).2
          unfold inRange at this
          cases hcm : cmd.type <;> simp [hcm] at this ⊢
          · exact this.2.2.1
          · exact this.2.2
        · cases hcm : cmd.type <;> simp [hcm, unaddressed] at hn ⊢) c hr t i hi b hb'
    have c3 := C09_pre_partial std ms cmds hv ht c hr t hT i hi b hb'
    cases hx : (c.getWindowStats std ms t).2.bank[i * ms.numberOfBanks + b]? with
    | none => rw [hx] at c1; cases c1
    | some y =>
      rw [hx] at c1 c2 c3
      simp only [Option.map_some, Option.some.injEq] at c1 c2 c3
      have hy : x.bank.getD (i * ms.numberOfBanks + b) {} = y.toCycle := by
        rw [hb, List.getD_eq_getElem?_getD]
        simp only [CoreStats.toSim, List.getElem?_map, hx]
        rfl
      rw [hy, PowerSpec.bankTotal_bankEnergy, ← c2, ← c3]
      have h1 := PowerSpec.cmdEnergy_pre (std := std) (s := ps) (d := d) y.counter _ rfl
      have h2 : (y.toCycle).cycles.act = bankTime std ms (forRank std i cmds) b .act t := by
        show y.cycles.act = _
        rw [c1]; rfl
      rw [← sub_eq_iff_eq_add] at h1
      rw [← h1, h2]
      show _ = ps.cmdEnergy std d y.toCycle.counter - _ + _ + _ + _
      unfold PowerSpec.cmdEnergy E_BG_act_star E_BG_pre
      show _ = _ - E_pre d.v d.iBeta d.i2n ps.t_RP y.toCycle.counter.pre + E_pre d.v d.iBeta d.i2n ps.t_RP y.toCycle.counter.pre + _ + _
      ring
  unfold PowerSpec.rankSum PowerSpec.contrib PowerSpec.statsIndex
  rw [hf.banks, List.map_congr_left fun b hb' => hbank b (List.mem_range.1 hb') _, PowerSpec.sharedTotal_rankEnergy, hrank, hf.banks]
  simp only [cycles]
  rw [List.sum_map_add, List.sum_map_add, List.sum_map_add, commands_sum hf hv hdiv _ hs]
  have hpre : ((List.range ms.numberOfBanks).map fun b =>
      E_pre d.v d.iBeta d.i2n ps.t_RP ((((forRank std i cmds).foldl (apply std ms) {}).settle t).bank b).pres).sum =
      d.v * prechargeCharge ps d * (precharges std ms (forRank std i cmds) t : Rat) := by
    unfold precharges
    induction (List.range ms.numberOfBanks) with
    | nil => simp
    | cons a L ih =>
      rw [List.map_cons, List.sum_cons, ih, List.map_cons, List.sum_cons]
      unfold E_pre prechargeCharge PowerSpec.t_RP
      push_cast
      ring
  have hdsm : ps.eDsm std d (rankTime std ms (forRank std i cmds) .dsm t) =
      d.v * d.i6ds * (rankTime std ms (forRank std i cmds) .dsm t : Rat) * ps.tCK * (ps.devices : Rat) := by
    by_cases h : std = .lpddr5 ∨ std = .lpddr6
    · rcases h with rfl | rfl <;> rfl
    · have h0 : rankTime std ms (forRank std i cmds) .dsm t = 0 := by
        unfold rankTime
        rw [List.countP_eq_zero]
        intro τ _
        simp only [decide_eq_true_eq]
        refine rankCategory_dsm (fun c hc => ?_) τ
        have := (hs c hc).1
        intro hd
        rw [hd] at this
        simp [supports] at this
        exact h (.inl this)
      rw [h0, PowerSpec.eDsm_zero]
      simp
  rw [hpre, hdsm]
  unfold rankCharge
  rw [background_sum hB]
  rw [show (fun b => d.v * (ps.I_1 std d - ps.I_rho std d) * (bankTime std ms (forRank std i cmds) b .act t : Rat) * ps.tCK) =
    fun b => (d.v * (ps.I_1 std d - ps.I_rho std d) * ps.tCK) * (bankTime std ms (forRank std i cmds) b .act t : Rat) by funext b; ring,
    sum_mul_left, sum_const, List.length_range, ← hf.banks]
  unfold E_BG_act_shared
  field_simp
  ring

/-- Missing from the full statement: the active power-down situations excluded by `benignCmd` (not DDR4), for which it is false
(`C67_violation`). -/
theorem C67_partial {cs : List ICmd} {s0 s s1 : Simulator std N} {t : Nat} {e : Energy} (hv : ValidSpec std ms) (hf : Fits std ms ps)
    (ht : TameTrace std ms (cs.map ICmd.core)) (hi : Simulator.init std N ms sp = .ok s0) (hr : s0.run ms sp cs = .done s)
    (hT : ∀ c ∈ cs, c.t ≤ t) (he : s.calcCoreEnergy ms sp ps t = .ok (s1, e)) :
    e.total = coreEnergy std ms ps (cs.map ICmd.core) t := by
  obtain ⟨hc, _⟩ := simulator_init hi
  obtain ⟨hr, _⟩ := run_halves cs hr
  rw [hc] at hr
  unfold Simulator.calcCoreEnergy at he
  obtain ⟨⟨a, x⟩, ha, he⟩ := bind_ok he
  obtain ⟨ea, hea, he⟩ := bind_ok he
  cases pure_ok he
  obtain ⟨bx, rx⟩ := window_lists (simulator_stats ha)
  have hdiv := PowerSpec.divisors_of_ok hea
  have hlen := ranks_of_ok hea
  rw [PowerSpec.total_closed hea]
  unfold coreEnergy
  rw [← sum_mul_left]
  congr 1
  refine List.map_congr_left fun d _ => ?_
  rw [← sum_mul_left, ← sum_mul_left, hf.ranks]
  congr 1
  refine List.map_congr_left fun i hi => ?_
  refine rank_charge d hv hf hdiv ht hr (fun c hc => ?_) (List.mem_range.1 hi) bx ?_
  · obtain ⟨k, hk, rfl⟩ := List.mem_map.1 hc
    exact hT k hk
  · rw [rx]
    split
    · unfold Interface.rankTotals
      rw [List.getD_eq_getElem?_getD, List.getD_eq_getElem?_getD, List.getElem?_mapIdx]
      have hl : i < s.interface.ranks.length := by
        rw [rx] at hlen
        split at hlen
        · simp only [Interface.rankTotals, List.length_mapIdx] at hlen
          have := List.mem_range.1 hi
          have := hf.ranks
          omega
        · contradiction
      rw [List.getElem?_eq_getElem hl, List.getD_eq_getElem?_getD]
      rfl
    · rfl

theorem C67_ddr4 : C67_statement .ddr4 := fun _ _ _ _ _ _ _ _ _ _ hv hf hl hi hr hT he =>
  C67_partial hv hf (legal_tame_ddr4 hl) hi hr hT he

/-- All standards: every legal trace without active power-down. -/
theorem C67_noActivePowerDown {cs : List ICmd} {s0 s s1 : Simulator std N} {t : Nat} {e : Energy} (hv : ValidSpec std ms)
    (hf : Fits std ms ps) (hl : LegalTrace std ms (cs.map ICmd.core)) (hn : ∀ c ∈ cs, c.type ≠ .PDEA)
    (hi : Simulator.init std N ms sp = .ok s0) (hr : s0.run ms sp cs = .done s) (hT : ∀ c ∈ cs, c.t ≤ t)
    (he : s.calcCoreEnergy ms sp ps t = .ok (s1, e)) : e.total = coreEnergy std ms ps (cs.map ICmd.core) t :=
  C67_partial hv hf (legal_tame_noPda hl fun c hc => by obtain ⟨d, hd, rfl⟩ := List.mem_map.1 hc; exact hn d hd) hi hr hT he

/-- The cycles before and after `t`. -/
theorem backgroundCharge_append (d : Domain) (h : List Cmd) {t t' : Nat} (htt : t ≤ t') :
    backgroundCharge std ms ps d h 0 t' = backgroundCharge std ms ps d h 0 t + backgroundCharge std ms ps d h t t' := by
  obtain ⟨n, rfl⟩ := Nat.exists_eq_add_of_le htt
  unfold backgroundCharge
  rw [← List.sum_append, ← List.map_append, Nat.sub_zero, Nat.sub_zero, Nat.add_sub_cancel_left]
  congr 2
  simpa using (List.range'_append_1 (s := 0) (m := t) (n := n)).symm

/-- What a longer window adds: the background of the cycles between, and the precharges that have come about by themselves. -/
theorem C67_waiting_partial {cs : List ICmd} {s0 s s1 s2 : Simulator std N} {t t' : Nat} {e f : Energy} (hv : ValidSpec std ms)
    (hf : Fits std ms ps) (ht : TameTrace std ms (cs.map ICmd.core)) (hi : Simulator.init std N ms sp = .ok s0)
    (hr : s0.run ms sp cs = .done s) (hT : ∀ c ∈ cs, c.t ≤ t) (htt : t ≤ t') (he : s.calcCoreEnergy ms sp ps t = .ok (s1, e))
    (hf' : s.calcCoreEnergy ms sp ps t' = .ok (s2, f)) :
    f.total - e.total = (ps.devices : Rat) * (ps.domains.map fun d => d.v * ((List.range ms.numberOfRanks).map fun i =>
      backgroundCharge std ms ps d (forRank std i (cs.map ICmd.core)) t t' +
      ((precharges std ms (forRank std i (cs.map ICmd.core)) t' : Rat) - (precharges std ms (forRank std i (cs.map ICmd.core)) t : Rat)) *
        prechargeCharge ps d).sum).sum := by
  rw [C67_partial hv hf ht hi hr hT he, C67_partial hv hf ht hi hr (fun c hc => Nat.le_trans (hT c hc) htt) hf', sub_eq_iff_eq_add]
  unfold coreEnergy
  rw [← mul_add, ← List.sum_map_add]
  congr 2
  refine List.map_congr_left fun d _ => ?_
  rw [← mul_add, ← List.sum_map_add]
  congr 2
  refine List.map_congr_left fun i _ => ?_
  unfold rankCharge
  rw [backgroundCharge_append d _ htt]
  ring

/-! ## Counterexample -/

/-- The reported core energy of a trace at `t`. -/
def c67Total (std : Std) (cs : List ICmd) (t : Nat) : Option Rat :=
  match Simulator.init std 64 Ex.ms c53If with
  | .error _ => none
  | .ok s => match s.run Ex.ms c53If cs with
    | .done s => match s.calcCoreEnergy Ex.ms c53If c53Power t with
      | .ok (_, e) => some e.total
      | _ => none
    | _ => none

theorem c67Total_ok {std : Std} {cs : List ICmd} {t : Nat} {x : Rat} (h : c67Total std cs t = some x) :
    ∃ s0 s s1 e, Simulator.init std 64 Ex.ms c53If = .ok s0 ∧ s0.run Ex.ms c53If cs = .done s ∧
      s.calcCoreEnergy Ex.ms c53If c53Power t = .ok (s1, e) ∧ e.total = x := by
  unfold c67Total at h
  cases h0 : Simulator.init std 64 Ex.ms c53If with
  | error e => simp only [h0] at h; cases h
  | ok s0 =>
    simp only [h0] at h
    cases h1 : s0.run Ex.ms c53If cs with
    | refused e => simp only [h1] at h; cases h
    | halfway c e => simp only [h1] at h; cases h
    | done s =>
      simp only [h1] at h
      cases h2 : s.calcCoreEnergy Ex.ms c53If c53Power t with
      | error e => simp only [h2] at h; cases h
      | ok x =>
        simp only [h2] at h
        cases h
        exact ⟨s0, s, x.1, x.2, rfl, h1, h2, rfl⟩

theorem c67Fits (std : Std) : Fits std Ex.ms c53Power := ⟨rfl, rfl, fun _ => rfl, by decide⟩

/-- A refresh that ends when an active power-down begins. -/
def c67Trace : List ICmd := Ex.refreshThenPd.map fun (c : Cmd) => { t := c.t, type := c.type, co := { bank := c.bank } }

/-- DDR5, LPDDR4, LPDDR5, LPDDR6: the reported energy is not that of the timeline (DDR5: 4920 instead of 4800). -/
theorem C67_violation (std : Std) (hs : std ≠ .ddr4) : ¬ C67_statement std := by
  intro h
  have hw : ∃ x, c67Total std c67Trace 50 = some x ∧ x ≠ coreEnergy std Ex.ms c53Power (c67Trace.map ICmd.core) 50 := by
    have hd : (match c67Total std c67Trace 50 with
        | some x => decide (x ≠ coreEnergy std Ex.ms c53Power (c67Trace.map ICmd.core) 50)
        | none => false) = true := by
      cases std
      · exact absurd rfl hs
      all_goals decide +kernel
    cases hc : c67Total std c67Trace 50 with
    | none => rw [hc] at hd; cases hd
    | some x => rw [hc] at hd; exact ⟨x, rfl, of_decide_eq_true hd⟩
  obtain ⟨x, hx, hne⟩ := hw
  obtain ⟨s0, s, s1, e, k0, k1, k2, rfl⟩ := c67Total_ok hx
  exact hne (h 64 Ex.ms c53If c53Power c67Trace s0 s s1 50 e (by cases std <;> decide +kernel) (c67Fits std)
    (by cases std <;> decide +kernel) k0 k1 (by decide) k2)

/-! ## The hypotheses can be met -/

example (std : Std) : ValidSpec std Ex.ms ∧ Fits std Ex.ms c53Power ∧ LegalTrace std Ex.ms ((c53Example std).map ICmd.core) ∧
    TameTrace std Ex.ms ((c53Example std).map ICmd.core) ∧ (∀ c ∈ c53Example std, c.type ≠ .PDEA) ∧ (∀ c ∈ c53Example std, c.t ≤ 40) ∧
    (c67Total std (c53Example std) 40).isSome = true ∧ (c67Total std (c53Example std) 50).isSome = true := by
  refine ⟨?_, c67Fits std, ?_, ?_, ?_, ?_, ?_, ?_⟩ <;> cases std <;> decide +kernel

/-- DDR4: 4840 units of energy, on both sides. -/
example : c67Total .ddr4 (c53Example .ddr4) 40 = some (coreEnergy .ddr4 Ex.ms c53Power ((c53Example .ddr4).map ICmd.core) 40) := by
  decide +kernel

end DRAMPower
