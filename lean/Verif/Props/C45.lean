import Verif.Lemmas.InterfaceEnergy
import Verif.Model.SimulatorStats
import Verif.Lemmas.Interface

/-!
# C45: interface energy is the sum over the signals

`Spec.interfaceEnergy` is the sum over a table of signals, each with its driver, its figures, its termination and its rate.

* `C45_partial`: the computed energy is that sum, for every standard, specification and statistics. Full statement `C45_statement`:
  without the last two hypotheses.
* `C45_violation_ddr4`: DDR4, statistics delivered by the simulator: two gapless reads. The pre/postambles are counted with the
  counters of the ranks, which the simulator never fills, so the number of ambles wraps around.
* `C45_ambles_never`: DDR4, without gapless transfers: no amble is ever charged.
* `C45_violation_ddr5`: DDR5 charges the termination of the data wires for toggling rates even if they are not terminated.
-/

namespace DRAMPower
open Spec

/-- Everything that is claimed: whenever nothing is divided by zero. -/
def C45_statement (std : Std) : Prop :=
  ∀ (s : WireSpec) (st : SimStats), EnergyDefined std s → s.calculateEnergy std st = .ok (interfaceEnergy std s st)

/-- Missing from the full statement: DDR4 with rank counters that do not agree with the bank counters, DDR5 with unterminated data wires
and toggling rates. -/
theorem C45_partial (std : Std) (s : WireSpec) (st : SimStats) (h : EnergyDefined std s)
    (h4 : std = .ddr4 → AmblesCounted s st) (h5 : std = .ddr5 → RatesTerminated s st) :
    s.calculateEnergy std st = .ok (interfaceEnergy std s st) := by
  have G : ∀ g ∈ groups std, _ := fun g hg => pair_group (st := st) g (h g hg)
  have R : ∀ g ∈ groups std, g ∈ [Group.readRate, .writeRate] →
      s.pair std (g.wiring s.imp) (WireSpec.togglingFlag std (g.wiring s.imp)) (g.figures st) (g.period s) (g.rate std s) =
        .ok { static := g.static std s st, dynamic := g.dynamic s st } := by
    intro g hg hm
    refine pair_flag g _ (h g hg) ?_
    by_cases e : std = .ddr5
    · have h6 := h5 e g hm
      clear h5
      subst e
      have hr : g.rate .ddr5 s = s.dataRate := by
        simp only [List.mem_cons, List.not_mem_nil, or_false] at hm
        rcases hm with rfl | rfl <;> rfl
      simp only [WireSpec.togglingFlag, if_true]
      by_cases ht : (g.wiring s.imp).termination = true
      · exact .inl (by rw [ht]; exact decide_eq_true (h g hg ht).1)
      · have hf : (g.wiring s.imp).termination = false := by simpa using ht
        rcases h6 with h5 | h5 | ⟨h5, h6⟩
        · exact absurd h5 ht
        · exact .inl (by rw [hf]; exact decide_eq_false (by simp [h5]))
        · by_cases h0 : (g.wiring s.imp).rEq = 0
          · exact .inl (by rw [hf]; exact decide_eq_false (by simp [h0]))
          · exact .inr ⟨hf, h0, by rw [hr]; exact h5, h6⟩
    · exact .inl (by rw [WireSpec.togglingFlag, if_neg e])
  unfold WireSpec.calculateEnergy WireSpec.clockEnergy WireSpec.dqsEnergy WireSpec.togglingEnergy WireSpec.dqEnergy WireSpec.caEnergy
    WireSpec.dbiEnergy
  cases std with
  | ddr4 =>
    have a0 := amble_ok (s := s) (st := st) false (fun ht => (h .writeStrobe (by decide) ht).1) (h4 rfl false).1 (h4 rfl false).2.1
      (h4 rfl false).2.2
    have a1 := amble_ok (s := s) (st := st) true (fun ht => (h .readStrobe (by decide) ht).1) (h4 rfl true).1 (h4 rfl true).2.1
      (h4 rfl true).2.2
    have g1 := G .clock (by decide)
    have g2 := G .command (by decide)
    have g3 := G .readStrobe (by decide)
    have g4 := G .writeStrobe (by decide)
    have g5 := G .readData (by decide)
    have g6 := G .writeData (by decide)
    have g7 := R .readRate (by decide) (by decide)
    have g8 := R .writeRate (by decide) (by decide)
    have g9 := G .readInv (by decide)
    have g10 := G .writeInv (by decide)
    simp only [Group.wiring, Group.figures, Group.period, Group.rate] at g1 g2 g3 g4 g5 g6 g7 g8 g9 g10
    simp only [if_true, Bool.false_eq_true, if_false, reduceCtorEq, or_self] at a0 a1 ⊢
    simp only [g1, g2, g3, g4, g5, g6, g7, g8, g9, g10, a0, a1, bind, Except.bind, pure, Except.pure]
    congr 1
    apply info_ext <;>
      simp [interfaceEnergy, sideSum, groups, Group.side, InterfaceInfo.add, InterfaceEnergy.add, List.filter] <;> ring
  | ddr5 =>
    have g1 := G .clock (by decide)
    have g2 := G .command (by decide)
    have g3 := G .readStrobe (by decide)
    have g4 := G .writeStrobe (by decide)
    have g5 := G .readData (by decide)
    have g6 := G .writeData (by decide)
    have g7 := R .readRate (by decide) (by decide)
    have g8 := R .writeRate (by decide) (by decide)
    simp only [Group.wiring, Group.figures, Group.period, Group.rate] at g1 g2 g3 g4 g5 g6 g7 g8
    simp only [if_true, if_false, reduceCtorEq, or_self, true_or]
    simp only [g1, g2, g3, g4, g5, g6, g7, g8, bind, Except.bind, pure, Except.pure]
    congr 1
    apply info_ext <;>
      simp [interfaceEnergy, sideSum, groups, Group.side, InterfaceInfo.add, InterfaceEnergy.add, List.filter, ambleStatic,
        ambleDynamic] <;> ring
  | lpddr4 =>
    have g1 := G .clock (by decide)
    have g2 := G .command (by decide)
    have g3 := G .readStrobe (by decide)
    have g4 := G .writeStrobe (by decide)
    have g5 := G .readData (by decide)
    have g6 := G .writeData (by decide)
    have g7 := R .readRate (by decide) (by decide)
    have g8 := R .writeRate (by decide) (by decide)
    have g9 := G .readInv (by decide)
    have g10 := G .writeInv (by decide)
    simp only [Group.wiring, Group.figures, Group.period, Group.rate] at g1 g2 g3 g4 g5 g6 g7 g8 g9 g10
    simp only [if_false, reduceCtorEq, or_self]
    simp only [g1, g2, g3, g4, g5, g6, g7, g8, g9, g10, bind, Except.bind, pure, Except.pure]
    congr 1
    apply info_ext <;>
      simp [interfaceEnergy, sideSum, groups, Group.side, InterfaceInfo.add, InterfaceEnergy.add, List.filter, ambleStatic,
        ambleDynamic] <;> ring
  | lpddr5 =>
    have g1 := G .clock (by decide)
    have g2 := G .command (by decide)
    have g3 := G .readStrobe (by decide)
    have g4 := G .dataClock (by decide)
    have g5 := G .readData (by decide)
    have g6 := G .writeData (by decide)
    have g7 := R .readRate (by decide) (by decide)
    have g8 := R .writeRate (by decide) (by decide)
    have g9 := G .readInv (by decide)
    have g10 := G .writeInv (by decide)
    simp only [Group.wiring, Group.figures, Group.period, Group.rate] at g1 g2 g3 g4 g5 g6 g7 g8 g9 g10
    simp only [if_true, if_false, reduceCtorEq, or_self, true_or]
    simp only [g1, g2, g3, g4, g5, g6, g7, g8, g9, g10, bind, Except.bind, pure, Except.pure]
    congr 1
    apply info_ext <;>
      simp [interfaceEnergy, sideSum, groups, Group.side, InterfaceInfo.add, InterfaceEnergy.add, List.filter, ambleStatic,
        ambleDynamic] <;> ring
  | lpddr6 =>
    have g1 := G .clock (by decide)
    have g2 := G .command (by decide)
    have g3 := G .readStrobe (by decide)
    have g4 := G .dataClock (by decide)
    have g5 := G .readData (by decide)
    have g6 := G .writeData (by decide)
    have g7 := R .readRate (by decide) (by decide)
    have g8 := R .writeRate (by decide) (by decide)
    simp only [Group.wiring, Group.figures, Group.period, Group.rate] at g1 g2 g3 g4 g5 g6 g7 g8
    simp only [if_true, if_false, reduceCtorEq, or_true]
    simp only [g1, g2, g3, g4, g5, g6, g7, g8, bind, Except.bind, pure, Except.pure]
    congr 1
    apply info_ext <;>
      simp [interfaceEnergy, sideSum, groups, Group.side, InterfaceInfo.add, InterfaceEnergy.add, List.filter, ambleStatic,
        ambleDynamic] <;> ring

/-- Statistics delivered by a simulator never contain a transfer counter of a rank. -/
theorem C45_rank_counters {std : Std} {N : Nat} {ms : MemSpec} {sp : IfSpec} {s s' : Simulator std N} {t : Nat} {st : SimStats}
    (h : s.getWindowStats ms sp t = .ok (s', st)) : ∀ r ∈ st.rankTotal, r.counter = {} := by
  unfold Simulator.getWindowStats at h
  obtain ⟨x, hx, h⟩ := bind_ok h
  cases h
  unfold Interface.getWindowStats at hx
  obtain ⟨a, _, hx⟩ := bind_ok hx
  obtain ⟨b, _, hx⟩ := bind_ok hx
  obtain ⟨c, _, hx⟩ := bind_ok hx
  obtain ⟨d, _, hx⟩ := bind_ok hx
  cases hx
  intro r hr
  simp only [CoreStats.toSim] at hr
  split at hr
  · obtain ⟨k, hk, rfl⟩ := List.mem_mapIdx.1 hr
    simp only [List.getD_eq_getElem?_getD, List.getElem?_map]
    generalize (Core.statsAt std ms (Core.process std s.core t) t).rankTotal[k]? = o
    cases o <;> rfl
  · obtain ⟨x, _, rfl⟩ := List.mem_map.1 hr
    rfl

/-- DDR4 without gapless transfers: the energy a simulator reports contains no pre/postamble, however many transfers there are. -/
theorem C45_ambles_never {N : Nat} {ms : MemSpec} {sp : IfSpec} {ws : WireSpec} {s s' : Simulator .ddr4 N} {t : Nat} {st : SimStats}
    (h : s.getWindowStats ms sp t = .ok (s', st)) (hd : EnergyDefined .ddr4 ws) (h0 : ∀ read, gaplessOf st read = 0) :
    ws.calculateEnergy .ddr4 st = .ok
      { controller := { static := sideSum .ddr4 .controller (Group.static .ddr4 ws st)
                        dynamic := sideSum .ddr4 .controller (Group.dynamic ws st) }
        dram := { static := sideSum .ddr4 .dram (Group.static .ddr4 ws st), dynamic := sideSum .ddr4 .dram (Group.dynamic ws st) } } := by
  have hc := C45_rank_counters h
  have hz : ∀ read : Bool, rankTransfers { st with bank := [] } read = 0 := by
    intro read
    apply List.sum_eq_zero
    intro x hx
    obtain ⟨r, hr, rfl⟩ := List.mem_map.1 hx
    rw [hc r hr]
    cases read <;> rfl
  -- without bank entries the statistics are regular
  have e := C45_partial .ddr4 ws { st with bank := [] } hd
    (fun _ read => ⟨by rw [hz]; rfl, by rw [show gaplessOf { st with bank := [] } read = 0 from h0 read]; exact Nat.zero_le _, by
      rw [show ambleCount ws { st with bank := [] } read = 0 by simp [ambleCount, transfersOf]]; simp⟩) (fun h => nomatch h)
  have hb : ∀ read, ambleCount ws { st with bank := [] } read = 0 := by intro read; simp [ambleCount, transfersOf]
  refine Eq.trans ?_ (e.trans ?_)
  · rfl
  · congr 1
    apply info_ext <;> simp [interfaceEnergy, ambleStatic, ambleDynamic, hb] <;> rfl

/-- Interface energy of a whole trace. -/
def c45Energy (std : Std) (ms : MemSpec) (sp : IfSpec) (ws : WireSpec) (cs : List ICmd) (t : Nat) : Except Err (SimStats × InterfaceInfo) := do
  let s ← Simulator.init std 64 ms sp
  match s.run ms sp cs with
  | .done s => do
    let (s, st) ← s.getWindowStats ms sp t
    let (_, e) ← s.calcInterfaceEnergy ms sp ws t
    pure (st, e)
  | _ => .error (.exception "refused")

def c45Mem : MemSpec := { numberOfBanks := 4, tRFC := 10, tRAS := 10, tRP := 5, prechargeOffsetRD := 4, prechargeOffsetWR := 8 }
def c45If : IfSpec := { dataRate := 2, burstLength := 8, bitWidth := 8, devices := 1 }
/-- One volt, one ohm, one second: the read strobe is terminated, a preamble is low for one period. -/
def c45Wires : WireSpec :=
  { tCK := 1, vddq := 1, dataRate := 2, ambles := { readZeroes := 1 }, imp := { rdqs := { termination := true } } }

/-- An activation and reads of a row: the second follows the first without a gap, the third does not. -/
def c45Trace (times : List Nat) : List ICmd :=
  { t := 1, type := .ACT } :: times.map fun t => { t, type := .RD, nBits := 64, data := some [1, 2, 3, 4, 5, 6, 7, 8] }

/-- DDR4, two gapless reads: eight periods of a strobe pair that is high half of the time, and one amble of one period: 8 + 1 = 9. Charged
are more than `2 ^ 63`. -/
theorem C45_violation_ddr4 :
    ((c45Energy .ddr4 c45Mem c45If c45Wires (c45Trace [10, 14]) 30).map fun x => x.2.dram.static) = .ok (2 ^ 64 + 7) ∧
    ((c45Energy .ddr4 c45Mem c45If c45Wires (c45Trace [10, 14]) 30).map fun x => (interfaceEnergy .ddr4 c45Wires x.1).dram.static) = .ok 9 := by
  constructor <;> decide +kernel

/-- DDR4, two separate reads: 8 + 2 = 10; charged are 8. -/
theorem C45_violation_separate :
    ((c45Energy .ddr4 c45Mem c45If c45Wires (c45Trace [10, 20]) 30).map fun x => x.2.dram.static) = .ok 8 ∧
    ((c45Energy .ddr4 c45Mem c45If c45Wires (c45Trace [10, 20]) 30).map fun x => (interfaceEnergy .ddr4 c45Wires x.1).dram.static) = .ok 10 := by
  constructor <;> decide +kernel

/-- DDR5 without any termination, toggling rates: nothing should be charged statically. -/
theorem C45_violation_ddr5 : ¬ C45_statement .ddr5 := by
  intro h
  have := h { tCK := 1, vddq := 1, dataRate := 2, imp := {} } { togglingRead := { zeroes := 4 } } (by
    intro g hg ht
    simp only [groups, List.mem_cons, List.not_mem_nil, or_false] at hg
    rcases hg with rfl | rfl | rfl | rfl | rfl | rfl | rfl | rfl <;> cases ht)
  exact absurd (congrArg (fun x : Except Err InterfaceInfo => x.map fun i => i.dram.static) this) (by decide +kernel)

/-- The DDR4 statement fails as well, with the statistics of `C45_violation_separate`. -/
theorem C45_violation : ¬ C45_statement .ddr4 := by
  intro h
  have := h c45Wires { bank := [{ counter := { reads := 2 } }], rankTotal := [{}] } (by
    intro g hg ht
    simp only [groups, List.mem_cons, List.not_mem_nil, or_false] at hg
    rcases hg with rfl | rfl | rfl | rfl | rfl | rfl | rfl | rfl | rfl | rfl <;>
      first | exact absurd ht (by decide) | exact ⟨by decide +kernel, by decide +kernel⟩)
  exact absurd (congrArg (fun x : Except Err InterfaceInfo => x.map fun i => i.dram.static) this) (by decide +kernel)

/-- Terminated everywhere. -/
def c45Full : WireSpec :=
  { tCK := 1, tWCK := 1/2, vddq := 2, dataRate := 4, dqsRate := 2, bitWidth := 16
    ambles := { readZeroes := 2, writeZeroes := 3, readZeroesToOnes := 1, writeZeroesToOnes := 2 }
    imp := { ck := ⟨true, 2, 3⟩, wck := ⟨true, 3, 5⟩, ca := ⟨true, 4, 1⟩, rdq := ⟨true, 5, 1⟩, wdq := ⟨true, 6, 1⟩, rdqs := ⟨true, 7, 1⟩,
             wdqs := ⟨true, 8, 1⟩, rdbi := ⟨true, 9, 1⟩, wdbi := ⟨true, 10, 1⟩ } }

/-- Statistics with consistent counters. -/
def c45Stats : SimStats :=
  { commandBus := ⟨3, 4, 1, 2, 1⟩, readBus := ⟨30, 40, 1, 2, 1⟩, togglingRead := ⟨3, 4, 1, 2, 1⟩, readDQSStats := ⟨3, 4, 1, 2, 1⟩
    bank := [{ counter := { reads := 2, writes := 1 } }, { counter := { readAuto := 1 } }]
    rankTotal := [{ counter := { reads := 2, writes := 1, readAuto := 1 }, prepos := { readSeamless := 1 } }] }

/-- Nothing is divided by zero, the ambles are counted, the data wires are terminated. -/
example (std : Std) : EnergyDefined std c45Full ∧ AmblesCounted c45Full c45Stats ∧ RatesTerminated c45Full c45Stats ∧
    ambleCount c45Full c45Stats true = 4 ∧ (interfaceEnergy .ddr4 c45Full c45Stats).dram.static ≠ 0 := by
  refine ⟨?_, ?_, ?_, by decide +kernel, by decide +kernel⟩
  · intro g hg ht
    cases std <;> cases g <;> exact ⟨by decide +kernel, by decide +kernel⟩
  · intro read
    cases read <;> exact ⟨by decide +kernel, by decide +kernel, by decide +kernel⟩
  · intro g hg
    simp only [List.mem_cons, List.not_mem_nil, or_false] at hg
    rcases hg with rfl | rfl <;> exact .inl rfl

/-- A simulator without gapless transfers. -/
example : ((c45Energy .ddr4 c45Mem c45If c45Wires (c45Trace [10, 20]) 30).map fun x => (gaplessOf x.1 true, gaplessOf x.1 false,
    transfersOf x.1 true)) = .ok (0, 0, 2) := by decide +kernel

end DRAMPower
