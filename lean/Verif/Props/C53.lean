import Verif.Lemmas.Growth
import Verif.Lemmas.GrowthEnergy
import Verif.Lemmas.EnergyExample
import Verif.Props.C12
import Verif.Props.C31
import Verif.Props.C32
import Verif.Props.C45
import Verif.Props.C46

/-!
# C53: the energy a simulator reports is non-negative and does not decrease when the window grows

End to end: construction, commands, two queries at `t ≤ t'` after the last command, energies calculated from both.

* `C53_figures`: figures of all wires, every accepted trace, also with the interface switched off and on, data bus inversion etc.
* `C53_interface`: hence the interface energy, part by part.
* `C53_nonneg`: no energy is negative, every accepted trace.
* `C53_core_partial`: every component of the core energy of every bank, and every shared one.
* `C53_partial`: the total energy. Full statement `C53_statement`: for every legal trace, refuted by `C53_violation` (not DDR4).
* `C53_ddr4`, `C53_noActivePowerDown`: the full statement.
-/

namespace DRAMPower
open Spec

variable {std : Std} {N : Nat} {ms : MemSpec} {sp : IfSpec}

/-- Full statement. -/
def C53_statement (std : Std) : Prop :=
  ∀ (N : Nat) (ms : MemSpec) (sp : IfSpec) (ps : PowerSpec) (ws : WireSpec) (cs : List ICmd) (s0 s s1 s2 : Simulator std N) (t t' : Nat)
    (e e' : Rat), ValidSpec std ms → LegalTrace std ms (cs.map ICmd.core) → Sane std ps → Physical ws → sp.bitWidth * sp.devices ≤ N →
    Simulator.init std N ms sp = .ok s0 → s0.run ms sp cs = .done s → (∀ c ∈ cs, c.t ≤ t) → t ≤ t' →
    s.getTotalEnergy ms sp ps ws t = .ok (s1, e) → s.getTotalEnergy ms sp ps ws t' = .ok (s2, e') → 0 ≤ e ∧ e ≤ e'

/-- Both halves have executed all commands. -/
theorem run_halves : ∀ (cs : List ICmd) {s s' : Simulator std N}, s.run ms sp cs = .done s' →
    s.core.run std ms (cs.map ICmd.core) = .ok s'.core ∧ s.interface.run sp (cs.map .cmd) = .ok s'.interface
  | [], s, s', h => by cases h; exact ⟨rfl, rfl⟩
  | c :: cs, s, s', h => by
    simp only [Simulator.run, Simulator.doCommand] at h
    cases h1 : s.core.doCommand std ms c.core with
    | error e => simp only [h1] at h; cases h
    | ok core =>
      cases h2 : s.interface.doCommand sp c with
      | error e => simp only [h1, h2] at h; cases h
      | ok interface =>
        simp only [h1, h2] at h
        obtain ⟨a, b⟩ := run_halves cs h
        simp only [List.map_cons, Core.run, Interface.run, Interface.step, h1, h2]
        exact ⟨a, b⟩

theorem simulator_init {s : Simulator std N} (h : Simulator.init std N ms sp = .ok s) :
    s.core = Core.init ms ∧ Interface.init std N sp = .ok s.interface := by
  unfold Simulator.init at h
  obtain ⟨i, hi, h⟩ := bind_ok h
  have e := pure_ok h
  subst e
  exact ⟨rfl, hi⟩

theorem simulator_stats {s s' : Simulator std N} {t : Nat} {x : SimStats} (h : s.getWindowStats ms sp t = .ok (s', x)) :
    s.interface.getWindowStats sp t (s.core.getWindowStats std ms t).2.toSim = .ok x := by
  unfold Simulator.getWindowStats at h
  obtain ⟨y, hy, h⟩ := bind_ok h
  have e := pure_ok h
  cases e
  exact hy

/-- The interface adds to the rank totals of the core only the numbers of transfers without a gap (DDR4), which do not depend on the
window. -/
theorem window_lists {i : Interface std N} {t : Nat} {s x : SimStats} (h : i.getWindowStats sp t s = .ok x) :
    x.bank = s.bank ∧ x.rankTotal = if std = .ddr4 then Interface.rankTotals s.rankTotal i.ranks else s.rankTotal := by
  unfold Interface.getWindowStats at h
  obtain ⟨_, _, h⟩ := bind_ok h
  obtain ⟨_, _, h⟩ := bind_ok h
  obtain ⟨_, _, h⟩ := bind_ok h
  obtain ⟨_, _, h⟩ := bind_ok h
  have e := pure_ok h
  subst e
  exact ⟨rfl, rfl⟩

/-- No figure of any group of wires decreases when the window grows, if it ends after the interface has been switched on for the last
time. -/
theorem C53_figures {ops : List IfOp} {i i' : Interface std N} {t t' : Nat} {x y : SimStats} (hN : sp.bitWidth * sp.devices ≤ N)
    (hi : Interface.init std N sp = .ok i) (hr : i.run sp ops = .ok i') (hen : ∀ u, .enable u ∈ ops → u ≤ t) (h : t ≤ t')
    (hx : i'.getWindowStats sp t {} = .ok x) (hy : i'.getWindowStats sp t' {} = .ok y) :
    ∀ g : Group, FiguresLe (g.figures x) (g.figures y) :=
  figures_grow hN hi hr hen h (fun _ => .refl _) hx hy

theorem transfers_zero {x : SimStats} {read : Bool} (h : ∀ r ∈ x.rankTotal, r.counter = {}) : WireSpec.transferCount x read = 0 := by
  unfold WireSpec.transferCount
  apply List.sum_eq_zero
  intro n hn
  obtain ⟨r, hr, rfl⟩ := List.mem_map.1 hn
  rw [h r hr]
  cases read <;> rfl

/-- The interface energy of every accepted trace, part by part. -/
theorem C53_interface {ws : WireSpec} {cs : List ICmd} {s0 s s1 s2 : Simulator std N} {t t' : Nat} {e f : InterfaceInfo}
    (hp : Physical ws) (hN : sp.bitWidth * sp.devices ≤ N) (hi : Simulator.init std N ms sp = .ok s0) (hr : s0.run ms sp cs = .done s)
    (h : t ≤ t') (he : s.calcInterfaceEnergy ms sp ws t = .ok (s1, e)) (hf : s.calcInterfaceEnergy ms sp ws t' = .ok (s2, f)) :
    InterfaceLe e f := by
  obtain ⟨_, hi⟩ := simulator_init hi
  obtain ⟨_, hr⟩ := run_halves cs hr
  unfold Simulator.calcInterfaceEnergy at he hf
  obtain ⟨⟨a, x⟩, ha, he⟩ := bind_ok he
  obtain ⟨ea, hea, he⟩ := bind_ok he
  obtain ⟨⟨b, y⟩, hb, hf⟩ := bind_ok hf
  obtain ⟨fb, hfb, hf⟩ := bind_ok hf
  have q := pure_ok he
  cases q
  have q := pure_ok hf
  cases q
  have hx := simulator_stats ha
  have hy := simulator_stats hb
  have hfig := figures_grow hN hi hr (fun u hu => by obtain ⟨c, _, hc⟩ := List.mem_map.1 hu; cases hc) h
    (s := (s.core.getWindowStats std ms t).2.toSim) (s' := (s.core.getWindowStats std ms t').2.toSim)
    (fun g => by cases g <;> exact .refl _) hx hy
  refine energy_grows hp ?_ hfig hea hfb
  intro h4 read
  have ca := C45_rank_counters ha
  have cb := C45_rank_counters hb
  have la := (window_lists hx).2
  have lb := (window_lists hy).2
  rw [if_pos h4] at la lb
  constructor
  · rw [transfers_zero ca, transfers_zero cb]
  · unfold WireSpec.seamlessCount
    rw [la, lb]
    congr 1
    apply List.ext_getElem?
    intro k
    simp only [Interface.rankTotals, List.getElem?_map, List.getElem?_mapIdx]
    cases s.interface.ranks[k]? <;> rfl

/-- `C12` as a statement about all entries. -/
theorem core_grows {cmds : List Cmd} {c : Core} (hv : ValidSpec std ms) (ht : TameTrace std ms cmds)
    (hr : (Core.init ms).run std ms cmds = .ok c) {t t' : Nat} (hT : NotBefore cmds t) (h : t ≤ t') :
    (∀ i k, coreAt (c.getWindowStats std ms t).2.toSim.bank i k ≤ coreAt (c.getWindowStats std ms t').2.toSim.bank i k) ∧
    ∀ i k, coreAt (c.getWindowStats std ms t).2.toSim.rankTotal i k ≤ coreAt (c.getWindowStats std ms t').2.toSim.rankTotal i k := by
  obtain ⟨h1, h2⟩ := C12_partial std ms cmds hv ht c hr t t' hT h
  constructor
  · intro j k
    by_cases hj : j < ms.numberOfRanks * ms.numberOfBanks
    · have hb : 0 < ms.numberOfBanks := Nat.pos_of_ne_zero fun e => by simp [e] at hj
      have ej : j / ms.numberOfBanks * ms.numberOfBanks + j % ms.numberOfBanks = j := Nat.div_add_mod' ..
      obtain ⟨x, x', e, e', hc, hy, _⟩ := h1 (j / ms.numberOfBanks) (Nat.div_lt_of_lt_mul (by rw [Nat.mul_comm]; exact hj))
        (j % ms.numberOfBanks) (Nat.mod_lt _ hb)
      rw [ej] at e e'
      simp only [coreAt, CoreStats.toSim, List.getD_eq_getElem?_getD, List.getElem?_map, e, e', Option.map_some, Option.getD_some,
        BankStats.toCycle]
      obtain ⟨c1, c2, c3, c4, c5, c6, c7, c8, c9, c10, c11⟩ := hc
      obtain ⟨y1, y2, y3, y4, y5, y6⟩ := hy
      cases k <;> first | exact Nat.le_refl _ | assumption
    · have hl : ∀ u, (c.getWindowStats std ms u).2.toSim.bank.length = ms.numberOfRanks * ms.numberOfBanks := by
        intro u
        simp [Core.getWindowStats, Core.statsAt, CoreStats.toSim, List.length_flatMap]
      rw [coreAt, coreAt, List.getD_eq_getElem?_getD, List.getD_eq_getElem?_getD, List.getElem?_eq_none (by rw [hl]; omega),
        List.getElem?_eq_none (by rw [hl]; omega)]
  · intro j k
    by_cases hj : j < ms.numberOfRanks
    · obtain ⟨x, x', e, e', hy, _⟩ := h2 j hj
      simp only [coreAt, CoreStats.toSim, List.getD_eq_getElem?_getD, List.getElem?_map, e, e', Option.map_some, Option.getD_some]
      obtain ⟨y1, y2, y3, y4, y5, y6⟩ := hy
      cases k <;> first | exact Nat.le_refl _ | assumption
    · have hl : ∀ u, (c.getWindowStats std ms u).2.toSim.rankTotal.length = ms.numberOfRanks := by
        intro u
        simp [Core.getWindowStats, Core.statsAt, CoreStats.toSim]
      rw [coreAt, coreAt, List.getD_eq_getElem?_getD, List.getD_eq_getElem?_getD, List.getElem?_eq_none (by rw [hl]; omega),
        List.getElem?_eq_none (by rw [hl]; omega)]

/-- Also with the entries the interface adds. -/
theorem totals_grow {l l' : List CycleStats} (ranks : List RankIf) (h : ∀ i k, coreAt l i k ≤ coreAt l' i k) (i : Nat) (k : CoreCount) :
    coreAt (Interface.rankTotals l ranks) i k ≤ coreAt (Interface.rankTotals l' ranks) i k := by
  unfold coreAt Interface.rankTotals
  rw [List.getD_eq_getElem?_getD, List.getD_eq_getElem?_getD, List.getElem?_mapIdx, List.getElem?_mapIdx]
  cases ranks[i]? with
  | none => exact Nat.le_refl _
  | some r =>
    have := h i k
    unfold coreAt at this
    cases k <;> first | exact Nat.le_refl _ | exact this

/-- Every component of the core energy. -/
theorem C53_core_partial {ps : PowerSpec} {cs : List ICmd} {s0 s s1 s2 : Simulator std N} {t t' : Nat} {e f : Energy}
    (hv : ValidSpec std ms) (ht : TameTrace std ms (cs.map ICmd.core)) (hp : Sane std ps) (hi : Simulator.init std N ms sp = .ok s0)
    (hr : s0.run ms sp cs = .done s) (hT : ∀ c ∈ cs, c.t ≤ t) (h : t ≤ t') (he : s.calcCoreEnergy ms sp ps t = .ok (s1, e))
    (hf : s.calcCoreEnergy ms sp ps t' = .ok (s2, f)) :
    (∀ i c, entry e i c ≤ entry f i c) ∧ ∀ c : SharedComponent, c.of e.shared ≤ c.of f.shared := by
  obtain ⟨hc, _⟩ := simulator_init hi
  obtain ⟨hr, _⟩ := run_halves cs hr
  rw [hc] at hr
  unfold Simulator.calcCoreEnergy at he hf
  obtain ⟨⟨a, x⟩, ha, he⟩ := bind_ok he
  obtain ⟨ea, hea, he⟩ := bind_ok he
  obtain ⟨⟨b, y⟩, hb, hf⟩ := bind_ok hf
  obtain ⟨fb, hfb, hf⟩ := bind_ok hf
  have q := pure_ok he
  cases q
  have q := pure_ok hf
  cases q
  obtain ⟨bx, rx⟩ := window_lists (simulator_stats ha)
  obtain ⟨bY, rY⟩ := window_lists (simulator_stats hb)
  obtain ⟨g1, g2⟩ := core_grows hv ht hr (t := t) (t' := t') (fun c hc => by
    obtain ⟨d, hd, rfl⟩ := List.mem_map.1 hc
    exact hT d hd) h
  refine C31_monotone std ps hp x y e f hea hfb (fun i k => by rw [bx, bY]; exact g1 i k) (fun i k => ?_)
  rw [rx, rY]
  split
  · exact totals_grow _ g2 i k
  · exact g2 i k

theorem bank_sum (e : Energy) :
    (e.bank.map bankTotal).sum = ((List.range e.bank.length).map fun i => bankTotal (e.bank.getD i {})).sum := by
  congr 1
  refine List.ext_getElem (by simp) fun i h1 h2 => ?_
  have hi : i < e.bank.length := by simpa using h1
  simp only [List.getElem_map, List.getElem_range, List.getD_eq_getElem?_getD, List.getElem?_eq_getElem hi, Option.getD_some]

/-- Components at least as large, total at least as large. -/
theorem total_le {ps : PowerSpec} {a b : SimStats} {e f : Energy} (he : ps.calcEnergy std a = .ok e) (hf : ps.calcEnergy std b = .ok f)
    (h1 : ∀ i c, entry e i c ≤ entry f i c) (h2 : ∀ c : SharedComponent, c.of e.shared ≤ c.of f.shared) : e.total ≤ f.total := by
  rw [C32_partial, C32_partial, bank_sum e, bank_sum f, (PowerSpec.calc_closed he).length, (PowerSpec.calc_closed hf).length]
  refine add_le_add (sum_le_of_le fun i _ => ?_) (sum_le_of_le fun c _ => h2 c)
  exact sum_le_of_le fun c _ => h1 i c

/-- A second query with the same window sees the same. -/
theorem again {s s' : Simulator std N} {t : Nat} {x : SimStats} (h : s.getWindowStats ms sp t = .ok (s', x)) :
    s'.getWindowStats ms sp t = .ok (s', x) := by
  have e : Core.getWindowStats std ms (s.core.process std t) t = s.core.getWindowStats std ms t := by
    unfold Core.getWindowStats
    rw [Core.process_process (Nat.le_refl t)]
  have hx := simulator_stats h
  unfold Simulator.getWindowStats at h
  obtain ⟨y, hy, h⟩ := bind_ok h
  cases pure_ok h
  unfold Simulator.getWindowStats
  show (do let st ← s.interface.getWindowStats sp t (Core.getWindowStats std ms (s.core.process std t) t).2.toSim
           pure (({ core := (Core.getWindowStats std ms (s.core.process std t) t).1, interface := s.interface } : Simulator std N), st)) = _
  rw [e, hx]
  rfl

/-- The parts of the total. -/
theorem total_parts {ps : PowerSpec} {ws : WireSpec} {s s' : Simulator std N} {t : Nat} {r : Rat}
    (h : s.getTotalEnergy ms sp ps ws t = .ok (s', r)) :
    ∃ s1 a b, s.calcCoreEnergy ms sp ps t = .ok (s1, a) ∧ s.calcInterfaceEnergy ms sp ws t = .ok (s', b) ∧ r = a.total + b.total := by
  unfold Simulator.getTotalEnergy at h
  obtain ⟨⟨s1, a⟩, h1, h⟩ := bind_ok h
  obtain ⟨⟨s2, b⟩, h2, h⟩ := bind_ok h
  cases pure_ok h
  refine ⟨s1, a, b, h1, ?_, rfl⟩
  unfold Simulator.calcCoreEnergy at h1
  obtain ⟨⟨x, st⟩, hx, h1⟩ := bind_ok h1
  obtain ⟨ce, hce, h1⟩ := bind_ok h1
  cases pure_ok h1
  unfold Simulator.calcInterfaceEnergy at h2 ⊢
  rw [again hx] at h2
  rw [hx]
  exact h2

/-- No energy is negative: every trace that is executed, every window. -/
theorem C53_nonneg {ps : PowerSpec} {ws : WireSpec} {s s' : Simulator std N} {t : Nat} {r : Rat} (hp : Sane std ps) (hw : Physical ws)
    (h : s.getTotalEnergy ms sp ps ws t = .ok (s', r)) : 0 ≤ r := by
  obtain ⟨s1, a, b, h1, h2, rfl⟩ := total_parts h
  unfold Simulator.calcCoreEnergy at h1
  obtain ⟨⟨x, st⟩, hx, h1⟩ := bind_ok h1
  obtain ⟨ce, hce, h1⟩ := bind_ok h1
  cases pure_ok h1
  unfold Simulator.calcInterfaceEnergy at h2
  obtain ⟨⟨y, su⟩, hy, h2⟩ := bind_ok h2
  obtain ⟨ie, hie, h2⟩ := bind_ok h2
  cases pure_ok h2
  obtain ⟨n1, n2⟩ := C31_nonneg std ps hp st a hce
  obtain ⟨m1, m2, m3, m4⟩ := C46_nonneg hw hie
  refine add_nonneg ?_ ?_
  · rw [C32_partial, bank_sum]
    refine add_nonneg (List.sum_nonneg fun z hz => ?_) (List.sum_nonneg fun z hz => ?_)
    · obtain ⟨i, _, rfl⟩ := List.mem_map.1 hz
      refine List.sum_nonneg fun w hw => ?_
      obtain ⟨c, _, rfl⟩ := List.mem_map.1 hw
      exact n1 i c
    · obtain ⟨c, _, rfl⟩ := List.mem_map.1 hz
      exact n2 c
  · simp only [InterfaceInfo.total]
    linarith

/-- Missing from the full statement: the active power-down situations excluded by `benignCmd` (not DDR4), for which it is false
(`C53_violation`). -/
theorem C53_partial (std : Std) (N : Nat) (ms : MemSpec) (sp : IfSpec) (ps : PowerSpec) (ws : WireSpec) (cs : List ICmd)
    (s0 s s1 s2 : Simulator std N) (t t' : Nat) (e e' : Rat) (hv : ValidSpec std ms) (ht : TameTrace std ms (cs.map ICmd.core))
    (hp : Sane std ps) (hw : Physical ws) (hN : sp.bitWidth * sp.devices ≤ N) (hi : Simulator.init std N ms sp = .ok s0)
    (hr : s0.run ms sp cs = .done s) (hT : ∀ c ∈ cs, c.t ≤ t) (h : t ≤ t') (he : s.getTotalEnergy ms sp ps ws t = .ok (s1, e))
    (hf : s.getTotalEnergy ms sp ps ws t' = .ok (s2, e')) : 0 ≤ e ∧ e ≤ e' := by
  refine ⟨C53_nonneg hp hw he, ?_⟩
  obtain ⟨x1, a, b, h1, h2, rfl⟩ := total_parts he
  obtain ⟨y1, a', b', k1, k2, rfl⟩ := total_parts hf
  obtain ⟨g1, g2⟩ := C53_core_partial hv ht hp hi hr hT h h1 k1
  refine add_le_add ?_ (C53_interface hw hN hi hr h h2 k2).total
  unfold Simulator.calcCoreEnergy at h1 k1
  obtain ⟨⟨x, st⟩, hx, h1⟩ := bind_ok h1
  obtain ⟨ce, hce, h1⟩ := bind_ok h1
  cases pure_ok h1
  obtain ⟨⟨y, su⟩, hy, k1⟩ := bind_ok k1
  obtain ⟨cf, hcf, k1⟩ := bind_ok k1
  cases pure_ok k1
  exact total_le hce hcf g1 g2

theorem C53_ddr4 : C53_statement .ddr4 := fun N ms sp ps ws cs s0 s s1 s2 t t' e e' hv hl hp hw hN hi hr hT h he hf =>
  C53_partial .ddr4 N ms sp ps ws cs s0 s s1 s2 t t' e e' hv (legal_tame_ddr4 hl) hp hw hN hi hr hT h he hf

/-- All standards: every legal trace without active power-down. -/
theorem C53_noActivePowerDown (std : Std) (N : Nat) (ms : MemSpec) (sp : IfSpec) (ps : PowerSpec) (ws : WireSpec) (cs : List ICmd)
    (s0 s s1 s2 : Simulator std N) (t t' : Nat) (e e' : Rat) (hv : ValidSpec std ms) (hl : LegalTrace std ms (cs.map ICmd.core))
    (hn : ∀ c ∈ cs, c.type ≠ .PDEA)
    (hp : Sane std ps) (hw : Physical ws) (hN : sp.bitWidth * sp.devices ≤ N) (hi : Simulator.init std N ms sp = .ok s0)
    (hr : s0.run ms sp cs = .done s) (hT : ∀ c ∈ cs, c.t ≤ t) (h : t ≤ t') (he : s.getTotalEnergy ms sp ps ws t = .ok (s1, e))
    (hf : s.getTotalEnergy ms sp ps ws t' = .ok (s2, e')) : 0 ≤ e ∧ e ≤ e' :=
  C53_partial std N ms sp ps ws cs s0 s s1 s2 t t' e e' hv
    (legal_tame_noPda hl fun c hc => by obtain ⟨d, hd, rfl⟩ := List.mem_map.1 hc; exact hn d hd) hp hw hN hi hr hT h he hf

/-! ## Counterexample -/

/-- Currents for the four banks of the two ranks of `Ex.ms`. -/
def c53Power : PowerSpec := { exampleSpec with banks := 4, ranks := 2, devices := 1 }

def c53If : IfSpec := { dataRate := 2, burstLength := 8, bitWidth := 8, devices := 1, ranks := 2 }

/-- Everything terminated. -/
def c53Wires : WireSpec :=
  { tCK := 1, tWCK := 1, vddq := 1, dataRate := 2, dqsRate := 2
    imp := { ck := ⟨true, 1, 1⟩, wck := ⟨true, 1, 1⟩, ca := ⟨true, 1, 1⟩, rdq := ⟨true, 1, 1⟩, wdq := ⟨true, 1, 1⟩, rdqs := ⟨true, 1, 1⟩,
             wdqs := ⟨true, 1, 1⟩, rdbi := ⟨true, 1, 1⟩, wdbi := ⟨true, 1, 1⟩ } }

/-- Continues the trace of `C03_violation`: the rank, which has been left active, is precharged at last. -/
def c53Trace : List ICmd := (c03Trace ++ ([{ t := 200, type := .PDXP }, { t := 204, type := .PDEA }, { t := 208, type := .PDXA },
    { t := 212, type := .ACT }, { t := 216, type := .PRE }] : List Cmd)).map fun (c : Cmd) => { t := c.t, type := c.type }

/-- Total energies of a trace. -/
def c53Totals (std : Std) (cs : List ICmd) (t t' : Nat) : Option (Rat × Rat) :=
  match Simulator.init std 64 Ex.ms c53If with
  | .error _ => none
  | .ok s => match s.run Ex.ms c53If cs with
    | .done s => match s.getTotalEnergy Ex.ms c53If c53Power c53Wires t, s.getTotalEnergy Ex.ms c53If c53Power c53Wires t' with
      | .ok (_, e), .ok (_, f) => some (e, f)
      | _, _ => none
    | _ => none

theorem c53Totals_ok {std : Std} {cs : List ICmd} {t t' : Nat} {e f : Rat} (h : c53Totals std cs t t' = some (e, f)) :
    ∃ s0 s s1 s2, Simulator.init std 64 Ex.ms c53If = .ok s0 ∧ s0.run Ex.ms c53If cs = .done s ∧
      s.getTotalEnergy Ex.ms c53If c53Power c53Wires t = .ok (s1, e) ∧ s.getTotalEnergy Ex.ms c53If c53Power c53Wires t' = .ok (s2, f) := by
  unfold c53Totals at h
  cases h0 : Simulator.init std 64 Ex.ms c53If with
  | error e => simp only [h0] at h; cases h
  | ok s0 =>
    simp only [h0] at h
    cases h1 : s0.run Ex.ms c53If cs with
    | refused e => simp only [h1] at h; cases h
    | halfway c e => simp only [h1] at h; cases h
    | done s =>
      simp only [h1] at h
      cases h2 : s.getTotalEnergy Ex.ms c53If c53Power c53Wires t with
      | error e => simp only [h2] at h; cases h
      | ok x =>
        cases h3 : s.getTotalEnergy Ex.ms c53If c53Power c53Wires t' with
        | error e => simp only [h2, h3] at h; cases h
        | ok y =>
          simp only [h2, h3] at h
          cases h
          exact ⟨s0, s, x.1, y.1, rfl, h1, h2, h3⟩

theorem c53Sane (std : Std) : Sane std c53Power := by
  refine ⟨by decide +kernel, by decide +kernel, by decide +kernel, by decide +kernel, fun d hd => ?_⟩
  simp only [c53Power, exampleSpec, List.mem_cons, List.not_mem_nil, or_false] at hd
  subst hd
  constructor <;> cases std <;> decide +kernel

theorem c53Physical : Physical c53Wires :=
  ⟨by decide +kernel, by decide +kernel, ⟨by decide +kernel, by decide +kernel⟩, fun g => by cases g <;> exact ⟨by decide +kernel, by decide +kernel⟩⟩

/-- DDR5, LPDDR4, LPDDR5, LPDDR6: the same time has been counted as active and as power-down, so the precharged time is negative, wrapped
to almost `2 ^ 64` cycles. It grows with the window until it is positive again: the total energy then drops to almost nothing. -/
theorem C53_violation (std : Std) (hs : std ≠ .ddr4) : ¬ C53_statement std := by
  intro h
  have hw : ∃ e f, c53Totals std c53Trace 216 400 = some (e, f) ∧ 2 ^ 64 < e ∧ f < 20000 := by
    have hd : (match c53Totals std c53Trace 216 400 with
        | some (e, f) => decide (2 ^ 64 < e ∧ f < 20000)
        | none => false) = true := by
      cases std
      · exact absurd rfl hs
      all_goals decide +kernel
    cases hc : c53Totals std c53Trace 216 400 with
    | none => rw [hc] at hd; cases hd
    | some x => rw [hc] at hd; exact ⟨x.1, x.2, rfl, of_decide_eq_true hd⟩
  obtain ⟨e, f, hc, h1, h2⟩ := hw
  obtain ⟨s0, s, s1, s2, k0, k1, k2, k3⟩ := c53Totals_ok hc
  have := (h 64 Ex.ms c53If c53Power c53Wires c53Trace s0 s s1 s2 216 400 e f (by cases std <;> decide +kernel)
    (by cases std <;> decide +kernel) (c53Sane std) c53Physical (by decide) k0 k1 (by decide) (by decide) k2 k3).2
  linarith

/-! ## The hypotheses can be met -/

/-- A row is read (not for LPDDR6, which has other bursts), closed, the other rank is refreshed, then the memory sleeps. -/
def c53Example (std : Std) : List ICmd :=
  { t := 0, type := .ACT } ::
  (if std = .lpddr6 then [] else [{ t := 8, type := .RD, nBits := 64, data := some [1, 2, 3, 4, 5, 6, 7, 8] }]) ++
  [{ t := 24, type := .PRE }, { t := 32, type := .REFA, co := { rank := 1 } }, { t := 40, type := .PDEP }]

example (std : Std) : ValidSpec std Ex.ms ∧ LegalTrace std Ex.ms ((c53Example std).map ICmd.core) ∧
    TameTrace std Ex.ms ((c53Example std).map ICmd.core) ∧ (∀ c ∈ c53Example std, c.type ≠ .PDEA) ∧ Sane std c53Power ∧ Physical c53Wires ∧
    c53If.bitWidth * c53If.devices ≤ 64 ∧ (∀ c ∈ c53Example std, c.t ≤ 40) ∧ (c53Totals std (c53Example std) 40 50).isSome = true := by
  refine ⟨?_, ?_, ?_, ?_, c53Sane std, c53Physical, by decide, ?_, ?_⟩ <;> cases std <;> decide +kernel

/-- DDR4: 5115.5 units of energy at 40, 5285.5 at 50. -/
example : c53Totals .ddr4 (c53Example .ddr4) 40 50 = some (10231 / 2, 10571 / 2) := by decide +kernel

end DRAMPower
