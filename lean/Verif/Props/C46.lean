import Verif.Lemmas.InterfaceSum
import Verif.Lemmas.Queue
import Verif.Model.SimulatorStats

/-!
# C46: interface energy is non-negative, additive and monotone

* `C46_nonneg`: all statistics, all standards.
* `C46_zero`: no activity, no energy.
* `C46_add_partial`: the energy of a sum of statistics is the sum of the energies. Full statement `C46_statement`: without the hypothesis on
  the pre/postambles of DDR4; refuted by `C46_violation`, again because of the unsigned difference.
* `C46_mono_partial`: hence more activity never needs less energy.
* `C46_total`: the total energy a simulator reports is the sum of core and interface energy reported separately.
-/

namespace DRAMPower
open Spec

variable {std : Std} {s : WireSpec}

/-- Energy of all four parts is non-negative. -/
theorem C46_nonneg (hp : Physical s) {st : SimStats} {e : InterfaceInfo} (h : s.calculateEnergy std st = .ok e) :
    0 ≤ e.controller.static ∧ 0 ≤ e.controller.dynamic ∧ 0 ≤ e.dram.static ∧ 0 ≤ e.dram.dynamic := by
  have P : ∀ (g : Group) {on b t rate x}, 0 ≤ t → s.pair std (g.wiring s.imp) on b t rate = .ok x → 0 ≤ x.static ∧ 0 ≤ x.dynamic :=
    fun g _ _ _ _ _ ht hx => pair_nonneg hx (hp.wires g).1 (hp.wires g).2 ht
  unfold WireSpec.calculateEnergy at h
  obtain ⟨clock, h1, h⟩ := bind_ok h
  obtain ⟨dqs, h2, h⟩ := bind_ok h
  obtain ⟨toggling, h3, h⟩ := bind_ok h
  obtain ⟨dq, h4, h⟩ := bind_ok h
  obtain ⟨ca, h5, h⟩ := bind_ok h
  have a1 : 0 ≤ clock.controller.static ∧ 0 ≤ clock.controller.dynamic ∧ 0 ≤ clock.dram.static ∧ 0 ≤ clock.dram.dynamic := by
    unfold WireSpec.clockEnergy at h1
    obtain ⟨ck, c1, h1⟩ := bind_ok h1
    have := P .clock hp.tCK c1
    split at h1
    · obtain ⟨wck, c2, h1⟩ := bind_ok h1
      have := P .dataClock hp.tWCK c2
      cases h1
      exact ⟨add_nonneg ‹0 ≤ ck.static ∧ _›.1 this.1, add_nonneg ‹0 ≤ ck.static ∧ _›.2 this.2, le_refl _, le_refl _⟩
    · cases h1; exact ⟨this.1, this.2, le_refl _, le_refl _⟩
  have a2 : 0 ≤ dqs.controller.static ∧ 0 ≤ dqs.controller.dynamic ∧ 0 ≤ dqs.dram.static ∧ 0 ≤ dqs.dram.dynamic := by
    unfold WireSpec.dqsEnergy at h2
    obtain ⟨r, c1, h2⟩ := bind_ok h2
    have q1 := P .readStrobe hp.tCK c1
    split at h2
    · cases h2; exact ⟨le_refl _, le_refl _, q1.1, q1.2⟩
    · obtain ⟨w, c2, h2⟩ := bind_ok h2
      have q2 := P .writeStrobe hp.tCK c2
      split at h2
      · obtain ⟨wa, c3, h2⟩ := bind_ok h2
        obtain ⟨ra, c4, h2⟩ := bind_ok h2
        have q3 := amble_nonneg c3 (hp.wires .writeStrobe).1 (hp.wires .writeStrobe).2 hp.tCK hp.ambles
        have q4 := amble_nonneg c4 (hp.wires .readStrobe).1 (hp.wires .readStrobe).2 hp.tCK hp.ambles
        cases h2
        exact ⟨add_nonneg q3.1 q2.1, add_nonneg q3.2 q2.2, add_nonneg q4.1 q1.1, add_nonneg q4.2 q1.2⟩
      · cases h2; exact ⟨q2.1, q2.2, q1.1, q1.2⟩
  have a3 : 0 ≤ toggling.controller.static ∧ 0 ≤ toggling.controller.dynamic ∧ 0 ≤ toggling.dram.static ∧ 0 ≤ toggling.dram.dynamic := by
    unfold WireSpec.togglingEnergy at h3
    obtain ⟨w, c1, h3⟩ := bind_ok h3
    obtain ⟨r, c2, h3⟩ := bind_ok h3
    have q1 := P .writeRate hp.tCK c1
    have q2 := P .readRate hp.tCK c2
    cases h3; exact ⟨q1.1, q1.2, q2.1, q2.2⟩
  have a4 : 0 ≤ dq.controller.static ∧ 0 ≤ dq.controller.dynamic ∧ 0 ≤ dq.dram.static ∧ 0 ≤ dq.dram.dynamic := by
    unfold WireSpec.dqEnergy at h4
    obtain ⟨r, c1, h4⟩ := bind_ok h4
    obtain ⟨w, c2, h4⟩ := bind_ok h4
    have q1 := P .readData hp.tCK c1
    have q2 := P .writeData hp.tCK c2
    cases h4; exact ⟨q2.1, q2.2, q1.1, q1.2⟩
  have a5 : 0 ≤ ca.controller.static ∧ 0 ≤ ca.controller.dynamic ∧ 0 ≤ ca.dram.static ∧ 0 ≤ ca.dram.dynamic := by
    unfold WireSpec.caEnergy at h5
    obtain ⟨r, c1, h5⟩ := bind_ok h5
    have q1 := P .command hp.tCK c1
    cases h5; exact ⟨q1.1, q1.2, le_refl _, le_refl _⟩
  obtain ⟨a1, b1, c1, d1⟩ := a1
  obtain ⟨a2, b2, c2, d2⟩ := a2
  obtain ⟨a3, b3, c3, d3⟩ := a3
  obtain ⟨a4, b4, c4, d4⟩ := a4
  obtain ⟨a5, b5, c5, d5⟩ := a5
  split at h
  · cases h
    simp only [InterfaceInfo.add, InterfaceEnergy.add]
    exact ⟨by positivity, by positivity, by positivity, by positivity⟩
  · obtain ⟨dbi, h6, h⟩ := bind_ok h
    have a6 : 0 ≤ dbi.controller.static ∧ 0 ≤ dbi.controller.dynamic ∧ 0 ≤ dbi.dram.static ∧ 0 ≤ dbi.dram.dynamic := by
      unfold WireSpec.dbiEnergy at h6
      obtain ⟨r, c1, h6⟩ := bind_ok h6
      obtain ⟨w, c2, h6⟩ := bind_ok h6
      have q1 := P .readInv hp.tCK c1
      have q2 := P .writeInv hp.tCK c2
      cases h6; exact ⟨q2.1, q2.2, q1.1, q1.2⟩
    obtain ⟨a6, b6, c6, d6⟩ := a6
    cases h
    simp only [InterfaceInfo.add, InterfaceEnergy.add]
    exact ⟨by positivity, by positivity, by positivity, by positivity⟩

/-- No activity, no energy. -/
theorem C46_zero (hr : s.dataRate ≠ 0) (hq : s.dqsRate ≠ 0) (hR : ∀ g : Group, (g.wiring s.imp).rEq ≠ 0) :
    s.calculateEnergy std {} = .ok {} := by
  have P : ∀ (g : Group) (on : Bool) (t : Rat) (rate : Nat), rate ≠ 0 → s.pair std (g.wiring s.imp) on {} t rate = .ok {} := by
    intro g on t rate h
    rw [pair_mk (fun _ => ⟨hR g, h⟩)]
    cases std <;> cases on <;> simp [WireSpec.drained]
  have A : ∀ (g : Group) (read : Bool), s.ambleEnergy {} (g.wiring s.imp) read = .ok {} := by
    intro g read
    have u : usub (WireSpec.transferCount {} read) (WireSpec.seamlessCount {} read) = 0 := by cases read <;> rfl
    unfold WireSpec.ambleEnergy
    rw [u]
    simp [hR g, WireSpec.static, WireSpec.dynamic]
  have hd : (if std = .ddr5 then s.dqsRate else s.dataRate) ≠ 0 := by split <;> assumption
  have hc : (if std = .lpddr5 ∨ std = .lpddr6 then 2 else 1) ≠ 0 := by split <;> decide
  have p1 := fun on t => P .clock on t 2 (by decide)
  have p2 := fun on t => P .dataClock on t 2 (by decide)
  have p3 := fun on t => P .command on t _ hc
  have p4 := fun on t => P .readStrobe on t _ hd
  have p5 := fun on t => P .writeStrobe on t _ hd
  have p6 := fun on t => P .readData on t _ hr
  have p7 := fun on t => P .writeData on t _ hr
  have p8 := fun on t => P .readInv on t _ hr
  have p9 := fun on t => P .writeInv on t _ hr
  have a1 := A .readStrobe true
  have a2 := A .writeStrobe false
  simp only [Group.wiring] at p1 p2 p3 p4 p5 p6 p7 p8 p9 a1 a2
  simp only [WireSpec.calculateEnergy, WireSpec.clockEnergy, WireSpec.dqsEnergy, WireSpec.togglingEnergy, WireSpec.dqEnergy,
    WireSpec.caEnergy, WireSpec.dbiEnergy, p1, p2, p3, p4, p5, p6, p7, p8, p9, a1, a2, bind, Except.bind, pure, Except.pure]
  cases std <;> simp [InterfaceInfo.add, InterfaceEnergy.add]

/-- Everything that is claimed about sums. -/
def C46_statement (std : Std) : Prop :=
  ∀ (s : WireSpec) (a b : SimStats) (e f : InterfaceInfo), s.calculateEnergy std a = .ok e → s.calculateEnergy std b = .ok f →
    s.calculateEnergy std (a.add b) = .ok (e.add f)

/-- Missing from the full statement: DDR4 statistics with more gapless transfers than transfers of the ranks, or with more than `2 ^ 64`
edges. -/
theorem C46_add_partial {a b : SimStats} {e f : InterfaceInfo} (h4 : std = .ddr4 → SumRegular s a b)
    (ha : s.calculateEnergy std a = .ok e) (hb : s.calculateEnergy std b = .ok f) :
    s.calculateEnergy std (a.add b) = .ok (e.add f) := by
  unfold WireSpec.calculateEnergy at ha hb ⊢
  obtain ⟨clock, x1, ha⟩ := bind_ok ha
  obtain ⟨dqs, x2, ha⟩ := bind_ok ha
  obtain ⟨toggling, x3, ha⟩ := bind_ok ha
  obtain ⟨dq, x4, ha⟩ := bind_ok ha
  obtain ⟨ca, x5, ha⟩ := bind_ok ha
  obtain ⟨clock', y1, hb⟩ := bind_ok hb
  obtain ⟨dqs', y2, hb⟩ := bind_ok hb
  obtain ⟨toggling', y3, hb⟩ := bind_ok hb
  obtain ⟨dq', y4, hb⟩ := bind_ok hb
  obtain ⟨ca', y5, hb⟩ := bind_ok hb
  have z1 : s.clockEnergy std (a.add b) = .ok (clock.add clock') := by
    unfold WireSpec.clockEnergy at x1 y1 ⊢
    obtain ⟨p, c1, x1⟩ := bind_ok x1
    obtain ⟨q, d1, y1⟩ := bind_ok y1
    rw [show (a.add b).clockStats = a.clockStats + b.clockStats from rfl]
    simp only [pair_add c1 d1, bind, Except.bind]
    by_cases hs : std = .lpddr5 ∨ std = .lpddr6
    · rw [if_pos hs] at x1 y1 ⊢
      obtain ⟨p', c2, x1⟩ := bind_ok x1
      obtain ⟨q', d2, y1⟩ := bind_ok y1
      rw [show (a.add b).wClockStats = a.wClockStats + b.wClockStats from rfl]
      simp only [pair_add c2 d2, pure, Except.pure]
      cases x1; cases y1
      congr 1
      apply info_ext <;> simp [InterfaceInfo.add, InterfaceEnergy.add] <;> ring
    · rw [if_neg hs] at x1 y1 ⊢
      cases x1; cases y1
      simp [InterfaceInfo.add, InterfaceEnergy.add, bind, Except.bind, pure, Except.pure]
  have z2 : s.dqsEnergy std (a.add b) = .ok (dqs.add dqs') := by
    unfold WireSpec.dqsEnergy at x2 y2 ⊢
    obtain ⟨p, c1, x2⟩ := bind_ok x2
    obtain ⟨q, d1, y2⟩ := bind_ok y2
    rw [show (a.add b).readDQSStats = a.readDQSStats + b.readDQSStats from rfl]
    simp only [pair_add c1 d1, bind, Except.bind]
    by_cases hs : std = .lpddr5 ∨ std = .lpddr6
    · rw [if_pos hs] at x2 y2 ⊢
      cases x2; cases y2
      simp [InterfaceInfo.add, InterfaceEnergy.add, pure, Except.pure]
    · rw [if_neg hs] at x2 y2 ⊢
      obtain ⟨p', c2, x2⟩ := bind_ok x2
      obtain ⟨q', d2, y2⟩ := bind_ok y2
      rw [show (a.add b).writeDQSStats = a.writeDQSStats + b.writeDQSStats from rfl]
      simp only [pair_add c2 d2]
      by_cases h : std = .ddr4
      · rw [if_pos h] at x2 y2 ⊢
        obtain ⟨w, c3, x2⟩ := bind_ok x2
        obtain ⟨w', d3, y2⟩ := bind_ok y2
        obtain ⟨r, c4, x2⟩ := bind_ok x2
        obtain ⟨r', d4, y2⟩ := bind_ok y2
        have hf := h4 h false
        have ht := h4 h true
        have w3 := amble_add (s := s) hf.1 hf.2.1 (by rw [transferCount_add]; exact hf.2.2) c3 d3
        have w4 := amble_add (s := s) ht.1 ht.2.1 (by rw [transferCount_add]; exact ht.2.2) c4 d4
        cases x2; cases y2
        simp only [w3, w4, pure, Except.pure]
        congr 1
        apply info_ext <;> simp only [InterfaceInfo.add, InterfaceEnergy.add] <;> ring
      · rw [if_neg h] at x2 y2 ⊢
        cases x2; cases y2
        simp [InterfaceInfo.add, pure, Except.pure]
  have z3 : s.togglingEnergy std (a.add b) = .ok (toggling.add toggling') := by
    unfold WireSpec.togglingEnergy at x3 y3 ⊢
    obtain ⟨p, c1, x3⟩ := bind_ok x3
    obtain ⟨q, d1, y3⟩ := bind_ok y3
    obtain ⟨p', c2, x3⟩ := bind_ok x3
    obtain ⟨q', d2, y3⟩ := bind_ok y3
    rw [show (a.add b).togglingWrite = a.togglingWrite + b.togglingWrite from rfl, pair_add c1 d1,
      show (a.add b).togglingRead = a.togglingRead + b.togglingRead from rfl]
    simp only [pair_add c2 d2, bind, Except.bind]
    cases x3; cases y3; rfl
  have z4 : s.dqEnergy std (a.add b) = .ok (dq.add dq') := by
    unfold WireSpec.dqEnergy at x4 y4 ⊢
    obtain ⟨p, c1, x4⟩ := bind_ok x4
    obtain ⟨q, d1, y4⟩ := bind_ok y4
    obtain ⟨p', c2, x4⟩ := bind_ok x4
    obtain ⟨q', d2, y4⟩ := bind_ok y4
    rw [show (a.add b).readBus = a.readBus + b.readBus from rfl, pair_add c1 d1,
      show (a.add b).writeBus = a.writeBus + b.writeBus from rfl]
    simp only [pair_add c2 d2, bind, Except.bind]
    cases x4; cases y4; rfl
  have z5 : s.caEnergy std (a.add b) = .ok (ca.add ca') := by
    unfold WireSpec.caEnergy at x5 y5 ⊢
    obtain ⟨p, c1, x5⟩ := bind_ok x5
    obtain ⟨q, d1, y5⟩ := bind_ok y5
    rw [show (a.add b).commandBus = a.commandBus + b.commandBus from rfl, pair_add c1 d1]
    cases x5; cases y5
    simp [InterfaceInfo.add, InterfaceEnergy.add, bind, Except.bind, pure, Except.pure]
  simp only [z1, z2, z3, z4, z5, bind, Except.bind]
  by_cases hs : std = .ddr5 ∨ std = .lpddr6
  · rw [if_pos hs] at ha hb ⊢
    cases ha; cases hb
    simp only [pure, Except.pure]
    congr 1
    apply info_ext <;> simp [InterfaceInfo.add, InterfaceEnergy.add] <;> ring
  · rw [if_neg hs] at ha hb ⊢
    obtain ⟨dbi, x6, ha⟩ := bind_ok ha
    obtain ⟨dbi', y6, hb⟩ := bind_ok hb
    have z6 : s.dbiEnergy std (a.add b) = .ok (dbi.add dbi') := by
      unfold WireSpec.dbiEnergy at x6 y6 ⊢
      obtain ⟨p, c1, x6⟩ := bind_ok x6
      obtain ⟨q, d1, y6⟩ := bind_ok y6
      obtain ⟨p', c2, x6⟩ := bind_ok x6
      obtain ⟨q', d2, y6⟩ := bind_ok y6
      rw [show (a.add b).readDBI = a.readDBI + b.readDBI from rfl, pair_add c1 d1,
        show (a.add b).writeDBI = a.writeDBI + b.writeDBI from rfl]
      simp only [pair_add c2 d2, bind, Except.bind]
      cases x6; cases y6; rfl
    cases ha; cases hb
    simp only [z6, pure, Except.pure]
    congr 1
    apply info_ext <;> simp [InterfaceInfo.add, InterfaceEnergy.add] <;> ring

/-- More activity never needs less energy; missing the same as above. -/
theorem C46_mono_partial (hp : Physical s) {a b : SimStats} {e f : InterfaceInfo} (h4 : std = .ddr4 → SumRegular s a b)
    (ha : s.calculateEnergy std a = .ok e) (hb : s.calculateEnergy std b = .ok f) :
    ∃ g, s.calculateEnergy std (a.add b) = .ok g ∧ e.total ≤ g.total ∧ g.total = e.total + f.total := by
  refine ⟨_, C46_add_partial h4 ha hb, ?_, ?_⟩
  · obtain ⟨h1, h2, h3, h4⟩ := C46_nonneg hp hb
    simp only [InterfaceInfo.total, InterfaceInfo.add, InterfaceEnergy.add]
    linarith
  · simp only [InterfaceInfo.total, InterfaceInfo.add, InterfaceEnergy.add]; ring

/-- One volt, one ohm, one second: the read strobe is terminated, a preamble is low for one period. -/
def c46Wires : WireSpec :=
  { tCK := 1, vddq := 1, dataRate := 2, ambles := { readZeroes := 1 }, imp := { rdqs := { termination := true } } }

/-- One gapless transfer without a counted one, and two counted ones: the difference of the first wraps, that of the sum does not. -/
theorem C46_violation : ¬ C46_statement .ddr4 := by
  intro h
  have hw : ∃ e f, c46Wires.calculateEnergy .ddr4 { rankTotal := [{ prepos := { readSeamless := 1 } }] } = .ok e ∧
      c46Wires.calculateEnergy .ddr4 { rankTotal := [{ counter := { reads := 2 } }] } = .ok f ∧
      e.dram.static = 2 ^ 64 - 1 ∧ f.dram.static = 2 := ⟨_, _, rfl, rfl, by decide +kernel, by decide +kernel⟩
  obtain ⟨e, f, h1, h2, h3, h4⟩ := hw
  have := h _ _ _ _ _ h1 h2
  have h5 := congrArg (fun x : Except Err InterfaceInfo => x.map fun i => i.dram.static) this
  rw [show (Except.ok (e.add f) : Except Err InterfaceInfo).map (fun i => i.dram.static) = .ok (e.dram.static + f.dram.static) from rfl,
    h3, h4] at h5
  exact absurd h5 (by decide +kernel)

/-- The total energy is the sum of the parts reported by the separate calls. -/
theorem C46_total {N : Nat} {ms : MemSpec} {sp : IfSpec} {ps : PowerSpec} {ws : WireSpec} {s s1 s2 : Simulator std N} {t : Nat}
    {a : Energy} {b : InterfaceInfo} (h1 : s.calcCoreEnergy ms sp ps t = .ok (s1, a)) (h2 : s.calcInterfaceEnergy ms sp ws t = .ok (s2, b)) :
    s.getTotalEnergy ms sp ps ws t = .ok (s2, a.total + b.total) := by
  have idem : ∀ {x : Simulator std N} {st : SimStats}, s.getWindowStats ms sp t = .ok (x, st) → x.getWindowStats ms sp t = .ok (x, st) := by
    intro x st hx
    unfold Simulator.getWindowStats at hx ⊢
    obtain ⟨y, hy, hx⟩ := bind_ok hx
    cases hx
    have e : Core.getWindowStats std ms (s.core.process std t) t = s.core.getWindowStats std ms t := by
      unfold Core.getWindowStats
      rw [Core.process_process (Nat.le_refl t)]
    show (do let st ← s.interface.getWindowStats sp t (Core.getWindowStats std ms (s.core.process std t) t).2.toSim
             pure (({ core := (Core.getWindowStats std ms (s.core.process std t) t).1, interface := s.interface } : Simulator std N), st)) = _
    rw [e]
    rw [show s.interface.getWindowStats sp t (s.core.getWindowStats std ms t).2.toSim = .ok st from hy]
    rfl
  unfold Simulator.calcCoreEnergy at h1
  obtain ⟨⟨x, st⟩, hx, h1⟩ := bind_ok h1
  obtain ⟨ce, hce, h1⟩ := bind_ok h1
  cases h1
  unfold Simulator.calcInterfaceEnergy at h2
  obtain ⟨⟨x', st'⟩, hx', h2⟩ := bind_ok h2
  obtain ⟨ie, hie, h2⟩ := bind_ok h2
  cases h2
  rw [hx] at hx'
  cases hx'
  unfold Simulator.getTotalEnergy Simulator.calcCoreEnergy Simulator.calcInterfaceEnergy
  simp only [hx, hce, idem hx, hie, bind, Except.bind, pure, Except.pure]

/-- `c46Wires` is physical and has energy, the statistics are regular. -/
example : Physical c46Wires ∧ c46Wires.dataRate ≠ 0 ∧ c46Wires.dqsRate ≠ 0 ∧ (∀ g : Group, (g.wiring c46Wires.imp).rEq ≠ 0) ∧
    SumRegular c46Wires { rankTotal := [{ counter := { reads := 2 }, prepos := { readSeamless := 1 } }] }
      { rankTotal := [{ counter := { reads := 2 } }] } ∧
    ((c46Wires.calculateEnergy .ddr4 { rankTotal := [{ counter := { reads := 2 }, prepos := { readSeamless := 1 } }] }).map fun e =>
      e.dram.static) = .ok 1 := by
  refine ⟨⟨by decide +kernel, by decide +kernel, ⟨by decide +kernel, by decide +kernel⟩, ?_⟩, by decide, by decide, ?_, ?_, by decide +kernel⟩
  · intro g; cases g <;> exact ⟨by decide +kernel, by decide +kernel⟩
  · intro g; cases g <;> decide +kernel
  · intro read; cases read <;> exact ⟨by decide +kernel, by decide +kernel, by decide +kernel⟩

/-- A trace for which both energies are calculated. -/
example : ((Simulator.init .ddr4 64 { numberOfBanks := 4, tRFC := 10, tRAS := 10, tRP := 5, prechargeOffsetRD := 4, prechargeOffsetWR := 8 }
      { dataRate := 2, burstLength := 8, bitWidth := 8, devices := 1 }).bind fun s =>
    (s.calcInterfaceEnergy { numberOfBanks := 4, tRFC := 10, tRAS := 10, tRP := 5, prechargeOffsetRD := 4, prechargeOffsetWR := 8 }
      { dataRate := 2, burstLength := 8, bitWidth := 8, devices := 1 } { c46Wires with imp := { ck := ⟨true, 1, 1⟩ } } 100).map
      fun x => x.2.total) = .ok 300 := by decide +kernel

end DRAMPower
