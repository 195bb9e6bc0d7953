import Verif.Spec.WireEnergy
import Verif.Props.C45
import Verif.Props.C48
import Verif.Props.C50
import Verif.Props.C52
import Verif.Props.C53
import Verif.Props.C67

/-!
# C70: the interface energy is that of the waveforms

From the list of commands to the reported energy: `Spec.expectedStats` gives the figures of all wires as read off the calls,
`Spec.interfaceEnergy` the energy they take.
-/

namespace DRAMPower
open Spec

variable {std : Std} {N : Nat} {sp : IfSpec} {ws : WireSpec} {ops : List IfOp} {i i' : Interface std N} {t : Nat} {st : SimStats}

/-- Everything that is claimed: the data clock has two half-cycles for each of its `wckToCk` periods per clock cycle. -/
def C70_statement (std : Std) : Prop :=
  ∀ (N : Nat) (sp : IfSpec) (ws : WireSpec) (ops : List IfOp) (i i' : Interface std N) (t : Nat) (c : CoreStats) (st : SimStats) (e : InterfaceInfo),
    Interface.init std N sp = .ok i → i.run sp ops = .ok i' → i'.getWindowStats sp t c.toSim = .ok st → ws.calculateEnergy std st = .ok e →
    AlwaysOn sp ops → EnergyDefined std ws → sp.bitWidth * sp.devices ≤ N → BurstsOver std sp ops t → SameMemory std sp ws →
    e = interfaceEnergy std ws (expectedStats std sp (2 * sp.wckToCk) ops t)

/-- The energy without the ambles does not depend on the counters. -/
def SimStats.wiresOnly (st : SimStats) : SimStats := { st with bank := [], rankTotal := [] }

theorem amble_free {s : WireSpec} {st st' : SimStats} (read : Bool) (w : Wiring)
    (h : w.termination = false ∨ (if read then s.ambles.readZeroes else s.ambles.writeZeroes) = 0 ∧
      (if read then s.ambles.readZeroesToOnes else s.ambles.writeZeroesToOnes) = 0) :
    s.ambleEnergy st w read = s.ambleEnergy st' w read := by
  unfold WireSpec.ambleEnergy
  rcases h with h | ⟨h1, h2⟩
  · simp only [if_pos h]
  · simp only [h1, h2]
    simp [WireSpec.static]

theorem calculate_wires (h : std = .ddr4 → FreeAmbles ws) : ws.calculateEnergy std st = ws.calculateEnergy std st.wiresOnly := by
  unfold WireSpec.calculateEnergy
  have e : ws.dqsEnergy std st = ws.dqsEnergy std st.wiresOnly := by
    unfold WireSpec.dqsEnergy
    by_cases h4 : std = .ddr4
    · obtain ⟨a, b⟩ := h h4
      rw [amble_free (st' := st.wiresOnly) false ws.imp.wdqs b, amble_free (st' := st.wiresOnly) true ws.imp.rdqs a]
      rfl
    · simp only [if_neg h4]
      rfl
  rw [e]
  rfl

/-- Statistics without transfers. -/
theorem wiresOnly_counted : AmblesCounted ws st.wiresOnly := by
  intro read
  cases read <;> simp [SimStats.wiresOnly, rankTransfers, transfersOf, gaplessOf, ambleCount]

/-- With free ambles the counters do not matter on the side of the specification either. -/
theorem energy_wires (h : std = .ddr4 → FreeAmbles ws) : interfaceEnergy std ws st = interfaceEnergy std ws st.wiresOnly := by
  have key : ∀ read, ambleStatic std ws st read = ambleStatic std ws st.wiresOnly read ∧
      ambleDynamic std ws st read = ambleDynamic std ws st.wiresOnly read := by
    intro read
    unfold ambleStatic ambleDynamic
    by_cases h4 : std = .ddr4
    · obtain ⟨a, b⟩ := h h4
      cases read
      · rcases b with b | ⟨b1, b2⟩
        · simp [b]
        · simp [b1, b2]
      · rcases a with b | ⟨b1, b2⟩
        · simp [b]
        · simp [b1, b2]
    · simp [h4]
  unfold interfaceEnergy
  rw [(key true).1, (key true).2, (key false).1, (key false).2]
  rfl

/-- Energies agree if the groups agree in the level that costs and in the rising edges. -/
theorem energy_congr {a b : SimStats} (h : std = .ddr4 → FreeAmbles ws) (hg : ∀ g ∈ groups std,
    Group.lossy std (g.figures a) = Group.lossy std (g.figures b) ∧ (g.figures a).zeroesToOnes = (g.figures b).zeroesToOnes) :
    interfaceEnergy std ws a = interfaceEnergy std ws b := by
  rw [energy_wires h, energy_wires (st := b) h]
  have s1 : ∀ d, sideSum std d (Group.static std ws a) = sideSum std d (Group.static std ws b) := by
    intro d
    unfold sideSum
    congr 1
    refine List.map_congr_left fun g hm => ?_
    unfold Group.static
    rw [(hg g (List.mem_of_mem_filter hm)).1]
  have s2 : ∀ d, sideSum std d (Group.dynamic ws a) = sideSum std d (Group.dynamic ws b) := by
    intro d
    unfold sideSum
    congr 1
    refine List.map_congr_left fun g hm => ?_
    unfold Group.dynamic
    rw [(hg g (List.mem_of_mem_filter hm)).2]
  have f : ∀ (s : SimStats) (g : Group), g.figures s.wiresOnly = g.figures s := fun s g => by cases g <;> rfl
  have e1 : ∀ (s : SimStats), Group.static std ws s.wiresOnly = Group.static std ws s := fun s => by
    funext g; unfold Group.static; rw [f]
  have e2 : ∀ (s : SimStats), Group.dynamic ws s.wiresOnly = Group.dynamic ws s := fun s => by
    funext g; unfold Group.dynamic; rw [f]
  unfold interfaceEnergy
  rw [e1, e2, e1, e2, s1, s1, s2, s2]
  rfl

theorem anyBursts_mem {read : Bool} {b : Nat × Nat} (h : b ∈ bursts std sp read ops) : b ∈ anyBursts std sp ops := by
  unfold bursts at h
  unfold anyBursts
  obtain ⟨op, ho, hb⟩ := List.mem_filterMap.1 h
  refine List.mem_filterMap.2 ⟨op, ho, ?_⟩
  cases op with
  | cmd c =>
    simp only [burstOf] at hb
    simp only [anyBurstOf]
    split at hb
    · rename_i hd
      rw [if_pos (by rw [hd]; simp)]
      exact hb
    · cases hb
  | _ => cases hb

/-- A clock that runs during bursts, at any even rate. -/
theorem burstClock_figures {rate dr : Nat} {k : Clock} {l : List (Nat × Nat)} (h : (Clock.init rate true).run (l.flatMap (strobeCalls dr)) = .ok k)
    (he : rate % 2 = 0) (hd : 0 < dr) (h1 : ∀ b ∈ l, dr ∣ b.2) (h2 : ∀ b ∈ l, b.1 * dr + b.2 ≤ t * dr) :
    k.getStats t = burstClock dr rate l t := by
  have := C21_partial (Clock.init rate true) k he _ h t (by intro s hs; cases hs) (strobes_before hd h2)
  rw [this]
  have key : ∀ l : List (Nat × Nat), (∀ b ∈ l, dr ∣ b.2) → (∀ b ∈ l, b.1 * dr + b.2 ≤ t * dr) →
      Spec.clock rate none (l.flatMap (strobeCalls dr)) t = burstClock dr rate l t := by
    intro l
    induction l with
    | nil => intros; rfl
    | cons b l ih =>
      intro h1 h2
      have hi := ih (fun x hx => h1 x (by simp [hx])) fun x hx => h2 x (by simp [hx])
      show halfCycles ((b.1 + b.2 / dr - b.1) * rate) + Spec.clock rate none (l.flatMap (strobeCalls dr)) t = _
      rw [hi, Nat.add_sub_cancel_left]
      unfold burstClock
      rw [List.map_cons, Spec.strobe]
      congr 2
      refine (Nat.min_eq_left ?_).symm
      refine Nat.mul_le_mul_right _ ?_
      have hb := h2 b (by simp)
      obtain ⟨q, hq⟩ := h1 b (by simp)
      rw [hq, Nat.mul_div_cancel_left _ hd]
      rw [hq] at hb
      have : b.1 + q ≤ t := by
        by_contra hc
        have : (t + 1) * dr ≤ (b.1 + q) * dr := Nat.mul_le_mul_right _ (by omega)
        have e1 : (t + 1) * dr = t * dr + dr := Nat.succ_mul _ _
        have e2 : (b.1 + q) * dr = b.1 * dr + dr * q := by rw [Nat.add_mul, Nat.mul_comm q]
        omega
      omega
  show ({} : BusStats) + Spec.clock rate none (l.flatMap (strobeCalls dr)) t = _
  rw [key l h1 h2, BusStats.zero_add]

/-- The restrictions under which the code agrees. -/
structure Spec.WiresFaithful (std : Std) (sp : IfSpec) (ws : WireSpec) (ops : List IfOp) : Prop where
  even : sp.dataRate % 2 = 0
  ambles : std = .ddr4 → FreeAmbles ws
  strobes : std = .ddr5 → sp.dqsRate = sp.dataRate
  rates : std = .ddr5 → sp.toggling = none ∨ ws.imp.rdq.termination = true ∧ ws.imp.wdq.termination = true
  rows : std = .lpddr4 → ∀ c, .cmd c ∈ ops → c.type = .ACT → c.co.row.testBit 18 = false
  noInversion6 : std = .lpddr6 → .dbi true ∉ ops
  clocks : std = .lpddr5 ∨ std = .lpddr6 → sp.dataRate / sp.wckToCk % 2 = 0
  pins : std = .ddr4 ∨ std = .lpddr4 ∨ std = .lpddr5 → WholeBeats sp ops ∧ Ends ops ∧
    (SettlingBoth std sp ops ∧ sp.dataRate = 2 ∨ std ≠ .ddr4 ∧ .dbi true ∉ ops)

/-- Pins that are never set. -/
theorem markStats_none (h4 : std ≠ .ddr4) (n : Nat) (s : BusStats) :
    (markStats std sp [] n s).ones = s.ones ∧ (markStats std sp [] n s).zeroesToOnes = s.zeroesToOnes := by
  have line : ∀ p, markLine std [] p = fun _ => .L := by
    intro p
    funext k
    simp [markLine, plainLevel, h4]
  have pin : ∀ n, (PinLine.stats (fun _ => .L) .L n).ones = 0 ∧ (PinLine.stats (fun _ => .L) .L n).zeroesToOnes = 0 := by
    intro n
    induction n with
    | zero => exact ⟨rfl, rfl⟩
    | succ n ih =>
      unfold PinLine.stats
      have : PinLine.before (fun _ => .L) .L n = .L := by cases n <;> rfl
      rw [this, BusStats.add_ones, BusStats.add_zeroesToOnes, ih.1, ih.2]
      exact ⟨rfl, rfl⟩
  unfold markStats
  have hp : plainLevel std = .L := by simp [plainLevel, h4]
  generalize List.range (inversionPins std sp) = l
  induction l generalizing s with
  | nil => exact ⟨rfl, rfl⟩
  | cons p l ih =>
    rw [List.foldl_cons]
    obtain ⟨a, b⟩ := ih (s + (markLine std [] p).stats (plainLevel std) n)
    rw [a, b, line, hp]
    simp only [BusStats.add_ones, BusStats.add_zeroesToOnes]
    rw [(pin n).1, (pin n).2]
    exact ⟨rfl, rfl⟩

theorem running_clock {r : Nat} (he : r % 2 = 0) : (Clock.init r false).getStats t = halfCycles (t * r) := by
  have := C21_partial (Clock.init r false) _ he [] rfl t (by intro s hs; cases hs; omega) (by simp)
  rw [this]
  show ({} : BusStats) + halfCycles ((t - 0) * r) = _
  rw [BusStats.zero_add, Nat.sub_zero]

/-- The groups of wires, one after the other. -/
theorem group_figures (hi : Interface.init std N sp = .ok i) (hr : i.run sp ops = .ok i') {c : CoreStats}
    (hq : i'.getWindowStats sp t c.toSim = .ok st) (hon : AlwaysOn sp ops) (hN : sp.bitWidth * sp.devices ≤ N)
    (hb : BurstsOver std sp ops t) (hf : WiresFaithful std sp ws ops) {g : Group} (hg : g ∈ groups std) :
    Group.lossy std (g.figures st) = Group.lossy std (g.figures (expectedStats std sp (sp.dataRate / sp.wckToCk) ops t)) ∧
      (g.figures st).zeroesToOnes = (g.figures (expectedStats std sp (sp.dataRate / sp.wckToCk) ops t)).zeroesToOnes := by
  have same : ∀ {a b : BusStats}, a = b → Group.lossy std a = Group.lossy std b ∧ a.zeroesToOnes = b.zeroesToOnes := fun e => by
    rw [e]; exact ⟨rfl, rfl⟩
  obtain ⟨hdr, _, _, _, _, _, ew, _⟩ := init_parts hi
  obtain ⟨_, _, _, _, qc, qw, _⟩ := windowStats_ok hq
  have clocks := steady_clocks hi hr hon
  have strobes : ∀ read : Bool, (read = false → std ≠ .lpddr5 ∧ std ≠ .lpddr6) → _ := fun read hw =>
    C47_partial hi hr hf.even hf.strobes t _ st hq read hw (fun b hm => (hb b (anyBursts_mem hm)).1) fun b hm => (hb b (anyBursts_mem hm)).2
  have pinsOf : hasPins std = true → ∀ r : Bool,
      Group.lossy std (if r then st.readDBI else st.writeDBI) = Group.lossy std (markStats std sp (marked std sp r {} ops) (t * sp.dataRate) {}) ∧
      (if r then st.readDBI else st.writeDBI).zeroesToOnes = (markStats std sp (marked std sp r {} ops) (t * sp.dataRate) {}).zeroesToOnes := by
    intro hp r
    obtain ⟨hw, he, hcase⟩ := hf.pins (by revert hp; cases std <;> decide)
    rcases hcase with ⟨hs, h2⟩ | ⟨h4, hno⟩
    · have := C52_partial std N sp ops i i' t _ st hi hr hq hw he hs
      rw [h2]
      cases r
      · exact same this.2
      · exact same this.1
    · have hm : ∀ r, marked std sp r {} ops = [] := fun r => C52_off rfl hno
      have hs : SettlingBoth std sp ops := fun read => by rw [hm]; trivial
      have k := C52_partial std N sp ops i i' t _ st hi hr hq hw he hs
      have none := markStats_none (sp := sp) h4
      have lossy : ∀ b : BusStats, b.ones = 0 → hasPins std = true → Group.lossy std b = 0 := by
        intro b hz hp
        revert hp h4
        cases std <;> simp [hasPins, Group.lossy, hz]
      cases r
      · show Group.lossy std st.writeDBI = _ ∧ st.writeDBI.zeroesToOnes = _
        rw [k.2, hm]
        refine ⟨?_, ?_⟩
        · rw [lossy _ ((none _ _).1) hp, lossy _ ((none _ _).1) hp]
        · rw [(none _ _).2, (none _ _).2]; rfl
      · show Group.lossy std st.readDBI = _ ∧ st.readDBI.zeroesToOnes = _
        rw [k.1, hm]
        refine ⟨?_, ?_⟩
        · rw [lossy _ ((none _ _).1) hp, lossy _ ((none _ _).1) hp]
        · rw [(none _ _).2, (none _ _).2]; rfl
  have data : st.readBus = payloadFigures std sp true ops t ∧ st.writeBus = payloadFigures std sp false ops t ∧
      st.togglingRead = rateFigures std sp true ops t ∧ st.togglingWrite = rateFigures std sp false ops t := by
    unfold payloadFigures rateFigures
    cases ht : sp.toggling with
    | none =>
      have k := C49_partial std N sp ops i i' t _ st ht hN hi hr hq hf.noInversion6
      simp only [if_true]
      exact ⟨k.1.trans (BusStats.zero_add _), k.2.1.trans (BusStats.zero_add _), k.2.2.1, k.2.2.2⟩
    | some rates =>
      have k := C49_toggling hi hr hq ht
      simp only [reduceCtorEq, if_false, if_true]
      exact ⟨k.2.2.1, k.2.2.2, k.1.trans (BusStats.zero_add _), k.2.1.trans (BusStats.zero_add _)⟩
  cases g with
  | clock =>
    refine same ?_
    show st.clockStats = 2 * halfCycles (t * 2)
    rw [qc, clocks.1, running_clock rfl]
  | dataClock =>
    have hm := dataClock_mobile hg
    refine same ?_
    show st.wClockStats = _
    rw [qw hm]
    unfold expectedStats
    simp only [Group.figures]
    congr 1
    by_cases ho : sp.wckAlwaysOn = true
    · rw [if_pos ho, clocks.2 hm ho]
      exact running_clock (hf.clocks hm)
    · have ho' : sp.wckAlwaysOn = false := by simpa using ho
      rw [if_neg ho]
      have k := (run_clocks ops (init_shaped hi) hr).wckBurst hm ho'
      rw [ew, ho'] at k
      simp only [Bool.not_false, Bool.or_true] at k
      exact burstClock_figures k (hf.clocks hm) hdr (fun b hx => (hb b hx).1) fun b hx => (hb b hx).2
  | command => exact same (C48_partial std N sp ops i i' t _ st hi hr hq fun c hc h4 ha => hf.rows h4 c hc ha)
  | readStrobe => exact same (strobes true (by simp))
  | writeStrobe => exact same (strobes false fun _ => by revert hg; cases std <;> decide)
  | readData => exact same data.1
  | writeData => exact same data.2.1
  | readRate => exact same data.2.2.1
  | writeRate => exact same data.2.2.2
  | readInv => exact pinsOf (inv_pins hg (.inl rfl)) true
  | writeInv => exact pinsOf (inv_pins hg (.inr rfl)) false

/-- Every accepted trace: the energy is that of the waveforms, if the data clock is given the rate the code uses. -/
theorem C70_partial (hi : Interface.init std N sp = .ok i) (hr : i.run sp ops = .ok i') {c : CoreStats}
    (hq : i'.getWindowStats sp t c.toSim = .ok st) (hon : AlwaysOn sp ops) (hd : EnergyDefined std ws) (hN : sp.bitWidth * sp.devices ≤ N)
    (hb : BurstsOver std sp ops t) (hs : ws.dataRate = sp.dataRate) (hf : WiresFaithful std sp ws ops) :
    ws.calculateEnergy std st = .ok (interfaceEnergy std ws (expectedStats std sp (sp.dataRate / sp.wckToCk) ops t)) := by
  have figs := fun g (hg : g ∈ groups std) => group_figures hi hr hq hon hN hb hf hg
  have rates : std = .ddr5 → RatesTerminated ws st.wiresOnly := by
    intro h5 g hg
    have hg' : g = .readRate ∨ g = .writeRate := by simpa using hg
    rcases hf.rates h5 with h | ⟨h1, h2⟩
    · right; right
      refine ⟨by rw [hs]; exact Nat.pos_iff_ne_zero.1 (init_parts hi).1, ?_⟩
      have f := (figs g (by subst h5; rcases hg' with rfl | rfl <;> decide)).1
      subst h5
      rcases hg' with rfl | rfl
      · have : (rateFigures .ddr5 sp true ops t).zeroes = 0 := by unfold rateFigures; rw [h]
        exact f.trans this
      · have : (rateFigures .ddr5 sp false ops t).zeroes = 0 := by unfold rateFigures; rw [h]
        exact f.trans this
    · left
      rcases hg' with rfl | rfl
      · exact h1
      · exact h2
  rw [calculate_wires hf.ambles, C45_partial std ws st.wiresOnly hd (fun _ => wiresOnly_counted) rates, ← energy_wires hf.ambles]
  exact congrArg _ (energy_congr hf.ambles figs)

/-- If the rate of the data clock is right as well, this is what is claimed. -/
theorem C70_claim_partial (hi : Interface.init std N sp = .ok i) (hr : i.run sp ops = .ok i') {c : CoreStats}
    (hq : i'.getWindowStats sp t c.toSim = .ok st) (hon : AlwaysOn sp ops) (hd : EnergyDefined std ws) (hN : sp.bitWidth * sp.devices ≤ N)
    (hb : BurstsOver std sp ops t) (hs : SameMemory std sp ws) (hf : WiresFaithful std sp ws ops)
    (hw : std = .lpddr5 ∨ std = .lpddr6 → sp.dataRate / sp.wckToCk = 2 * sp.wckToCk) :
    ws.calculateEnergy std st = .ok (interfaceEnergy std ws (expectedStats std sp (2 * sp.wckToCk) ops t)) := by
  rw [C70_partial hi hr hq hon hd hN hb hs.data hf]
  refine congrArg _ (energy_congr hf.ambles fun g hg => ?_)
  cases g with
  | dataClock => rw [hw (dataClock_mobile hg)]; exact ⟨rfl, rfl⟩
  | _ => exact ⟨rfl, rfl⟩

/-- A simulator whose interface has executed the commands. -/
theorem simulator_energy {ms : MemSpec} {s s' : Simulator std N} {e : InterfaceInfo} (h1 : Interface.init std N sp = .ok i)
    (h2 : i.run sp ops = .ok s.interface) (hq : s.calcInterfaceEnergy ms sp ws t = .ok (s', e)) (hon : AlwaysOn sp ops) (hd : EnergyDefined std ws)
    (hN : sp.bitWidth * sp.devices ≤ N) (hb : BurstsOver std sp ops t) (hs : ws.dataRate = sp.dataRate) (hf : WiresFaithful std sp ws ops) :
    e = interfaceEnergy std ws (expectedStats std sp (sp.dataRate / sp.wckToCk) ops t) := by
  unfold Simulator.calcInterfaceEnergy at hq
  obtain ⟨⟨s1, st⟩, h3, hq⟩ := bind_ok hq
  obtain ⟨e', h4, hq⟩ := bind_ok hq
  have ee := pure_ok hq
  injection ee with _ ee
  subst ee
  have := C70_partial h1 h2 (simulator_stats h3) hon hd hN hb hs hf
  rw [h4] at this
  exact Except.ok.inj this

/-- The simulator: the energy reported after a sequence of commands. -/
theorem C70_simulator_partial {ms : MemSpec} {cs : List ICmd} {s s' s'' : Simulator std N} {e : InterfaceInfo}
    (hi : Simulator.init std N ms sp = .ok s) (hr : s.run ms sp cs = .done s') (hq : s'.calcInterfaceEnergy ms sp ws t = .ok (s'', e))
    (hon : sp.enabled = true) (hd : EnergyDefined std ws) (hN : sp.bitWidth * sp.devices ≤ N) (hb : BurstsOver std sp (cs.map .cmd) t)
    (hs : ws.dataRate = sp.dataRate) (hf : WiresFaithful std sp ws (cs.map .cmd)) :
    e = interfaceEnergy std ws (expectedStats std sp (sp.dataRate / sp.wckToCk) (cs.map .cmd) t) :=
  simulator_energy (simulator_init hi).2 (run_halves cs hr).2 hq ⟨hon, fun t h => by simp at h⟩ hd hN hb hs hf

/-- The total energy: the power of the core over time (C67) and the energy of the waveforms. -/
theorem C70_total_partial {ms : MemSpec} {ps : PowerSpec} {cs : List ICmd} {s s' s'' : Simulator std N} {e : Rat}
    (hi : Simulator.init std N ms sp = .ok s) (hr : s.run ms sp cs = .done s') (hq : s'.getTotalEnergy ms sp ps ws t = .ok (s'', e))
    (hv : ValidSpec std ms) (hfit : Fits std ms ps) (ht : TameTrace std ms (cs.map ICmd.core)) (hT : ∀ c ∈ cs, c.t ≤ t)
    (hon : sp.enabled = true) (hd : EnergyDefined std ws) (hN : sp.bitWidth * sp.devices ≤ N) (hb : BurstsOver std sp (cs.map .cmd) t)
    (hs : ws.dataRate = sp.dataRate) (hf : WiresFaithful std sp ws (cs.map .cmd)) :
    e = coreEnergy std ms ps (cs.map ICmd.core) t +
      (interfaceEnergy std ws (expectedStats std sp (sp.dataRate / sp.wckToCk) (cs.map .cmd) t)).total := by
  unfold Simulator.getTotalEnergy at hq
  obtain ⟨⟨s1, a⟩, h1, hq⟩ := bind_ok hq
  obtain ⟨⟨s2, b⟩, h2, hq⟩ := bind_ok hq
  have ee := pure_ok hq
  injection ee with _ ee
  subst ee
  have hk : s1.interface = s'.interface := by
    unfold Simulator.calcCoreEnergy at h1
    obtain ⟨⟨s3, st⟩, h3, h1⟩ := bind_ok h1
    obtain ⟨e', _, h1⟩ := bind_ok h1
    have e1 := pure_ok h1
    injection e1 with e1 _
    subst e1
    unfold Simulator.getWindowStats at h3
    obtain ⟨st', _, h3⟩ := bind_ok h3
    have e3 := pure_ok h3
    injection e3 with e3 _
    subst e3
    rfl
  rw [C67_partial hv hfit ht hi hr hT h1,
    simulator_energy (simulator_init hi).2 (by rw [hk]; exact (run_halves cs hr).2) h2 ⟨hon, fun t h => by simp at h⟩ hd hN hb hs hf]

/-- Interface energy of a trace, and what is expected. -/
def c70Energy (std : Std) (sp : IfSpec) (ws : WireSpec) (ops : List IfOp) (t : Nat) : Except Err InterfaceInfo := do
  let i ← Interface.init std 64 sp
  let i ← i.run sp ops
  let st ← i.getWindowStats sp t ({ bank := [], rankTotal := [] } : CoreStats).toSim
  ws.calculateEnergy std st

theorem c70_refute {std : Std} {sp : IfSpec} {ws : WireSpec} {ops : List IfOp} {t : Nat} {e : InterfaceInfo} (h : c70Energy std sp ws ops t = .ok e)
    (hon : AlwaysOn sp ops) (hd : EnergyDefined std ws) (hN : sp.bitWidth * sp.devices ≤ 64) (hb : BurstsOver std sp ops t)
    (hs : SameMemory std sp ws) (hne : e ≠ interfaceEnergy std ws (expectedStats std sp (2 * sp.wckToCk) ops t)) : ¬ C70_statement std := by
  intro hst
  unfold c70Energy at h
  obtain ⟨i, h1, h⟩ := bind_ok h
  obtain ⟨i', h2, h⟩ := bind_ok h
  obtain ⟨st, h3, h⟩ := bind_ok h
  exact hne (hst 64 sp ws ops i i' t _ st e h1 h2 h3 h hon hd hN hb hs)

instance (sp : IfSpec) (std : Std) (ops : List IfOp) (t : Nat) : Decidable (BurstsOver std sp ops t) :=
  inferInstanceAs (Decidable (∀ b ∈ _, _))

instance (std : Std) (s : WireSpec) (g : Group) : Decidable (g.Defined std s) := inferInstanceAs (Decidable (_ → _))
instance (std : Std) (s : WireSpec) : Decidable (EnergyDefined std s) := inferInstanceAs (Decidable (∀ g ∈ _, _))

/-- DDR4: two separate reads have two preambles of one low period each on one strobe pair; none is charged. -/
theorem C70_violation_ddr4 : ¬ C70_statement .ddr4 :=
  c70_refute (sp := c45If) (ws := c45Wires) (ops := (c45Trace [10, 20]).map .cmd) (t := 30) (e := { dram := { static := 8 } })
    (by decide +kernel) ⟨rfl, by simp⟩ (by decide) (by decide) (by decide) ⟨rfl, by simp, by simp⟩ (by decide +kernel)

/-- Data clock four times as fast as the clock. -/
def c70Mobile : IfSpec := { dataRate := 8, burstLength := 16, bitWidth := 8, devices := 1, wckToCk := 4, wckAlwaysOn := true }

/-- The edges of the data clock take energy. -/
def c70Edges : WireSpec := { tCK := 4, tWCK := 1, vddq := 1, dataRate := 8, imp := { wck := { dynE := 1 } } }

/-- LPDDR5 and LPDDR6: in ten clock cycles two wires have forty rising edges each; ten are charged. -/
theorem C70_violation_dataClock : ¬ C70_statement .lpddr5 ∧ ¬ C70_statement .lpddr6 :=
  ⟨c70_refute (sp := c70Mobile) (ws := c70Edges) (ops := []) (t := 10) (e := { controller := { dynamic := 20 } })
      (by decide +kernel) ⟨rfl, by simp⟩ (by decide) (by decide) (by decide) ⟨rfl, by simp, fun _ => by norm_num [c70Edges, c70Mobile]⟩
      (by decide +kernel),
    c70_refute (sp := c70Mobile) (ws := c70Edges) (ops := []) (t := 10) (e := { controller := { dynamic := 20 } })
      (by decide +kernel) ⟨rfl, by simp⟩ (by decide) (by decide) (by decide) ⟨rfl, by simp, fun _ => by norm_num [c70Edges, c70Mobile]⟩
      (by decide +kernel)⟩

/-- DDR5, rates, data wires without termination: a static energy is charged. -/
theorem C70_violation_ddr5 : ¬ C70_statement .ddr5 :=
  c70_refute (sp := { dataRate := 2, burstLength := 8, bitWidth := 8, devices := 1, toggling := some c49Rates })
    (ws := { tCK := 1, vddq := 1, dataRate := 2, imp := {} }) (ops := []) (t := 10) (e := { controller := { static := 80 } })
    (by decide +kernel) ⟨rfl, by simp⟩ (by decide) (by decide) (by decide) ⟨rfl, by simp, by simp⟩ (by decide +kernel)

/-- LPDDR4: bit 18 of a row is not transmitted. -/
theorem C70_violation_lpddr4 : ¬ C70_statement .lpddr4 :=
  c70_refute (sp := c48Spec) (ws := { tCK := 1, vddq := 1, dataRate := 2, imp := { ca := { termination := true } } })
    (ops := [.cmd { t := 1, type := .ACT, co := { row := 2 ^ 18 } }]) (t := 10) (e := { controller := { static := 1 } })
    (by decide +kernel) ⟨rfl, by simp⟩ (by decide) (by decide) (by decide) ⟨rfl, by simp, by simp⟩ (by decide +kernel)

/-- LPDDR4, all wires terminated, a write and a read with inversion: the hypotheses are met, and the energy is not trivial. -/
example : c70Energy .lpddr4 c48Spec { c45Full with dataRate := 2 } c49Trace 60 =
      .ok { controller := { static := 2188 / 15, dynamic := 392 }, dram := { static := 424 / 63, dynamic := 17 } } ∧
    AlwaysOn c48Spec c49Trace ∧ EnergyDefined .lpddr4 { c45Full with dataRate := 2 } ∧ BurstsOver .lpddr4 c48Spec c49Trace 60 ∧
    WiresFaithful .lpddr4 c48Spec { c45Full with dataRate := 2 } c49Trace ∧
    interfaceEnergy .lpddr4 { c45Full with dataRate := 2 } (expectedStats .lpddr4 c48Spec 2 c49Trace 60) =
      { controller := { static := 2188 / 15, dynamic := 392 }, dram := { static := 424 / 63, dynamic := 17 } } := by
  refine ⟨by decide +kernel, ⟨rfl, by simp [c49Trace]⟩, by decide, by decide, ?_, by decide +kernel⟩
  refine ⟨rfl, by simp, by simp, by simp, fun _ c hc ha => ?_, by simp, by simp, fun _ => ⟨?_, ?_, .inl ⟨?_, rfl⟩⟩⟩
  · simp only [c49Trace, List.mem_cons, List.not_mem_nil, IfOp.cmd.injEq, reduceCtorEq, or_false, false_or] at hc
    rcases hc with rfl | rfl | rfl <;> decide
  · intro c hc
    simp only [c49Trace, List.mem_cons, List.not_mem_nil, IfOp.cmd.injEq, reduceCtorEq, or_false, false_or] at hc
    rcases hc with rfl | rfl | rfl <;> rfl
  · simp [Ends, c49Trace]
  · intro r
    cases r <;> trivial

/-- All standards, a whole simulator: the trace of `C53` and `C67` meets the hypotheses of `C70_total_partial`. -/
theorem c70Faithful (std : Std) : WiresFaithful std c53If c53Wires ((c53Example std).map .cmd) where
  even := rfl
  ambles _ := ⟨.inr ⟨rfl, rfl⟩, .inr ⟨rfl, rfl⟩⟩
  strobes _ := rfl
  rates _ := .inl rfl
  rows h c hc ha := by
    subst h
    simp only [c53Example, List.map_cons, List.map_append, List.map_nil, List.mem_cons, List.cons_append, List.nil_append, reduceCtorEq, if_false,
      IfOp.cmd.injEq, List.not_mem_nil, or_false] at hc
    rcases hc with rfl | rfl | rfl | rfl | rfl <;> decide
  noInversion6 _ := by simp
  clocks _ := rfl
  pins h := by
    have h6 : std ≠ .lpddr6 := by rintro rfl; simp at h
    refine ⟨fun c hc => ?_, ?_, .inl ⟨fun r => ?_, rfl⟩⟩
    · simp only [c53Example, if_neg h6, List.map_cons, List.map_append, List.map_nil, List.mem_cons, List.cons_append, List.nil_append,
        IfOp.cmd.injEq, List.not_mem_nil, or_false] at hc
      rcases hc with rfl | rfl | rfl | rfl | rfl <;> rfl
    · simp [Ends, c53Example, h6]
    · rw [C52_off rfl (by simp)]
      trivial

example (std : Std) : EnergyDefined std c53Wires ∧ BurstsOver std c53If ((c53Example std).map .cmd) 40 ∧
    WiresFaithful std c53If c53Wires ((c53Example std).map .cmd) := by
  refine ⟨?_, ?_, c70Faithful std⟩ <;> cases std <;> decide

/-- DDR4: 5115.5 units of energy, as in the example of `C53`. -/
example : coreEnergy .ddr4 Ex.ms c53Power ((c53Example .ddr4).map ICmd.core) 40 +
    (interfaceEnergy .ddr4 c53Wires (expectedStats .ddr4 c53If 2 ((c53Example .ddr4).map .cmd) 40)).total = 10231 / 2 := by
  decide +kernel

end DRAMPower
