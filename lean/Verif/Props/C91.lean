import Verif.Lemmas.Answered
import Verif.Lemmas.SimObject
import Verif.Lemmas.InterfaceEnergy
import Verif.Lemmas.RestoreKept
import Verif.Props.C37
import Verif.Props.C55
import Verif.Props.C56
import Verif.Props.C38

/-!
# C91: every query that is not about the past is answered

After any accepted session, with commands to the whole simulator or to its parts, settings of the extensions and earlier queries.
-/

namespace DRAMPower
open Spec

variable {std : Std} {N : Nat} {ms : MemSpec} {sp : IfSpec}

/-- The claim, for the sessions a restriction allows. -/
def C91_claim (std : Std) (restriction : IfSpec → List SimCall → Prop) : Prop :=
  ∀ (N : Nat) (ms : MemSpec) (sp : IfSpec) (o o' : SimObject std N) (us : List SimCall) (t : Nat), SimObject.init std N ms sp = .ok o →
    (∀ u ∈ us, callable std u) → o.run ms sp us = .ok o' → Covers t us → restriction sp us →
    ∃ o'' s, o'.step ms sp (.window t) = .ok (o'', .stats s)

/-- The full claim. -/
def C91_statement (std : Std) : Prop := C91_claim std fun _ _ => True

/-! ## What the interface sees -/

theorem seen_command {us : List SimCall} {c : ICmd} (h : .cmd c ∈ ifOps std sp us) : .command c ∈ us ∨ .iface (.cmd c) ∈ us := by
  obtain ⟨u, hu, h⟩ := List.mem_filterMap.1 h
  cases u <;> simp only [Option.some.injEq, reduceCtorEq] at h
  · cases h; exact .inl hu
  · cases h; exact .inr hu
  · split at h <;> cases h
  · split at h <;> cases h

theorem seen_inversion {us : List SimCall} (h : .dbi true ∈ ifOps std sp us) : ∃ u ∈ us, invertsData u := by
  obtain ⟨u, hu, h⟩ := List.mem_filterMap.1 h
  cases u <;> simp only [Option.some.injEq, reduceCtorEq] at h
  · cases h; exact ⟨_, hu, trivial⟩
  · split at h
    · cases h; exact ⟨_, hu, trivial⟩
    · cases h
  · split at h <;> cases h

theorem session_answers {o o' : SimObject std N} {us : List SimCall} {t : Nat} (hi : SimObject.init std N ms sp = .ok o)
    (hr : o.run ms sp us = .ok o') (ht : Covers t us) (hs : SlowLines std sp us) (hf : FillsBeats std sp us) (s : SimStats) :
    ∃ x, o'.sim.interface.getWindowStats sp t s = .ok x := by
  obtain ⟨h1, _, h2⟩ := init_parts_ext hi
  refine interface_answers h2 (run_parts h1 hr).interface (fun c hc => ?_) (fun a b c hc => hf a b c (seen_command hc)) ?_ s
  · rcases seen_command hc with h | h
    · exact ht _ h _ rfl
    · exact ht _ h _ rfl
  · rcases hs with h | h | h | h
    · exact .inl h
    · exact .inr (.inl h)
    · exact .inr (.inr (.inl h))
    · exact .inr (.inr (.inr fun hd => by obtain ⟨u, hu, hv⟩ := seen_inversion hd; exact h u hu hv))

theorem window_answers {s : Simulator std N} {t : Nat} {y : SimStats}
    (h : s.interface.getWindowStats sp t (s.core.getWindowStats std ms t).2.toSim = .ok y) :
    s.getWindowStats ms sp t = .ok ({ s with core := (s.core.getWindowStats std ms t).1 }, y) := by
  simp only [Simulator.getWindowStats, h, bind, Except.bind, pure, Except.pure]

/-! ## The claim -/

/-- Every query is answered, unless the inversion lines are driven more than twice in a cycle or a write to a memory with a running data clock
fills no beat. -/
theorem C91_partial (std : Std) : C91_claim std fun sp us => SlowLines std sp us ∧ FillsBeats std sp us := by
  intro N ms sp o o' us t hi _ hr ht ⟨hs, hf⟩
  obtain ⟨x, hx⟩ := session_answers hi hr ht hs hf (o'.sim.core.getWindowStats std ms t).2.toSim
  have hw := window_answers hx
  exact ⟨{ o' with sim := { o'.sim with core := (o'.sim.core.getWindowStats std ms t).1 } }, x, by
    simp only [SimObject.step, hw, bind, Except.bind, pure, Except.pure]⟩

/-- DDR5 has neither inversion lines nor a data clock. -/
theorem C91_ddr5 : C91_statement .ddr5 := fun N ms sp o o' us t hi hu hr ht _ =>
  C91_partial .ddr5 N ms sp o o' us t hi hu hr ht ⟨.inr (.inl rfl), fun h => by rcases h with h | h <;> cases h⟩

/-- The other standards, without inversion: only short writes to memories with a running data clock remain. -/
theorem C91_uninverted (std : Std) : C91_claim std fun sp us => (∀ u ∈ us, ¬ invertsData u) ∧ FillsBeats std sp us :=
  fun N ms sp o o' us t hi hu hr ht h => C91_partial std N ms sp o o' us t hi hu hr ht ⟨.inr (.inr (.inr h.1)), h.2⟩

/-! ## A trace -/

theorem object_init {s : Simulator std N} (h : Simulator.init std N ms sp = .ok s) : ∃ o, SimObject.init std N ms sp = .ok o ∧ o.sim = s :=
  ⟨{ ext := extShape std false s.interface.formatter.getMetaData, sim := s }, by
    simp only [SimObject.init, h, bind, Except.bind, register_shape, pure, Except.pure], rfl⟩

theorem object_run : ∀ (cs : List ICmd) {o : SimObject std N} {s : Simulator std N}, o.sim.run ms sp cs = .done s →
    ∃ o', o.run ms sp (cs.map .command) = .ok o' ∧ o'.sim = s
  | [], o, s, h => ⟨o, rfl, by cases h; rfl⟩
  | c :: cs, o, s, h => by
    simp only [Simulator.run] at h
    cases hc : o.sim.doCommand ms sp c with
    | done s1 =>
      rw [hc] at h
      obtain ⟨o', h1, h2⟩ := object_run cs (o := { o with sim := s1 }) h
      refine ⟨o', ?_, h2⟩
      rw [List.map_cons]
      simp only [SimObject.run, SimObject.step, hc]
      exact h1
    | refused e => rw [hc] at h; cases h
    | halfway s1 e => rw [hc] at h; cases h

/-- Writes to memories with a running data clock fill a beat. -/
def TraceFills (std : Std) (sp : IfSpec) (cs : List ICmd) : Prop :=
  (std = .lpddr5 ∨ std = .lpddr6) → sp.wckAlwaysOn = true → ∀ c ∈ cs, direction c.type = some false → c.nBits ≠ 0 → 0 < dataBeats std sp c

theorem trace_fills {cs : List ICmd} (hf : TraceFills std sp cs) : FillsBeats std sp (cs.map .command) := by
  intro a b c hc
  refine hf a b c ?_
  rcases hc with hc | hc
  · obtain ⟨d, hd, e⟩ := List.mem_map.1 hc
    cases e
    exact hd
  · obtain ⟨d, hd, e⟩ := List.mem_map.1 hc
    cases e

theorem trace_covers {cs : List ICmd} {t : Nat} (ht : ∀ c ∈ cs, c.t ≤ t) : Covers t (cs.map .command) := by
  intro u hu y hy
  obtain ⟨c, hc, rfl⟩ := List.mem_map.1 hu
  cases hy
  exact ht c hc

theorem trace_slow (cs : List ICmd) : SlowLines std sp (cs.map .command) :=
  .inr (.inr (.inr fun u hu => by
    obtain ⟨c, hc, rfl⟩ := List.mem_map.1 hu
    exact id))

theorem trace_answers {s0 s : Simulator std N} {cs : List ICmd} {t : Nat} (hi : Simulator.init std N ms sp = .ok s0) (hr : s0.run ms sp cs = .done s)
    (ht : ∀ c ∈ cs, c.t ≤ t) (hf : TraceFills std sp cs) (x : SimStats) : ∃ y, s.interface.getWindowStats sp t x = .ok y := by
  obtain ⟨o, h1, rfl⟩ := object_init hi
  obtain ⟨o', h2, rfl⟩ := object_run cs hr
  exact session_answers h1 h2 (trace_covers ht) (trace_slow cs) (trace_fills hf) x

theorem ordered_before {cs : List ICmd} (h : InOrder cs) : ∀ c ∈ cs, c.t ≤ endOf cs := by
  intro c hc
  unfold endOf
  cases hl : cs.getLast? with
  | none => rw [List.getLast?_eq_none_iff] at hl; rw [hl] at hc; cases hc
  | some d =>
    obtain ⟨l, rfl⟩ := List.getLast?_eq_some_iff.1 hl
    show c.t ≤ d.t
    rcases List.mem_append.1 hc with hc | hc
    · exact (List.pairwise_append.1 h).2.2 c hc d (List.mem_singleton.2 rfl)
    · rw [List.mem_singleton.1 hc]

/-- After a trace in time order, `getStats` is answered. -/
theorem C91_getStats_partial {s0 s : Simulator std N} {cs : List ICmd} (hi : Simulator.init std N ms sp = .ok s0)
    (hr : s0.run ms sp cs = .done s) (ho : InOrder cs) (hf : TraceFills std sp cs) : ∃ s' x, s.getStats ms sp = .ok (s', x) := by
  obtain ⟨y, hy⟩ := trace_answers hi hr (ordered_before ho) hf (s.core.getWindowStats std ms (endOf cs)).2.toSim
  refine ⟨{ s with core := (s.core.getWindowStats std ms (endOf cs)).1 }, y, ?_⟩
  unfold Simulator.getStats
  rw [(last_time hi hr ho).1]
  exact window_answers hy

/-! ## Energies -/

theorem pair_answers {s : WireSpec} {w : Wiring} {on : Bool} {b : BusStats} {p : Rat} {rate : Nat} (h : on = true → w.rEq ≠ 0 ∧ rate ≠ 0) :
    ∃ x, s.pair std w on b p rate = .ok x := by
  unfold WireSpec.pair WireSpec.termination
  cases on with
  | false => exact ⟨_, rfl⟩
  | true =>
    obtain ⟨h1, h2⟩ := h rfl
    rw [if_neg (by decide), if_neg (by simp [h1, h2])]
    exact ⟨_, rfl⟩

theorem amble_answers {s : WireSpec} {st : SimStats} {w : Wiring} {read : Bool} (h : w.termination = true → w.rEq ≠ 0) :
    ∃ x, s.ambleEnergy st w read = .ok x := by
  unfold WireSpec.ambleEnergy
  dsimp only
  split
  · exact ⟨_, rfl⟩
  · rename_i h1
    rw [if_neg (h (by simpa using h1))]
    exact ⟨_, rfl⟩

/-- The interface energy of any statistics, if no group of signals divides by zero. -/
theorem energy_answers {ws : WireSpec} (st : SimStats) (h : EnergyDefined std ws) (h5 : std = .ddr5 → ws.dataRate ≠ 0) :
    ∃ e, ws.calculateEnergy std st = .ok e := by
  have f : ∀ w : Wiring, (std ≠ .ddr5 → w.termination = true → w.rEq ≠ 0 ∧ ws.dataRate ≠ 0) → WireSpec.togglingFlag std w = true →
      w.rEq ≠ 0 ∧ ws.dataRate ≠ 0 := by
    intro w hw ht
    unfold WireSpec.togglingFlag at ht
    split at ht
    · rename_i e
      exact ⟨of_decide_eq_true ht, h5 e⟩
    · rename_i e
      exact hw e ht
  unfold WireSpec.calculateEnergy WireSpec.clockEnergy WireSpec.dqsEnergy WireSpec.togglingEnergy WireSpec.dqEnergy WireSpec.caEnergy
    WireSpec.dbiEnergy
  cases std with
  | ddr4 =>
    obtain ⟨_, g1⟩ := pair_answers (std := .ddr4) (s := ws) (b := st.clockStats) (p := ws.tCK) (h .clock (by decide))
    obtain ⟨_, g2⟩ := pair_answers (std := .ddr4) (s := ws) (b := st.commandBus) (p := ws.tCK) (h .command (by decide))
    obtain ⟨_, g3⟩ := pair_answers (std := .ddr4) (s := ws) (b := st.readDQSStats) (p := ws.tCK) (h .readStrobe (by decide))
    obtain ⟨_, g4⟩ := pair_answers (std := .ddr4) (s := ws) (b := st.readBus) (p := ws.tCK) (h .readData (by decide))
    obtain ⟨_, g5⟩ := pair_answers (std := .ddr4) (s := ws) (b := st.writeBus) (p := ws.tCK) (h .writeData (by decide))
    obtain ⟨_, g6⟩ := pair_answers (std := .ddr4) (s := ws) (b := st.togglingRead) (p := ws.tCK) (f _ fun _ => h .readData (by decide))
    obtain ⟨_, g7⟩ := pair_answers (std := .ddr4) (s := ws) (b := st.togglingWrite) (p := ws.tCK) (f _ fun _ => h .writeData (by decide))
    obtain ⟨_, g8⟩ := pair_answers (std := .ddr4) (s := ws) (b := st.writeDQSStats) (p := ws.tCK) (h .writeStrobe (by decide))
    obtain ⟨_, g9⟩ := pair_answers (std := .ddr4) (s := ws) (b := st.readDBI) (p := ws.tCK) (h .readInv (by decide))
    obtain ⟨_, g10⟩ := pair_answers (std := .ddr4) (s := ws) (b := st.writeDBI) (p := ws.tCK) (h .writeInv (by decide))
    obtain ⟨_, a0⟩ := amble_answers (s := ws) (st := st) (read := false) fun ht => (h .writeStrobe (by decide) ht).1
    obtain ⟨_, a1⟩ := amble_answers (s := ws) (st := st) (read := true) fun ht => (h .readStrobe (by decide) ht).1
    simp only [Group.wiring, Group.rate] at g1 g2 g3 g4 g5 g6 g7 g8 g9 g10 a0 a1
    simp only [if_true, if_false, reduceCtorEq, or_self, or_true, or_false, true_or, false_or]
    simp only [g1, g2, g3, g4, g5, g6, g7, g8, g9, g10, a0, a1, bind, Except.bind, pure, Except.pure]
    exact ⟨_, rfl⟩
  | ddr5 =>
    obtain ⟨_, g1⟩ := pair_answers (std := .ddr5) (s := ws) (b := st.clockStats) (p := ws.tCK) (h .clock (by decide))
    obtain ⟨_, g2⟩ := pair_answers (std := .ddr5) (s := ws) (b := st.commandBus) (p := ws.tCK) (h .command (by decide))
    obtain ⟨_, g3⟩ := pair_answers (std := .ddr5) (s := ws) (b := st.readDQSStats) (p := ws.tCK) (h .readStrobe (by decide))
    obtain ⟨_, g4⟩ := pair_answers (std := .ddr5) (s := ws) (b := st.readBus) (p := ws.tCK) (h .readData (by decide))
    obtain ⟨_, g5⟩ := pair_answers (std := .ddr5) (s := ws) (b := st.writeBus) (p := ws.tCK) (h .writeData (by decide))
    obtain ⟨_, g6⟩ := pair_answers (std := .ddr5) (s := ws) (b := st.togglingRead) (p := ws.tCK) (f ws.imp.rdq fun k => absurd rfl k)
    obtain ⟨_, g7⟩ := pair_answers (std := .ddr5) (s := ws) (b := st.togglingWrite) (p := ws.tCK) (f ws.imp.wdq fun k => absurd rfl k)
    obtain ⟨_, g8⟩ := pair_answers (std := .ddr5) (s := ws) (b := st.writeDQSStats) (p := ws.tCK) (h .writeStrobe (by decide))
    simp only [Group.wiring, Group.rate] at g1 g2 g3 g4 g5 g6 g7 g8
    simp only [if_true, if_false, reduceCtorEq, or_self, or_true, or_false, true_or, false_or]
    simp only [g1, g2, g3, g4, g5, g6, g7, g8, bind, Except.bind, pure, Except.pure]
    exact ⟨_, rfl⟩
  | lpddr4 =>
    obtain ⟨_, g1⟩ := pair_answers (std := .lpddr4) (s := ws) (b := st.clockStats) (p := ws.tCK) (h .clock (by decide))
    obtain ⟨_, g2⟩ := pair_answers (std := .lpddr4) (s := ws) (b := st.commandBus) (p := ws.tCK) (h .command (by decide))
    obtain ⟨_, g3⟩ := pair_answers (std := .lpddr4) (s := ws) (b := st.readDQSStats) (p := ws.tCK) (h .readStrobe (by decide))
    obtain ⟨_, g4⟩ := pair_answers (std := .lpddr4) (s := ws) (b := st.readBus) (p := ws.tCK) (h .readData (by decide))
    obtain ⟨_, g5⟩ := pair_answers (std := .lpddr4) (s := ws) (b := st.writeBus) (p := ws.tCK) (h .writeData (by decide))
    obtain ⟨_, g6⟩ := pair_answers (std := .lpddr4) (s := ws) (b := st.togglingRead) (p := ws.tCK) (f _ fun _ => h .readData (by decide))
    obtain ⟨_, g7⟩ := pair_answers (std := .lpddr4) (s := ws) (b := st.togglingWrite) (p := ws.tCK) (f _ fun _ => h .writeData (by decide))
    obtain ⟨_, g8⟩ := pair_answers (std := .lpddr4) (s := ws) (b := st.writeDQSStats) (p := ws.tCK) (h .writeStrobe (by decide))
    obtain ⟨_, g9⟩ := pair_answers (std := .lpddr4) (s := ws) (b := st.readDBI) (p := ws.tCK) (h .readInv (by decide))
    obtain ⟨_, g10⟩ := pair_answers (std := .lpddr4) (s := ws) (b := st.writeDBI) (p := ws.tCK) (h .writeInv (by decide))
    simp only [Group.wiring, Group.rate] at g1 g2 g3 g4 g5 g6 g7 g8 g9 g10
    simp only [if_true, if_false, reduceCtorEq, or_self, or_true, or_false, true_or, false_or]
    simp only [g1, g2, g3, g4, g5, g6, g7, g8, g9, g10, bind, Except.bind, pure, Except.pure]
    exact ⟨_, rfl⟩
  | lpddr5 =>
    obtain ⟨_, g1⟩ := pair_answers (std := .lpddr5) (s := ws) (b := st.clockStats) (p := ws.tCK) (h .clock (by decide))
    obtain ⟨_, g2⟩ := pair_answers (std := .lpddr5) (s := ws) (b := st.commandBus) (p := ws.tCK) (h .command (by decide))
    obtain ⟨_, g3⟩ := pair_answers (std := .lpddr5) (s := ws) (b := st.readDQSStats) (p := ws.tCK) (h .readStrobe (by decide))
    obtain ⟨_, g4⟩ := pair_answers (std := .lpddr5) (s := ws) (b := st.readBus) (p := ws.tCK) (h .readData (by decide))
    obtain ⟨_, g5⟩ := pair_answers (std := .lpddr5) (s := ws) (b := st.writeBus) (p := ws.tCK) (h .writeData (by decide))
    obtain ⟨_, g6⟩ := pair_answers (std := .lpddr5) (s := ws) (b := st.togglingRead) (p := ws.tCK) (f _ fun _ => h .readData (by decide))
    obtain ⟨_, g7⟩ := pair_answers (std := .lpddr5) (s := ws) (b := st.togglingWrite) (p := ws.tCK) (f _ fun _ => h .writeData (by decide))
    obtain ⟨_, g8⟩ := pair_answers (std := .lpddr5) (s := ws) (b := st.wClockStats) (p := ws.tWCK) (h .dataClock (by decide))
    obtain ⟨_, g9⟩ := pair_answers (std := .lpddr5) (s := ws) (b := st.readDBI) (p := ws.tCK) (h .readInv (by decide))
    obtain ⟨_, g10⟩ := pair_answers (std := .lpddr5) (s := ws) (b := st.writeDBI) (p := ws.tCK) (h .writeInv (by decide))
    simp only [Group.wiring, Group.rate] at g1 g2 g3 g4 g5 g6 g7 g8 g9 g10
    simp only [if_true, if_false, reduceCtorEq, or_self, or_true, or_false, true_or, false_or]
    simp only [g1, g2, g3, g4, g5, g6, g7, g8, g9, g10, bind, Except.bind, pure, Except.pure]
    exact ⟨_, rfl⟩
  | lpddr6 =>
    obtain ⟨_, g1⟩ := pair_answers (std := .lpddr6) (s := ws) (b := st.clockStats) (p := ws.tCK) (h .clock (by decide))
    obtain ⟨_, g2⟩ := pair_answers (std := .lpddr6) (s := ws) (b := st.commandBus) (p := ws.tCK) (h .command (by decide))
    obtain ⟨_, g3⟩ := pair_answers (std := .lpddr6) (s := ws) (b := st.readDQSStats) (p := ws.tCK) (h .readStrobe (by decide))
    obtain ⟨_, g4⟩ := pair_answers (std := .lpddr6) (s := ws) (b := st.readBus) (p := ws.tCK) (h .readData (by decide))
    obtain ⟨_, g5⟩ := pair_answers (std := .lpddr6) (s := ws) (b := st.writeBus) (p := ws.tCK) (h .writeData (by decide))
    obtain ⟨_, g6⟩ := pair_answers (std := .lpddr6) (s := ws) (b := st.togglingRead) (p := ws.tCK) (f _ fun _ => h .readData (by decide))
    obtain ⟨_, g7⟩ := pair_answers (std := .lpddr6) (s := ws) (b := st.togglingWrite) (p := ws.tCK) (f _ fun _ => h .writeData (by decide))
    obtain ⟨_, g8⟩ := pair_answers (std := .lpddr6) (s := ws) (b := st.wClockStats) (p := ws.tWCK) (h .dataClock (by decide))
    simp only [Group.wiring, Group.rate] at g1 g2 g3 g4 g5 g6 g7 g8
    simp only [if_true, if_false, reduceCtorEq, or_self, or_true, or_false, true_or, false_or]
    simp only [g1, g2, g3, g4, g5, g6, g7, g8, bind, Except.bind, pure, Except.pure]
    exact ⟨_, rfl⟩

/-- The numbers of entries of the answer. -/
theorem window_sizes {o o' : SimObject std N} {us : List SimCall} {t : Nat} {s1 : Simulator std N} {x : SimStats}
    (hi : SimObject.init std N ms sp = .ok o) (hu : ∀ u ∈ us, callable std u) (hr : o.run ms sp us = .ok o')
    (h : o'.sim.getWindowStats ms sp t = .ok (s1, x)) :
    x.bank.length = ms.numberOfRanks * ms.numberOfBanks ∧ x.rankTotal.length = if std = .ddr4 then sp.ranks else ms.numberOfRanks := by
  obtain ⟨h1, _, h2⟩ := init_parts_ext hi
  let k : Codec := { pad := fun _ => 0, rate := fun _ => [], toRate := fun _ => none, order := id, reserve := id }
  have hk : Faithful k sp := ⟨fun _ => .refl _, fun _ => Nat.le_refl _, rfl, fun _ _ => Nat.le_max_left _ _⟩
  have kept : Kept k sp o.sim.interface o'.sim.interface := (Kept.init hk h2).run hk (ifOps_offered hu) (run_parts h1 hr).interface
  have e0 : o.sim.interface.ranks = if std = .ddr4 then List.replicate sp.ranks {} else [] := by
    unfold Interface.init at h2
    obtain ⟨_, _, h2⟩ := bind_ok h2
    obtain ⟨_, _, h2⟩ := bind_ok h2
    obtain ⟨_, _, h2⟩ := bind_ok h2
    split at h2
    · cases h2
    · have e := pure_ok h2
      rw [← e]
  unfold Simulator.getWindowStats at h
  obtain ⟨y, hy, h⟩ := bind_ok h
  cases pure_ok h
  unfold Interface.getWindowStats at hy
  obtain ⟨_, _, hy⟩ := bind_ok hy
  obtain ⟨_, _, hy⟩ := bind_ok hy
  obtain ⟨_, _, hy⟩ := bind_ok hy
  obtain ⟨_, _, hy⟩ := bind_ok hy
  cases pure_ok hy
  refine ⟨?_, ?_⟩
  · simp only [CoreStats.toSim, Core.getWindowStats, Core.statsAt, List.length_map, List.length_flatMap, List.length_range]
    simp
  · dsimp only
    split
    · rename_i h4
      simp only [Interface.rankTotals, List.length_mapIdx]
      rw [kept.ranks, e0, if_pos h4, List.length_replicate]
    · simp only [CoreStats.toSim, Core.getWindowStats, Core.statsAt, List.length_map, List.length_range]

/-- The specification of the calculations fits the memory: no more ranks and banks than it has, and no division by zero. -/
structure Calculable (std : Std) (ms : MemSpec) (sp : IfSpec) (ps : PowerSpec) (ws : WireSpec) : Prop where
  ranks : ps.ranks = ms.numberOfRanks
  banks : ps.banks = ms.numberOfBanks
  lines : std = .ddr4 → sp.ranks = ms.numberOfRanks
  core : 0 ∉ ps.divisors std
  wires : EnergyDefined std ws
  rate : std = .ddr5 → ws.dataRate ≠ 0

/-- So are the queries for energy: `calcCoreEnergy`, `calcInterfaceEnergy` and `getTotalEnergy`. -/
theorem C91_energy_partial {ps : PowerSpec} {ws : WireSpec} {o o' : SimObject std N} {us : List SimCall} {t : Nat}
    (hc : Calculable std ms sp ps ws) (hi : SimObject.init std N ms sp = .ok o) (hu : ∀ u ∈ us, callable std u) (hr : o.run ms sp us = .ok o')
    (ht : Covers t us) (hs : SlowLines std sp us) (hf : FillsBeats std sp us) :
    (∃ s e, o'.sim.calcCoreEnergy ms sp ps t = .ok (s, e)) ∧ (∃ s e, o'.sim.calcInterfaceEnergy ms sp ws t = .ok (s, e)) ∧
    ∃ s e, o'.sim.getTotalEnergy ms sp ps ws t = .ok (s, e) := by
  obtain ⟨x, hx⟩ := session_answers hi hr ht hs hf (o'.sim.core.getWindowStats std ms t).2.toSim
  have hw := window_answers hx
  generalize ({ o'.sim with core := (o'.sim.core.getWindowStats std ms t).1 } : Simulator std N) = s1 at hw
  obtain ⟨n1, n2⟩ := window_sizes hi hu hr hw
  obtain ⟨e2, h2⟩ := energy_answers x hc.wires hc.rate
  have h1 : ∃ e, ps.calcEnergy std x = .ok e := by
    unfold PowerSpec.calcEnergy
    rw [if_neg hc.core, if_neg (by
      rw [n1, n2, hc.ranks, hc.banks]
      split
      · rename_i h4
        rw [hc.lines h4]
        omega
      · omega)]
    exact ⟨_, rfl⟩
  obtain ⟨e1, h1⟩ := h1
  have c1 : o'.sim.calcCoreEnergy ms sp ps t = .ok (s1, e1) := by
    simp only [Simulator.calcCoreEnergy, hw, h1, bind, Except.bind, pure, Except.pure]
  have c2 : ∀ s : Simulator std N, s.getWindowStats ms sp t = .ok (s1, x) → s.calcInterfaceEnergy ms sp ws t = .ok (s1, e2) := by
    intro s h
    simp only [Simulator.calcInterfaceEnergy, h, h2, bind, Except.bind, pure, Except.pure]
  refine ⟨⟨s1, e1, c1⟩, ⟨s1, e2, c2 _ hw⟩, s1, e1.total + e2.total, ?_⟩
  simp only [Simulator.getTotalEnergy, c1, c2 s1 (window_again hw), bind, Except.bind, pure, Except.pure]

/-- The command line tool reports on every trace in time order that the library accepts, on the terminal and to a file it can write. -/
theorem C91_tool_partial {ps : PowerSpec} {ws : WireSpec} {s0 s : Simulator std N} {cs : List ICmd} {sink : Sink} (hc : Calculable std ms sp ps ws)
    (hi : Simulator.init std N ms sp = .ok s0) (hr : s0.run ms sp cs = .done s) (ho : InOrder cs) (hf : TraceFills std sp cs) (hs : sink ≠ .file false) :
    ∃ r, makeResult ms sp ps ws sink s = .ok (some r) := by
  obtain ⟨o, h1, e1⟩ := object_init hi
  obtain ⟨o', h2, e2⟩ := object_run cs (o := o) (by rw [e1]; exact hr)
  obtain ⟨_, _, s1, e, h⟩ := C91_energy_partial hc h1 (fun u hu => by obtain ⟨c, _, rfl⟩ := List.mem_map.1 hu; trivial) h2
    (trace_covers (ordered_before ho)) (trace_slow cs) (trace_fills hf)
  rw [e2] at h
  obtain ⟨r, hr', _⟩ := makeResult_shows hi hr ho hs h
  exact ⟨r, hr'⟩

/-! ## Where the claim fails -/

/-- How a session ends. -/
def c91Ends (std : Std) (sp : IfSpec) (us : List SimCall) : Option (Option Err) :=
  match SimObject.init std 16 (c37Mem .m16b) sp with
  | .ok o => some (replies (c37Mem .m16b) sp o us).2
  | .error _ => none

theorem replies_done : ∀ {us vs : List SimCall} {o : SimObject std N}, (replies ms sp o us).2 = none →
    ∃ o', o.run ms sp us = .ok o' ∧ (replies ms sp o (us ++ vs)).2 = (replies ms sp o' vs).2
  | [], vs, o, _ => ⟨o, rfl, rfl⟩
  | u :: us, vs, o, h => by
    rw [List.cons_append]
    simp only [replies, SimObject.run] at h ⊢
    cases hs : o.step ms sp u with
    | ok x => rw [hs] at h; exact replies_done (o := x.1) h
    | error e => rw [hs] at h; cases h

theorem c91_refutes {us : List SimCall} {t : Nat} {e : Err} (hs : C91_statement std) (hu : ∀ u ∈ us, callable std u) (ht : Covers t us)
    (h1 : c91Ends std sp us = some none) : c91Ends std sp (us ++ [.window t]) ≠ some (some e) := by
  intro h2
  unfold c91Ends at h1 h2
  split at h1
  · rename_i o ho
    rw [ho] at h2
    dsimp only at h2
    injection h1 with h1
    injection h2 with h2
    obtain ⟨o', r1, r2⟩ := replies_done (vs := [.window t]) h1
    obtain ⟨o2, s, h3⟩ := hs 16 _ sp o o' us t ho hu r1 ht trivial
    rw [r2] at h2
    simp only [replies, h3] at h2
    cases h2
  · cases h1

/-- A device of sixteen bits. -/
def c91Spec (rate : Nat) : IfSpec := { dataRate := rate, burstLength := 8, bitWidth := 16, devices := 1, shift := some fun _ => false, wckAlwaysOn := true }

/-- A write after an activation. -/
def c91Write (n : Nat) (x : UInt8) : List SimCall :=
  [.command { t := 0, type := .ACT }, .command { t := 10, type := .WR, nBits := n, data := some (List.replicate (n / 8) x) }]

/-- With four beats in a cycle and inversion on, the query for the time of the last command ends with an assertion, and so do all queries for times
before the double. -/
theorem C91_violation_rate : ∀ std ∈ [Std.ddr4, .lpddr4, .lpddr5],
    (∀ t ∈ [10, 11, 19], c91Ends std (c91Spec 4) (.setDBI true :: c91Write 64 (if std = .ddr4 then 0 else 255) ++ [.window t]) =
      some (some (.assertion "virtual_time >= m_last_set"))) ∧
    c91Ends std (c91Spec 4) (.setDBI true :: c91Write 64 (if std = .ddr4 then 0 else 255) ++ [.window 20]) = some none ∧
    c91Ends std (c91Spec 2) (.setDBI true :: c91Write 64 (if std = .ddr4 then 0 else 255) ++ [.window 10]) = some none ∧
    ¬ C91_statement std := by
  have h : ∀ std ∈ [Std.ddr4, .lpddr4, .lpddr5],
      (∀ t ∈ [10, 11, 19], c91Ends std (c91Spec 4) (.setDBI true :: c91Write 64 (if std = .ddr4 then 0 else 255) ++ [.window t]) =
        some (some (.assertion "virtual_time >= m_last_set"))) ∧
      c91Ends std (c91Spec 4) (.setDBI true :: c91Write 64 (if std = .ddr4 then 0 else 255) ++ [.window 20]) = some none ∧
      c91Ends std (c91Spec 2) (.setDBI true :: c91Write 64 (if std = .ddr4 then 0 else 255) ++ [.window 10]) = some none ∧
      c91Ends std (c91Spec 4) (.setDBI true :: c91Write 64 (if std = .ddr4 then 0 else 255)) = some none ∧
      (∀ u ∈ SimCall.setDBI true :: c91Write 64 (if std = .ddr4 then 0 else 255), callable std u) ∧
      Covers 10 (.setDBI true :: c91Write 64 (if std = .ddr4 then 0 else 255)) := by decide +kernel
  intro std hs
  obtain ⟨a, b, c, d, e, f⟩ := h std hs
  exact ⟨a, b, c, fun k => c91_refutes k e f d (a 10 (by decide))⟩

/-- LPDDR5 with a running data clock: after a write of a byte no query for a later time is answered. -/
theorem C91_violation_short :
    (∀ t ∈ [11, 12, 1000], c91Ends .lpddr5 (c91Spec 2) (c91Write 8 255 ++ [.window t]) = some (some (.assertion "n >= last_load"))) ∧
    ¬ C91_statement .lpddr5 := by
  have h : ∀ t ∈ [11, 12, 1000], c91Ends .lpddr5 (c91Spec 2) (c91Write 8 255 ++ [.window t]) = some (some (.assertion "n >= last_load")) := by
    decide +kernel
  exact ⟨h, fun k => c91_refutes (t := 11) k (by decide) (by decide) (by decide +kernel) (h 11 (by decide))⟩

/-! ## The hypotheses can be met -/

/-- Transfers in both directions, with inversion, a command to the core only and queries in between, also one for a later time. -/
def c91Session (std : Std) : List SimCall :=
  let n := if std = .lpddr6 then 256 else 96
  let wr (t : Nat) (ty : CmdType) (x : UInt8) : SimCall := .command { t, type := ty, nBits := n, data := some (List.replicate (n / 8) x) }
  [.setDBI true, .command { t := 0, type := .ACT }, wr 20 .WR 0, .window 90, wr 32 .RD 255, .setDBI false, .coreCommand { t := 33, type := .PREA },
   .command { t := 45, type := .ACT }, wr 50 .WR 255, .setDBI true, .lastTime, wr 80 .RDA 0]

/-- The specification of the session: two beats per cycle. -/
def c91Spec2 (std : Std) : IfSpec := { c91Spec 2 with bitWidth := if std = .lpddr6 then 12 else 16 }

example : ∀ std ∈ [Std.ddr4, .ddr5, .lpddr4, .lpddr5, .lpddr6], c91Ends std (c91Spec2 std) (c91Session std) = some none ∧
    c91Ends std (c91Spec2 std) (c91Session std ++ [.window 80]) = some none ∧ Covers 80 (c91Session std) ∧
    (∀ u ∈ c91Session std, callable std u) := by decide +kernel

example (std : Std) : SlowLines std (c91Spec2 std) (c91Session std) := .inl (by cases std <;> decide)

example (std : Std) : FillsBeats std (c91Spec2 std) (c91Session std) := by
  intro _ _ c hc _ _
  have h : ∀ std : Std, (c91Session std).all (fun u => match u with | .command c => decide (direction c.type = some false → 0 < dataBeats std (c91Spec2 std) c) | .iface _ => false | _ => true) = true := by
    intro std; cases std <;> decide +kernel
  have h := List.all_eq_true.1 (h std)
  rcases hc with hc | hc
  · exact of_decide_eq_true (h _ hc) ‹_›
  · cases h _ hc

/-- A trace of an LPDDR5 memory with a running data clock. -/
def c91Trace : List ICmd :=
  [{ t := 0, type := .ACT }, { t := 20, type := .WR, nBits := 96, data := some (List.replicate 12 7) },
   { t := 32, type := .RDA, nBits := 96, data := some (List.replicate 12 9) }, { t := 60, type := .END_OF_SIMULATION }]

example : InOrder c91Trace ∧ c91Ends .lpddr5 (c91Spec2 .lpddr5) (c91Trace.map .command) = some none := by decide +kernel

example : TraceFills .lpddr5 (c91Spec2 .lpddr5) c91Trace := by
  intro _ _
  decide +kernel

example : Calculable .ddr4 (exampleConfig.coreSpec .ddr4 4) { c91Spec 2 with ranks := exampleConfig.ranks } (exampleConfig.powerSpec .ddr4) c45Wires where
  ranks := rfl
  banks := rfl
  lines _ := rfl
  core := by decide +kernel
  wires := by intro g _; cases g <;> unfold Group.Defined <;> decide +kernel
  rate h := by cases h

/-- A query for the past may fail. -/
example : c91Ends .ddr4 (c91Spec2 .ddr4) (c91Session .ddr4 ++ [.window 10]) = some (some (.assertion "t_virtual >= last_load")) := by decide +kernel

end DRAMPower
