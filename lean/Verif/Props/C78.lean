import Verif.Lemmas.SequenceWires

/-!
# C78: the energies of traces run one after the other add up

`C74` for the wires: if all wires are idle when the first trace is over, the interface energy of both traces together is the sum of their
interface energies, and so is the total energy.

* `C78_statement`: the claim for all traces the simulator accepts. Refuted for every standard by `C78_violation`, as the figures of
  toggling rates are truncated in each report.
* `C78_partial`: payloads are given, and under the restrictions of `C70`.
* `C78_total_partial`: `getTotalEnergy`.
* `C78_repeated_partial`: a trace repeated `n` times.
-/

namespace DRAMPower
open Spec

variable {std : Std} {N : Nat} {ms : MemSpec} {sp : IfSpec} {ws : WireSpec} {ps : PowerSpec} {first second : List ICmd} {T t : Nat}

/-- Full statement. -/
def C78_statement (std : Std) : Prop :=
  ∀ (N : Nat) (ms : MemSpec) (sp : IfSpec) (ws : WireSpec) (first second : List ICmd) (T t : Nat) (s0 s1 s2 s s1' s2' s' : Simulator std N)
    (e1 e2 e : InterfaceInfo), Simulator.init std N ms sp = .ok s0 → s0.run ms sp first = .done s1 → s0.run ms sp second = .done s2 →
    s0.run ms sp (first ++ laterI T second) = .done s → s1.calcInterfaceEnergy ms sp ws T = .ok (s1', e1) →
    s2.calcInterfaceEnergy ms sp ws t = .ok (s2', e2) → s.calcInterfaceEnergy ms sp ws (T + t) = .ok (s', e) →
    sp.enabled = true → EnergyDefined std ws → sp.bitWidth * sp.devices ≤ N → ws.dataRate = sp.dataRate →
    WiresIdle std sp first T → BurstsOver std sp (first.map .cmd) T → BurstsOver std sp (second.map .cmd) t → e = sumInfo e1 e2

/-! ## The restrictions hold for the parts -/

theorem mem_joined_left {c : ICmd} (h : IfOp.cmd c ∈ first.map IfOp.cmd) : IfOp.cmd c ∈ joined first second T := by
  unfold joined
  rw [List.map_append]
  exact List.mem_append_left _ h

theorem mem_joined_right {c : ICmd} (h : IfOp.cmd c ∈ second.map IfOp.cmd) : IfOp.cmd { c with t := c.t + T } ∈ joined first second T := by
  unfold joined laterI
  rw [List.map_append]
  refine List.mem_append_right _ (List.mem_map_of_mem (List.mem_map.2 ⟨c, ?_, rfl⟩))
  simpa using h

theorem faithful_left (h : WiresFaithful std sp ws (joined first second T)) : WiresFaithful std sp ws (first.map .cmd) where
  even := h.even
  ambles := h.ambles
  strobes := h.strobes
  rates := h.rates
  rows h4 c hc ha := h.rows h4 c (mem_joined_left hc) ha
  noInversion6 _ := by simp
  clocks := h.clocks
  pins hp := by
    obtain ⟨w, e, k⟩ := h.pins hp
    refine ⟨fun c hc => w c (mem_joined_left hc), ?_, k.imp (fun ⟨_, k⟩ => ⟨fun r => by rw [marked_cmds]; trivial, k⟩) fun ⟨k, _⟩ => ⟨k, by simp⟩⟩
    unfold Ends joined at e
    rw [List.map_append] at e
    exact (List.pairwise_append.1 e).1

theorem faithful_right (h : WiresFaithful std sp ws (joined first second T)) : WiresFaithful std sp ws (second.map .cmd) where
  even := h.even
  ambles := h.ambles
  strobes := h.strobes
  rates := h.rates
  rows h4 c hc ha := h.rows h4 { c with t := c.t + T } (mem_joined_right hc) ha
  noInversion6 _ := by simp
  clocks := h.clocks
  pins hp := by
    obtain ⟨w, e, k⟩ := h.pins hp
    refine ⟨fun c hc => w { c with t := c.t + T } (mem_joined_right hc), ?_, k.imp (fun ⟨_, k⟩ => ⟨fun r => by rw [marked_cmds]; trivial, k⟩) fun ⟨k, _⟩ => ⟨k, by simp⟩⟩
    unfold Ends joined laterI at e
    rw [List.map_append] at e
    have e := (List.pairwise_append.1 e).2.1
    unfold Ends
    rw [List.pairwise_map, List.pairwise_map] at e
    rw [List.pairwise_map]
    refine e.imp fun {a b} h => ?_
    rintro ⟨c, hc, hty⟩ d hd
    cases hc
    cases hd
    exact h ⟨_, rfl, hty⟩ { b with t := b.t + T } rfl

theorem energies_join (hd : 0 < sp.dataRate) (hw : WiresIdle std sp first T) (hb : BurstsOver std sp (first.map .cmd) T)
    (hp : sp.toggling = none) (hf : WiresFaithful std sp ws (joined first second T)) :
    interfaceEnergy std ws (expectedStats std sp (sp.dataRate / sp.wckToCk) (joined first second T) (T + t)) =
      sumInfo (interfaceEnergy std ws (expectedStats std sp (sp.dataRate / sp.wckToCk) (first.map .cmd) T))
        (interfaceEnergy std ws (expectedStats std sp (sp.dataRate / sp.wckToCk) (second.map .cmd) t)) := by
  by_cases hm : std = .lpddr5 ∨ std = .lpddr6
  · exact energy_join hf.ambles fun g => figures_join hd (hf.clocks hm) hp hw hb g
  · have skip : ∀ (ops : List IfOp) (t : Nat), interfaceEnergy std ws (expectedStats std sp (sp.dataRate / sp.wckToCk) ops t) =
        interfaceEnergy std ws (expectedStats std sp 2 ops t) := fun ops t => by
      refine energy_congr hf.ambles fun g hg => ?_
      cases g with
      | dataClock => exact absurd (dataClock_mobile hg) hm
      | _ => exact ⟨rfl, rfl⟩
    rw [skip, skip, skip]
    exact energy_join hf.ambles fun g => figures_join hd rfl hp hw hb g

/-- Payloads are given: the interface energies add up. -/
theorem C78_partial {s0 s1 s2 s s1' s2' s' : Simulator std N} {e1 e2 e : InterfaceInfo} (hi : Simulator.init std N ms sp = .ok s0)
    (r1 : s0.run ms sp first = .done s1) (r2 : s0.run ms sp second = .done s2) (r : s0.run ms sp (first ++ laterI T second) = .done s)
    (q1 : s1.calcInterfaceEnergy ms sp ws T = .ok (s1', e1)) (q2 : s2.calcInterfaceEnergy ms sp ws t = .ok (s2', e2))
    (q : s.calcInterfaceEnergy ms sp ws (T + t) = .ok (s', e)) (hon : sp.enabled = true) (hd : EnergyDefined std ws)
    (hN : sp.bitWidth * sp.devices ≤ N) (hs : ws.dataRate = sp.dataRate) (hw : WiresIdle std sp first T)
    (b1 : BurstsOver std sp (first.map .cmd) T) (b2 : BurstsOver std sp (second.map .cmd) t) (hp : sp.toggling = none)
    (hf : WiresFaithful std sp ws ((first ++ laterI T second).map .cmd)) : e = sumInfo e1 e2 := by
  rw [C70_simulator_partial hi r1 q1 hon hd hN b1 hs (faithful_left hf), C70_simulator_partial hi r2 q2 hon hd hN b2 hs (faithful_right hf),
    C70_simulator_partial hi r q hon hd hN (burstsOver_joined b1 b2) hs hf]
  exact energies_join (init_parts (simulator_init hi).2).1 hw b1 hp hf

theorem sumInfo_total (a b : InterfaceInfo) : (sumInfo a b).total = a.total + b.total := by
  unfold sumInfo InterfaceInfo.total
  ring

/-- So does the total energy, if moreover the traces are legal and the banks closed. -/
theorem C78_total_partial {s0 s1 s2 s s1' s2' s' : Simulator std N} {e1 e2 e : Rat} (hi : Simulator.init std N ms sp = .ok s0)
    (r1 : s0.run ms sp first = .done s1) (r2 : s0.run ms sp second = .done s2) (r : s0.run ms sp (first ++ laterI T second) = .done s)
    (q1 : s1.getTotalEnergy ms sp ps ws T = .ok (s1', e1)) (q2 : s2.getTotalEnergy ms sp ps ws t = .ok (s2', e2))
    (q : s.getTotalEnergy ms sp ps ws (T + t) = .ok (s', e)) (hv : ValidSpec std ms) (hfit : Fits std ms ps)
    (l1 : LegalTrace std ms (first.map ICmd.core)) (l2 : LegalTrace std ms (second.map ICmd.core))
    (hn : std = .ddr4 ∨ (∀ c ∈ first, c.type ≠ .PDEA) ∧ ∀ c ∈ second, c.type ≠ .PDEA)
    (hr : MayFollow std ms (first.map ICmd.core) (second.map ICmd.core) T) (hT : ∀ c ∈ second, c.t ≤ t) (hon : sp.enabled = true)
    (hd : EnergyDefined std ws) (hN : sp.bitWidth * sp.devices ≤ N) (hs : ws.dataRate = sp.dataRate) (hw : WiresIdle std sp first T)
    (b1 : BurstsOver std sp (first.map .cmd) T) (b2 : BurstsOver std sp (second.map .cmd) t) (hp : sp.toggling = none)
    (hf : WiresFaithful std sp ws ((first ++ laterI T second).map .cmd)) : e = e1 + e2 := by
  have hm : (first ++ laterI T second).map ICmd.core = followed (first.map ICmd.core) (second.map ICmd.core) T := by
    rw [List.map_append, laterI_core]; rfl
  have l : LegalTrace std ms ((first ++ laterI T second).map ICmd.core) := by rw [hm]; exact C74_legal l1 l2 hr
  have n1 : ∀ c ∈ first, c.t ≤ T := fun c hc => hr.sent c.core (List.mem_map_of_mem hc)
  have tame : ∀ {cs : List ICmd}, LegalTrace std ms (cs.map ICmd.core) → (std = .ddr4 ∨ ∀ c ∈ cs, c.type ≠ .PDEA) →
      TameTrace std ms (cs.map ICmd.core) := fun hl hn => by
    rcases hn with rfl | hn
    · exact legal_tame_ddr4 hl
    · exact legal_tame_noPda hl fun c hc => by obtain ⟨k, hk, rfl⟩ := List.mem_map.1 hc; exact hn k hk
  have hj : std = .ddr4 ∨ ∀ c ∈ first ++ laterI T second, c.type ≠ .PDEA := hn.imp_right fun ⟨a, b⟩ c hc => by
    rcases List.mem_append.1 hc with hc | hc
    · exact a c hc
    · obtain ⟨d, hd, rfl⟩ := List.mem_map.1 hc
      exact b d hd
  have hjt : ∀ c ∈ first ++ laterI T second, c.t ≤ T + t := fun c hc => by
    rcases List.mem_append.1 hc with hc | hc
    · have := n1 c hc; omega
    · obtain ⟨d, hd, rfl⟩ := List.mem_map.1 hc
      have := hT d hd
      show d.t + T ≤ _
      omega
  rw [C70_total_partial hi r1 q1 hv hfit (tame l1 (hn.imp_right And.left)) n1 hon hd hN b1 hs (faithful_left hf),
    C70_total_partial hi r2 q2 hv hfit (tame l2 (hn.imp_right And.right)) hT hon hd hN b2 hs (faithful_right hf),
    C70_total_partial hi r q hv hfit (tame l hj) hjt hon hd hN (burstsOver_joined b1 b2) hs hf, hm, coreEnergy_followed l2 hr,
    show (first ++ laterI T second).map IfOp.cmd = joined first second T from rfl,
    energies_join (init_parts (simulator_init hi).2).1 hw b1 hp hf, sumInfo_total]
  ring

/-! ## Repetition -/

variable {cs : List ICmd} {P : Nat}

theorem idle_repeated (hw : WiresIdle std sp cs P) : ∀ n, WiresIdle std sp (repeatedI cs P n) (n * P)
  | 0 => ⟨fun c hc => by simp [repeatedI] at hc, fun c hc => by simp [repeatedI] at hc⟩
  | n + 1 => by
    have ih := idle_repeated hw n
    have up : ∀ r, (n + 1) * P * r = n * P * r + P * r := fun r => by ring
    refine ⟨fun c hc => ?_, fun c hc hd => ?_⟩ <;> rcases List.mem_append.1 hc with hc | hc
    · refine (ih.commands c hc).imp_right fun h => ?_
      rw [up]; omega
    · obtain ⟨d, hd, rfl⟩ := List.mem_map.1 hc
      refine (hw.commands d hd).imp_right fun h => ?_
      show (d.t + n * P) * _ + caBeats std d.type < _
      rw [up, Nat.add_mul]; omega
    · refine (ih.bursts c hc hd).imp_right fun h => ?_
      rw [up]; omega
    · obtain ⟨d, hdm, rfl⟩ := List.mem_map.1 hc
      refine (hw.bursts d hdm hd).imp_right fun h => ?_
      show (d.t + n * P) * _ + dataBeats std sp d < _
      rw [up, Nat.add_mul]; omega

theorem over_repeated (hb : BurstsOver std sp (cs.map .cmd) P) : ∀ n, BurstsOver std sp ((repeatedI cs P n).map .cmd) (n * P)
  | 0 => fun b hx => by simp [repeatedI, anyBursts] at hx
  | n + 1 => by
    rw [Nat.succ_mul]
    exact burstsOver_joined (over_repeated hb n) hb

/-- The repetitions, all at once. -/
theorem energies_repeated (hd : 0 < sp.dataRate) (hw : WiresIdle std sp cs P) (hb : BurstsOver std sp (cs.map .cmd) P) (hp : sp.toggling = none) :
    ∀ n, WiresFaithful std sp ws ((repeatedI cs P n).map .cmd) →
      interfaceEnergy std ws (expectedStats std sp (sp.dataRate / sp.wckToCk) ((repeatedI cs P n).map .cmd) (n * P)) =
        timesInfo n (interfaceEnergy std ws (expectedStats std sp (sp.dataRate / sp.wckToCk) (cs.map .cmd) P))
  | 0, hf => by
    have k := energies_join (t := 0) (T := 0) (first := []) (second := []) hd ⟨by simp, by simp⟩ (fun b hx => by simp [anyBursts] at hx) hp hf
    have k' : ∀ x : InterfaceInfo, x = sumInfo x x → x = timesInfo 0 (interfaceEnergy std ws (expectedStats std sp (sp.dataRate / sp.wckToCk) (cs.map .cmd) P)) := by
      rintro ⟨⟨a, b⟩, ⟨c, d⟩⟩ h
      simp only [sumInfo, InterfaceInfo.mk.injEq, InterfaceEnergy.mk.injEq] at h
      simp only [timesInfo, InterfaceInfo.mk.injEq, InterfaceEnergy.mk.injEq]
      obtain ⟨⟨h1, h2⟩, h3, h4⟩ := h
      refine ⟨⟨?_, ?_⟩, ?_, ?_⟩ <;> push_cast <;> linarith
    rw [Nat.zero_mul]
    exact k' _ k
  | n + 1, hf => by
    have k := energies_join (t := P) (second := cs) hd (idle_repeated hw n) (over_repeated hb n) hp hf
    rw [energies_repeated hd hw hb hp n (faithful_left hf)] at k
    rw [Nat.succ_mul]
    refine k.trans ?_
    simp only [sumInfo, timesInfo, InterfaceInfo.mk.injEq, InterfaceEnergy.mk.injEq]
    push_cast
    refine ⟨⟨?_, ?_⟩, ?_, ?_⟩ <;> ring

/-- A trace repeated `n` times takes `n` times the interface energy. -/
theorem C78_repeated_partial {s0 s1 s s1' s' : Simulator std N} {e1 e : InterfaceInfo} (n : Nat) (hi : Simulator.init std N ms sp = .ok s0)
    (r1 : s0.run ms sp cs = .done s1) (r : s0.run ms sp (repeatedI cs P n) = .done s) (q1 : s1.calcInterfaceEnergy ms sp ws P = .ok (s1', e1))
    (q : s.calcInterfaceEnergy ms sp ws (n * P) = .ok (s', e)) (hon : sp.enabled = true) (hd : EnergyDefined std ws)
    (hN : sp.bitWidth * sp.devices ≤ N) (hs : ws.dataRate = sp.dataRate) (hw : WiresIdle std sp cs P)
    (hb : BurstsOver std sp (cs.map .cmd) P) (hp : sp.toggling = none) (hf1 : WiresFaithful std sp ws (cs.map .cmd))
    (hf : WiresFaithful std sp ws ((repeatedI cs P n).map .cmd)) : e = timesInfo n e1 := by
  rw [C70_simulator_partial hi r1 q1 hon hd hN hb hs hf1, C70_simulator_partial hi r q hon hd hN (over_repeated hb n) hs hf]
  exact energies_repeated (init_parts (simulator_init hi).2).1 hw hb hp n hf

/-! ## Counterexample -/

/-- Interface energy a simulator reports. -/
def c78Energy (std : Std) (sp : IfSpec) (ws : WireSpec) (cs : List ICmd) (t : Nat) : Option InterfaceInfo :=
  match Simulator.init std 64 Ex.ms sp with
  | .error _ => none
  | .ok s => match s.run Ex.ms sp cs with
    | .done s => match s.calcInterfaceEnergy Ex.ms sp ws t with
      | .ok (_, e) => some e
      | _ => none
    | _ => none

theorem c78Energy_ok {std : Std} {sp : IfSpec} {ws : WireSpec} {cs : List ICmd} {t : Nat} {e : InterfaceInfo} {s0 : Simulator std 64}
    (h0 : Simulator.init std 64 Ex.ms sp = .ok s0) (h : c78Energy std sp ws cs t = some e) :
    ∃ s s1, s0.run Ex.ms sp cs = .done s ∧ s.calcInterfaceEnergy Ex.ms sp ws t = .ok (s1, e) := by
  unfold c78Energy at h
  simp only [h0] at h
  cases h1 : s0.run Ex.ms sp cs with
  | refused e => simp only [h1] at h; cases h
  | halfway c e => simp only [h1] at h; cases h
  | done s =>
    simp only [h1] at h
    cases h2 : s.calcInterfaceEnergy Ex.ms sp ws t with
    | error e => simp only [h2] at h; cases h
    | ok x =>
      simp only [h2] at h
      cases h
      exact ⟨s, x.1, rfl, h2⟩

/-- One wire in sixteen is high, none toggles. -/
def c78Rates : DirRates := { togglingRate := ⟨0, 1, by decide, by decide⟩, dutyCycle := ⟨1, 16, by decide, by decide⟩, idle := .L }

/-- Bursts of eight beats on eight wires (LPDDR6: 24 beats on twelve wires), given by rates. -/
def c78If (std : Std) : IfSpec :=
  if std = .lpddr6 then { dataRate := 2, burstLength := 24, bitWidth := 12, devices := 1, ranks := 2, toggling := some (c78Rates, c78Rates) }
  else { c53If with toggling := some (c78Rates, c78Rates) }

/-- One read. -/
def c78Read (std : Std) : List ICmd := [{ t := 0, type := .ACT, dbank := if std = .lpddr6 then 8 else 0 }, { t := 8, type := .RD, dbank := if std = .lpddr6 then 8 else 0 }]

/-- All standards: half a level per wire is lost in each of two reports, and found in the report of both. -/
theorem C78_violation (std : Std) : ¬ C78_statement std := by
  intro h
  cases h0 : Simulator.init std 64 Ex.ms (c78If std) with
  | error e =>
    have : (c78Energy std (c78If std) c53Wires (c78Read std) 30).isSome = true := by cases std <;> decide +kernel
    unfold c78Energy at this
    simp [h0] at this
  | ok s0 =>
    have hw : (match c78Energy std (c78If std) c53Wires (c78Read std) 30,
        c78Energy std (c78If std) c53Wires (c78Read std ++ laterI 30 (c78Read std)) (30 + 30) with
      | some e1, some e => decide (e ≠ sumInfo e1 e1)
      | _, _ => false) = true := by cases std <;> decide +kernel
    cases k1 : c78Energy std (c78If std) c53Wires (c78Read std) 30 with
    | none => rw [k1] at hw; cases hw
    | some e1 =>
      cases k : c78Energy std (c78If std) c53Wires (c78Read std ++ laterI 30 (c78Read std)) (30 + 30) with
      | none => rw [k1, k] at hw; cases hw
      | some e =>
        rw [k1, k] at hw
        obtain ⟨s1, s1', r1, q1⟩ := c78Energy_ok h0 k1
        obtain ⟨s, s', r, q⟩ := c78Energy_ok h0 k
        refine of_decide_eq_true hw (h 64 Ex.ms (c78If std) c53Wires _ _ 30 30 s0 s1 s1 s s1' s1' s' e1 e1 e h0 r1 r1 r q1 q1 q ?_ ?_ ?_ ?_ ?_ ?_ ?_)
          <;> cases std <;> decide

/-- DDR4, payloads given: two gapless reads are charged `2 ^ 64 + 7` units (item C45), twice these commands `2 ^ 64 + 14`. -/
theorem C78_violation_ambles :
    c78Energy .ddr4 c45If c45Wires (c45Trace [10, 14]) 60 = some { dram := { static := 2 ^ 64 + 7 } } ∧
    c78Energy .ddr4 c45If c45Wires (c45Trace [10, 14] ++ laterI 60 (c45Trace [10, 14])) (60 + 60) = some { dram := { static := 2 ^ 64 + 14 } } ∧
    WiresIdle .ddr4 c45If (c45Trace [10, 14]) 60 ∧ BurstsOver .ddr4 c45If ((c45Trace [10, 14]).map .cmd) 60 := by
  refine ⟨?_, ?_, ?_, ?_⟩ <;> decide +kernel

/-! ## The hypotheses can be met -/

theorem c78Faithful (std : Std) : WiresFaithful std c53If c53Wires ((c74Example std ++ laterI 60 (c74Example std)).map .cmd) where
  even := rfl
  ambles _ := ⟨.inr ⟨rfl, rfl⟩, .inr ⟨rfl, rfl⟩⟩
  strobes _ := rfl
  rates _ := .inl rfl
  rows h c hc ha := by
    have : ∀ c ∈ c74Example .lpddr4 ++ laterI 60 (c74Example .lpddr4), c.co.row = 0 := by decide
    subst h
    simp only [List.mem_map, IfOp.cmd.injEq, exists_eq_right] at hc
    rw [this c hc]
    rfl
  noInversion6 _ := by simp
  clocks _ := rfl
  pins h := by
    have k : ∀ c ∈ c74Example std ++ laterI 60 (c74Example std), c.nBits % 8 = 0 ∧ c.type ≠ .END_OF_SIMULATION := by cases std <;> decide
    refine ⟨fun c hc => ?_, ?_, .inl ⟨fun r => ?_, rfl⟩⟩
    · simp only [List.mem_map, IfOp.cmd.injEq, exists_eq_right] at hc
      exact (k c hc).1
    · unfold Ends
      rw [List.pairwise_map]
      refine List.Pairwise.imp_of_mem (R := fun _ _ => True) (fun {a b} ha _ _ => ?_) (List.pairwise_of_forall fun _ _ => trivial)
      rintro ⟨c, hc, ht⟩
      cases hc
      exact absurd ht (k a ha).2
    · rw [marked_cmds]
      trivial

/-- All standards: the traces of `C74`, 60 cycles apart. -/
example (std : Std) : EnergyDefined std c53Wires ∧ WiresIdle std c53If (c74Example std) 60 ∧ BurstsOver std c53If ((c74Example std).map .cmd) 60 ∧
    WiresFaithful std c53If c53Wires ((c74Example std ++ laterI 60 (c74Example std)).map .cmd) ∧
    (c78Energy std c53If c53Wires (c74Example std) 60).isSome = true ∧
    c78Energy std c53If c53Wires (c74Example std ++ laterI 60 (c74Example std)) (60 + 60) =
      (c78Energy std c53If c53Wires (c74Example std) 60).map fun e => sumInfo e e := by
  refine ⟨?_, ?_, ?_, c78Faithful std, ?_, ?_⟩ <;> cases std <;> decide +kernel

/-- The same, repeated; the energy is not trivial. -/
example : WiresFaithful .ddr4 c53If c53Wires ((repeatedI (c74Example .ddr4) 60 2).map .cmd) ∧
    c78Energy .ddr4 c53If c53Wires (repeatedI (c74Example .ddr4) 60 2) (2 * 60) =
      (c78Energy .ddr4 c53If c53Wires (c74Example .ddr4) 60).map (timesInfo 2) ∧
    c78Energy .ddr4 c53If c53Wires (c74Example .ddr4) 60 =
      some { controller := { dynamic := 172, static := 112 }, dram := { dynamic := 22, static := 59 / 2 } } := by
  refine ⟨c78Faithful .ddr4, ?_, ?_⟩ <;> decide +kernel

end DRAMPower
