import Verif.Spec.WireScaling
import Verif.Lemmas.WireTogether
import Verif.Props.C45
import Mathlib.Tactic.FieldSimp

/-!
# C88: how the interface energies depend on voltage, clock, resistances, edge energies and termination
-/

namespace DRAMPower
open Spec

theorem Together.eq_map {α : Type} {f : α → α} {x y : Except Err α} (h : Together True (fun a b => b = f a) x y) : y = x.map f := by
  cases x with
  | ok a =>
    cases y with
    | ok b => rw [h.1 a b rfl rfl]; rfl
    | error e => exact absurd ((h.2 trivial e).2 rfl) (by simp)
  | error e => rw [(h.2 trivial e).1 rfl]; rfl

/-! ## Scaling -/

/-- The change of a side. -/
def timesSide (a b : Rat) (x y : InterfaceEnergy) : Prop := y = { static := a * x.static, dynamic := b * x.dynamic }

theorem timesSide_additive (a b : Rat) : Additive (timesSide a b) where
  zero := by unfold timesSide; simp
  add := by
    intro x y x' y' h h'
    unfold timesSide at *
    rw [h, h']
    simp only [InterfaceEnergy.add]
    congr 1 <;> ring

theorem wiring_scale (kv kt kr ke : Rat) (s : WireSpec) (g : Group) :
    g.wiring (scaleWires kv kt kr ke s).imp = { g.wiring s.imp with rEq := kr * (g.wiring s.imp).rEq, dynE := ke * (g.wiring s.imp).dynE } := by
  cases g <;> rfl

theorem static_scale {kv kt kr : Rat} (hr : kr ≠ 0) {r : Rat} (h : r ≠ 0) (n t v : Rat) :
    WireSpec.static n (kr * r) (kt * t) (kv * v) = kv ^ 2 * kt / kr * WireSpec.static n r t v := by
  unfold WireSpec.static
  field_simp

theorem pair_scale {kv kt kr ke : Rat} (hr : kr ≠ 0) (std : Std) (s : WireSpec) (w : Wiring) (on : Bool) (b : BusStats) (t : Rat) (rate : Nat) :
    Together True (timesSide (kv ^ 2 * kt / kr) ke) (s.pair std w on b t rate)
      ((scaleWires kv kt kr ke s).pair std { w with rEq := kr * w.rEq, dynE := ke * w.dynE } on b (kt * t) rate) := by
  unfold WireSpec.pair WireSpec.termination
  by_cases h : on = false
  · simp only [h, if_true, bind, Except.bind, pure, Except.pure]
    refine Together.ok ?_
    simp only [timesSide, WireSpec.dynamic]
    congr 1 <;> ring
  · simp only [h, Bool.false_eq_true, if_false]
    have e : (kr * w.rEq = 0 ∨ rate = 0) ↔ (w.rEq = 0 ∨ rate = 0) := by simp [hr]
    by_cases h0 : w.rEq = 0 ∨ rate = 0
    · rw [if_pos h0, if_pos (e.2 h0)]
      exact Together.error _
    · rw [if_neg h0, if_neg (fun h => h0 (e.1 h))]
      refine Together.ok ?_
      have h1 : w.rEq ≠ 0 := fun h => h0 (.inl h)
      simp only [timesSide, WireSpec.dynamic, scaleWires]
      rw [mul_div_assoc, static_scale hr h1, mul_left_comm]

theorem amble_scale {kv kt kr ke : Rat} (hr : kr ≠ 0) (s : WireSpec) (st : SimStats) (w : Wiring) (read : Bool) :
    Together True (timesSide (kv ^ 2 * kt / kr) ke) (s.ambleEnergy st w read)
      ((scaleWires kv kt kr ke s).ambleEnergy st { w with rEq := kr * w.rEq, dynE := ke * w.dynE } read) := by
  unfold WireSpec.ambleEnergy
  simp only
  by_cases h : w.termination = false
  · rw [if_pos h, if_pos h]
    exact Together.ok (timesSide_additive _ _).zero
  · rw [if_neg h, if_neg h]
    by_cases h0 : w.rEq = 0
    · rw [if_pos h0, if_pos (by rw [h0]; ring)]
      exact Together.error _
    · rw [if_neg h0, if_neg (mul_ne_zero hr h0)]
      refine Together.ok ?_
      simp only [timesSide, WireSpec.dynamic, scaleWires, WireSpec.pairs]
      rw [static_scale hr h0, mul_left_comm]
      rfl

/-- The static energies go with the square of the voltage, the clock period and the inverse of the resistances, the dynamic ones with the
energy of an edge; whether the calculation is defined does not change. -/
theorem C88_scaling (std : Std) (kv kt kr ke : Rat) (hr : kr ≠ 0) (s : WireSpec) (st : SimStats) :
    (scaleWires kv kt kr ke s).calculateEnergy std st = (s.calculateEnergy std st).map (scaledInfo (kv ^ 2 * kt / kr) ke) := by
  have hg : ∀ g : Group, Together True (timesSide (kv ^ 2 * kt / kr) ke) (g.pair std s st) (g.pair std (scaleWires kv kt kr ke s) st) := by
    intro g
    unfold Group.pair
    rw [wiring_scale]
    have hp := pair_scale (kv := kv) (kt := kt) (ke := ke) hr std s
    have h5 : ∀ w : Wiring, g.flag std { w with rEq := kr * w.rEq, dynE := ke * w.dynE } = g.flag std w := by
      intro w
      cases g <;> simp [Group.flag, WireSpec.togglingFlag, hr]
    rw [h5]
    cases g <;> cases std <;> exact hp _ _ _ _ _
  have ha := amble_scale (kv := kv) (kt := kt) (ke := ke) hr s st
  refine Together.eq_map ?_
  refine (energy_together (timesSide_additive _ _) (timesSide_additive _ _) (fun g _ _ => hg g) (fun g _ _ => hg g)
    (fun _ => ha s.imp.wdqs false) (fun _ => ha s.imp.rdqs true)).mono fun a b h => ?_
  obtain ⟨⟨a1, a2⟩, ⟨a3, a4⟩⟩ := a
  obtain ⟨b1, b2⟩ := b
  obtain ⟨h1, h2⟩ := h
  simp only [timesSide] at h1 h2
  simp only [scaledInfo, h1, h2]

/-- The same of a simulator, which counts the same. -/
theorem C88_simulator {std : Std} {N : Nat} (kv kt kr ke : Rat) (hr : kr ≠ 0) (ms : MemSpec) (sp : IfSpec) (ws : WireSpec) (s : Simulator std N)
    (t : Nat) : s.calcInterfaceEnergy ms sp (scaleWires kv kt kr ke ws) t =
      (s.calcInterfaceEnergy ms sp ws t).map fun x => (x.1, scaledInfo (kv ^ 2 * kt / kr) ke x.2) := by
  unfold Simulator.calcInterfaceEnergy
  cases s.getWindowStats ms sp t with
  | error e => rfl
  | ok x =>
    simp only [bind, Except.bind, C88_scaling std kv kt kr ke hr]
    cases ws.calculateEnergy std x.2 <;> rfl

/-! ## Sides -/

theorem pair_congr {std : Std} {s s' : WireSpec} (h : s'.vddq = s.vddq) (w : Wiring) (on : Bool) (b : BusStats) (t : Rat) (rate : Nat) :
    s'.pair std w on b t rate = s.pair std w on b t rate := by
  unfold WireSpec.pair
  rw [h]

theorem eq_additive : Additive Eq := ⟨rfl, fun h h' => by rw [h, h']⟩
theorem true_additive : Additive fun _ _ => True := ⟨trivial, fun _ _ => trivial⟩

/-- The wires of the reads have no influence on what the controller spends. -/
theorem C88_reads (std : Std) (s : WireSpec) (x : Impedances) (st : SimStats) (e e' : InterfaceInfo)
    (h : s.calculateEnergy std st = .ok e) (h' : (otherReads x s).calculateEnergy std st = .ok e') : e'.controller = e.controller := by
  refine ((energy_together (p := False) eq_additive true_additive (fun g hg hs => ?_) (fun _ _ _ => ?_) (fun _ => ?_) (fun _ => ?_)).1
    e e' h h').1.symm
  · refine Together.loose id fun a b ha hb => ok_inj (ha.symm.trans (Eq.trans ?_ hb))
    cases g
    case readStrobe | readData | readRate | readInv => cases hs
    all_goals exact (pair_congr rfl _ _ _ _ _).symm
  · exact Together.loose id fun _ _ _ _ => trivial
  · exact Together.loose id fun a b ha hb => ok_inj (ha.symm.trans (Eq.trans rfl hb))
  · exact Together.loose id fun _ _ _ _ => trivial

/-- The other wires have no influence on what the memory spends. -/
theorem C88_writes (std : Std) (s : WireSpec) (x : Impedances) (st : SimStats) (e e' : InterfaceInfo)
    (h : s.calculateEnergy std st = .ok e) (h' : (otherWrites x s).calculateEnergy std st = .ok e') : e'.dram = e.dram := by
  refine ((energy_together (p := False) true_additive eq_additive (fun _ _ _ => ?_) (fun g hg hs => ?_) (fun _ => ?_) (fun _ => ?_)).1
    e e' h h').2.symm
  · exact Together.loose id fun _ _ _ _ => trivial
  · refine Together.loose id fun a b ha hb => ok_inj (ha.symm.trans (Eq.trans ?_ hb))
    cases g
    case readStrobe | readData | readRate | readInv => exact (pair_congr rfl _ _ _ _ _).symm
    all_goals cases hs
  · exact Together.loose id fun _ _ _ _ => trivial
  · exact Together.loose id fun a b ha hb => ok_inj (ha.symm.trans (Eq.trans rfl hb))

/-! ## Termination -/

/-- Everything that is claimed about termination: it has no influence on the energy of edges. -/
def C88_statement (std : Std) : Prop :=
  ∀ (s s' : WireSpec) (st : SimStats) (e e' : InterfaceInfo), unterminated s = unterminated s' →
    s.calculateEnergy std st = .ok e → s'.calculateEnergy std st = .ok e' →
    e'.controller.dynamic = e.controller.dynamic ∧ e'.dram.dynamic = e.dram.dynamic

theorem dynamic_additive : Additive fun a b => b.dynamic = a.dynamic := ⟨rfl, fun h h' => by simp only [InterfaceEnergy.add, h, h']⟩

theorem pair_dynamic {std : Std} {s : WireSpec} {w : Wiring} {on : Bool} {b : BusStats} {t : Rat} {rate : Nat} {x : InterfaceEnergy}
    (h : s.pair std w on b t rate = .ok x) : x.dynamic = b.zeroesToOnes * w.dynE := by
  unfold WireSpec.pair at h
  cases hy : WireSpec.termination std on b w.rEq t rate s.vddq with
  | error e => rw [hy] at h; cases h
  | ok y => rw [hy] at h; cases h; rfl

theorem amble_dynamic {s : WireSpec} {st : SimStats} {w : Wiring} {read : Bool} {x : InterfaceEnergy} (h : s.ambleEnergy st w read = .ok x)
    (hn : NoAmbleEdges s st) : x.dynamic = 0 := by
  unfold WireSpec.ambleEnergy at h
  simp only at h
  split at h
  · cases h; rfl
  · split at h
    · cases h
    · cases h
      simp only [WireSpec.dynamic]
      rcases hn read with h0 | h0
      · have : WireSpec.transferCount st read = WireSpec.seamlessCount st read := h0
        rw [this]
        simp [usub]
      · rw [h0]; simp

/-- Missing from the full statement: DDR4 with edges of pre- or postambles. -/
theorem C88_termination_partial (std : Std) (s s' : WireSpec) (st : SimStats) (e e' : InterfaceInfo) (hs : unterminated s = unterminated s')
    (hn : std = .ddr4 → NoAmbleEdges s st) (h : s.calculateEnergy std st = .ok e) (h' : s'.calculateEnergy std st = .ok e') :
    e'.controller.dynamic = e.controller.dynamic ∧ e'.dram.dynamic = e.dram.dynamic := by
  have hd : ∀ g : Group, (g.wiring s'.imp).dynE = (g.wiring s.imp).dynE := by
    intro g
    have := congrArg (fun s : WireSpec => (g.wiring s.imp).dynE) hs
    cases g <;> exact this.symm
  have hm : (unterminated s').ambles = (unterminated s).ambles := by rw [hs]
  change s'.ambles = s.ambles at hm
  have hg : ∀ g : Group, Together False (fun a b : InterfaceEnergy => b.dynamic = a.dynamic) (g.pair std s st) (g.pair std s' st) := by
    intro g
    refine Together.loose id fun a b ha hb => ?_
    unfold Group.pair at ha hb
    rw [pair_dynamic ha, pair_dynamic hb, hd]
  have ha : std = .ddr4 → ∀ (w w' : Wiring) (read : Bool), Together False (fun a b : InterfaceEnergy => b.dynamic = a.dynamic)
      (s.ambleEnergy st w read) (s'.ambleEnergy st w' read) := by
    intro h4 w w' read
    refine Together.loose id fun a b ha hb => ?_
    rw [amble_dynamic ha (hn h4), amble_dynamic hb (by unfold NoAmbleEdges; rw [hm]; exact hn h4)]
  exact (energy_together (p := False) dynamic_additive dynamic_additive (fun g _ _ => hg g) (fun g _ _ => hg g)
    (fun h4 => ha h4 _ _ false) (fun h4 => ha h4 _ _ true)).1 e e' h h'

/-- Of a DDR4 simulator that reports no gapless transfers. -/
theorem C88_ddr4 {N : Nat} (ms : MemSpec) (sp : IfSpec) (s s1 : Simulator .ddr4 N) (t : Nat) (st : SimStats) (ws ws' : WireSpec)
    (e e' : InterfaceInfo) (hq : s.getWindowStats ms sp t = .ok (s1, st)) (h0 : ∀ read, gaplessOf st read = 0)
    (hs : unterminated ws = unterminated ws') (h : ws.calculateEnergy .ddr4 st = .ok e) (h' : ws'.calculateEnergy .ddr4 st = .ok e') :
    e'.controller.dynamic = e.controller.dynamic ∧ e'.dram.dynamic = e.dram.dynamic := by
  refine C88_termination_partial .ddr4 ws ws' st e e' hs (fun _ read => .inl ?_) h h'
  rw [h0, rankTransfers, List.sum_eq_zero]
  intro x hx
  obtain ⟨r, hr, rfl⟩ := List.mem_map.1 hx
  rw [C45_rank_counters hq r hr]
  cases read <;> rfl

/-- One volt, one ohm; an amble has one rising edge. -/
def c88Wires : WireSpec :=
  { tCK := 1, tWCK := 1, vddq := 1, dataRate := 2, ambles := { readZeroes := 1, readZeroesToOnes := 1 }
    imp := everyWire (fun _ => { termination := true, rEq := 1, dynE := 1 }) {} }

/-- DDR4, a gapless read: the edges of ambles are charged only if the strobe is terminated. With termination the two reads have
`2 ^ 64 - 1` ambles (see `C45_violation_ddr4`). -/
theorem C88_violation : ¬ C88_statement .ddr4 := by
  intro h
  have hq : (match c45Energy .ddr4 c45Mem c45If c88Wires (c45Trace [10, 14]) 30 with
    | .ok (st, _) => match c88Wires.calculateEnergy .ddr4 st, (unterminated c88Wires).calculateEnergy .ddr4 st with
      | .ok e, .ok e' => decide (e'.dram.dynamic ≠ e.dram.dynamic)
      | _, _ => false
    | _ => false) = true := by decide +kernel
  split at hq
  · rename_i st _ _
    split at hq
    · rename_i e e' he he'
      exact (of_decide_eq_true hq) (h c88Wires (unterminated c88Wires) st e e' rfl he he').2
    · cases hq
  · cases hq

/-- A transfer counted for its rank that is not gapless, as in the tests of the repository: one rising edge of an amble, charged only if
the strobe is terminated. -/
theorem C88_violation_single :
    (c88Wires.calculateEnergy .ddr4 { rankTotal := [{ counter := { reads := 1 } }] }).map (·.dram.dynamic) = .ok 1 ∧
    ((unterminated c88Wires).calculateEnergy .ddr4 { rankTotal := [{ counter := { reads := 1 } }] }).map (·.dram.dynamic) = .ok 0 := by
  constructor <;> decide +kernel

/-- Without termination nothing is spent statically; DDR5 must not have levels from toggling rates (see `C45_violation_ddr5`). -/
theorem C88_unterminated (std : Std) (s : WireSpec) (st : SimStats) (e : InterfaceInfo) (h5 : std = .ddr5 → RatesTerminated (unterminated s) st)
    (h : (unterminated s).calculateEnergy std st = .ok e) : e.controller.static = 0 ∧ e.dram.static = 0 := by
  have hz : Additive fun a _ : InterfaceEnergy => a.static = 0 := ⟨rfl, fun h h' => by simp [InterfaceEnergy.add, h, h']⟩
  have hw : ∀ g : Group, (g.wiring (unterminated s).imp).termination = false := by intro g; cases g <;> rfl
  have hoff : ∀ (w : Wiring) (b : BusStats) (t : Rat) (rate : Nat) (x : InterfaceEnergy),
      (unterminated s).pair std w false b t rate = .ok x → x.static = 0 := by
    intro w b t rate x h
    unfold WireSpec.pair WireSpec.termination at h
    cases h; rfl
  have hg : ∀ g : Group, Together False (fun a _ : InterfaceEnergy => a.static = 0) (g.pair std (unterminated s) st) (g.pair std (unterminated s) st) := by
    intro g
    refine Together.loose id fun a _ ha _ => ?_
    by_cases hm : g = .readRate ∨ g = .writeRate
    · by_cases e5 : std = .ddr5
      · have h6 := h5 e5 g (by rcases hm with rfl | rfl <;> decide)
        unfold Group.pair at ha
        subst e5
        have hf : g.flag .ddr5 (g.wiring (unterminated s).imp) = decide ((g.wiring (unterminated s).imp).rEq ≠ 0) := by
          rcases hm with rfl | rfl <;> rfl
        rw [hf] at ha
        rcases h6 with h6 | h6 | ⟨_, h6⟩
        · rw [hw] at h6; cases h6
        · rw [decide_eq_false (by simp [h6])] at ha
          exact hoff _ _ _ _ _ ha
        · unfold WireSpec.pair WireSpec.termination at ha
          split at ha
          · cases ha; rfl
          · split at ha
            · cases ha
            · cases ha
              simp [WireSpec.static, WireSpec.drained, h6]
      · have hf : g.flag std (g.wiring (unterminated s).imp) = false := by
          rcases hm with rfl | rfl <;> simp only [Group.flag, WireSpec.togglingFlag, if_neg e5] <;> exact hw _
        unfold Group.pair at ha
        rw [hf] at ha
        exact hoff _ _ _ _ _ ha
    · unfold Group.pair at ha
      have hf : g.flag std (g.wiring (unterminated s).imp) = false := by
        cases g <;> first | exact absurd (by decide) hm | exact hw _
      rw [hf] at ha
      exact hoff _ _ _ _ _ ha
  have ham : ∀ (w : Wiring) (read : Bool), w.termination = false →
      Together False (fun a _ : InterfaceEnergy => a.static = 0) ((unterminated s).ambleEnergy st w read) ((unterminated s).ambleEnergy st w read) := by
    intro w read h0
    refine Together.loose id fun a _ ha _ => ?_
    unfold WireSpec.ambleEnergy at ha
    simp only at ha
    rw [if_pos h0] at ha
    cases ha; rfl
  exact (energy_together (p := False) hz hz (fun g _ _ => hg g) (fun g _ _ => hg g) (fun _ => ham _ _ rfl) (fun _ => ham _ _ rfl)).1 e e h h

/-! ## Examples -/

/-- A read trace of every standard with numbers of its own: what is spent on both sides, before and after a change of the specification. -/
def c88Figures (std : Std) (f : WireSpec → WireSpec) : Option (List Rat) :=
  match (f c45Full).calculateEnergy std c45Stats with
  | .ok e => some [e.controller.static, e.controller.dynamic, e.dram.static, e.dram.dynamic]
  | _ => none

/-- Three times the voltage, twice the clock period, five times the resistances, seven times the energy of an edge: 18/5 times the static
and seven times the dynamic energies. -/
example : ([Std.ddr4, .ddr5, .lpddr4, .lpddr5, .lpddr6].all fun std => match c88Figures std id, c88Figures std (scaleWires 3 2 5 7) with
    | some [a, b, c, d], some l => decide (l = [18 / 5 * a, 7 * b, 18 / 5 * c, 7 * d] ∧ 0 < a ∧ 0 < b ∧ 0 < c ∧ 0 < d)
    | _, _ => false) = true := by decide +kernel

/-- Other wires of the other side, and no termination: the energies are defined, what may differ differs. -/
example : ([Std.ddr4, .ddr5, .lpddr4, .lpddr5, .lpddr6].all fun std =>
    match c88Figures std id, c88Figures std (otherReads c88Wires.imp), c88Figures std (otherWrites c88Wires.imp), c88Figures std unterminated with
    | some [a, b, c, _], some [a1, b1, c1, _], some [a2, _, c2, _], some [a3, b3, _, _] =>
      decide (a1 = a ∧ b1 = b ∧ c1 ≠ c ∧ a2 ≠ a ∧ c2 = c ∧ a3 < a ∧ 0 < b3)
    | _, _, _, _ => false) = true := by decide +kernel

/-- DDR4, two reads with a gap: no gapless transfers, energy of edges. -/
example : (match c45Energy .ddr4 c45Mem c45If c88Wires (c45Trace [10, 20]) 30 with
    | .ok (st, e) => decide (gaplessOf st true = 0 ∧ gaplessOf st false = 0 ∧ 0 < e.dram.dynamic)
    | _ => false) = true := by decide +kernel

end DRAMPower
