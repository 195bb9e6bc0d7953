import Verif.Lemmas.Outline
import Verif.Props.C92
import Mathlib.Tactic.Linarith
import Mathlib.Tactic.Positivity
import Mathlib.Algebra.Order.Field.Rat

/-!
# C93: payloads, inversion and metadata influence the data wires and the inversion lines and nothing else

Two sessions have the same outline (`Spec/Outline`). Below, with C92: what inversion does to the energy.
-/

namespace DRAMPower
open Spec

variable {std : Std} {N : Nat} {ms : MemSpec} {sp : IfSpec}

/-- The full claim. -/
def C93_statement (std : Std) : Prop :=
  ∀ (N : Nat) (ms : MemSpec) (sp : IfSpec) (o a b : SimObject std N) (us us' : List SimCall) (t : Nat) (a' b' : Simulator std N) (x y : SimStats),
    SimObject.init std N ms sp = .ok o → us'.filterMap outline = us.filterMap outline → o.run ms sp us = .ok a → o.run ms sp us' = .ok b →
    a.sim.getWindowStats ms sp t = .ok (a', x) → b.sim.getWindowStats ms sp t = .ok (b', y) →
    otherFigures y = otherFigures x ∧ b.sim.lastCommandTime = a.sim.lastCommandTime ∧ b'.core = a'.core ∧
      ∀ ps : PowerSpec, ps.calcEnergy std y = ps.calcEnergy std x

theorem core_outline : ∀ us : List SimCall, coreOps us = coreOps (us.filterMap outline)
  | [] => rfl
  | u :: us => by
    have ih := core_outline us
    unfold coreOps at *
    cases u with
    | iface op =>
      have h : outline (.iface op) = (opOutline op).map .iface := rfl
      rw [List.filterMap_cons_none rfl, ih]
      cases hop : opOutline op with
      | none => rw [hop] at h; rw [List.filterMap_cons_none h]
      | some o => rw [hop] at h; rw [List.filterMap_cons_some h, List.filterMap_cons_none (by rfl)]
    | command c => exact congrArg (Op.cmd c.core :: ·) ih
    | coreCommand c => exact congrArg (Op.cmd c.core :: ·) ih
    | window t => exact congrArg (Op.query t :: ·) ih
    | _ => exact ih

/-- The part of an outline for the interface. -/
def wirePart : SimCall → Option IfOp
  | .command c => some (.cmd c)
  | .iface op => some op
  | _ => none

theorem interface_outline (std : Std) (sp : IfSpec) : ∀ us : List SimCall, (ifOps std sp us).filterMap opOutline = (us.filterMap outline).filterMap wirePart
  | [] => rfl
  | u :: us => by
    have ih := interface_outline std sp us
    rw [(ops_cons std sp u us).2, List.filterMap_append, ih]
    cases u with
    | command c => rfl
    | iface op =>
      have h : outline (.iface op) = (opOutline op).map .iface := rfl
      have h1 : ifOps std sp [.iface op] = [op] := rfl
      rw [h1]
      cases hop : opOutline op with
      | none => rw [hop] at h; rw [List.filterMap_cons_none h, List.filterMap_cons_none hop]; rfl
      | some o => rw [hop] at h; rw [List.filterMap_cons_some h, List.filterMap_cons_some hop]; rfl
    | setDBI e =>
      have h1 : ifOps std sp [.setDBI e] = if inverts std sp then [.dbi e] else [] := by
        unfold ifOps
        by_cases h : inverts std sp
        · simp only [List.filterMap_cons, List.filterMap_nil, if_pos h]
        · simp only [List.filterMap_cons, List.filterMap_nil, if_neg h]
      rw [h1]
      split <;> rfl
    | setMetaData p q =>
      have h1 : ifOps std sp [.setMetaData p q] = if std = .lpddr6 then [.metaData p q] else [] := by
        unfold ifOps
        by_cases h : std = .lpddr6
        · simp only [List.filterMap_cons, List.filterMap_nil, if_pos h]
        · simp only [List.filterMap_cons, List.filterMap_nil, if_neg h]
      rw [h1]
      split <;> rfl
    | _ => rfl

/-- All standards, specifications, sessions and times: wherever both sessions are accepted and both queries answered. -/
theorem C93 : C93_statement std := by
  intro N ms sp o a b us us' t a' b' x y ho hs ha hb hx hy
  obtain ⟨e1, _, e3⟩ := init_parts_ext ho
  obtain ⟨⟨r, p1⟩, p2, _⟩ := run_parts e1 ha
  obtain ⟨⟨r', q1⟩, q2, _⟩ := run_parts e1 hb
  have hc : b.sim.core = a.sim.core := by
    rw [core_outline, hs, ← core_outline, p1] at q1
    exact (Prod.mk.inj (ok_inj q1)).1.symm
  have hi : Elsewhere sp a.sim.interface b.sim.interface :=
    (Elsewhere.refl (init_shaped e3)).run (by rw [interface_outline, interface_outline, hs]) p2 q2
  unfold Simulator.getWindowStats at hx hy
  rw [hc] at hy
  obtain ⟨x1, hx1, hx2⟩ := bind_ok hx
  obtain ⟨y1, hy1, hy2⟩ := bind_ok hy
  have ex := pure_ok hx2
  have ey := pure_ok hy2
  simp only [Prod.mk.injEq] at ex ey
  have hf := hi.figures hx1 hy1
  rw [ex.2, ey.2] at hf
  refine ⟨hf, ?_, by rw [← ex.1, ← ey.1], fun ps => ?_⟩
  · unfold Simulator.lastCommandTime Interface.lastCommandTime
    rw [hc, hi.last]
  · have key : ∀ s : SimStats, ps.calcEnergy std s = ps.calcEnergy std (otherFigures s) := fun s => rfl
    rw [key y, hf, ← key x]

/-! ## What inversion does to the energy -/

/-- The calls other than those that switch inversion. -/
def unswitched (us : List SimCall) : List SimCall :=
  us.filter fun
    | .setDBI _ | .iface (.dbi _) => false
    | _ => true

theorem outline_unswitched : ∀ us : List SimCall, us.filterMap outline = (unswitched us).filterMap outline
  | [] => rfl
  | u :: us => by
    have ih := outline_unswitched us
    cases u with
    | iface op => cases op <;> first | exact congrArg (_ :: ·) ih | exact ih
    | command c => exact congrArg (_ :: ·) ih
    | coreCommand c => exact congrArg (_ :: ·) ih
    | window t => exact congrArg (_ :: ·) ih
    | _ => exact ih

theorem commands_unswitched (std : Std) (sp : IfSpec) : ∀ us : List SimCall, commandsOf (ifOps std sp us) = commandsOf (ifOps std sp (unswitched us))
  | [] => rfl
  | u :: us => by
    have ih := commands_unswitched std sp us
    have hc : ∀ l, commandsOf (ifOps std sp (u :: l)) = commandsOf (ifOps std sp [u]) ++ commandsOf (ifOps std sp l) := fun l => by
      rw [(ops_cons std sp u l).2]
      unfold commandsOf
      exact List.filterMap_append
    have keep : unswitched (u :: us) = u :: unswitched us → commandsOf (ifOps std sp (u :: us)) = commandsOf (ifOps std sp (unswitched (u :: us))) := by
      intro h
      rw [h, hc us, hc (unswitched us), ih]
    cases u with
    | iface op =>
      cases op with
      | dbi e => exact ih
      | _ => exact keep rfl
    | setDBI e =>
      show _ = commandsOf (ifOps std sp (unswitched us))
      rw [hc, ← ih]
      have : commandsOf (ifOps std sp [.setDBI e]) = [] := by
        unfold ifOps commandsOf
        by_cases h : inverts std sp
        · simp only [List.filterMap_cons, List.filterMap_nil, if_pos h]
        · simp only [List.filterMap_cons, List.filterMap_nil, if_neg h]
      rw [this]
      rfl
    | _ => exact keep rfl

/-- The figures of the data wires and the inversion lines do not depend on the core. -/
theorem window_start {i : Interface std N} {t : Nat} {s x : SimStats} (h1 : s.readBus = {}) (h2 : s.writeBus = {}) (h3 : s.readDBI = {})
    (h4 : s.writeDBI = {}) (h : i.getWindowStats sp t s = .ok x) :
    ∃ x0, i.getWindowStats sp t {} = .ok x0 ∧ x0.readBus = x.readBus ∧ x0.writeBus = x.writeBus ∧ x0.readDBI = x.readDBI ∧ x0.writeDBI = x.writeDBI := by
  unfold Interface.getWindowStats at h ⊢
  rw [h1, h2, h3, h4] at h
  obtain ⟨c, a1, h⟩ := bind_ok h
  obtain ⟨d, a2, h⟩ := bind_ok h
  obtain ⟨r, a3, h⟩ := bind_ok h
  obtain ⟨w, a4, h⟩ := bind_ok h
  rw [a1, a2]
  simp only [bind, Except.bind, pure, Except.pure] at a3 a4 ⊢
  rw [a3, a4]
  exact ⟨_, rfl, by rw [← pure_ok h], by rw [← pure_ok h], by rw [← pure_ok h], by rw [← pure_ok h]⟩

/-- The inversion lines are driven and terminated like the data wires, by resistances that are not negative. -/
structure TerminatedAlike (ws : WireSpec) : Prop where
  period : 0 ≤ ws.tCK
  read : ws.imp.rdbi.termination = ws.imp.rdq.termination
  write : ws.imp.wdbi.termination = ws.imp.wdq.termination
  readR : ws.imp.rdbi.rEq = ws.imp.rdq.rEq
  writeR : ws.imp.wdbi.rEq = ws.imp.wdq.rEq
  readPos : 0 ≤ ws.imp.rdq.rEq
  writePos : 0 ≤ ws.imp.wdq.rEq

theorem pair_static {ws : WireSpec} {w : Wiring} {s : BusStats} {e : InterfaceEnergy}
    (h : ws.pair std w w.termination s ws.tCK ws.dataRate = .ok e) :
    e.static = (Group.lossy std s : Rat) * (if w.termination then ws.vddq * ws.vddq / w.rEq * (ws.tCK / ws.dataRate) else 0) := by
  unfold WireSpec.pair at h
  obtain ⟨v, h1, h2⟩ := bind_ok h
  rw [← pure_ok h2]
  unfold WireSpec.termination at h1
  split at h1
  · rename_i ht
    rw [← ok_inj h1, ht]
    simp
  · rename_i ht
    split at h1
    · cases h1
    · rw [← ok_inj h1, if_pos (by simpa using ht)]
      unfold WireSpec.static
      have : WireSpec.drained std s = Group.lossy std s := by cases std <;> rfl
      rw [this]
      ring

theorem charge_nonneg {ws : WireSpec} {w : Wiring} (h : 0 ≤ ws.tCK) (hr : 0 ≤ w.rEq) :
    0 ≤ (if w.termination then ws.vddq * ws.vddq / w.rEq * (ws.tCK / ws.dataRate) else 0) := by
  split
  · have := mul_self_nonneg ws.vddq
    positivity
  · exact le_refl _

/-- Fewer costly levels, less static energy. -/
theorem energy_le (h6 : std ≠ .lpddr6) {ws : WireSpec} (hw : TerminatedAlike ws) {x y : SimStats} {e e' : InterfaceInfo}
    (h5 : std = .ddr5 → y.readDBI = {} ∧ y.writeDBI = {}) (hxy : otherFigures y = otherFigures x) (hle : ∀ r, costlyLevels std r x ≤ costlyLevels std r y) (hx : ws.calculateEnergy std x = .ok e)
    (hy : ws.calculateEnergy std y = .ok e') : e.dram.static ≤ e'.dram.static ∧ e.controller.static ≤ e'.controller.static := by
  have c1 : ws.clockEnergy std y = ws.clockEnergy std x := by
    have key : ∀ s, ws.clockEnergy std s = ws.clockEnergy std (otherFigures s) := fun s => rfl
    rw [key y, hxy, ← key]
  have c2 : ws.dqsEnergy std y = ws.dqsEnergy std x := by
    have key : ∀ s, ws.dqsEnergy std s = ws.dqsEnergy std (otherFigures s) := fun s => rfl
    rw [key y, hxy, ← key]
  have c3 : ws.togglingEnergy std y = ws.togglingEnergy std x := by
    have key : ∀ s, ws.togglingEnergy std s = ws.togglingEnergy std (otherFigures s) := fun s => rfl
    rw [key y, hxy, ← key]
  have c4 : ws.caEnergy std y = ws.caEnergy std x := by
    have key : ∀ s, ws.caEnergy std s = ws.caEnergy std (otherFigures s) := fun s => rfl
    rw [key y, hxy, ← key]
  unfold WireSpec.calculateEnergy at hx hy
  rw [c1, c2, c3, c4] at hy
  obtain ⟨k1, a1, hx⟩ := bind_ok hx
  obtain ⟨k2, a2, hx⟩ := bind_ok hx
  obtain ⟨k3, a3, hx⟩ := bind_ok hx
  obtain ⟨k4, a4, hx⟩ := bind_ok hx
  obtain ⟨k5, a5, hx⟩ := bind_ok hx
  obtain ⟨l1, b1, hy⟩ := bind_ok hy
  obtain ⟨l2, b2, hy⟩ := bind_ok hy
  obtain ⟨l3, b3, hy⟩ := bind_ok hy
  obtain ⟨l4, b4, hy⟩ := bind_ok hy
  obtain ⟨l5, b5, hy⟩ := bind_ok hy
  obtain rfl := ok_inj (a1.symm.trans b1)
  obtain rfl := ok_inj (a2.symm.trans b2)
  obtain rfl := ok_inj (a3.symm.trans b3)
  obtain rfl := ok_inj (a5.symm.trans b5)
  dsimp only at hx hy
  have dq : ∀ {s : SimStats} {p : InterfaceInfo}, ws.dqEnergy std s = .ok p →
      p.dram.static = (Group.lossy std s.readBus : Rat) *
        (if ws.imp.rdq.termination then ws.vddq * ws.vddq / ws.imp.rdq.rEq * (ws.tCK / ws.dataRate) else 0) ∧
      p.controller.static = (Group.lossy std s.writeBus : Rat) *
        (if ws.imp.wdq.termination then ws.vddq * ws.vddq / ws.imp.wdq.rEq * (ws.tCK / ws.dataRate) else 0) := by
    intro s p hp
    unfold WireSpec.dqEnergy at hp
    obtain ⟨p1, u1, hp⟩ := bind_ok hp
    obtain ⟨p2, u2, hp⟩ := bind_ok hp
    rw [← pure_ok hp]
    exact ⟨pair_static u1, pair_static u2⟩
  by_cases hd : std = .ddr5
  · obtain ⟨z1, z2⟩ := h5 hd
    obtain ⟨x1, x2⟩ := dq a4
    obtain ⟨y1, y2⟩ := dq b4
    have z : Group.lossy std {} = 0 := by cases std <;> rfl
    have m1 := hle true
    have m2 := hle false
    simp only [costlyLevels, if_true, Bool.false_eq_true, if_false, z1, z2, z] at m1 m2
    have n1 := mul_le_mul_of_nonneg_right (Nat.cast_le (α := Rat).2 (Nat.le_trans (Nat.le_add_right _ _) m1)) (charge_nonneg (ws := ws) hw.period hw.readPos)
    have n2 := mul_le_mul_of_nonneg_right (Nat.cast_le (α := Rat).2 (Nat.le_trans (Nat.le_add_right _ _) m2)) (charge_nonneg (ws := ws) hw.period hw.writePos)
    rw [Nat.add_zero, ← x1, ← y1] at n1
    rw [Nat.add_zero, ← x2, ← y2] at n2
    rw [if_pos (.inl hd)] at hx hy
    rw [← pure_ok hx, ← pure_ok hy]
    simp only [InterfaceInfo.add, InterfaceEnergy.add]
    constructor <;> linarith
  have hno : ¬ (std = .ddr5 ∨ std = .lpddr6) := fun h => h.elim hd h6
  rw [if_neg hno] at hx hy
  obtain ⟨k6, a6, hx⟩ := bind_ok hx
  obtain ⟨l6, b6, hy⟩ := bind_ok hy
  have parts : ∀ {s : SimStats} {p q : InterfaceInfo}, ws.dqEnergy std s = .ok p → ws.dbiEnergy std s = .ok q →
      p.dram.static + q.dram.static = (costlyLevels std true s : Rat) *
        (if ws.imp.rdq.termination then ws.vddq * ws.vddq / ws.imp.rdq.rEq * (ws.tCK / ws.dataRate) else 0) ∧
      p.controller.static + q.controller.static = (costlyLevels std false s : Rat) *
        (if ws.imp.wdq.termination then ws.vddq * ws.vddq / ws.imp.wdq.rEq * (ws.tCK / ws.dataRate) else 0) := by
    intro s p q hp hq
    unfold WireSpec.dbiEnergy at hq
    obtain ⟨q1, v1, hq⟩ := bind_ok hq
    obtain ⟨q2, v2, hq⟩ := bind_ok hq
    rw [← pure_ok hq, (dq hp).1, (dq hp).2]
    have w3 := pair_static v1
    have w4 := pair_static v2
    rw [hw.read, hw.readR] at w3
    rw [hw.write, hw.writeR] at w4
    dsimp only
    rw [w3, w4]
    simp only [costlyLevels, if_true, Bool.false_eq_true, if_false]
    push_cast
    constructor <;> ring
  obtain ⟨x1, x2⟩ := parts a4 a6
  obtain ⟨y1, y2⟩ := parts b4 b6
  have n1 := mul_le_mul_of_nonneg_right (Nat.cast_le (α := Rat).2 (hle true)) (charge_nonneg (ws := ws) hw.period hw.readPos)
  have n2 := mul_le_mul_of_nonneg_right (Nat.cast_le (α := Rat).2 (hle false)) (charge_nonneg (ws := ws) hw.period hw.writePos)
  rw [← x1, ← y1] at n1
  rw [← x2, ← y2] at n2
  rw [← pure_ok hx, ← pure_ok hy]
  simp only [InterfaceInfo.add, InterfaceEnergy.add]
  constructor <;> linarith

/-- With inversion the static interface energy of either side is never higher than without: simulations whose calls differ in the switching of inversion
only, inversion lines wired like the data wires, between transfers. -/
theorem C92_energy_partial (h6 : std ≠ .lpddr6) {o a b : SimObject std N} {us us' : List SimCall} {t : Nat} {a' b' : Simulator std N} {x y : SimStats}
    {ws : WireSpec} {e e' : InterfaceInfo} (ht : sp.toggling = none) (hN : sp.bitWidth * sp.devices ≤ N) (hw : TerminatedAlike ws)
    (ho : SimObject.init std N ms sp = .ok o) (hs : unswitched us' = unswitched us) (hoff : .setDBI true ∉ us' ∧ .iface (.dbi true) ∉ us')
    (ha : o.run ms sp us = .ok a) (hb : o.run ms sp us' = .ok b) (hover : TransfersOver std sp (ifOps std sp us) t) (hwh : WholeBeats sp (ifOps std sp us))
    (hx : a.sim.getWindowStats ms sp t = .ok (a', x))
    (hy : b.sim.getWindowStats ms sp t = .ok (b', y)) (hex : ws.calculateEnergy std x = .ok e) (hey : ws.calculateEnergy std y = .ok e') :
    e.dram.static ≤ e'.dram.static ∧ e.controller.static ≤ e'.controller.static := by
  have hf := (C93 N ms sp o a b us us' t a' b' x y ho (by rw [outline_unswitched, hs, ← outline_unswitched]) ha hb hx hy).1
  obtain ⟨e1, _, e3⟩ := init_parts_ext ho
  obtain ⟨_, p2, _⟩ := run_parts e1 ha
  obtain ⟨_, q2, _⟩ := run_parts e1 hb
  have split : ∀ {s s' : Simulator std N} {z : SimStats}, s.getWindowStats ms sp t = .ok (s', z) →
      ∃ z0, s.interface.getWindowStats sp t {} = .ok z0 ∧ ∀ r, costlyLevels std r z0 = costlyLevels std r z := by
    intro s s' z hz
    unfold Simulator.getWindowStats at hz
    obtain ⟨z1, hz1, hz2⟩ := bind_ok hz
    have ez := pure_ok hz2
    simp only [Prod.mk.injEq] at ez
    obtain ⟨z0, w1, w2, w3, w4, w5⟩ := window_start rfl rfl rfl rfl hz1
    refine ⟨z0, w1, fun r => ?_⟩
    unfold costlyLevels
    rw [w2, w3, w4, w5, ez.2]
  obtain ⟨x0, u1, u2⟩ := split hx
  obtain ⟨y0, v1, v2⟩ := split hy
  have hle : ∀ r, costlyLevels std r x ≤ costlyLevels std r y := fun r => by
    rw [← u2, ← v2]
    refine C92_partial h6 N sp _ _ _ _ _ t x0 y0 ht hN e3 p2 q2 ?_ ?_ u1 v1 ⟨hover, hwh⟩ r
    · rw [commands_unswitched, hs, ← commands_unswitched]
    · intro h
      unfold ifOps at h
      obtain ⟨u, hu, h⟩ := List.mem_filterMap.1 h
      cases u with
      | iface op => cases Option.some.inj h; exact hoff.2 hu
      | setDBI e =>
        dsimp only at h
        split at h
        · cases Option.some.inj h; exact hoff.1 hu
        · cases h
      | setMetaData p q =>
        dsimp only at h
        split at h <;> cases h
      | _ => cases h
  refine energy_le h6 hw (fun h5 => ?_) hf hle hex hey
  unfold Simulator.getWindowStats at hy
  obtain ⟨z1, hz1, hz2⟩ := bind_ok hy
  have ez := pure_ok hz2
  simp only [Prod.mk.injEq] at ez
  obtain ⟨_, _, k1, k2, _⟩ := windowStats_ok hz1
  obtain ⟨l1, l2⟩ := no_pins (.inl h5) e3 q2
  rw [l1] at k1
  rw [l2] at k2
  rw [← ez.2]
  exact ⟨(pure_ok k1).symm, (pure_ok k2).symm⟩

/-! ## Examples -/

/-- Four banks. -/
def c93Mem : MemSpec := { numberOfBanks := 4, tRFC := 10, tRAS := 10, tRP := 5, prechargeOffsetRD := 4, prechargeOffsetWR := 8 }

/-- A simulation, and the figures at a time. -/
def c93Run (std : Std) (sp : IfSpec) (us : List SimCall) (t : Nat) : Except Err SimStats := do
  let o ← SimObject.init std 32 c93Mem sp
  let o ← o.run c93Mem sp us
  let (_, s) ← o.sim.getWindowStats c93Mem sp t
  pure s

/-- The trace of C52. -/
def c93Inverted : List SimCall :=
  .setDBI true :: (commandsOf c52Trace).map .command

/-- The same commands with other payloads, inversion switched between them, and questions. -/
def c93Other : List SimCall :=
  [.isEnabled] ++ (commandsOf c52Trace).flatMap fun c => [.setDBI (c.t != 24), .lastTime, .command { c with data := c.data.map fun d => d.map (· ^^^ 0x35) }]

/-- The two sessions meet the hypotheses of `C93`: same outline, both accepted and answered; the figures of the data wires and inversion lines differ,
and the others are not all zero. -/
example : (c93Other.filterMap outline).length = 6 ∧
    (∀ std ∈ [Std.ddr4, .lpddr4, .lpddr5], (match c93Run std c52Spec c93Inverted 80, c93Run std c52Spec c93Other 80 with
      | .ok x, .ok y => decide (x.readBus ≠ y.readBus ∧ x.writeBus ≠ y.writeBus ∧ x.readDBI ≠ y.readDBI ∧ x.commandBus.bitChanges ≠ 0 ∧ x.clockStats.ones ≠ 0 ∧
          x.readDQSStats.ones ≠ 0)
      | _, _ => false) = true) := by
  decide +kernel

example : c93Other.filterMap outline = c93Inverted.filterMap outline := rfl

/-- One volt, one ohm, one second on all data wires and inversion lines. -/
def c93Wires : WireSpec :=
  { tCK := 1, vddq := 1, dataRate := 2,
    imp := { rdq := { termination := true }, wdq := { termination := true }, rdbi := { termination := true }, wdbi := { termination := true } } }

/-- The static energies of both sides. -/
def c93Energy (std : Std) (us : List SimCall) : Except Err (Rat × Rat) := do
  let s ← c93Run std c52Spec us 80
  let e ← c93Wires.calculateEnergy std s
  pure (e.dram.static, e.controller.static)

/-- The hypotheses of `C92_energy_partial` are met by the trace of C52 (see `Props/C92` for the others), and energy is saved on both sides. -/
example : TerminatedAlike c93Wires ∧ unswitched (c93Inverted.drop 1) = unswitched c93Inverted ∧ .setDBI true ∉ c93Inverted.drop 1 ∧
    .iface (.dbi true) ∉ c93Inverted.drop 1 ∧ ifOps .ddr4 c52Spec c93Inverted = c52Trace ∧
    c93Energy .ddr4 c93Inverted = .ok (67 / 2, 11) ∧ c93Energy .ddr4 (c93Inverted.drop 1) = .ok (102, 36) ∧
    c93Energy .lpddr5 c93Inverted = .ok (59 / 2, 9) ∧ c93Energy .lpddr5 (c93Inverted.drop 1) = .ok (90, 28) ∧
    c93Energy .ddr5 c93Inverted = .ok (102, 36) := by
  refine ⟨⟨by decide +kernel, rfl, rfl, rfl, rfl, by decide +kernel, by decide +kernel⟩, rfl, ?_, ?_, rfl, ?_⟩
  · simp [c93Inverted]
  · simp [c93Inverted]
  · decide +kernel

end DRAMPower
