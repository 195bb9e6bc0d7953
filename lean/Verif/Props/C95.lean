import Verif.Spec.Halves
import Verif.Props.C91
import Verif.Props.C53

/-!
# C95: core and interface do not influence each other

A session is split into the calls for the core and those for the interface (`Spec/Halves`).
-/

namespace DRAMPower
open Spec

variable {std : Std} {N : Nat} {ms : MemSpec} {sp : IfSpec}

/-- The full claim: a session is accepted exactly if both halves are; then the answer to a query consists of the figures of banks and ranks after the
one half and of the figures of the wires after the other, and likewise the energies. -/
def C95_statement (std : Std) : Prop :=
  ∀ (N : Nat) (ms : MemSpec) (sp : IfSpec) (o : SimObject std N) (us : List SimCall), SimObject.init std N ms sp = .ok o → (∀ u ∈ us, callable std u) →
    ((∃ o', o.run ms sp us = .ok o') ↔ (∃ a, o.run ms sp (coreHalf us) = .ok a) ∧ ∃ b, o.run ms sp (wireHalf us) = .ok b) ∧
    ∀ o' a b : SimObject std N, o.run ms sp us = .ok o' → o.run ms sp (coreHalf us) = .ok a → o.run ms sp (wireHalf us) = .ok b →
      o'.sim.lastCommandTime = max a.sim.lastCommandTime b.sim.lastCommandTime ∧
      (∀ t, ∃ a' y, a.sim.getWindowStats ms sp t = .ok (a', y)) ∧
      (∀ t e, o'.sim.getWindowStats ms sp t = .error e ↔ b.sim.getWindowStats ms sp t = .error e) ∧
      ∀ t o'' x a' y b' z, o'.sim.getWindowStats ms sp t = .ok (o'', x) → a.sim.getWindowStats ms sp t = .ok (a', y) →
        b.sim.getWindowStats ms sp t = .ok (b', z) →
        coreFigures x = coreFigures y ∧ wireFigures x = wireFigures z ∧ (∀ ps : PowerSpec, ps.calcEnergy std x = ps.calcEnergy std y) ∧
          ∀ ws : WireSpec, ws.calculateEnergy std x = ws.calculateEnergy std z

/-! ## One step -/

/-- A simulator, one that has seen the calls for the core, and one that has seen the calls for the interface. -/
structure Halves (ms : MemSpec) (sp : IfSpec) (i : Interface std N) (o a b : SimObject std N) : Prop where
  core : a.sim.core = o.sim.core
  idle : a.sim.interface = i
  interface : b.sim.interface = o.sim.interface
  ext : b.ext = o.ext
  asleep : b.sim.core = Core.init ms

/-- The interface answers a query without regard to the core. -/
theorem answer_split (i : Interface std N) (t : Nat) (c : CoreStats) :
    i.getWindowStats sp t c.toSim = (i.getWindowStats sp t {}).map fun x =>
      { x with bank := c.toSim.bank, rankTotal := if std = .ddr4 then Interface.rankTotals c.toSim.rankTotal i.ranks else c.toSim.rankTotal } := by
  unfold Interface.getWindowStats
  cases i.cmdBus.getStats t with
  | error e => rfl
  | ok cb =>
    cases i.dataBus.getStats t with
    | error e => rfl
    | ok d =>
      have e1 : c.toSim.readDBI = {} := rfl
      have e2 : c.toSim.writeDBI = {} := rfl
      simp only [bind, Except.bind, e1, e2]
      cases Interface.pinStats i.pinsRead t {} with
      | error e => rfl
      | ok rd =>
        dsimp only
        cases Interface.pinStats i.pinsWrite t {} with
        | error e => rfl
        | ok wd => rfl

theorem asleep_query (ms : MemSpec) (t : Nat) : ((Core.init ms).getWindowStats std ms t).1 = Core.init ms := rfl

theorem window_split (s : Simulator std N) (t : Nat) :
    s.getWindowStats ms sp t = (s.interface.getWindowStats sp t {}).map fun x => ({ s with core := (s.core.getWindowStats std ms t).1 },
      { x with bank := (s.core.getWindowStats std ms t).2.toSim.bank
               rankTotal := if std = .ddr4 then Interface.rankTotals (s.core.getWindowStats std ms t).2.toSim.rankTotal s.interface.ranks
                 else (s.core.getWindowStats std ms t).2.toSim.rankTotal }) := by
  unfold Simulator.getWindowStats
  dsimp only
  rw [answer_split]
  cases s.interface.getWindowStats sp t {} <;> rfl

theorem half_nil (o : SimObject std N) : o.run ms sp [] = .ok o := rfl

theorem half_one (o : SimObject std N) (u : SimCall) : o.run ms sp [u] = (o.step ms sp u).map Prod.fst := by
  unfold SimObject.run
  cases o.step ms sp u <;> rfl

/-- A call is accepted exactly if both halves accept it. -/
theorem Halves.step {i : Interface std N} (hi : ∀ t, ∃ x, i.getWindowStats sp t {} = .ok x) {o a b : SimObject std N} (h : Halves ms sp i o a b)
    (u : SimCall) :
    (∀ o' r, o.step ms sp u = .ok (o', r) →
      ∃ a' b', a.run ms sp (coreHalf [u]) = .ok a' ∧ b.run ms sp (wireHalf [u]) = .ok b' ∧ Halves ms sp i o' a' b') ∧
    (∀ a' b', a.run ms sp (coreHalf [u]) = .ok a' → b.run ms sp (wireHalf [u]) = .ok b' → ∃ o' r, o.step ms sp u = .ok (o', r)) := by
  obtain ⟨h1, h2, h3, h4, h5⟩ := h
  cases u with
  | command c =>
    show (∀ o' r, _ → ∃ a' b', a.run ms sp [.coreCommand c] = .ok a' ∧ b.run ms sp [.iface (.cmd c)] = .ok b' ∧ _) ∧
      ∀ a' b', a.run ms sp [.coreCommand c] = .ok a' → b.run ms sp [.iface (.cmd c)] = .ok b' → _
    rw [half_one, half_one]
    simp only [SimObject.step, Simulator.doCommand, Interface.step, h1, h3]
    cases o.sim.core.doCommand std ms c.core with
    | error e => exact ⟨fun o' r h => (by cases h), fun a' b' h => by cases h⟩
    | ok core =>
      cases o.sim.interface.doCommand sp c with
      | error e => exact ⟨fun o' r h => (by cases h), fun a' b' _ h => by cases h⟩
      | ok f =>
        refine ⟨fun o' r h => ?_, fun a' b' _ _ => ⟨_, _, rfl⟩⟩
        cases ok_inj h
        exact ⟨_, _, rfl, rfl, ⟨rfl, h2, rfl, h4, h5⟩⟩
  | coreCommand c =>
    show (∀ o' r, _ → ∃ a' b', a.run ms sp [.coreCommand c] = .ok a' ∧ b.run ms sp [] = .ok b' ∧ _) ∧
      ∀ a' b', a.run ms sp [.coreCommand c] = .ok a' → b.run ms sp [] = .ok b' → _
    rw [half_one, half_nil]
    simp only [SimObject.step, h1]
    cases o.sim.core.doCommand std ms c.core with
    | error e => exact ⟨fun o' r h => (by cases h), fun a' b' h => by cases h⟩
    | ok core =>
      refine ⟨fun o' r h => ?_, fun a' b' _ _ => ⟨_, _, rfl⟩⟩
      cases ok_inj h
      exact ⟨_, _, rfl, rfl, ⟨rfl, h2, h3, h4, h5⟩⟩
  | iface op =>
    show (∀ o' r, _ → ∃ a' b', a.run ms sp [] = .ok a' ∧ b.run ms sp [.iface op] = .ok b' ∧ _) ∧
      ∀ a' b', a.run ms sp [] = .ok a' → b.run ms sp [.iface op] = .ok b' → _
    rw [half_one, half_nil]
    simp only [SimObject.step, h3]
    cases o.sim.interface.step sp op with
    | error e => exact ⟨fun o' r h => (by cases h), fun a' b' _ h => by cases h⟩
    | ok f =>
      refine ⟨fun o' r h => ?_, fun a' b' _ _ => ⟨_, _, rfl⟩⟩
      cases ok_inj h
      exact ⟨_, _, rfl, rfl, ⟨h1, h2, rfl, h4, h5⟩⟩
  | setDBI e =>
    refine ⟨fun o' r h => ?_, fun a' b' _ _ => ⟨_, _, rfl⟩⟩
    cases ok_inj h
    refine ⟨a, (b.setDBI sp e).1, rfl, rfl, ?_⟩
    unfold SimObject.setDBI
    rw [h4, h3]
    split
    · exact ⟨h1, h2, rfl, rfl, h5⟩
    · exact ⟨h1, h2, h3, h4, h5⟩
  | setMetaData p q =>
    refine ⟨fun o' r h => ?_, fun a' b' _ _ => ⟨_, _, rfl⟩⟩
    cases ok_inj h
    refine ⟨a, b.setMetaData p q, rfl, rfl, ?_⟩
    unfold SimObject.setMetaData
    rw [h4, h3]
    split
    · exact ⟨h1, h2, rfl, rfl, h5⟩
    · exact ⟨h1, h2, h3, h4, h5⟩
  | window t =>
    show (∀ o' r, _ → ∃ a' b', a.run ms sp [.window t] = .ok a' ∧ b.run ms sp [.window t] = .ok b' ∧ _) ∧
      ∀ a' b', a.run ms sp [.window t] = .ok a' → b.run ms sp [.window t] = .ok b' → _
    rw [half_one, half_one]
    obtain ⟨x, hx⟩ := hi t
    simp only [SimObject.step, window_split, h1, h2, h3, h5, hx]
    cases o.sim.interface.getWindowStats sp t {} with
    | error e => exact ⟨fun o' r h => (by cases h), fun a' b' _ h => by cases h⟩
    | ok f =>
      refine ⟨fun o' r h => ?_, fun a' b' _ _ => ⟨_, _, rfl⟩⟩
      cases ok_inj h
      exact ⟨_, _, rfl, rfl, ⟨rfl, rfl, rfl, h4, asleep_query (std := std) ms t⟩⟩
  | isEnabled => exact ⟨fun o' r h => by cases ok_inj h; exact ⟨a, b, rfl, rfl, ⟨h1, h2, h3, h4, h5⟩⟩, fun a' b' _ _ => ⟨_, _, rfl⟩⟩
  | getMetaData => exact ⟨fun o' r h => by cases ok_inj h; exact ⟨a, b, rfl, rfl, ⟨h1, h2, h3, h4, h5⟩⟩, fun a' b' _ _ => ⟨_, _, rfl⟩⟩
  | lastTime => exact ⟨fun o' r h => by cases ok_inj h; exact ⟨a, b, rfl, rfl, ⟨h1, h2, h3, h4, h5⟩⟩, fun a' b' _ _ => ⟨_, _, rfl⟩⟩
  | serializable => exact ⟨fun o' r h => by cases ok_inj h; exact ⟨a, b, rfl, rfl, ⟨h1, h2, h3, h4, h5⟩⟩, fun a' b' _ _ => ⟨_, _, rfl⟩⟩

/-! ## A session -/

theorem calls_append : ∀ (us vs : List SimCall) (o : SimObject std N), o.run ms sp (us ++ vs) = (o.run ms sp us).bind fun o => o.run ms sp vs
  | [], vs, o => rfl
  | u :: us, vs, o => by
    rw [List.cons_append]
    simp only [SimObject.run]
    cases o.step ms sp u with
    | error e => rfl
    | ok x => exact calls_append us vs x.1

theorem coreHalf_cons (u : SimCall) (us : List SimCall) : coreHalf (u :: us) = coreHalf [u] ++ coreHalf us := by
  unfold coreHalf
  rw [← List.filterMap_append]
  rfl

theorem wireHalf_cons (u : SimCall) (us : List SimCall) : wireHalf (u :: us) = wireHalf [u] ++ wireHalf us := by
  unfold wireHalf
  rw [← List.filterMap_append]
  rfl

theorem Halves.run {i : Interface std N} (hi : ∀ t, ∃ x, i.getWindowStats sp t {} = .ok x) : ∀ (us : List SimCall) {o a b : SimObject std N},
    Halves ms sp i o a b →
    (∀ o', o.run ms sp us = .ok o' →
      ∃ a' b', a.run ms sp (coreHalf us) = .ok a' ∧ b.run ms sp (wireHalf us) = .ok b' ∧ Halves ms sp i o' a' b') ∧
    (∀ a' b', a.run ms sp (coreHalf us) = .ok a' → b.run ms sp (wireHalf us) = .ok b' → ∃ o', o.run ms sp us = .ok o')
  | [], o, a, b, h => ⟨fun o' ho => by cases ok_inj ho; exact ⟨a, b, rfl, rfl, h⟩, fun a' b' _ _ => ⟨o, rfl⟩⟩
  | u :: us, o, a, b, h => by
    obtain ⟨s1, s2⟩ := h.step hi u
    rw [coreHalf_cons, wireHalf_cons, calls_append, calls_append]
    cases ho : o.step ms sp u with
    | error e =>
      have hr : o.run ms sp (u :: us) = .error e := by simp only [SimObject.run, ho]
      rw [hr]
      refine ⟨fun o' h => (by cases h), fun a' b' ha hb => ?_⟩
      cases ha1 : a.run ms sp (coreHalf [u]) with
      | error e => rw [ha1] at ha; cases ha
      | ok a1 =>
        cases hb1 : b.run ms sp (wireHalf [u]) with
        | error e => rw [hb1] at hb; cases hb
        | ok b1 =>
          obtain ⟨o1, r, h1⟩ := s2 a1 b1 ha1 hb1
          rw [ho] at h1
          cases h1
    | ok x =>
      have hr : o.run ms sp (u :: us) = x.1.run ms sp us := by simp only [SimObject.run, ho]
      obtain ⟨a1, b1, ha1, hb1, h1⟩ := s1 x.1 x.2 ho
      rw [hr, ha1, hb1]
      exact Halves.run hi us h1

/-! ## The figures -/

theorem cycles_rankTotals (l : List CycleStats) (r r' : List RankIf) (h : r.length = r'.length) :
    (Interface.rankTotals l r).map (fun x => ({ x with prepos := {} } : CycleStats)) =
      (Interface.rankTotals l r').map fun x => { x with prepos := {} } := by
  unfold Interface.rankTotals
  refine List.ext_getElem (by simp [h]) fun k h1 h2 => ?_
  simp

theorem prepos_rankTotals (l l' : List CycleStats) (r : List RankIf) :
    (Interface.rankTotals l r).map (fun x => ({ prepos := x.prepos } : CycleStats)) =
      (Interface.rankTotals l' r).map fun x => { prepos := x.prepos } := by
  unfold Interface.rankTotals
  refine List.ext_getElem (by simp) fun k h1 h2 => ?_
  simp

/-- The core does not count commands for a rank. -/
theorem uncounted {c : CoreStats} {l : List RankIf} : ∀ r ∈ (if std = .ddr4 then Interface.rankTotals c.toSim.rankTotal l else c.toSim.rankTotal), r.counter = {} := by
  intro r hr
  have base : ∀ r ∈ c.toSim.rankTotal, r.counter = {} := by
    intro r hr
    obtain ⟨x, _, rfl⟩ := List.mem_map.1 hr
    rfl
  split at hr
  · unfold Interface.rankTotals at hr
    obtain ⟨k, hk, rfl⟩ := List.mem_mapIdx.1 hr
    show (c.toSim.rankTotal.getD k {}).counter = {}
    rw [List.getD_eq_getElem?_getD]
    cases hg : c.toSim.rankTotal[k]? with
    | none => rfl
    | some y => exact base y (List.mem_of_getElem? hg)
  · exact base r hr

theorem calculate_wireFigures {x : SimStats} (h : ∀ r ∈ x.rankTotal, r.counter = {}) (ws : WireSpec) :
    ws.calculateEnergy std x = ws.calculateEnergy std (wireFigures x) := by
  have e1 : ∀ read, WireSpec.transferCount x read = WireSpec.transferCount (wireFigures x) read := by
    intro read
    unfold WireSpec.transferCount wireFigures
    rw [List.map_map]
    refine congrArg List.sum (List.map_congr_left fun r hr => ?_)
    show _ = _
    simp only [h r hr, Function.comp]
  have e2 : ∀ read, WireSpec.seamlessCount x read = WireSpec.seamlessCount (wireFigures x) read := by
    intro read
    unfold WireSpec.seamlessCount wireFigures
    rw [List.map_map]
    rfl
  have e3 : ∀ w read, ws.ambleEnergy x w read = ws.ambleEnergy (wireFigures x) w read := by
    intro w read
    unfold WireSpec.ambleEnergy
    rw [e1, e2]
  unfold WireSpec.calculateEnergy
  have e4 : ws.dqsEnergy std x = ws.dqsEnergy std (wireFigures x) := by
    unfold WireSpec.dqsEnergy
    simp only [e3]
    rfl
  rw [e4]
  rfl

theorem calc_coreFigures (ps : PowerSpec) (s : SimStats) : ps.calcEnergy std s = ps.calcEnergy std (coreFigures s) := by
  have e1 : ∀ r, (coreFigures s).rankTotal.getD r {} = { s.rankTotal.getD r {} with prepos := {} } := by
    intro r
    unfold coreFigures
    dsimp only
    rw [List.getD_eq_getElem?_getD, List.getD_eq_getElem?_getD, List.getElem?_map]
    cases s.rankTotal[r]? <;> rfl
  have e2 : ∀ dom, ps.rankStep std dom s = ps.rankStep std dom (coreFigures s) := by
    intro dom
    funext e r
    unfold PowerSpec.rankStep PowerSpec.bankLoop
    rw [e1]
    rfl
  unfold PowerSpec.calcEnergy
  have e3 : (coreFigures s).rankTotal.length = s.rankTotal.length := List.length_map _
  rw [e3]
  simp only [e2]
  rfl

theorem coreHalf_callable (us : List SimCall) : ∀ u ∈ coreHalf us, callable std u := by
  intro u hu
  obtain ⟨v, _, h⟩ := List.mem_filterMap.1 hu
  cases v <;> simp only [Option.some.injEq, reduceCtorEq] at h <;> subst h <;> trivial

/-- All standards, specifications and sessions, whatever the order of the calls. -/
theorem C95 : C95_statement std := by
  intro N ms sp o us hi hu
  obtain ⟨_, e2, e3⟩ := init_parts_ext hi
  have answers : ∀ t, ∃ x, o.sim.interface.getWindowStats sp t {} = .ok x := fun t =>
    interface_answers (ops := []) e3 rfl (fun c h => by cases h) (fun _ _ c h => by cases h) (.inr (.inr (.inr (by simp)))) {}
  obtain ⟨f1, f2⟩ := Halves.run answers us (o := o) (a := o) (b := o) ⟨rfl, rfl, rfl, rfl, e2⟩
  refine ⟨⟨fun ⟨o', ho⟩ => ?_, fun ⟨⟨a, ha⟩, b, hb⟩ => f2 a b ha hb⟩, fun o' a b ho ha hb => ?_⟩
  · obtain ⟨a, b, ha, hb, _⟩ := f1 o' ho
    exact ⟨⟨a, ha⟩, b, hb⟩
  obtain ⟨a1, b1, ha1, hb1, h1, h2, h3, h4, h5⟩ := f1 o' ho
  rw [ha] at ha1
  rw [hb] at hb1
  cases ok_inj ha1
  cases ok_inj hb1
  refine ⟨?_, fun t => ?_, fun t e => ?_, fun t o'' x a' y b' z hx hy hz => ?_⟩
  · unfold Simulator.lastCommandTime
    rw [h1, h2, h3, h5]
    have l1 : (Core.init ms).last = 0 := rfl
    have l2 : o.sim.interface.lastCommandTime = 0 := by
      unfold Interface.init at e3
      obtain ⟨_, _, e3⟩ := bind_ok e3
      obtain ⟨_, _, e3⟩ := bind_ok e3
      obtain ⟨_, _, e3⟩ := bind_ok e3
      split at e3
      · cases e3
      · rw [← pure_ok e3]; rfl
    rw [l1, l2]
    omega
  · obtain ⟨x, hx⟩ := answers t
    rw [window_split, h2, hx]
    exact ⟨_, _, rfl⟩
  · rw [window_split, window_split, h3]
    cases o'.sim.interface.getWindowStats sp t {} with
    | error e' => exact ⟨fun h => (by cases h; rfl), fun h => (by cases h; rfl)⟩
    | ok w => exact ⟨fun h => (by cases h), fun h => (by cases h)⟩
  have lx := (window_sizes hi hu ho hx).2
  have ly := (window_sizes hi (coreHalf_callable us) ha hy).2
  rw [window_split] at hx hy hz
  rw [h3, h5] at hz
  rw [h1, h2] at hy
  obtain ⟨v, hv⟩ := answers t
  rw [hv] at hy
  cases hw : o'.sim.interface.getWindowStats sp t {} with
  | error e => rw [hw] at hx; cases hx
  | ok w =>
    rw [hw] at hx hz
    have ex := (Prod.mk.inj (ok_inj hx)).2
    have ey := (Prod.mk.inj (ok_inj hy)).2
    have ez := (Prod.mk.inj (ok_inj hz)).2
    have hc : coreFigures x = coreFigures y := by
      rw [← ex] at lx
      rw [← ey] at ly
      rw [← ex, ← ey]
      unfold coreFigures
      refine congrArg (fun l : List CycleStats => ({ bank := (o'.sim.core.getWindowStats std ms t).2.toSim.bank, rankTotal := l } : SimStats)) ?_
      dsimp only
      by_cases h4 : std = .ddr4
      · rw [if_pos h4, if_pos h4]
        refine cycles_rankTotals _ _ _ ?_
        simp only [if_pos h4, Interface.rankTotals, List.length_mapIdx] at lx ly
        rw [lx, ly]
      · rw [if_neg h4, if_neg h4]
    have hf : wireFigures x = wireFigures z := by
      rw [← ex, ← ez]
      unfold wireFigures
      refine congrArg (fun l : List CycleStats => ({ w with bank := [], rankTotal := l } : SimStats)) ?_
      dsimp only
      by_cases h4 : std = .ddr4
      · rw [if_pos h4, if_pos h4]
        exact prepos_rankTotals _ _ _
      · rw [if_neg h4, if_neg h4]
        refine List.ext_getElem ?_ fun k _ _ => ?_
        · simp [CoreStats.toSim, Core.getWindowStats, Core.statsAt]
        · simp [CoreStats.toSim]
    have cx : ∀ r ∈ x.rankTotal, r.counter = {} := by rw [← ex]; exact uncounted
    have cz : ∀ r ∈ z.rankTotal, r.counter = {} := by rw [← ez]; exact uncounted
    refine ⟨hc, hf, fun ps => ?_, fun ws => ?_⟩
    · rw [calc_coreFigures, hc, ← calc_coreFigures]
    · rw [calculate_wireFigures cx, hf, ← calculate_wireFigures cz]

/-- The total energy is the core energy after the one half and the interface energy after the other. -/
theorem C95_total {o o' a b : SimObject std N} {us : List SimCall} {ps : PowerSpec} {ws : WireSpec} {t : Nat} {s : Simulator std N} {e : Rat}
    (hi : SimObject.init std N ms sp = .ok o) (hu : ∀ u ∈ us, callable std u) (ho : o.run ms sp us = .ok o')
    (ha : o.run ms sp (coreHalf us) = .ok a) (hb : o.run ms sp (wireHalf us) = .ok b) (h : o'.sim.getTotalEnergy ms sp ps ws t = .ok (s, e)) :
    ∃ a' b' c i, a.sim.calcCoreEnergy ms sp ps t = .ok (a', c) ∧ b.sim.calcInterfaceEnergy ms sp ws t = .ok (b', i) ∧ e = c.total + i.total := by
  obtain ⟨-, hall⟩ := C95 N ms sp o us hi hu
  obtain ⟨-, h2, h3, h4⟩ := hall o' a b ho ha hb
  unfold Simulator.getTotalEnergy at h
  obtain ⟨⟨s1, c⟩, hc, h⟩ := bind_ok h
  obtain ⟨⟨s2, i⟩, hi2, h⟩ := bind_ok h
  have he := (Prod.mk.inj (pure_ok h)).2
  unfold Simulator.calcCoreEnergy at hc
  obtain ⟨⟨s3, x⟩, hx, hc⟩ := bind_ok hc
  obtain ⟨c', hc1, hc⟩ := bind_ok hc
  obtain ⟨e1, e2⟩ := Prod.mk.inj (pure_ok hc)
  subst e1 e2
  unfold Simulator.calcInterfaceEnergy at hi2
  obtain ⟨⟨s4, x2⟩, hx2, hi2⟩ := bind_ok hi2
  obtain ⟨i', hi1, hi2⟩ := bind_ok hi2
  obtain ⟨e1, e2⟩ := Prod.mk.inj (pure_ok hi2)
  subst e1 e2
  -- the session with one query more
  have ho2 : o.run ms sp (us ++ [.window t]) = .ok { o' with sim := s3 } := by
    rw [calls_append, ho]
    show SimObject.run ms sp o' [.window t] = _
    rw [half_one]
    simp only [SimObject.step, hx, bind, Except.bind, pure, Except.pure, Except.map]
  obtain ⟨a', y, hy⟩ := h2 t
  have hz : ∃ b' z, b.sim.getWindowStats ms sp t = .ok (b', z) := by
    cases hz : b.sim.getWindowStats ms sp t with
    | ok q => exact ⟨q.1, q.2, rfl⟩
    | error er => rw [(h3 t er).2 hz] at hx; cases hx
  obtain ⟨b', z, hz⟩ := hz
  have hw : wireHalf (us ++ [.window t]) = wireHalf us ++ [.window t] := by unfold wireHalf; rw [List.filterMap_append]; rfl
  have hk : coreHalf (us ++ [.window t]) = coreHalf us ++ [.window t] := by unfold coreHalf; rw [List.filterMap_append]; rfl
  have hb2 : o.run ms sp (wireHalf (us ++ [.window t])) = .ok { b with sim := b' } := by
    rw [hw, calls_append, hb]
    show SimObject.run ms sp b [.window t] = _
    rw [half_one]
    simp only [SimObject.step, hz, bind, Except.bind, pure, Except.pure, Except.map]
  have ha2 : o.run ms sp (coreHalf (us ++ [.window t])) = .ok { a with sim := a' } := by
    rw [hk, calls_append, ha]
    show SimObject.run ms sp a [.window t] = _
    rw [half_one]
    simp only [SimObject.step, hy, bind, Except.bind, pure, Except.pure, Except.map]
  have hu2 : ∀ u ∈ us ++ [.window t], callable std u := by
    intro u hm
    rcases List.mem_append.1 hm with hm | hm
    · exact hu u hm
    · rw [List.mem_singleton.1 hm]; trivial
  obtain ⟨-, hall2⟩ := C95 N ms sp o _ hi hu2
  obtain ⟨-, -, k3, k4⟩ := hall2 _ _ _ ho2 ha2 hb2
  have hy2 : ∃ a'' y2, a'.getWindowStats ms sp t = .ok (a'', y2) := (hall2 _ _ _ ho2 ha2 hb2).2.1 t
  obtain ⟨a'', y2, hy2⟩ := hy2
  -- a query does not change the wires
  have hb' : b'.getWindowStats ms sp t = .ok (b', z) := by
    obtain ⟨_, e2, e3⟩ := init_parts_ext hi
    have answers : ∀ t, ∃ x, o.sim.interface.getWindowStats sp t {} = .ok x := fun t =>
      interface_answers (ops := []) e3 rfl (fun c h => by cases h) (fun _ _ c h => by cases h) (.inr (.inr (.inr (by simp)))) {}
    obtain ⟨a1, b1, _, hb1, hh⟩ := (Halves.run answers us (o := o) (a := o) (b := o) ⟨rfl, rfl, rfl, rfl, e2⟩).1 o' ho
    rw [hb] at hb1
    cases ok_inj hb1
    have e : b' = b.sim := by
      have hz := hz
      rw [window_split] at hz
      cases hw : b.sim.interface.getWindowStats sp t {} with
      | error er => rw [hw] at hz; cases hz
      | ok w =>
        rw [hw] at hz
        rw [← (Prod.mk.inj (ok_inj hz)).1, hh.asleep, asleep_query, ← hh.asleep]
    rw [e]
    rw [e] at hz
    exact hz
  obtain ⟨-, -, g1, -⟩ := h4 t s3 x a' y b' z hx hy hz
  obtain ⟨-, -, -, g2⟩ := k4 t s4 x2 a'' y2 b' z hx2 hy2 hb'
  refine ⟨a', b', c', i', ?_, ?_, he.symm⟩
  · unfold Simulator.calcCoreEnergy
    simp only [hy, bind, Except.bind, ← g1 ps, hc1, pure, Except.pure]
  · unfold Simulator.calcInterfaceEnergy
    simp only [hz, bind, Except.bind, ← g2 ws, hi1, pure, Except.pure]

/-- The order in which core and interface get their commands does not matter: sessions with the same halves leave the same simulator behind, so all
later calls get the same replies. In particular `doCommand` may be replaced by `doCoreCommand` and `doInterfaceCommand`. -/
theorem C95_order {o o' : SimObject std N} {us vs : List SimCall} (hi : SimObject.init std N ms sp = .ok o) (hc : coreHalf vs = coreHalf us)
    (hw : wireHalf vs = wireHalf us) (ho : o.run ms sp us = .ok o') :
    o.run ms sp vs = .ok o' := by
  obtain ⟨_, e2, e3⟩ := init_parts_ext hi
  have answers : ∀ t, ∃ x, o.sim.interface.getWindowStats sp t {} = .ok x := fun t =>
    interface_answers (ops := []) e3 rfl (fun c h => by cases h) (fun _ _ c h => by cases h) (.inr (.inr (.inr (by simp)))) {}
  obtain ⟨f1, _⟩ := Halves.run answers us (o := o) (a := o) (b := o) ⟨rfl, rfl, rfl, rfl, e2⟩
  obtain ⟨g1, g2⟩ := Halves.run answers vs (o := o) (a := o) (b := o) ⟨rfl, rfl, rfl, rfl, e2⟩
  obtain ⟨a, b, ha, hb, h1, -, h3, h4, -⟩ := f1 o' ho
  rw [← hc] at ha
  rw [← hw] at hb
  obtain ⟨p, hp⟩ := g2 a b ha hb
  obtain ⟨a', b', ha', hb', k1, -, k3, k4, -⟩ := g1 p hp
  rw [ha] at ha'
  rw [hb] at hb'
  cases ok_inj ha'
  cases ok_inj hb'
  rw [hp]
  obtain ⟨pe, pc, pi⟩ := p
  obtain ⟨oe, oc, oi⟩ := o'
  dsimp only at h1 h3 h4 k1 k3 k4
  rw [← k4, ← k1, ← k3, h4, h1, h3]

/-! ## Examples -/

/-- How a session ends, and the answer to a query afterwards. -/
def c95Run (std : Std) (us : List SimCall) (t : Nat) : Except Err SimStats := do
  let o ← SimObject.init std 16 (c37Mem .m16b) (c91Spec2 std)
  let o ← o.run (c37Mem .m16b) (c91Spec2 std) us
  let (_, s) ← o.sim.getWindowStats (c37Mem .m16b) (c91Spec2 std) t
  pure s

/-- A session with commands for both, for one half only, switches and queries; the interface gets its commands before the core. -/
def c95Session (std : Std) : List SimCall :=
  let n := if std = .lpddr6 then 256 else 96
  let act : ICmd := { t := 0, type := .ACT }
  let wr : ICmd := { t := 20, type := .WR, nBits := n, data := some (List.replicate (n / 8) 6) }
  let rd : ICmd := { t := 50, type := .RD, nBits := n, data := some (List.replicate (n / 8) 9) }
  [.iface (.cmd act), .iface (.cmd wr), .coreCommand act, .setDBI true, .window 60, .iface (.cmd rd), .lastTime, .coreCommand wr,
   .coreCommand { t := 33, type := .PREA }]

/-- The session meets the hypotheses of `C95` and is accepted; the figures of both halves are not trivial, and none of the halves has both. -/
example : ∀ std ∈ [Std.ddr4, .ddr5, .lpddr4, .lpddr5, .lpddr6], (∀ u ∈ c95Session std, callable std u) ∧
    (match c95Run std (c95Session std) 80, c95Run std (coreHalf (c95Session std)) 80, c95Run std (wireHalf (c95Session std)) 80 with
      | .ok x, .ok y, .ok z => decide (coreFigures x = coreFigures y ∧ wireFigures x = wireFigures z ∧ coreFigures z ≠ coreFigures x ∧
          wireFigures y ≠ wireFigures x ∧ (y.bank.map (·.counter.writes)).sum = 1 ∧ (z.bank.map (·.counter.writes)).sum = 0 ∧
          y.commandBus.bitChanges = 0 ∧ z.commandBus.bitChanges ≠ 0 ∧ z.readBus.ones ≠ 0)
      | _, _, _ => false) = true := by decide +kernel

/-- The hypotheses of `C95_order`: in step, or the core first. -/
example (c d : ICmd) : [SimCall.coreCommand c, .coreCommand d, .iface (.cmd c), .iface (.cmd d)] ≠ [.command c, .command d] ∧
    coreHalf [.coreCommand c, .coreCommand d, .iface (.cmd c), .iface (.cmd d)] = coreHalf [.command c, .command d] ∧
    wireHalf [.coreCommand c, .coreCommand d, .iface (.cmd c), .iface (.cmd d)] = wireHalf [.command c, .command d] :=
  ⟨fun h => (by cases h), rfl, rfl⟩

/-- A half that is refused: the write reaches the interface while the data bus is busy. -/
example : (match c95Run .ddr4 (wireHalf (c95Session .ddr4 ++ [.iface (.cmd { t := 51, type := .WR })])) 80, c95Run .ddr4 (coreHalf (c95Session .ddr4)) 80,
    c95Run .ddr4 (c95Session .ddr4 ++ [.iface (.cmd { t := 51, type := .WR })]) 80 with
      | .error _, .ok _, .error _ => true
      | _, _, _ => false) = true := by decide +kernel

/-- The total energy after a session, and the energies after its halves. -/
def c95Energies (std : Std) (ps : PowerSpec) (ws : WireSpec) (us : List SimCall) (t : Nat) : Except Err (Rat × Rat × Rat) := do
  let o ← SimObject.init std 16 (c37Mem .m16b) (c91Spec2 std)
  let o' ← o.run (c37Mem .m16b) (c91Spec2 std) us
  let a ← o.run (c37Mem .m16b) (c91Spec2 std) (coreHalf us)
  let b ← o.run (c37Mem .m16b) (c91Spec2 std) (wireHalf us)
  let (_, e) ← o'.sim.getTotalEnergy (c37Mem .m16b) (c91Spec2 std) ps ws t
  let (_, c) ← a.sim.calcCoreEnergy (c37Mem .m16b) (c91Spec2 std) ps t
  let (_, i) ← b.sim.calcInterfaceEnergy (c37Mem .m16b) (c91Spec2 std) ws t
  pure (e, c.total, i.total)

/-- The hypotheses of `C95_total` are met, and both parts contribute. -/
example : c95Energies .ddr4 { exampleSpec with banks := 16, ranks := 1, devices := 1 } c45Wires (c95Session .ddr4) 80 = .ok (2485, 2479, 6) ∧
    c95Energies .lpddr5 { exampleSpec with banks := 16, ranks := 1, devices := 1 } c45Wires (c95Session .lpddr5) 80 = .ok (2571, 2568, 3) := by
  decide +kernel

end DRAMPower
