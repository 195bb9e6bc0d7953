import Verif.Lemmas.DataTrace
import Verif.Lemmas.CommandTrace
import Verif.Lemmas.Pin
import Verif.Props.C49
import Verif.Props.C47

/-! # How many levels are counted -/

namespace DRAMPower
open Spec
variable {std : Std} {N n : Nat} {sp : IfSpec} {i i' : Interface std N} {t : Nat}

theorem beat_full (w : Nat) (b a : Levels) : (beat w b a).ones + (beat w b a).zeroes = w := by
  simp only [beat, wires]
  have := List.length_eq_countP_add_countP (l := List.range w) fun j => a j
  simp only [List.length_range] at this
  have e : (List.range w).countP (fun j => !a j) = (List.range w).countP fun j => decide ¬a j = true :=
    List.countP_congr fun j _ => by cases a j <;> simp
  rw [e]
  exact this.symm

/-- A line that is always on has one level per wire and beat. -/
theorem line_full {w : Nat} {idle : Levels} {l : Line} (h : ∀ k, (l k).isSome = true) :
    ∀ T, (Line.stats w idle l T).ones + (Line.stats w idle l T).zeroes = w * T
  | 0 => rfl
  | T + 1 => by
    obtain ⟨a, e⟩ := Option.isSome_iff_exists.1 (h T)
    have ih := line_full (w := w) (idle := idle) h T
    have := beat_full w (l.before idle T) a
    rw [Line.stats, Line.at, e]
    simp only [BusStats.add_ones, BusStats.add_zeroes]
    rw [Nat.mul_succ, ← ih]
    omega

theorem sends_on {w dr : Nat} {idle : Levels} : ∀ (calls : List BusOp) {l : Line}, (∀ b ∈ calls, b.IsSend) → (∀ k, (l k).isSome = true) →
    ∀ k, (calls.foldl (fun l op => Line.drive w dr lastFirst idle l op.drive) l k).isSome = true
  | [], _, _, h => h
  | b :: calls, l, hs, h => by
    refine sends_on calls (fun x hx => hs x (by simp [hx])) fun k => ?_
    have hb := hs b (by simp)
    cases b with
    | load t data n =>
      simp only [BusOp.drive, Line.drive]
      split
      · rfl
      · exact h k
    | _ => cases hb

/-- The loads of the bus of a direction, whatever they carry. -/
theorem run_sends (ht : sp.toggling = none) (r : Bool) : ∀ (ops : List IfOp) {i i' : Interface std N} {m : Setting},
    Shaped sp i → Set6 m i → DataOk i.dataBus → i.run sp ops = .ok i' →
    ∃ calls, (i.dataBus.bus (dirOf r)).run calls = .ok (i'.dataBus.bus (dirOf r)) ∧ ∀ b ∈ calls, b.IsSend
  | [], i, i', m, _, _, _, h => by
    cases h
    exact ⟨[], rfl, by simp⟩
  | op :: ops, i, i', m, hs, hi, hok, h => by
    obtain ⟨j, h1, h2⟩ := Interface.run_cons h
    have k := step_data hs hi h1
    have hs' := (step_clocks hs h1).shaped
    have hmode : i.dataBus.mode = .bus := (mode_bus hs).2 ht
    rcases k.sent with ⟨e, _⟩ | ⟨c, read, x, e, hd, hrun, hcall⟩
    · obtain ⟨calls, r1, r2⟩ := run_sends ht r ops hs' k.set (by rw [e]; exact hok) h2
      exact ⟨calls, by rw [← e]; exact r1, r2⟩
    · obtain ⟨d1, d2, d3⟩ := data_run _ hok hrun
      have hb := (d3 (dirOf r)).1
      rw [hmode, busShare_one] at hb
      obtain ⟨calls, r1, r2⟩ := run_sends ht r ops hs' k.set d1 h2
      refine ⟨busLoad (r == read) c.t (callBits std sp c) x ++ calls, by rw [Bus.run_append hb]; exact r1, ?_⟩
      intro b hb
      rcases List.mem_append.1 hb with hb | hb
      · cases x with
        | none => cases hb
        | some bytes =>
          simp only [busLoad] at hb
          by_cases hcond : (r == read) = true ∧ callBits std sp c ≠ 0
          · rw [if_pos hcond] at hb
            cases List.mem_singleton.1 hb
            trivial
          · rw [if_neg hcond] at hb
            cases hb
      · exact r2 b hb

/-- Every wire of the data bus of a direction has one level in each beat. -/
theorem data_full {ops : List IfOp} {s s' : SimStats} (ht : sp.toggling = none) (hN : sp.bitWidth * sp.devices ≤ N)
    (hi : Interface.init std N sp = .ok i) (hr : i.run sp ops = .ok i') (hq : i'.getWindowStats sp t s = .ok s') :
    s'.readBus.ones + s'.readBus.zeroes = s.readBus.ones + s.readBus.zeroes + sp.bitWidth * sp.devices * (t * sp.dataRate) ∧
    s'.writeBus.ones + s'.writeBus.zeroes = s.writeBus.ones + s.writeBus.zeroes + sp.bitWidth * sp.devices * (t * sp.dataRate) := by
  obtain ⟨hd, hw, _, hb, _⟩ := init_parts hi
  obtain ⟨ok, hm, ir, iw, c1, c2, b1, b2, t1, t2⟩ := data_init hb
  have hmode : sp.mode = .bus := by unfold IfSpec.mode; rw [ht]; rfl
  rw [hmode] at b1 b2
  obtain ⟨_, ⟨d, hdq, e1, e2, _, _⟩, _⟩ := windowStats_ok hq
  obtain ⟨q1, q2, _, _⟩ := data_stats_ok hdq
  have figures : ∀ r (b : Bus N) (pat : IdlePattern) x, Bus.init N (sp.bitWidth * sp.devices) sp.dataRate pat = .ok (i.dataBus.bus (dirOf r)) →
      b = i'.dataBus.bus (dirOf r) → b.getStats t = .ok x → x.ones + x.zeroes = sp.bitWidth * sp.devices * (t * sp.dataRate) := by
    intro r b pat x hb0 hb1 hx
    subst hb1
    obtain ⟨calls, r1, r2⟩ := run_sends ht r ops (init_shaped hi) (init_set hi) ok hr
    rw [sent_stats hw hN hd hb0 r1 r2 hx]
    refine line_full ?_ _
    unfold Line.after
    rw [List.foldl_map]
    exact sends_on calls r2 fun k => by simp
  have f1 := figures true _ _ _ b1 rfl q1
  have f2 := figures false _ _ _ b2 rfl q2
  rw [e1, e2]
  simp only [BusStats.add_ones, BusStats.add_zeroes]
  omega

/-! ## Command bus -/

/-- The step of a command bus: nothing or a burst. -/
def OneBurst {M : Nat} (b b' : Bus M) : Prop := ∃ calls : List BusOp, b.run calls = .ok b' ∧ ∀ c ∈ calls, c.IsSend

theorem handleCommandBus_burst {c : ICmd} (h : i.handleCommandBus sp c = .ok i') : OneBurst i.cmdBus i'.cmdBus := by
  obtain ⟨i1, w, n, b, h1, h2, e⟩ := handleCommandBus_ok h
  subst e
  unfold Bus.loadWord at h2
  dsimp only at h2
  split at h2
  · cases h2
  · exact ⟨[.load _ _ _], bus_run_one h2, by intro x hx; cases List.mem_singleton.1 hx; trivial⟩

theorem step_burst {op : IfOp} (h : i.step sp op = .ok i') : OneBurst i.cmdBus i'.cmdBus := by
  have still : ∀ {b : Bus (caWidth std)}, b = i.cmdBus → OneBurst i.cmdBus b := fun e => ⟨[], by rw [e]; rfl, by simp⟩
  cases op with
  | cmd c =>
    obtain ⟨i1, h1, e⟩ := ifCommand_ok h
    subst e
    show OneBurst i.cmdBus i1.cmdBus
    cases ha : ifAction sp.arch std c.type with
    | bus => rw [ha] at h1; exact handleCommandBus_burst h1
    | data read =>
      rw [ha] at h1
      obtain ⟨j1, len, j2, j3, j4, k1, k2, k3, k4, k5⟩ := handleData_ok h1
      obtain ⟨⟨d, db, pr, pw, f, e1, _, _⟩, _⟩ := transfer_ok k1
      obtain ⟨r2, w2, e2⟩ := dqs_ok k2
      obtain ⟨wk, e3⟩ := runWck_ok k3
      obtain ⟨a, a6, e4⟩ := overrides_eq j3 len read
      have p := handleCommandBus_burst k4
      have e0 : (j3.overrides len read).cmdBus = i.cmdBus := by rw [e4, e3, e2, e1]
      rw [e0] at p
      rcases prePostamble_ok k5 with ⟨_, e⟩ | ⟨_, r, r', _, _, e⟩ <;> rw [e] <;> exact p
    | finish =>
      rw [ha] at h1
      obtain ⟨d, pr, pw, e, _, _⟩ := endOfSimulation_ok h1
      exact still (by rw [e])
    | skip => rw [ha] at h1; cases h1; exact still rfl
    | unsupported => rw [ha] at h1; cases h1
    | invalid => rw [ha] at h1; cases h1
  | dbi e => cases h; exact still rfl
  | metaData a b => cases h; exact still rfl
  | parity b =>
    simp only [Interface.step, Interface.setParityCheckMode] at h
    split at h
    · cases h; exact still rfl
    · cases h
  | enable t =>
    simp only [Interface.step] at h
    cases he : i.enabled with
    | true =>
      unfold Interface.enable at h
      rw [if_pos he] at h
      cases h
      exact still rfl
    | false =>
      obtain ⟨w, k, _, _, e⟩ := enable_ok he h
      exact still (by rw [e])
  | disable t =>
    simp only [Interface.step] at h
    cases he : i.enabled with
    | false =>
      unfold Interface.disable at h
      rw [if_pos he] at h
      cases h
      exact still rfl
    | true =>
      obtain ⟨w, k, _, _, e⟩ := disable_ok he h
      exact still (by rw [e])

theorem run_bursts : ∀ (ops : List IfOp) {i i' : Interface std N}, i.run sp ops = .ok i' → OneBurst i.cmdBus i'.cmdBus
  | [], _, _, h => by cases h; exact ⟨[], rfl, by simp⟩
  | op :: ops, i, i', h => by
    obtain ⟨j, h1, h2⟩ := Interface.run_cons h
    obtain ⟨c1, r1, l1⟩ := step_burst h1
    obtain ⟨c2, r2, l2⟩ := run_bursts ops h2
    refine ⟨c1 ++ c2, by rw [Bus.run_append r1]; exact r2, fun c hc => ?_⟩
    rcases List.mem_append.1 hc with hc | hc
    · exact l1 c hc
    · exact l2 c hc

/-- Every wire of the command bus has one level in each beat. -/
theorem command_full {ops : List IfOp} {s s' : SimStats} (hi : Interface.init std N sp = .ok i) (hr : i.run sp ops = .ok i')
    (hq : i'.getWindowStats sp t s = .ok s') : s'.commandBus.ones + s'.commandBus.zeroes = commandWires std * (t * commandRate std) := by
  obtain ⟨_, _, hb, _⟩ := init_parts hi
  obtain ⟨calls, r1, r2⟩ := run_bursts ops hr
  have hd : 0 < caRate std := by cases std <;> decide
  rw [sent_stats (caWidth_pos std) (Nat.le_refl _) hd hb r1 r2 (windowStats_ok hq).1, commandWires_eq, commandRate_eq]
  refine line_full ?_ _
  unfold Line.after
  rw [List.foldl_map]
  exact sends_on calls r2 fun k => by simp

/-! ## Inversion pins -/

/-- The counted levels of a pin reach up to its last change. -/
structure PinFull {P : Nat} (p : Pin P) : Prop where
  total : p.stats.ones + p.stats.zeroes = p.lastSet
  idle : p.idleState ≠ .Z
  loaded : p.storage.loadTime = p.lastSet
  size : p.storage.count ≤ P

theorem change_none (a b : PinState) : (Pin.change a b).ones = 0 ∧ (Pin.change a b).zeroes = 0 := by
  cases a <;> cases b <;> exact ⟨rfl, rfl⟩

theorem addPending_none (T : Nat) (q : Pending (PinState × PinState)) (s : BusStats) :
    (Pin.addPending T q s).ones = s.ones ∧ (Pin.addPending T q s).zeroes = s.zeroes := by
  unfold Pin.addPending
  split
  · have := change_none q.stats.1 q.stats.2
    simp [this]
  · exact ⟨rfl, rfl⟩

theorem bitsStats_full (f : Nat → Bool) (n : Nat) : (bitsStats f n).ones + (bitsStats f n).zeroes = n := by
  have := wires_le n f
  unfold bitsStats
  dsimp only
  omega

theorem duration_full {st : PinState} (h : st ≠ .Z) (n : Nat) : (Pin.duration st n).ones + (Pin.duration st n).zeroes = n := by
  cases st <;> simp_all [Pin.duration]

theorem pin_count_full {P : Nat} {p : Pin P} (hp : PinFull p) {T : Nat} {s x : BusStats} (hT : p.lastSet ≤ T)
    (h : p.count T p.lastSet p.idleState s = .ok x) : x.ones + x.zeroes = s.ones + s.zeroes + (T - p.lastSet) := by
  unfold Pin.count at h
  split at h
  · cases h
    omega
  rename_i hlt
  split at h
  · rename_i hend
    rw [storage_stats p.storage hp.loaded (by omega) hp.size] at h
    simp only [bind, Except.bind, pure, Except.pure] at h
    have hb := bitsStats_full p.storage.bitset.getLsbD (min (T - p.lastSet) p.storage.count)
    have he : p.storage.endTime = p.lastSet + p.storage.count := by rw [BitsetContainer.endTime, hp.loaded]
    split at h
    · rename_i hgo
      split at h
      · cases h
      · rename_i b hb'
        have hd := duration_full hp.idle (T - p.storage.endTime)
        have hc := change_none (if b = true then PinState.H else .L) p.idleState
        rw [← Except.ok.inj h]
        simp only [BusStats.add_ones, BusStats.add_zeroes]
        omega
    · rw [← Except.ok.inj h]
      simp only [BusStats.add_ones, BusStats.add_zeroes]
      omega
  · have hd := duration_full hp.idle (T - p.lastSet)
    rw [← pure_ok h]
    simp only [BusStats.add_ones, BusStats.add_zeroes]
    omega

theorem pin_query_full {P : Nat} {p : Pin P} (hp : PinFull p) {dr : Nat} {x : BusStats} (h : p.getStats t dr = .ok x) :
    x.ones + x.zeroes = t * dr := by
  unfold Pin.getStats at h
  dsimp only at h
  split at h
  · cases h
  split at h
  · rename_i e
    rw [← Except.ok.inj h, hp.total, e]
  · have k := pin_count_full hp (by omega) h
    have a := addPending_none (t * dr) p.pending (if p.initLoad = true ∧ 0 < t * dr then p.stats + Pin.change p.lastState p.idleState else p.stats)
    have c := change_none p.lastState p.idleState
    rw [k, a.1, a.2]
    have := hp.total
    split
    · simp only [BusStats.add_ones, BusStats.add_zeroes]; omega
    · omega

theorem pin_set_full {P : Nat} {p p' : Pin P} (hp : PinFull p) {st : PinState} (h : p.set t st 1 = .ok p') : PinFull p' := by
  unfold Pin.set at h
  obtain ⟨s, hs, h⟩ := bind_ok h
  dsimp only at h
  obtain ⟨d, hd, h⟩ := bind_ok h
  have e := pure_ok h
  unfold Pin.setInternal at hs
  simp only [Nat.mul_one] at hs
  split at hs
  · cases hs
  have k := pin_count_full hp (by omega) hs
  have a := addPending_none t p.pending (if p.initLoad = true ∧ 0 < t then p.stats + Pin.change p.lastState p.idleState else p.stats)
  have c := change_none p.lastState p.idleState
  have tot : s.ones + s.zeroes = t := by
    rw [k, a.1, a.2]
    have := hp.total
    split
    · simp only [BusStats.add_ones, BusStats.add_zeroes]; omega
    · omega
  have push : ∀ {d0 : BitsetContainer P}, d0 = p.storage → d0.pushBack (t * 1) (st == .H) = .ok d → d.loadTime = t ∧ d.count ≤ P := by
    intro d0 h0 hd
    rw [Nat.mul_one] at hd
    unfold BitsetContainer.pushBack at hd
    dsimp only at hd
    split at hd <;> split at hd <;> first | cases hd; done | skip
    · rw [← Except.ok.inj hd]; exact ⟨rfl, by dsimp only at *; omega⟩
    · rename_i h1 _
      rw [← Except.ok.inj hd]; exact ⟨by dsimp only; omega, by dsimp only; omega⟩
  revert e hd
  split <;> split <;> intro hd e <;> obtain ⟨p1, p2⟩ := push rfl hd <;> rw [← e] <;>
    exact ⟨by dsimp only; omega, hp.idle, by dsimp only; omega, p2⟩

/-- All pins of both directions. -/
structure PinLists (P n : Nat) (rd wr : List (Pin P)) : Prop where
  read : ∀ p ∈ rd, PinFull p
  write : ∀ p ∈ wr, PinFull p
  reads : rd.length = n
  writes : wr.length = n

/-- The same of an interface. -/
def PinsFull (n : Nat) (i : Interface std N) : Prop := PinLists (pinSize std) n i.pinsRead i.pinsWrite

theorem pinChange_full {e : DbiEvent} (hi : PinsFull n i) (h : i.pinChange e = .ok i') : PinsFull n i' := by
  unfold Interface.pinChange at h
  split at h
  · cases h
  rename_i p hp
  obtain ⟨q, hq, h⟩ := bind_ok h
  have hmem := List.mem_of_getElem? hp
  split at h
  · rename_i hr
    rw [if_pos hr] at hmem
    rw [← pure_ok h]
    refine ⟨fun x hx => ?_, hi.write, (List.length_set ..).trans hi.reads, hi.writes⟩
    rcases List.mem_or_eq_of_mem_set hx with hx | hx
    · exact hi.read x hx
    · rw [hx]; exact pin_set_full (hi.read p hmem) hq
  · rename_i hr
    rw [if_neg hr] at hmem
    rw [← pure_ok h]
    refine ⟨hi.read, fun x hx => ?_, hi.reads, (List.length_set ..).trans hi.writes⟩
    rcases List.mem_or_eq_of_mem_set hx with hx | hx
    · exact hi.write x hx
    · rw [hx]; exact pin_set_full (hi.write p hmem) hq

theorem pinChanges_full : ∀ {es : List DbiEvent} {i i' : Interface std N}, PinsFull n i → es.foldlM Interface.pinChange i = .ok i' → PinsFull n i'
  | [], _, _, hi, h => by rw [← pure_ok h]; exact hi
  | e :: es, i, i', hi, h => by
    rw [List.foldlM_cons] at h
    obtain ⟨i1, h1, h2⟩ := bind_ok h
    exact pinChanges_full (pinChange_full hi h1) h2

theorem invertData_full {c : ICmd} {read : Bool} {data : Option (List UInt8)} (hi : PinsFull n i) (h : i.invertData sp c read = .ok (i', data)) :
    PinsFull n i' := by
  unfold Interface.invertData at h
  split at h
  · have := congrArg Prod.fst (ok_inj h)
    dsimp only at this
    rw [← this]; exact hi
  · obtain ⟨⟨d, out, ev⟩, _, h⟩ := bind_ok h
    obtain ⟨i1, h1, h⟩ := bind_ok h
    have := congrArg Prod.fst (pure_ok h)
    dsimp only at this
    rw [← this]
    exact pinChanges_full (i := { i with dbi := d }) hi h1

theorem transfer_full {c : ICmd} {read : Bool} {len : Nat} (hi : PinsFull n i) (h : i.transfer sp c read = .ok (i', len)) : PinsFull n i' := by
  unfold Interface.transfer at h
  split at h
  · split at h
    · have := congrArg Prod.fst (ok_inj h)
      dsimp only at this
      rw [← this]; exact hi
    · obtain ⟨i1, h1, h⟩ := bind_ok h
      obtain ⟨d, _, e⟩ := loadData_ok h1
      have := congrArg Prod.fst (pure_ok h)
      dsimp only at this
      rw [← this, e]; exact hi
  · obtain ⟨⟨i1, data⟩, h1, h⟩ := bind_ok h
    have k := invertData_full hi h1
    dsimp only at h
    split at h
    · obtain ⟨⟨f, bytes, n⟩, _, h⟩ := bind_ok h
      obtain ⟨i2, h2, h⟩ := bind_ok h
      obtain ⟨d, _, e⟩ := loadData_ok h2
      have := congrArg Prod.fst (pure_ok h)
      dsimp only at this
      rw [← this, e]; exact k
    · obtain ⟨i2, h2, h⟩ := bind_ok h
      obtain ⟨d, _, e⟩ := loadData_ok h2
      have := congrArg Prod.fst (pure_ok h)
      dsimp only at this
      rw [← this, e]; exact k

theorem handleCommandBus_pins {c : ICmd} (hi : PinsFull n i) (h : i.handleCommandBus sp c = .ok i') : PinsFull n i' := by
  obtain ⟨i1, w, n, b, h1, h2, e⟩ := handleCommandBus_ok h
  subst e
  rcases encodeCommand_ok h1 with ⟨_, _, k, _, e⟩ | ⟨_, _, k, _, e⟩ <;> subst e <;> exact hi

theorem handleData_full {c : ICmd} {read : Bool} (hi : PinsFull n i) (h : i.handleData sp c read = .ok i') : PinsFull n i' := by
  obtain ⟨i1, len, i2, i3, i4, h1, h2, h3, h4, h5⟩ := handleData_ok h
  have k1 := transfer_full hi h1
  obtain ⟨r2, wd2, e2⟩ := dqs_ok h2
  have k2 : PinsFull n i2 := by rw [e2]; exact k1
  obtain ⟨wk, e3⟩ := runWck_ok h3
  have k3 : PinsFull n i3 := by rw [e3]; exact k2
  obtain ⟨a, a6, eo⟩ := overrides_eq i3 len read
  have k4 := handleCommandBus_pins (i := i3.overrides len read) (by rw [eo]; exact k3) h4
  rcases prePostamble_ok h5 with ⟨_, e⟩ | ⟨_, r, r', _, _, e⟩
  · rw [e]; exact k4
  · rw [e]; exact k4

theorem step_full (hi : PinsFull n i) {op : IfOp} (h : i.step sp op = .ok i') : PinsFull n i' := by
  cases op with
  | cmd c =>
    obtain ⟨i1, h1, e⟩ := ifCommand_ok h
    subst e
    show PinsFull n i1
    cases ha : ifAction sp.arch std c.type with
    | bus => rw [ha] at h1; exact handleCommandBus_pins hi h1
    | data read => rw [ha] at h1; exact handleData_full hi h1
    | finish =>
      rw [ha] at h1
      unfold Interface.act Interface.endOfSimulation at h1
      obtain ⟨⟨d, ev⟩, g1, g2⟩ := bind_ok h1
      exact pinChanges_full (i := { i with dbi := d }) hi g2
    | skip => rw [ha] at h1; cases h1; exact hi
    | unsupported => rw [ha] at h1; cases h1
    | invalid => rw [ha] at h1; cases h1
  | dbi e => cases h; exact hi
  | metaData a b => cases h; exact hi
  | parity b =>
    simp only [Interface.step, Interface.setParityCheckMode] at h
    split at h
    · cases h; exact hi
    · cases h
  | enable t =>
    simp only [Interface.step] at h
    cases he : i.enabled with
    | true =>
      unfold Interface.enable at h
      rw [if_pos he] at h
      cases h
      exact hi
    | false =>
      obtain ⟨w, k, _, _, e⟩ := enable_ok he h
      subst e
      exact hi
  | disable t =>
    simp only [Interface.step] at h
    cases he : i.enabled with
    | false =>
      unfold Interface.disable at h
      rw [if_pos he] at h
      cases h
      exact hi
    | true =>
      obtain ⟨w, k, _, _, e⟩ := disable_ok he h
      subst e
      exact hi

theorem run_full : ∀ (ops : List IfOp) {i i' : Interface std N}, PinsFull n i → i.run sp ops = .ok i' →
    PinsFull n i'
  | [], _, _, hi, h => by cases h; exact hi
  | op :: ops, i, i', hi, h => by
    obtain ⟨j, h1, h2⟩ := Interface.run_cons h
    exact run_full ops (step_full hi h1) h2

theorem pinStats_full {P : Nat} : ∀ {pins : List (Pin P)} {s x : BusStats}, (∀ p ∈ pins, PinFull p) → Interface.pinStats pins t s = .ok x →
    x.ones + x.zeroes = s.ones + s.zeroes + pins.length * (t * 2)
  | [], s, x, _, h => by
    rw [← pure_ok h]
    simp
  | p :: pins, s, x, hp, h => by
    unfold Interface.pinStats at h
    rw [List.foldlM_cons] at h
    obtain ⟨y, h1, h2⟩ := bind_ok h
    obtain ⟨z, h3, h4⟩ := bind_ok h1
    have k := pin_query_full (hp p (by simp)) h3
    have r := pinStats_full (pins := pins) (fun q hq => hp q (by simp [hq])) h2
    rw [r, ← pure_ok h4, List.length_cons, Nat.add_mul, Nat.one_mul]
    simp only [BusStats.add_ones, BusStats.add_zeroes]
    omega

theorem init_full (hi : Interface.init std N sp = .ok i) : PinsFull (sp.pins std).length i := by
  obtain ⟨_, _, _, _, _, _, _, _, _, _, _, _, e1, e2, _⟩ := init_parts hi
  have : ∀ p ∈ sp.pins std, PinFull p := by
    intro p hp
    unfold IfSpec.pins at hp
    split at hp
    · rw [(List.mem_replicate.1 hp).2]
      refine ⟨rfl, ?_, rfl, Nat.zero_le _⟩
      cases std <;> simp_all [IfSpec.dbi, Pin.init, hasPins]
    · cases hp
  exact ⟨by rw [e1]; exact this, by rw [e2]; exact this, by rw [e1], by rw [e2]⟩

/-- Every inversion pin has two levels per clock cycle. -/
theorem inversion_full {ops : List IfOp} {s s' : SimStats} (hi : Interface.init std N sp = .ok i) (hr : i.run sp ops = .ok i')
    (hq : i'.getWindowStats sp t s = .ok s') (hp : hasPins std = true) :
    s'.readDBI.ones + s'.readDBI.zeroes = s.readDBI.ones + s.readDBI.zeroes + sp.devices * sp.bitWidth / 8 * (t * 2) ∧
    s'.writeDBI.ones + s'.writeDBI.zeroes = s.writeDBI.ones + s.writeDBI.zeroes + sp.devices * sp.bitWidth / 8 * (t * 2) := by
  have k := run_full ops (init_full hi) hr
  obtain ⟨_, _, q1, q2, _⟩ := windowStats_ok hq
  have hl : (sp.pins std).length = sp.devices * sp.bitWidth / 8 := by
    unfold IfSpec.pins
    rw [if_pos hp, List.length_replicate]
  rw [pinStats_full k.read q1, pinStats_full k.write q2, k.reads, k.writes, hl]
  exact ⟨rfl, rfl⟩

/-! ## Clocks -/

theorem gateCalls_none : ∀ {ops : List IfOp}, (∀ t, .disable t ∉ ops) → gateCalls true ops = []
  | [], _ => rfl
  | op :: ops, h => by
    have ih := gateCalls_none (ops := ops) fun t ht => h t (by simp [ht])
    rw [gateCalls]
    cases op with
    | disable t => exact absurd (by simp) (h t)
    | _ => exact ih

theorem halfCycles_full : ∀ n, (halfCycles n).ones + (halfCycles n).zeroes = n
  | 0 => rfl
  | n + 1 => by
    have ih := halfCycles_full n
    rw [halfCycles]
    split <;> simp only [BusStats.add_ones, BusStats.add_zeroes] <;> omega

/-- A running clock has as many levels as its rate says, two of them at a time. -/
theorem clock_full (r : Nat) : ((Clock.init r false).getStats t).ones + ((Clock.init r false).getStats t).zeroes = 2 * (t * r / 2) := by
  show (({} : BusStats) + (Clock.init r false).count (usub t 0)).ones + (({} : BusStats) + (Clock.init r false).count (usub t 0)).zeroes = _
  rw [usub, if_pos (Nat.zero_le _), Nat.sub_zero]
  simp only [BusStats.add_ones, BusStats.add_zeroes, Clock.count, Clock.init]
  omega

/-- The beats of a bus that is never off are busy or idle. -/
theorem busy_full {dr : Nat} {l : List (Nat × Nat)} : ∀ T, (busy dr l).beats (some true) T + (busy dr l).beats (some false) T = T
  | 0 => rfl
  | T + 1 => by
    have ih := busy_full (dr := dr) (l := l) T
    rw [Activity.beats, Activity.beats]
    have : (busy dr l) T = some true ∨ (busy dr l) T = some false := by
      unfold busy
      cases h : l.any fun b => decide (b.1 * dr ≤ T) && decide (T < b.1 * dr + b.2) <;> simp
    rcases this with e | e <;> rw [e] <;> simp <;> omega

/-- Truncation loses at most one beat per wire. -/
theorem toggleStats_full {w n i : Nat} {r d : Rate} {high : Bool} :
    w * (n + i) ≤ (toggleStats w r d high n i).ones + (toggleStats w r d high n i).zeroes + w ∧
      (toggleStats w r d high n i).ones + (toggleStats w r d high n i).zeroes ≤ w * (n + i) := by
  unfold toggleStats
  dsimp only
  rw [← Nat.mul_add, ← Nat.mul_succ]
  have hd := d.pos
  have hle := d.le
  have e : n * d.num + n * (d.den - d.num) = n * d.den := by rw [← Nat.mul_add]; congr 1; omega
  have a1 := Nat.div_add_mod (n * d.num) d.den
  have a2 := Nat.div_add_mod (n * (d.den - d.num)) d.den
  have b1 := Nat.mod_lt (n * d.num) hd
  have b2 := Nat.mod_lt (n * (d.den - d.num)) hd
  generalize n * d.num / d.den = x at *
  generalize n * (d.den - d.num) / d.den = y at *
  have u : x + y ≤ n := by
    refine Nat.le_of_mul_le_mul_left (c := d.den) ?_ hd
    rw [Nat.mul_add, Nat.mul_comm d.den n]; omega
  have v : n < x + y + 2 := by
    refine Nat.lt_of_mul_lt_mul_left (a := d.den) ?_
    rw [Nat.mul_add, Nat.mul_add, Nat.mul_comm d.den n]; omega
  constructor
  · refine Nat.mul_le_mul_left _ ?_
    cases high <;> simp <;> omega
  · refine Nat.mul_le_mul_left _ ?_
    cases high <;> simp <;> omega

end DRAMPower
