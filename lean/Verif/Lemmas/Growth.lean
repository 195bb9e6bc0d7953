import Verif.Spec.Growth
import Verif.Lemmas.TimeBase

/-!
# The figures of the interface grow with the window
-/

namespace DRAMPower
open Spec

namespace Spec.FiguresLe

theorem refl (a : BusStats) : FiguresLe a a := ⟨Nat.le_refl _, Nat.le_refl _, Nat.le_refl _, Nat.le_refl _, Nat.le_refl _⟩

theorem trans {a b c : BusStats} (h : FiguresLe a b) (h' : FiguresLe b c) : FiguresLe a c :=
  ⟨Nat.le_trans h.1 h'.1, Nat.le_trans h.2 h'.2, Nat.le_trans h.3 h'.3, Nat.le_trans h.4 h'.4, Nat.le_trans h.5 h'.5⟩

theorem add {a b c d : BusStats} (h : FiguresLe a b) (h' : FiguresLe c d) : FiguresLe (a + c) (b + d) :=
  ⟨Nat.add_le_add h.1 h'.1, Nat.add_le_add h.2 h'.2, Nat.add_le_add h.3 h'.3, Nat.add_le_add h.4 h'.4, Nat.add_le_add h.5 h'.5⟩

theorem mul (k : Nat) {a b : BusStats} (h : FiguresLe a b) : FiguresLe (k * a) (k * b) :=
  ⟨Nat.mul_le_mul_right _ h.1, Nat.mul_le_mul_right _ h.2, Nat.mul_le_mul_right _ h.3, Nat.mul_le_mul_right _ h.4, Nat.mul_le_mul_right _ h.5⟩

theorem right (a b : BusStats) : FiguresLe a (a + b) :=
  ⟨Nat.le_add_right _ _, Nat.le_add_right _ _, Nat.le_add_right _ _, Nat.le_add_right _ _, Nat.le_add_right _ _⟩

theorem of_steps {f : Nat → BusStats} (h : ∀ n, FiguresLe (f n) (f (n + 1))) {m n : Nat} (hmn : m ≤ n) : FiguresLe (f m) (f n) := by
  obtain ⟨k, rfl⟩ := Nat.le.dest hmn
  induction k with
  | zero => exact refl _
  | succ k ih => exact (ih (Nat.le_add_right _ _)).trans (h _)

end Spec.FiguresLe

variable {std : Std} {N : Nat} {sp : IfSpec} {i i' : Interface std N} {t t' : Nat}

/-! ## Busses -/

theorem line_grows {w : Nat} {idle : Levels} {l : Line} {T T' : Nat} (h : T ≤ T') : FiguresLe (Line.stats w idle l T) (Line.stats w idle l T') :=
  FiguresLe.of_steps (f := Line.stats w idle l) (fun _ => FiguresLe.right _ _) h

theorem command_grows {ops : List IfOp} (hi : Interface.init std N sp = .ok i) (hr : i.run sp ops = .ok i') (h : t ≤ t') {x y : BusStats}
    (hx : i'.cmdBus.getStats t = .ok x) (hy : i'.cmdBus.getStats t' = .ok y) : FiguresLe x y := by
  obtain ⟨_, _, hb, _⟩ := init_parts hi
  obtain ⟨calls, r1, r2⟩ := run_bursts ops hr
  have hd : 0 < caRate std := by cases std <;> decide
  rw [sent_stats (caWidth_pos std) (Nat.le_refl _) hd hb r1 r2 hx, sent_stats (caWidth_pos std) (Nat.le_refl _) hd hb r1 r2 hy]
  exact line_grows (Nat.mul_le_mul_right _ h)

/-! ## Toggling rates -/

theorem beats_grow {a : Activity} {s : Option Bool} {T T' : Nat} (h : T ≤ T') : a.beats s T ≤ a.beats s T' := by
  obtain ⟨k, rfl⟩ := Nat.le.dest h
  induction k with
  | zero => exact Nat.le_refl _
  | succ k ih => exact Nat.le_trans (ih (Nat.le_add_right _ _)) (Nat.le_add_right _ _)

theorem toggle_grows {w : Nat} {r d : Rate} {high : Bool} {n n' k k' : Nat} (hn : n ≤ n') (hk : k ≤ k') :
    FiguresLe (toggleStats w r d high n k) (toggleStats w r d high n' k') := by
  have share : ∀ a b, n * a / b ≤ n' * a / b := fun a b => Nat.div_le_div_right (Nat.mul_le_mul_right _ hn)
  have idle : ∀ b : Bool, (if b then k else 0) ≤ if b then k' else 0 := fun b => by cases b <;> simp [hk]
  have idle' : ∀ b : Bool, (if b then 0 else k) ≤ if b then 0 else k' := fun b => by cases b <;> simp [hk]
  exact ⟨Nat.mul_le_mul_left _ (Nat.add_le_add (share _ _) (idle _)), Nat.mul_le_mul_left _ (Nat.add_le_add (share _ _) (idle' _)),
    Nat.mul_le_mul_left _ (Nat.mul_le_mul_left _ (share _ _)), Nat.mul_le_mul_left _ (share _ _), Nat.mul_le_mul_left _ (share _ _)⟩

/-! ## Data bus -/

/-- Data figures of both models and both directions. -/
theorem data_grows {ops : List IfOp} {s s' x y : SimStats} (hN : sp.bitWidth * sp.devices ≤ N)
    (hi : Interface.init std N sp = .ok i) (hr : i.run sp ops = .ok i') (h : t ≤ t')
    (h1 : FiguresLe s.readBus s'.readBus) (h2 : FiguresLe s.writeBus s'.writeBus) (h3 : FiguresLe s.togglingRead s'.togglingRead)
    (h4 : FiguresLe s.togglingWrite s'.togglingWrite)
    (hx : i'.getWindowStats sp t s = .ok x) (hy : i'.getWindowStats sp t' s' = .ok y) :
    FiguresLe x.readBus y.readBus ∧ FiguresLe x.writeBus y.writeBus ∧ FiguresLe x.togglingRead y.togglingRead ∧
      FiguresLe x.togglingWrite y.togglingWrite := by
  cases ht : sp.toggling with
  | some rates =>
    obtain ⟨a1, a2, a3, a4⟩ := C49_toggling hi hr hx ht
    obtain ⟨b1, b2, b3, b4⟩ := C49_toggling hi hr hy ht
    have hT := Nat.mul_le_mul_right sp.dataRate h
    rw [a1, a2, a3, a4, b1, b2, b3, b4]
    exact ⟨h1, h2, h3.add (toggle_grows (beats_grow hT) (beats_grow hT)), h4.add (toggle_grows (beats_grow hT) (beats_grow hT))⟩
  | none =>
    obtain ⟨hd, hw, _, hb, _⟩ := init_parts hi
    obtain ⟨ok, hm, ir, iw, c1, c2, b1, b2, t1, t2⟩ := data_init hb
    have hmode : sp.mode = .bus := by unfold IfSpec.mode; rw [ht]; rfl
    rw [hmode] at b1 b2 t1 t2
    obtain ⟨_, ⟨d, hdq, e1, e2, e3, e4⟩, _⟩ := windowStats_ok hx
    obtain ⟨_, ⟨d', hdq', e1', e2', e3', e4'⟩, _⟩ := windowStats_ok hy
    obtain ⟨q1, q2, q3, q4⟩ := data_stats_ok hdq
    obtain ⟨q1', q2', q3', q4'⟩ := data_stats_ok hdq'
    have figures : ∀ r (b : Bus N) (pat : IdlePattern) x y, Bus.init N (sp.bitWidth * sp.devices) sp.dataRate pat = .ok (i.dataBus.bus (dirOf r)) →
        b = i'.dataBus.bus (dirOf r) → b.getStats t = .ok x → b.getStats t' = .ok y → FiguresLe x y := by
      intro r b pat x y hb0 hb1 hx hy
      subst hb1
      obtain ⟨calls, r1, r2⟩ := run_sends ht r ops (init_shaped hi) (init_set hi) ok hr
      rw [sent_stats hw hN hd hb0 r1 r2 hx, sent_stats hw hN hd hb0 r1 r2 hy]
      exact line_grows (Nat.mul_le_mul_right _ h)
    have unused := (run_unused ops (init_shaped hi) (init_set hi) ok hr).1 ht
    have u1 : i'.dataBus.togglingRead = i.dataBus.togglingRead := unused true
    have u2 : i'.dataBus.togglingWrite = i.dataBus.togglingWrite := unused false
    rw [u1] at q3 q3'
    rw [u2] at q4 q4'
    rw [e1, e2, e3, e4, e1', e2', e3', e4', off_toggle t1 q3, off_toggle t2 q4, off_toggle t1 q3', off_toggle t2 q4']
    exact ⟨h1.add (figures true _ _ _ _ b1 rfl q1 q1'), h2.add (figures false _ _ _ _ b2 rfl q2 q2'), h3.add (.refl _), h4.add (.refl _)⟩

/-! ## Pins -/

theorem bitsStats_step (f : Nat → Bool) (n : Nat) : FiguresLe (bitsStats f n) (bitsStats f (n + 1)) := by
  have h1 := wires_succ n f
  have h2 := wires_le n f
  cases n with
  | zero => exact ⟨by simp [bitsStats, wires], by simp [bitsStats, wires], by simp [bitsStats, wires], by simp [bitsStats, wires], by simp [bitsStats, wires]⟩
  | succ n =>
    have h3 := wires_succ n fun j => f j != f (j + 1)
    have h4 := wires_succ n fun j => !f j && f (j + 1)
    have h5 : wires n (fun j => !f j && f (j + 1)) ≤ wires n fun j => f j != f (j + 1) :=
      wires_mono n fun j hj => by cases ha : f j <;> cases hb : f (j + 1) <;> simp_all
    have h6 : (if (!f n && f (n + 1)) = true then 1 else 0) ≤ if (f n != f (n + 1)) = true then 1 else 0 := by
      cases f n <;> cases f (n + 1) <;> decide
    have h7 : (if f (n + 1) = true then 1 else 0) ≤ 1 := by split <;> omega
    refine ⟨?_, ?_, ?_, ?_, ?_⟩ <;> simp only [bitsStats, Nat.add_sub_cancel] <;> omega

theorem duration_grows (s : PinState) {m n : Nat} (h : m ≤ n) : FiguresLe (Pin.duration s m) (Pin.duration s n) := by
  cases s <;> refine ⟨?_, ?_, ?_, ?_, ?_⟩ <;> first | exact h | exact Nat.le_refl _

theorem pending_grows {p : Pending (PinState × PinState)} {T T' : Nat} (h : T ≤ T') {a b : BusStats} (hab : FiguresLe a b) :
    FiguresLe (Pin.addPending T p a) (Pin.addPending T' p b) := by
  unfold Pin.addPending
  split
  · rename_i h1
    rw [if_pos ⟨h1.1, by omega⟩]
    exact hab.add (.refl _)
  · split
    · exact hab.trans (.right _ _)
    · exact hab

theorem pending_more {p : Pending (PinState × PinState)} {T : Nat} {a : BusStats} : FiguresLe a (Pin.addPending T p a) := by
  unfold Pin.addPending
  split
  · exact .right _ _
  · exact .refl _

theorem count_more {P : Nat} {p : Pin P} {T T0 : Nat} {q : PinState} {a x : BusStats} (h : p.count T T0 q a = .ok x) : FiguresLe a x := by
  unfold Pin.count at h
  split at h
  · cases h; exact .refl _
  split at h
  · obtain ⟨c, _, h⟩ := bind_ok h
    dsimp only at h
    split at h
    · obtain ⟨b, _, h⟩ := bind_ok h
      rw [← pure_ok h]
      exact ((FiguresLe.right _ _).trans (.right _ _)).trans (.right _ _)
    · rw [← pure_ok h]; exact .right _ _
  · rw [← pure_ok h]; exact .right _ _

theorem count_grows {P : Nat} {p : Pin P} (hp : PinFull p) {T T' : Nat} (h : T ≤ T') {a b x y : BusStats} (hab : FiguresLe a b)
    (hx : p.count T p.lastSet p.idleState a = .ok x) (hy : p.count T' p.lastSet p.idleState b = .ok y) : FiguresLe x y := by
  have he : p.storage.endTime = p.lastSet + p.storage.count := by rw [BitsetContainer.endTime, hp.loaded]
  by_cases h0 : T ≤ p.lastSet
  · unfold Pin.count at hx
    rw [if_pos h0] at hx
    cases hx
    exact hab.trans (count_more hy)
  unfold Pin.count at hx hy
  rw [if_neg h0] at hx
  rw [if_neg (by omega)] at hy
  by_cases h1 : p.lastSet < p.storage.endTime
  · rw [if_pos h1, storage_stats p.storage hp.loaded (by omega) hp.size] at hx hy
    simp only [bind, Except.bind, pure, Except.pure] at hx hy
    have bits := FiguresLe.of_steps (bitsStats_step p.storage.bitset.getLsbD) (m := min (T - p.lastSet) p.storage.count)
      (n := min (T' - p.lastSet) p.storage.count) (by omega)
    by_cases h2 : p.storage.endTime < T
    · rw [if_pos h2] at hx
      rw [if_pos (by omega)] at hy
      cases hl : p.storage.last with
      | error e => rw [hl] at hx; cases hx
      | ok v =>
        rw [hl] at hx hy
        rw [← Except.ok.inj hx, ← Except.ok.inj hy]
        exact (((hab.add bits).add (.refl _)).add (duration_grows _ (by omega)))
    · rw [if_neg h2] at hx
      rw [← Except.ok.inj hx]
      by_cases h3 : p.storage.endTime < T'
      · rw [if_pos h3] at hy
        cases hl : p.storage.last with
        | error e => rw [hl] at hy; cases hy
        | ok v =>
          rw [hl] at hy
          rw [← Except.ok.inj hy]
          exact ((hab.add bits).trans (.right _ _)).trans (.right _ _)
      · rw [if_neg h3] at hy
        rw [← Except.ok.inj hy]
        exact hab.add bits
  · rw [if_neg h1] at hx hy
    rw [← pure_ok hx, ← pure_ok hy]
    exact hab.add (duration_grows _ (by omega))

theorem pin_grows {P : Nat} {p : Pin P} (hp : PinFull p) (h : t ≤ t') {dr : Nat} {x y : BusStats} (hx : p.getStats t dr = .ok x)
    (hy : p.getStats t' dr = .ok y) : FiguresLe x y := by
  have hT : t * dr ≤ t' * dr := Nat.mul_le_mul_right _ h
  unfold Pin.getStats at hx hy
  dsimp only at hx hy
  split at hx
  · cases hx
  rename_i h1
  rw [if_neg (by omega)] at hy
  have first : ∀ T, FiguresLe p.stats (if p.initLoad = true ∧ 0 < T then p.stats + Pin.change p.lastState p.idleState else p.stats) := by
    intro T
    split
    · exact .right _ _
    · exact .refl _
  split at hx
  · rw [← Except.ok.inj hx]
    split at hy
    · rw [← Except.ok.inj hy]; exact .refl _
    · exact ((first _).trans pending_more).trans (count_more hy)
  · rw [if_neg (by omega)] at hy
    refine count_grows hp hT (pending_grows hT ?_) hx hy
    split
    · rename_i h2
      rw [if_pos ⟨h2.1, by omega⟩]
      exact .refl _
    · exact first _

theorem pins_grow {P : Nat} (h : t ≤ t') : ∀ {pins : List (Pin P)} {s s' x y : BusStats}, (∀ p ∈ pins, PinFull p) → FiguresLe s s' →
    Interface.pinStats pins t s = .ok x → Interface.pinStats pins t' s' = .ok y → FiguresLe x y
  | [], s, s', x, y, _, hs, hx, hy => by
    rw [← pure_ok hx, ← pure_ok hy]; exact hs
  | p :: pins, s, s', x, y, hp, hs, hx, hy => by
    unfold Interface.pinStats at hx hy
    rw [List.foldlM_cons] at hx hy
    obtain ⟨a, h1, h2⟩ := bind_ok hx
    obtain ⟨b, h3, h4⟩ := bind_ok h1
    obtain ⟨a', h1', h2'⟩ := bind_ok hy
    obtain ⟨b', h3', h4'⟩ := bind_ok h1'
    refine pins_grow h (pins := pins) (fun q hq => hp q (by simp [hq])) ?_ h2 h2'
    rw [← pure_ok h4, ← pure_ok h4']
    exact hs.add (pin_grows (hp p (by simp)) h h3 h3')

/-! ## Clocks -/

/-- A running clock was started at `u` or earlier. -/
def Clock.Since (u : Nat) (k : Clock) : Prop := ∀ s, k.lastStart = some s → s ≤ u

theorem clock_grows {k : Clock} (hk : k.Since t) (h : t ≤ t') : FiguresLe (k.getStats t) (k.getStats t') := by
  unfold Clock.getStats
  cases hs : k.lastStart with
  | none => exact .refl _
  | some s =>
    have := hk s hs
    dsimp only
    rw [usub, if_pos this, usub, if_pos (Nat.le_trans this h)]
    refine (FiguresLe.refl _).add ?_
    have : (t - s) * k.dataRate / 2 ≤ (t' - s) * k.dataRate / 2 := Nat.div_le_div_right (Nat.mul_le_mul_right _ (by omega))
    exact ⟨this, this, Nat.add_le_add this this, this, this⟩

theorem since_run {u : Nat} : ∀ {ops : List ClockOp} {k k' : Clock}, k.Since u → (∀ s, .start s ∈ ops → s ≤ u) → k.run ops = .ok k' → k'.Since u
  | [], k, k', hk, _, h => by rw [← ok_inj h]; exact hk
  | .start s :: ops, k, k', hk, hs, h => by
    obtain ⟨k1, h1, h2⟩ := bind_ok (show (k.start s >>= fun k => k.run ops) = .ok k' from h)
    refine since_run ?_ (fun s hs' => hs s (by simp [hs'])) h2
    unfold Clock.start at h1
    split at h1
    · cases h1
    · rw [← ok_inj h1]
      intro s' e
      cases e
      exact hs s (by simp)
  | .stop s :: ops, k, k', hk, hs, h => by
    obtain ⟨k1, h1, h2⟩ := bind_ok (show (k.stop s >>= fun k => k.run ops) = .ok k' from h)
    refine since_run ?_ (fun s hs' => hs s (by simp [hs'])) h2
    unfold Clock.stop at h1
    split at h1
    · cases h1
    split at h1
    · rw [← ok_inj h1]
      intro s' e
      cases e
    · cases h1

theorem gate_starts {s : Nat} : ∀ {ops : List IfOp} {on : Bool}, .start s ∈ gateCalls on ops → .enable s ∈ ops
  | [], _, h => by cases h
  | op :: ops, on, h => by
    rw [gateCalls] at h
    rcases List.mem_append.1 h with h | h
    · cases op with
      | enable t =>
        cases on
        · simp [gateCall] at h; rw [h]; simp
        · simp [gateCall] at h
      | disable t => cases on <;> simp [gateCall] at h
      | _ => cases h
    · exact List.mem_cons_of_mem _ (gate_starts h)

theorem stopped_run {rate : Nat} : ∀ {l : List (Nat × Nat)} {k k' : Clock}, k.lastStart = none → k.run (l.flatMap (strobeCalls rate)) = .ok k' →
    k'.lastStart = none
  | [], k, k', hk, h => by rw [← ok_inj h]; exact hk
  | b :: l, k, k', hk, h => by
    obtain ⟨k1, h1, h⟩ := bind_ok (show (k.start b.1 >>= fun k => k.stop (b.1 + b.2 / rate) >>= fun k => k.run (l.flatMap (strobeCalls rate))) = .ok k' from h)
    obtain ⟨k2, h2, h⟩ := bind_ok h
    refine stopped_run ?_ h
    unfold Clock.stop at h2
    split at h2
    · cases h2
    split at h2
    · rw [← ok_inj h2]
    · cases h2

theorem init_since (rate : Nat) (b : Bool) (u : Nat) : (Clock.init rate b).Since u := by
  intro s e
  cases b <;> cases e
  exact Nat.zero_le _

/-! ## All figures -/

theorem unclocked {s x : SimStats} (hm : ¬ mobile std) (h : i.getWindowStats sp t s = .ok x) : x.wClockStats = s.wClockStats := by
  unfold Interface.getWindowStats at h
  obtain ⟨cb, h1, h⟩ := bind_ok h
  obtain ⟨d, h2, h⟩ := bind_ok h
  obtain ⟨rd, h3, h⟩ := bind_ok h
  obtain ⟨wr, h4, h⟩ := bind_ok h
  rw [← pure_ok h]
  exact if_neg (by simpa [mobile] using hm)

theorem unstrobed {s x : SimStats} (hm : mobile std) (h : i.getWindowStats sp t s = .ok x) : x.writeDQSStats = s.writeDQSStats := by
  unfold Interface.getWindowStats at h
  obtain ⟨cb, h1, h⟩ := bind_ok h
  obtain ⟨d, h2, h⟩ := bind_ok h
  obtain ⟨rd, h3, h⟩ := bind_ok h
  obtain ⟨wr, h4, h⟩ := bind_ok h
  rw [← pure_ok h]
  exact if_pos (decide_eq_true (show std = .lpddr5 ∨ std = .lpddr6 from hm))

/-- Every accepted trace: no figure of a group of wires decreases when the window grows, if it ends after all switching on of the
interface. -/
theorem figures_grow {ops : List IfOp} {s s' x y : SimStats} (hN : sp.bitWidth * sp.devices ≤ N)
    (hi : Interface.init std N sp = .ok i) (hr : i.run sp ops = .ok i') (hen : ∀ u, .enable u ∈ ops → u ≤ t) (h : t ≤ t')
    (hs : ∀ g : Group, FiguresLe (g.figures s) (g.figures s')) (hx : i'.getWindowStats sp t s = .ok x)
    (hy : i'.getWindowStats sp t' s' = .ok y) : ∀ g : Group, FiguresLe (g.figures x) (g.figures y) := by
  obtain ⟨a1, _, a3, a4, a5, a6, a7, a8⟩ := windowStats_ok hx
  obtain ⟨b1, _, b3, b4, b5, b6, b7, b8⟩ := windowStats_ok hy
  obtain ⟨d1, d2, d3, d4⟩ := data_grows hN hi hr h (hs .readData) (hs .writeData) (hs .readRate) (hs .writeRate) hx hy
  obtain ⟨_, _, _, _, er, ew, ek, ec, ee, _⟩ := init_parts hi
  have k := run_clocks ops (init_shaped hi) hr
  have pins := run_full ops (init_full hi) hr
  have gate : ∀ {c c' : Clock}, c.Since t → c.run (gateCalls i.enabled ops) = .ok c' → c'.Since t := fun hc hrun =>
    since_run hc (fun s hs => hen s (gate_starts hs)) hrun
  have still : ∀ {c c' : Clock} {l : List (Nat × Nat)}, c.lastStart = none → c.run (l.flatMap (strobeCalls sp.dataRate)) = .ok c' → c'.Since t :=
    fun hc hrun s e => by rw [stopped_run hc hrun] at e; cases e
  intro g
  cases g with
  | clock =>
    show FiguresLe x.clockStats y.clockStats
    rw [a5, b5]
    exact .mul _ (clock_grows (gate (by rw [ec]; exact init_since _ _ _) k.clock) h)
  | dataClock =>
    show FiguresLe x.wClockStats y.wClockStats
    by_cases hm : mobile std
    · rw [a6 hm, b6 hm]
      refine .mul _ (clock_grows ?_ h)
      cases ho : sp.wckAlwaysOn with
      | true => exact gate (by rw [ek]; exact init_since _ _ _) (k.wckOn hm ho)
      | false =>
        refine still ?_ (k.wckBurst hm ho)
        rw [ek, ho]
        simp [Clock.init]
    · rw [unclocked hm hx, unclocked hm hy]
      exact hs .dataClock
  | command => exact command_grows hi hr h a1 b1
  | readStrobe =>
    show FiguresLe x.readDQSStats y.readDQSStats
    rw [a7, b7]
    exact .mul _ (clock_grows (still (by rw [er]; rfl) k.read) h)
  | writeStrobe =>
    show FiguresLe x.writeDQSStats y.writeDQSStats
    by_cases hm : mobile std
    · rw [unstrobed hm hx, unstrobed hm hy]
      exact hs .writeStrobe
    · rw [a8 hm, b8 hm]
      exact .mul _ (clock_grows (still (by rw [ew]; rfl) (k.write hm)) h)
  | readData => exact d1
  | writeData => exact d2
  | readRate => exact d3
  | writeRate => exact d4
  | readInv => exact pins_grow h pins.read (hs .readInv) a3 b3
  | writeInv => exact pins_grow h pins.write (hs .writeInv) a4 b4

end DRAMPower
