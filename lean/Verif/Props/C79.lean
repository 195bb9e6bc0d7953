import Verif.Lemmas.MachineWires

/-!
# C79: 64 bits are enough for the wires

`Machine.Bus`, `Machine.Clock`, `Machine.Toggling`, `Machine.Pin` are the components with the arithmetic of the program: `uint64_t`, modulo
2^64 (Model/MachineWires.lean). The other theorems about them are about natural numbers.
-/

namespace DRAMPower

open Machine (w)
open Spec

/-! ## Histories -/

/-- The figures at the time `t` after the calls `ops` on a new bus, over the natural numbers. -/
def busIdeal (N width rate : Nat) (idle : IdlePattern) (on : Bool) (ops : List BusOp) (t : Nat) : Except Err BusStats :=
  (Bus.init N width rate idle on).bind fun b => (b.run ops).bind fun b => b.getStats t

/-- The same for the program. -/
def busMachine (N width rate : Nat) (idle : IdlePattern) (on : Bool) (ops : List BusOp) (t : Nat) : Except Err BusStats :=
  ((Machine.Bus.init N (UInt64.ofNat width) (UInt64.ofNat rate) idle on).bind fun b => (b.run (ops.map busWord)).bind fun b =>
    b.getStats (UInt64.ofNat t)).map figuresOf

/-- The figures of a clock. -/
def clockIdeal (rate : Nat) (stopped : Bool) (ops : List ClockOp) (t : Nat) : Except Err BusStats :=
  ((Clock.init rate stopped).run ops).map fun c => c.getStats t

/-- The same for the program. -/
def clockMachine (rate : Nat) (stopped : Bool) (ops : List ClockOp) (t : Nat) : Except Err BusStats :=
  ((Machine.Clock.init (UInt64.ofNat rate) stopped).run (ops.map clockWord)).map fun c => figuresOf (c.getStats (UInt64.ofNat t))

/-- The figures of a bus described by toggling rates. -/
def toggleIdeal (width rate : Nat) (tr dc : Rate) (idle : ToggleIdle) (on : Bool) (ops : List ToggleOp) (t : Nat) : Except Err BusStats :=
  (Toggling.init width rate tr dc idle on).bind fun h => (h.run ops).bind fun h => h.getStats t

/-- The same for the program. -/
def toggleMachine (width rate : Nat) (tr dc : Rate) (idle : ToggleIdle) (on : Bool) (ops : List ToggleOp) (t : Nat) : Except Err BusStats :=
  ((Machine.Toggling.init (UInt64.ofNat width) (UInt64.ofNat rate) tr dc idle on).bind fun h => (h.run (ops.map toggleWord)).bind fun h =>
    h.getStats (UInt64.ofNat t)).map figuresOf

/-- The figures of a pin. -/
def pinIdeal (N rate : Nat) (a b : PinState) (bursts : List (Nat × List PinState)) (t : Nat) : Except Err BusStats :=
  ((Pin.init N a b).run bursts rate).bind fun p => p.getStats t rate

/-- The same for the program. -/
def pinMachine (N rate : Nat) (a b : PinState) (bursts : List (Nat × List PinState)) (t : Nat) : Except Err BusStats :=
  (((Machine.Pin.init N a b).run (bursts.map fun b => (UInt64.ofNat b.1, b.2)) (UInt64.ofNat rate)).bind fun p =>
    p.getStats (UInt64.ofNat t) (UInt64.ofNat rate)).map figuresOf

/-- The property: whatever the program reports about a bus or a clock is exact, figure by figure, if it fits into 64 bits. -/
def C79_statement : Prop :=
  (∀ N width rate idle on ops t s r, N < 2 ^ 64 → width < 2 ^ 64 → rate < 2 ^ 64 → t < 2 ^ 64 → busIdeal N width rate idle on ops t = .ok s →
    busMachine N width rate idle on ops t = .ok r → Exact r s) ∧
  (∀ rate stopped ops t s r, rate < 2 ^ 64 → t < 2 ^ 64 → clockIdeal rate stopped ops t = .ok s → clockMachine rate stopped ops t = .ok r →
    Exact r s)

/-! ## What holds -/

/-- Bus: if the times in beats, including the ends of the transfers, are below 2^64, then the program accepts and refuses the same calls as the bus
over the natural numbers, and the figures agree modulo 2^64. -/
theorem C79_bus_partial {N width rate t : Nat} (hN : N < 2 ^ 64) (hw : width < 2 ^ 64) (hr : rate < 2 ^ 64) (idle : IdlePattern) (on : Bool)
    (ops : List BusOp) (hops : ∀ op ∈ ops, BusCallFits width rate op) (ht : TimeFits rate t) :
    busMachine N width rate idle on ops t = (busIdeal N width rate idle on ops t).map figuresMod := by
  unfold busMachine busIdeal
  have k := Bus.init_wrap hN hw hr idle on
  rw [show Machine.Bus.init N (UInt64.ofNat width) (UInt64.ofNat rate) idle on = _ from k.1]
  cases hb : Bus.init N width rate idle on with
  | error e => rfl
  | ok b =>
    obtain ⟨hs, e1, e2⟩ := k.2 b hb
    have k2 := Bus.run_wrap hN ops hs (by rw [e1, e2]; exact hops)
    show Except.map _ ((b.wrap.run (ops.map busWord)).bind _) = Except.map _ ((b.run ops).bind _)
    rw [k2.1]
    cases hb2 : b.run ops with
    | error e => rfl
    | ok b2 =>
      obtain ⟨hs2, e3⟩ := k2.2 b2 hb2
      have k3 := Bus.getStats_wrap hN hs2 (t := t) (by rw [e3, e2]; exact ht)
      show Except.map _ (b2.wrap.getStats (w t)) = Except.map _ (b2.getStats t)
      rw [k3]
      cases b2.getStats t with
      | error e => rfl
      | ok s => exact congrArg Except.ok (figuresOf_wrap s)

/-- The last start of a clock is the time of a call, or 0. -/
theorem lastStart_le {t : Nat} (ops : List ClockOp) : ∀ {c c' : Clock}, c.run ops = .ok c' → (∀ s, c.lastStart = some s → s ≤ t) →
    (∀ op ∈ ops, (match op with | .start s => s | .stop s => s) ≤ t) → ∀ s, c'.lastStart = some s → s ≤ t := by
  induction ops with
  | nil => intro c c' h hc _; cases h; exact hc
  | cons op ops ih =>
    intro c c' h hc ho
    have h1 := ho op (by simp)
    have h2 : ∀ op ∈ ops, (match op with | .start s => s | .stop s => s) ≤ t := fun op hop => ho op (by simp [hop])
    cases op with
    | start s =>
      rw [Clock.run] at h
      cases hs : c.start s with
      | error e => rw [hs] at h; cases h
      | ok c1 =>
        rw [hs] at h
        refine ih h ?_ h2
        unfold Clock.start at hs
        split at hs
        · cases hs
        · cases hs; intro s' hs'; cases hs'; exact h1
    | stop s =>
      rw [Clock.run] at h
      cases hs : c.stop s with
      | error e => rw [hs] at h; cases h
      | ok c1 =>
        rw [hs] at h
        refine ih h ?_ h2
        unfold Clock.stop at hs
        split at hs
        · cases hs
        · split at hs
          · cases hs; intro s' hs'; cases hs'
          · cases hs

/-- Clock: the same, for a query that is not before the calls. -/
theorem C79_clock_partial {rate t : Nat} (hr : rate < 2 ^ 64) (stopped : Bool) (ops : List ClockOp) (hops : ∀ op ∈ ops, ClockCallFits rate op)
    (ht : TimeFits rate t) (hlast : ∀ op ∈ ops, (match op with | .start s => s | .stop s => s) ≤ t) :
    clockMachine rate stopped ops t = (clockIdeal rate stopped ops t).map figuresMod := by
  unfold clockMachine clockIdeal
  have e : Machine.Clock.init (UInt64.ofNat rate) stopped = (Clock.init rate stopped).wrap := by cases stopped <;> rfl
  have hs : (Clock.init rate stopped).Small := ⟨hr, by cases stopped <;> intro s hs <;> cases hs; decide⟩
  have k := Clock.run_wrap ops hs hops
  rw [e, k.1]
  cases hc : (Clock.init rate stopped).run ops with
  | error e => rfl
  | ok c =>
    obtain ⟨hs2, e2⟩ := k.2 c hc
    have hl := lastStart_le (t := t) ops hc (by cases stopped <;> intro s hs <;> cases hs; exact Nat.zero_le _) hlast
    have k2 := Clock.getStats_wrap hs2 (t := t) (by rw [e2]; exact ht) hl
    show Except.ok (figuresOf (c.wrap.getStats (w t))) = Except.ok (figuresMod (c.getStats t))
    rw [k2, figuresOf_wrap]

/-- Toggling rates: the same, for calls and a query in the order of time. -/
theorem C79_toggle_partial {width rate t : Nat} (hw : width < 2 ^ 64) (hr : rate < 2 ^ 64) (tr dc : Rate) (idle : ToggleIdle) (on : Bool)
    (ops : List ToggleOp) (hops : ToggleCallsFit width rate 0 ops) (ht : TimeFits rate t) (hlast : lastToggle 0 ops ≤ t) :
    toggleMachine width rate tr dc idle on ops t = (toggleIdeal width rate tr dc idle on ops t).map figuresMod := by
  unfold toggleMachine toggleIdeal
  have k := Toggling.init_wrap hw hr tr dc idle on
  rw [show Machine.Toggling.init (UInt64.ofNat width) (UInt64.ofNat rate) tr dc idle on = _ from k.1]
  cases hb : Toggling.init width rate tr dc idle on with
  | error e => rfl
  | ok b =>
    obtain ⟨hs, e1, e2⟩ := k.2 b hb
    have k2 := Toggling.run_wrap ops hs (by rw [e1, e2]; exact hops)
    show Except.map _ ((b.wrap.run (ops.map toggleWord)).bind _) = Except.map _ ((b.run ops).bind _)
    rw [k2.1]
    cases hb2 : b.run ops with
    | error e => rfl
    | ok b2 =>
      obtain ⟨hs2, -, e3⟩ := k2.2 b2 hb2
      have k3 := Toggling.getStats_wrap hs2 (t := t) (by rw [e3]; exact Nat.mul_le_mul_right _ hlast) (by rw [e3, e2]; exact ht)
      show Except.map _ (b2.wrap.getStats (w t)) = Except.map _ (b2.getStats t)
      rw [k3]
      cases b2.getStats t with
      | error e => rfl
      | ok s => exact congrArg Except.ok (figuresOf_wrap s)

/-- Pin: the same. -/
theorem C79_pin_partial {N rate t : Nat} (hN : N + 1 < 2 ^ 64) (a b : PinState) (bursts : List (Nat × List PinState))
    (hops : ∀ x ∈ bursts, PinTimeFits N rate x.1) (ht : TimeFits rate t) :
    pinMachine N rate a b bursts t = (pinIdeal N rate a b bursts t).map figuresMod := by
  unfold pinMachine pinIdeal
  have k := Pin.run_wrap bursts (Pin.small_init hN a b) hops
  rw [show (Machine.Pin.init N a b).run (bursts.map fun b => (UInt64.ofNat b.1, b.2)) (UInt64.ofNat rate) = _ from k.1]
  cases hb : (Pin.init N a b).run bursts rate with
  | error e => rfl
  | ok p =>
    have k3 := Pin.getStats_wrap (k.2 p hb) ht.2
    show Except.map _ (p.wrap.getStats (w t) (w rate)) = Except.map _ (p.getStats t rate)
    rw [k3]
    cases p.getStats t rate with
    | error e => rfl
    | ok s => exact congrArg Except.ok (figuresOf_wrap s)

/-- Figures that agree modulo 2^64 are exact where they fit: this applies to the four theorems above. -/
theorem C79_exact_partial {x y : Except Err BusStats} (h : x = y.map figuresMod) {r : BusStats} (hr : x = .ok r) : ∃ s, y = .ok s ∧ Exact r s := by
  rw [h] at hr
  cases y with
  | error e => cases hr
  | ok s => cases hr; exact ⟨s, rfl, figuresMod_exact s⟩

/-! ## What the program checks -/

/-- A transfer at a time that does not fit in beats is refused by an enabled bus in every state. -/
theorem C79_load_refused {N : Nat} (b : Machine.Bus N) (hon : b.enabled = true) (h0 : b.datarate ≠ 0) (t : UInt64) (data : List UInt8) (n : UInt64)
    (h : 2 ^ 64 ≤ t.toNat * b.datarate.toNat) : ∃ s, b.load t data n = .error (.assertion s) := by
  have hpos : 0 < b.datarate.toNat := Nat.pos_of_ne_zero fun hz => h0 (UInt64.toNat_inj.1 hz)
  have : w (2 ^ 64 - 1) / b.datarate < t := by
    rw [UInt64.lt_iff_toNat_lt, UInt64.toNat_div, w_toNat (by decide), Nat.div_lt_iff_lt_mul hpos]
    omega
  refine ⟨"timestamp <= max / datarate", ?_⟩
  unfold Machine.Bus.load
  simp only [hon, Bool.not_true, Bool.false_eq_true, if_false, if_neg h0, if_pos this]

theorem overflow_div {t r : UInt64} (h0 : r ≠ 0) (h : 2 ^ 64 ≤ t.toNat * r.toNat) : t * r / r ≠ t := by
  have hpos : 0 < r.toNat := Nat.pos_of_ne_zero fun hz => h0 (UInt64.toNat_inj.1 hz)
  intro e
  have e' := congrArg UInt64.toNat e
  rw [UInt64.toNat_div, UInt64.toNat_mul] at e'
  have : t.toNat * r.toNat % 2 ^ 64 / r.toNat < t.toNat := by
    rw [Nat.div_lt_iff_lt_mul hpos]
    have := Nat.mod_lt (t.toNat * r.toNat) (show 0 < 2 ^ 64 by decide)
    omega
  omega

/-- A transfer or query at a time that does not fit in beats is refused by the toggling-rate model in every state. -/
theorem C79_toggle_refused (h : Machine.Toggling) (h0 : h.datarate ≠ 0) (t n : UInt64) (ho : 2 ^ 64 ≤ t.toNat * h.datarate.toNat) :
    h.incBurst t n = .error (.assertion "no overflow") ∧ h.getStats t = .error (.assertion "no overflow") :=
  ⟨if_pos (overflow_div h0 ho), if_pos (overflow_div h0 ho)⟩

/-- So the toggling-rate model never reports wrong figures: whatever it answers, for calls in the order of time whose transfers end before the beat
2^64, is exact. -/
theorem C79_toggle {width rate t : Nat} (hw : width < 2 ^ 64) (hr : rate < 2 ^ 64) (tr dc : Rate) (idle : ToggleIdle) (on : Bool)
    (ops : List ToggleOp) (hops : ToggleCallsFit width rate 0 ops) (ht : t < 2 ^ 64) (hlast : lastToggle 0 ops ≤ t) {r : BusStats}
    (hrep : toggleMachine width rate tr dc idle on ops t = .ok r) :
    ∃ s, toggleIdeal width rate tr dc idle on ops t = .ok s ∧ Exact r s := by
  by_cases hf : t * rate < 2 ^ 64
  · exact C79_exact_partial (C79_toggle_partial hw hr tr dc idle on ops hops ⟨ht, hf⟩ hlast) hrep
  · exfalso
    unfold toggleMachine at hrep
    have k := Toggling.init_wrap hw hr tr dc idle on
    rw [show Machine.Toggling.init (UInt64.ofNat width) (UInt64.ofNat rate) tr dc idle on = _ from k.1] at hrep
    cases hb : Toggling.init width rate tr dc idle on with
    | error e => rw [hb] at hrep; cases hrep
    | ok b =>
      rw [hb] at hrep
      obtain ⟨hs, e1, e2⟩ := k.2 b hb
      have k2 := Toggling.run_wrap ops hs (by rw [e1, e2]; exact hops)
      change Except.map _ ((b.wrap.run (ops.map toggleWord)).bind _) = _ at hrep
      rw [k2.1] at hrep
      cases hb2 : b.run ops with
      | error e => rw [hb2] at hrep; cases hrep
      | ok b2 =>
        rw [hb2] at hrep
        obtain ⟨hs2, -, e3⟩ := k2.2 b2 hb2
        have hd : b2.wrap.datarate = w rate := by show w b2.datarate = _; rw [e3, e2]
        have hpos : rate ≠ 0 := by intro h0; rw [h0] at hf; exact hf (by simp)
        have := (C79_toggle_refused b2.wrap (by rw [hd]; exact mt (w_eq_zero hr).1 hpos) (w t) 0
          (by rw [hd, w_toNat ht, w_toNat hr]; omega)).2
        change Except.map _ (b2.wrap.getStats (w t)) = _ at hrep
        rw [this] at hrep
        cases hrep

/-- Concrete histories that meet the hypotheses: transfers, gaps and switching off; the figures are those of a small trace shifted by 2^60 cycles. -/
example : (∀ op ∈ [BusOp.load (2 ^ 60) [0x5a, 0xff] 16, .load (2 ^ 60 + 3) [0xf0] 8, .disable (2 ^ 60 + 6)], BusCallFits 4 2 op) ∧
    TimeFits 2 (2 ^ 60 + 10) ∧
    busMachine 8 4 2 .L true [.load (2 ^ 60) [0x5a, 0xff] 16, .load (2 ^ 60 + 3) [0xf0] 8, .disable (2 ^ 60 + 6)] (2 ^ 60 + 10) =
      .ok { ones := 16, zeroes := 2 ^ 63 + 32, bitChanges := 20, onesToZeroes := 10, zeroesToOnes := 10 } ∧
    (∀ op ∈ [ClockOp.stop (2 ^ 62), .start (2 ^ 62 + 1)], ClockCallFits 2 op) ∧
    clockMachine 2 false [.stop (2 ^ 62), .start (2 ^ 62 + 1)] (2 ^ 62 + 4) = .ok
      { ones := 2 ^ 62 + 3, zeroes := 2 ^ 62 + 3, bitChanges := 2 ^ 63 + 6, onesToZeroes := 2 ^ 62 + 3, zeroesToOnes := 2 ^ 62 + 3 } := by
  refine ⟨?_, by unfold TimeFits; decide, by decide +kernel, ?_, by decide +kernel⟩
  · intro op h
    simp only [List.mem_cons, List.not_mem_nil, or_false] at h
    rcases h with rfl | rfl | rfl
    · show TransferFits _ _ _ _; unfold TransferFits; decide
    · show TransferFits _ _ _ _; unfold TransferFits; decide
    · show TimeFits _ _; unfold TimeFits; decide
  · intro op h
    simp only [List.mem_cons, List.not_mem_nil, or_false] at h
    rcases h with rfl | rfl <;> (show TimeFits _ _; unfold TimeFits; decide)

/-- The same for toggling rates and a pin. -/
example : ToggleCallsFit 4 2 0 [.transfer (2 ^ 60) 16, .disable (2 ^ 60 + 4), .enable (2 ^ 60 + 9)] ∧
    lastToggle 0 [.transfer (2 ^ 60) 16, .disable (2 ^ 60 + 4), .enable (2 ^ 60 + 9)] ≤ 2 ^ 60 + 10 ∧
    toggleMachine 4 2 ⟨1, 2, by decide, by decide⟩ ⟨1, 2, by decide, by decide⟩ .L true
      [.transfer (2 ^ 60) 16, .disable (2 ^ 60 + 4), .enable (2 ^ 60 + 9)] (2 ^ 60 + 10) =
      .ok { ones := 8, zeroes := 2 ^ 63 + 32, bitChanges := 8, onesToZeroes := 4, zeroesToOnes := 4 } ∧
    (∀ x ∈ [(5, [PinState.L, .H]), (2 ^ 60, [.L, .L])], PinTimeFits 64 2 x.1) ∧
    pinMachine 64 2 .H .H [(5, [.L, .H]), (2 ^ 60, [.L, .L])] (2 ^ 60 + 3) =
      (pinIdeal 64 2 .H .H [(5, [.L, .H]), (2 ^ 60, [.L, .L])] (2 ^ 60 + 3)) ∧
    (pinMachine 64 2 .H .H [(5, [.L, .H]), (2 ^ 60, [.L, .L])] (2 ^ 60 + 3)).toBool = true := by
  refine ⟨by simp [ToggleCallsFit, TransferFits, TimeFits], by decide, by decide +kernel, ?_, by decide +kernel, by decide +kernel⟩
  intro x h
  simp only [List.mem_cons, List.not_mem_nil, or_false] at h
  rcases h with rfl | rfl <;> (unfold PinTimeFits; decide)

/-! ## What the program does not check -/

/-- A clock asked at the time 2^63: 2^63 periods have passed, the program reports none. A bus asked at the time 2^63 + 1: eight ones have been
transferred, the program reports two. -/
theorem C79_violation : ¬ C79_statement ∧
    clockIdeal 2 false [] (2 ^ 63) =
      .ok { ones := 2 ^ 63, zeroes := 2 ^ 63, bitChanges := 2 ^ 64, onesToZeroes := 2 ^ 63, zeroesToOnes := 2 ^ 63 } ∧
    clockMachine 2 false [] (2 ^ 63) = .ok {} ∧
    busIdeal 1 1 2 .L true [.load 0 [255] 8] (2 ^ 63 + 1) =
      .ok { ones := 8, zeroes := 2 ^ 64 - 6, bitChanges := 2, onesToZeroes := 1, zeroesToOnes := 1 } ∧
    busMachine 1 1 2 .L true [.load 0 [255] 8] (2 ^ 63 + 1) = .ok { ones := 2, bitChanges := 1, zeroesToOnes := 1 } := by
  have b1 : busIdeal 1 1 2 .L true [.load 0 [255] 8] (2 ^ 63 + 1) =
      .ok { ones := 8, zeroes := 2 ^ 64 - 6, bitChanges := 2, onesToZeroes := 1, zeroesToOnes := 1 } := by decide +kernel
  have b2 : busMachine 1 1 2 .L true [.load 0 [255] 8] (2 ^ 63 + 1) = .ok { ones := 2, bitChanges := 1, zeroesToOnes := 1 } := by decide +kernel
  refine ⟨fun h => ?_, by decide +kernel, by decide +kernel, b1, b2⟩
  have := (h.1 1 1 2 .L true [.load 0 [255] 8] (2 ^ 63 + 1) _ _ (by decide) (by decide) (by decide) (by decide) b1 b2).ones (by decide)
  revert this
  decide

end DRAMPower
