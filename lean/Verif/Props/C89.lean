import Verif.Lemmas.Slots
import Verif.Props.C53
import Verif.Props.C49
import Verif.Props.C55
import Verif.Props.C16

/-!
# C89: an accepted trace is in time order, and nothing overlaps on the wires

The converse of property C37: there, traces whose commands find the busses free are executed; here, whatever has been executed found
them free.
-/

namespace DRAMPower
open Spec
variable {std : Std} {N : Nat} {ms : MemSpec} {sp : IfSpec}

/-- The full claim about order: apart from marks for the end of the simulation, no executed command is earlier than one before it. -/
def C89_statement_order (std : Std) : Prop :=
  ∀ (N : Nat) (ms : MemSpec) (sp : IfSpec) (s s' : Simulator std N) (cs : List ICmd), Simulator.init std N ms sp = .ok s →
    s.run ms sp cs = .done s' → (withoutEnd cs).Pairwise fun a b => a.t ≤ b.t

/-- The full claim about the data wires, which reads and writes share. -/
def C89_statement_wires (std : Std) : Prop :=
  ∀ (N : Nat) (ms : MemSpec) (sp : IfSpec) (s s' : Simulator std N) (cs : List ICmd), Simulator.init std N ms sp = .ok s →
    s.run ms sp cs = .done s' → OneAfterAnother (cs.filterMap (anySlot std sp))

/-- Slots of calls. -/
def slotsOf (f : ICmd → Option (Nat × Nat)) (op : IfOp) : Option (Nat × Nat) :=
  match op with
  | .cmd c => f c
  | _ => none

theorem slotsOf_commands (f : ICmd → Option (Nat × Nat)) (ops : List IfOp) : ops.filterMap (slotsOf f) = (commandsOf ops).filterMap f := by
  induction ops with
  | nil => rfl
  | cons op ops ih =>
    unfold commandsOf at *
    cases op with
    | cmd c => simp only [List.filterMap_cons, slotsOf]; rw [← ih]
    | _ => simpa only [List.filterMap_cons, slotsOf] using ih

/-- A resource whose occupation only grows. -/
theorem slots_run (Inv : Interface std N → Setting → Prop) (busy : Interface std N → Nat) (f : ICmd → Option (Nat × Nat))
    (hstep : ∀ {i i' : Interface std N} {m : Setting} {op : IfOp}, Inv i m → i.step sp op = .ok i' →
      Inv i' (m.after op) ∧ busy i ≤ busy i' ∧ ∀ x, slotsOf f op = some x → busy i ≤ x.1 ∧ x.2 ≤ busy i') :
    ∀ (ops : List IfOp) {i i' : Interface std N} {m : Setting}, Inv i m → i.run sp ops = .ok i' →
      OneAfterAnother (ops.filterMap (slotsOf f)) ∧ ∀ x ∈ ops.filterMap (slotsOf f), busy i ≤ x.1
  | [], _, _, _, _, _ => ⟨List.Pairwise.nil, by simp⟩
  | op :: ops, i, i', m, hi, h => by
    obtain ⟨j, h1, h2⟩ := Interface.run_cons h
    obtain ⟨k1, k2, k3⟩ := hstep hi h1
    obtain ⟨r1, r2⟩ := slots_run Inv busy f hstep ops k1 h2
    rw [List.filterMap_cons]
    cases hx : slotsOf f op with
    | none => exact ⟨r1, fun x hx => Nat.le_trans k2 (r2 x hx)⟩
    | some x =>
      obtain ⟨k4, k5⟩ := k3 x hx
      refine ⟨List.Pairwise.cons (fun y hy => Nat.le_trans k5 (r2 y hy)) r1, fun y hy => ?_⟩
      rcases List.mem_cons.1 hy with rfl | hy
      · exact k4
      · exact Nat.le_trans k2 (r2 y hy)

theorem bus_init_parts {M w dr : Nat} {p : IdlePattern} {e : Bool} {b : Bus M} (h : Bus.init M w dr p e = .ok b) :
    b.enabled = e ∧ b.datarate = dr ∧ b.width = w := by
  unfold Bus.init at h
  repeat' (split at h)
  all_goals first
    | (cases h; done)
    | (cases h; exact ⟨rfl, rfl, rfl⟩)

theorem toggling_init_parts {w dr : Nat} {r d : Rate} {p : ToggleIdle} {e : Bool} {b : Toggling} (h : Toggling.init w dr r d p e = .ok b) :
    b.datarate = dr ∧ b.width = w := by
  unfold Toggling.init at h
  repeat' (split at h)
  all_goals first
    | (cases h; done)
    | (cases h; exact ⟨rfl, rfl⟩)

theorem init_caBus {i : Interface std N} (h : Interface.init std N sp = .ok i) : CaBusOk i := by
  obtain ⟨_, _, hb, _⟩ := init_parts h
  obtain ⟨a, b, c⟩ := bus_init_parts hb
  exact ⟨a, b, c⟩

theorem init_dataShape {i : Interface std N} (h : Interface.init std N sp = .ok i) (r : Bool) : DataShape sp r i := by
  obtain ⟨_, _, _, hd, _⟩ := init_parts h
  obtain ⟨k1, _, ir, iw, _, _, b1, b2, t1, t2⟩ := data_init hd
  obtain ⟨_, b3, b4⟩ := bus_init_parts b1
  obtain ⟨_, b5, b6⟩ := bus_init_parts b2
  obtain ⟨t3, t4⟩ := toggling_init_parts t1
  obtain ⟨t5, t6⟩ := toggling_init_parts t2
  cases r
  · exact ⟨k1, b5, b6, t5, t6⟩
  · exact ⟨k1, b3, b4, t3, t4⟩

/-- A session of interface calls, all of which succeed: the commands occupy the command bus one after another, the bursts of a direction
occupy the data bus one after another, with payloads and with the toggling-rate model. -/
theorem C89_slots {i i' : Interface std N} {ops : List IfOp} (hi : Interface.init std N sp = .ok i) (hr : i.run sp ops = .ok i') :
    OneAfterAnother ((commandsOf ops).filterMap (commandSlot std)) ∧
    ∀ read, OneAfterAnother ((commandsOf ops).filterMap (burstSlot std sp read)) := by
  refine ⟨?_, fun read => ?_⟩
  · rw [← slotsOf_commands]
    refine (slots_run (sp := sp) (fun i _ => CaBusOk i) (fun i => i.cmdBus.busyTo) (commandSlot std) (fun {j j' m op} hj h => ?_) ops
      (m := {}) (init_caBus hi) hr).1
    obtain ⟨k1, k2, k3⟩ := step_ca hj h
    refine ⟨k1, k2, fun x hx => k3 x ?_⟩
    cases op <;> exact hx
  · rw [← slotsOf_commands]
    refine (slots_run (sp := sp) (fun i m => Shaped sp i ∧ Set6 m i ∧ DataShape sp read i) (fun i => i.dataBusy read) (burstSlot std sp read)
      (fun {j j' m op} hj h => ?_) ops (m := {}) ⟨init_shaped hi, init_set hi, init_dataShape hi read⟩ hr).1
    obtain ⟨k1, k2, k3⟩ := step_slot hj.1 hj.2.1 hj.2.2 h
    refine ⟨⟨(step_clocks hj.1 h).shaped, (step_data hj.1 hj.2.1 h).set, k1⟩, k2, fun x hx => k3 x ?_⟩
    cases op <;> exact hx

theorem commandsOf_cmds (cs : List ICmd) : commandsOf (cs.map .cmd) = cs := by
  unfold commandsOf
  rw [List.filterMap_map]
  exact List.filterMap_some

/-- The same for a simulator. -/
theorem C89_simulator {s s' : Simulator std N} {cs : List ICmd} (hi : Simulator.init std N ms sp = .ok s) (hr : s.run ms sp cs = .done s') :
    OneAfterAnother (cs.filterMap (commandSlot std)) ∧ ∀ read, OneAfterAnother (cs.filterMap (burstSlot std sp read)) := by
  have := C89_slots (ops := cs.map .cmd) (simulator_init hi).2 (run_halves cs hr).2
  rwa [commandsOf_cmds] at this

/-- Commands that are sent on the command bus are executed at different times, in time order: the next one at the earliest when the
beats of the last one are over. -/
theorem C89_sent {s s' : Simulator std N} {cs : List ICmd} (hi : Simulator.init std N ms sp = .ok s) (hr : s.run ms sp cs = .done s') :
    cs.Pairwise fun a b => caBeats std a.type ≠ 0 → caBeats std b.type ≠ 0 → a.t * commandRate std + caBeats std a.type ≤ b.t * commandRate std ∧ a.t < b.t := by
  have h := (C89_simulator hi hr).1
  unfold OneAfterAnother at h
  rw [List.pairwise_filterMap] at h
  refine h.imp fun {a b} hab ha hb => ?_
  have := hab (a.t * commandRate std, a.t * commandRate std + caBeats std a.type) (by unfold commandSlot; rw [if_neg ha])
    (b.t * commandRate std, b.t * commandRate std + caBeats std b.type) (by unfold commandSlot; rw [if_neg hb])
  refine ⟨this, Nat.lt_of_not_le fun hle => ?_⟩
  have := Nat.mul_le_mul_right (commandRate std) hle
  dsimp only at *
  omega

/-- Except for LPDDR4, whose power-down commands are not sent on the command bus, an accepted trace is strictly in time order, apart from marks for the
end of the simulation. The full claim is `C89_statement_order`. -/
theorem C89_order_partial (h4 : std ≠ .lpddr4) {s s' : Simulator std N} {cs : List ICmd} (hi : Simulator.init std N ms sp = .ok s)
    (hr : s.run ms sp cs = .done s') : (withoutEnd cs).Pairwise fun a b => a.t < b.t := by
  unfold withoutEnd
  rw [List.pairwise_filter]
  refine (C89_sent hi hr).imp fun {a b} hab ha hb => ?_
  have key : ∀ ty : CmdType, (ty != .END_OF_SIMULATION) = true → caBeats std ty ≠ 0 := by
    intro ty h
    cases std <;> cases ty <;> first | exact absurd rfl h4 | (revert h; decide)
  exact (hab (key _ ha) (key _ hb)).2

/-- LPDDR4 without power-down commands. -/
theorem C89_lpddr4_partial {s s' : Simulator .lpddr4 N} {cs : List ICmd} (hi : Simulator.init .lpddr4 N ms sp = .ok s)
    (hr : s.run ms sp cs = .done s') (hp : ∀ c ∈ cs, c.type ∉ [CmdType.PDEA, .PDEP, .PDXA, .PDXP]) :
    (withoutEnd cs).Pairwise fun a b => a.t < b.t := by
  unfold withoutEnd
  rw [List.pairwise_filter]
  have key : ∀ ty : CmdType, ty ∉ [CmdType.PDEA, .PDEP, .PDXA, .PDXP] → (ty != .END_OF_SIMULATION) = true → caBeats .lpddr4 ty ≠ 0 := by
    intro ty h h'
    cases ty <;> revert h h' <;> decide
  refine (List.Pairwise.and_mem.1 (C89_sent hi hr)).imp fun {a b} hab ha hb => ?_
  exact (hab.2.2 (key _ (hp _ hab.1) ha) (key _ (hp _ hab.2.1) hb)).2

/-- What a run of the command line tool with status 0 has executed. -/
theorem cli_executed {ps : PowerSpec} {ws : WireSpec} {args : Args} {configOk memspecOk : Bool} {rows : List (List (List Char))} {sink : Sink}
    {report : Option Report} (h : cliMain std N ms sp ps ws args configOk memspecOk rows sink = .exit 0 report) :
    ∃ cs r, ∃ s0 s : Simulator std N, report = some r ∧ parseCommandList rows = .ok (some cs) ∧ Simulator.init std N ms sp = .ok s0 ∧
      s0.run ms sp cs = .done s ∧ makeResult ms sp ps ws sink s = .ok (some r) := by
  unfold cliMain at h
  split at h
  · rename_i ha
    injection h with h1 h2
    exact absurd h1 ha
  split at h
  · injection h with h1 h2; omega
  split at h
  · cases h
  · injection h with h1 h2; omega
  rename_i cs hcs
  split at h
  · cases h
  · injection h with h1 h2; omega
  rename_i s0 hs0
  split at h
  · cases h
  · injection h with h1 h2; omega
  rename_i s hs
  split at h
  · cases h
  · injection h with h1 h2; omega
  rename_i r hr
  injection h with h1 h2
  refine ⟨cs, r, s0, s, h2.symm, hcs, ?_, ?_, hr⟩
  · unfold getMemory at hs0
    split at hs0
    · split at hs0
      · rename_i s' hs'
        rw [hs', Option.some.inj (ok_inj hs0)]
      · cases hs0
      · cases hs0
    · cases hs0
  · unfold runCommands at hs
    split at hs
    · rename_i s' hs'
      rw [hs', Option.some.inj (ok_inj hs)]
    all_goals cases hs

/-- The command line tool, except for LPDDR4: with status 0 it reports what the library answers for the commands of the trace at the time
of the last one. That the trace is in time order need not be assumed (as in `C55_partial`), because other traces are refused; only the marks
for the end of the simulation must be in their place. -/
theorem C89_tool_partial (h4 : std ≠ .lpddr4) {ps : PowerSpec} {ws : WireSpec} {args : Args} {configOk memspecOk : Bool}
    {rows : List (List (List Char))} {sink : Sink} {report : Option Report}
    (h : cliMain std N ms sp ps ws args configOk memspecOk rows sink = .exit 0 report) :
    ∃ cs r, report = some r ∧ List.Forall₂ AcceptedAs rows cs ∧
      ((cs.Pairwise fun a b => a.type = .END_OF_SIMULATION ∨ b.type = .END_OF_SIMULATION → a.t ≤ b.t) →
        InOrder cs ∧ Right std N ms sp ps ws cs r) := by
  obtain ⟨cs, r, s0, s, h1, h2, h3, h5, h6⟩ := cli_executed h
  refine ⟨cs, r, h1, C54_partial rows cs h2, fun hn => ?_⟩
  have ho := C89_order_partial h4 h3 h5
  unfold withoutEnd at ho
  rw [List.pairwise_filter] at ho
  have hall : InOrder cs := by
    refine (ho.and hn).imp fun {a b} hab => ?_
    by_cases ha : a.type = .END_OF_SIMULATION
    · exact hab.2 (.inl ha)
    by_cases hb : b.type = .END_OF_SIMULATION
    · exact hab.2 (.inr hb)
    exact Nat.le_of_lt (hab.1 (by simpa using ha) (by simpa using hb))
  exact ⟨hall, makeResult_right h3 h5 hall h6⟩

/-! ## The code does not refuse everything that is out of order -/

/-- Power-down from clock 100, left at clock 50: reported is a power-down that never ends. -/
def c89Back : List ICmd := [{ t := 10, type := .ACT }, { t := 30, type := .PRE }, { t := 100, type := .PDEP }, { t := 50, type := .PDXP }]

/-- A read and, four clocks later, a write: half of the read burst is still to come. -/
def c89Both (std : Std) : List ICmd :=
  [c89Data 20 .RD (if std = .lpddr6 then 32 else 16), c89Data 24 .WR (if std = .lpddr6 then 32 else 16)]
where
  c89Data (t : Nat) (ty : CmdType) (n : Nat) : ICmd := { t, type := ty, dbank := 0, nBits := 8 * n, data := some (List.replicate n 0x5a) }

/-- Run and report the precharged power-down of rank 0. -/
def c89Run (std : Std) (cs : List ICmd) (t : Nat) : Option Nat :=
  match Simulator.init std 64 Ex.ms (c16Spec std) with
  | .error _ => none
  | .ok s => match s.run Ex.ms (c16Spec std) cs with
    | .done s => match s.core.getWindowStats std Ex.ms t with
      | (_, r) => r.rankTotal[0]?.map (·.powerDownPre)
    | _ => none

theorem c89_run {std : Std} {cs : List ICmd} {t n : Nat} (h : c89Run std cs t = some n) :
    ∃ s s', Simulator.init std 64 Ex.ms (c16Spec std) = .ok s ∧ s.run Ex.ms (c16Spec std) cs = .done s' := by
  unfold c89Run at h
  split at h
  · cases h
  · rename_i s hs
    split at h
    · rename_i s' hr
      exact ⟨s, s', hs, hr⟩
    · cases h

/-- LPDDR4: a power-down entered at 100 and left at 50 is accepted and lasts for ever. The same commands in time order: 50 clocks. -/
theorem C89_violation_order : ¬ C89_statement_order .lpddr4 ∧ c89Run .lpddr4 c89Back 1000 = some 900 ∧
    c89Run .lpddr4 [{ t := 10, type := .ACT }, { t := 30, type := .PRE }, { t := 50, type := .PDEP }, { t := 100, type := .PDXP }] 1000 = some 50 := by
  have h : c89Run .lpddr4 c89Back 1000 = some 900 := by decide +kernel
  refine ⟨fun hs => ?_, h, by decide +kernel⟩
  obtain ⟨s, s', h1, h2⟩ := c89_run h
  exact absurd (hs 64 Ex.ms (c16Spec .lpddr4) s s' c89Back h1 h2) (by decide)

/-- All standards: a write burst is accepted while a read burst is under way. -/
theorem C89_violation_wires (std : Std) : ¬ C89_statement_wires std := by
  have h : c89Run std (c89Both std) 1000 = some 0 := by cases std <;> decide +kernel
  intro hs
  obtain ⟨s, s', h1, h2⟩ := c89_run h
  exact absurd (hs 64 Ex.ms (c16Spec std) s s' (c89Both std) h1 h2) (by cases std <;> decide)

/-! ## Examples -/

/-- Bursts of both directions one after the other. -/
def c89Trace (std : Std) : List ICmd :=
  [c89Both.c89Data 10 .RD (if std = .lpddr6 then 32 else 16), c89Both.c89Data 30 .RD (if std = .lpddr6 then 32 else 16),
    c89Both.c89Data 50 .WR (if std = .lpddr6 then 32 else 16), { t := 70, type := .REFA }]

/-- Accepted by all standards; four commands on the command bus, two bursts of reads, one of writes. -/
example (std : Std) : (c89Run std (c89Trace std) 1000).isSome = true ∧ ((c89Trace std).filterMap (commandSlot std)).length = 4 ∧
    ((c89Trace std).filterMap (burstSlot std (c16Spec std) true)).length = 2 ∧
    ((c89Trace std).filterMap (burstSlot std (c16Spec std) false)).length = 1 := by
  cases std <;> decide +kernel

example : (c89Trace .ddr4).filterMap (commandSlot .ddr4) = [(10, 11), (30, 31), (50, 51), (70, 71)] ∧
    (c89Trace .ddr4).filterMap (burstSlot .ddr4 (c16Spec .ddr4) true) = [(20, 36), (60, 76)] ∧
    (c89Trace .lpddr6).filterMap (commandSlot .lpddr6) = [(20, 24), (60, 64), (100, 104), (140, 144)] ∧
    (c89Trace .lpddr6).filterMap (burstSlot .lpddr6 (c16Spec .lpddr6) true) = [(20, 44), (60, 84)] := by decide

/-- The slots are tight: the next command may come when they are over, not a clock earlier. -/
example : [(4, true), (3, false)].all (fun x => (c89Run .lpddr4 [{ t := 0, type := .ACT }, { t := x.1, type := .PRE }] 1000).isSome == x.2) = true ∧
    [(28, true), (27, false)].all (fun x => (c89Run .ddr4 [c89Both.c89Data 20 .RD 16, c89Both.c89Data x.1 .RD 16] 1000).isSome == x.2) = true := by
  decide +kernel

/-- The tool: a trace with a mark for the end (the report exists), and one that is out of order (it does not). -/
example : ∀ std ∈ [Std.ddr4, .ddr5, .lpddr5],
    (match c55Total std [c54Row "0" "ACT" "0" [], c54Row "10" "WR" "0" ["0x00000000ffffffff"], c54Row "40" "END" "0" []] .stdout with
      | some (0, some e) => decide (0 < e)
      | _ => false) = true ∧
    c55Total std [c54Row "50" "ACT" "0" [], c54Row "10" "WR" "0" ["0x00000000ffffffff"], c54Row "60" "END" "0" []] .stdout = none := by
  decide +kernel

/-- The toggling-rate model refuses overlapping bursts too. -/
def c89Toggling : IfSpec := { c16Spec .ddr4 with toggling := some c49Rates }

def c89Session (ts : List Nat) : Bool :=
  match Interface.init .ddr4 64 c89Toggling with
  | .error _ => false
  | .ok i => match i.run c89Toggling (ts.map fun t => .cmd { t, type := .RD }) with
    | .ok _ => true
    | .error _ => false

example : c89Session [10, 14] = true ∧ c89Session [10, 13] = false ∧
    ((commandsOf ([10, 14].map fun t => .cmd { t, type := .RD })).filterMap (burstSlot .ddr4 c89Toggling true)) = [(20, 28), (28, 36)] := by
  decide +kernel

end DRAMPower
