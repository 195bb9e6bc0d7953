import Verif.Lemmas.DataTrace

/-!
# C49: the data bus carries the payloads

`Spec.dataLine` is the waveform of the data bus of a direction, read off the list of calls: every transfer whose bytes are known
puts them on the wires, inverted and interleaved as its setting says, the bus is idle otherwise. `Spec.busy` is the activity
of the bus when only rates are known.
-/

namespace DRAMPower
open Spec

/-- The property for the traces `p` admits: the data bus is simulated bit by bit. -/
def C49_statement (p : Std → List IfOp → Prop) : Prop :=
  ∀ (std : Std) (N : Nat) (sp : IfSpec) (ops : List IfOp) (i i' : Interface std N) (t : Nat) (s s' : SimStats),
    sp.toggling = none → sp.bitWidth * sp.devices ≤ N →
    Interface.init std N sp = .ok i → i.run sp ops = .ok i' → i'.getWindowStats sp t s = .ok s' → p std ops →
    s'.readBus = s.readBus + Line.stats (sp.bitWidth * sp.devices) (caIdleLevels std) (dataLine std sp true ops) (t * sp.dataRate) ∧
    s'.writeBus = s.writeBus + Line.stats (sp.bitWidth * sp.devices) (caIdleLevels std) (dataLine std sp false ops) (t * sp.dataRate) ∧
    s'.togglingRead = s.togglingRead ∧ s'.togglingWrite = s.togglingWrite

section
variable {std : Std} {N : Nat} {sp : IfSpec} {i i' : Interface std N} {t : Nat} {s s' : SimStats} {ops : List IfOp}

theorem init_set (hi : Interface.init std N sp = .ok i) : Set6 {} i := by
  obtain ⟨_, _, _, _, _, _, _, _, _, _, _, _, _, _, hf, hd⟩ := init_parts hi
  refine ⟨?_, by rw [hf]⟩
  unfold Interface.initDbi at hd
  split at hd
  · rw [← Except.ok.inj hd]
  · unfold Dbi.init at hd
    split at hd
    · split at hd
      · rw [← Except.ok.inj hd]
      · cases hd
    · rw [← Except.ok.inj hd]

theorem off_toggle {h0 : Toggling} {width dr : Nat} {r d : Rate} {idle : ToggleIdle} {x : BusStats}
    (hi : Toggling.init width dr r d idle false = .ok h0) (h : h0.getStats t = .ok x) : x = {} := by
  have k := (C22 (ops := []) hi rfl trivial t (Nat.zero_le _) x).1 h
  have hb : ∀ b T, (Activity.after width dr false []).beats (some b) T = 0 := by
    intro b T
    induction T with
    | zero => rfl
    | succ T ih => rw [Activity.beats, ih]; rfl
  rw [k.2, hb, hb]
  unfold toggleStats
  simp [finalRates]

theorem off_bus {b : Bus N} {width dr : Nat} {pat : IdlePattern} {x : BusStats} (hi : Bus.init N width dr pat false = .ok b)
    (h : b.getStats t = .ok x) : x = {} := by
  unfold Bus.init at hi
  split at hi
  · cases hi
  cases hi
  unfold Bus.getStats at h
  dsimp only at h
  split at h
  · cases h
  split at h
  · cases h; rfl
  · rw [if_neg (by simp), if_neg (by simp)] at h
    cases h; rfl

theorem data_stats_ok {d : DataBus N} {x : DataBusStats} (h : d.getStats t = .ok x) :
    d.busRead.getStats t = .ok x.busRead ∧ d.busWrite.getStats t = .ok x.busWrite ∧
      d.togglingRead.getStats t = .ok x.togglingRead ∧ d.togglingWrite.getStats t = .ok x.togglingWrite := by
  unfold DataBus.getStats at h
  obtain ⟨_, h1, h⟩ := bind_ok h
  obtain ⟨_, h2, h⟩ := bind_ok h
  obtain ⟨_, h3, h⟩ := bind_ok h
  obtain ⟨_, h4, h⟩ := bind_ok h
  have := pure_ok h
  subst this
  exact ⟨h1, h2, h3, h4⟩

theorem add_none (a : BusStats) : a + ({} : BusStats) = a := by
  cases a; rfl

/-- What happens to the components of the data bus that are not in use. -/
theorem run_unused : ∀ (ops : List IfOp) {i i' : Interface std N} {m : Setting}, Shaped sp i → Set6 m i → DataOk i.dataBus →
    i.run sp ops = .ok i' → (sp.toggling = none → ∀ r, i'.dataBus.toggle (dirOf r) = i.dataBus.toggle (dirOf r)) ∧
      (sp.toggling ≠ none → ∀ r, i'.dataBus.bus (dirOf r) = i.dataBus.bus (dirOf r))
  | [], i, i', m, _, _, _, h => by
    cases h
    exact ⟨fun _ _ => rfl, fun _ _ => rfl⟩
  | op :: ops, i, i', m, hs, hi, hok, h => by
    obtain ⟨j, h1, h2⟩ := Interface.run_cons h
    have k := step_data hs hi h1
    have hs' := (step_clocks hs h1).shaped
    rcases k.sent with ⟨e, _⟩ | ⟨c, read, x, _, _, hrun, _⟩
    · have := run_unused ops hs' k.set (by rw [e]; exact hok) h2
      rw [e] at this
      exact this
    · obtain ⟨d1, _, d3⟩ := data_run _ hok hrun
      obtain ⟨r1, r2⟩ := run_unused ops hs' k.set d1 h2
      refine ⟨fun ht r => ?_, fun ht r => ?_⟩
      · rw [r1 ht r]
        have hb := (d3 (dirOf r)).2
        rw [(mode_bus hs).2 ht] at hb
        have : toggleShare (dirOf r) .bus [dataOp read c.t (callBits std sp c) x] = [] := by
          cases r <;> cases read <;> simp [toggleShare, toggleCall, dataOp, dirOf, transferOf]
        rw [this] at hb
        exact (Except.ok.inj hb).symm
      · rw [r2 ht r]
        have hb := (d3 (dirOf r)).1
        have hm : i.dataBus.mode = .toggling := hs.mode.trans ((mode_toggling sp).2 (by cases h : sp.toggling <;> simp_all))
        rw [hm] at hb
        have : busShare (dirOf r) .toggling [dataOp read c.t (callBits std sp c) x] = [] := by
          cases r <;> cases read <;> cases x <;> simp [busShare, busCall, dataOp, dirOf, transferOf]
        rw [this] at hb
        exact (Except.ok.inj hb).symm

/-- Every accepted trace and every accepted query: the figures of the data bus are those of the waveform. The exception:
LPDDR6 with data bus inversion (`C49_violation`). -/
theorem C49_partial : C49_statement fun std ops => std = .lpddr6 → .dbi true ∉ ops := by
  intro std N sp ops i i' t s s' ht hN hi hr hq hp
  obtain ⟨hd, hw, _, hb, _⟩ := init_parts hi
  obtain ⟨ok, hm, ir, iw, c1, c2, b1, b2, t1, t2⟩ := data_init hb
  have hmode : sp.mode = .bus := by unfold IfSpec.mode; rw [ht]; rfl
  have hr' : (sp.dataConfig std).read = busConfig std ∧ (sp.dataConfig std).write = busConfig std := by
    unfold IfSpec.dataConfig; rw [ht]; exact ⟨rfl, rfl⟩
  have hidle : DataBus.convertIdle (busConfig std).idle = .ok (caIdle std) := by cases std <;> rfl
  rw [hr'.1, hidle] at c1
  rw [hr'.2, hidle] at c2
  cases c1
  cases c2
  rw [hmode] at b1 b2 t1 t2
  obtain ⟨_, ⟨d, hdq, e1, e2, e3, e4⟩, _⟩ := windowStats_ok hq
  obtain ⟨q1, q2, q3, q4⟩ := data_stats_ok hdq
  have figures : ∀ r (b : Bus N) x, Bus.init N (sp.bitWidth * sp.devices) sp.dataRate (caIdle std) = .ok (i.dataBus.bus (dirOf r)) →
      b = i'.dataBus.bus (dirOf r) → b.getStats t = .ok x →
      x = Line.stats (sp.bitWidth * sp.devices) (caIdleLevels std) (dataLine std sp r ops) (t * sp.dataRate) := by
    intro r b x hb0 hb1 hx
    subst hb1
    obtain ⟨calls, r1, r2, r3⟩ := run_data hw ht r ops (init_shaped hi) (init_set hi) ok (fun _ => rfl) hp hr
    rw [sent_stats hw hN hd hb0 r1 r2 hx]
    have hidles : (fun _ => caIdle std == .H : Levels) = caIdleLevels std := by cases std <;> rfl
    rw [hidles]
    refine (LinesAgree.stats ?_ (fun _ _ => rfl) _).symm
    unfold dataLine Line.after
    rw [List.foldl_map]
    exact r3 _ _ _ fun k => ⟨_, _, rfl, if_pos rfl, fun j _ => rfl⟩
  have unused := (run_unused ops (init_shaped hi) (init_set hi) ok hr).1 ht
  have u1 : i'.dataBus.togglingRead = i.dataBus.togglingRead := unused true
  have u2 : i'.dataBus.togglingWrite = i.dataBus.togglingWrite := unused false
  rw [u1] at q3
  rw [u2] at q4
  refine ⟨?_, ?_, ?_, ?_⟩
  · rw [e1, figures true _ _ b1 rfl q1]
  · rw [e2, figures false _ _ b2 rfl q2]
  · rw [e3, off_toggle t1 q3, add_none]
  · rw [e4, off_toggle t2 q4, add_none]

theorem busy_after {width dr : Nat} : ∀ (bs : List (Nat × Nat)) (a : Activity) (P : Nat → Bool), (∀ k, a k = some (P k)) →
    ∀ k, (bs.map fun b => ToggleOp.transfer b.1 b.2).foldl (Activity.drive width dr) a k
      = some (P k || (bs.map fun b => (b.1, b.2 / width)).any fun b => decide (b.1 * dr ≤ k) && decide (k < b.1 * dr + b.2))
  | [], a, P, h, k => by simp [h k]
  | b :: bs, a, P, h, k => by
    rw [List.map_cons, List.foldl_cons,
      busy_after bs _ (fun k => P k || (decide (b.1 * dr ≤ k) && decide (k < b.1 * dr + b.2 / width))) ?_ k]
    · simp [Bool.or_assoc]
    · intro k
      simp only [Activity.drive, h, ne_eq, reduceCtorEq, not_false_eq_true, true_and]
      by_cases hk : b.1 * dr ≤ k ∧ k < b.1 * dr + b.2 / width
      · rw [if_pos hk]; simp [hk.1, hk.2]
      · rw [if_neg hk]
        have : (decide (b.1 * dr ≤ k) && decide (k < b.1 * dr + b.2 / width)) = false := by
          rw [← Bool.decide_and]; exact decide_eq_false hk
        rw [this, Bool.or_false]

theorem lastCall_le {dr T : Nat} : ∀ (bs : List (Nat × Nat)) (lo : Nat), lo ≤ T → (∀ b ∈ bs, b.1 * dr ≤ T) →
    lastCall dr lo (bs.map fun b => .transfer b.1 b.2) ≤ T
  | [], _, h, _ => h
  | b :: bs, _, _, h => lastCall_le bs _ (h b (by simp)) fun x hx => h x (by simp [hx])

theorem finalRates_transfers {r d : Rate} {idle : ToggleIdle} : ∀ (bs : List (Nat × Nat)),
    finalRates r d idle (bs.map fun b => .transfer b.1 b.2) = (r, d, idle)
  | [] => rfl
  | _ :: bs => finalRates_transfers bs

/-- Every accepted trace and every accepted query in toggling-rate mode: the figures are those of the rates given, for the beats
during a burst of the direction and the beats outside of all of them; nothing is added to the bit-level figures. -/
theorem C49_toggling (hi : Interface.init std N sp = .ok i) (hr : i.run sp ops = .ok i') (hq : i'.getWindowStats sp t s = .ok s')
    {rates : DirRates × DirRates} (ht : sp.toggling = some rates) :
    s'.togglingRead = s.togglingRead + toggleStats (sp.bitWidth * sp.devices) rates.1.togglingRate rates.1.dutyCycle (rates.1.idle == .H)
        ((busy sp.dataRate (bursts std sp true ops)).beats (some true) (t * sp.dataRate))
        ((busy sp.dataRate (bursts std sp true ops)).beats (some false) (t * sp.dataRate)) ∧
    s'.togglingWrite = s.togglingWrite + toggleStats (sp.bitWidth * sp.devices) rates.2.togglingRate rates.2.dutyCycle (rates.2.idle == .H)
        ((busy sp.dataRate (bursts std sp false ops)).beats (some true) (t * sp.dataRate))
        ((busy sp.dataRate (bursts std sp false ops)).beats (some false) (t * sp.dataRate)) ∧
    s'.readBus = s.readBus ∧ s'.writeBus = s.writeBus := by
  obtain ⟨hd, hw, _, hb, _⟩ := init_parts hi
  obtain ⟨ok, hm, ir, iw, c1, c2, b1, b2, t1, t2⟩ := data_init hb
  have hmode : sp.mode = .toggling := by unfold IfSpec.mode; rw [ht]; rfl
  have hr' : (sp.dataConfig std).read = rates.1 ∧ (sp.dataConfig std).write = rates.2 := by
    unfold IfSpec.dataConfig; rw [ht]; exact ⟨rfl, rfl⟩
  rw [hmode] at b1 b2 t1 t2
  rw [hr'.1] at t1
  rw [hr'.2] at t2
  obtain ⟨_, ⟨d, hdq, e1, e2, e3, e4⟩, _⟩ := windowStats_ok hq
  obtain ⟨q1, q2, q3, q4⟩ := data_stats_ok hdq
  have figures : ∀ r (rt : DirRates) (h : Toggling) x,
      Toggling.init (sp.bitWidth * sp.devices) sp.dataRate rt.togglingRate rt.dutyCycle rt.idle true = .ok (i.dataBus.toggle (dirOf r)) →
      h = i'.dataBus.toggle (dirOf r) → h.getStats t = .ok x →
      x = toggleStats (sp.bitWidth * sp.devices) rt.togglingRate rt.dutyCycle (rt.idle == .H)
        ((busy sp.dataRate (bursts std sp r ops)).beats (some true) (t * sp.dataRate))
        ((busy sp.dataRate (bursts std sp r ops)).beats (some false) (t * sp.dataRate)) := by
    intro r rt h x h0 h1 hx
    subst h1
    obtain ⟨bs, r1, r2, r3⟩ := run_toggle (by rw [ht]; rfl) r ops (init_shaped hi) (init_set hi) ok hr
    have hen : (i.dataBus.toggle (dirOf r)).enabled = true ∧ (i.dataBus.toggle (dirOf r)).handled = true ∧
        (i.dataBus.toggle (dirOf r)).datarate = sp.dataRate := by
      unfold Toggling.init at h0
      split at h0
      · cases h0
      split at h0
      · cases h0
      rw [← Except.ok.inj h0]
      exact ⟨rfl, rfl, rfl⟩
    have htimed := transfers_timed hen.1 (.inl ⟨hen.2.1, rfl⟩) r1
    rw [hen.2.2] at htimed
    have hlate := query_late hi hr hq
    have hlast := lastCall_le (dr := sp.dataRate) (T := t * sp.dataRate) bs 0 (Nat.zero_le _) fun b hb => by
      obtain ⟨c, hc, hdir, e⟩ := r2 b.1 b.2 hb
      rw [e]
      exact Nat.mul_le_mul_right _ (hlate c hc hdir)
    have k := ((C22 h0 r1 htimed t hlast x).1 hx).2
    rw [finalRates_transfers] at k
    have ha : Activity.after (sp.bitWidth * sp.devices) sp.dataRate true (bs.map fun b => .transfer b.1 b.2) = busy sp.dataRate (bursts std sp r ops) := by
      funext j
      unfold Activity.after busy
      refine (busy_after bs _ (fun _ => false) (fun _ => rfl) j).trans ?_
      rw [r3 hw, Bool.false_or]
    rw [ha] at k
    exact k
  have unused := (run_unused ops (init_shaped hi) (init_set hi) ok hr).2 (by rw [ht]; simp)
  have u1 : i'.dataBus.busRead = i.dataBus.busRead := unused true
  have u2 : i'.dataBus.busWrite = i.dataBus.busWrite := unused false
  rw [u1] at q1
  rw [u2] at q2
  refine ⟨?_, ?_, ?_, ?_⟩
  · rw [e3, figures true _ _ _ t1 rfl q3]
  · rw [e4, figures false _ _ _ t2 rfl q4]
  · rw [e1, off_bus b1 q1, add_none]
  · rw [e2, off_bus b2 q2, add_none]

end

/-- The data bus figures of a trace. -/
def c49Run (std : Std) (sp : IfSpec) (ops : List IfOp) (t : Nat) : Except Err (BusStats × BusStats) := do
  let i ← Interface.init std 16 sp
  let i ← i.run sp ops
  let s ← i.getWindowStats sp t {}
  pure (s.readBus, s.writeBus)

/-- The figures of the waveforms. -/
def c49Lines (std : Std) (sp : IfSpec) (ops : List IfOp) (t : Nat) : BusStats × BusStats :=
  (Line.stats (sp.bitWidth * sp.devices) (caIdleLevels std) (dataLine std sp true ops) (t * sp.dataRate),
   Line.stats (sp.bitWidth * sp.devices) (caIdleLevels std) (dataLine std sp false ops) (t * sp.dataRate))

/-- Eight data wires. -/
def c49Spec : IfSpec := { dataRate := 2, burstLength := 8, bitWidth := 8, devices := 1 }

/-- Twelve data wires. -/
def c49Spec6 : IfSpec := { dataRate := 2, burstLength := 24, bitWidth := 12, devices := 1 }

/-- An LPDDR6 read of 256 ones with data bus inversion. -/
def c49Ones : List IfOp := [.dbi true, .cmd { t := 5, type := .RD, dbank := 8, nBits := 256, data := some (List.replicate 32 0xff) }]

/-- The bus should carry the sixteen flags only; it carries the flags and 120 ones. -/
theorem C49_violation : ¬ C49_statement fun _ _ => True := by
  intro hc
  have key : ∃ x, c49Run .lpddr6 c49Spec6 c49Ones 40 = .ok x ∧ x.1.ones = 136 ∧ (c49Lines .lpddr6 c49Spec6 c49Ones 40).1.ones = 16 := by
    refine ⟨({ ones := 136, zeroes := 824, bitChanges := 64, onesToZeroes := 32, zeroesToOnes := 32 },
      { ones := 0, zeroes := 960, bitChanges := 0, onesToZeroes := 0, zeroesToOnes := 0 }), ?_, ?_, ?_⟩ <;> decide +kernel
  obtain ⟨x, h, hx, hl⟩ := key
  unfold c49Run at h
  obtain ⟨i, h1, h⟩ := bind_ok h
  obtain ⟨i', h2, h⟩ := bind_ok h
  obtain ⟨s, h3, h⟩ := bind_ok h
  have e := pure_ok h
  have k := (hc _ 16 c49Spec6 _ i i' 40 {} s rfl (by decide) h1 h2 h3 trivial).1
  rw [← e] at hx
  dsimp only at hx
  rw [k] at hx
  have : (Line.stats (c49Spec6.bitWidth * c49Spec6.devices) (caIdleLevels .lpddr6) (dataLine .lpddr6 c49Spec6 true c49Ones) (40 * c49Spec6.dataRate)).ones = 16 := hl
  simp only [BusStats.add_ones, this] at hx
  cases hx

/-- An activate, a write and a read of 8 beats with data bus inversion; the payloads have bytes to be inverted. -/
def c49Trace : List IfOp :=
  [.cmd { t := 1, type := .ACT, co := { bank := 1, row := 0x155 } }, .dbi true,
   .cmd { t := 10, type := .WR, co := { bank := 1, column := 0x2a7 }, nBits := 64, data := some [1, 2, 3, 4, 255, 6, 0, 8] },
   .cmd { t := 20, type := .RD, co := { bank := 1, column := 0x2a7 }, nBits := 64, data := some [1, 254, 3, 0, 5, 6, 0x7f, 8] }]

/-- It meets the hypotheses of `C49_partial` for four standards, and the figures are not trivial. -/
example : (∀ std ∈ [Std.ddr4, .ddr5, .lpddr4, .lpddr5], c49Run std c49Spec c49Trace 40 = .ok (c49Lines std c49Spec c49Trace 40)) ∧
    (c49Run .ddr4 c49Spec c49Trace 40).map (fun s => (s.1.zeroes, s.1.bitChanges, s.2.zeroes)) = .ok (10, 14, 8) ∧
    (c49Run .ddr5 c49Spec c49Trace 40).map (fun s => (s.1.zeroes, s.1.bitChanges, s.2.zeroes)) = .ok (42, 46, 48) := by
  decide +kernel

/-- A write and a read of 24 beats with metadata. -/
def c49Trace6 : List IfOp :=
  [.cmd { t := 1, type := .ACT, co := { bank := 1, row := 0x155 }, dbank := 8 }, .metaData 0xbeef 0x1234,
   .cmd { t := 10, type := .WR, co := { bank := 1, column := 0x27 }, nBits := 256, dbank := 8, data := some ((List.range 32).map fun k => UInt8.ofNat (37 * k)) },
   .cmd { t := 40, type := .RD, co := { bank := 1, column := 0x27 }, nBits := 256, dbank := 8, data := some ((List.range 32).map fun k => UInt8.ofNat (91 * k)) }]

/-- The same for LPDDR6. -/
example : c49Run .lpddr6 c49Spec6 c49Trace6 80 = .ok (c49Lines .lpddr6 c49Spec6 c49Trace6 80) ∧
    (c49Run .lpddr6 c49Spec6 c49Trace6 80).map (fun s => (s.1.ones, s.1.bitChanges, s.2.ones)) = .ok (139, 134, 136) := by
  decide +kernel

/-- Rates for reads and writes. -/
def c49Rates : DirRates × DirRates :=
  ({ togglingRate := ⟨1, 2, by decide, by decide⟩, dutyCycle := ⟨1, 4, by decide, by decide⟩, idle := .H },
   { togglingRate := ⟨1, 1, by decide, by decide⟩, dutyCycle := ⟨1, 2, by decide, by decide⟩, idle := .L })

/-- The toggling-rate figures of a trace. -/
def c49Toggle (std : Std) (sp : IfSpec) (ops : List IfOp) (t : Nat) : Except Err (BusStats × BusStats) := do
  let i ← Interface.init std 16 sp
  let i ← i.run sp ops
  let s ← i.getWindowStats sp t {}
  pure (s.togglingRead, s.togglingWrite)

/-- The hypotheses of `C49_toggling` are met for four standards by transfers without bytes; the query is during the read:
four of its eight beats have passed. -/
example : ∀ std ∈ [Std.ddr4, .ddr5, .lpddr4, .lpddr5], c49Toggle std { c49Spec with toggling := some c49Rates }
    [.cmd { t := 10, type := .WR, dbank := 8 }, .cmd { t := 20, type := .RD, dbank := 8 }] 22
      = .ok ({ ones := 328, zeroes := 24, bitChanges := 16, onesToZeroes := 8, zeroesToOnes := 8 },
        { ones := 32, zeroes := 320, bitChanges := 64, onesToZeroes := 32, zeroesToOnes := 32 }) := by
  decide +kernel

end DRAMPower
