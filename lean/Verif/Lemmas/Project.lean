import Verif.Lemmas.Admissible
import Verif.Lemmas.Seamless
import Verif.Spec.Trace

/-!
# What each component sees of a trace

A trace accepted by the interface is, for each clock, strobe and bus, a history of calls that can be read off the trace.
-/

namespace DRAMPower
open Spec
variable {std : Std} {N : Nat} {sp : IfSpec} {i i' : Interface std N} {c : ICmd}

/-- Width and mode of the data bus, width of the command bus: fixed by the specification. -/
structure Shaped (sp : IfSpec) (i : Interface std N) : Prop where
  width : i.width = sp.bitWidth * sp.devices
  mode : i.dataBus.mode = sp.mode
  ca : i.cmdBus.width = caWidth std

theorem mode_toggling (sp : IfSpec) : sp.mode = .toggling ↔ sp.toggling.isSome = true := by
  unfold IfSpec.mode
  split <;> simp_all

theorem direction_data {a : BankArch} {ty : CmdType} {read : Bool} (h : ifAction a std ty = .data read) : direction ty = some read := by
  revert h
  cases std <;> cases ty <;> cases read <;> cases a <;> decide

theorem direction_other {a : BankArch} {ty : CmdType} (h : ∀ read, ifAction a std ty ≠ .data read) (h' : ifAction a std ty ≠ .invalid) :
    direction ty = none := by
  revert h h'
  cases std <;> cases ty <;> simp [ifAction, direction]

/-- A formatted payload has 32 more bits for every 256. -/
theorem formatData_size {f f' : Formatter} {shift : Option (Nat → Bool)} {data out : Option (List UInt8)} {n n' : Nat}
    {inv : Option (List Bool)} (h : f.formatData shift data n inv = .ok (f', out, n')) :
    n' = n + n / 256 * 32 ∧ (n = 256 ∨ n = 512) := by
  unfold Formatter.formatData at h
  split at h
  · cases h
  rename_i hn
  have hn' : n = 256 ∨ n = 512 := by omega
  refine ⟨?_, hn'⟩
  dsimp only at h
  split at h
  · cases h
    rcases hn' with e | e <;> subst e <;> rfl
  · split at h
    · cases h
    · cases h
      rcases hn' with e | e <;> subst e <;> rfl

/-- The number of beats of a transfer. -/
theorem transfer_beats (hs : Shaped sp i) {read : Bool} {len : Nat} (h : i.transfer sp c read = .ok (i', len)) :
    len = dataBeats std sp c := by
  have key := (transfer_ok h).2.2.2
  by_cases h6 : std = .lpddr6
  · unfold Interface.transfer at h
    split at h
    · rename_i h0
      have e : dataBeats std sp c = if sp.toggling.isSome then sp.burstLength else 0 := by simp [dataBeats, burstBeats, h0]
      rw [e]
      have hm := hs.mode
      split at h
      · rename_i hb
        rw [hb] at hm
        cases h
        rw [if_neg]
        intro ht
        rw [(mode_toggling sp).2 ht] at hm
        cases hm
      · rename_i hb
        rw [hb] at hm
        obtain ⟨i1, _, h2⟩ := bind_ok h
        cases h2
        rw [if_pos ((mode_toggling sp).1 hm.symm)]
    · rename_i h0
      obtain ⟨⟨i1, data⟩, h1, h2⟩ := bind_ok h
      obtain ⟨db, pr, pw, e1, _, _⟩ := invertData_ok h1
      dsimp only at h2
      obtain ⟨⟨f, bytes, n⟩, h3, h4⟩ := bind_ok h2
      obtain ⟨i2, h5, h6'⟩ := bind_ok h4
      cases h6'
      have k := loadData_keeps h5
      have w : i'.width = sp.bitWidth * sp.devices := by
        rw [k.2, ← hs.width, e1]; rfl
      rw [w, (formatData_size h3).1]
      unfold dataBeats
      rw [if_pos ⟨h6, h0⟩]
  · rw [key h6]
    unfold dataBeats burstBeats
    rw [if_neg (show ¬ (std = .lpddr6 ∧ c.nBits ≠ 0) from fun h => h6 h.1), hs.width]
    by_cases h0 : c.nBits = 0
    · rw [if_pos h0, if_pos h0, hs.mode]
      by_cases ht : sp.mode = .toggling
      · rw [if_pos ht, if_pos ((mode_toggling sp).1 ht)]
      · rw [if_neg ht, if_neg fun h => ht ((mode_toggling sp).2 h)]
    · rw [if_neg h0, if_neg h0]

theorem loadWord_keeps {M : Nat} {b b' : Bus M} {t x n : Nat} (h : b.loadWord t x n = .ok b') :
    b'.width = b.width ∧ b'.datarate = b.datarate ∧ b'.enabled = b.enabled ∧ b'.idleWord = b.idleWord ∧ b'.idleStats = b.idleStats := by
  unfold Bus.loadWord at h
  dsimp only at h
  split at h
  · cases h
  · exact bus_load_keeps h

theorem init_shaped {i : Interface std N} (h : Interface.init std N sp = .ok i) : Shaped sp i := by
  obtain ⟨h1, h2, _⟩ := init_ok h
  refine ⟨h2, h1, ?_⟩
  unfold Interface.init at h
  obtain ⟨b, hb, h⟩ := bind_ok h
  obtain ⟨d, _, h⟩ := bind_ok h
  obtain ⟨k, _, h⟩ := bind_ok h
  split at h
  · cases h
  cases h
  unfold Bus.init at hb
  split at hb
  · cases hb
  · cases hb; rfl

/-! ## Clocks and strobes -/

/-- The calls a burst makes on a strobe. -/
def strobeCalls (rate : Nat) (b : Nat × Nat) : List ClockOp := [.start b.1, .stop (b.1 + b.2 / rate)]

/-- The calls that switch a gated clock, which is running or not, and whether it is running afterwards. -/
def gateCall (on : Bool) : IfOp → List ClockOp × Bool
  | .enable t => (if on then [] else [.start t], true)
  | .disable t => (if on then [.stop t] else [], false)
  | _ => ([], on)

/-- The same for a trace. -/
def gateCalls : Bool → List IfOp → List ClockOp
  | _, [] => []
  | on, op :: ops => (gateCall on op).1 ++ gateCalls (gateCall on op).2 ops

theorem Clock.run_append (k : Clock) (a b : List ClockOp) : k.run (a ++ b) = (k.run a >>= fun k => k.run b) := by
  induction a generalizing k with
  | nil => rfl
  | cons op a ih =>
    cases op with
    | start t =>
      show (k.start t >>= fun k => k.run (a ++ b)) = ((k.start t >>= fun k => k.run a) >>= _)
      cases k.start t with
      | ok k' => exact ih k'
      | error e => rfl
    | stop t =>
      show (k.stop t >>= fun k => k.run (a ++ b)) = ((k.stop t >>= fun k => k.run a) >>= _)
      cases k.stop t with
      | ok k' => exact ih k'
      | error e => rfl

theorem strobe_run (k : Clock) (t s : Nat) : k.run [.start t, .stop s] = k.strobe t s := by
  show (k.start t >>= fun k => k.stop s >>= fun k => Except.ok k) = (k.start t >>= fun k => k.stop s)
  cases k.start t with
  | error e => rfl
  | ok k' =>
    show (k'.stop s >>= fun k => Except.ok k) = k'.stop s
    cases k'.stop s <;> rfl

/-- Standards with a data clock. -/
def mobile (std : Std) : Prop := std = .lpddr5 ∨ std = .lpddr6

instance : Decidable (mobile std) := inferInstanceAs (Decidable (_ ∨ _))

/-- What a step does to clocks and strobes. -/
structure ClockStep (sp : IfSpec) (i : Interface std N) (op : IfOp) (i' : Interface std N) : Prop where
  shaped : Shaped sp i'
  enabled : i'.enabled = (gateCall i.enabled op).2
  clock : i.clock.run (gateCall i.enabled op).1 = .ok i'.clock
  read : i.readDQS.run ((burstOf std sp true op).toList.flatMap (strobeCalls sp.dataRate)) = .ok i'.readDQS
  write : ¬ mobile std → i.writeDQS.run ((burstOf std sp false op).toList.flatMap (strobeCalls sp.dataRate)) = .ok i'.writeDQS
  wckOn : mobile std → sp.wckAlwaysOn = true → i.wck.run (gateCall i.enabled op).1 = .ok i'.wck
  wckBurst : mobile std → sp.wckAlwaysOn = false →
    i.wck.run ((anyBurstOf std sp op).toList.flatMap (strobeCalls sp.dataRate)) = .ok i'.wck

theorem handleCommandBus_shaped (hs : Shaped sp i) (h : i.handleCommandBus sp c = .ok i') :
    ∃ a a6 b, i' = { i with ca := a, ca6 := a6, cmdBus := b } ∧ b.width = caWidth std := by
  obtain ⟨i1, w, n, b, _, h2, e⟩ := handleCommandBus_ok h
  exact ⟨_, _, b, e, (loadWord_keeps h2).1.trans hs.ca⟩

theorem handleData_clocks (hs : Shaped sp i) {read : Bool} (h : i.handleData sp c read = .ok i') :
    Shaped sp i' ∧ i'.enabled = i.enabled ∧ i'.clock = i.clock ∧
    (read = true → i.readDQS.strobe c.t (c.t + dataBeats std sp c / sp.dataRate) = .ok i'.readDQS) ∧
    (read = false → i'.readDQS = i.readDQS) ∧
    (read = true → i'.writeDQS = i.writeDQS) ∧
    (read = false → ¬ mobile std → i.writeDQS.strobe c.t (c.t + dataBeats std sp c / sp.dataRate) = .ok i'.writeDQS) ∧
    (mobile std → sp.wckAlwaysOn = false → i.wck.strobe c.t (c.t + dataBeats std sp c / sp.dataRate) = .ok i'.wck) ∧
    (sp.wckAlwaysOn = true → i'.wck = i.wck) := by
  obtain ⟨i1, len, i2, i3, i4, h1, h2, h3, h4, h5⟩ := handleData_ok h
  obtain ⟨⟨d, db, pr, pw, f, e1, _, _⟩, m1, w1, _⟩ := transfer_ok h1
  have hl := transfer_beats hs h1
  subst hl
  have hs1 : Shaped sp i1 := ⟨w1.trans hs.width, m1.trans hs.mode, by rw [e1]; exact hs.ca⟩
  have q1 : i1.readDQS = i.readDQS ∧ i1.writeDQS = i.writeDQS ∧ i1.wck = i.wck ∧ i1.clock = i.clock ∧ i1.enabled = i.enabled := by
    rw [e1]; exact ⟨rfl, rfl, rfl, rfl, rfl⟩
  obtain ⟨r2, wd2, e2⟩ := dqs_ok h2
  have hs2 : Shaped sp i2 := by rw [e2]; exact ⟨hs1.width, hs1.mode, hs1.ca⟩
  have q2 : i2.wck = i.wck ∧ i2.clock = i.clock ∧ i2.enabled = i.enabled := by rw [e2]; exact q1.2.2
  obtain ⟨wk, e3⟩ := runWck_ok h3
  have hs3 : Shaped sp i3 := by rw [e3]; exact ⟨hs2.width, hs2.mode, hs2.ca⟩
  have q3 : i3.readDQS = i2.readDQS ∧ i3.writeDQS = i2.writeDQS ∧ i3.clock = i.clock ∧ i3.enabled = i.enabled := by
    rw [e3]; exact ⟨rfl, rfl, q2.2⟩
  obtain ⟨a, a6, eo⟩ := overrides_eq i3 (dataBeats std sp c) read
  have hso : Shaped sp (i3.overrides (dataBeats std sp c) read) := by rw [eo]; exact ⟨hs3.width, hs3.mode, hs3.ca⟩
  obtain ⟨a', a6', b, e4, wb⟩ := handleCommandBus_shaped hso h4
  have hs4 : Shaped sp i4 := by rw [e4]; exact ⟨hso.width, hso.mode, wb⟩
  have q4 : i4.readDQS = i2.readDQS ∧ i4.writeDQS = i2.writeDQS ∧ i4.wck = i3.wck ∧ i4.clock = i.clock ∧ i4.enabled = i.enabled := by
    rw [e4, eo]; exact ⟨q3.1, q3.2.1, rfl, q3.2.2⟩
  have q5 : Shaped sp i' ∧ i'.readDQS = i2.readDQS ∧ i'.writeDQS = i2.writeDQS ∧ i'.wck = i3.wck ∧ i'.clock = i.clock ∧
      i'.enabled = i.enabled := by
    rcases prePostamble_ok h5 with ⟨_, e⟩ | ⟨_, r, r', _, _, e⟩
    · rw [e]; exact ⟨hs4, q4⟩
    · rw [e]; exact ⟨⟨hs4.width, hs4.mode, hs4.ca⟩, q4⟩
  obtain ⟨p1, p2, p3, p4, p5, p6⟩ := q5
  refine ⟨p1, p6, p5, ?_, ?_, ?_, ?_, ?_, ?_⟩
  · intro hr
    subst hr
    unfold Interface.dqs at h2
    rw [if_pos rfl] at h2
    obtain ⟨k, hk, h2⟩ := bind_ok h2
    rw [q1.1] at hk
    rw [hk, p2, ← pure_ok h2]
  · intro hr
    subst hr
    unfold Interface.dqs at h2
    rw [if_neg (by simp)] at h2
    split at h2
    · rw [p2, ← ok_inj h2]; exact q1.1
    · obtain ⟨k, hk, h2⟩ := bind_ok h2
      rw [p2, ← pure_ok h2]; exact q1.1
  · intro hr
    subst hr
    unfold Interface.dqs at h2
    rw [if_pos rfl] at h2
    obtain ⟨k, hk, h2⟩ := bind_ok h2
    rw [p3, ← pure_ok h2]; exact q1.2.1
  · intro hr hm
    subst hr
    unfold Interface.dqs at h2
    rw [if_neg (by simp), if_neg (show ¬ (std = .lpddr5 ∨ std = .lpddr6) from hm)] at h2
    obtain ⟨k, hk, h2⟩ := bind_ok h2
    rw [q1.2.1] at hk
    rw [hk, p3, ← pure_ok h2]
  · intro hm ho
    unfold Interface.runWck at h3
    rw [if_pos ⟨hm, ho⟩] at h3
    obtain ⟨k, hk, h3⟩ := bind_ok h3
    rw [q2.1] at hk
    rw [hk, p4, ← pure_ok h3]
  · intro ho
    unfold Interface.runWck at h3
    rw [if_neg (by simp [ho])] at h3
    rw [p4, ← ok_inj h3]; exact q2.1

theorem ClockStep.still {op : IfOp} (hs : Shaped sp i') (h1 : i'.enabled = i.enabled) (h2 : i'.clock = i.clock)
    (h3 : i'.readDQS = i.readDQS) (h4 : i'.writeDQS = i.writeDQS) (h5 : i'.wck = i.wck) (hg : gateCall i.enabled op = ([], i.enabled))
    (hb : anyBurstOf std sp op = none) : ClockStep sp i op i' := by
  have hr : ∀ r, burstOf std sp r op = none := by
    intro r
    cases op with
    | cmd c =>
      unfold burstOf
      unfold anyBurstOf at hb
      dsimp only at hb ⊢
      split at hb
      · cases hb
      · rename_i hd
        rw [if_neg]
        intro e
        rw [e] at hd
        simp at hd
    | _ => rfl
  exact ⟨hs, by rw [hg, h1], by rw [hg, h2]; rfl, by rw [hr, h3]; rfl, fun _ => by rw [hr, h4]; rfl,
    fun _ _ => by rw [hg, h5]; rfl, fun _ _ => by rw [hb, h5]; rfl⟩

theorem enable_ok {t : Nat} (he : i.enabled = false) (h : i.enable sp t = .ok i') :
    ∃ w k, (if sp.wckAlwaysOn then i.wck.start t else pure i.wck) = .ok w ∧ i.clock.start t = .ok k ∧
      i' = { i with wck := w, clock := k, last := t, enabled := true } := by
  unfold Interface.enable at h
  rw [he] at h
  cases ho : sp.wckAlwaysOn with
  | true =>
    simp only [ho, if_true, Bool.false_eq_true, Bool.true_eq_false, if_false] at h
    obtain ⟨w, h1, h⟩ := bind_ok h
    obtain ⟨k, h2, h⟩ := bind_ok h
    exact ⟨w, k, h1, h2, (pure_ok h).symm⟩
  | false =>
    simp only [ho, Bool.false_eq_true, Bool.true_eq_false, if_false] at h
    obtain ⟨w, h1, h⟩ := bind_ok h
    obtain ⟨k, h2, h⟩ := bind_ok h
    exact ⟨w, k, h1, h2, (pure_ok h).symm⟩

theorem disable_ok {t : Nat} (he : i.enabled = true) (h : i.disable sp t = .ok i') :
    ∃ w k, (if sp.wckAlwaysOn then i.wck.stop t else pure i.wck) = .ok w ∧ i.clock.stop t = .ok k ∧
      i' = { i with wck := w, clock := k, last := t, enabled := false } := by
  unfold Interface.disable at h
  rw [he] at h
  cases ho : sp.wckAlwaysOn with
  | true =>
    simp only [ho, if_true, Bool.false_eq_true, Bool.true_eq_false, if_false] at h
    obtain ⟨w, h1, h⟩ := bind_ok h
    obtain ⟨k, h2, h⟩ := bind_ok h
    exact ⟨w, k, h1, h2, (pure_ok h).symm⟩
  | false =>
    simp only [ho, Bool.false_eq_true, Bool.true_eq_false, if_false] at h
    obtain ⟨w, h1, h⟩ := bind_ok h
    obtain ⟨k, h2, h⟩ := bind_ok h
    exact ⟨w, k, h1, h2, (pure_ok h).symm⟩

theorem step_clocks (hs : Shaped sp i) {op : IfOp} (h : i.step sp op = .ok i') : ClockStep sp i op i' := by
  cases op with
  | cmd c =>
    obtain ⟨i1, h1, e⟩ := ifCommand_ok h
    have none_of : (∀ read, ifAction sp.arch std c.type ≠ .data read) → ifAction sp.arch std c.type ≠ .invalid →
        anyBurstOf std sp (.cmd c) = none := by
      intro a b
      unfold anyBurstOf
      dsimp only
      rw [direction_other a b]
      simp
    cases ha : ifAction sp.arch std c.type with
    | bus =>
      rw [ha] at h1
      obtain ⟨a, a6, b, e1, wb⟩ := handleCommandBus_shaped hs h1
      subst e; subst e1
      exact .still ⟨hs.width, hs.mode, wb⟩ rfl rfl rfl rfl rfl rfl (none_of (by simp [ha]) (by simp [ha]))
    | data read =>
      rw [ha] at h1
      have hd := direction_data ha
      obtain ⟨k1, k2, k3, k4, k5, k6, k7, k8, k9⟩ := handleData_clocks hs h1
      have hany : anyBurstOf std sp (.cmd c) = some (c.t, dataBeats std sp c) := by
        unfold anyBurstOf; dsimp only; rw [hd]; simp
      have hb : ∀ r, burstOf std sp r (.cmd c) = if read = r then some (c.t, dataBeats std sp c) else none := by
        intro r; unfold burstOf; dsimp only; rw [hd]; simp
      subst e
      refine ⟨⟨k1.width, k1.mode, k1.ca⟩, k2, by rw [show (gateCall i.enabled (.cmd c)).1 = [] from rfl, ← k3]; rfl, ?_, ?_, ?_, ?_⟩
      · rw [hb]
        cases read with
        | true =>
          rw [if_pos rfl]
          exact (strobe_run _ _ _).trans (k4 rfl)
        | false =>
          rw [if_neg (by simp), ← k5 rfl]; rfl
      · intro hm
        rw [hb]
        cases read with
        | false =>
          rw [if_pos rfl]
          exact (strobe_run _ _ _).trans (k7 rfl hm)
        | true =>
          rw [if_neg (by simp), ← k6 rfl]; rfl
      · intro _ ho
        rw [show (gateCall i.enabled (.cmd c)).1 = [] from rfl, ← k9 ho]; rfl
      · intro hm ho
        rw [hany]
        exact (strobe_run _ _ _).trans (k8 hm ho)
    | finish =>
      rw [ha] at h1
      obtain ⟨d, pr, pw, e1, _, _⟩ := endOfSimulation_ok h1
      subst e; subst e1
      exact .still ⟨hs.width, hs.mode, hs.ca⟩ rfl rfl rfl rfl rfl rfl (none_of (by simp [ha]) (by simp [ha]))
    | skip =>
      rw [ha] at h1
      cases h1
      subst e
      exact .still ⟨hs.width, hs.mode, hs.ca⟩ rfl rfl rfl rfl rfl rfl (none_of (by simp [ha]) (by simp [ha]))
    | unsupported => rw [ha] at h1; cases h1
    | invalid => rw [ha] at h1; cases h1
  | dbi e => cases h; exact .still ⟨hs.width, hs.mode, hs.ca⟩ rfl rfl rfl rfl rfl rfl rfl
  | metaData a b => cases h; exact .still ⟨hs.width, hs.mode, hs.ca⟩ rfl rfl rfl rfl rfl rfl rfl
  | parity b =>
    simp only [Interface.step, Interface.setParityCheckMode] at h
    split at h
    · cases h; exact .still ⟨hs.width, hs.mode, hs.ca⟩ rfl rfl rfl rfl rfl rfl rfl
    · cases h
  | enable t =>
    simp only [Interface.step] at h
    cases he : i.enabled with
    | true =>
      unfold Interface.enable at h
      rw [if_pos he] at h
      cases h
      exact .still hs rfl rfl rfl rfl rfl (by simp [gateCall, he]) rfl
    | false =>
      obtain ⟨w, k, h1, h2, e⟩ := enable_ok he h
      subst e
      have hg : gateCall i.enabled (.enable t) = ([.start t], true) := by simp [gateCall, he]
      have run1 : ∀ {k k' : Clock}, k.start t = .ok k' → k.run [.start t] = .ok k' := by
        intro k k' hk; show (k.start t >>= fun k => Except.ok k) = _; rw [hk]; rfl
      refine ⟨⟨hs.width, hs.mode, hs.ca⟩, by rw [hg], by rw [hg]; exact run1 h2, rfl, fun _ => rfl, fun _ ho => ?_, fun _ ho => ?_⟩
      · rw [if_pos ho] at h1; rw [hg]; exact run1 h1
      · rw [if_neg (by simp [ho])] at h1; cases h1; rfl
  | disable t =>
    simp only [Interface.step] at h
    cases he : i.enabled with
    | false =>
      unfold Interface.disable at h
      rw [if_pos he] at h
      cases h
      exact .still hs rfl rfl rfl rfl rfl (by simp [gateCall, he]) rfl
    | true =>
      obtain ⟨w, k, h1, h2, e⟩ := disable_ok he h
      subst e
      have hg : gateCall i.enabled (.disable t) = ([.stop t], false) := by simp [gateCall, he]
      have run1 : ∀ {k k' : Clock}, k.stop t = .ok k' → k.run [.stop t] = .ok k' := by
        intro k k' hk; show (k.stop t >>= fun k => Except.ok k) = _; rw [hk]; rfl
      refine ⟨⟨hs.width, hs.mode, hs.ca⟩, by rw [hg], by rw [hg]; exact run1 h2, rfl, fun _ => rfl, fun _ ho => ?_, fun _ ho => ?_⟩
      · rw [if_pos ho] at h1; rw [hg]; exact run1 h1
      · rw [if_neg (by simp [ho])] at h1; cases h1; rfl

/-- What a trace does to clocks and strobes. -/
structure ClockRun (sp : IfSpec) (i : Interface std N) (ops : List IfOp) (i' : Interface std N) : Prop where
  shaped : Shaped sp i'
  clock : i.clock.run (gateCalls i.enabled ops) = .ok i'.clock
  read : i.readDQS.run ((bursts std sp true ops).flatMap (strobeCalls sp.dataRate)) = .ok i'.readDQS
  write : ¬ mobile std → i.writeDQS.run ((bursts std sp false ops).flatMap (strobeCalls sp.dataRate)) = .ok i'.writeDQS
  wckOn : mobile std → sp.wckAlwaysOn = true → i.wck.run (gateCalls i.enabled ops) = .ok i'.wck
  wckBurst : mobile std → sp.wckAlwaysOn = false →
    i.wck.run ((anyBursts std sp ops).flatMap (strobeCalls sp.dataRate)) = .ok i'.wck

theorem filterMap_cons_flatMap {α β γ : Type} (f : α → Option β) (g : β → List γ) (a : α) (l : List α) :
    ((a :: l).filterMap f).flatMap g = (f a).toList.flatMap g ++ (l.filterMap f).flatMap g := by
  cases h : f a with
  | none => simp [h]
  | some b => simp [h]

theorem run_clocks : ∀ (ops : List IfOp) {i i' : Interface std N}, Shaped sp i → i.run sp ops = .ok i' → ClockRun sp i ops i'
  | [], i, i', hs, h => by
    cases h
    exact ⟨hs, rfl, rfl, fun _ => rfl, fun _ _ => rfl, fun _ _ => rfl⟩
  | op :: ops, i, i', hs, h => by
    obtain ⟨j, h1, h2⟩ := Interface.run_cons h
    have k := step_clocks hs h1
    have r := run_clocks ops k.shaped h2
    refine ⟨r.shaped, ?_, ?_, fun hm => ?_, fun hm ho => ?_, fun hm ho => ?_⟩
    · rw [gateCalls, Clock.run_append, k.clock, ← k.enabled]; exact r.clock
    · unfold bursts; rw [filterMap_cons_flatMap, Clock.run_append, k.read]; exact r.read
    · unfold bursts; rw [filterMap_cons_flatMap, Clock.run_append, k.write hm]; exact r.write hm
    · rw [gateCalls, Clock.run_append, k.wckOn hm ho, ← k.enabled]; exact r.wckOn hm ho
    · unfold anyBursts; rw [filterMap_cons_flatMap, Clock.run_append, k.wckBurst hm ho]; exact r.wckBurst hm ho

/-- The parts of the statistics. -/
theorem windowStats_ok {t : Nat} {s s' : SimStats} (h : i.getWindowStats sp t s = .ok s') :
    i.cmdBus.getStats t = .ok s'.commandBus ∧
    (∃ d, i.dataBus.getStats t = .ok d ∧ s'.readBus = s.readBus + d.busRead ∧ s'.writeBus = s.writeBus + d.busWrite ∧
      s'.togglingRead = s.togglingRead + d.togglingRead ∧ s'.togglingWrite = s.togglingWrite + d.togglingWrite) ∧
    Interface.pinStats i.pinsRead t s.readDBI = .ok s'.readDBI ∧ Interface.pinStats i.pinsWrite t s.writeDBI = .ok s'.writeDBI ∧
    s'.clockStats = 2 * i.clock.getStats t ∧ (mobile std → s'.wClockStats = 2 * i.wck.getStats t) ∧
    s'.readDQSStats = Interface.strobeWires std sp * i.readDQS.getStats t ∧
    (¬ mobile std → s'.writeDQSStats = Interface.strobeWires std sp * i.writeDQS.getStats t) := by
  unfold Interface.getWindowStats at h
  obtain ⟨cb, h1, h⟩ := bind_ok h
  obtain ⟨d, h2, h⟩ := bind_ok h
  obtain ⟨rd, h3, h⟩ := bind_ok h
  obtain ⟨wr, h4, h⟩ := bind_ok h
  have e := pure_ok h
  subst e
  refine ⟨h1, ⟨d, h2, rfl, rfl, rfl, rfl⟩, h3, h4, rfl, fun hm => ?_, rfl, fun hm => ?_⟩
  · exact if_pos (decide_eq_true (show std = .lpddr5 ∨ std = .lpddr6 from hm))
  · exact if_neg (by simpa [mobile] using hm)

theorem init_parts {i : Interface std N} (h : Interface.init std N sp = .ok i) :
    0 < sp.dataRate ∧ 0 < sp.bitWidth * sp.devices ∧
    Bus.init (caWidth std) (caWidth std) (caRate std) (caIdle std) = .ok i.cmdBus ∧
    DataBus.init N (sp.dataConfig std) sp.mode = .ok i.dataBus ∧
    i.readDQS = Clock.init (sp.strobeRate std) true ∧ i.writeDQS = Clock.init (sp.strobeRate std) true ∧
    i.wck = Clock.init sp.wckRate (!(std != .lpddr6 || sp.enabled) || !sp.wckAlwaysOn) ∧
    i.clock = Clock.init 2 (!(std != .lpddr6 || sp.enabled)) ∧ i.enabled = sp.enabled ∧ i.ca = caInit std ∧
    i.ca6 = { extra := { numberOfBankGroups := sp.bankGroups } } ∧ (mobile std → sp.wckToCk ≠ 0) ∧
    i.pinsRead = sp.pins std ∧ i.pinsWrite = sp.pins std ∧ i.formatter = {} ∧ Interface.initDbi std sp = .ok i.dbi := by
  unfold Interface.init at h
  obtain ⟨b, hb, h⟩ := bind_ok h
  obtain ⟨d, hd, h⟩ := bind_ok h
  obtain ⟨k, hk, h⟩ := bind_ok h
  split at h
  · cases h
  rename_i hw
  have e := pure_ok h
  subst e
  have hd' := hd
  unfold DataBus.init at hd'
  obtain ⟨ir, _, hd'⟩ := bind_ok hd'
  obtain ⟨br, _, hd'⟩ := bind_ok hd'
  obtain ⟨iw, _, hd'⟩ := bind_ok hd'
  obtain ⟨bw, _, hd'⟩ := bind_ok hd'
  obtain ⟨tr, ht, hd'⟩ := bind_ok hd'
  have hpos : 0 < sp.dataRate ∧ 0 < sp.bitWidth * sp.devices := by
    unfold Toggling.init at ht
    repeat' split at ht
    all_goals first | cases ht; done | skip
    all_goals simp only [IfSpec.dataConfig] at *
    all_goals omega
  exact ⟨hpos.1, hpos.2, hb, hd, rfl, rfl, rfl, rfl, rfl, rfl, rfl, fun hm h0 => hw ⟨hm, h0⟩, rfl, rfl, rfl, hk⟩

end DRAMPower
