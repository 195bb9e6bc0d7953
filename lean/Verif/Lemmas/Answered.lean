import Verif.Spec.Answered
import Verif.Lemmas.AdmissibleInverted
import Verif.Props.C52

/-!
# The components answer queries that are not about their past
-/

namespace DRAMPower
open Spec

/-! ## Busses -/

/-- No transfer of the bus begins after clock cycle `T`, and the stored transfer is the last one. -/
structure BusBy {N : Nat} (b : Bus N) (T : Nat) : Prop where
  load : b.lastLoad ≤ T * b.datarate
  stored : b.storage.endTime = 0 ∨ b.lastLoad < b.storage.endTime

theorem BusBy.answers {N T : Nat} {b : Bus N} (h : BusBy b T) : ∃ s, b.getStats T = .ok s := by
  unfold Bus.getStats
  dsimp only
  rw [if_neg (by have := h.load; omega)]
  split
  · exact ⟨_, rfl⟩
  split
  · generalize (if b.pending.pending = true ∧ b.pending.timestamp < T * b.datarate then b.stats + b.pending.stats else b.stats) = x
    unfold Bus.advance
    by_cases hc : b.storage.endTime < T * b.datarate ∧ 0 < b.storage.endTime
    · have := h.stored
      have h1 : b.at? (b.storage.endTime - 1) = .ok (b.word (b.storage.endTime - 1)) := if_neg (by omega)
      have h2 : b.at? b.storage.endTime = .ok (b.word b.storage.endTime) := if_neg (by omega)
      simp only [if_pos hc, h1, h2, if_pos hc.1, bind, Except.bind, pure, Except.pure]
      exact ⟨_, rfl⟩
    · simp only [if_neg hc, bind, Except.bind, pure, Except.pure]
      split <;> exact ⟨_, rfl⟩
  · exact ⟨_, rfl⟩

theorem BusBy.init {N w dr T : Nat} {pat : IdlePattern} {en : Bool} {b : Bus N} (h : Bus.init N w dr pat en = .ok b) : BusBy b T := by
  unfold Bus.init at h
  split at h
  · cases h
  · rw [← ok_inj h]
    exact ⟨Nat.zero_le _, .inl rfl⟩

theorem BusBy.loads {N T t n : Nat} {b b' : Bus N} {data : List UInt8} (h : BusBy b T) (ht : t ≤ T) (hn : 0 < n / b.width)
    (hl : b.load t data n = .ok b') : BusBy b' T := by
  unfold Bus.load at hl
  split at hl
  · cases hl; exact h
  split at hl
  · cases hl
  dsimp only at hl
  split at hl
  · cases hl
  obtain ⟨b1, h1, hl⟩ := bind_ok hl
  have hdr : b1.datarate = b.datarate ∧ b1.width = b.width := by
    unfold Bus.addPrevious at h1
    split at h1
    · cases h1
    dsimp only at h1
    obtain ⟨s, _, h1⟩ := bind_ok h1
    split at h1
    · obtain ⟨p, _, h1⟩ := bind_ok h1
      rw [← pure_ok h1]
      dsimp only
      split <;> exact ⟨rfl, rfl⟩
    · rw [← pure_ok h1]
      dsimp only
      split <;> exact ⟨rfl, rfl⟩
  unfold Bus.addData at hl
  obtain ⟨d, hd, hl⟩ := bind_ok hl
  obtain ⟨p, _, hl⟩ := bind_ok hl
  dsimp only at hl hd
  have htime : d.loadTime = t * b.datarate ∧ d.count = n / b.width := by
    unfold BusContainer.insertData at hd
    split at hd
    · cases hd
    dsimp only at hd
    split at hd
    · cases hd
    split at hd
    · cases hd
    rw [← ok_inj hd, hdr.2]
    exact ⟨rfl, rfl⟩
  have key : t * b.datarate ≤ T * b1.datarate := by rw [hdr.1]; exact Nat.mul_le_mul_right _ ht
  split at hl
  · rename_i hc
    rw [← pure_ok hl]
    exact ⟨key, .inr (by simp only [BusContainer.endTime, htime.1, htime.2]; omega)⟩
  · rename_i hc; exact absurd (by rw [htime.2]; omega) hc

/-! ## Data bus -/

/-- No transfer of the data bus begins after clock cycle `T`. -/
structure DataBy {N : Nat} (d : DataBus N) (w T : Nat) : Prop where
  read : BusBy d.busRead T
  write : BusBy d.busWrite T
  readWidth : d.busRead.width = w
  writeWidth : d.busWrite.width = w
  readIdle : d.togglingRead.idle ≠ .invalid
  writeIdle : d.togglingWrite.idle ≠ .invalid

theorem toggling_answers {h : Toggling} (hi : h.idle ≠ .invalid) (t : Nat) : ∃ s, h.getStats t = .ok s := by
  unfold Toggling.getStats
  dsimp only
  split
  · rename_i e; exact absurd e hi
  · exact ⟨_, rfl⟩
  · exact ⟨_, rfl⟩

theorem DataBy.answers {N w T : Nat} {d : DataBus N} (h : DataBy d w T) : ∃ s, d.getStats T = .ok s := by
  obtain ⟨a, ha⟩ := h.read.answers
  obtain ⟨b, hb⟩ := h.write.answers
  obtain ⟨x, hx⟩ := toggling_answers h.readIdle T
  obtain ⟨y, hy⟩ := toggling_answers h.writeIdle T
  refine ⟨⟨a, b, x, y⟩, ?_⟩
  unfold DataBus.getStats
  rw [bind_of_ok ha, bind_of_ok hb, bind_of_ok hx, bind_of_ok hy]
  rfl

theorem incBits_idle {h h' : Toggling} {t n : Nat} (e : h.incBits t n = .ok h') : h'.idle = h.idle := by
  unfold Toggling.incBits at e
  split at e
  · cases e
  split at e
  · cases e
  unfold Toggling.incBurst at e
  dsimp only at e
  split at e
  · cases e
  split at e <;> (rw [← ok_inj e])

theorem DataBy.loads {N w T t n : Nat} {d d' : DataBus N} {read : Bool} {x : Option (List UInt8)} (h : DataBy d w T) (ht : t ≤ T)
    (hn : d.mode = .bus → 0 < n / w) (hl : d.run [dataOp read t n x] = .ok d') : DataBy d' w T := by
  unfold DataBus.run at hl
  split at hl
  · rename_i d1 h1
    cases ok_inj hl
    cases read with
    | true =>
      simp only [dataOp, if_true, DataBus.step, DataBus.loadRead] at h1
      split at h1
      · rename_i hm
        split at h1
        · cases h1; exact h
        split at h1
        · cases h1; exact h
        obtain ⟨b, hb, h1⟩ := bind_ok h1
        rw [← pure_ok h1]
        exact ⟨h.read.loads ht (by rw [h.readWidth]; exact hn hm) hb, h.write, (bus_load_keeps hb).1.trans h.readWidth, h.writeWidth, h.readIdle, h.writeIdle⟩
      · obtain ⟨b, hb, h1⟩ := bind_ok h1
        rw [← pure_ok h1]
        exact ⟨h.read, h.write, h.readWidth, h.writeWidth, by rw [incBits_idle hb]; exact h.readIdle, h.writeIdle⟩
    | false =>
      simp only [dataOp, Bool.false_eq_true, if_false, DataBus.step, DataBus.loadWrite] at h1
      split at h1
      · rename_i hm
        split at h1
        · cases h1; exact h
        split at h1
        · cases h1; exact h
        obtain ⟨b, hb, h1⟩ := bind_ok h1
        rw [← pure_ok h1]
        exact ⟨h.read, h.write.loads ht (by rw [h.writeWidth]; exact hn hm) hb, h.readWidth, (bus_load_keeps hb).1.trans h.writeWidth, h.readIdle, h.writeIdle⟩
      · obtain ⟨b, hb, h1⟩ := bind_ok h1
        rw [← pure_ok h1]
        exact ⟨h.read, h.write, h.readWidth, h.writeWidth, h.readIdle, by rw [incBits_idle hb]; exact h.writeIdle⟩
  · cases hl

theorem DataBy.init {N T : Nat} {c : DataBusConfig} {m : DataBusMode} {d : DataBus N} (h : DataBus.init N c m = .ok d) : DataBy d c.width T := by
  obtain ⟨_, _, ir, iw, c1, c2, b1, b2, t1, t2⟩ := data_init h
  have width : ∀ {pat : IdlePattern} {b : Bus N}, Bus.init N c.width c.dataRate pat (m == .bus) = .ok b → b.width = c.width := by
    intro pat b hb
    unfold Bus.init at hb
    split at hb
    · cases hb
    · rw [← ok_inj hb]
  have idle : ∀ {x : ToggleIdle} {p : IdlePattern} {r d : Rate} {h : Toggling}, DataBus.convertIdle x = .ok p →
      Toggling.init c.width c.dataRate r d x (m == .toggling) = .ok h → h.idle ≠ .invalid := by
    intro x p r d h hc ht e
    unfold Toggling.init at ht
    split at ht
    · cases ht
    split at ht
    · cases ht
    rw [← ok_inj ht] at e
    dsimp only at e
    rw [e] at hc
    cases hc
  exact ⟨.init b1, .init b2, width b1, width b2, idle c1 t1, idle c2 t2⟩

/-! ## Interface -/

variable {std : Std} {N : Nat} {sp : IfSpec} {i i' : Interface std N} {c : ICmd} {t T : Nat}

/-- An accepted transfer that starts a strobe or a clock is longer than nothing. -/
theorem strobed_beats (hs : Shaped sp i) {read : Bool} (ha : ifAction sp.arch std c.type = .data read) (h : i.doCommand sp c = .ok i')
    (hk : read = true ∨ ¬ (std = .lpddr5 ∨ std = .lpddr6) ∨ sp.wckAlwaysOn = false) : 0 < dataBeats std sp c := by
  obtain ⟨i1, h1, e⟩ := ifCommand_ok h
  rw [ha] at h1
  obtain ⟨j1, len, j2, j3, j4, k1, k2, k3, k4, k5⟩ := handleData_ok h1
  have hlen := transfer_beats hs k1
  have strobe : ∀ {k k' : Clock}, k.strobe c.t (c.t + len / sp.dataRate) = .ok k' → 0 < dataBeats std sp c := by
    intro k k' hk
    unfold Clock.strobe at hk
    obtain ⟨x, hx, hk⟩ := bind_ok hk
    unfold Clock.start at hx
    split at hx
    · cases hx
    cases ok_inj hx
    unfold Clock.stop at hk
    dsimp only at hk
    split at hk
    · rename_i hlt
      rw [← hlen]
      apply Nat.pos_of_ne_zero
      intro e
      rw [e, Nat.zero_div] at hlt
      omega
    · cases hk
  unfold Interface.dqs at k2
  split at k2
  · obtain ⟨k, hk, _⟩ := bind_ok k2
    exact strobe hk
  rename_i hr
  split at k2
  · rename_i hm
    rcases hk with hk | hk | hk
    · exact absurd hk hr
    · exact absurd hm hk
    · unfold Interface.runWck at k3
      rw [if_pos ⟨hm, hk⟩] at k3
      obtain ⟨k, hk, _⟩ := bind_ok k3
      exact strobe hk
  · obtain ⟨k, hk, _⟩ := bind_ok k2
    exact strobe hk

theorem pattern_beats_pos {a : BankArch} {std : Std} {ty : CmdType} (h : ifAction a std ty = .bus ∨ ∃ r, ifAction a std ty = .data r)
    (he : encodable a std ty = true) : 0 < (if std = .lpddr6 then (lpddr6Patterns ty).length else (patterns a std ty).length) / caWidth std := by
  have hpos : 0 < caWidth std := by cases std <;> decide
  have hc := sent_beats h
  rcases (table_size a std ty he hc).2.1 with ⟨h6, _, e⟩ | ⟨h6, _, e⟩
  · rw [if_neg h6, e, Nat.mul_div_cancel _ hpos]; omega
  · rw [if_pos h6, e, Nat.mul_div_cancel _ hpos]; omega

theorem encoded {a : BankArch} {w : BitVec 64} {n : Nat} (ha : a = sp.arch) (h : i.encodeCommand sp c = .ok (i', w, n)) : encodable a std c.type = true := by
  subst ha
  unfold encodable
  rcases encodeCommand_ok h with ⟨h6, _, k, hk, _⟩ | ⟨h6, _, k, hk, _⟩
  · rw [if_pos h6]
    cases hp : lpddr6Patterns c.type with
    | nil =>
      unfold CaHandler6.command at hk
      split at hk
      · cases hk
      cases hk
    | cons _ _ => rfl
  · rw [if_neg h6]
    cases hp : patterns sp.arch std c.type with
    | nil =>
      unfold CaHandler.command at hk
      split at hk
      · cases hk
      cases hk
    | cons _ _ => rfl

/-- The command bus, after a command that is sent. -/
theorem BusBy.sends (hb : BusBy i.cmdBus T) (hw : i.cmdBus.width = caWidth std) (ht : c.t ≤ T)
    (ha : ifAction sp.arch std c.type = .bus ∨ ∃ r, ifAction sp.arch std c.type = .data r) (h : i.handleCommandBus sp c = .ok i') :
    BusBy i'.cmdBus T := by
  obtain ⟨i1, w, n, b, h1, h2, e⟩ := handleCommandBus_ok h
  subst e
  have hn : 0 < n / caWidth std := by
    have := pattern_beats_pos ha (encoded rfl h1)
    rcases encodeCommand_ok h1 with ⟨h6, e, _⟩ | ⟨h6, e, _⟩
    · rw [if_pos h6] at this; rw [e]; exact this
    · rw [if_neg h6] at this; rw [e]; exact this
  have hpos : 0 < caWidth std := by cases std <;> decide
  unfold Bus.loadWord at h2
  dsimp only at h2
  split at h2
  · cases h2
  · exact hb.loads ht (by rw [Nat.mul_div_cancel _ (by rw [hw]; exact hpos), hw]; exact hn) h2

/-- The busses, after any call. -/
theorem step_busses {m : Setting} (hs : Shaped sp i) (hi : Set6 m i) (hb : BusBy i.cmdBus T) (hd : DataBy i.dataBus (sp.bitWidth * sp.devices) T)
    {op : IfOp} (hop : ∀ c, op = .cmd c → c.t ≤ T)
    (hfill : (std = .lpddr5 ∨ std = .lpddr6) → sp.wckAlwaysOn = true → ∀ c, op = .cmd c → direction c.type = some false → c.nBits ≠ 0 → 0 < dataBeats std sp c)
    (h : i.step sp op = .ok i') : BusBy i'.cmdBus T ∧ DataBy i'.dataBus (sp.bitWidth * sp.devices) T := by
  refine ⟨?_, ?_⟩
  · cases op with
    | cmd c =>
      obtain ⟨i1, h1, e⟩ := ifCommand_ok h
      subst e
      show BusBy i1.cmdBus T
      cases ha : ifAction sp.arch std c.type with
      | bus => rw [ha] at h1; exact hb.sends hs.ca (hop c rfl) (.inl ha) h1
      | data read =>
        rw [ha] at h1
        obtain ⟨j1, len, j2, j3, j4, k1, k2, k3, k4, k5⟩ := handleData_ok h1
        obtain ⟨⟨d, db, pr, pw, f, e1, _, _⟩, _⟩ := transfer_ok k1
        obtain ⟨r2, w2, e2⟩ := dqs_ok k2
        obtain ⟨wk, e3⟩ := runWck_ok k3
        obtain ⟨a, a6, e4⟩ := overrides_eq j3 len read
        have e0 : (j3.overrides len read).cmdBus = i.cmdBus := by rw [e4, e3, e2, e1]
        have p := BusBy.sends (i := j3.overrides len read) (by rw [e0]; exact hb) (by rw [e0]; exact hs.ca) (hop c rfl) (.inr ⟨_, ha⟩) k4
        rcases prePostamble_ok k5 with ⟨_, e⟩ | ⟨_, r, r', _, _, e⟩ <;> rw [e] <;> exact p
      | finish =>
        rw [ha] at h1
        obtain ⟨d, pr, pw, e, _, _⟩ := endOfSimulation_ok h1
        rw [e]; exact hb
      | skip => rw [ha] at h1; cases h1; exact hb
      | unsupported => rw [ha] at h1; cases h1
      | invalid => rw [ha] at h1; cases h1
    | dbi e => cases h; exact hb
    | metaData a b => cases h; exact hb
    | parity b =>
      simp only [Interface.step, Interface.setParityCheckMode] at h
      split at h
      · cases h; exact hb
      · cases h
    | enable t =>
      simp only [Interface.step] at h
      cases he : i.enabled with
      | true =>
        unfold Interface.enable at h
        rw [if_pos he] at h
        cases h
        exact hb
      | false =>
        obtain ⟨w, k, _, _, e⟩ := enable_ok he h
        rw [e]; exact hb
    | disable t =>
      simp only [Interface.step] at h
      cases he : i.enabled with
      | false =>
        unfold Interface.disable at h
        rw [if_pos he] at h
        cases h
        exact hb
      | true =>
        obtain ⟨w, k, _, _, e⟩ := disable_ok he h
        rw [e]; exact hb
  · rcases (step_data hs hi h).sent with ⟨e, _⟩ | ⟨c, read, x, e, hdir, hrun, hcall⟩
    · rw [e]; exact hd
    · refine hd.loads (hop c e) (fun hm => ?_) hrun
      have htog := (mode_bus hs).1 hm
      have h0 : c.nBits ≠ 0 := by
        intro h0
        have := hcall.length h0
        rw [htog] at this
        cases this
      have hbeats : 0 < dataBeats std sp c := by
        subst e
        have h : i.doCommand sp c = .ok i' := h
        have hact : ifAction sp.arch std c.type = .data read := by
          have hinv : ifAction sp.arch std c.type ≠ .invalid := by
            intro e
            obtain ⟨i1, h1, _⟩ := ifCommand_ok h
            rw [e] at h1
            cases h1
          by_cases hh : ∃ r, ifAction sp.arch std c.type = .data r
          · obtain ⟨r, hr⟩ := hh
            have := direction_data hr
            rw [hdir] at this
            rw [hr, Option.some.inj this]
          · have := direction_other (fun r hr => hh ⟨r, hr⟩) hinv
            rw [hdir] at this
            cases this
        by_cases hk : read = true ∨ ¬ (std = .lpddr5 ∨ std = .lpddr6) ∨ sp.wckAlwaysOn = false
        · exact strobed_beats hs hact h hk
        · have k1 : read = false := by cases read <;> simp_all
          have k3 : sp.wckAlwaysOn = true := by cases hw : sp.wckAlwaysOn <;> simp_all
          exact hfill (Decidable.byContradiction fun h => hk (.inr (.inl h))) k3 c rfl (by rw [hdir, k1]) h0
      rw [dataBeats_eq h0] at hbeats
      unfold callBits
      rw [if_neg h0]
      exact hbeats

/-! ## Inversion lines -/

/-- No level of the pins is given after beat `2 * T`, and the stored levels are the last ones. -/
def PinsBy (i : Interface std N) (T : Nat) : Prop := ∀ r, ∀ p ∈ i.pinsOf r, p.storage.loadTime = p.lastSet ∧ p.lastSet ≤ 2 * T

theorem pin_answers {P : Nat} {p : Pin P} (h : p.storage.loadTime = p.lastSet) (ht : p.lastSet ≤ 2 * T) : ∃ s, p.getStats T 2 = .ok s := by
  unfold Pin.getStats
  dsimp only
  rw [if_neg (by omega)]
  split
  · exact ⟨_, rfl⟩
  · exact pin_count_ok h _ _ _

theorem pins_answer {P : Nat} : ∀ (pins : List (Pin P)) (s : BusStats), (∀ p ∈ pins, p.storage.loadTime = p.lastSet ∧ p.lastSet ≤ 2 * T) →
    ∃ x, Interface.pinStats pins T s = .ok x
  | [], s, _ => ⟨s, rfl⟩
  | p :: pins, s, h => by
    obtain ⟨y, hy⟩ := pin_answers (h p (by simp)).1 (h p (by simp)).2
    obtain ⟨x, hx⟩ := pins_answer pins (s + y) fun q hq => h q (by simp [hq])
    refine ⟨x, ?_⟩
    unfold Interface.pinStats
    rw [List.foldlM_cons, bind_of_ok (show (p.getStats T 2 >>= fun x => pure (s + x)) = .ok (s + y) by rw [bind_of_ok hy]; rfl)]
    exact hx

theorem pin_set_at {P : Nat} {p p' : Pin P} {st : PinState} (h : p.set t st 1 = .ok p') :
    p'.storage.loadTime = p'.lastSet ∧ p'.lastSet = t := by
  unfold Pin.set at h
  obtain ⟨s, hs, h⟩ := bind_ok h
  dsimp only at h
  obtain ⟨d, hd, h⟩ := bind_ok h
  have e := pure_ok h
  have push : ∀ {d0 : BitsetContainer P}, d0.pushBack (t * 1) (st == .H) = .ok d → d.loadTime = t := by
    intro d0 hd
    rw [Nat.mul_one] at hd
    unfold BitsetContainer.pushBack at hd
    dsimp only at hd
    split at hd <;> split at hd <;> first | cases hd; done | skip
    · rw [← Except.ok.inj hd]
    · rename_i h1 _
      rw [← Except.ok.inj hd]
      dsimp only
      omega
  have := push hd
  rw [← e]
  split <;> exact ⟨by dsimp only; omega, by dsimp only; omega⟩

theorem pinChange_by {e : DbiEvent} (hp : PinsBy i T) (he : e.load ≤ 2 * T) (h : i.pinChange e = .ok i') : PinsBy i' T := by
  unfold Interface.pinChange at h
  split at h
  · cases h
  rename_i p hget
  obtain ⟨q, hq, h⟩ := bind_ok h
  have hmem := List.mem_of_getElem? hget
  have hset : ∀ r, p ∈ i.pinsOf r → q.storage.loadTime = q.lastSet ∧ q.lastSet ≤ 2 * T := by
    intro r hr
    obtain ⟨a, b⟩ := pin_set_at hq
    exact ⟨a, by rw [b]; exact he⟩
  intro r x hx
  split at h
  · rename_i hr
    rw [if_pos hr] at hmem
    rw [← pure_ok h] at hx
    cases r with
    | true =>
      rcases List.mem_or_eq_of_mem_set hx with hx | hx
      · exact hp true x hx
      · rw [hx]; exact hset true hmem
    | false => exact hp false x hx
  · rename_i hr
    rw [if_neg hr] at hmem
    rw [← pure_ok h] at hx
    cases r with
    | true => exact hp true x hx
    | false =>
      rcases List.mem_or_eq_of_mem_set hx with hx | hx
      · exact hp false x hx
      · rw [hx]; exact hset false hmem

theorem pinChanges_by : ∀ {es : List DbiEvent} {i i' : Interface std N}, PinsBy i T → (∀ e ∈ es, e.load ≤ 2 * T) →
    es.foldlM Interface.pinChange i = .ok i' → PinsBy i' T
  | [], _, _, hp, _, h => by rw [← pure_ok h]; exact hp
  | e :: es, i, i', hp, he, h => by
    rw [List.foldlM_cons] at h
    obtain ⟨i1, h1, h2⟩ := bind_ok h
    exact pinChanges_by (pinChange_by hp (he e (by simp)) h1) (fun x hx => he x (by simp [hx])) h2

theorem PinsBy.same (h : PinsBy i T) (h1 : i'.pinsRead = i.pinsRead) (h2 : i'.pinsWrite = i.pinsWrite) : PinsBy i' T := by
  intro r p hp
  refine h r p ?_
  revert hp
  unfold Interface.pinsOf
  rw [h1, h2]
  exact id

/-- The inversion lines, after the inversion of a payload. -/
theorem PinsBy.inverts {read : Bool} {data : Option (List UInt8)} (h6 : std ≠ .lpddr6) (hp : PinsBy i T) (ht : c.t ≤ T)
    (hk : sp.dataRate ≤ 2 ∨ i.dataBus.mode ≠ .bus ∨ i.dbi.enable = false) (h : i.invertData sp c read = .ok (i', data)) : PinsBy i' T := by
  unfold Interface.invertData at h
  split at h
  · have := congrArg Prod.fst (ok_inj h)
    dsimp only at this
    rw [← this]; exact hp
  · rename_i hn
    obtain ⟨⟨d, out, ev⟩, h1, h⟩ := bind_ok h
    obtain ⟨i1, h2, h⟩ := bind_ok h
    have := congrArg Prod.fst (pure_ok h)
    dsimp only at this
    rw [← this]
    have hdr : sp.dataRate ≤ 2 := by
      rcases hk with hk | hk | hk
      · exact hk
      · exact absurd (.inr (.inl hk)) hn
      · exact absurd (.inr (.inr (.inl hk))) hn
    have hload : c.t * sp.dataRate ≤ 2 * T := by
      rw [Nat.mul_comm 2 T]
      exact Nat.mul_le_mul ht hdr
    refine pinChanges_by (i := { i with dbi := d }) hp (fun e he => ?_) h2
    obtain ⟨x, hx⟩ : ∃ x, c.data = some x := by
      cases hd : c.data with
      | none => exact absurd (.inr (.inr (.inr (.inr hd)))) hn
      | some x => exact ⟨x, rfl⟩
    rw [hx] at h1
    cases out with
    | none => rw [(C23_off h1).2.1] at he; cases he
    | some o => rw [((update_events h6 h1).1 e he).1]; exact hload

theorem PinsBy.transfers {read : Bool} {len : Nat} (h6 : std ≠ .lpddr6) (hp : PinsBy i T) (ht : c.t ≤ T)
    (hk : sp.dataRate ≤ 2 ∨ i.dataBus.mode ≠ .bus ∨ i.dbi.enable = false) (h : i.transfer sp c read = .ok (i', len)) : PinsBy i' T := by
  unfold Interface.transfer at h
  split at h
  · split at h
    · have := congrArg Prod.fst (ok_inj h)
      dsimp only at this
      rw [← this]; exact hp
    · obtain ⟨i1, h1, h⟩ := bind_ok h
      obtain ⟨d, _, e⟩ := loadData_ok h1
      have := congrArg Prod.fst (pure_ok h)
      dsimp only at this
      rw [← this, e]; exact hp
  · obtain ⟨⟨i1, data⟩, h1, h⟩ := bind_ok h
    have k := hp.inverts h6 ht hk h1
    dsimp only at h
    obtain ⟨i2, h2, h⟩ := bind_ok h
    obtain ⟨d, _, e⟩ := loadData_ok h2
    have := congrArg Prod.fst (pure_ok h)
    dsimp only at this
    rw [← this, e]; exact k

/-- The inversion lines, after any call. -/
theorem step_lines (h6 : std ≠ .lpddr6) (hp : PinsBy i T) {op : IfOp} (hop : ∀ c, op = .cmd c → c.t ≤ T)
    (hk : sp.dataRate ≤ 2 ∨ i.dataBus.mode ≠ .bus ∨ i.dbi.enable = false) (h : i.step sp op = .ok i') : PinsBy i' T := by
  cases op with
  | cmd c =>
    have ht := hop c rfl
    obtain ⟨i1, h1, e⟩ := ifCommand_ok h
    subst e
    show PinsBy i1 T
    cases ha : ifAction sp.arch std c.type with
    | bus =>
      rw [ha] at h1
      obtain ⟨i2, w, n, b, _, _, e⟩ := handleCommandBus_ok h1
      rw [e]; exact hp
    | data read =>
      rw [ha] at h1
      obtain ⟨j1, len, j2, j3, j4, k1, k2, k3, k4, k5⟩ := handleData_ok h1
      have p1 := hp.transfers h6 ht hk k1
      obtain ⟨r2, w2, e2⟩ := dqs_ok k2
      obtain ⟨wk, e3⟩ := runWck_ok k3
      obtain ⟨a, a6, e4⟩ := overrides_eq j3 len read
      obtain ⟨i2, w, n, b, _, _, e5⟩ := handleCommandBus_ok k4
      have p4 : PinsBy j4 T := p1.same (by rw [e5, e4, e3, e2]) (by rw [e5, e4, e3, e2])
      rcases prePostamble_ok k5 with ⟨_, e⟩ | ⟨_, r, r', _, _, e⟩ <;> rw [e] <;> exact p4
    | finish =>
      rw [ha] at h1
      have h1 : i.endOfSimulation sp c.t = .ok i1 := h1
      unfold Interface.endOfSimulation at h1
      obtain ⟨⟨d, ev⟩, g1, g2⟩ := bind_ok h1
      refine pinChanges_by (i := { i with dbi := d }) hp (fun e he => ?_) g2
      unfold Dbi.resetBoth at g1
      obtain ⟨⟨d1, ev1⟩, r1, g1⟩ := bind_ok g1
      obtain ⟨⟨d2, ev2⟩, r2, g1⟩ := bind_ok g1
      have g := pure_ok g1
      simp only [Prod.mk.injEq] at g
      have he' : e.load = c.t := by
        rw [← g.2] at he
        rcases List.mem_append.1 he with he | he
        · exact (reset_events h6 r1 e he).1
        · exact (reset_events h6 r2 e he).1
      omega
    | skip => rw [ha] at h1; cases h1; exact hp
    | unsupported => rw [ha] at h1; cases h1
    | invalid => rw [ha] at h1; cases h1
  | dbi e => cases h; exact hp
  | metaData a b => cases h; exact hp
  | parity b =>
    simp only [Interface.step, Interface.setParityCheckMode] at h
    split at h
    · cases h; exact hp
    · cases h
  | enable t =>
    simp only [Interface.step] at h
    cases he : i.enabled with
    | true =>
      unfold Interface.enable at h
      rw [if_pos he] at h
      cases h
      exact hp
    | false =>
      obtain ⟨w, k, _, _, e⟩ := enable_ok he h
      rw [e]; exact hp
  | disable t =>
    simp only [Interface.step] at h
    cases he : i.enabled with
    | false =>
      unfold Interface.disable at h
      rw [if_pos he] at h
      cases h
      exact hp
    | true =>
      obtain ⟨w, k, _, _, e⟩ := disable_ok he h
      rw [e]; exact hp

/-! ## All together -/

theorem run_busses : ∀ (ops : List IfOp) {i i' : Interface std N} {m : Setting}, Shaped sp i → Set6 m i → BusBy i.cmdBus T →
    DataBy i.dataBus (sp.bitWidth * sp.devices) T → (∀ c, .cmd c ∈ ops → c.t ≤ T) →
    ((std = .lpddr5 ∨ std = .lpddr6) → sp.wckAlwaysOn = true → ∀ c, .cmd c ∈ ops → direction c.type = some false → c.nBits ≠ 0 → 0 < dataBeats std sp c) →
    i.run sp ops = .ok i' → BusBy i'.cmdBus T ∧ DataBy i'.dataBus (sp.bitWidth * sp.devices) T
  | [], _, _, _, _, _, hb, hd, _, _, h => by cases h; exact ⟨hb, hd⟩
  | op :: ops, i, i', m, hs, hi, hb, hd, ht, hf, h => by
    obtain ⟨j, h1, h2⟩ := Interface.run_cons h
    obtain ⟨b, d⟩ := step_busses hs hi hb hd (fun c e => ht c (by simp [e])) (fun a b c e => hf a b c (by simp [e])) h1
    exact run_busses ops (step_clocks hs h1).shaped (step_data hs hi h1).set b d (fun c hc => ht c (by simp [hc]))
      (fun a b c hc => hf a b c (by simp [hc])) h2

theorem run_lines (h6 : std ≠ .lpddr6) : ∀ (ops : List IfOp) {i i' : Interface std N} {m : Setting}, Shaped sp i → Set6 m i → PinsBy i T →
    (∀ c, .cmd c ∈ ops → c.t ≤ T) → (sp.dataRate ≤ 2 ∨ sp.toggling ≠ none ∨ (m.inverting = false ∧ .dbi true ∉ ops)) →
    i.run sp ops = .ok i' → PinsBy i' T
  | [], _, _, _, _, _, hp, _, _, h => by cases h; exact hp
  | op :: ops, i, i', m, hs, hi, hp, ht, hk, h => by
    obtain ⟨j, h1, h2⟩ := Interface.run_cons h
    have p := step_lines h6 hp (fun c e => ht c (by simp [e])) (by
      rcases hk with hk | hk | hk
      · exact .inl hk
      · exact .inr (.inl fun e => hk ((mode_bus hs).1 e))
      · exact .inr (.inr (hi.inverting.trans hk.1))) h1
    refine run_lines h6 ops (step_clocks hs h1).shaped (step_data hs hi h1).set p (fun c hc => ht c (by simp [hc])) ?_ h2
    rcases hk with hk | hk | ⟨hk, hn⟩
    · exact .inl hk
    · exact .inr (.inl hk)
    · refine .inr (.inr ⟨?_, fun hc => hn (by simp [hc])⟩)
      cases op with
      | dbi e =>
        cases e with
        | true => exact absurd (by simp) hn
        | false => rfl
      | _ => exact hk

/-- The interface answers. -/
theorem interface_answers {ops : List IfOp} (hi : Interface.init std N sp = .ok i) (hr : i.run sp ops = .ok i') (ht : ∀ c, .cmd c ∈ ops → c.t ≤ T)
    (hf : (std = .lpddr5 ∨ std = .lpddr6) → sp.wckAlwaysOn = true → ∀ c, .cmd c ∈ ops → direction c.type = some false → c.nBits ≠ 0 → 0 < dataBeats std sp c)
    (hk : sp.dataRate ≤ 2 ∨ lineRoom std = none ∨ sp.toggling ≠ none ∨ .dbi true ∉ ops) (s : SimStats) :
    ∃ x, i'.getWindowStats sp T s = .ok x := by
  obtain ⟨_, _, hb, hd, _, _, _, _, _, _, _, _, e1, e2, _⟩ := init_parts hi
  obtain ⟨b, d⟩ := run_busses ops (init_shaped hi) (init_set hi) (.init hb) (DataBy.init (T := T) hd) ht hf hr
  have pins : ∀ r, ∀ p ∈ i'.pinsOf r, p.storage.loadTime = p.lastSet ∧ p.lastSet ≤ 2 * T := by
    by_cases h : std = .ddr5 ∨ std = .lpddr6
    · obtain ⟨e1, e2⟩ := no_pins h hi hr
      intro r p hp
      unfold Interface.pinsOf at hp
      rw [e1, e2] at hp
      cases r <;> cases hp
    · have hpins : ∀ p ∈ sp.pins std, p.storage.loadTime = p.lastSet ∧ p.lastSet ≤ 2 * T := by
        intro p hp
        unfold IfSpec.pins at hp
        split at hp
        · rw [(List.mem_replicate.1 hp).2]
          exact ⟨rfl, Nat.zero_le _⟩
        · cases hp
      refine run_lines (fun e => h (.inr e)) ops (init_shaped hi) (init_set hi) ?_ ht ?_ hr
      · intro r
        unfold Interface.pinsOf
        rw [e1, e2]
        cases r <;> exact hpins
      · rcases hk with hk | hk | hk | hk
        · exact .inl hk
        · exfalso
          revert hk h
          cases std <;> simp [lineRoom]
        · exact .inr (.inl hk)
        · exact .inr (.inr ⟨rfl, hk⟩)
  obtain ⟨x1, h1⟩ := b.answers
  obtain ⟨x2, h2⟩ := d.answers
  obtain ⟨x3, h3⟩ := pins_answer i'.pinsRead s.readDBI (pins true)
  obtain ⟨x4, h4⟩ := pins_answer i'.pinsWrite s.writeDBI (pins false)
  unfold Interface.getWindowStats
  rw [bind_of_ok h1, bind_of_ok h2, bind_of_ok h3, bind_of_ok h4]
  exact ⟨_, rfl⟩

end DRAMPower
