import Verif.Model.Interface

/-!
# What each function of the interface changes
-/

namespace DRAMPower
variable {std : Std} {N : Nat} {sp : IfSpec} {i i' : Interface std N} {c : ICmd}

theorem bind_ok {α β : Type} {x : Except Err α} {f : α → Except Err β} {b : β} (h : (x >>= f) = .ok b) :
    ∃ a, x = .ok a ∧ f a = .ok b := by
  cases x with
  | ok a => exact ⟨a, rfl, h⟩
  | error e => exact absurd h (by simp [bind, Except.bind])

theorem pure_ok {α : Type} {a b : α} (h : (pure a : Except Err α) = .ok b) : a = b := by injection h

theorem ok_inj {α : Type} {a b : α} (h : (.ok a : Except Err α) = .ok b) : a = b := by injection h

theorem encodeCommand_ok {w : BitVec 64} {n : Nat} (h : i.encodeCommand sp c = .ok (i', w, n)) :
    (std = .lpddr6 ∧ n = (lpddr6Patterns c.type).length ∧ ∃ k, i.ca6.command c.type c.co6 = .ok (k, w) ∧ i' = { i with ca6 := k }) ∨
    (std ≠ .lpddr6 ∧ n = (patterns sp.arch std c.type).length ∧
      ∃ k, i.ca.command (patterns sp.arch std) c.type c.co = .ok (k, w) ∧ i' = { i with ca := k }) := by
  unfold Interface.encodeCommand at h
  split at h
  · rename_i hs
    obtain ⟨⟨k, w'⟩, h1, h2⟩ := bind_ok h
    have := pure_ok h2
    simp only [Prod.mk.injEq] at this
    obtain ⟨e1, e2, e3⟩ := this
    exact .inl ⟨hs, e3.symm, k, e2 ▸ h1, e1.symm⟩
  · rename_i hs
    obtain ⟨⟨k, w'⟩, h1, h2⟩ := bind_ok h
    have := pure_ok h2
    simp only [Prod.mk.injEq] at this
    obtain ⟨e1, e2, e3⟩ := this
    exact .inr ⟨hs, e3.symm, k, e2 ▸ h1, e1.symm⟩

theorem handleCommandBus_ok (h : i.handleCommandBus sp c = .ok i') :
    ∃ i1 w n b, i.encodeCommand sp c = .ok (i1, w, n) ∧ i.cmdBus.loadWord c.t w.toNat (n / i.cmdBus.width) = .ok b ∧
      i' = { i with ca := i1.ca, ca6 := i1.ca6, cmdBus := b } := by
  unfold Interface.handleCommandBus at h
  obtain ⟨⟨i1, w, n⟩, h1, h2⟩ := bind_ok h
  obtain ⟨b, h3, h4⟩ := bind_ok h2
  have e := pure_ok h4
  rcases encodeCommand_ok h1 with ⟨_, _, k, _, e1⟩ | ⟨_, _, k, _, e1⟩ <;>
    · subst e1
      exact ⟨_, w, n, b, h1, h3, e.symm⟩

theorem loadData_ok {read : Bool} {t n : Nat} {data : Option (List UInt8)} (h : i.loadData read t n data = .ok i') :
    ∃ d, Interface.loadFunc i.dataBus read t n data = .ok d ∧ i' = { i with dataBus := d } := by
  unfold Interface.loadData at h
  obtain ⟨d, h1, h2⟩ := bind_ok h
  exact ⟨d, h1, (pure_ok h2).symm⟩

theorem pinChange_ok {e : DbiEvent} (h : i.pinChange e = .ok i') :
    ∃ pr pw, i' = { i with pinsRead := pr, pinsWrite := pw } ∧ pr.length = i.pinsRead.length ∧ pw.length = i.pinsWrite.length := by
  unfold Interface.pinChange at h
  split at h
  · exact absurd h (by simp)
  · obtain ⟨p, _, h2⟩ := bind_ok h
    split at h2
    · exact ⟨_, _, (pure_ok h2).symm, by simp, rfl⟩
    · exact ⟨_, _, (pure_ok h2).symm, rfl, by simp⟩

theorem pinChanges_ok : ∀ {es : List DbiEvent} {i i' : Interface std N}, es.foldlM Interface.pinChange i = .ok i' →
    ∃ pr pw, i' = { i with pinsRead := pr, pinsWrite := pw } ∧ pr.length = i.pinsRead.length ∧ pw.length = i.pinsWrite.length
  | [], i, i', h => ⟨i.pinsRead, i.pinsWrite, (pure_ok h).symm, rfl, rfl⟩
  | e :: es, i, i', h => by
    rw [List.foldlM_cons] at h
    obtain ⟨i1, h1, h2⟩ := bind_ok h
    obtain ⟨pr, pw, e1, l1, l2⟩ := pinChange_ok h1
    obtain ⟨pr', pw', e2, l1', l2'⟩ := pinChanges_ok h2
    subst e1
    exact ⟨pr', pw', e2, l1'.trans l1, l2'.trans l2⟩

theorem invertData_ok {read : Bool} {data : Option (List UInt8)} (h : i.invertData sp c read = .ok (i', data)) :
    ∃ d pr pw, i' = { i with dbi := d, pinsRead := pr, pinsWrite := pw } ∧ pr.length = i.pinsRead.length ∧
      pw.length = i.pinsWrite.length := by
  unfold Interface.invertData at h
  split at h
  · have := ok_inj h
    simp only [Prod.mk.injEq] at this
    exact ⟨i.dbi, i.pinsRead, i.pinsWrite, this.1.symm, rfl, rfl⟩
  · obtain ⟨⟨d, out, ev⟩, _, h2⟩ := bind_ok h
    obtain ⟨i1, h3, h4⟩ := bind_ok h2
    obtain ⟨pr, pw, e1, l1, l2⟩ := pinChanges_ok h3
    have := pure_ok h4
    simp only [Prod.mk.injEq] at this
    exact ⟨d, pr, pw, by rw [← this.1, e1], l1, l2⟩

theorem loadRead_keeps {d d' : DataBus N} {t n : Nat} {x : Option (List UInt8)} (h : d.loadRead t n x = .ok d') :
    d'.mode = d.mode ∧ d'.busWrite = d.busWrite ∧ d'.togglingWrite = d.togglingWrite := by
  unfold DataBus.loadRead at h
  split at h
  · split at h
    · rw [← ok_inj h]; simp
    · split at h
      · rw [← ok_inj h]; simp
      · obtain ⟨b, _, h2⟩ := bind_ok h
        rw [← pure_ok h2]; simp
  · obtain ⟨b, _, h2⟩ := bind_ok h
    rw [← pure_ok h2]; simp

theorem loadWrite_keeps {d d' : DataBus N} {t n : Nat} {x : Option (List UInt8)} (h : d.loadWrite t n x = .ok d') :
    d'.mode = d.mode ∧ d'.busRead = d.busRead ∧ d'.togglingRead = d.togglingRead := by
  unfold DataBus.loadWrite at h
  split at h
  · split at h
    · rw [← ok_inj h]; simp
    · split at h
      · rw [← ok_inj h]; simp
      · obtain ⟨b, _, h2⟩ := bind_ok h
        rw [← pure_ok h2]; simp
  · obtain ⟨b, _, h2⟩ := bind_ok h
    rw [← pure_ok h2]; simp

theorem addPrevious_keeps {M : Nat} {b b' : Bus M} {vt : Nat} (h : b.addPrevious vt = .ok b') :
    b'.width = b.width ∧ b'.datarate = b.datarate ∧ b'.enabled = b.enabled ∧ b'.idleWord = b.idleWord ∧ b'.idleStats = b.idleStats := by
  unfold Bus.addPrevious at h
  split at h
  · exact absurd h (by simp)
  · have hk : ∀ b0 : Bus M, (if b.pending.pending = true ∧ b.pending.timestamp < vt then
        { b with stats := b.stats + b.pending.stats, pending := { b.pending with pending := false } } else b) = b0 →
        b0.width = b.width ∧ b0.datarate = b.datarate ∧ b0.enabled = b.enabled ∧ b0.idleWord = b.idleWord ∧ b0.idleStats = b.idleStats := by
      intro b0 hb
      rw [← hb]
      split <;> simp
    revert h hk
    generalize (if b.pending.pending = true ∧ b.pending.timestamp < vt then
        { b with stats := b.stats + b.pending.stats, pending := { b.pending with pending := false } } else b) = b0
    intro h hk
    obtain ⟨s, _, h2⟩ := bind_ok h
    dsimp only at h2
    split at h2
    · obtain ⟨p, _, h4⟩ := bind_ok h2
      rw [← pure_ok h4]
      exact hk b0 rfl
    · rw [← pure_ok h2]
      exact hk b0 rfl

theorem bus_load_keeps {M : Nat} {b b' : Bus M} {t n : Nat} {x : List UInt8} (h : b.load t x n = .ok b') :
    b'.width = b.width ∧ b'.datarate = b.datarate ∧ b'.enabled = b.enabled ∧ b'.idleWord = b.idleWord ∧ b'.idleStats = b.idleStats := by
  unfold Bus.load at h
  split at h
  · rw [← ok_inj h]; simp
  · split at h
    · exact absurd h (by simp)
    · dsimp only at h
      split at h
      · exact absurd h (by simp)
      · obtain ⟨b1, h1, h2⟩ := bind_ok h
        have k1 := addPrevious_keeps h1
        unfold Bus.addData at h2
        obtain ⟨d, _, h3⟩ := bind_ok h2
        obtain ⟨f, _, h4⟩ := bind_ok h3
        dsimp only at h4
        split at h4
        · rw [← pure_ok h4]; exact k1
        · rw [← pure_ok h4]; exact k1

theorem loadRead_width {d d' : DataBus N} {t n : Nat} {x : Option (List UInt8)} (h : d.loadRead t n x = .ok d') :
    d'.busRead.width = d.busRead.width := by
  unfold DataBus.loadRead at h
  split at h
  · split at h
    · rw [← ok_inj h]
    · split at h
      · rw [← ok_inj h]
      · obtain ⟨b, h1, h2⟩ := bind_ok h
        rw [← pure_ok h2]
        exact (bus_load_keeps h1).1
  · obtain ⟨b, _, h2⟩ := bind_ok h
    rw [← pure_ok h2]

theorem loadData_keeps {read : Bool} {t n : Nat} {data : Option (List UInt8)} (h : i.loadData read t n data = .ok i') :
    i'.dataBus.mode = i.dataBus.mode ∧ i'.width = i.width := by
  obtain ⟨d, h1, e⟩ := loadData_ok h
  subst e
  cases read with
  | true => exact ⟨(loadRead_keeps h1).1, loadRead_width h1⟩
  | false =>
    have := loadWrite_keeps h1
    exact ⟨this.1, congrArg Bus.width this.2.1⟩

/-- Number of beats a data command drives, for the standards without a formatter. -/
theorem transfer_ok {read : Bool} {len : Nat} (h : i.transfer sp c read = .ok (i', len)) :
    (∃ d db pr pw f, i' = { i with dataBus := d, dbi := db, pinsRead := pr, pinsWrite := pw, formatter := f } ∧
      pr.length = i.pinsRead.length ∧ pw.length = i.pinsWrite.length) ∧
    i'.dataBus.mode = i.dataBus.mode ∧ i'.width = i.width ∧
    (std ≠ .lpddr6 → len = if c.nBits = 0 then (if i.dataBus.mode = .toggling then sp.burstLength else 0) else c.nBits / i.width) := by
  unfold Interface.transfer at h
  split at h
  · rename_i h0
    split at h
    · rename_i hm
      have := ok_inj h
      simp only [Prod.mk.injEq] at this
      obtain ⟨e1, e2⟩ := this
      subst e1; subst e2
      refine ⟨⟨i.dataBus, i.dbi, i.pinsRead, i.pinsWrite, i.formatter, rfl, rfl, rfl⟩, rfl, rfl, fun _ => ?_⟩
      simp [h0, hm]
    · rename_i hm
      obtain ⟨i1, h1, h2⟩ := bind_ok h
      have := pure_ok h2
      simp only [Prod.mk.injEq] at this
      obtain ⟨e1, e2⟩ := this
      subst e1; subst e2
      have k := loadData_keeps h1
      obtain ⟨d, _, e⟩ := loadData_ok h1
      refine ⟨⟨d, i.dbi, i.pinsRead, i.pinsWrite, i.formatter, e, rfl, rfl⟩, k.1, k.2, fun _ => ?_⟩
      simp [h0, hm]
  · rename_i h0
    obtain ⟨⟨i1, data⟩, h1, h2⟩ := bind_ok h
    obtain ⟨db, pr, pw, e1, l1, l2⟩ := invertData_ok h1
    dsimp only at h2
    split at h2
    · obtain ⟨⟨f, bytes, n⟩, h3, h4⟩ := bind_ok h2
      obtain ⟨i2, h5, h6⟩ := bind_ok h4
      have := pure_ok h6
      simp only [Prod.mk.injEq] at this
      have k := loadData_keeps h5
      obtain ⟨d, _, e⟩ := loadData_ok h5
      rw [← this.1]
      subst e1
      refine ⟨⟨d, db, pr, pw, f, e, l1, l2⟩, k.1, k.2, fun hn => absurd ‹std = .lpddr6› hn⟩
    · obtain ⟨i2, h5, h6⟩ := bind_ok h2
      have := pure_ok h6
      simp only [Prod.mk.injEq] at this
      have k := loadData_keeps h5
      obtain ⟨d, _, e⟩ := loadData_ok h5
      rw [← this.1, ← this.2]
      subst e1
      refine ⟨⟨d, db, pr, pw, i.formatter, e, l1, l2⟩, k.1, k.2, fun _ => ?_⟩
      rw [if_neg h0, k.2]
      rfl

theorem dqs_ok {t s : Nat} {read : Bool} (h : i.dqs t s read = .ok i') :
    ∃ r w, i' = { i with readDQS := r, writeDQS := w } := by
  unfold Interface.dqs at h
  split at h
  · obtain ⟨k, _, h2⟩ := bind_ok h
    exact ⟨k, i.writeDQS, (pure_ok h2).symm⟩
  · split at h
    · exact ⟨i.readDQS, i.writeDQS, (ok_inj h).symm⟩
    · obtain ⟨k, _, h2⟩ := bind_ok h
      exact ⟨i.readDQS, k, (pure_ok h2).symm⟩

theorem runWck_ok {t s : Nat} (h : i.runWck sp t s = .ok i') : ∃ w, i' = { i with wck := w } := by
  unfold Interface.runWck at h
  split at h
  · obtain ⟨k, _, h2⟩ := bind_ok h
    exact ⟨k, (pure_ok h2).symm⟩
  · exact ⟨i.wck, (ok_inj h).symm⟩

theorem overrides_eq (i : Interface std N) (length : Nat) (read : Bool) :
    ∃ a a6, i.overrides length read = { i with ca := a, ca6 := a6 } := by
  unfold Interface.overrides
  split
  · exact ⟨i.ca, _, rfl⟩
  · exact ⟨_, i.ca6, rfl⟩

theorem prePostamble_ok {len : Nat} {read : Bool} (h : i.prePostamble sp c len read = .ok i') :
    (std ≠ .ddr4 ∧ i' = i) ∨
    (std = .ddr4 ∧ ∃ r r', i.ranks[c.co.rank]? = some r ∧ r.access c.t (len / sp.dataRate) read = .ok r' ∧
      i' = { i with ranks := i.ranks.set c.co.rank r' }) := by
  unfold Interface.prePostamble at h
  split at h
  · split at h
    · exact absurd h (by simp)
    · rename_i r hr
      obtain ⟨r', h1, h2⟩ := bind_ok h
      exact .inr ⟨‹_›, r, r', hr, h1, (pure_ok h2).symm⟩
  · exact .inl ⟨‹_›, (ok_inj h).symm⟩

/-- The steps of a data command. -/
theorem handleData_ok {read : Bool} (h : i.handleData sp c read = .ok i') :
    ∃ i1 len i2 i3 i4, i.transfer sp c read = .ok (i1, len) ∧ i1.dqs c.t (c.t + len / sp.dataRate) read = .ok i2 ∧
      i2.runWck sp c.t (c.t + len / sp.dataRate) = .ok i3 ∧ (i3.overrides len read).handleCommandBus sp c = .ok i4 ∧
      i4.prePostamble sp c len read = .ok i' := by
  unfold Interface.handleData at h
  obtain ⟨⟨i1, len⟩, h1, h⟩ := bind_ok h
  obtain ⟨i2, h2, h⟩ := bind_ok h
  obtain ⟨i3, h3, h⟩ := bind_ok h
  obtain ⟨i4, h4, h⟩ := bind_ok h
  exact ⟨i1, len, i2, i3, i4, h1, h2, h3, h4, h⟩

theorem endOfSimulation_ok {t : Nat} (h : i.endOfSimulation sp t = .ok i') :
    ∃ d pr pw, i' = { i with dbi := d, pinsRead := pr, pinsWrite := pw } ∧ pr.length = i.pinsRead.length ∧
      pw.length = i.pinsWrite.length := by
  unfold Interface.endOfSimulation at h
  obtain ⟨⟨d, ev⟩, _, h2⟩ := bind_ok h
  obtain ⟨pr, pw, e, l1, l2⟩ := pinChanges_ok h2
  exact ⟨d, pr, pw, e, l1, l2⟩

theorem ifCommand_ok (h : i.doCommand sp c = .ok i') :
    ∃ i1, i.act sp c (ifAction sp.arch std c.type) = .ok i1 ∧ i' = { i1 with last := c.t } := by
  unfold Interface.doCommand at h
  obtain ⟨i1, h1, h2⟩ := bind_ok h
  exact ⟨i1, h1, (pure_ok h2).symm⟩

theorem Interface.run_append (sp : IfSpec) : ∀ (ops ops' : List IfOp) (i : Interface std N),
    i.run sp (ops ++ ops') = (i.run sp ops >>= fun j => j.run sp ops')
  | [], ops', i => rfl
  | op :: ops, ops', i => by
    simp only [List.cons_append, Interface.run]
    cases i.step sp op with
    | ok j => exact run_append sp ops ops' j
    | error e => rfl

theorem Interface.run_cons {op : IfOp} {ops : List IfOp} (h : i.run sp (op :: ops) = .ok i') :
    ∃ j, i.step sp op = .ok j ∧ j.run sp ops = .ok i' := by
  simp only [Interface.run] at h
  split at h
  · exact ⟨_, ‹_›, h⟩
  · exact absurd h (by simp)

end DRAMPower
