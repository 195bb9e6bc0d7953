import Verif.Lemmas.BusTrace
import Verif.Spec.DataShare
import Verif.Props.C19
import Verif.Props.C22

/-!
# C42: mode selection conserves transfers
-/

namespace DRAMPower
open Spec

section
variable {N : Nat}

/-- The four components of a data bus are on or off according to its mode. -/
structure DataOk (d : DataBus N) : Prop where
  br : d.busRead.enabled = (d.mode == .bus)
  bw : d.busWrite.enabled = (d.mode == .bus)
  tr : d.togglingRead.enabled = (d.mode == .toggling)
  tw : d.togglingWrite.enabled = (d.mode == .toggling)

theorem bus_load_enabled {b b' : Bus N} {t n : Nat} {x : List UInt8} (h : b.load t x n = .ok b') : b'.enabled = b.enabled := by
  unfold Bus.load at h
  split at h
  · cases h; rfl
  split at h
  · cases h
  simp only at h
  split at h
  · cases h
  simp only [bind, Except.bind] at h
  split at h
  · cases h
  rename_i b1 h1
  have e1 : b1.enabled = b.enabled := by
    unfold Bus.addPrevious at h1
    split at h1
    · cases h1
    simp only [bind, Except.bind] at h1
    split at h1
    · cases h1
    split at h1
    · split at h1
      · cases h1
      · cases h1; simp only; split <;> rfl
    · cases h1; simp only; split <;> rfl
  unfold Bus.addData at h
  simp only [bind, Except.bind] at h
  split at h
  · cases h
  split at h
  · cases h
  split at h <;> (cases h; exact e1)

theorem bus_enable_enabled {b b' : Bus N} {t : Nat} (h : b.enable t = .ok b') : b'.enabled = true := by
  unfold Bus.enable at h
  split at h
  · cases h; assumption
  split at h
  · cases h
  cases h; rfl

theorem bus_disable_enabled {b b' : Bus N} {t : Nat} (h : b.disable t = .ok b') : b'.enabled = false := by
  unfold Bus.disable at h
  simp only at h
  split at h
  · rename_i he
    split at h
    · cases h
    · cases h; simpa using he
  · split at h
    · cases h
    simp only [bind, Except.bind] at h
    split at h
    · cases h
    · cases h; rfl

theorem toggle_incBits_enabled {h h' : Toggling} {t n : Nat} (hr : h.incBits t n = .ok h') : h'.enabled = h.enabled := by
  unfold Toggling.incBits Toggling.incBurst at hr
  simp only at hr
  repeat' (split at hr)
  all_goals first
    | (cases hr; done)
    | (cases hr; rfl)

theorem toggle_disable_enabled (h : Toggling) (t : Nat) : (h.disable t).enabled = false := by
  unfold Toggling.disable; simp only; split <;> simp_all

theorem toggle_enable_enabled (h : Toggling) (t : Nat) : (h.enable t).enabled = true := by
  unfold Toggling.enable; split <;> simp_all

/-- Bus and toggling-rate model of a direction. -/
def DataBus.bus (d : DataBus N) : Dir → Bus N
  | .read => d.busRead
  | .write => d.busWrite

/-- See `DataBus.bus`. -/
def DataBus.toggle (d : DataBus N) : Dir → Toggling
  | .read => d.togglingRead
  | .write => d.togglingWrite

theorem data_step {d d1 : DataBus N} {op : DataOp} (ok : DataOk d) (hs : d.step op = .ok d1) :
    DataOk d1 ∧ d1.mode = (switchOf op).getD d.mode ∧ ∀ dir, (d.bus dir).run (busCall dir d.mode op) = .ok (d1.bus dir) ∧
      (d.toggle dir).run (toggleCall dir d.mode op) = .ok (d1.toggle dir) := by
  have hmm : d.mode = .bus ∨ d.mode = .toggling := by cases d.mode <;> simp
  obtain ⟨ok1, ok2, ok3, ok4⟩ := ok
  cases op with
  | read t n x =>
    simp only [DataBus.step, DataBus.loadRead] at hs
    rcases hmm with hm | hm <;> rw [hm] at hs ok1 ok2 ok3 ok4
    · cases x with
      | none =>
        cases hs
        refine ⟨⟨?_, ?_, ?_, ?_⟩, rfl, fun dir => ?_⟩
        iterate 4 (simpa [hm] using by assumption)
        cases dir <;> exact ⟨rfl, by simp [toggleCall, transferOf, hm, Toggling.run]⟩
      | some bytes =>
        simp only at hs
        split at hs
        · cases hs
          rename_i hn
          refine ⟨⟨?_, ?_, ?_, ?_⟩, rfl, fun dir => ?_⟩
          iterate 4 (simpa [hm] using by assumption)
          cases dir <;> simp [toggleCall, busCall, transferOf, hm, Toggling.run, Bus.run, hn]
        · rename_i hn
          simp only [bind, Except.bind] at hs
          split at hs
          · cases hs
          rename_i b1 hb
          cases hs
          refine ⟨⟨?_, ok2, ok3, ok4⟩, by simp [switchOf, hm], fun dir => ?_⟩
          · simp only; rw [bus_load_enabled hb]; exact ok1
          · cases dir <;> simp [toggleCall, busCall, transferOf, hm, Toggling.run, Bus.run, hn, DataBus.bus, DataBus.toggle, Bus.step, hb]
    · simp only [bind, Except.bind] at hs
      split at hs
      · cases hs
      rename_i b1 hb
      cases hs
      refine ⟨⟨ok1, ok2, ?_, ok4⟩, by simp [switchOf, hm], fun dir => ?_⟩
      · simp only; rw [toggle_incBits_enabled hb]; exact ok3
      · cases dir <;> cases x <;> simp [toggleCall, busCall, transferOf, hm, Toggling.run, Bus.run, DataBus.bus, DataBus.toggle, Toggling.step, hb]
  | write t n x =>
    simp only [DataBus.step, DataBus.loadWrite] at hs
    rcases hmm with hm | hm <;> rw [hm] at hs ok1 ok2 ok3 ok4
    · cases x with
      | none =>
        cases hs
        refine ⟨⟨?_, ?_, ?_, ?_⟩, rfl, fun dir => ?_⟩
        iterate 4 (simpa [hm] using by assumption)
        cases dir <;> exact ⟨rfl, by simp [toggleCall, transferOf, hm, Toggling.run]⟩
      | some bytes =>
        simp only at hs
        split at hs
        · cases hs
          rename_i hn
          refine ⟨⟨?_, ?_, ?_, ?_⟩, rfl, fun dir => ?_⟩
          iterate 4 (simpa [hm] using by assumption)
          cases dir <;> simp [toggleCall, busCall, transferOf, hm, Toggling.run, Bus.run, hn]
        · rename_i hn
          simp only [bind, Except.bind] at hs
          split at hs
          · cases hs
          rename_i b1 hb
          cases hs
          refine ⟨⟨ok1, ?_, ok3, ok4⟩, by simp [switchOf, hm], fun dir => ?_⟩
          · simp only; rw [bus_load_enabled hb]; exact ok2
          · cases dir <;> simp [toggleCall, busCall, transferOf, hm, Toggling.run, Bus.run, hn, DataBus.bus, DataBus.toggle, Bus.step, hb]
    · simp only [bind, Except.bind] at hs
      split at hs
      · cases hs
      rename_i b1 hb
      cases hs
      refine ⟨⟨ok1, ok2, ok3, ?_⟩, by simp [switchOf, hm], fun dir => ?_⟩
      · simp only; rw [toggle_incBits_enabled hb]; exact ok4
      · cases dir <;> cases x <;> simp [toggleCall, busCall, transferOf, hm, Toggling.run, Bus.run, DataBus.bus, DataBus.toggle, Toggling.step, hb]
  | toBus t =>
    simp only [DataBus.step, DataBus.enableBus, bind, Except.bind] at hs
    split at hs
    · cases hs
    rename_i b1 hb1
    split at hs
    · cases hs
    rename_i b2 hb2
    cases hs
    refine ⟨⟨bus_enable_enabled hb1, bus_enable_enabled hb2, toggle_disable_enabled _ _, toggle_disable_enabled _ _⟩, rfl, fun dir => ?_⟩
    cases dir <;> simp [toggleCall, busCall, Toggling.run, Bus.run, DataBus.bus, DataBus.toggle, Toggling.step, Bus.step, hb1, hb2]
  | toToggling t =>
    simp only [DataBus.step, DataBus.enableTogglingRate, bind, Except.bind] at hs
    split at hs
    · cases hs
    rename_i b1 hb1
    split at hs
    · cases hs
    rename_i b2 hb2
    cases hs
    refine ⟨⟨bus_disable_enabled hb1, bus_disable_enabled hb2, toggle_enable_enabled _ _, toggle_enable_enabled _ _⟩, rfl, fun dir => ?_⟩
    cases dir <;> simp [toggleCall, busCall, Toggling.run, Bus.run, DataBus.bus, DataBus.toggle, Toggling.step, Bus.step, hb1, hb2]
  | rates r w =>
    simp only [DataBus.step] at hs
    cases hs
    refine ⟨⟨ok1, ok2, ok3, ok4⟩, rfl, fun dir => ?_⟩
    cases dir <;> exact ⟨rfl, rfl⟩

theorem Toggling.run_append {b : Toggling} {xs ys : List ToggleOp} {b1 : Toggling} (h : b.run xs = .ok b1) : b.run (xs ++ ys) = b1.run ys := by
  induction xs generalizing b with
  | nil => cases h; rfl
  | cons x xs ih =>
    rw [List.cons_append, Toggling.run]
    rw [Toggling.run] at h
    split at h
    · rename_i e; exact ih h
    · cases h

theorem data_run : ∀ (ops : List DataOp) {d d' : DataBus N}, DataOk d → d.run ops = .ok d' →
    DataOk d' ∧ d'.mode = modeAfter d.mode ops ∧
      ∀ dir, (d.bus dir).run (busShare dir d.mode ops) = .ok (d'.bus dir) ∧
        (d.toggle dir).run (toggleShare dir d.mode ops) = .ok (d'.toggle dir) := by
  intro ops
  induction ops with
  | nil => intro d d' ok h; cases h; exact ⟨ok, rfl, fun dir => ⟨rfl, rfl⟩⟩
  | cons op ops ih =>
    intro d d' ok h
    unfold DataBus.run at h
    split at h
    rotate_left
    · cases h
    rename_i d1 hs
    obtain ⟨ok1, hm, hd⟩ := data_step ok hs
    obtain ⟨r1, r2, r3⟩ := ih ok1 h
    refine ⟨r1, ?_, fun dir => ⟨?_, ?_⟩⟩
    · rw [r2, hm]
      unfold modeAfter
      rw [List.reverse_cons, List.findSome?_append]
      cases ops.reverse.findSome? switchOf <;> cases hso : switchOf op <;> simp [hso]
    · rw [busShare, Bus.run_append (hd dir).1, ← hm]; exact (r3 dir).1
    · rw [toggleShare, Toggling.run_append (hd dir).2, ← hm]; exact (r3 dir).2

end

variable {N : Nat} {c : DataBusConfig} {m : DataBusMode} {start d : DataBus N} {ops : List DataOp}

theorem data_init (hs : DataBus.init N c m = .ok start) : DataOk start ∧ start.mode = m ∧
    ∃ ir iw, DataBus.convertIdle c.read.idle = .ok ir ∧ DataBus.convertIdle c.write.idle = .ok iw ∧
      Bus.init N c.width c.dataRate ir (m == .bus) = .ok start.busRead ∧ Bus.init N c.width c.dataRate iw (m == .bus) = .ok start.busWrite ∧
      Toggling.init c.width c.dataRate c.read.togglingRate c.read.dutyCycle c.read.idle (m == .toggling) = .ok start.togglingRead ∧
      Toggling.init c.width c.dataRate c.write.togglingRate c.write.dutyCycle c.write.idle (m == .toggling) = .ok start.togglingWrite := by
  simp only [DataBus.init, bind, Except.bind] at hs
  split at hs
  · cases hs
  rename_i ir hir
  split at hs
  · cases hs
  rename_i br hbr
  split at hs
  · cases hs
  rename_i iw hiw
  split at hs
  · cases hs
  rename_i bw hbw
  split at hs
  · cases hs
  rename_i tr htr
  split at hs
  · cases hs
  rename_i tw htw
  cases hs
  have eb : ∀ {i : IdlePattern} {en : Bool} {b : Bus N}, Bus.init N c.width c.dataRate i en = .ok b → b.enabled = en := by
    intro i en b h
    unfold Bus.init at h
    split at h
    · cases h
    · cases h; rfl
  have et : ∀ {r du : Rate} {i : ToggleIdle} {en : Bool} {b : Toggling}, Toggling.init c.width c.dataRate r du i en = .ok b → b.enabled = en := by
    intro r du i en b h
    unfold Toggling.init at h
    split at h
    · cases h
    split at h
    · cases h
    · cases h; rfl
  exact ⟨⟨eb hbr, eb hbw, et htr, et htw⟩, rfl, ir, iw, hir, hiw, hbr, hbw, htr, htw⟩

/-- After every accepted history of loads, mode switches and rate changes, each of the four models is in the state it
reaches from its own share of the history alone, and exactly the models of the current mode are on. -/
theorem C42_shares (hs : DataBus.init N c m = .ok start) (hr : start.run ops = .ok d) (dir : Dir) :
    (start.bus dir).run (busShare dir m ops) = .ok (d.bus dir) ∧ (start.toggle dir).run (toggleShare dir m ops) = .ok (d.toggle dir) ∧
      (d.bus dir).enabled = (modeAfter m ops == .bus) ∧ (d.toggle dir).enabled = (modeAfter m ops == .toggling) := by
  obtain ⟨ok, hm, -⟩ := data_init hs
  obtain ⟨r1, r2, r3⟩ := data_run ops ok hr
  rw [hm] at r2 r3
  refine ⟨(r3 dir).1, (r3 dir).2, ?_, ?_⟩
  · cases dir
    · exact r1.br.trans (by rw [r2])
    · exact r1.bw.trans (by rw [r2])
  · cases dir
    · exact r1.tr.trans (by rw [r2])
    · exact r1.tw.trans (by rw [r2])

/-- Every transfer belongs to exactly one mode, ... -/
theorem C42_partition (dir : Dir) (m : DataBusMode) (ops : List DataOp) :
    (transfers dir ops).Perm (transfersIn dir .bus m ops ++ transfersIn dir .toggling m ops) := by
  induction ops generalizing m with
  | nil => exact .nil
  | cons op ops ih =>
    simp only [transfers, List.filterMap_cons, transfersIn]
    cases transferOf dir op with
    | none => exact ih _
    | some x =>
      cases m with
      | bus => simp only [if_true, reduceCtorEq, if_false, List.cons_append]; exact (ih .bus).cons x
      | toggling =>
        simp only [if_true, reduceCtorEq, if_false]
        exact ((ih .toggling).cons x).trans List.perm_middle.symm

/-- ... the bus is given exactly the payloads of bus mode, in order, ... -/
theorem C42_bus_payloads (dir : Dir) (m : DataBusMode) (ops : List DataOp) :
    (busShare dir m ops).filterMap loadOf = (transfersIn dir .bus m ops).filter Transfer.hasData := by
  induction ops generalizing m with
  | nil => rfl
  | cons op ops ih =>
    rw [busShare, List.filterMap_append, ih]
    cases op with
    | toBus t => cases dir <;> rfl
    | toToggling t => cases dir <;> rfl
    | rates r w => cases dir <;> rfl
    | read t n x =>
      cases dir <;> cases x <;> cases m <;> by_cases hn : n = 0 <;>
        simp [busCall, transfersIn, transferOf, switchOf, loadOf, Transfer.hasData, hn]
    | write t n x =>
      cases dir <;> cases x <;> cases m <;> by_cases hn : n = 0 <;>
        simp [busCall, transfersIn, transferOf, switchOf, loadOf, Transfer.hasData, hn]

/-- ... and the toggling-rate model exactly the transfers of toggling-rate mode. -/
theorem C42_toggle_bits (dir : Dir) (m : DataBusMode) (ops : List DataOp) :
    (toggleShare dir m ops).filterMap bitsOf = (transfersIn dir .toggling m ops).map fun x => (x.time, x.nBits) := by
  induction ops generalizing m with
  | nil => rfl
  | cons op ops ih =>
    rw [toggleShare, List.filterMap_append, ih]
    cases op with
    | toBus t => cases dir <;> rfl
    | toToggling t => cases dir <;> rfl
    | rates r w => cases dir <;> rfl
    | read t n x => cases dir <;> cases m <;> simp [toggleCall, transfersIn, transferOf, switchOf, bitsOf]
    | write t n x => cases dir <;> cases m <;> simp [toggleCall, transfersIn, transferOf, switchOf, bitsOf]

theorem busCall_mem {dir : Dir} {m : DataBusMode} {op : DataOp} {o : BusOp} (h : o ∈ busCall dir m op) : timeOf op = some o.time := by
  cases op with
  | toBus t => cases dir <;> (simp [busCall] at h; subst h; rfl)
  | toToggling t => cases dir <;> (simp [busCall] at h; subst h; rfl)
  | rates r w => cases dir <;> simp [busCall, transferOf] at h
  | read t n x =>
    cases dir <;> cases x <;> simp [busCall, transferOf] at h
    obtain ⟨-, rfl⟩ := h; rfl
  | write t n x =>
    cases dir <;> cases x <;> simp [busCall, transferOf] at h
    obtain ⟨-, rfl⟩ := h; rfl

theorem busCall_len (dir : Dir) (m : DataBusMode) (op : DataOp) : busCall dir m op = [] ∨ ∃ o, busCall dir m op = [o] := by
  cases op with
  | toBus t => exact .inr ⟨_, rfl⟩
  | toToggling t => exact .inr ⟨_, rfl⟩
  | rates r w => cases dir <;> exact .inl rfl
  | read t n x =>
    cases dir <;> cases x <;> simp only [busCall, transferOf] <;> (try split) <;> simp
  | write t n x =>
    cases dir <;> cases x <;> simp only [busCall, transferOf] <;> (try split) <;> simp

theorem dataTimed_bus {dr : Nat} (dir : Dir) : ∀ (ops : List DataOp) (m : DataBusMode) {lo : Nat}, DataTimed lo ops →
    ∀ {lo'}, lo' ≤ lo * dr → BusTimed dr lo' (busShare dir m ops) := by
  intro ops
  induction ops with
  | nil => intros; trivial
  | cons op ops ih =>
    intro m lo h lo' hlo
    unfold DataTimed at h
    rw [busShare]
    rcases busCall_len dir m op with e | ⟨o, e⟩
    · rw [e, List.nil_append]
      split at h
      · exact ih _ h.2 (Nat.le_trans hlo (Nat.mul_le_mul_right _ h.1))
      · exact ih _ h hlo
    · have ht := busCall_mem (o := o) (by rw [e]; simp)
      rw [ht] at h
      rw [e]
      exact ⟨Nat.le_trans hlo (Nat.mul_le_mul_right _ h.1), ih _ h.2 (Nat.le_refl _)⟩

theorem dataTimed_toggle {dr : Nat} (dir : Dir) : ∀ (ops : List DataOp) (m : DataBusMode) {lo : Nat}, DataTimed lo ops →
    ∀ {lo'}, lo' ≤ lo * dr → ToggleTimed dr lo' (toggleShare dir m ops) := by
  intro ops
  induction ops with
  | nil => intros; trivial
  | cons op ops ih =>
    intro m lo h lo' hlo
    have mul : ∀ {t}, lo ≤ t → lo' ≤ t * dr := fun h => Nat.le_trans hlo (Nat.mul_le_mul_right _ h)
    cases op with
    | toBus t => exact ⟨mul h.1, ih _ h.2 (Nat.le_refl _)⟩
    | toToggling t => exact ⟨mul h.1, ih _ h.2 (Nat.le_refl _)⟩
    | rates r w => cases dir <;> exact ih m h hlo
    | read t n x =>
      cases dir <;> cases m
      · exact ih _ h.2 (mul h.1)
      · exact ⟨mul h.1, ih _ h.2 (Nat.le_refl _)⟩
      · exact ih _ h.2 (mul h.1)
      · exact ih _ h.2 (mul h.1)
    | write t n x =>
      cases dir <;> cases m
      · exact ih _ h.2 (mul h.1)
      · exact ih _ h.2 (mul h.1)
      · exact ih _ h.2 (mul h.1)
      · exact ⟨mul h.1, ih _ h.2 (Nat.le_refl _)⟩

theorem dataTimed_last {dr t : Nat} (dir : Dir) : ∀ (ops : List DataOp) (m : DataBusMode), (∀ op ∈ ops, ∀ u, timeOf op = some u → u < t) →
    ∀ {lo}, lo ≤ t * dr → lastCall dr lo (toggleShare dir m ops) ≤ t * dr := by
  intro ops
  induction ops with
  | nil => intro m _ lo h; exact h
  | cons op ops ih =>
    intro m h lo hlo
    have ht : ∀ u, timeOf op = some u → u * dr ≤ t * dr := fun u hu => Nat.mul_le_mul_right _ (Nat.le_of_lt (h op (by simp) u hu))
    have h' : ∀ op ∈ ops, ∀ u, timeOf op = some u → u < t := fun o ho => h o (by simp [ho])
    cases op with
    | toBus u => exact ih _ h' (ht u rfl)
    | toToggling u => exact ih _ h' (ht u rfl)
    | rates r w => cases dir <;> exact ih m h' hlo
    | read u n x =>
      cases dir <;> cases m
      · exact ih _ h' hlo
      · exact ih _ h' (ht u rfl)
      · exact ih _ h' hlo
      · exact ih _ h' hlo
    | write u n x =>
      cases dir <;> cases m
      · exact ih _ h' hlo
      · exact ih _ h' hlo
      · exact ih _ h' hlo
      · exact ih _ h' (ht u rfl)

theorem busShare_mem {dir : Dir} {o : BusOp} : ∀ {ops : List DataOp} {m : DataBusMode}, o ∈ busShare dir m ops →
    ∃ op ∈ ops, ∃ m', o ∈ busCall dir m' op := by
  intro ops
  induction ops with
  | nil => intro m h; simp [busShare] at h
  | cons op ops ih =>
    intro m h
    rw [busShare, List.mem_append] at h
    rcases h with h | h
    · exact ⟨op, by simp, m, h⟩
    · obtain ⟨op', h1, h2⟩ := ih h
      exact ⟨op', by simp [h1], h2⟩

/-- Payloads are at least one word long and no switch to toggling-rate mode happens at clock 0. -/
def DataOp.Proper (width : Nat) : DataOp → Prop
  | .read _ n (some _) => n ≠ 0 → width ≤ n
  | .write _ n (some _) => n ≠ 0 → width ≤ n
  | .toToggling t => 0 < t
  | _ => True

theorem busShare_proper {dir : Dir} {ops : List DataOp} {m : DataBusMode} {width : Nat} (h : ∀ op ∈ ops, op.Proper width) :
    ∀ o ∈ busShare dir m ops, o.Proper width := by
  intro o ho
  obtain ⟨op, h1, m', h2⟩ := busShare_mem ho
  have hp := h op h1
  cases op with
  | toBus t => cases dir <;> (simp [busCall] at h2; subst h2; trivial)
  | toToggling t => cases dir <;> (simp [busCall] at h2; subst h2; exact hp)
  | rates r w => cases dir <;> simp [busCall, transferOf] at h2
  | read t n x =>
    cases dir <;> cases x <;> simp [busCall, transferOf] at h2
    obtain ⟨hc, rfl⟩ := h2; exact hp hc.2
  | write t n x =>
    cases dir <;> cases x <;> simp [busCall, transferOf] at h2
    obtain ⟨hc, rfl⟩ := h2; exact hp hc.2

/-- Configuration of a direction. -/
def DataBusConfig.dir (c : DataBusConfig) : Dir → DirRates
  | .read => c.read
  | .write => c.write

/-- The figures of the bit-accurate bus for a direction: the waveform of its share. -/
def busFigures (c : DataBusConfig) (m : DataBusMode) (dir : Dir) (ops : List DataOp) (t : Nat) : BusStats :=
  let high : Levels := fun _ => (c.dir dir).idle == .H
  Line.stats c.width high (Line.after c.width c.dataRate lastFirst high (m == .bus) ((busShare dir m ops).map BusOp.drive)) (t * c.dataRate)

/-- The figures of the toggling-rate model for a direction: the closed form over the activity of its share. -/
def toggleFigures (c : DataBusConfig) (m : DataBusMode) (dir : Dir) (ops : List DataOp) (t : Nat) : BusStats :=
  let rates := finalRates (c.dir dir).togglingRate (c.dir dir).dutyCycle (c.dir dir).idle (toggleShare dir m ops)
  let a := Activity.after c.width c.dataRate (m == .toggling) (toggleShare dir m ops)
  toggleStats c.width rates.1 rates.2.1 (rates.2.2 == .H) (a.beats (some true) (t * c.dataRate)) (a.beats (some false) (t * c.dataRate))

/-- The idle beats counted too many after each switch back to bus mode (`C19_exact`). -/
def busExcess (c : DataBusConfig) (m : DataBusMode) (dir : Dir) (ops : List DataOp) : BusStats :=
  let high : Levels := fun _ => (c.dir dir).idle == .H
  reEnabled c.dataRate (m == .bus) (busShare dir m ops) * beat c.width high high

/-- The rates given by every rate change are valid. -/
def DataOp.Valid : DataOp → Prop
  | .rates r w => r.idle ≠ .invalid ∧ w.idle ≠ .invalid
  | _ => True

theorem finalRates_valid {dir : Dir} : ∀ (ops : List DataOp) (m : DataBusMode), (∀ op ∈ ops, op.Valid) → ∀ {r du : Rate} {i : ToggleIdle},
    i ≠ .invalid → (finalRates r du i (toggleShare dir m ops)).2.2 ≠ .invalid := by
  intro ops
  induction ops with
  | nil => intro m _ r du i hi; exact hi
  | cons op ops ih =>
    intro m h r du i hi
    have hv := h op (by simp)
    have h' : ∀ op ∈ ops, op.Valid := fun o ho => h o (by simp [ho])
    rw [toggleShare, finalRates_append]
    apply ih _ h'
    cases op with
    | toBus t => exact hi
    | toToggling t => exact hi
    | rates r w => cases dir
                   · exact hv.1
                   · exact hv.2
    | read t n x => cases dir <;> cases m <;> exact hi
    | write t n x => cases dir <;> cases m <;> exact hi

/-- Every accepted history in which payloads are at least one word long, queried after its last call: the result is the
waveform figures of the bus shares (plus the idle beats of `C19_exact` for every switch back to bus mode) and the
closed-form figures of the toggling-rate shares. -/
theorem C42_stats_partial (hs : DataBus.init N c m = .ok start) (hr : start.run ops = .ok d) (hN : c.width ≤ N)
    (hp : ∀ op ∈ ops, op.Proper c.width) (hv : ∀ op ∈ ops, op.Valid) (hT : DataTimed 0 ops) (t : Nat) (h0 : 0 < t)
    (ht : ∀ op ∈ ops, ∀ u, timeOf op = some u → u < t) :
    d.getStats t = .ok { busRead := busFigures c m .read ops t + busExcess c m .read ops
                         busWrite := busFigures c m .write ops t + busExcess c m .write ops
                         togglingRead := toggleFigures c m .read ops t
                         togglingWrite := toggleFigures c m .write ops t } := by
  obtain ⟨-, -, ir, iw, hir, hiw, hbr, hbw, htr, htw⟩ := data_init hs
  have hw : 0 < c.width := by have := (toggle_init htr).1.wpos; rwa [(toggle_init htr).2.1] at this
  have hd : 0 < c.dataRate := by have := (toggle_init htr).1.dpos; rwa [(toggle_init htr).2.2] at this
  have idle : ∀ {j : ToggleIdle} {p : IdlePattern}, DataBus.convertIdle j = .ok p → (p == .H) = (j == .H) ∧ j ≠ .invalid := by
    intro j p h
    cases j <;> cases h <;> decide
  have bus : ∀ dir p, DataBus.convertIdle (c.dir dir).idle = .ok p → Bus.init N c.width c.dataRate p (m == .bus) = .ok (start.bus dir) →
      (d.bus dir).getStats t = .ok (busFigures c m dir ops t + busExcess c m dir ops) := by
    intro dir p hp1 hb
    have := C19_exact N c.width c.dataRate p (m == .bus) hw hN hd _ _ _ hb (C42_shares hs hr dir).1 (busShare_proper hp)
      (dataTimed_bus dir ops m hT (by omega)) t h0 fun o ho => by
        obtain ⟨op, h1, m', h2⟩ := busShare_mem ho
        exact ht op h1 _ (busCall_mem h2)
    rw [(idle hp1).1] at this
    exact this
  have tog : ∀ dir p, DataBus.convertIdle (c.dir dir).idle = .ok p →
      Toggling.init c.width c.dataRate (c.dir dir).togglingRate (c.dir dir).dutyCycle (c.dir dir).idle (m == .toggling) = .ok (start.toggle dir) →
      (d.toggle dir).getStats t = .ok (toggleFigures c m dir ops t) := by
    intro dir p hp1 hi
    exact (C22 hi (C42_shares hs hr dir).2.1 (dataTimed_toggle dir ops m hT (by omega)) t (dataTimed_last dir ops m ht (Nat.zero_le _)) _).2
      ⟨finalRates_valid ops m hv (idle hp1).2, rfl⟩
  have b1 : d.busRead.getStats t = _ := bus .read ir hir hbr
  have b2 : d.busWrite.getStats t = _ := bus .write iw hiw hbw
  have t1 : d.togglingRead.getStats t = _ := tog .read ir hir htr
  have t2 : d.togglingWrite.getStats t = _ := tog .write iw hiw htw
  unfold DataBus.getStats
  simp only [bind, Except.bind, b1, b2, t1, t2]
  rfl

/-- A payload that no later call interrupts is on the wires of its bus, beat by beat. -/
theorem C42_payload_on_wires (width dr : Nat) (idle : Levels) (enabled : Bool) (before after : List BusOp) (t n : Nat) (x : List UInt8)
    (hon : (Line.after width dr lastFirst idle enabled (before.map BusOp.drive) (t * dr)).isSome)
    (hlater : ∀ o ∈ after, t * dr + n / width ≤ o.time * dr) (i : Nat) (hi : i < n / width) :
    Line.after width dr lastFirst idle enabled ((before ++ .load t x n :: after).map BusOp.drive) (t * dr + i)
      = some (payloadWord width x (n / width - 1 - i)) := by
  have keep : ∀ (after : List BusOp) (l : Line), (∀ o ∈ after, t * dr + n / width ≤ o.time * dr) →
      ((after.map BusOp.drive).foldl (Line.drive width dr lastFirst idle) l) (t * dr + i) = l (t * dr + i) := by
    intro after
    induction after with
    | nil => intros; rfl
    | cons o after ih =>
      intro l h
      have ho := h o (by simp)
      rw [List.map_cons, List.foldl_cons, ih _ fun o ho => h o (by simp [ho])]
      cases o with
      | load u y k =>
        have : ¬ u * dr ≤ t * dr + i := by simp only [BusOp.time] at ho; omega
        simp [BusOp.drive, Line.drive, this]
      | disable u =>
        have : ¬ u * dr ≤ t * dr + i := by simp only [BusOp.time] at ho; omega
        simp [BusOp.drive, Line.drive, this]
      | enable u =>
        have : ¬ u * dr ≤ t * dr + i := by simp only [BusOp.time] at ho; omega
        simp [BusOp.drive, Line.drive, this]
  unfold Line.after at hon ⊢
  rw [List.map_append, List.foldl_append, List.map_cons, List.foldl_cons, keep after _ hlater]
  simp only [BusOp.drive, Line.drive, hon, Bool.true_and]
  rw [if_pos (by simp; omega)]
  simp [lastFirst]

/-- No transfer in toggling-rate mode is going on when the mode is left; `e` is the beat at which the last one ends. -/
def Settled (dir : Dir) (width dr : Nat) : DataBusMode → Nat → List DataOp → Prop
  | _, _, [] => True
  | m, e, op :: ops =>
    match op, transferOf dir op with
    | .toBus t, _ => (m = .toggling → e ≤ t * dr) ∧ Settled dir width dr .bus e ops
    | .toToggling _, _ => Settled dir width dr .toggling (if m = .toggling then e else 0) ops
    | _, some x => Settled dir width dr m (if m = .toggling then x.time * dr + x.nBits / width else e) ops
    | _, _ => Settled dir width dr m e ops

theorem beats_congr_iff {a a' : Activity} {w : Option Bool} : ∀ {T : Nat}, (∀ k < T, a k = w ↔ a' k = w) → a.beats w T = a'.beats w T
  | 0, _ => rfl
  | T + 1, h => by
    rw [Activity.beats, Activity.beats, beats_congr_iff fun k hk => h k (by omega)]
    simp only [h T (by omega)]

theorem beats_settled {width dr T : Nat} (dir : Dir) : ∀ (ops : List DataOp) (m : DataBusMode) (a : Activity) (lo e : Nat),
    (∀ k, lo * dr ≤ k → a k = if m = .toggling then some (decide (k < e)) else none) → DataTimed lo ops → Settled dir width dr m e ops →
    acceptable width dr a (toggleShare dir m ops) → (m = .toggling → e ≤ T) →
    (∀ x ∈ transfersIn dir .toggling m ops, x.time * dr + x.nBits / width ≤ T) →
    width * ((toggleShare dir m ops).foldl (Activity.drive width dr) a).beats (some true) T
      = width * a.beats (some true) T + ((transfersIn dir .toggling m ops).map Transfer.nBits).sum := by
  intro ops
  induction ops with
  | nil => intros; simp [toggleShare, transfersIn]
  | cons op ops ih =>
    intro m a lo e ha hT hse hacc he hend
    have mono : ∀ {u k}, lo ≤ u → u * dr ≤ k → lo * dr ≤ k := fun h h' => Nat.le_trans (Nat.mul_le_mul_right _ h) h'
    -- a call of the other direction, or a call that changes nothing here
    have other : ∀ {u}, lo ≤ u → DataTimed u ops → Settled dir width dr m e ops → acceptable width dr a (toggleShare dir m ops) →
        (∀ x ∈ transfersIn dir .toggling m ops, x.time * dr + x.nBits / width ≤ T) →
        width * ((toggleShare dir m ops).foldl (Activity.drive width dr) a).beats (some true) T
          = width * a.beats (some true) T + ((transfersIn dir .toggling m ops).map Transfer.nBits).sum :=
      fun hlo h1 h2 h3 h4 => ih m a _ e (fun k hk => ha k (mono hlo hk)) h1 h2 h3 he h4
    have transfer : ∀ {u n} (x : Option (List UInt8)), m = .toggling → lo ≤ u → DataTimed u ops → Settled dir width dr .toggling (u * dr + n / width) ops →
        acceptable width dr a (.transfer u n :: toggleShare dir m ops) →
        (∀ y ∈ Transfer.mk u n x :: transfersIn dir .toggling m ops, y.time * dr + y.nBits / width ≤ T) →
        width * ((ToggleOp.transfer u n :: toggleShare dir m ops).foldl (Activity.drive width dr) a).beats (some true) T
          = width * a.beats (some true) T + ((Transfer.mk u n x :: transfersIn dir .toggling m ops).map Transfer.nBits).sum := by
      intro u n x hm hlo h1 h2 h3 h4
      obtain ⟨hb, hna, hacc⟩ := h3
      have au := ha (u * dr) (Nat.mul_le_mul_right _ hlo)
      rw [if_pos hm] at au
      have hne : ¬ u * dr < e := by intro hc; rw [au] at hna; simp [hc] at hna
      obtain ⟨L, hL⟩ : ∃ L, n / width = L := ⟨_, rfl⟩
      have d1 : ∀ k, a.drive width dr (.transfer u n) k = if u * dr ≤ k ∧ k < u * dr + L then some true else a k := by
        intro k; rw [← hL]; simp [Activity.drive, au]
      have hLT := h4 (Transfer.mk u n x) (by simp)
      simp only at hLT
      rw [hL] at hLT h2
      have r1 := ih m (a.drive width dr (.transfer u n)) u (u * dr + L)
        (fun k hk => by
          rw [d1, if_pos hm]
          by_cases hk2 : k < u * dr + L
          · simp [hk, hk2]
          · rw [if_neg (by omega), ha k (mono hlo hk), if_pos hm]
            have : ¬ k < e := by omega
            simp [hk2, this])
        h1 (by rw [hm]; exact h2) hacc (fun _ => hLT) fun y hy => h4 y (by simp [hy])
      rw [List.foldl_cons, r1, List.map_cons, List.sum_cons]
      have c1 : (a.drive width dr (.transfer u n)).beats (some true) (u * dr) = a.beats (some true) (u * dr) :=
        beats_congr fun k hk => by rw [d1, if_neg (by omega)]
      have c2 := beats_span (a := a.drive width dr (.transfer u n)) (w := some true) (v := some true) (lo := u * dr)
        (hi := u * dr + L) (by omega) fun k h1 h2 => by rw [d1, if_pos ⟨h1, h2⟩]
      have afalse : ∀ k, u * dr ≤ k → a k = some false := by
        intro k hk
        rw [ha k (mono hlo hk), if_pos hm]
        have : ¬ k < e := by omega
        simp [this]
      have c3 := beats_span (a := a.drive width dr (.transfer u n)) (w := some true) (v := some false) (lo := u * dr + L)
        (hi := T) hLT fun k h1 h2 => by rw [d1, if_neg (by omega), afalse k (by omega)]
      have c4 := beats_span (a := a) (w := some true) (v := some false) (lo := u * dr) (hi := T) (by omega) fun k h1 h2 => afalse k h1
      simp only [reduceCtorEq, if_false, if_true, Option.some.injEq, Nat.add_zero, Bool.false_eq_true] at c2 c3 c4
      rw [c3, c2, c1, c4, Nat.mul_add]
      have := Nat.div_add_mod n width
      rw [hb, hL] at this
      have e2 : u * dr + L - u * dr = L := by omega
      rw [e2]
      simp only
      omega
    cases op with
    | toBus u =>
      have hse : (m = .toggling → e ≤ u * dr) ∧ Settled dir width dr .bus e ops := by cases dir <;> exact hse
      have hend : ∀ x ∈ transfersIn dir .toggling .bus ops, x.time * dr + x.nBits / width ≤ T := by cases dir <;> exact hend
      have e1 : transfersIn dir .toggling m (.toBus u :: ops) = transfersIn dir .toggling .bus ops := by cases dir <;> rfl
      rw [e1]
      have r1 := ih .bus (a.drive width dr (.disable u)) u e (fun k hk => by simp [Activity.drive, hk]) hT.2 hse.2 hacc (by simp) hend
      show width * ((toggleShare dir .bus ops).foldl (Activity.drive width dr) (a.drive width dr (.disable u))).beats (some true) T = _
      rw [r1]
      congr 2
      apply beats_congr_iff
      intro k _
      simp only [Activity.drive]
      split
      · rename_i hk
        rw [ha k (mono hT.1 hk)]
        by_cases hm : m = .toggling
        · have : ¬ k < e := by have := hse.1 hm; omega
          simp [hm, this]
        · simp [hm]
      · exact Iff.rfl
    | toToggling u =>
      have hse : Settled dir width dr .toggling (if m = .toggling then e else 0) ops := by cases dir <;> exact hse
      have hend : ∀ x ∈ transfersIn dir .toggling .toggling ops, x.time * dr + x.nBits / width ≤ T := by cases dir <;> exact hend
      have e1 : transfersIn dir .toggling m (.toToggling u :: ops) = transfersIn dir .toggling .toggling ops := by cases dir <;> rfl
      rw [e1]
      have r1 := ih .toggling (a.drive width dr (.enable u)) u _ (fun k hk => by
          have := ha k (mono hT.1 hk)
          by_cases hm : m = .toggling
          · rw [if_pos hm] at this; simp [Activity.drive, this, hm]
          · rw [if_neg hm] at this; simp [Activity.drive, this, hm, hk])
        hT.2 hse hacc (fun _ => by split; · exact he (by assumption)
                                   · omega) hend
      show width * ((toggleShare dir .toggling ops).foldl (Activity.drive width dr) (a.drive width dr (.enable u))).beats (some true) T = _
      rw [r1]
      congr 2
      apply beats_congr_iff
      intro k _
      simp only [Activity.drive]
      split
      · rename_i hk; simp [hk.2]
      · exact Iff.rfl
    | rates r w =>
      cases dir <;> exact ih m a lo e ha hT hse hacc he hend
    | read u n x =>
      cases dir
      · rcases (show m = .bus ∨ m = .toggling by cases m <;> simp) with hm | hm
        · subst hm; exact other hT.1 hT.2 hse hacc hend
        · subst hm; exact transfer x rfl hT.1 hT.2 hse hacc hend
      · exact other hT.1 hT.2 hse hacc hend
    | write u n x =>
      cases dir
      · exact other hT.1 hT.2 hse hacc hend
      · rcases (show m = .bus ∨ m = .toggling by cases m <;> simp) with hm | hm
        · subst hm; exact other hT.1 hT.2 hse hacc hend
        · subst hm; exact transfer x rfl hT.1 hT.2 hse hacc hend

/-- Unless a transfer is cut by leaving its mode, the beats counted by the toggling-rate model carry exactly the bits of the
transfers made in toggling-rate mode, whatever the switches. Missing from the property: transfers cut by a switch
(`C42_violation`). -/
theorem C42_conserved_partial (hs : DataBus.init N c m = .ok start) (hr : start.run ops = .ok d) (hT : DataTimed 0 ops) (dir : Dir)
    (hset : Settled dir c.width c.dataRate m 0 ops) (T : Nat)
    (hend : ∀ x ∈ transfersIn dir .toggling m ops, x.time * c.dataRate + x.nBits / c.width ≤ T) :
    c.width * (Activity.after c.width c.dataRate (m == .toggling) (toggleShare dir m ops)).beats (some true) T
      = ((transfersIn dir .toggling m ops).map Transfer.nBits).sum := by
  obtain ⟨-, -, ir, iw, hir, hiw, hbr, hbw, htr, htw⟩ := data_init hs
  have hacc : acceptable c.width c.dataRate (fun _ => if (m == .toggling) = true then some false else none) (toggleShare dir m ops) := by
    have hT' : ToggleTimed c.dataRate 0 (toggleShare dir m ops) := dataTimed_toggle dir ops m hT (by omega)
    have := (C42_shares hs hr dir).2.1
    cases dir
    · exact (C22_accept htr hT').1 ⟨_, this⟩
    · exact (C22_accept htw hT').1 ⟨_, this⟩
  have := beats_settled dir ops m _ 0 0 (fun k _ => by cases m <;> simp) hT hset hacc (by simp) hend
  unfold Activity.after
  rw [this]
  have h0 : ∀ T, Activity.beats (fun _ => if (m == DataBusMode.toggling) = true then some false else none) (some true) T = 0 := by
    intro T
    induction T with
    | zero => rfl
    | succ T ih => rw [Activity.beats, ih]; cases m <;> simp
  rw [h0]; simp

/-- The property for the toggling-rate model of the read direction with only ones on the wires: when all transfers are over,
as many ones are reported as bits were transferred in toggling-rate mode. -/
def C42_statement : Prop :=
  ∀ (N : Nat) (c : DataBusConfig) (m : DataBusMode) (start d : DataBus N) (ops : List DataOp), DataBus.init N c m = .ok start →
    start.run ops = .ok d → DataTimed 0 ops → (∀ r w, DataOp.rates r w ∉ ops) → c.read.dutyCycle.num = c.read.dutyCycle.den → c.read.idle = .L →
    ∀ t, (∀ op ∈ ops, ∀ u, timeOf op = some u → u < t) →
      (∀ x ∈ transfersIn .read .toggling m ops, x.time * c.dataRate + x.nBits / c.width ≤ t * c.dataRate) →
    ∀ s, d.getStats t = .ok s → s.togglingRead.ones = ((transfersIn .read .toggling m ops).map Transfer.nBits).sum

/-- Eight wires, one beat per clock, all ones, idle low. -/
def c42Config : DataBusConfig where
  width := 8
  dataRate := 1
  read := ⟨⟨1, 2, by decide, by decide⟩, ⟨1, 1, by decide, by decide⟩, .L⟩
  write := ⟨⟨1, 2, by decide, by decide⟩, ⟨1, 2, by decide, by decide⟩, .H⟩

/-- A transfer of eight beats, cut by a switch to bus mode after three. -/
def c42Cut : List DataOp := [.read 2 64 none, .toBus 5]

/-- The rest of a transfer that is cut by a switch is counted by neither model. -/
theorem C42_violation : ¬ C42_statement := by
  intro h
  have hex : ∃ start d s, DataBus.init 64 c42Config .toggling = .ok start ∧ start.run c42Cut = .ok d ∧ d.getStats 20 = .ok s ∧
      s.togglingRead.ones = 24 := ⟨_, _, _, rfl, rfl, rfl, by decide +kernel⟩
  obtain ⟨start, d, s, h1, h2, h3, h4⟩ := hex
  have := h 64 c42Config .toggling start d c42Cut h1 h2 (by simp [DataTimed, c42Cut, timeOf]) (by simp [c42Cut]) rfl rfl 20
    (by simp [c42Cut, timeOf]) (by simp [c42Cut, transfersIn, transferOf, switchOf, c42Config]) s h3
  rw [h4] at this
  exact absurd this (by decide)

/-- A history with switches in both directions, payloads in both modes and a rate change. -/
def c42Ops : List DataOp :=
  [.read 1 16 (some [0x12, 0x34]), .write 2 8 (some [0xff]), .toToggling 10, .read 11 32 (some [1, 2, 3, 4]), .write 12 16 none,
    .rates c42Config.read c42Config.write, .toBus 20, .read 22 8 (some [0xa5]), .read 25 8 none]

example : ∃ start d s, DataBus.init 64 c42Config .bus = .ok start ∧ start.run c42Ops = .ok d ∧ d.getStats 30 = .ok s ∧
    s.togglingRead = { ones := 32, zeroes := 48, bitChanges := 16, onesToZeroes := 8, zeroesToOnes := 8 } ∧
    s.busRead.ones = 2 + 3 + 4 ∧ (transfersIn .read .toggling .bus c42Ops).map Transfer.nBits = [32] :=
  ⟨_, _, _, rfl, rfl, rfl, by decide +kernel, by decide +kernel, rfl⟩

example : DataTimed 0 c42Ops ∧ (∀ op ∈ c42Ops, op.Proper 8) ∧ (∀ op ∈ c42Ops, op.Valid) ∧ Settled .read 8 1 .bus 0 c42Ops ∧
    (∀ op ∈ c42Ops, ∀ u, timeOf op = some u → u < 30) := by
  refine ⟨?_, ?_, ?_, ?_, ?_⟩ <;> simp [c42Ops, DataTimed, timeOf, DataOp.Proper, DataOp.Valid, Settled, transferOf, c42Config]

/-- Every width up to 4096 gets a bit set at least as wide, so that the hypothesis `c.width ≤ N` above holds. -/
theorem C42_presets (width N : Nat) (h : DataBus.presetSize width = .ok N) : width ≤ N := by
  unfold DataBus.presetSize at h
  repeat' (split at h)
  all_goals cases h
  all_goals omega

/-- The largest bus. -/
example : DataBus.presetSize 4096 = .ok 4096 := rfl

end DRAMPower
