import Verif.Lemmas.Session
import Verif.Lemmas.InversionTrace
import Verif.Model.SimulatorStats

/-!
# Lemmas about the end marker

The core, the interface and the simulator do not depend on the remembered time of the last command.
-/

namespace DRAMPower

/-! ## The core -/

/-- Two cores that differ at most in the time of the last command. -/
def Core.Timeless (c d : Core) : Prop := c.ranks = d.ranks ∧ c.queue = d.queue

theorem processQ_timeless {std : Std} {t : Nat} : ∀ {q : List QEntry} {ranks : Nat → Rank} {l l' : Nat},
    (processQ std t ranks l q).Timeless (processQ std t ranks l' q)
  | [], _, _, _ => ⟨rfl, rfl⟩
  | e :: q, ranks, l, l' => by
    unfold processQ
    split
    · exact ⟨rfl, rfl⟩
    · exact ⟨rfl, rfl⟩

theorem Core.Timeless.process {std : Std} {t : Nat} {c d : Core} (h : c.Timeless d) : (c.process std t).Timeless (d.process std t) := by
  unfold Core.process
  rw [h.1, h.2]
  exact processQ_timeless

/-- Two cores that are alike once everything due by `now` has been executed. -/
def TimelessAt (std : Std) (now : Nat) (c d : Core) : Prop := (c.process std now).Timeless (d.process std now)

theorem TimelessAt.mono {std : Std} {now t : Nat} {c d : Core} (h : TimelessAt std now c d) (ht : now ≤ t) : TimelessAt std t c d := by
  have := h.process (std := std) (t := t)
  rwa [Core.process_process ht, Core.process_process ht] at this

/-- Both fail alike, or both succeed with related results. -/
def BothOr {α β : Type} (r : α → β → Prop) : Except Err α → Except Err β → Prop
  | .ok a, .ok b => r a b
  | .error e, .error e' => e = e'
  | _, _ => False

theorem TimelessAt.doCommand {std : Std} {ms : MemSpec} {now : Nat} {cmd : Cmd} {c d : Core} (h : TimelessAt std now c d) (ht : now ≤ cmd.t) :
    BothOr Core.Timeless (c.doCommand std ms cmd) (d.doCommand std ms cmd) := by
  have hk := h.mono ht
  unfold TimelessAt at hk
  unfold Core.doCommand
  dsimp only
  generalize c.process std cmd.t = c1 at hk
  generalize d.process std cmd.t = d1 at hk
  obtain ⟨h1, h2⟩ := hk
  split
  · exact ⟨h1, h2⟩
  · split
    · rw [h1, h2]
      split
      · exact ⟨rfl, rfl⟩
      · rfl
    · rfl

theorem run_timeless {std : Std} {ms : MemSpec} : ∀ {cmds : List Cmd} {now : Nat} {c d : Core}, TimelessAt std now c d → (∀ x ∈ cmds, now ≤ x.t) →
    (cmds.Pairwise fun a b => a.t ≤ b.t) →
    BothOr (fun c' d' => ∀ t, now ≤ t → (∀ x ∈ cmds, x.t ≤ t) → TimelessAt std t c' d') (c.run std ms cmds) (d.run std ms cmds)
  | [], _, _, _, h, _, _ => fun _ ht _ => h.mono ht
  | x :: cmds, now, c, d, h, hn, ho => by
    have ho' := List.pairwise_cons.1 ho
    have k := h.doCommand (ms := ms) (hn x (by simp))
    unfold Core.run
    cases hc : c.doCommand std ms x with
    | error e =>
      cases hd : d.doCommand std ms x with
      | error e' => rw [hc, hd] at k; exact k
      | ok d1 => rw [hc, hd] at k; exact k.elim
    | ok c1 =>
      cases hd : d.doCommand std ms x with
      | error e' => rw [hc, hd] at k; exact k.elim
      | ok d1 =>
        rw [hc, hd] at k
        have k1 : TimelessAt std x.t c1 d1 := Core.Timeless.process k
        have := run_timeless (ms := ms) k1 ho'.1 ho'.2
        dsimp only
        revert this
        cases c1.run std ms cmds <;> cases d1.run std ms cmds <;> intro this
        · exact this
        · exact this
        · exact this
        · exact fun t ht hall => this t (hall x (by simp)) fun y hy => hall y (by simp [hy])

/-- The end marker only executes what is due. -/
theorem endMarker_timeless {std : Std} {ms : MemSpec} {e : Cmd} (he : e.type = .END_OF_SIMULATION) (c : Core) :
    ∃ c', c.doCommand std ms e = .ok c' ∧ TimelessAt std e.t c c' := by
  unfold Core.doCommand
  have : isNoEffect std e.type = true := by rw [he]; rfl
  simp only [this, if_true]
  refine ⟨_, rfl, ?_⟩
  have h1 : (c.process std e.t).Timeless { c.process std e.t with last := max e.t (c.process std e.t).last } := ⟨rfl, rfl⟩
  have := h1.process (std := std) (t := e.t)
  rwa [Core.process_process (Nat.le_refl _)] at this

/-! ## The interface -/

namespace Interface
variable {std : Std} {N : Nat}

/-- Another time of the last command. -/
def at' (i : Interface std N) (x : Nat) : Interface std N := { i with last := x }

/-- The result with another time of the last command. -/
def later {α : Type} (x : Nat) (r : Except Err (Interface std N × α)) : Except Err (Interface std N × α) := r.map fun p => (p.1.at' x, p.2)

/-- See `later`. -/
def later1 (x : Nat) (r : Except Err (Interface std N)) : Except Err (Interface std N) := r.map (at' · x)

theorem later_bind {α β : Type} {x : Nat} (r : Except Err (Interface std N × α)) {f : Interface std N × α → Except Err (Interface std N × β)}
    (hf : ∀ p, f (p.1.at' x, p.2) = later x (f p)) : (later x r >>= f) = later x (r >>= f) := by
  cases r with
  | error e => rfl
  | ok p => exact hf p

theorem later_bind1 {α : Type} {x : Nat} (r : Except Err (Interface std N × α)) {f : Interface std N × α → Except Err (Interface std N)}
    (hf : ∀ p, f (p.1.at' x, p.2) = later1 x (f p)) : (later x r >>= f) = later1 x (r >>= f) := by
  cases r with
  | error e => rfl
  | ok p => exact hf p

theorem later1_bind {β : Type} {x : Nat} (r : Except Err (Interface std N)) {f : Interface std N → Except Err (Interface std N × β)}
    (hf : ∀ i, f (i.at' x) = later x (f i)) : (later1 x r >>= f) = later x (r >>= f) := by
  cases r with
  | error e => rfl
  | ok p => exact hf p

theorem later1_bind1 {x : Nat} (r : Except Err (Interface std N)) {f : Interface std N → Except Err (Interface std N)}
    (hf : ∀ i, f (i.at' x) = later1 x (f i)) : (later1 x r >>= f) = later1 x (r >>= f) := by
  cases r with
  | error e => rfl
  | ok p => exact hf p

variable {sp : IfSpec} {i : Interface std N} {x : Nat} {c : ICmd} {read : Bool}

theorem encodeCommand_at : (i.at' x).encodeCommand sp c = later x (i.encodeCommand sp c) := by
  unfold encodeCommand
  split
  · show (i.ca6.command c.type c.co6 >>= _) = _
    cases i.ca6.command c.type c.co6 <;> rfl
  · show (i.ca.command (patterns sp.arch std) c.type c.co >>= _) = _
    cases i.ca.command (patterns sp.arch std) c.type c.co <;> rfl

theorem handleCommandBus_at : (i.at' x).handleCommandBus sp c = later1 x (i.handleCommandBus sp c) := by
  unfold handleCommandBus
  rw [encodeCommand_at]
  refine later_bind1 _ fun p => ?_
  obtain ⟨j, w, n⟩ := p
  show (j.cmdBus.loadWord c.t w.toNat (n / j.cmdBus.width) >>= _) = later1 x (j.cmdBus.loadWord c.t w.toNat (n / j.cmdBus.width) >>= _)
  cases j.cmdBus.loadWord c.t w.toNat (n / j.cmdBus.width) <;> rfl

theorem loadData_at {t n : Nat} {data : Option (List UInt8)} : (i.at' x).loadData read t n data = later1 x (i.loadData read t n data) := by
  unfold loadData
  show (loadFunc i.dataBus read t n data >>= _) = _
  cases loadFunc i.dataBus read t n data <;> rfl

theorem pinChange_at {e : DbiEvent} : (i.at' x).pinChange e = later1 x (i.pinChange e) := by
  unfold pinChange
  show (match (if e.read then i.pinsRead else i.pinsWrite)[e.idx]? with | none => _ | some p => _) = _
  cases (if e.read then i.pinsRead else i.pinsWrite)[e.idx]? with
  | none => rfl
  | some p =>
    dsimp only
    cases p.set e.load (pinLevel std e.inverted) 1 with
    | error e => rfl
    | ok q => cases hr : e.read <;> simp only [hr, Bool.false_eq_true, if_true, if_false, bind, Except.bind, if_true, later1, Except.map, pure, Except.pure] <;> rfl

theorem pinChanges_at : ∀ {es : List DbiEvent} {i : Interface std N}, es.foldlM pinChange (i.at' x) = later1 x (es.foldlM pinChange i)
  | [], _ => rfl
  | e :: es, i => by
    simp only [List.foldlM_cons]
    rw [pinChange_at]
    exact later1_bind1 _ fun j => pinChanges_at

theorem invertData_at : (i.at' x).invertData sp c read = later x (i.invertData sp c read) := by
  unfold invertData
  show (if std = .ddr5 ∨ i.dataBus.mode ≠ .bus ∨ i.dbi.enable = false ∨ c.nBits = 0 ∨ c.data = none then _ else _) = _
  split
  · rfl
  · show (i.dbi.update (sp.dbi std) (c.t * sp.dataRate) c.nBits (c.data.map toWords) read >>= _) = _
    cases i.dbi.update (sp.dbi std) (c.t * sp.dataRate) c.nBits (c.data.map toWords) read with
    | error e => rfl
    | ok p =>
      obtain ⟨d, out, ev⟩ := p
      show (ev.foldlM pinChange (({ i with dbi := d } : Interface std N).at' x) >>= _) = _
      rw [pinChanges_at]
      exact later1_bind _ fun j => rfl

theorem transfer_at : (i.at' x).transfer sp c read = later x (i.transfer sp c read) := by
  unfold transfer
  split
  · show (match i.dataBus.mode with | .bus => _ | .toggling => _) = _
    cases i.dataBus.mode with
    | bus => rfl
    | toggling =>
      dsimp only
      show (Interface.loadData (i.at' x) read c.t (sp.burstLength * i.width) none >>= _) = _
      rw [loadData_at]
      exact later1_bind _ fun j => rfl
  · rw [invertData_at]
    refine later_bind _ fun p => ?_
    obtain ⟨j, data⟩ := p
    dsimp only
    split
    · show (j.formatter.formatData sp.shift data c.nBits (j.inversionState read) >>= _) = _
      cases j.formatter.formatData sp.shift data c.nBits (j.inversionState read) with
      | error e => rfl
      | ok q =>
        obtain ⟨f, bytes, n⟩ := q
        show (Interface.loadData (({ j with formatter := f } : Interface std N).at' x) read c.t n bytes >>= _) = _
        rw [loadData_at]
        exact later1_bind _ fun j => rfl
    · rw [loadData_at]
      exact later1_bind _ fun j => rfl

theorem dqs_at {t stop : Nat} : (i.at' x).dqs t stop read = later1 x (i.dqs t stop read) := by
  unfold dqs
  split
  · show (i.readDQS.strobe t stop >>= _) = _
    cases i.readDQS.strobe t stop <;> rfl
  · split
    · rfl
    · show (i.writeDQS.strobe t stop >>= _) = _
      cases i.writeDQS.strobe t stop <;> rfl

theorem runWck_at {t stop : Nat} : (i.at' x).runWck sp t stop = later1 x (i.runWck sp t stop) := by
  unfold runWck
  split
  · show (i.wck.strobe t stop >>= _) = _
    cases i.wck.strobe t stop <;> rfl
  · rfl

theorem overrides_at {n : Nat} : (i.at' x).overrides n read = (i.overrides n read).at' x := by
  unfold overrides
  split <;> rfl

theorem prePostamble_at {n : Nat} : (i.at' x).prePostamble sp c n read = later1 x (i.prePostamble sp c n read) := by
  unfold prePostamble
  split
  · show (match i.ranks[c.co.rank]? with | none => _ | some r => _) = _
    cases i.ranks[c.co.rank]? with
    | none => rfl
    | some r =>
      dsimp only
      cases r.access c.t (n / sp.dataRate) read <;> rfl
  · rfl

theorem handleData_at : (i.at' x).handleData sp c read = later1 x (i.handleData sp c read) := by
  unfold handleData
  rw [transfer_at]
  refine later_bind1 _ fun p => ?_
  obtain ⟨j, n⟩ := p
  dsimp only
  rw [dqs_at]
  refine later1_bind1 _ fun j => ?_
  rw [runWck_at]
  refine later1_bind1 _ fun j => ?_
  rw [overrides_at, handleCommandBus_at]
  refine later1_bind1 _ fun j => ?_
  exact prePostamble_at

theorem endOfSimulation_at {t : Nat} : (i.at' x).endOfSimulation sp t = later1 x (i.endOfSimulation sp t) := by
  unfold endOfSimulation
  show (i.dbi.resetBoth (sp.dbi std) t >>= _) = _
  cases i.dbi.resetBoth (sp.dbi std) t with
  | error e => rfl
  | ok p =>
    show p.2.foldlM pinChange (({ i with dbi := p.1 } : Interface std N).at' x) = _
    rw [pinChanges_at]
    rfl

theorem act_at {a : IfAction} : (i.at' x).act sp c a = later1 x (i.act sp c a) := by
  cases a with
  | bus => exact handleCommandBus_at
  | data read => exact handleData_at
  | finish => exact endOfSimulation_at
  | skip => rfl
  | unsupported => rfl
  | invalid => rfl

theorem doCommand_at : (i.at' x).doCommand sp c = i.doCommand sp c := by
  unfold doCommand
  rw [act_at]
  cases i.act sp c (ifAction sp.arch std c.type) <;> rfl

/-- Two interfaces that differ at most in the time of the last command. -/
def Timeless (i j : Interface std N) : Prop := ∃ x, j = i.at' x

theorem step_timeless {j : Interface std N} (h : i.Timeless j) (op : IfOp) : BothOr Timeless (i.step sp op) (j.step sp op) := by
  obtain ⟨x, rfl⟩ := h
  cases op with
  | cmd c =>
    show BothOr Timeless (i.doCommand sp c) ((i.at' x).doCommand sp c)
    rw [doCommand_at]
    cases i.doCommand sp c with
    | error e => rfl
    | ok k => exact ⟨k.last, rfl⟩
  | dbi e => exact ⟨x, rfl⟩
  | metaData a b => exact ⟨x, rfl⟩
  | parity b =>
    show BothOr Timeless (i.setParityCheckMode sp b) ((i.at' x).setParityCheckMode sp b)
    unfold setParityCheckMode
    split
    · exact ⟨x, rfl⟩
    · rfl
  | enable t =>
    show BothOr Timeless (i.enable sp t) ((i.at' x).enable sp t)
    unfold enable
    show BothOr Timeless (if i.enabled then _ else _) (if i.enabled then _ else _)
    split
    · exact ⟨x, rfl⟩
    · cases sp.wckAlwaysOn with
      | false =>
        show BothOr Timeless (i.clock.start t >>= _) (i.clock.start t >>= _)
        cases i.clock.start t with
        | error e => rfl
        | ok k => exact ⟨t, rfl⟩
      | true =>
        show BothOr Timeless (i.wck.start t >>= _) (i.wck.start t >>= _)
        cases i.wck.start t with
        | error e => rfl
        | ok w =>
          show BothOr Timeless (i.clock.start t >>= _) (i.clock.start t >>= _)
          cases i.clock.start t with
          | error e => rfl
          | ok k => exact ⟨t, rfl⟩
  | disable t =>
    show BothOr Timeless (i.disable sp t) ((i.at' x).disable sp t)
    unfold disable
    show BothOr Timeless (if i.enabled = false then _ else _) (if i.enabled = false then _ else _)
    split
    · exact ⟨x, rfl⟩
    · cases sp.wckAlwaysOn with
      | false =>
        show BothOr Timeless (i.clock.stop t >>= _) (i.clock.stop t >>= _)
        cases i.clock.stop t with
        | error e => rfl
        | ok k => exact ⟨t, rfl⟩
      | true =>
        show BothOr Timeless (i.wck.stop t >>= _) (i.wck.stop t >>= _)
        cases i.wck.stop t with
        | error e => rfl
        | ok w =>
          show BothOr Timeless (i.clock.stop t >>= _) (i.clock.stop t >>= _)
          cases i.clock.stop t with
          | error e => rfl
          | ok k => exact ⟨t, rfl⟩

theorem run_timeless : ∀ {ops : List IfOp} {i j : Interface std N}, i.Timeless j → BothOr Timeless (i.run sp ops) (j.run sp ops)
  | [], _, _, h => h
  | op :: ops, i, j, h => by
    have k := step_timeless (sp := sp) h op
    unfold run
    cases hi : i.step sp op <;> cases hj : j.step sp op <;> rw [hi, hj] at k
    · exact k
    · exact k.elim
    · exact k.elim
    · exact run_timeless k

theorem getWindowStats_timeless {j : Interface std N} (h : i.Timeless j) (t : Nat) (s : SimStats) : j.getWindowStats sp t s = i.getWindowStats sp t s := by
  obtain ⟨x, rfl⟩ := h
  rfl

theorem run_append' {l l' : List IfOp} : ∀ {i : Interface std N}, i.run sp (l ++ l') = match i.run sp l with
    | .ok i => i.run sp l'
    | .error e => .error e := by
  induction l with
  | nil => intro i; rfl
  | cons a l ih =>
    intro i
    simp only [List.cons_append, run]
    split
    · exact ih
    · rfl

/-- Nothing has been inverted yet. -/
def Fresh (i : Interface std N) : Prop := ∀ r, (i.dbi.last r).init = false

theorem fresh_reset (h : i.Fresh) (t : Nat) (r : Bool) (p : DbiParams 8) : i.dbi.reset p t r = .ok (i.dbi, []) := by
  unfold Dbi.reset
  have hs : p.short (i.dbi.last r) = false := by
    unfold DbiParams.short
    rw [h r]
    split <;> rfl
  simp only [hs, h r]
  rfl

theorem fresh_resetBoth (h : i.Fresh) (t : Nat) (p : DbiParams 8) : i.dbi.resetBoth p t = .ok (i.dbi, []) := by
  unfold Dbi.resetBoth
  simp only [fresh_reset h, bind, Except.bind, pure, Except.pure, List.append_nil]

/-- The end marker before the first inverted transfer. -/
theorem fresh_end (h : std = .ddr5 ∨ i.Fresh) (he : c.type = .END_OF_SIMULATION) : i.doCommand sp c = .ok (i.at' c.t) := by
  unfold doCommand
  rw [he]
  by_cases h5 : std = .ddr5
  · subst h5; rfl
  · have hf := h.resolve_left h5
    have : ifAction sp.arch std .END_OF_SIMULATION = .finish := by cases std <;> first | rfl | exact absurd rfl h5
    rw [this]
    unfold act endOfSimulation
    rw [fresh_resetBoth hf]
    rfl

open Spec in
theorem run_fresh (h5 : std ≠ .ddr5) : ∀ {ops : List IfOp} {m : Setting} {i i' : Interface std N}, Shaped sp i → Set6 m i → i.Fresh → i.run sp ops = .ok i' →
    (∀ r, marked std sp r m ops = []) → i'.Fresh
  | [], _, _, _, _, _, hf, h, _ => by cases h; exact hf
  | op :: ops, m, i, i', hs, hm, hf, h, hn => by
    simp only [run] at h
    split at h
    · rename_i i1 h1
      have hd := step_data hs hm h1
      have hc := step_clocks hs h1
      have hp := step_pins h5 hs hm h1
      have hn1 : ∀ r, markedOf std sp r m op = none := fun r => by
        have := hn r
        rw [marked, List.append_eq_nil_iff] at this
        cases h : markedOf std sp r m op with
        | none => rfl
        | some b => rw [h] at this; simp at this
      have hn2 : ∀ r, marked std sp r (m.after op) ops = [] := fun r => by
        have := hn r
        rw [marked, List.append_eq_nil_iff] at this
        exact this.2
      have hf1 : i1.Fresh := by
        cases hp with
        | same k _ => exact fun r => by rw [k.last r]; exact hf r
        | burst hdir k =>
          rename_i c read
          obtain ⟨x, hx, _⟩ := k.data
          have := hn1 read
          simp only [markedOf, hx] at this
          rw [if_pos ⟨hdir, k.inverting, k.mode, k.some⟩] at this
          cases this
        | finish _ k1 k2 k3 =>
          rw [fresh_resetBoth hf] at k1
          cases k1
          cases k2
          exact fun r => by rw [k3.last r]; exact hf r
      exact run_fresh h5 hc.shaped hd.set hf1 h hn2
    · cases h

end Interface
end DRAMPower
