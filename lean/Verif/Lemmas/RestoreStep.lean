import Verif.Lemmas.Restore

/-!
# Calls on interfaces that differ only in what no later call can tell
-/

namespace DRAMPower
variable {std : Std} {N : Nat} {sp : IfSpec} {i j : Interface std N}

/-- Everything agrees but the last word of the encoder, the order of its overrides, the old contents of the formatter's buffer and
the capacity of the inversion flags. -/
structure Interface.Alike (i j : Interface std N) : Prop where
  last : j.last = i.last
  settings : ∀ d, j.ca.settings.get d = i.ca.settings.get d
  noLast : ∀ d, i.ca.settings.get d ≠ .LAST_BIT
  extra : j.ca6.extra = i.ca6.extra
  cmdBus : j.cmdBus = i.cmdBus
  dataBus : j.dataBus = i.dataBus
  readDQS : j.readDQS = i.readDQS
  writeDQS : j.writeDQS = i.writeDQS
  wck : j.wck = i.wck
  clock : j.clock = i.clock
  dbi : i.dbi.Alike j.dbi
  pinsRead : j.pinsRead = i.pinsRead
  pinsWrite : j.pinsWrite = i.pinsWrite
  ranks : j.ranks = i.ranks
  metaData : j.formatter.metaData = i.formatter.metaData
  enabled : j.enabled = i.enabled

theorem encodeLoop_congr {D : Type} {f g : Nat → D → Option Bool} (h : ∀ n d, g n d = f n d) : ∀ (p : List D) (n : Nat) (b : BitVec 64),
    encodeLoop g p n b = encodeLoop f p n b := by
  have : g = f := funext fun n => funext fun d => h n d
  intro p n b
  rw [this]

theorem encode_congr {co : Coord} {p : List Desc} {s s' : Overrides} {w w' : BitVec 64} (h : ∀ d, s'.get d = s.get d)
    (hn : ∀ d, s.get d ≠ .LAST_BIT) : encode co p s' w' = encode co p s w := by
  have happ : ∀ d a b def_, s'.apply d a def_ = s.apply d b def_ := by
    intro d a b def_
    unfold Overrides.apply
    rw [h d]
    have := hn d
    cases hd : s.get d <;> simp_all
  have hbit : ∀ a b d, encodeBit co s' a d = encodeBit co s b d := by
    intro a b d
    cases d <;> simp only [encodeBit] <;> first | rfl | exact congrArg some (happ _ a b _) | rw [happ _ a b _]
  unfold encode
  dsimp only
  split
  · exact congrArg Except.ok (encodeLoop_congr (fun n d => hbit _ _ d) _ _ _)
  · rfl

namespace Interface.Alike

theorem encodeCommand (h : i.Alike j) (c : ICmd) :
    Follows (fun a b => a.1.Alike b.1 ∧ b.2 = a.2) (i.encodeCommand sp c) (j.encodeCommand sp c) := by
  unfold Interface.encodeCommand
  split
  · unfold CaHandler6.command
    rw [h.extra]
    split
    · exact .error _
    split
    · exact .error _
    cases encode6 c.co6 (lpddr6Patterns c.type) i.ca6.extra with
    | error e => exact .error _
    | ok w => exact .ok ⟨{ h with extra := rfl }, rfl⟩
  · unfold CaHandler.command
    split
    · exact .error _
    split
    · exact .error _
    rw [encode_congr h.settings h.noLast (w := i.ca.lastPattern)]
    cases encode c.co (patterns sp.arch std c.type) i.ca.settings i.ca.lastPattern with
    | error e => exact .error _
    | ok w => exact .ok ⟨{ h with settings := h.settings, noLast := h.noLast }, rfl⟩

theorem handleCommandBus (h : i.Alike j) (c : ICmd) : Follows Interface.Alike (i.handleCommandBus sp c) (j.handleCommandBus sp c) := by
  unfold Interface.handleCommandBus
  refine (h.encodeCommand c).bind fun ⟨a, w, n⟩ ⟨b, w', n'⟩ ⟨h1, h2⟩ => ?_
  dsimp only at h1 h2 ⊢
  injection h2 with h2 h3
  subst h2; subst h3
  rw [h1.cmdBus]
  exact .same fun x _ => .ok { h1 with cmdBus := rfl }

theorem loadData (h : i.Alike j) (read : Bool) (t : Nat) {a b : Option (List UInt8) × Nat} (hp : SamePayload a b) :
    Follows Interface.Alike (i.loadData read t a.2 a.1) (j.loadData read t b.2 b.1) := by
  have he : Interface.loadFunc j.dataBus read t b.2 b.1 = Interface.loadFunc i.dataBus read t a.2 a.1 := by
    rw [h.dataBus, hp.size]
    obtain ⟨a, n⟩ := a
    obtain ⟨b, n'⟩ := b
    have hn := hp.null
    have hb := hp.bits
    have hl := hp.long
    have hl' := hp.long'
    dsimp only at hn hb hl hl' ⊢
    cases a with
    | none => rw [hn.2 rfl]
    | some x =>
      cases b with
      | none => exact absurd (hn.1 rfl) (by simp)
      | some y =>
        have hc : ∀ bus : Bus N, bus.load t y n = bus.load t x n := fun bus => load_congr (hl x rfl) (hl' y rfl) (hb x y rfl rfl)
        unfold Interface.loadFunc DataBus.loadRead DataBus.loadWrite
        simp only [hc]
  unfold Interface.loadData
  rw [he]
  exact .same fun x _ => .ok { h with dataBus := rfl }

theorem samePayload (x : Option (List UInt8)) (n : Nat) (hx : ∀ y, x = some y → n ≤ 8 * y.length) : SamePayload (x, n) (x, n) :=
  ⟨rfl, Iff.rfl, hx, hx, fun a b ha hb k _ => by rw [ha] at hb; injection hb with hb; rw [hb]⟩

theorem loadData' (h : i.Alike j) (read : Bool) (t n : Nat) (x : Option (List UInt8)) :
    Follows Interface.Alike (i.loadData read t n x) (j.loadData read t n x) := by
  unfold Interface.loadData
  rw [h.dataBus]
  exact .same fun x _ => .ok { h with dataBus := rfl }

theorem pinChange (h : i.Alike j) (e : DbiEvent) : Follows Interface.Alike (i.pinChange e) (j.pinChange e) := by
  unfold Interface.pinChange
  rw [h.pinsRead, h.pinsWrite]
  split
  · exact .error _
  · refine .same fun p _ => ?_
    split
    · exact .ok { h with pinsRead := rfl, pinsWrite := rfl }
    · exact .ok { h with pinsWrite := rfl, pinsRead := rfl }

theorem pinChanges (h : i.Alike j) (es : List DbiEvent) : Follows Interface.Alike (es.foldlM Interface.pinChange i) (es.foldlM Interface.pinChange j) :=
  Follows.foldlM h fun e _ _ _ h => h.pinChange e

theorem dbi_sub (std : Std) (sp : IfSpec) : 0 < (sp.dbi std).sub := by
  unfold IfSpec.dbi
  dsimp only
  split <;> decide

theorem invertData (h : i.Alike j) (c : ICmd) (read : Bool) :
    Follows (fun a b => a.1.Alike b.1 ∧ b.2 = a.2) (i.invertData sp c read) (j.invertData sp c read) := by
  unfold Interface.invertData
  rw [h.dataBus, h.dbi.enable]
  split
  · exact .ok ⟨h, rfl⟩
  · refine (h.dbi.update (dbi_sub std sp) (by decide) _ _ _ _).bind fun ⟨d, out, ev⟩ ⟨d', out', ev'⟩ ⟨h1, h2⟩ => ?_
    dsimp only at h1 h2 ⊢
    injection h2 with h2 h3
    subst h2; subst h3
    have h' : Interface.Alike { i with dbi := d } { j with dbi := d', dataBus := i.dataBus } := { h with dbi := h1, dataBus := rfl }
    refine (h'.pinChanges _).bind fun a b h2 => ?_
    exact .ok ⟨h2, rfl⟩

theorem width (h : i.Alike j) : j.width = i.width := by unfold Interface.width; rw [h.dataBus]

theorem inversionState (h : i.Alike j) (read : Bool) : j.inversionState read = i.inversionState read := by
  unfold Interface.inversionState
  rw [h.dbi.enable, (h.dbi.last read).inversions]

theorem transfer (h : i.Alike j) (c : ICmd) (read : Bool) :
    Follows (fun a b => a.1.Alike b.1 ∧ b.2 = a.2) (i.transfer sp c read) (j.transfer sp c read) := by
  unfold Interface.transfer
  rw [h.dataBus, h.width]
  split
  · split
    · exact .ok ⟨h, rfl⟩
    · exact (h.loadData' _ _ _ _).bind fun a b h1 => .ok ⟨h1, rfl⟩
  · refine (h.invertData c read).bind fun ⟨i1, data⟩ ⟨j1, data'⟩ ⟨h1, h2⟩ => ?_
    dsimp only at h1 h2 ⊢
    subst h2
    split
    · rw [h1.inversionState]
      refine (formatData_follows h1.metaData _ _ _).bind fun ⟨f, x, n⟩ ⟨f', x', n'⟩ ⟨h2, h3⟩ => ?_
      dsimp only at h2 h3 ⊢
      have h' : Interface.Alike { i1 with formatter := f } { j1 with formatter := f' } := { h1 with metaData := h2 }
      refine (h'.loadData read c.t h3).bind fun a b h4 => ?_
      have := h3.size
      dsimp only at this
      exact .ok ⟨h4, by rw [this, h4.width]⟩
    · exact (h1.loadData' _ _ _ _).bind fun a b h4 => .ok ⟨h4, by rw [h4.width]⟩

theorem dqs (h : i.Alike j) (t s : Nat) (read : Bool) : Follows Interface.Alike (i.dqs t s read) (j.dqs t s read) := by
  unfold Interface.dqs
  rw [h.readDQS, h.writeDQS]
  split
  · exact .same fun k _ => .ok { h with readDQS := rfl, writeDQS := rfl }
  · split
    · exact .ok h
    · exact .same fun k _ => .ok { h with writeDQS := rfl, readDQS := rfl }

theorem runWck (h : i.Alike j) (t s : Nat) : Follows Interface.Alike (i.runWck sp t s) (j.runWck sp t s) := by
  unfold Interface.runWck
  rw [h.wck]
  split
  · exact .same fun k _ => .ok { h with wck := rfl }
  · exact .ok h

end Interface.Alike

theorem get_set_congr {s s' : Overrides} (h : ∀ d, s'.get d = s.get d) (x : Desc) (b : BitSpec) (d : Desc) :
    (s'.set x b).get d = (s.set x b).get d := by
  rw [Overrides.get_set, Overrides.get_set, h]

theorem get_update_congr (l : List (Desc × BitSpec)) : ∀ {s s' : Overrides}, (∀ d, s'.get d = s.get d) → ∀ d, (s'.update l).get d = (s.update l).get d := by
  induction l with
  | nil => intro s s' h d; exact h d
  | cons e l ih => intro s s' h d; exact ih (get_set_congr h e.1 e.2) d

theorem get_erase_congr {s s' : Overrides} (h : ∀ d, s'.get d = s.get d) (x : Desc) (d : Desc) : (s'.erase x).get d = (s.erase x).get d := by
  rw [Overrides.get_erase, Overrides.get_erase, h]

theorem handleOverrides_congr {s s' : Overrides} (h : ∀ d, s'.get d = s.get d) (n : Nat) (r : Bool) (std : Std) (d : Desc) :
    (handleOverrides s' n r std).get d = (handleOverrides s n r std).get d := by
  cases std <;> simp only [handleOverrides] <;> repeat' split
  all_goals first
    | exact get_update_congr _ h d
    | exact get_update_congr _ (get_erase_congr h _) d
    | exact get_erase_congr h _ d
    | exact h d

/-- No override copies the previous word. -/
def Overrides.NoLast (s : Overrides) : Prop := ∀ d, s.get d ≠ .LAST_BIT

theorem noLast_set {s : Overrides} (h : s.NoLast) (x : Desc) {b : BitSpec} (hb : b ≠ .LAST_BIT) : (s.set x b).NoLast := by
  intro d
  rw [Overrides.get_set]
  split
  · exact hb
  · exact h d

theorem noLast_update : ∀ {l : List (Desc × BitSpec)} {s : Overrides}, (∀ e ∈ l, e.2 ≠ .LAST_BIT) → s.NoLast → (s.update l).NoLast
  | [], _, _, h => h
  | e :: l, s, hl, h => noLast_update (l := l) (fun x hx => hl x (by simp [hx])) (noLast_set h e.1 (hl e (by simp)))

theorem noLast_erase {s : Overrides} (h : s.NoLast) (x : Desc) : (s.erase x).NoLast := by
  intro d
  rw [Overrides.get_erase]
  split
  · simp
  · exact h d

theorem noLast_handle {s : Overrides} (h : s.NoLast) (n : Nat) (r : Bool) (std : Std) : (handleOverrides s n r std).NoLast := by
  cases std <;> simp only [handleOverrides] <;> repeat' split
  all_goals first
    | exact noLast_update (by decide) h
    | exact noLast_update (by decide) (noLast_erase h _)
    | exact noLast_erase h _
    | exact h

namespace Interface.Alike

theorem overrides (h : i.Alike j) (len : Nat) (read : Bool) : (i.overrides len read).Alike (j.overrides len read) := by
  unfold Interface.overrides
  split
  · exact { h with extra := by show ({ j.ca6.extra with currentBurstLength := len } : Extra6) = _; rw [h.extra] }
  · exact { h with settings := handleOverrides_congr h.settings len read std, noLast := noLast_handle h.noLast len read std }

theorem prePostamble (h : i.Alike j) (c : ICmd) (len : Nat) (read : Bool) :
    Follows Interface.Alike (i.prePostamble sp c len read) (j.prePostamble sp c len read) := by
  unfold Interface.prePostamble
  rw [h.ranks]
  split
  · split
    · exact .error _
    · exact .same fun r _ => .ok { h with ranks := rfl }
  · exact .ok h

theorem handleData (h : i.Alike j) (c : ICmd) (read : Bool) : Follows Interface.Alike (i.handleData sp c read) (j.handleData sp c read) := by
  unfold Interface.handleData
  refine (h.transfer c read).bind fun ⟨i1, len⟩ ⟨j1, len'⟩ ⟨h1, e1⟩ => ?_
  dsimp only at h1 e1 ⊢
  subst e1
  refine (h1.dqs _ _ _).bind fun i2 j2 h2 => ?_
  refine (h2.runWck _ _).bind fun i3 j3 h3 => ?_
  refine ((h3.overrides _ _).handleCommandBus c).bind fun i4 j4 h4 => ?_
  exact h4.prePostamble c _ read

theorem endOfSimulation (h : i.Alike j) (t : Nat) : Follows Interface.Alike (i.endOfSimulation sp t) (j.endOfSimulation sp t) := by
  unfold Interface.endOfSimulation
  refine (h.dbi.resetBoth t).bind fun ⟨d, ev⟩ ⟨d', ev'⟩ ⟨h1, h2⟩ => ?_
  dsimp only at h1 h2 ⊢
  subst h2
  have h' : Interface.Alike { i with dbi := d } { j with dbi := d' } := { h with dbi := h1 }
  exact h'.pinChanges _

theorem act (h : i.Alike j) (c : ICmd) : ∀ a, Follows Interface.Alike (i.act sp c a) (j.act sp c a)
  | .bus => h.handleCommandBus c
  | .data read => h.handleData c read
  | .finish => h.endOfSimulation c.t
  | .skip => .ok h
  | .unsupported => .error _
  | .invalid => .error _

theorem doCommand (h : i.Alike j) (c : ICmd) : Follows Interface.Alike (i.doCommand sp c) (j.doCommand sp c) := by
  unfold Interface.doCommand
  exact (h.act c _).bind fun a b h1 => .ok { h1 with last := rfl }

theorem step (h : i.Alike j) (op : IfOp) : Follows Interface.Alike (i.step sp op) (j.step sp op) := by
  cases op with
  | cmd c => exact h.doCommand c
  | dbi e => exact .ok { h with dbi := { h.dbi with enable := rfl, last := h.dbi.last } }
  | metaData a b => exact .ok { h with metaData := rfl }
  | parity b =>
    simp only [Interface.step, Interface.setParityCheckMode]
    split
    · exact .ok { h with extra := by show ({ j.ca6.extra with parityCheckMode := b } : Extra6) = _; rw [h.extra] }
    · exact .error _
  | enable t =>
    simp only [Interface.step, Interface.enable]
    rw [h.enabled, h.wck, h.clock]
    split
    · exact .ok h
    · split
      · exact .same fun w _ => .same fun k _ => .ok { h with wck := rfl, clock := rfl, last := rfl, enabled := rfl }
      · exact .same fun w _ => .same fun k _ => .ok { h with wck := rfl, clock := rfl, last := rfl, enabled := rfl }
  | disable t =>
    simp only [Interface.step, Interface.disable]
    rw [h.enabled, h.wck, h.clock]
    split
    · exact .ok h
    · split
      · exact .same fun w _ => .same fun k _ => .ok { h with wck := rfl, clock := rfl, last := rfl, enabled := rfl }
      · exact .same fun w _ => .same fun k _ => .ok { h with wck := rfl, clock := rfl, last := rfl, enabled := rfl }

theorem getWindowStats (h : i.Alike j) (t : Nat) (s : SimStats) : j.getWindowStats sp t s = i.getWindowStats sp t s := by
  unfold Interface.getWindowStats
  rw [h.cmdBus, h.dataBus, h.pinsRead, h.pinsWrite, h.clock, h.wck, h.readDQS, h.writeDQS, h.ranks]

end Interface.Alike

end DRAMPower
