import Verif.Lemmas.ContentsRun

/-!
# Sessions with other rows, columns, bank groups and subchannels
-/

namespace DRAMPower
open Spec
variable {std : Std} {N : Nat} {ms : MemSpec} {sp : IfSpec} {i j : Interface std N} {p : Prop}

/-- The interfaces agree in all but the words on the command bus. -/
structure Interface.Beside (i j : Interface std N) : Prop where
  last : j.last = i.last
  settings : j.ca.settings = i.ca.settings
  extra : j.ca6.extra = i.ca6.extra
  cmdBus : i.cmdBus.Shape j.cmdBus
  dataBus : j.dataBus = i.dataBus
  readDQS : j.readDQS = i.readDQS
  writeDQS : j.writeDQS = i.writeDQS
  wck : j.wck = i.wck
  clock : j.clock = i.clock
  dbi : j.dbi = i.dbi
  pinsRead : j.pinsRead = i.pinsRead
  pinsWrite : j.pinsWrite = i.pinsWrite
  ranks : j.ranks = i.ranks
  formatter : j.formatter = i.formatter
  enabled : j.enabled = i.enabled

/-- What the calls read of a command, apart from the encoder. -/
structure SamePlace (c c' : ICmd) : Prop where
  t : c'.t = c.t
  type : c'.type = c.type
  rank : c'.co.rank = c.co.rank
  dbank : c'.dbank = c.dbank
  nBits : c'.nBits = c.nBits
  data : c'.data = c.data
  core : c'.core = c.core

theorem samePlace {c c' : ICmd} (h : otherPlace c c') : SamePlace c c' := by
  unfold otherPlace at h
  refine ⟨?_, ?_, ?_, ?_, ?_, ?_, ?_⟩ <;> (rw [h]; try rfl)

namespace Interface.Beside

theorem rfl' (i : Interface std N) : i.Beside i := ⟨rfl, rfl, rfl, .rfl' _, rfl, rfl, rfl, rfl, rfl, rfl, rfl, rfl, rfl, rfl, rfl⟩

theorem encode_together (co co' : Coord) (l : List Desc) (s : Overrides) (w w' : BitVec 64) :
    Together p (fun _ _ => True) (encode co l s w) (encode co' l s w') := by
  unfold encode
  dsimp only
  split
  · exact .ok trivial
  · exact .error _

theorem encode6_together {co co' : Coord6} (h : co'.dbank = co.dbank) (l : List Desc6) (x : Extra6) :
    Together p (fun _ _ => True) (encode6 co l x) (encode6 co' l x) := by
  unfold encode6
  rw [h]
  split
  · exact .error _
  split
  · exact .error _
  dsimp only
  split
  · exact .error _
  split
  · exact .error _
  split
  · split
    · exact .error _
    · split
      · exact .ok trivial
      · exact .ok trivial
  · exact .ok trivial

theorem handleCommandBus (h : i.Beside j) {c c' : ICmd} (hc : SamePlace c c') :
    Together p Interface.Beside (i.handleCommandBus sp c) (j.handleCommandBus sp c') := by
  unfold Interface.handleCommandBus Interface.encodeCommand
  rw [hc.type, hc.t]
  refine Together.bind (R := fun a b => a.1.Beside b.1 ∧ b.2.2 = a.2.2) ?_ fun ⟨a, w, n⟩ ⟨b, w', n'⟩ ⟨h1, h2⟩ => ?_
  · split
    · unfold CaHandler6.command
      rw [h.extra]
      split
      · exact .error _
      split
      · exact .error _
      refine Together.bind (R := fun a b : CaHandler6 × BitVec 64 => b.1.extra = a.1.extra) ?_ fun a b e => .ok ⟨{ h with extra := e }, rfl⟩
      have hd : c'.co6.dbank = c.co6.dbank := hc.dbank
      exact (encode6_together hd _ _).bind fun _ _ _ => .ok rfl
    · unfold CaHandler.command
      rw [h.settings]
      split
      · exact .error _
      split
      · exact .error _
      refine Together.bind (R := fun a b : CaHandler × BitVec 64 => b.1.settings = a.1.settings) ?_ fun a b e => .ok ⟨{ h with settings := e }, rfl⟩
      exact (encode_together _ _ _ _ _ _).bind fun _ _ _ => .ok rfl
  · dsimp only at h1 h2 ⊢
    subst h2
    rw [h1.cmdBus.width]
    exact (h1.cmdBus.loadWord _ _ _ _).bind fun _ _ h3 => .ok { h1 with cmdBus := h3 }

theorem loadData (h : i.Beside j) (read : Bool) (t n : Nat) (x : Option (List UInt8)) :
    Together p Interface.Beside (i.loadData read t n x) (j.loadData read t n x) := by
  unfold Interface.loadData
  rw [h.dataBus]
  exact .same fun d _ => .ok { h with dataBus := rfl }

theorem pinChanges (h : i.Beside j) (es : List DbiEvent) :
    Together p Interface.Beside (es.foldlM Interface.pinChange i) (es.foldlM Interface.pinChange j) := by
  refine .foldlM h fun e _ a b h => ?_
  unfold Interface.pinChange
  rw [h.pinsRead, h.pinsWrite]
  split
  · exact .error _
  · refine .same fun k _ => ?_
    split
    all_goals exact .ok { h with pinsRead := rfl, pinsWrite := rfl }

theorem invertData (h : i.Beside j) {c c' : ICmd} (hc : SamePlace c c') (read : Bool) :
    Together p (fun a b => a.1.Beside b.1 ∧ b.2 = a.2) (i.invertData sp c read) (j.invertData sp c' read) := by
  unfold Interface.invertData
  rw [hc.nBits, hc.data, hc.t, h.dataBus, h.dbi]
  split
  · exact .ok ⟨h, rfl⟩
  · refine .same fun ⟨d, out, ev⟩ _ => ?_
    have h' : Interface.Beside { i with dbi := d } { j with dbi := d, dataBus := i.dataBus } := { h with dbi := rfl, dataBus := rfl }
    dsimp only
    exact (h'.pinChanges _).bind fun a b h1 => .ok ⟨h1, rfl⟩

theorem transfer (h : i.Beside j) {c c' : ICmd} (hc : SamePlace c c') (read : Bool) :
    Together p (fun a b => a.1.Beside b.1 ∧ b.2 = a.2) (i.transfer sp c read) (j.transfer sp c' read) := by
  have hw : ∀ {a b : Interface std N}, a.Beside b → b.width = a.width := fun h => by unfold Interface.width; rw [h.dataBus]
  unfold Interface.transfer
  rw [hc.nBits, hc.t, hw h, h.dataBus]
  split
  · split
    · exact .ok ⟨h, rfl⟩
    · exact (h.loadData _ _ _ _).bind fun a b h1 => .ok ⟨h1, rfl⟩
  · refine (h.invertData hc read).bind fun ⟨i1, x⟩ ⟨j1, y⟩ ⟨h1, h2⟩ => ?_
    dsimp only at h1 h2 ⊢
    subst h2
    split
    · unfold Interface.inversionState
      rw [h1.formatter, h1.dbi]
      refine .same fun ⟨f, x', n⟩ _ => ?_
      have h' : Interface.Beside { i1 with formatter := f } { j1 with formatter := f, dbi := i1.dbi } := { h1 with formatter := rfl, dbi := rfl }
      dsimp only
      exact (h'.loadData _ _ _ _).bind fun a b h4 => .ok ⟨h4, by rw [hw h4]⟩
    · exact (h1.loadData _ _ _ _).bind fun a b h4 => .ok ⟨h4, by rw [hw h4]⟩

theorem dqs (h : i.Beside j) (t s : Nat) (read : Bool) : Together p Interface.Beside (i.dqs t s read) (j.dqs t s read) := by
  unfold Interface.dqs
  rw [h.readDQS, h.writeDQS]
  split
  · exact .same fun k _ => .ok { h with readDQS := rfl, writeDQS := rfl }
  · split
    · exact .ok h
    · exact .same fun k _ => .ok { h with writeDQS := rfl, readDQS := rfl }

theorem runWck (h : i.Beside j) (t s : Nat) : Together p Interface.Beside (i.runWck sp t s) (j.runWck sp t s) := by
  unfold Interface.runWck
  rw [h.wck]
  split
  · exact .same fun k _ => .ok { h with wck := rfl }
  · exact .ok h

theorem overrides (h : i.Beside j) (len : Nat) (read : Bool) : (i.overrides len read).Beside (j.overrides len read) := by
  unfold Interface.overrides
  split
  · exact { h with extra := by show ({ j.ca6.extra with currentBurstLength := len } : Extra6) = _; rw [h.extra] }
  · exact { h with settings := by show handleOverrides j.ca.settings len read std = _; rw [h.settings] }

theorem prePostamble (h : i.Beside j) {c c' : ICmd} (hc : SamePlace c c') (len : Nat) (read : Bool) :
    Together p Interface.Beside (i.prePostamble sp c len read) (j.prePostamble sp c' len read) := by
  unfold Interface.prePostamble
  rw [h.ranks, hc.rank, hc.t]
  split
  · split
    · exact .error _
    · exact .same fun r _ => .ok { h with ranks := rfl }
  · exact .ok h

theorem handleData (h : i.Beside j) {c c' : ICmd} (hc : SamePlace c c') (read : Bool) :
    Together p Interface.Beside (i.handleData sp c read) (j.handleData sp c' read) := by
  unfold Interface.handleData
  refine (h.transfer hc read).bind fun ⟨i1, len⟩ ⟨j1, len'⟩ ⟨h1, e1⟩ => ?_
  dsimp only at h1 e1 ⊢
  subst e1
  rw [hc.t]
  refine (h1.dqs _ _ _).bind fun i2 j2 h2 => ?_
  refine (h2.runWck _ _).bind fun i3 j3 h3 => ?_
  refine ((h3.overrides _ _).handleCommandBus hc).bind fun i4 j4 h4 => ?_
  exact h4.prePostamble hc _ read

theorem endOfSimulation (h : i.Beside j) (t : Nat) : Together p Interface.Beside (i.endOfSimulation sp t) (j.endOfSimulation sp t) := by
  unfold Interface.endOfSimulation
  rw [h.dbi]
  refine .same fun ⟨d, ev⟩ _ => ?_
  have h' : Interface.Beside { i with dbi := d } { j with dbi := d } := { h with dbi := rfl }
  exact h'.pinChanges _

theorem doCommand (h : i.Beside j) {c c' : ICmd} (hc : SamePlace c c') :
    Together p Interface.Beside (i.doCommand sp c) (j.doCommand sp c') := by
  unfold Interface.doCommand
  rw [hc.type, hc.t]
  refine Together.bind (R := Interface.Beside) ?_ fun a b h1 => .ok { h1 with last := rfl }
  cases ifAction sp.arch std c.type with
  | bus => exact h.handleCommandBus hc
  | data read => exact h.handleData hc read
  | finish =>
    show Together p _ (i.endOfSimulation sp c.t) (j.endOfSimulation sp c'.t)
    rw [hc.t]
    exact h.endOfSimulation c.t
  | skip => exact .ok h
  | unsupported => exact .error _
  | invalid => exact .error _

/-- All calls but commands. -/
theorem step (h : i.Beside j) (op : IfOp) : Together p Interface.Beside (i.step sp op) (j.step sp op) := by
  cases op with
  | cmd c => exact h.doCommand ⟨rfl, rfl, rfl, rfl, rfl, rfl, rfl⟩
  | dbi e => exact .ok { h with dbi := by show ({ j.dbi with enable := e } : Dbi 8) = _; rw [h.dbi]; rfl }
  | metaData a b => exact .ok { h with formatter := by show j.formatter.setMetaData a b = _; rw [h.formatter]; rfl }
  | parity b =>
    simp only [Interface.step, Interface.setParityCheckMode]
    split
    · exact .ok { h with extra := by show ({ j.ca6.extra with parityCheckMode := b } : Extra6) = _; rw [h.extra] }
    · exact .error _
  | enable t =>
    simp only [Interface.step, Interface.enable]
    rw [h.enabled, h.wck, h.clock]
    split
    · exact .ok h
    · split
      · exact .same fun w _ => .same fun k _ => .ok { h with wck := rfl, clock := rfl, last := rfl, enabled := rfl }
      · exact .same fun w _ => .same fun k _ => .ok { h with wck := rfl, clock := rfl, last := rfl, enabled := rfl }
  | disable t =>
    simp only [Interface.step, Interface.disable]
    rw [h.enabled, h.wck, h.clock]
    split
    · exact .ok h
    · split
      · exact .same fun w _ => .same fun k _ => .ok { h with wck := rfl, clock := rfl, last := rfl, enabled := rfl }
      · exact .same fun w _ => .same fun k _ => .ok { h with wck := rfl, clock := rfl, last := rfl, enabled := rfl }

theorem getWindowStats (h : i.Beside j) (t : Nat) (s : SimStats) :
    Together p (fun a b => { b with commandBus := {} } = { a with commandBus := {} }) (i.getWindowStats sp t s) (j.getWindowStats sp t s) := by
  unfold Interface.getWindowStats
  rw [h.dataBus, h.pinsRead, h.pinsWrite, h.clock, h.wck, h.readDQS, h.writeDQS, h.ranks]
  refine (h.cmdBus.getStats t).bind fun _ _ _ => ?_
  exact .same fun _ _ => .same fun _ _ => .same fun _ _ => .ok rfl

end Interface.Beside

/-- The simulators agree in all but the words on the command bus. -/
structure SimObject.Beside (o o' : SimObject std N) : Prop where
  ext : o'.ext = o.ext
  core : o'.sim.core = o.sim.core
  interface : o.sim.interface.Beside o'.sim.interface

namespace SimObject.Beside
variable {o o' : SimObject std N}

theorem step (h : o.Beside o') {u u' : SimCall} (hu : sameCall otherPlace u u') :
    Together p (fun a b => a.1.Beside b.1 ∧ withoutCommandBus b.2 = withoutCommandBus a.2) (o.step ms sp u) (o'.step ms sp u') := by
  have hiface : ∀ {op op' : IfOp}, Together p Interface.Beside (o.sim.interface.step sp op) (o'.sim.interface.step sp op') →
      Together p (fun a b => a.1.Beside b.1 ∧ withoutCommandBus b.2 = withoutCommandBus a.2) (o.step ms sp (.iface op)) (o'.step ms sp (.iface op')) :=
    fun h1 => h1.bind fun a b h1 => .ok ⟨⟨h.ext, h.core, h1⟩, rfl⟩
  have hcorec : ∀ {c c' : ICmd}, SamePlace c c' →
      Together p (fun a b => a.1.Beside b.1 ∧ withoutCommandBus b.2 = withoutCommandBus a.2) (o.step ms sp (.coreCommand c)) (o'.step ms sp (.coreCommand c')) := by
    intro c c' hc
    simp only [SimObject.step]
    rw [h.core, hc.core]
    exact .same fun core _ => .ok ⟨⟨h.ext, rfl, h.interface⟩, rfl⟩
  have hcommand : ∀ {c c' : ICmd}, SamePlace c c' →
      Together p (fun a b => a.1.Beside b.1 ∧ withoutCommandBus b.2 = withoutCommandBus a.2) (o.step ms sp (.command c)) (o'.step ms sp (.command c')) := by
    intro c c' hc
    simp only [SimObject.step, Simulator.doCommand]
    rw [h.core, hc.core]
    cases o.sim.core.doCommand std ms c.core with
    | error e => exact .error _
    | ok core =>
      dsimp only
      have := h.interface.doCommand (p := p) (sp := sp) hc
      revert this
      generalize o.sim.interface.doCommand sp c = u
      generalize o'.sim.interface.doCommand sp c' = u'
      intro hu
      have := hu.bind (S := fun a b : SimObject std N × SimReply => a.1.Beside b.1 ∧ withoutCommandBus b.2 = withoutCommandBus a.2)
        (f := fun i => .ok (({ o with sim := { core, interface := i } } : SimObject std N), SimReply.nothing))
        (g := fun i => .ok (({ o' with sim := { core, interface := i } } : SimObject std N), SimReply.nothing))
        fun a b h1 => .ok ⟨⟨h.ext, rfl, h1⟩, rfl⟩
      cases u <;> cases u' <;> exact this
  cases hu with
  | command hc => exact hcommand (samePlace hc)
  | coreCommand hc => exact hcorec (samePlace hc)
  | ifaceCommand hc => exact hiface (h.interface.doCommand (samePlace hc))
  | other =>
    cases u with
    | command c => exact hcommand ⟨rfl, rfl, rfl, rfl, rfl, rfl, rfl⟩
    | coreCommand c => exact hcorec ⟨rfl, rfl, rfl, rfl, rfl, rfl, rfl⟩
    | iface op => exact hiface (h.interface.step op)
    | setDBI e =>
      simp only [SimObject.step, SimObject.setDBI, dbiCallback]
      rw [h.ext]
      split
      · by_cases h4 : std = .ddr4 ∧ sp.bitWidth = 4
        · simp only [if_pos h4]
          exact .ok ⟨⟨rfl, h.core, h.interface⟩, rfl⟩
        · simp only [if_neg h4]
          exact .ok ⟨⟨rfl, h.core, { h.interface with dbi := by show ({ o'.sim.interface.dbi with enable := e } : Dbi 8) = _; rw [h.interface.dbi]; rfl }⟩, rfl⟩
      · exact .ok ⟨h, rfl⟩
    | setMetaData a b =>
      simp only [SimObject.step, SimObject.setMetaData]
      rw [h.ext]
      split
      · exact .ok ⟨⟨rfl, h.core, { h.interface with formatter := by show o'.sim.interface.formatter.setMetaData a b = _; rw [h.interface.formatter]; rfl }⟩, rfl⟩
      · exact .ok ⟨h, rfl⟩
    | isEnabled =>
      simp only [SimObject.step, SimObject.isEnabled]
      rw [h.ext]
      exact .ok ⟨h, rfl⟩
    | getMetaData =>
      simp only [SimObject.step, SimObject.getMetaData]
      rw [h.ext, h.interface.formatter]
      exact .ok ⟨h, rfl⟩
    | window t =>
      simp only [SimObject.step, Simulator.getWindowStats]
      rw [h.core]
      refine Together.bind (R := fun a b : Simulator std N × SimStats => { b.2 with commandBus := {} } = { a.2 with commandBus := {} } ∧
        a.1 = { o.sim with core := (o.sim.core.getWindowStats std ms t).1 } ∧
        b.1 = { o'.sim with core := (o.sim.core.getWindowStats std ms t).1 }) ?_ fun a b ⟨h1, h2, h3⟩ => ?_
      · exact (h.interface.getWindowStats t _).bind fun a b h1 => .ok ⟨h1, rfl, rfl⟩
      · refine .ok ⟨⟨h.ext, by rw [h2, h3], ?_⟩, congrArg SimReply.stats h1⟩
        rw [h2, h3]
        exact h.interface
    | lastTime =>
      simp only [SimObject.step, Simulator.lastCommandTime, Interface.lastCommandTime]
      rw [h.core, h.interface.last]
      exact .ok ⟨h, rfl⟩
    | serializable =>
      simp only [SimObject.step, SimObject.isSerializable]
      rw [h.core]
      exact .ok ⟨h, rfl⟩

end SimObject.Beside
end DRAMPower
