import Verif.Lemmas.SimObject
import Verif.Props.C16
import Verif.Props.C15

/-!
# C56: saving and restoring a whole simulator is lossless

`SimObject` is the simulator a user holds: extensions, core and interface. `Spec.replies` is what a user sees of a session: the replies to
all calls (statistics, last command time, whether the simulator can be saved, the state of the extensions) and how the session ends.
-/

namespace DRAMPower
open Spec

/-- The property: a simulator brought into any state by any calls, saved while it says that it can be, and loaded into a newly constructed
one: exactly the bytes written are consumed, and every later session gets the same replies. -/
def C56_statement (std : Std) : Prop :=
  ∀ (N : Nat) (ms : MemSpec) (sp : IfSpec) (k : Codec) (before : List SimCall) (o0 o : SimObject std N), Faithful k sp →
    SimObject.init std N ms sp = .ok o0 → (∀ u ∈ before, callable std u) → o0.run ms sp before = .ok o → o.isSerializable = true →
    o.sim.core.Fits ms → o.sim.interface.Fits k →
    ∃ bytes p, o.serialize k ms [] = .ok bytes ∧ o0.deserialize k ms bytes = some (p, []) ∧
      ∀ later, definedSession ms sp o later → replies ms sp p later = replies ms sp o later

variable {std : Std} {N : Nat} {ms : MemSpec} {sp : IfSpec} {k : Codec} {before : List SimCall} {o0 o : SimObject std N}

/-- The simulator `o`, with everything forgotten that is not saved and therefore is as in the new simulator `o0`: but for DDR4 the inverter
(whether it is on, and the bursts it remembers) and the pins that signal inversion; for LPDDR6 the metadata words and whether the interface is
enabled. The extensions forget nothing. -/
def forgetful (o o0 : SimObject std N) : SimObject std N where
  ext := o.ext
  sim := {
    core := o.sim.core
    interface := { o.sim.interface with
      dbi := if std = .ddr4 then o.sim.interface.dbi else o0.sim.interface.dbi
      pinsRead := if std = .ddr4 then o.sim.interface.pinsRead else o0.sim.interface.pinsRead
      pinsWrite := if std = .ddr4 then o.sim.interface.pinsWrite else o0.sim.interface.pinsWrite
      formatter := { o.sim.interface.formatter with metaData := o0.sim.interface.formatter.metaData }
      enabled := o0.sim.interface.enabled } }

theorem ifOps_offered (h : ∀ u ∈ before, callable std u) : ∀ op ∈ ifOps std sp before, offered std op := by
  intro op hop
  unfold ifOps at hop
  obtain ⟨u, hu, e⟩ := List.mem_filterMap.1 hop
  have hc := h u hu
  cases u with
  | command c => cases e; trivial
  | iface x => cases e; exact hc
  | setDBI b =>
    dsimp only at e
    split at e
    · rename_i hi
      cases e
      rintro rfl
      simp [inverts] at hi
    · cases e
  | setMetaData a b =>
    dsimp only at e
    split at e
    · rename_i hi
      cases e
      exact hi
    · cases e
  | coreCommand c => cases e
  | isEnabled => cases e
  | getMetaData => cases e
  | window t => cases e
  | lastTime => cases e
  | serializable => cases e

/-- What the restored simulator is, for every history: it cannot be told from the saved one without what is not saved. For DDR4 the stream
must be readable (see `C16_ddr4_partial`). -/
theorem C56_exact (hk : Faithful k sp) (h0 : SimObject.init std N ms sp = .ok o0) (hc : ∀ u ∈ before, callable std u)
    (hr : o0.run ms sp before = .ok o) (hq : o.isSerializable = true) (hfc : o.sim.core.Fits ms) (hfi : o.sim.interface.Fits k)
    (hb : std = .ddr4 → ∀ read, ∀ b ∈ (o.sim.interface.dbi.last read).lastbeat, b = 0 ∨ b = 1) (out : Bytes) :
    ∃ written, o.serialize k ms out = .ok (out ++ written) ∧ ∀ rest, ∃ p, o0.deserialize k ms (written ++ rest) = some (p, rest) ∧
      ∀ later, definedSession ms sp (forgetful o o0) later → replies ms sp p later = replies ms sp (forgetful o o0) later := by
  obtain ⟨x1, x2, x3⟩ := init_parts_ext h0
  obtain ⟨⟨r, y1⟩, y2, y3⟩ := run_parts x1 hr
  generalize before.foldl (flagAfter std sp) false = b, before.foldl wordsAfter (0, 0) = m at y3
  rw [x2] at y1
  have ht := session_tidy (init_tidy ms) y1
  have hqe : o.sim.core.queue = [] := by simpa [SimObject.isSerializable, Core.isSerializable] using hq
  have hk0 := Kept.init hk x3
  have hki := hk0.run hk (ifOps_offered hc) y2
  have hread : std = .ddr4 → o.sim.interface.dbi.Readable := fun h => ⟨hb h true, hb h false⟩
  obtain ⟨w2, e2, g2⟩ := Core.rt (pad := k.pad) (u := Core.init ms) hfc (by rw [hqe]; rfl)
    (fun i _ => (ht.ranks i).size.symm) (fun i _ b hb => ((ht.ranks i).tail b (by rw [← (ht.ranks i).size]; exact hb)).symm)
    (fun i hi => (ht.tail i hi).symm) (out ++ extBytes std b m)
  obtain ⟨w3, e3, g3⟩ := Interface.rt hk hki hk0 hfi hread (out ++ extBytes std b m ++ w2)
  refine ⟨extBytes std b m ++ (w2 ++ w3), ?_, fun rest =>
    ⟨{ ext := o.ext, sim := { core := o.sim.core, interface := o.sim.interface.restored k o0.sim.interface } }, ?_, fun later hd => ?_⟩⟩
  · unfold SimObject.serialize
    rw [y3, shape_serialize]
    show Except.ok (o.sim.interface.serialize k (o.sim.core.serialize k.pad ms _)) = _
    rw [e2, e3, List.append_assoc, List.append_assoc]
  · unfold SimObject.deserialize
    rw [x1, List.append_assoc, shape_deserialize, x2]
    simp only [List.append_assoc, g2, Option.bind_eq_bind, Option.bind_some, g3]
    rw [y3]
    rfl
  · refine replies_alike ⟨rfl, rfl, ?_⟩ hd
    have hkf : Kept k sp o0.sim.interface (forgetful o o0).sim.interface := by
      refine { hki with lenRead := ?_, lenWrite := ?_, idleRead := ?_, idleWrite := ?_, room := ?_ }
      · show (if std = .ddr4 then _ else _ : List _).length = _
        split
        · exact hki.lenRead
        · rfl
      · show (if std = .ddr4 then _ else _ : List _).length = _
        split
        · exact hki.lenWrite
        · rfl
      · show ∀ p ∈ (if std = .ddr4 then _ else _ : List _), _
        split
        · exact hki.idleRead
        · exact hk0.idleRead
      · show ∀ p ∈ (if std = .ddr4 then _ else _ : List _), _
        split
        · exact hki.idleWrite
        · exact hk0.idleWrite
      · show ∀ read, ((if std = .ddr4 then _ else _ : Dbi 8).last read).Room k
        split
        · exact hki.room
        · exact hk0.room
    have hu : Unsaved o0.sim.interface (forgetful o o0).sim.interface :=
      ⟨fun h => if_neg h, fun h => if_neg h, fun h => if_neg h, rfl, rfl⟩
    have := Interface.restored_alike hk hkf hu
    have he : (forgetful o o0).sim.interface.restored k o0.sim.interface = o.sim.interface.restored k o0.sim.interface := by
      unfold Interface.restored
      split
      · rename_i hs
        have e1 : (forgetful o o0).sim.interface.dbi = o.sim.interface.dbi := if_pos hs
        have e2 : (forgetful o o0).sim.interface.pinsRead = o.sim.interface.pinsRead := if_pos hs
        have e3 : (forgetful o o0).sim.interface.pinsWrite = o.sim.interface.pinsWrite := if_pos hs
        rw [e1, e2, e3]
        rfl
      · rfl
    rw [he] at this
    exact this

/-- All standards: nothing is lost as long as inversion has never been turned on, no metadata other than the initial one is set, and the
interface is enabled or disabled as it was constructed. Missing from the property: simulators for which one of these does not hold
(`C56_violation_*`; DDR4 with inversion: `C56_ddr4_partial`). -/
theorem C56_partial (hk : Faithful k sp) (h0 : SimObject.init std N ms sp = .ok o0) (hc : ∀ u ∈ before, callable std u)
    (hr : o0.run ms sp before = .ok o) (hq : o.isSerializable = true) (hfc : o.sim.core.Fits ms) (hfi : o.sim.interface.Fits k)
    (hdbi : IfOp.dbi true ∉ ifOps std sp before) (hm : metaAfter (ifOps std sp before) = (0, 0))
    (hon : onAfter sp.enabled (ifOps std sp before) = sp.enabled) (out : Bytes) :
    ∃ written, o.serialize k ms out = .ok (out ++ written) ∧ ∀ rest, ∃ p, o0.deserialize k ms (written ++ rest) = some (p, rest) ∧
      ∀ later, definedSession ms sp o later → replies ms sp p later = replies ms sp o later := by
  obtain ⟨x1, x2, x3⟩ := init_parts_ext h0
  obtain ⟨_, y2, _⟩ := run_parts x1 hr
  obtain ⟨a1, a2, a3⟩ := DbiOff.start x3
  have hoff := a1.run (fun e he => by cases e with
    | false => rfl
    | true => exact absurd he hdbi) y2
  obtain ⟨m1, m2⟩ := meta_run y2
  rw [a2] at m1
  rw [a3] at m2
  have hf : forgetful o o0 = o := by
    have e1 : o0.sim.interface.formatter.metaData = o.sim.interface.formatter.metaData := by rw [a2, m1]; exact hm.symm
    have e2 : o0.sim.interface.enabled = o.sim.interface.enabled := by rw [a3, m2]; exact hon.symm
    unfold forgetful
    rw [← hoff.dbi, ← hoff.pinsRead, ← hoff.pinsWrite, e1, e2]
    simp only [ite_self]
  have hl : ∀ read, (o.sim.interface.dbi.last read).lastbeat = [] := by
    have : o0.sim.interface.dbi = { enable := false } := by
      have h := x3
      unfold Interface.init at h
      obtain ⟨cb, _, h⟩ := bind_ok h
      obtain ⟨db, _, h⟩ := bind_ok h
      obtain ⟨d, hd, h⟩ := bind_ok h
      split at h
      · cases h
      rw [← pure_ok h]
      show d = _
      unfold Interface.initDbi at hd
      split at hd
      · exact (ok_inj hd).symm
      · unfold Dbi.init at hd
        split at hd
        · split at hd
          · exact (ok_inj hd).symm
          · cases hd
        · exact (ok_inj hd).symm
    intro read
    rw [hoff.dbi, this]
    cases read <;> rfl
  have := C56_exact hk h0 hc hr hq hfc hfi (fun _ read b hb => by rw [hl read] at hb; cases hb) out
  rw [hf] at this
  exact this

/-- Histories without calls that only LPDDR6 has. -/
theorem ifOps_other (hs : std ≠ .lpddr6) (hc : ∀ u ∈ before, callable std u) :
    metaAfter (ifOps std sp before) = (0, 0) ∧ onAfter sp.enabled (ifOps std sp before) = sp.enabled :=
  ⟨(meta_other (sp := sp) hs (ifOps_offered hc) _ true).1, (meta_other (sp := sp) hs (ifOps_offered hc) (0, 0) _).2⟩

/-- DDR5: the property holds. -/
theorem C56_ddr5 : C56_statement .ddr5 := by
  intro N ms sp k before o0 o hk h0 hc hr hq hfc hfi
  obtain ⟨m1, m2⟩ := ifOps_other (sp := sp) (by decide) hc
  obtain ⟨w, e, g⟩ := C56_partial hk h0 hc hr hq hfc hfi (fun h => absurd rfl (ifOps_offered hc _ h)) m1 m2 []
  obtain ⟨p, hp, hl⟩ := g []
  exact ⟨w, p, e, by rw [List.append_nil] at hp; exact hp, hl⟩

/-- DDR4 devices of four bits refuse to turn inversion on: without calls on `getInterface()` the property holds. -/
theorem C56_ddr4_x4 {N : Nat} {ms : MemSpec} {sp : IfSpec} {k : Codec} {before : List SimCall} {o0 o : SimObject .ddr4 N} (hw : sp.bitWidth = 4)
    (hk : Faithful k sp) (h0 : SimObject.init .ddr4 N ms sp = .ok o0) (hc : ∀ u ∈ before, callable .ddr4 u)
    (ht : ∀ u ∈ before, throughExtensions u) (hr : o0.run ms sp before = .ok o) (hq : o.isSerializable = true) (hfc : o.sim.core.Fits ms)
    (hfi : o.sim.interface.Fits k) (out : Bytes) :
    ∃ written, o.serialize k ms out = .ok (out ++ written) ∧ ∀ rest, ∃ p, o0.deserialize k ms (written ++ rest) = some (p, rest) ∧
      ∀ later, definedSession ms sp o later → replies ms sp p later = replies ms sp o later := by
  obtain ⟨m1, m2⟩ := ifOps_other (sp := sp) (by decide) hc
  refine C56_partial hk h0 hc hr hq hfc hfi (fun h => ?_) m1 m2 out
  obtain ⟨u, hu, e⟩ := List.mem_filterMap.1 h
  have := ht u hu
  cases u <;> try cases e
  · exact this
  · simp [inverts, hw] at e

/-- DDR4, whatever inversion did: nothing is lost if the remembered last beats can be read back. -/
theorem C56_ddr4_partial {N : Nat} {ms : MemSpec} {sp : IfSpec} {k : Codec} {before : List SimCall} {o0 o : SimObject .ddr4 N}
    (hk : Faithful k sp) (h0 : SimObject.init .ddr4 N ms sp = .ok o0) (hc : ∀ u ∈ before, callable .ddr4 u)
    (hr : o0.run ms sp before = .ok o) (hq : o.isSerializable = true) (hfc : o.sim.core.Fits ms) (hfi : o.sim.interface.Fits k)
    (hb : ∀ read, ∀ b ∈ (o.sim.interface.dbi.last read).lastbeat, b = 0 ∨ b = 1) (out : Bytes) :
    ∃ written, o.serialize k ms out = .ok (out ++ written) ∧ ∀ rest, ∃ p, o0.deserialize k ms (written ++ rest) = some (p, rest) ∧
      ∀ later, definedSession ms sp o later → replies ms sp p later = replies ms sp o later := by
  obtain ⟨x1, _, x3⟩ := init_parts_ext h0
  obtain ⟨_, y2, _⟩ := run_parts x1 hr
  obtain ⟨_, a2, a3⟩ := DbiOff.start x3
  obtain ⟨m1, m2⟩ := meta_run y2
  obtain ⟨n1, n2⟩ := ifOps_other (sp := sp) (by decide) hc
  rw [a2] at m1
  rw [a3] at m2
  have hf : forgetful o o0 = o := by
    have e1 : o0.sim.interface.formatter.metaData = o.sim.interface.formatter.metaData := by rw [a2, m1]; exact n1.symm
    have e2 : o0.sim.interface.enabled = o.sim.interface.enabled := by rw [a3, m2]; exact n2.symm
    unfold forgetful
    rw [e1, e2]
    simp only [if_true]
  have := C56_exact hk h0 hc hr hq hfc hfi (fun _ => hb) out
  rw [hf] at this
  exact this

/-! ## What is lost -/

/-- Run, save, restore, compare a later session. -/
def c56Lost (std : Std) (N : Nat) (ms : MemSpec) (sp : IfSpec) (k : Codec) (before later : List SimCall) : Bool :=
  match SimObject.init std N ms sp with
  | .error _ => false
  | .ok o0 => match o0.run ms sp before with
    | .error _ => false
    | .ok o => decide (∀ u ∈ before, callable std u) && o.isSerializable && decide (o.sim.core.Fits ms) && decide (o.sim.interface.Fits k) &&
      match o.serialize k ms [] with
      | .error _ => true
      | .ok bytes => match o0.deserialize k ms bytes with
        | none => true
        | some (p, _) => decide (replies ms sp p later ≠ replies ms sp o later) &&
          (match (replies ms sp o later).2 with | some (.ub _) => false | _ => true)

theorem c56Lost_spec {std N ms sp k before later} (hk : Faithful k sp) (h : c56Lost std N ms sp k before later = true) : ¬ C56_statement std := by
  intro hs
  unfold c56Lost at h
  split at h
  · simp at h
  rename_i o0 h0
  split at h
  · simp at h
  rename_i o ho
  simp only [Bool.and_eq_true, decide_eq_true_eq] at h
  obtain ⟨⟨⟨⟨hc, hq⟩, hfc⟩, hfi⟩, h⟩ := h
  obtain ⟨bytes, p, hb, hp, hl⟩ := hs N ms sp k before o0 o hk h0 hc ho hq hfc hfi
  rw [hb] at h
  dsimp only at h
  rw [hp] at h
  simp only [Bool.and_eq_true, decide_eq_true_eq] at h
  refine h.1 (hl later fun m hm => ?_)
  rw [hm] at h
  exact absurd h.2 (by simp)

/-- A device with one bank. -/
def c56Mem : MemSpec := { Ex.ms with numberOfRanks := 1, numberOfBanks := 1, banksPerGroup := 1 }

/-- A burst. -/
def c56Data (std : Std) (t : Nat) (ty : CmdType) (x : UInt8) : SimCall :=
  .iface (c16Data std t ty x)

/-- LPDDR4, LPDDR5 and LPDDR6: inversion is off after restoring, although the extension still says that it is on. -/
theorem C56_violation_enable (std : Std) (h : std = .lpddr4 ∨ std = .lpddr5 ∨ std = .lpddr6) : ¬ C56_statement std := by
  rcases h with h | h | h <;> subst h
  · exact c56Lost_spec (N := 16) (ms := c56Mem) (c16_faithful .lpddr4) (before := [.setDBI true]) (later := [c56Data .lpddr4 10 .WR 0xff, .window 40])
      (by decide +kernel)
  · exact c56Lost_spec (N := 16) (ms := c56Mem) (c16_faithful .lpddr5) (before := [.setDBI true]) (later := [c56Data .lpddr5 10 .WR 0xff, .window 40])
      (by decide +kernel)
  · exact c56Lost_spec (N := 16) (ms := c56Mem) (c16_faithful .lpddr6) (before := [.setDBI true]) (later := [c56Data .lpddr6 10 .WR 0xff, .window 40])
      (by decide +kernel)

/-- LPDDR6: the metadata words are written to the stream and read back, but the interface does not get them; the extension, which asks the
interface, replies with zeros. -/
theorem C56_violation_metadata : ¬ C56_statement .lpddr6 :=
  c56Lost_spec (N := 16) (ms := c56Mem) (c16_faithful .lpddr6) (before := [.setMetaData 0xffff 1]) (later := [.getMetaData]) (by decide +kernel)

/-- DDR4: two bursts back to back with inversion leave a stream that cannot be restored. -/
theorem C56_violation_ddr4 : ¬ C56_statement .ddr4 :=
  c56Lost_spec (N := 16) (ms := c56Mem) (c16_faithful .ddr4)
    (before := [.setDBI true, c56Data .ddr4 10 .WR 0x12, c56Data .ddr4 14 .WR 0x12]) (later := []) (by decide +kernel)

/-! ## The hypotheses can be met -/

/-- Traffic through `doCommand`, a query that flushes the pending commands, and more. -/
def c56Before (std : Std) : List SimCall :=
  [.command { t := 0, type := .ACT, co := { row := 5 } }, .isEnabled, .window 3,
   .command (if std = .lpddr6 then { t := 10, type := .RDA, nBits := 256, data := some (List.replicate 32 0x5a) }
             else { t := 10, type := .RDA, nBits := 64, data := some (List.replicate 8 0x5a) }), .setDBI false, .window 60]

/-- A later session whose replies depend on the earlier one. -/
def c56Later : List SimCall := [.lastTime, .isEnabled, .getMetaData, .serializable]

/-- The session ends in a state that may be saved, and in which a later session differs from the one of a new simulator. -/
def c56Meets (std : Std) (N : Nat) (ms : MemSpec) (sp : IfSpec) (k : Codec) (before later : List SimCall) : Bool :=
  match SimObject.init std N ms sp with
  | .error _ => false
  | .ok o0 => match o0.run ms sp before with
    | .error _ => false
    | .ok o => decide (∀ u ∈ before, callable std u) && o.isSerializable && decide (o.sim.core.Fits ms) && decide (o.sim.interface.Fits k) &&
        decide ((replies ms sp o later).2 = none ∧ replies ms sp o0 later ≠ replies ms sp o later)

example : ∀ std ∈ [Std.ddr4, .ddr5, .lpddr4, .lpddr5, .lpddr6],
    metaAfter (ifOps std (c16Spec std) (c56Before std)) = (0, 0) ∧ onAfter true (ifOps std (c16Spec std) (c56Before std)) = true := by
  decide +kernel

/-- DDR4 with inversion. -/
example : c56Meets .ddr4 16 c56Mem (c16Spec .ddr4) c16Codec (.setDBI true :: (c56Before .ddr4).take 4 ++ [.window 60]) c56Later = true := by
  decide +kernel

example : c56Meets .ddr4 16 c56Mem (c16Spec .ddr4) c16Codec (c56Before .ddr4) c56Later = true := by decide +kernel

example : c56Meets .ddr5 16 c56Mem (c16Spec .ddr5) c16Codec (c56Before .ddr5) c56Later = true := by decide +kernel

example : c56Meets .lpddr4 16 c56Mem (c16Spec .lpddr4) c16Codec (c56Before .lpddr4) c56Later = true := by decide +kernel

example : c56Meets .lpddr5 16 c56Mem (c16Spec .lpddr5) c16Codec (c56Before .lpddr5) c56Later = true := by decide +kernel

example : c56Meets .lpddr6 16 c56Mem (c16Spec .lpddr6) c16Codec (c56Before .lpddr6) c56Later = true := by decide +kernel

end DRAMPower
