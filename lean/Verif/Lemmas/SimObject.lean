import Verif.Spec.SimSession
import Verif.Lemmas.RestoreRound
import Verif.Lemmas.Tidy
import Verif.Lemmas.DataTrace
import Verif.Lemmas.Extension

/-!
# Lemmas on the simulator object with its extensions
-/

namespace DRAMPower
open Spec

variable {std : Std} {N : Nat} {ms : MemSpec} {sp : IfSpec} {k : Codec}

/-! ## The extension manager of a simulator -/

/-- The manager of a simulator, with the state of its extensions. -/
def extShape (std : Std) (b : Bool) (m : BitVec 16 × BitVec 16) : ExtManager :=
  if std = .ddr5 then {}
  else if std = .lpddr6 then
    { objs := [{ type := dbiType, hooks := 0, state := .dbi b }, { type := metaType, hooks := 0, state := .metaData m.1 m.2 }]
      exts := [(metaType, 1), (dbiType, 0)], ser := [0, 1] }
  else { objs := [{ type := dbiType, hooks := 0, state := .dbi b }], exts := [(dbiType, 0)], ser := [0] }

theorem register_shape (i : Interface std N) : registerExtensions i = .ok (extShape std false i.formatter.getMetaData) := by
  cases std <;> rfl

theorem shape_hasDBI (b : Bool) (m : BitVec 16 × BitVec 16) : (extShape std b m).has dbiType = (std != .ddr5) := by cases std <;> rfl

theorem shape_hasMeta (b : Bool) (m : BitVec 16 × BitVec 16) : (extShape std b m).has metaType = (std == .lpddr6) := by cases std <;> rfl

theorem shape_getDBI (b : Bool) (m : BitVec 16 × BitVec 16) :
    ((extShape std b m).get dbiType).map (fun x => x.state.isEnabled) = if std = .ddr5 then none else some b := by cases std <;> rfl

theorem shape_getMeta (b : Bool) (m : BitVec 16 × BitVec 16) {α : Type} (x : α) :
    ((extShape std b m).get metaType).map (fun _ => x) = if std = .lpddr6 then some x else none := by cases std <;> rfl

theorem shape_setDBI (b : Bool) (m : BitVec 16 × BitVec 16) (ok e : Bool) :
    (extShape std b m).withExtension dbiType (ExtState.enable (fun _ => ok) e) = extShape std (if ok then e else b) m := by
  cases std <;> cases ok <;> rfl

theorem shape_setMeta (b : Bool) (m : BitVec 16 × BitVec 16) (x y : BitVec 16) :
    (extShape std b m).withExtension metaType (fun _ => .metaData x y) = extShape std b (x, y) := by
  cases std <;> rfl

/-- What the manager of a simulator writes. -/
def extBytes (std : Std) (b : Bool) (m : BitVec 16 × BitVec 16) : Bytes :=
  if std = .ddr5 then []
  else if std = .lpddr6 then ExtManager.bytesOf (.dbi b) ++ ExtManager.bytesOf (.metaData m.1 m.2)
  else ExtManager.bytesOf (.dbi b)

theorem shape_serialize (b : Bool) (m : BitVec 16 × BitVec 16) (out : Bytes) :
    (extShape std b m).serialize out = .ok (out ++ extBytes std b m) := by
  have e1 := ExtManager.serialize_state (.dbi b) out
  have e2 := ExtManager.serialize_state (.metaData m.1 m.2) (out ++ ExtManager.bytesOf (.dbi b))
  have h6 : (extShape .lpddr6 b m).serialize out = .ok ((ExtState.metaData m.1 m.2).serialize ((ExtState.dbi b).serialize out)) := rfl
  have h4 : (extShape .ddr4 b m).serialize out = .ok ((ExtState.dbi b).serialize out) := rfl
  cases std with
  | ddr5 => show Except.ok out = _; rw [show extBytes .ddr5 b m = [] from rfl, List.append_nil]
  | lpddr6 =>
    rw [h6, e1, e2, List.append_assoc]
    rfl
  | ddr4 => exact h4.trans (by rw [e1]; rfl)
  | lpddr4 => exact h4.trans (by rw [e1]; rfl)
  | lpddr5 => exact h4.trans (by rw [e1]; rfl)

theorem shape_deserialize (b b0 : Bool) (m m0 : BitVec 16 × BitVec 16) (rest : Bytes) :
    (extShape std b0 m0).deserialize (extBytes std b m ++ rest) = .ok (extShape std b m, rest) := by
  have e1 : ∀ rest, (ExtState.dbi b0).deserialize (ExtManager.bytesOf (.dbi b) ++ rest) = .ok (.dbi b, rest) :=
    ExtManager.deserialize_state (s := .dbi b) (s' := .dbi b0) trivial
  have e2 : ∀ rest, (ExtState.metaData m0.1 m0.2).deserialize (ExtManager.bytesOf (.metaData m.1 m.2) ++ rest) = .ok (.metaData m.1 m.2, rest) :=
    ExtManager.deserialize_state (s := .metaData m.1 m.2) (s' := .metaData m0.1 m0.2) trivial
  have h4 : (extShape .ddr4 b0 m0).deserialize (ExtManager.bytesOf (.dbi b) ++ rest) = .ok (extShape .ddr4 b m, rest) := by
    simp [ExtManager.deserialize, ExtManager.restoreStep, extShape, ExtManager.alive, e1]
    rfl
  have h6 : (extShape .lpddr6 b0 m0).deserialize (ExtManager.bytesOf (.dbi b) ++ (ExtManager.bytesOf (.metaData m.1 m.2) ++ rest)) =
      .ok (extShape .lpddr6 b m, rest) := by
    have h1 : ∀ s r : Bytes, ∀ x y : ExtState, (ExtState.dbi b0).deserialize s = .ok (x, r) → ∀ r', (ExtState.metaData m0.1 m0.2).deserialize r = .ok (y, r') →
        (extShape .lpddr6 b0 m0).deserialize s = .ok ({ objs := [{ type := dbiType, hooks := 0, state := x }, { type := metaType, hooks := 0, state := y }]
                                                        exts := [(metaType, 1), (dbiType, 0)], ser := [0, 1] }, r') := by
      intro s r x y hx r' hy
      simp [ExtManager.deserialize, ExtManager.restoreStep, extShape, ExtManager.alive, hx]
      show (fun (a : ExtState × Bytes) => _) <$> (ExtState.metaData m0.1 m0.2).deserialize r = _
      rw [hy]
      rfl
    exact h1 _ _ _ _ (e1 _) _ (e2 _)
  cases std with
  | ddr5 => rfl
  | lpddr6 =>
    rw [show extBytes .lpddr6 b m = ExtManager.bytesOf (.dbi b) ++ ExtManager.bytesOf (.metaData m.1 m.2) from rfl, List.append_assoc]
    exact h6
  | ddr4 => exact h4
  | lpddr4 => exact h4
  | lpddr5 => exact h4

/-! ## A session seen by the core and by the interface -/

theorem session_one {op : Op} {c c' : Core} {r : List CoreStats} (h : c.session std ms [op] = .ok (c', r)) {ops : List Op} :
    c.session std ms (op :: ops) = (c'.session std ms ops).map fun x => (x.1, r ++ x.2) := by
  cases op with
  | cmd x =>
    simp only [Core.session] at h ⊢
    split at h
    · cases ok_inj h
      cases c'.session std ms ops <;> rfl
    · cases h
  | query t =>
    simp only [Core.session] at h ⊢
    cases ok_inj h
    cases (c.getWindowStats std ms t).1.session std ms ops <;> rfl

/-- The flag of the DBI extension after a call. -/
def flagAfter (std : Std) (sp : IfSpec) (b : Bool) : SimCall → Bool
  | .setDBI e => if inverts std sp then e else b
  | _ => b

/-- The words of the metadata extension after a call. -/
def wordsAfter (m : BitVec 16 × BitVec 16) : SimCall → BitVec 16 × BitVec 16
  | .setMetaData x y => (x, y)
  | _ => m

/-- What a call does to the parts. -/
structure Parts (std : Std) (ms : MemSpec) (sp : IfSpec) (u : SimCall) (b : Bool) (m : BitVec 16 × BitVec 16) (o o' : SimObject std N) : Prop where
  core : ∃ r, o.sim.core.session std ms (coreOps [u]) = .ok (o'.sim.core, r)
  interface : o.sim.interface.run sp (ifOps std sp [u]) = .ok o'.sim.interface
  ext : o'.ext = extShape std (flagAfter std sp b u) (wordsAfter m u)

theorem run_one {i i' : Interface std N} {op : IfOp} (h : i.step sp op = .ok i') : i.run sp [op] = .ok i' := by
  simp only [Interface.run, h]

theorem core_one {c c' : Core} {cmd : Cmd} (h : c.doCommand std ms cmd = .ok c') : c.session std ms [.cmd cmd] = .ok (c', []) := by
  simp only [Core.session, h]

theorem step_parts {b : Bool} {m : BitVec 16 × BitVec 16} {o o' : SimObject std N} {u : SimCall} {r : SimReply}
    (ho : o.ext = extShape std b m) (h : o.step ms sp u = .ok (o', r)) : Parts std ms sp u b m o o' := by
  cases u with
  | command c =>
    simp only [SimObject.step, Simulator.doCommand] at h
    cases hc : o.sim.core.doCommand std ms c.core with
    | error e => rw [hc] at h; cases h
    | ok core =>
      rw [hc] at h
      dsimp only at h
      cases hi : o.sim.interface.doCommand sp c with
      | error e => rw [hi] at h; cases h
      | ok i =>
        rw [hi] at h
        cases ok_inj h
        exact ⟨⟨_, core_one hc⟩, run_one hi, ho⟩
  | coreCommand c =>
    simp only [SimObject.step] at h
    obtain ⟨core, hc, h⟩ := bind_ok h
    cases pure_ok h
    exact ⟨⟨_, core_one hc⟩, rfl, ho⟩
  | iface op =>
    simp only [SimObject.step] at h
    obtain ⟨i, hi, h⟩ := bind_ok h
    cases pure_ok h
    exact ⟨⟨_, rfl⟩, run_one hi, ho⟩
  | setDBI e =>
    simp only [SimObject.step, SimObject.setDBI, ho, shape_hasDBI] at h
    by_cases h5 : std = .ddr5
    · subst h5
      cases ok_inj h
      exact ⟨⟨_, rfl⟩, rfl, ho⟩
    rw [if_pos (by simpa using h5)] at h
    unfold dbiCallback at h
    by_cases hw : std = .ddr4 ∧ sp.bitWidth = 4
    · have hn : inverts std sp = false := by obtain ⟨rfl, hw⟩ := hw; simp [inverts, hw]
      rw [if_pos hw] at h
      cases ok_inj h
      refine ⟨⟨_, rfl⟩, ?_, ?_⟩
      · simp [ifOps, hn]; rfl
      · simp only [flagAfter, wordsAfter, hn, shape_setDBI]
    · have hn : inverts std sp = true := by
        unfold inverts
        cases std <;> simp_all
      rw [if_neg hw] at h
      cases ok_inj h
      refine ⟨⟨_, rfl⟩, ?_, ?_⟩
      · simp [ifOps, hn]; rfl
      · simp only [flagAfter, wordsAfter, hn, shape_setDBI]
  | setMetaData x y =>
    simp only [SimObject.step, SimObject.setMetaData, ho, shape_hasMeta] at h
    by_cases h6 : std = .lpddr6
    · subst h6
      rw [if_pos (show (Std.lpddr6 == Std.lpddr6) = true by decide)] at h
      cases ok_inj h
      exact ⟨⟨_, rfl⟩, rfl, shape_setMeta (std := .lpddr6) b m x y⟩
    · rw [if_neg (by simpa using h6)] at h
      cases ok_inj h
      refine ⟨⟨_, rfl⟩, ?_, ho.trans ?_⟩
      · simp [ifOps, h6]; rfl
      · simp [extShape, h6, flagAfter]
  | isEnabled => cases ok_inj h; exact ⟨⟨_, rfl⟩, rfl, ho⟩
  | getMetaData => cases ok_inj h; exact ⟨⟨_, rfl⟩, rfl, ho⟩
  | window t =>
    simp only [SimObject.step, Simulator.getWindowStats] at h
    obtain ⟨x, hx, h⟩ := bind_ok h
    obtain ⟨st, _, hx⟩ := bind_ok hx
    cases pure_ok hx
    cases pure_ok h
    exact ⟨⟨_, rfl⟩, rfl, ho⟩
  | lastTime => cases ok_inj h; exact ⟨⟨_, rfl⟩, rfl, ho⟩
  | serializable => cases ok_inj h; exact ⟨⟨_, rfl⟩, rfl, ho⟩

/-- What a session does to the parts. -/
structure RunParts (std : Std) (ms : MemSpec) (sp : IfSpec) (us : List SimCall) (b : Bool) (m : BitVec 16 × BitVec 16) (o o' : SimObject std N) :
    Prop where
  core : ∃ r, o.sim.core.session std ms (coreOps us) = .ok (o'.sim.core, r)
  interface : o.sim.interface.run sp (ifOps std sp us) = .ok o'.sim.interface
  ext : o'.ext = extShape std (us.foldl (flagAfter std sp) b) (us.foldl wordsAfter m)

theorem ops_cons (std : Std) (sp : IfSpec) (u : SimCall) (us : List SimCall) :
    coreOps (u :: us) = coreOps [u] ++ coreOps us ∧ ifOps std sp (u :: us) = ifOps std sp [u] ++ ifOps std sp us := by
  constructor
  · cases u <;> rfl
  · unfold ifOps
    rw [← List.filterMap_append]
    rfl

theorem coreOps_one (u : SimCall) : coreOps [u] = [] ∨ ∃ op, coreOps [u] = [op] := by
  cases u <;> first | exact .inl rfl | exact .inr ⟨_, rfl⟩

theorem run_parts : ∀ {us : List SimCall} {b : Bool} {m : BitVec 16 × BitVec 16} {o o' : SimObject std N},
    o.ext = extShape std b m → o.run ms sp us = .ok o' → RunParts std ms sp us b m o o'
  | [], b, m, o, o', ho, h => by
    cases ok_inj h
    exact ⟨⟨_, rfl⟩, rfl, ho⟩
  | u :: us, b, m, o, o', ho, h => by
    simp only [SimObject.run] at h
    split at h
    · rename_i o1 r hs
      obtain ⟨⟨r1, h1⟩, h2, h3⟩ := step_parts ho hs
      obtain ⟨⟨r2, k1⟩, k2, k3⟩ := run_parts h3 h
      obtain ⟨e1, e2⟩ := ops_cons std sp u us
      refine ⟨?_, ?_, k3⟩
      · rw [e1]
        rcases coreOps_one u with hu | ⟨op, hu⟩
        · rw [hu] at h1 ⊢
          have h1 : (o.sim.core, []) = (o1.sim.core, r1) := ok_inj h1
          rw [← (Prod.mk.inj h1).1] at k1
          exact ⟨r2, k1⟩
        · rw [hu] at h1 ⊢
          rw [List.singleton_append, session_one h1, k1]
          exact ⟨_, rfl⟩
      · rw [e2, Interface.run_append, h2]
        exact k2
    · cases h

/-- A new simulator. -/
theorem init_parts_ext {o : SimObject std N} (h : SimObject.init std N ms sp = .ok o) :
    o.ext = extShape std false (0, 0) ∧ o.sim.core = Core.init ms ∧ Interface.init std N sp = .ok o.sim.interface := by
  unfold SimObject.init at h
  obtain ⟨s, hs, h⟩ := bind_ok h
  obtain ⟨x, hx, h⟩ := bind_ok h
  cases pure_ok h
  unfold Simulator.init at hs
  obtain ⟨i, hi, hs⟩ := bind_ok hs
  cases pure_ok hs
  rw [register_shape] at hx
  cases ok_inj hx
  have := (DbiOff.start hi).2.1
  refine ⟨?_, rfl, hi⟩
  show extShape std false i.formatter.metaData = _
  rw [this]

/-! ## Simulators that cannot be told apart -/

/-- Equal but for the unsaved details of the interface that no call can see. -/
structure SimObject.Alike (o p : SimObject std N) : Prop where
  ext : p.ext = o.ext
  core : p.sim.core = o.sim.core
  interface : o.sim.interface.Alike p.sim.interface

theorem SimObject.Alike.step {o p : SimObject std N} (h : o.Alike p) (u : SimCall) :
    Follows (fun a b => a.1.Alike b.1 ∧ b.2 = a.2) (o.step ms sp u) (p.step ms sp u) := by
  cases u with
  | command c =>
    simp only [SimObject.step, Simulator.doCommand]
    rw [h.core]
    cases o.sim.core.doCommand std ms c.core with
    | error e => exact .error e
    | ok core =>
      dsimp only
      obtain ⟨h1, h2⟩ := h.interface.doCommand (sp := sp) c
      cases hi : o.sim.interface.doCommand sp c with
      | ok a =>
        obtain ⟨b, hb, hab⟩ := h1 a hi
        rw [hb]
        exact .ok ⟨⟨h.ext, rfl, hab⟩, rfl⟩
      | error e =>
        rcases h2 e hi with ⟨m, hm⟩ | hj
        · rw [hm]; exact .ub m _
        · rw [hj]; exact .error e
  | coreCommand c =>
    simp only [SimObject.step]
    rw [h.core]
    exact .same fun core _ => .ok ⟨⟨h.ext, rfl, h.interface⟩, rfl⟩
  | iface op =>
    simp only [SimObject.step]
    exact (h.interface.step op).bind fun a b hab => .ok ⟨⟨h.ext, h.core, hab⟩, rfl⟩
  | setDBI e =>
    simp only [SimObject.step, SimObject.setDBI]
    rw [h.ext]
    split
    · unfold dbiCallback
      split
      · exact .ok ⟨⟨rfl, h.core, h.interface⟩, rfl⟩
      · exact .ok ⟨⟨rfl, h.core, { h.interface with dbi := { h.interface.dbi with enable := rfl, last := h.interface.dbi.last } }⟩, rfl⟩
    · exact .ok ⟨h, rfl⟩
  | setMetaData x y =>
    simp only [SimObject.step, SimObject.setMetaData]
    rw [h.ext]
    split
    · exact .ok ⟨⟨rfl, h.core, { h.interface with metaData := rfl }⟩, rfl⟩
    · exact .ok ⟨h, rfl⟩
  | isEnabled => simp only [SimObject.step, SimObject.isEnabled]; rw [h.ext]; exact .ok ⟨h, rfl⟩
  | getMetaData =>
    simp only [SimObject.step, SimObject.getMetaData, Formatter.getMetaData]
    rw [h.ext, h.interface.metaData]
    exact .ok ⟨h, rfl⟩
  | window t =>
    simp only [SimObject.step, Simulator.getWindowStats]
    rw [h.core, h.interface.getWindowStats]
    cases o.sim.interface.getWindowStats sp t (o.sim.core.getWindowStats std ms t).2.toSim with
    | error e => exact .error e
    | ok s => exact .ok ⟨⟨h.ext, rfl, h.interface⟩, rfl⟩
  | lastTime =>
    simp only [SimObject.step, Simulator.lastCommandTime, Interface.lastCommandTime]
    rw [h.core, h.interface.last]
    exact .ok ⟨h, rfl⟩
  | serializable => simp only [SimObject.step, SimObject.isSerializable]; rw [h.core]; exact .ok ⟨h, rfl⟩

theorem replies_alike : ∀ {us : List SimCall} {o p : SimObject std N}, o.Alike p → definedSession ms sp o us →
    replies ms sp p us = replies ms sp o us
  | [], _, _, _, _ => rfl
  | u :: us, o, p, h, hd => by
    obtain ⟨h1, h2⟩ := h.step (ms := ms) (sp := sp) u
    unfold definedSession at hd
    simp only [replies] at hd ⊢
    cases hi : o.step ms sp u with
    | ok a =>
      obtain ⟨b, hb, hab, hr⟩ := h1 a hi
      rw [hi] at hd
      dsimp only at hd
      rw [hb]
      dsimp only
      rw [hr, replies_alike hab hd]
    | error e =>
      rw [hi] at hd
      rcases h2 e hi with ⟨m, hm⟩ | hj
      · exact absurd (by rw [hm]) (hd m)
      · rw [hj]

end DRAMPower
