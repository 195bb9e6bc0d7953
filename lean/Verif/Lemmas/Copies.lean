import Verif.Spec.Copies
import Verif.Lemmas.SimObject

/-!
# Lemmas on several simulators
-/

namespace DRAMPower
open Spec

/-! ## Lists of slots -/

theorem join_append {α : Type} (l : List (Option α)) (x : Option α) (j : Nat) :
    ((l ++ [x])[j]?).join = if j < l.length then (l[j]?).join else if j = l.length then x else none := by
  split
  · rename_i h; rw [List.getElem?_append_left h]
  · rename_i h
    split
    · rename_i e; subst e; simp
    · rename_i e
      rw [List.getElem?_eq_none (by simp; omega)]
      rfl

theorem join_set {α : Type} (l : List (Option α)) (k : Nat) (x : Option α) (j : Nat) :
    ((l.set k x)[j]?).join = if j = k ∧ j < l.length then x else (l[j]?).join := by
  rw [List.getElem?_set]
  by_cases e : k = j
  · subst e
    by_cases h : k < l.length
    · simp [h]
    · simp [h]
  · rw [if_neg e, if_neg (by rintro ⟨h, _⟩; exact e h.symm)]

theorem join_modify {α : Type} (l : List (Option α)) (k : Nat) (f : Option α → Option α) (hf : f none = none) (j : Nat) :
    ((l.modify k f)[j]?).join = if j = k then f (l[j]?).join else (l[j]?).join := by
  rw [List.getElem?_modify]
  by_cases e : k = j
  · subst e
    rw [if_pos rfl]
    cases l[k]? with
    | none => exact hf.symm
    | some x => simp
  · rw [if_neg fun h => e h.symm]
    simp only [e, if_false]
    cases l[j]? <;> rfl

theorem join_lt {α : Type} {l : List (Option α)} {j : Nat} {x : α} (h : (l[j]?).join = some x) : j < l.length := by
  by_cases hl : j < l.length
  · exact hl
  · rw [List.getElem?_eq_none (by omega)] at h
    cases h

variable {std : Std} {N : Nat} {ms : MemSpec} {sp : IfSpec}

/-! ## Without inversion the pins of other simulators are not touched -/

theorem off_events {i0 i : Interface std N} (h : DbiOff i0 i) (c : ICmd) : i.pinEvents sp c = [] := by
  unfold Interface.pinEvents
  split
  · rw [if_pos (.inr (.inr (.inl h.enable)))]
  · have hr : ∀ read, i.dbi.reset (sp.dbi std) c.t read = .ok (i.dbi, []) := by
      intro read
      have hl := h.init read
      unfold Dbi.reset
      dsimp only
      rw [short_off hl, if_neg (by simp), if_pos hl]
    have : i.dbi.resetBoth (sp.dbi std) c.t = .ok (i.dbi, []) := by
      unfold Dbi.resetBoth
      rw [hr true]
      show (i.dbi.reset (sp.dbi std) c.t false >>= _) = _
      rw [hr false]
      rfl
    rw [this]
  · rfl

/-! ## One call -/

theorem put_self {w : World std N} {j : Nat} {s : Slot std N} (h : w.at? j = some s) : w.put j s = w := by
  unfold World.put
  have : w.slots.set j (some s) = w.slots := by
    refine List.ext_getElem? fun k => ?_
    rw [List.getElem?_set]
    split
    · rename_i e
      subst e
      have hl := join_lt h
      rw [if_pos hl]
      unfold World.at? at h
      cases hx : w.slots[j]? with
      | none => rw [hx] at h; cases h
      | some x => rw [hx] at h; exact congrArg some h.symm
    · rfl
  rw [this]

theorem putExt_self {w : World std N} {k owner : Nat} {m : ExtManager} (h : w.exts[k]? = some (m, owner)) : w.putExt k m = w := by
  unfold World.putExt
  have : (w.exts.modify k fun x => (m, x.2)) = w.exts := by
    refine List.ext_getElem? fun a => ?_
    rw [List.getElem?_modify]
    by_cases e : k = a
    · subst e; rw [h]; simp
    · simp [e]
  rw [this]

/-- What becomes of the simulator and its extensions after a call it deals with itself. -/
def World.after (w : World std N) (j : Nat) (s : Slot std N) (o : SimObject std N) : World std N :=
  (w.put j { s with sim := o.sim }).putExt s.ext o.ext

theorem after_ext {w : World std N} {j owner : Nat} {s : Slot std N} {m : ExtManager} (he : w.exts[s.ext]? = some (m, owner)) (sim : Simulator std N) :
    w.after j s ⟨m, sim⟩ = w.put j { s with sim } :=
  putExt_self (w := w.put j { s with sim }) he

theorem ifCommand_home {w : World std N} {j : Nat} {s : Slot std N} {c : ICmd} (hp : s.pins = j ∨ s.sim.interface.pinEvents sp c = []) :
    w.ifCommand sp j s c = (s.sim.interface.doCommand sp c).map fun i => w.put j { s with sim := { s.sim with interface := i } } := by
  unfold World.ifCommand
  rw [if_pos hp]
  cases s.sim.interface.doCommand sp c <;> rfl

theorem call_alone {w : World std N} {j owner : Nat} {s : Slot std N} {m : ExtManager} {b : Bool} {x : BitVec 16 × BitVec 16} {u : SimCall}
    (hs : w.at? j = some s) (he : w.exts[s.ext]? = some (m, owner)) (hm : m = extShape std b x)
    (hp : s.pins = j ∨ ∀ c, s.sim.interface.pinEvents sp c = []) (hx : owner = j ∨ plainCall std u) :
    w.call ms sp j u = (SimObject.step ms sp ⟨m, s.sim⟩ u).map fun a => (w.after j s a.1, a.2) := by
  unfold World.call
  rw [hs]
  have hp' : ∀ c, s.pins = j ∨ s.sim.interface.pinEvents sp c = [] := fun c => hp.imp id fun h => h c
  cases u with
  | command c =>
    simp only [SimObject.step, Simulator.doCommand]
    cases s.sim.core.doCommand std ms c.core with
    | error e => rfl
    | ok core =>
      show (w.ifCommand sp j { s with sim := { s.sim with core } } c >>= _) = _
      rw [ifCommand_home (s := { s with sim := { s.sim with core } }) (hp' c)]
      dsimp only
      cases s.sim.interface.doCommand sp c with
      | error e => rfl
      | ok i => exact congrArg Except.ok (Prod.ext (after_ext he _).symm rfl)
  | coreCommand c =>
    simp only [SimObject.step]
    cases s.sim.core.doCommand std ms c.core with
    | error e => rfl
    | ok core => exact congrArg Except.ok (Prod.ext (after_ext he _).symm rfl)
  | iface op =>
    have other : ∀ op, (do let interface ← s.sim.interface.step sp op; pure (w.put j { s with sim := { s.sim with interface } }, SimReply.nothing) :
        Except Err (World std N × SimReply)) = (SimObject.step ms sp ⟨m, s.sim⟩ (.iface op)).map fun a => (w.after j s a.1, a.2) := by
      intro op
      simp only [SimObject.step]
      cases s.sim.interface.step sp op with
      | error e => rfl
      | ok i => exact congrArg Except.ok (Prod.ext (after_ext he _).symm rfl)
    cases op with
    | cmd c =>
      dsimp only
      rw [ifCommand_home (hp' c)]
      rw [← other]
      show _ = (s.sim.interface.doCommand sp c >>= _)
      cases s.sim.interface.doCommand sp c <;> rfl
    | dbi e => exact other _
    | metaData a b => exact other _
    | parity b => exact other _
    | enable t => exact other _
    | disable t => exact other _
  | setDBI e =>
    simp only [SimObject.step, SimObject.setDBI, World.setDBI, he]
    by_cases hd : m.has dbiType = true
    · rw [if_pos hd, if_pos hd]
      have ho : owner = j := by
        rcases hx with h | h
        · exact h
        · rw [hm, shape_hasDBI] at hd
          subst h
          exact absurd hd (by decide)
      rw [ho, hs]
      rfl
    · rw [if_neg hd, if_neg hd]
      refine congrArg Except.ok (Prod.ext ?_ rfl)
      show w = w.after j s ⟨m, s.sim⟩
      rw [after_ext he]
      exact (put_self hs).symm
  | setMetaData a b =>
    simp only [SimObject.step, SimObject.setMetaData, World.setMetaData, he]
    by_cases hd : m.has metaType = true
    · rw [if_pos hd, if_pos hd]
      have ho : owner = j := by
        rcases hx with h | h
        · exact h
        · rw [hm, shape_hasMeta] at hd
          exact absurd (by simpa using hd) h
      rw [ho, hs]
      rfl
    · rw [if_neg hd, if_neg hd]
      refine congrArg Except.ok (Prod.ext ?_ rfl)
      show w = w.after j s ⟨m, s.sim⟩
      rw [after_ext he]
      exact (put_self hs).symm
  | isEnabled =>
    simp only [SimObject.step, SimObject.isEnabled, World.isEnabled, he]
    refine congrArg Except.ok (Prod.ext ?_ rfl)
    show w = w.after j s ⟨m, s.sim⟩
    rw [after_ext he]
    exact (put_self hs).symm
  | getMetaData =>
    have hself : w = w.after j s ⟨m, s.sim⟩ := by rw [after_ext he]; exact (put_self hs).symm
    simp only [SimObject.step, SimObject.getMetaData, World.getMetaData, he]
    cases hg : m.get metaType with
    | none => exact congrArg Except.ok (Prod.ext hself rfl)
    | some y =>
      have ho : owner = j := by
        rcases hx with h | h
        · exact h
        · have := shape_getMeta (std := std) b x ()
          rw [← hm, hg, if_neg h] at this
          cases this
      dsimp only
      rw [ho, hs]
      exact congrArg Except.ok (Prod.ext hself rfl)
  | window t =>
    simp only [SimObject.step]
    cases s.sim.getWindowStats ms sp t with
    | error e => rfl
    | ok r => exact congrArg Except.ok (Prod.ext (after_ext he _).symm rfl)
  | lastTime =>
    refine congrArg Except.ok (Prod.ext ?_ rfl)
    show w = w.after j s ⟨m, s.sim⟩
    rw [after_ext he]
    exact (put_self hs).symm
  | serializable =>
    refine congrArg Except.ok (Prod.ext ?_ rfl)
    show w = w.after j s ⟨m, s.sim⟩
    rw [after_ext he]
    exact (put_self hs).symm

/-! ## Programs -/

/-- The simulator is as if it had been constructed on its own and given the calls `h`. -/
def Alone (ms : MemSpec) (sp : IfSpec) (h : List SimCall) (o : SimObject std N) : Prop :=
  ∃ o0, SimObject.init std N ms sp = .ok o0 ∧ o0.run ms sp h = .ok o

theorem sim_run_append {u : SimCall} : ∀ {h : List SimCall} {o o1 o2 : SimObject std N} {r : SimReply}, o.run ms sp h = .ok o1 →
    o1.step ms sp u = .ok (o2, r) → o.run ms sp (h ++ [u]) = .ok o2
  | [], o, o1, o2, r, h1, h2 => by
    cases ok_inj h1
    show SimObject.run ms sp o [u] = _
    simp only [SimObject.run, h2]
  | v :: h, o, o1, o2, r, h1, h2 => by
    simp only [SimObject.run, List.cons_append] at h1 ⊢
    split at h1
    · exact sim_run_append h1 h2
    · cases h1

theorem Alone.step {h : List SimCall} {o o' : SimObject std N} {u : SimCall} {r : SimReply} (a : Alone ms sp h o)
    (hs : o.step ms sp u = .ok (o', r)) : Alone ms sp (h ++ [u]) o' := by
  obtain ⟨o0, h0, hr⟩ := a
  exact ⟨o0, h0, sim_run_append hr hs⟩

/-- Its extension manager. -/
theorem Alone.shape {h : List SimCall} {o : SimObject std N} (a : Alone ms sp h o) : ∃ b x, o.ext = extShape std b x := by
  obtain ⟨o0, h0, hr⟩ := a
  exact ⟨_, _, (run_parts (init_parts_ext h0).1 hr).ext⟩

theorem plain_shape : ∀ {h : List SimCall}, (∀ u ∈ h, plainCall std u) → ∀ x, (std = .lpddr6 → x = (0, 0)) →
    h.foldl (flagAfter std sp) false = false ∧ (std = .lpddr6 → h.foldl wordsAfter x = (0, 0))
  | [], _, x, hx => ⟨rfl, hx⟩
  | u :: h, hu, x, hx => by
    have h1 := hu u List.mem_cons_self
    have e1 : flagAfter std sp false u = false := by
      cases u with
      | setDBI e =>
        have : std = .ddr5 := h1
        subst this
        rfl
      | _ => rfl
    have e2 : std = .lpddr6 → wordsAfter x u = (0, 0) := by
      intro h6
      cases u with
      | setMetaData a b => exact absurd h6 h1
      | _ => exact hx h6
    rw [List.foldl_cons, List.foldl_cons, e1]
    exact plain_shape (fun v hv => hu v (List.mem_cons_of_mem _ hv)) _ e2

/-- Without calls about inversion and metadata: the extensions and the inverter are as in the beginning. -/
theorem Alone.plain {h : List SimCall} {o : SimObject std N} (a : Alone ms sp h o) (hu : ∀ u ∈ h, plainCall std u) :
    o.ext = extShape std false (0, 0) ∧ ∃ i0, DbiOff i0 o.sim.interface := by
  obtain ⟨o0, h0, hr⟩ := a
  obtain ⟨x1, _, x3⟩ := init_parts_ext h0
  obtain ⟨_, y2, y3⟩ := run_parts x1 hr
  obtain ⟨e1, e2⟩ := plain_shape (sp := sp) hu (0, 0) fun _ => rfl
  refine ⟨?_, _, (DbiOff.start x3).1.run ?_ y2⟩
  · rw [y3, e1]
    by_cases h6 : std = .lpddr6
    · rw [e2 h6]
    · simp [extShape, h6]
  · intro e he
    obtain ⟨u, hu', hx⟩ := List.mem_filterMap.1 he
    have hp := hu u hu'
    cases u with
    | command c => cases hx
    | iface op => cases hx; exact hp
    | setDBI b =>
      have : std = .ddr5 := hp
      subst this
      cases hx
    | setMetaData a b =>
      dsimp only at hx
      split at hx <;> cases hx
    | _ => cases hx

/-- Either no copies are made (`c`), or no call concerns inversion or metadata. -/
def Fits58 (std : Std) (c : Bool) : WorldOp → Prop
  | .copy _ | .assign _ _ _ => c = false
  | .call _ u => c = false → plainCall std u
  | _ => True

/-- A simulator that is what its history says. -/
structure InPlace (ms : MemSpec) (sp : IfSpec) (c : Bool) (w : World std N) (j : Nat) (h : List SimCall) (s : Slot std N) (m : ExtManager)
    (owner : Nat) : Prop where
  ext : w.exts[s.ext]? = some (m, owner)
  alone : Alone ms sp h ⟨m, s.sim⟩
  own : c = true → s.pins = j ∧ owner = j
  plain : c = false → ∀ u ∈ h, plainCall std u

/-- All simulators are what their histories say. -/
structure Inv58 (ms : MemSpec) (sp : IfSpec) (c : Bool) (l : List (Option (List SimCall))) (w : World std N) : Prop where
  len : l.length = w.slots.length
  dead : ∀ j, (l[j]?).join = none → w.at? j = none
  live : ∀ j h, (l[j]?).join = some h → ∃ s m owner, w.at? j = some s ∧ InPlace ms sp c w j h s m owner

theorem InPlace.call {c : Bool} {w : World std N} {j owner : Nat} {h : List SimCall} {s : Slot std N} {m : ExtManager} {u : SimCall}
    (x : InPlace ms sp c w j h s m owner) (hs : w.at? j = some s) (hu : Fits58 std c (.call j u)) :
    w.call ms sp j u = (SimObject.step ms sp ⟨m, s.sim⟩ u).map fun a => (w.after j s a.1, a.2) := by
  obtain ⟨b, y, hm⟩ := x.alone.shape
  cases c with
  | true => exact call_alone hs x.ext hm (.inl (x.own rfl).1) (.inl (x.own rfl).2)
  | false =>
    obtain ⟨_, i0, hd⟩ := x.alone.plain (x.plain rfl)
    exact call_alone hs x.ext hm (.inr fun c => off_events hd c) (.inr (hu rfl))

/-- A simulator is destroyed. -/
theorem inv58_kill {c : Bool} {l : List (Option (List SimCall))} {w : World std N} (x : Inv58 ms sp c l w) (k : Nat) :
    Inv58 ms sp c (l.set k none) { w with slots := w.slots.set k none } := by
  refine ⟨by simp [x.len], ?_, ?_⟩
  · intro j hj
    unfold World.at?
    rw [join_set] at hj ⊢
    rw [← x.len]
    split at hj
    · rw [if_pos ‹_›]
    · rw [if_neg ‹_›]; exact x.dead j hj
  · intro j g hj
    rw [join_set] at hj
    split at hj
    · cases hj
    · rename_i hn
      obtain ⟨s, m, owner, h1, h2⟩ := x.live j g hj
      refine ⟨s, m, owner, ?_, h2.ext, h2.alone, h2.own, h2.plain⟩
      unfold World.at?
      rw [join_set, ← x.len, if_neg hn]
      exact h1

theorem inv58_step {c : Bool} {l : List (Option (List SimCall))} {w w' : World std N} {op : WorldOp} {r : SimReply} (x : Inv58 ms sp c l w)
    (hop : Fits58 std c op) (h : w.step ms sp op = .ok (w', r)) : Inv58 ms sp c (historyStep l op) w' := by
  cases op with
  | new =>
    simp only [World.step] at h
    obtain ⟨o, ho, h⟩ := bind_ok h
    cases pure_ok h
    refine ⟨by simp [historyStep, x.len], ?_, ?_⟩
    · intro j hj
      unfold historyStep at hj
      unfold World.at?
      rw [join_append] at hj ⊢
      rw [← x.len]
      split at hj
      · rw [if_pos ‹_›]; exact x.dead j hj
      · rw [if_neg ‹_›]
        split at hj
        · cases hj
        · rw [if_neg ‹_›]
    · intro j g hj
      unfold historyStep at hj
      rw [join_append] at hj
      split at hj
      · rename_i hl
        obtain ⟨s, m, owner, h1, h2⟩ := x.live j g hj
        refine ⟨s, m, owner, ?_, ?_, h2.alone, h2.own, h2.plain⟩
        · unfold World.at?
          rw [join_append, ← x.len, if_pos hl]
          exact h1
        · have := h2.ext
          rw [List.getElem?_append_left]
          · exact this
          · exact (List.getElem?_eq_some_iff.1 this).1
      · rename_i hl
        split at hj
        · rename_i e
          cases hj
          refine ⟨{ ext := w.exts.length, pins := w.slots.length, sim := o.sim }, o.ext, w.slots.length, ?_, ?_, ⟨o, ho, rfl⟩, fun _ => ⟨?_, ?_⟩, fun _ u hu => by cases hu⟩
          · unfold World.at?
            rw [join_append, ← x.len, if_neg hl, if_pos e]
          · simp
          · rw [e, x.len]
          · rw [e, x.len]
        · cases hj
  | copy k =>
    have hc : c = false := hop
    subst hc
    simp only [World.step] at h
    split at h
    · cases h
    rename_i s0 hs0
    cases ok_inj h
    refine ⟨by simp [historyStep, x.len], ?_, ?_⟩
    · intro j hj
      unfold historyStep at hj
      unfold World.at?
      rw [join_append] at hj ⊢
      rw [← x.len]
      split at hj
      · rw [if_pos ‹_›]; exact x.dead j hj
      · rw [if_neg ‹_›]
        split at hj
        · have := x.dead k hj
          rw [this] at hs0
          cases hs0
        · rw [if_neg ‹_›]
    · intro j g hj
      unfold historyStep at hj
      rw [join_append] at hj
      split at hj
      · rename_i hl
        obtain ⟨s, m, owner, h1, h2⟩ := x.live j g hj
        refine ⟨s, m, owner, ?_, h2.ext, h2.alone, h2.own, h2.plain⟩
        unfold World.at?
        rw [join_append, ← x.len, if_pos hl]
        exact h1
      · rename_i hl
        split at hj
        · rename_i e
          obtain ⟨s, m, owner, h1, h2⟩ := x.live k g hj
          rw [hs0] at h1
          cases h1
          refine ⟨s0, m, owner, ?_, h2.ext, h2.alone, nofun, h2.plain⟩
          unfold World.at?
          rw [join_append, ← x.len, if_neg hl, if_pos e]
        · cases hj
  | assign moved j k =>
    have hc : c = false := hop
    subst hc
    have hset : ∀ l : List (Option (List SimCall)), ∀ w : World std N, Inv58 ms sp false l w → ∀ s s1, w.at? j = some s → w.at? k = some s1 →
        Inv58 ms sp false (l.set j (l[k]?).join) (w.put j s1) := by
      intro l w x s s1 hj hk
      have hput : ∀ i, (w.put j s1).at? i = if i = j then some s1 else w.at? i := by
        intro i
        have hl : j < w.slots.length := join_lt hj
        show ((w.slots.set j _)[i]?).join = _
        rw [join_set]
        by_cases e : i = j
        · rw [if_pos ⟨e, e ▸ hl⟩, if_pos e]
        · rw [if_neg fun h => e h.1, if_neg e]; rfl
      have hlen : j < l.length := by rw [x.len]; exact join_lt hj
      refine ⟨by simp [World.put, x.len], ?_, ?_⟩
      · intro i hi
        rw [join_set] at hi
        rw [hput]
        split at hi
        · have := x.dead k hi
          rw [hk] at this
          cases this
        · rename_i hn
          rw [if_neg fun e => hn ⟨e, e ▸ hlen⟩]
          exact x.dead i hi
      · intro i g hi
        rw [join_set] at hi
        rw [hput]
        split at hi
        · rename_i e
          obtain ⟨s2, m, owner, h1, h2⟩ := x.live k g hi
          rw [hk] at h1
          cases h1
          exact ⟨s1, m, owner, if_pos e.1, h2.ext, h2.alone, nofun, h2.plain⟩
        · rename_i hn
          obtain ⟨s2, m, owner, h1, h2⟩ := x.live i g hi
          exact ⟨s2, m, owner, by rw [if_neg fun e => hn ⟨e, e ▸ hlen⟩]; exact h1, h2.ext, h2.alone, nofun, h2.plain⟩
    simp only [World.step] at h
    split at h
    · cases h
    split at h
    · rename_i s s1 hj hk
      cases ok_inj h
      have y := hset l w x s s1 hj hk
      cases moved with
      | false => exact y
      | true => exact inv58_kill y k
    · cases h
  | destroy k =>
    simp only [World.step] at h
    cases ok_inj h
    exact inv58_kill x k
  | call k u =>
    have hlive : ∃ g, (l[k]?).join = some g := by
      cases hk : (l[k]?).join with
      | some g => exact ⟨g, rfl⟩
      | none =>
        simp only [World.step, World.call, x.dead k hk] at h
        cases h
    obtain ⟨g0, hg0⟩ := hlive
    obtain ⟨s0, m0, owner0, hs0, x0⟩ := x.live k g0 hg0
    have hcall := x0.call hs0 hop
    rw [World.step, hcall] at h
    cases hst : SimObject.step ms sp ⟨m0, s0.sim⟩ u with
    | error e => rw [hst] at h; cases h
    | ok a =>
      rw [hst] at h
      cases ok_inj h
      have hl0 : k < l.length := join_lt hg0
      have hat : ∀ j, (w.after k s0 a.1).at? j = if j = k then some { s0 with sim := a.1.sim } else w.at? j := by
        intro j
        show ((w.slots.set k _)[j]?).join = _
        rw [join_set]
        by_cases e : j = k
        · rw [if_pos ⟨e, by rw [e, ← x.len]; exact hl0⟩, if_pos e]
        · rw [if_neg fun h => e h.1, if_neg e]
          rfl
      have hext : ∀ q, (w.after k s0 a.1).exts[q]? = if q = s0.ext then some (a.1.ext, owner0) else w.exts[q]? := by
        intro q
        show (w.exts.modify s0.ext fun y => (a.1.ext, y.2))[q]? = _
        rw [List.getElem?_modify]
        by_cases e : s0.ext = q
        · subst e
          rw [x0.ext, if_pos rfl]
          simp
        · rw [if_neg fun h => e h.symm]
          simp only [e, if_false]
          cases w.exts[q]? <;> rfl
      refine ⟨by simp [historyStep, World.after, World.put, World.putExt, x.len], ?_, ?_⟩
      · intro j hj
        unfold historyStep at hj
        rw [join_modify _ _ _ rfl] at hj
        rw [hat]
        split at hj
        · rename_i e
          rw [e, hg0] at hj
          cases hj
        · rw [if_neg ‹_›]; exact x.dead j hj
      · intro j g hj
        unfold historyStep at hj
        rw [join_modify _ _ _ rfl] at hj
        split at hj
        · rename_i e
          subst e
          rw [hg0] at hj
          cases hj
          refine ⟨{ s0 with sim := a.1.sim }, a.1.ext, owner0, ?_, ?_, x0.alone.step hst, x0.own, fun hc v hv => ?_⟩
          · rw [hat, if_pos rfl]
          · rw [hext]; exact if_pos rfl
          · rcases List.mem_append.1 hv with h | h
            · exact x0.plain hc v h
            · rw [List.mem_singleton.1 h]; exact hop hc
        · rename_i e
          obtain ⟨s, m, owner, h1, h2⟩ := x.live j g hj
          refine ⟨s, m, owner, ?_, ?_, h2.alone, h2.own, h2.plain⟩
          · rw [hat, if_neg e]; exact h1
          · rw [hext]
            split
            · rename_i es
              have h3 := h2.ext
              rw [es, x0.ext] at h3
              cases h3
              cases c with
              | true => exact absurd ((h2.own rfl).2.symm.trans (x0.own rfl).2) e
              | false =>
                have k1 := ((x0.alone.step hst).plain fun v hv => by
                  rcases List.mem_append.1 hv with h | h
                  · exact x0.plain rfl v h
                  · rw [List.mem_singleton.1 h]; exact hop rfl).1
                have k2 := (x0.alone.plain (x0.plain rfl)).1
                rw [k1]
                exact congrArg (fun m => some (m, owner0)) k2.symm
            · exact h2.ext

theorem inv58_run {c : Bool} : ∀ {ops : List WorldOp} {l : List (Option (List SimCall))} {w w' : World std N}, Inv58 ms sp c l w →
    (∀ op ∈ ops, Fits58 std c op) → w.run ms sp ops = .ok w' → Inv58 ms sp c (ops.foldl historyStep l) w'
  | [], _, _, _, x, _, h => by cases ok_inj h; exact x
  | op :: ops, l, w, w', x, hf, h => by
    simp only [World.run] at h
    split at h
    · rename_i w1 r hs
      show Inv58 ms sp c (ops.foldl historyStep (historyStep l op)) w'
      exact inv58_run (inv58_step x (hf op List.mem_cons_self) hs) (fun o ho => hf o (List.mem_cons_of_mem _ ho)) h
    · cases h

end DRAMPower
