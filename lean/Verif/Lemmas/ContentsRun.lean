import Verif.Lemmas.Contents
import Verif.Lemmas.Project
import Verif.Spec.Influence

/-!
# Sessions with other payloads
-/

namespace DRAMPower
open Spec
variable {std : Std} {N : Nat} {ms : MemSpec} {sp : IfSpec} {p : Prop}

namespace Together
variable {α β : Type} {R : α → β → Prop} {x : Except Err α} {y : Except Err β}

theorem also {P : α → Prop} (h : Together p R x y) (hP : ∀ a, x = .ok a → P a) : Together p (fun a b => R a b ∧ P a) x y :=
  ⟨fun a b e e' => ⟨h.1 a b e e', hP a e⟩, h.2⟩

end Together

/-- Calls with related effects have related replies. -/
theorem replies_together {Q : SimObject std N → SimObject std N → Prop} {C : SimCall → SimCall → Prop} {M : SimReply → SimReply → Prop}
    (hstep : ∀ o o' u u', Q o o' → C u u' → Together p (fun a b => Q a.1 b.1 ∧ M a.2 b.2) (o.step ms sp u) (o'.step ms sp u')) :
    ∀ {us us' : List SimCall} {o o' : SimObject std N}, List.Forall₂ C us us' → Q o o' →
      (∀ (k : Nat) r r', (replies ms sp o us).1[k]? = some r → (replies ms sp o' us').1[k]? = some r' → M r r') ∧
      (p → List.Forall₂ M (replies ms sp o us).1 (replies ms sp o' us').1 ∧ (replies ms sp o' us').2 = (replies ms sp o us).2) := by
  intro us us' o o' h
  induction h generalizing o o' with
  | nil => intro _; exact ⟨fun k r r' h => by simp [replies] at h, fun _ => ⟨.nil, rfl⟩⟩
  | @cons u u' us us' hu hus ih =>
    intro hq
    have hs := hstep o o' u u' hq hu
    unfold replies
    cases h1 : o.step ms sp u with
    | error e =>
      rw [h1] at hs
      refine ⟨fun k r r' h => by simp at h, fun hp => ?_⟩
      rw [(hs.2 hp e).1 rfl]
      exact ⟨.nil, rfl⟩
    | ok a =>
      rw [h1] at hs
      cases h2 : o'.step ms sp u' with
      | error e =>
        rw [h2] at hs
        refine ⟨fun k r r' _ h => by simp at h, fun hp => ?_⟩
        exact absurd ((hs.2 hp e).2 rfl) (by simp)
      | ok b =>
        rw [h2] at hs
        obtain ⟨a1, a2⟩ := a
        obtain ⟨b1, b2⟩ := b
        obtain ⟨hq', hm⟩ := hs.1 _ _ rfl rfl
        obtain ⟨ih1, ih2⟩ := ih hq'
        dsimp only
        refine ⟨fun k r r' e e' => ?_, fun hp => ⟨.cons hm (ih2 hp).1, (ih2 hp).2⟩⟩
        cases k with
        | zero =>
          simp only [List.getElem?_cons_zero, Option.some.injEq] at e e'
          rw [← e, ← e']
          exact hm
        | succ k => exact ih1 k r r' (by simpa using e) (by simpa using e')

namespace Interface.Twin
variable {i j : Interface std N}

/-- Figures of the data wires may differ; with `p` those of the inversion wires do not, and with toggling rates none. -/
structure _root_.DRAMPower.StatsTwin (p : Prop) (sp : IfSpec) (a b : SimStats) : Prop where
  hidden : { b with readBus := {}, writeBus := {}, readDBI := {}, writeDBI := {} } = { a with readBus := {}, writeBus := {}, readDBI := {}, writeDBI := {} }
  pins : p → b.readDBI = a.readDBI ∧ b.writeDBI = a.writeDBI
  rates : sp.toggling.isSome → b = a

theorem pinStats_shape {P : Nat} {x y : List (Pin P)} (h : p → y = x) (t : Nat) (s : BusStats) :
    Together p (fun a b => (p → b = a) ∧ (y = x → b = a)) (Interface.pinStats x t s) (Interface.pinStats y t s) := by
  by_cases hp : p
  · rw [h hp]
    exact .refl fun _ _ => ⟨fun _ => rfl, fun _ => rfl⟩
  · refine .loose hp fun a b ha hb => ⟨fun e => absurd e hp, fun e => ?_⟩
    rw [e, ha] at hb
    exact (ok_inj hb).symm

theorem getWindowStats (h : i.Twin p j) (hs : Shaped sp i) (t : Nat) (s : SimStats) :
    Together p (StatsTwin p sp) (i.getWindowStats sp t s) (j.getWindowStats sp t s) := by
  have hr : sp.toggling.isSome → i.dataBus.mode ≠ .bus := by
    intro ht e
    have := hs.mode.symm.trans e
    unfold IfSpec.mode at this
    rw [ht] at this
    exact absurd this (by decide)
  unfold Interface.getWindowStats
  rw [h.cmdBus, h.clock, h.wck, h.readDQS, h.writeDQS, h.ranks]
  refine .same fun cb _ => ?_
  refine Together.bind (R := fun a b : DataBusStats => b.togglingRead = a.togglingRead ∧ b.togglingWrite = a.togglingWrite ∧
    (i.dataBus.mode ≠ .bus → b = a)) ?_ fun d d' ⟨h1, h2, h3⟩ => ?_
  · unfold DataBus.getStats
    by_cases hm : i.dataBus.mode = .bus
    · rw [h.togglingRead, h.togglingWrite]
      refine (h.busRead.getStats t).bind fun _ _ _ => (h.busWrite.getStats t).bind fun _ _ _ => ?_
      exact .same fun _ _ => .same fun _ _ => .ok ⟨rfl, rfl, fun e => absurd hm e⟩
    · rw [(h.rates hm).1]
      exact .refl fun _ _ => ⟨rfl, rfl, fun _ => rfl⟩
  refine (pinStats_shape (fun hp => (h.strict hp).1) t _).bind fun r r' ⟨g1, g2⟩ => ?_
  refine (pinStats_shape (fun hp => (h.strict hp).2) t _).bind fun w w' ⟨k1, k2⟩ => ?_
  dsimp only
  refine .ok ⟨by rw [h1, h2], fun hp => ⟨g1 hp, k1 hp⟩, fun ht => ?_⟩
  have hm := hr ht
  rw [h3 hm, g2 (h.rates hm).2.2.1, k2 (h.rates hm).2.2.2]

end Interface.Twin

/-- The simulators agree in everything but what the payloads leave behind. -/
structure SimObject.Twin (p : Prop) (sp : IfSpec) (o o' : SimObject std N) : Prop where
  ext : o'.ext = o.ext
  core : o'.sim.core = o.sim.core
  interface : o.sim.interface.Twin p o'.sim.interface
  shaped : Shaped sp o.sim.interface

/-- Replies that differ in the figures of the data wires. -/
def ReplyTwin (p : Prop) (sp : IfSpec) : SimReply → SimReply → Prop
  | .stats a, .stats b => StatsTwin p sp a b
  | r, r' => r' = r

theorem ReplyTwin.rfl' (r : SimReply) : ReplyTwin p sp r r := by
  cases r <;> first | rfl | exact ⟨rfl, fun _ => ⟨rfl, rfl⟩, fun _ => rfl⟩

namespace SimObject.Twin
variable {o o' : SimObject std N}

theorem command (h : o.Twin p sp o') {c c' : ICmd} (hc : otherBytes c c') :
    Together p (fun a b => a.1.Twin p sp b.1 ∧ ReplyTwin p sp a.2 b.2) (o.step ms sp (.command c)) (o'.step ms sp (.command c')) := by
  have hcore : c'.core = c.core := by rw [hc.1]; rfl
  simp only [SimObject.step, Simulator.doCommand]
  rw [h.core, hcore]
  cases o.sim.core.doCommand std ms c.core with
  | error e => exact .error _
  | ok core =>
    dsimp only
    have := (h.interface.doCommand (sp := sp) ⟨hc.1, hc.2⟩).also (P := Shaped sp) fun a e => (step_clocks h.shaped (op := .cmd c) e).shaped
    revert this
    generalize o.sim.interface.doCommand sp c = u
    generalize o'.sim.interface.doCommand sp c' = u'
    intro hu
    have := hu.bind (S := fun a b : SimObject std N × SimReply => a.1.Twin p sp b.1 ∧ ReplyTwin p sp a.2 b.2)
      (f := fun i => .ok (({ o with sim := { core, interface := i } } : SimObject std N), SimReply.nothing))
      (g := fun i => .ok (({ o' with sim := { core, interface := i } } : SimObject std N), SimReply.nothing))
      fun a b h1 => .ok ⟨⟨h.ext, rfl, h1.1, h1.2⟩, rfl⟩
    cases u <;> cases u' <;> exact this

theorem step (h : o.Twin p sp o') {u u' : SimCall} (hu : sameCall otherBytes u u')
    (he : p → turnsOn u = true → std = .lpddr6 ∨ std = .ddr5 ∨ sp.toggling.isSome) :
    Together p (fun a b => a.1.Twin p sp b.1 ∧ ReplyTwin p sp a.2 b.2) (o.step ms sp u) (o'.step ms sp u') := by
  have hmode : sp.toggling.isSome → o.sim.interface.dataBus.mode ≠ .bus := by
    intro ht e
    have := h.shaped.mode.symm.trans e
    unfold IfSpec.mode at this
    rw [ht] at this
    exact absurd this (by decide)
  have hiface : ∀ {op op' : IfOp}, OtherOp op op' → (p → op = .dbi true → std = .lpddr6 ∨ std = .ddr5 ∨ sp.toggling.isSome) →
      Together p (fun a b => a.1.Twin p sp b.1 ∧ ReplyTwin p sp a.2 b.2) (o.step ms sp (.iface op)) (o'.step ms sp (.iface op')) := by
    intro op op' hop ho
    have := (h.interface.step (sp := sp) hop fun hp e => by
      rcases ho hp e with q | q | q
      · exact .inl q
      · exact .inr (.inl q)
      · exact .inr (.inr (hmode q))).also (P := Shaped sp) fun a e => (step_clocks h.shaped e).shaped
    exact this.bind fun a b h1 => .ok ⟨⟨h.ext, h.core, h1.1, h1.2⟩, rfl⟩
  have hcorec : ∀ {c c' : ICmd}, otherBytes c c' →
      Together p (fun a b => a.1.Twin p sp b.1 ∧ ReplyTwin p sp a.2 b.2) (o.step ms sp (.coreCommand c)) (o'.step ms sp (.coreCommand c')) := by
    intro c c' hc
    have hcore : c'.core = c.core := by rw [hc.1]; rfl
    simp only [SimObject.step]
    rw [h.core, hcore]
    exact .same fun core _ => .ok ⟨⟨h.ext, rfl, h.interface, h.shaped⟩, rfl⟩
  cases hu with
  | command hc => exact h.command hc
  | coreCommand hc => exact hcorec hc
  | ifaceCommand hc => exact hiface (.cmd ⟨hc.1, hc.2⟩) (by simp)
  | other =>
    cases u with
    | command c => exact h.command ⟨rfl, rfl⟩
    | coreCommand c => exact hcorec ⟨rfl, rfl⟩
    | iface op => exact hiface (.same op) fun hp e => he hp (by rw [e]; rfl)
    | setDBI e =>
      simp only [SimObject.step, SimObject.setDBI, dbiCallback]
      rw [h.ext]
      split
      · by_cases h4 : std = .ddr4 ∧ sp.bitWidth = 4
        · simp only [if_pos h4]
          exact .ok ⟨⟨rfl, h.core, h.interface, h.shaped⟩, rfl⟩
        · simp only [if_neg h4]
          refine .ok ⟨⟨rfl, h.core, h.interface.enableDBI e fun hp e' => ?_, ⟨h.shaped.width, h.shaped.mode, h.shaped.ca⟩⟩, rfl⟩
          rcases he hp (by rw [e']; rfl) with q | q | q
          · exact .inl q
          · exact .inr (.inl q)
          · exact .inr (.inr (hmode q))
      · exact .ok ⟨h, rfl⟩
    | setMetaData a b =>
      simp only [SimObject.step, SimObject.setMetaData]
      rw [h.ext]
      split
      · exact .ok ⟨⟨rfl, h.core, { h.interface with metaData := rfl }, ⟨h.shaped.width, h.shaped.mode, h.shaped.ca⟩⟩, rfl⟩
      · exact .ok ⟨h, rfl⟩
    | isEnabled =>
      simp only [SimObject.step, SimObject.isEnabled]
      rw [h.ext]
      exact .ok ⟨h, rfl⟩
    | getMetaData =>
      simp only [SimObject.step, SimObject.getMetaData, Formatter.getMetaData]
      rw [h.ext, h.interface.metaData]
      exact .ok ⟨h, rfl⟩
    | window t =>
      simp only [SimObject.step, Simulator.getWindowStats]
      rw [h.core]
      refine Together.bind (R := fun a b : Simulator std N × SimStats => StatsTwin p sp a.2 b.2 ∧ a.1 = { o.sim with core := (o.sim.core.getWindowStats std ms t).1 } ∧
        b.1 = { o'.sim with core := (o.sim.core.getWindowStats std ms t).1 }) ?_ fun a b ⟨h1, h2, h3⟩ => ?_
      · exact (h.interface.getWindowStats h.shaped t _).bind fun a b h1 => .ok ⟨h1, rfl, rfl⟩
      · refine .ok ⟨⟨h.ext, by rw [h2, h3], ?_, ?_⟩, h1⟩
        · rw [h2, h3]; exact h.interface
        · rw [h2]; exact h.shaped
    | lastTime =>
      simp only [SimObject.step, Simulator.lastCommandTime, Interface.lastCommandTime]
      rw [h.core, h.interface.last]
      exact .ok ⟨h, rfl⟩
    | serializable =>
      simp only [SimObject.step, SimObject.isSerializable]
      rw [h.core]
      exact .ok ⟨h, rfl⟩

end SimObject.Twin

/-- A new simulator beside itself. -/
theorem SimObject.Twin.init {o : SimObject std N} (h : SimObject.init std N ms sp = .ok o) : o.Twin p sp o := by
  unfold SimObject.init at h
  obtain ⟨sim, h1, h⟩ := bind_ok h
  obtain ⟨ext, h2, h⟩ := bind_ok h
  rw [← pure_ok h]
  unfold Simulator.init at h1
  obtain ⟨i, h3, h1⟩ := bind_ok h1
  rw [← pure_ok h1]
  refine ⟨rfl, rfl, .rfl' _ fun _ _ => .inr (.inr ?_), init_shaped h3⟩
  unfold Interface.init at h3
  obtain ⟨_, _, h3⟩ := bind_ok h3
  obtain ⟨_, _, h3⟩ := bind_ok h3
  obtain ⟨d, h4, h3⟩ := bind_ok h3
  split at h3
  · cases h3
  · rw [← pure_ok h3]
    unfold Interface.initDbi Dbi.init at h4
    repeat' split at h4
    all_goals first | cases h4; done | skip
    all_goals (rw [← ok_inj h4])

end DRAMPower
