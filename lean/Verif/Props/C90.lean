import Verif.Lemmas.AdmissibleInverted
import Verif.Props.C37
import Verif.Props.C53
import Verif.Props.C86

/-!
# C90: inversion does not make a simulator refuse a trace

`Spec/Inverting.lean` says which traces the inversion can follow.
-/

namespace DRAMPower
open Spec

variable {std : Std} {N : Nat} {ms : MemSpec} {sp : IfSpec}

/-- One command that the core executes. -/
theorem inverted_command (hr : ms.numberOfRanks = sp.ranks) (ha : ms.bankArch = sp.arch) (hw : 0 < sp.bitWidth * sp.devices) (hd : 0 < sp.dataRate)
    (h8 : hasPins std = true → sp.devices * sp.bitWidth % 8 = 0) {k k' : Core} {i : Interface std N} {ca dq : Nat} {c : ICmd} {cs : List ICmd}
    (h : Ready sp i ca dq) (hp : Steered sp i dq (c :: cs)) (h5 : std = .ddr5 → c.type ≠ .SREFEX) (hadm : Admissible std sp ca dq (c :: cs))
    (hc : k.doCommand std ms c.core = .ok k') :
    ∃ i', i.doCommand sp c = .ok i' ∧ Ready sp i' (if caBeats std c.type = 0 then ca else c.t * caRate std + caBeats std c.type)
      (if direction c.type = none then dq else c.t * sp.dataRate + dataBeats std sp c) ∧
      Steered sp i' (if direction c.type = none then dq else c.t * sp.dataRate + dataBeats std sp c) cs := by
  obtain ⟨t1, t2⟩ := core_accepts_type hc
  rw [ha] at t1
  have hty := coreTypes_handled t1 h5
  obtain ⟨d, pr, pw, e1, e2⟩ := hp.turn h hw hd h8 hty hadm
  obtain ⟨i', f1, f2, f3, f4, f5⟩ := h.doCommand hw hd hty (fun _ hdir => by
    rw [← hr]
    apply t2
    show isNoEffect std c.type = false
    revert hdir
    cases c.type <;> cases std <;> decide) hadm e1
  exact ⟨i', f1, f2, e2.same (fun r => by rw [f3]) f4 f5⟩

theorem Ready.enable {i : Interface std N} {ca dq : Nat} (h : Ready sp i ca dq) (e : Bool) : Ready sp (i.enableDBI e) ca dq :=
  ⟨h.cmdBus, h.data, h.rd, h.wr, h.wck, h.ranks, h.ends, h.groups, h.parity⟩

theorem Steered.enable {i : Interface std N} {dq : Nat} {cs : List ICmd} (h : Steered sp i dq cs) (e : Bool) : Steered sp (i.enableDBI e) dq cs :=
  h.same (fun r => by cases r <;> rfl) rfl rfl

theorem Steered.init {i : Interface std N} {cs : List ICmd} (hi : Interface.init std N sp = .ok i)
    (hv : std = .ddr5 ∨ sp.toggling.isSome ∨ Invertible std sp cs) :
    Steered sp i 0 cs ∧ (hasPins std = true → sp.devices * sp.bitWidth % 8 = 0) := by
  obtain ⟨q1, q2⟩ := Primed.init hi cs
  have h0 : Untouched i := by
    have h3 := (init_parts hi).2.2.2.2.2.2.2.2.2.2.2.2.2.2.2
    intro r
    unfold Interface.initDbi Dbi.init at h3
    split at h3
    · rw [← ok_inj h3]; cases r <;> rfl
    · split at h3
      · split at h3
        · rw [← ok_inj h3]; cases r <;> rfl
        · exact absurd h3 (by simp)
      · rw [← ok_inj h3]; cases r <;> rfl
  rcases hv with hv | hv | hv
  · exact ⟨Or.inl ⟨Or.inl hv, h0⟩, q2⟩
  · exact ⟨Or.inl ⟨Or.inr hv, h0⟩, q2⟩
  · exact ⟨Or.inr ⟨q1, hv⟩, q2⟩

theorem inverted_session (hr : ms.numberOfRanks = sp.ranks) (ha : ms.bankArch = sp.arch) (hw : 0 < sp.bitWidth * sp.devices) (hd : 0 < sp.dataRate)
    (h8 : hasPins std = true → sp.devices * sp.bitWidth % 8 = 0) :
    ∀ (us : List SimCall) {o : SimObject std N} {ca dq : Nat}, Ready sp o.sim.interface ca dq → Steered sp o.sim.interface dq (traceOf us) →
      (∀ u ∈ us, steering u) → (std = .ddr5 → ∀ c ∈ traceOf us, c.type ≠ .SREFEX) → Admissible std sp ca dq (traceOf us) →
      (replies ms sp o us).2 = failure (o.sim.core.run std ms ((traceOf us).map ICmd.core))
  | [], _, _, _, _, _, _, _, _ => rfl
  | u :: us, o, ca, dq, h, hp, hu, h5, hadm => by
    have hus : ∀ u ∈ us, steering u := fun x hx => hu x (by simp [hx])
    have keep : ∀ {o' : SimObject std N} {r : SimReply}, traceOf (u :: us) = traceOf us → o.step ms sp u = .ok (o', r) → o'.sim.core = o.sim.core →
        Ready sp o'.sim.interface ca dq → Steered sp o'.sim.interface dq (traceOf us) →
        (replies ms sp o (u :: us)).2 = failure (o.sim.core.run std ms ((traceOf (u :: us)).map ICmd.core)) := by
      intro o' r ht hs hk h' hp'
      rw [ht] at h5 hadm ⊢
      have := inverted_session hr ha hw hd h8 us h' hp' hus h5 hadm
      simp only [replies, hs]
      rw [this, hk]
    cases u with
    | command c =>
      have ht : traceOf (.command c :: us) = c :: traceOf us := rfl
      rw [ht] at h5 hadm hp ⊢
      rw [List.map_cons]
      simp only [replies, SimObject.step, Simulator.doCommand, Core.run]
      cases hc : o.sim.core.doCommand std ms c.core with
      | error e => rfl
      | ok k =>
        obtain ⟨i', e1, e2, e3⟩ := inverted_command hr ha hw hd h8 h hp (fun e => h5 e c (by simp)) hadm hc
        dsimp only
        rw [e1]
        exact inverted_session hr ha hw hd h8 us (o := { o with sim := { core := k, interface := i' } }) e2 e3 hus
          (fun e x hx => h5 e x (by simp [hx])) hadm.2.2.2
    | coreCommand c => exact absurd (hu (.coreCommand c) (by simp)) id
    | iface op => exact absurd (hu (.iface op) (by simp)) id
    | window t => exact absurd (hu (.window t) (by simp)) id
    | setDBI e =>
      have key : (o.setDBI sp e).1.sim.core = o.sim.core ∧
          ((o.setDBI sp e).1.sim.interface = o.sim.interface ∨ (o.setDBI sp e).1.sim.interface = o.sim.interface.enableDBI e) := by
        unfold SimObject.setDBI
        split
        · refine ⟨rfl, ?_⟩
          show (dbiCallback sp o.sim.interface e).1 = _ ∨ (dbiCallback sp o.sim.interface e).1 = _
          unfold dbiCallback
          split
          · exact Or.inl rfl
          · exact Or.inr rfl
        · exact ⟨rfl, Or.inl rfl⟩
      refine keep rfl rfl key.1 ?_ ?_
      · rcases key.2 with k | k <;> rw [k]
        · exact h
        · exact h.enable e
      · rcases key.2 with k | k <;> rw [k]
        · exact hp
        · exact Steered.enable hp e
    | setMetaData a b =>
      have key : (o.setMetaData a b).sim.core = o.sim.core ∧
          ((o.setMetaData a b).sim.interface = o.sim.interface ∨ (o.setMetaData a b).sim.interface = o.sim.interface.setMetaData a b) := by
        unfold SimObject.setMetaData
        split
        · exact ⟨rfl, Or.inr rfl⟩
        · exact ⟨rfl, Or.inl rfl⟩
      refine keep rfl rfl key.1 ?_ ?_
      · rcases key.2 with k | k <;> rw [k]
        · exact h
        · exact ⟨h.cmdBus, h.data, h.rd, h.wr, h.wck, h.ranks, h.ends, h.groups, h.parity⟩
      · rcases key.2 with k | k <;> rw [k]
        · exact hp
        · exact Steered.same hp (fun _ => rfl) rfl rfl
    | isEnabled => exact keep rfl rfl rfl h hp
    | getMetaData => exact keep rfl rfl rfl h hp
    | lastTime => exact keep rfl rfl rfl h hp
    | serializable => exact keep rfl rfl rfl h hp

/-- The property: inversion never makes a session fail. -/
def C90_statement (std : Std) : Prop :=
  ∀ (N : Nat) (ms : MemSpec) (sp : IfSpec) (o : SimObject std N) (us : List SimCall), ms.numberOfRanks = sp.ranks → ms.bankArch = sp.arch →
    sp.bitWidth * sp.devices ≤ N → SimObject.init std N ms sp = .ok o → (∀ u ∈ us, steering u) → (std = .ddr5 → ∀ c ∈ traceOf us, c.type ≠ .SREFEX) →
    Admissible std sp 0 0 (traceOf us) → (replies ms sp o us).2 = failure ((Core.init ms).run std ms ((traceOf us).map ICmd.core))

/-- However inversion and metadata are switched between the commands, the session ends as the core alone ends it: it succeeds exactly if the core
executes all commands, and fails with the error of the core otherwise. Missing: bursts as long as an inversion line, payloads that get longer, data
after the end of the simulation (`C90_violation`, `C90_violation_longer`, `C90_violation_end`). -/
theorem C90_session_partial {o : SimObject std N} {us : List SimCall} (hr : ms.numberOfRanks = sp.ranks) (ha : ms.bankArch = sp.arch)
    (hN : sp.bitWidth * sp.devices ≤ N) (ho : SimObject.init std N ms sp = .ok o) (hu : ∀ u ∈ us, steering u)
    (h5 : std = .ddr5 → ∀ c ∈ traceOf us, c.type ≠ .SREFEX) (hadm : Admissible std sp 0 0 (traceOf us)) 
    (hv : std = .ddr5 ∨ sp.toggling.isSome ∨ Invertible std sp (traceOf us)) :
    (replies ms sp o us).2 = failure ((Core.init ms).run std ms ((traceOf us).map ICmd.core)) := by
  unfold SimObject.init at ho
  obtain ⟨s, hs, ho⟩ := bind_ok ho
  obtain ⟨x, _, ho⟩ := bind_ok ho
  have e := pure_ok ho
  subst e
  obtain ⟨hk, hi⟩ := simulator_init hs
  obtain ⟨p1, p2, p3, p4⟩ := Ready.init hN hi
  obtain ⟨q1, q2⟩ := Steered.init hi hv
  rw [← hk]
  exact inverted_session hr ha p2 p3 q2 us p1 q1 hu h5 hadm

/-- A simulator that starts with inversion executes no command of such a trace half way. -/
theorem C90_halfway_partial {s : Simulator std N} {cs : List ICmd} (hr : ms.numberOfRanks = sp.ranks) (ha : ms.bankArch = sp.arch)
    (hN : sp.bitWidth * sp.devices ≤ N) (hs : Simulator.init std N ms sp = .ok s) (h5 : std = .ddr5 → ∀ c ∈ cs, c.type ≠ .SREFEX)
    (hadm : Admissible std sp 0 0 cs) (hv : std = .ddr5 ∨ sp.toggling.isSome ∨ Invertible std sp cs) (e : Bool) :
    (({ s with interface := s.interface.enableDBI e } : Simulator std N).run ms sp cs).isHalfway = false := by
  obtain ⟨_, hi⟩ := simulator_init hs
  obtain ⟨p1, hw, hd, _⟩ := Ready.init hN hi
  obtain ⟨q1, h8⟩ := Steered.init hi hv
  have key : ∀ (cs : List ICmd) {s : Simulator std N} {ca dq : Nat}, Ready sp s.interface ca dq → Steered sp s.interface dq cs →
      (std = .ddr5 → ∀ c ∈ cs, c.type ≠ .SREFEX) → Admissible std sp ca dq cs → (s.run ms sp cs).isHalfway = false := by
    intro cs
    induction cs with
    | nil => intros; rfl
    | cons c cs ih =>
      intro s ca dq h hp h5 hadm
      unfold Simulator.run Simulator.doCommand
      cases hc : s.core.doCommand std ms c.core with
      | error e => rfl
      | ok k =>
        obtain ⟨i', e1, e2, e3⟩ := inverted_command hr ha hw hd h8 h hp (fun e => h5 e c (by simp)) hadm hc
        dsimp only
        rw [e1]
        exact ih e2 e3 (fun e x hx => h5 e x (by simp [hx])) hadm.2.2.2
  exact key cs (p1.enable e) (q1.enable e) h5 hadm

/-- DDR5 satisfies the whole property. -/
theorem C90_ddr5 : C90_statement .ddr5 := fun _ _ _ _ _ hr ha hN ho hu h5 hadm => C90_session_partial hr ha hN ho hu h5 hadm (Or.inl rfl)

/-! ## The hypotheses can be decided -/

instance (std : Std) (sp : IfSpec) (c : ICmd) : Decidable (Carries std sp c) :=
  decidable_of_iff (sp.dataRate ≤ dataBeats std sp c ∧ (∀ d ∈ c.data.toList, c.nBits ≤ 8 * d.length) ∧
      (std ≠ .lpddr6 → c.nBits % (sp.bitWidth * sp.devices) = 0) ∧
      (std = .lpddr6 → (c.nBits = 256 ∨ c.nBits = 512 ∨ c.nBits = 0) ∧ (dataBeats std sp c = 24 ∨ dataBeats std sp c = 48)) ∧
      (std = .lpddr6 → c.nBits = 512 → c.data.isSome → sp.shift.isSome))
    ⟨fun ⟨a, b, c, d, e⟩ => ⟨a, fun x hx => b x (by simp [hx]), c, d, e⟩, fun ⟨a, b, c, d, e⟩ => ⟨a, fun x hx => b x (by simpa using hx), c, d, e⟩⟩

instance decAdmissible (std : Std) (sp : IfSpec) : ∀ (cs : List ICmd) (ca dq : Nat), Decidable (Admissible std sp ca dq cs)
  | [], _, _ => .isTrue trivial
  | c :: cs, ca, dq => by
    have := decAdmissible std sp cs (if caBeats std c.type = 0 then ca else c.t * caRate std + caBeats std c.type)
      (if direction c.type = none then dq else c.t * sp.dataRate + dataBeats std sp c)
    unfold Admissible
    infer_instance

instance (std : Std) (sp : IfSpec) (cs : List ICmd) : Decidable (Invertible std sp cs) :=
  decidable_of_iff ((∀ room ∈ (lineRoom std).toList, ∀ c ∈ cs, direction c.type ≠ none → dataBeats std sp c < room) ∧
      (cs.Pairwise fun a b => direction a.type ≠ none → direction b.type = direction a.type → b.nBits ≤ a.nBits) ∧
      (lineRoom std ≠ none → cs.Pairwise fun a b => a.type = .END_OF_SIMULATION → direction b.type = none))
    ⟨fun ⟨a, b, c⟩ => ⟨fun r hr => a r (by simp [hr]), b, c⟩, fun ⟨a, b, c⟩ => ⟨fun r hr => a r (by simpa using hr), b, c⟩⟩

/-! ## Traces the inversion cannot follow -/

/-- How a session ends, and how the core alone ends it. -/
def c90Ends (std : Std) (sp : IfSpec) (us : List SimCall) : Option (Option Err × Option Err) :=
  match SimObject.init std 16 (c37Mem .m16b) sp with
  | .ok o => some ((replies (c37Mem .m16b) sp o us).2, failure ((Core.init (c37Mem .m16b)).run std (c37Mem .m16b) ((traceOf us).map ICmd.core)))
  | .error _ => none

theorem c90_refutes {std : Std} {sp : IfSpec} {us : List SimCall} {e : Err} (hs : C90_statement std) (hr : sp.ranks = 1) (ha : sp.arch = .m16b)
    (hN : sp.bitWidth * sp.devices ≤ 16) (hu : ∀ u ∈ us, steering u) (h5 : std ≠ .ddr5) (hadm : Admissible std sp 0 0 (traceOf us)) :
    c90Ends std sp us ≠ some (some e, none) := by
  intro h
  unfold c90Ends at h
  split at h
  · rename_i o ho
    have := hs 16 (c37Mem .m16b) sp o us hr.symm ha.symm hN ho hu (fun e => absurd e h5) hadm
    injection h with h
    injection h with h1 h2
    rw [h1, h2] at this
    cases this
  · cases h

/-- A device of sixteen bits (LPDDR6: twelve) whose vectors of flags grow by whole words. -/
def c90Spec (std : Std) : IfSpec :=
  { dataRate := 2, burstLength := 8, bitWidth := if std = .lpddr6 then 12 else 16, devices := 1, shift := some fun _ => false,
    grow := fun m n => (m + max m (n - m) + 63) / 64 * 64 }

/-- Inversion, two writes with a gap in between. All bytes are inverted. -/
def c90Gap (std : Std) (n m : Nat) : List SimCall :=
  let x := if std = .ddr4 then 0 else 255
  [.setDBI true, .command { t := 0, type := .ACT }, .command { t := 10, type := .WR, nBits := n, data := some (List.replicate (n / 8) x) },
   .command { t := 60, type := .WR, nBits := m, data := some (List.replicate (m / 8) x) }]

/-- Inversion, a write, the end, and a write that is earlier than the end. -/
def c90End (std : Std) : List SimCall :=
  let x := if std = .ddr4 then 0 else 255
  [.setDBI true, .command { t := 0, type := .ACT }, .command { t := 10, type := .WR, nBits := 64, data := some (List.replicate 8 x) },
   .command { t := 60, type := .END_OF_SIMULATION }, .command { t := 25, type := .WR, nBits := 64, data := some (List.replicate 8 x) }]

/-- DDR4 bursts of 8 beats and LPDDR4 and LPDDR5 bursts of 32 beats: a line that has to return to its idle level after such a burst cannot. Bursts of
this length are usual. -/
theorem C90_violation :
    (c90Ends .ddr4 (c90Spec .ddr4) (c90Gap .ddr4 128 128) = some (some (.assertion "bitset_size not enough"), none) ∧ ¬ C90_statement .ddr4) ∧
    (c90Ends .lpddr4 (c90Spec .lpddr4) (c90Gap .lpddr4 512 512) = some (some (.assertion "bitset_size not enough"), none) ∧ ¬ C90_statement .lpddr4) ∧
    (c90Ends .lpddr5 (c90Spec .lpddr5) (c90Gap .lpddr5 512 512) = some (some (.assertion "bitset_size not enough"), none) ∧ ¬ C90_statement .lpddr5) := by
  refine ⟨?_, ?_, ?_⟩ <;> refine (fun k => ⟨k, fun hs => c90_refutes hs rfl rfl (by decide) (by decide) (by decide) (by decide +kernel) k⟩) ?_ <;>
    decide +kernel

/-- A payload that is longer than one before, of all standards with inversion. -/
theorem C90_violation_longer :
    (∀ std ∈ [Std.ddr4, .lpddr4, .lpddr5], c90Ends std (c90Spec std) (c90Gap std 64 96) = some (some (.ub "lastInvert[chunk]"), none)) ∧
    c90Ends .lpddr6 (c90Spec .lpddr6) (c90Gap .lpddr6 256 512) = some (some (.ub "lastInvert[chunk]"), none) ∧ ¬ C90_statement .lpddr6 := by
  refine ⟨by decide +kernel, ?_⟩
  refine (fun k => ⟨k, fun hs => c90_refutes hs rfl rfl (by decide) (by decide) (by decide) (by decide +kernel) k⟩) ?_
  decide +kernel

/-- A write that is earlier than the end of the simulation given before it. -/
theorem C90_violation_end : ∀ std ∈ [Std.ddr4, .lpddr4, .lpddr5],
    c90Ends std (c90Spec std) (c90End std) = some (some (.assertion "virtual_time >= m_last_set"), none) ∧
    Admissible std (c90Spec std) 0 0 (traceOf (c90End std)) := by decide +kernel

/-! ## The hypotheses can be met -/

/-- Bursts in both directions with inversion switched on, off and on again. -/
def c90Session (std : Std) : List SimCall :=
  let n := if std = .lpddr6 then 256 else 96
  let wr (t : Nat) (ty : CmdType) (x : UInt8) : SimCall := .command { t, type := ty, nBits := n, data := some (List.replicate (n / 8) x) }
  [.setDBI true, .command { t := 0, type := .ACT }, wr 20 .WR 0, wr 32 .RD 255, .setDBI false, wr 50 .WR 255, .setDBI true, .isEnabled, wr 80 .RDA 0, .lastTime,
   .command { t := 120, type := .END_OF_SIMULATION }]

example : [Std.ddr4, .ddr5, .lpddr4, .lpddr5, .lpddr6].all (fun std => decide (Admissible std (c90Spec std) 0 0 (traceOf (c90Session std)) ∧
    Invertible std (c90Spec std) (traceOf (c90Session std)) ∧ (∀ u ∈ c90Session std, steering u) ∧
    c90Ends std (c90Spec std) (c90Session std) = some (none, none))) = true := by decide +kernel

/-- The core refuses the command of a rank it does not have. -/
example : c90Ends .ddr4 (c90Spec .ddr4) (c90Session .ddr4 ++ [.command { t := 130, type := .ACT, co := { rank := 3 } }])
    = some (some (.assertion "ranks.size()>cmd.targetCoordinate.rank"), some (.assertion "ranks.size()>cmd.targetCoordinate.rank")) := by decide +kernel

end DRAMPower
