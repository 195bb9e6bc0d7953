import Verif.Lemmas.Admissible
import Verif.Model.Simulator
import Verif.Spec.Timeline

/-!
# C37: core and interface accept the same commands
-/

namespace DRAMPower
open Spec

/-! ## Types of commands -/

/-- The core of the standard executes a command of the type after some commands. -/
def CoreAccepts (std : Std) (arch : BankArch) (ty : CmdType) : Prop :=
  ∃ (ms : MemSpec) (cs : List Cmd) (c : Cmd) (k : Core), ms.bankArch = arch ∧ c.type = ty ∧
    (Core.init ms).run std ms (cs ++ [c]) = .ok k

/-- The interface of the standard executes a command of the type after some calls. -/
def InterfaceAccepts (std : Std) (arch : BankArch) (ty : CmdType) : Prop :=
  ∃ (N : Nat) (sp : IfSpec) (ops : List IfOp) (c : ICmd) (i i' : Interface std N), sp.arch = arch ∧ c.type = ty ∧
    Interface.init std N sp = .ok i ∧ i.run sp (ops ++ [.cmd c]) = .ok i'

/-- All types. -/
def allTypes : List CmdType := [.NOP, .RD, .WR, .RDA, .WRA, .ACT, .PRE, .REFB, .REFP2B, .REFDB, .PRESB, .REFSB, .PREA, .REFA,
  .PDEA, .PDEP, .PDXA, .PDXP, .SREFEN, .SREFEX, .DSMEN, .DSMEX, .END_OF_SIMULATION, .COUNT]

theorem allTypes_mem (ty : CmdType) : ty ∈ allTypes := by cases ty <;> decide

/-- A core with sixteen banks. -/
def c37Mem (arch : BankArch) : MemSpec :=
  { numberOfBanks := 16, banksPerGroup := 4, numberOfBankGroups := 4, tRFC := 10, tRFCsb := 5, tRFCPB := 5, tRFCDB := 5, tRAS := 8,
    tRCD := 4, tRCDR := 4, tRCDW := 4, tRP := 4, prechargeOffsetRD := 4, prechargeOffsetWR := 8, bankArch := arch }

/-- Commands before one of the type. -/
def c37Before : CmdType → List Cmd
  | .SREFEX | .DSMEN => [{ t := 0, type := .SREFEN }]
  | .DSMEX => [{ t := 0, type := .SREFEN }, { t := 20, type := .DSMEN }]
  | .PDXA => [{ t := 0, type := .ACT }, { t := 20, type := .PDEA }]
  | _ => []

/-- An interface with twelve wires. -/
def c37Spec (std : Std) (arch : BankArch) : IfSpec :=
  { dataRate := 2, burstLength := 24, bitWidth := if std = .lpddr6 then 12 else 8, devices := 1, arch, dqsRate := 2 }

/-- A command with a payload of 32 bytes. -/
def c37Cmd (ty : CmdType) : ICmd := { t := 30, type := ty, nBits := 256, data := some (List.replicate 32 0x5a) }

/-- Run the core on a command of each type. -/
def c37Core (std : Std) (arch : BankArch) (ty : CmdType) : Bool :=
  match (Core.init (c37Mem arch)).run std (c37Mem arch) (c37Before ty ++ [{ t := 30, type := ty }]) with
  | .ok _ => true
  | .error _ => false

/-- Run the interface on a command of each type. -/
def c37Interface (std : Std) (arch : BankArch) (ty : CmdType) : Bool :=
  match Interface.init std 64 (c37Spec std arch) with
  | .error _ => false
  | .ok i => match i.run (c37Spec std arch) [.cmd (c37Cmd ty)] with
    | .ok _ => true
    | .error _ => false

/-- Types accepted by the core: the commands of the standard, the end of the simulation, and the no-operation of DDR5. -/
def coreTypes (std : Std) (arch : BankArch) (ty : CmdType) : Bool :=
  (supports std ty && !(ty == .REFP2B && arch == .m8b)) || ty == .END_OF_SIMULATION || (std == .ddr5 && ty == .NOP)

theorem core_table : ∀ std ∈ [Std.ddr4, .ddr5, .lpddr4, .lpddr5, .lpddr6], ∀ arch ∈ [BankArch.m16b, .mbg, .m8b], ∀ ty ∈ allTypes,
    coreTypes std arch ty = true → c37Core std arch ty = true := by decide +kernel

/-- Types accepted by the interface: those of the core without the self-refresh exit of DDR5, with the no-operation of LPDDR6. -/
def interfaceTypes (std : Std) (arch : BankArch) (ty : CmdType) : Bool :=
  (coreTypes std arch ty && !(std == .ddr5 && ty == .SREFEX)) || (std == .lpddr6 && ty == .NOP)

theorem interface_table : ∀ std ∈ [Std.ddr4, .ddr5, .lpddr4, .lpddr5, .lpddr6], ∀ arch ∈ [BankArch.m16b, .mbg, .m8b],
    ∀ ty ∈ allTypes, interfaceTypes std arch ty = true → c37Interface std arch ty = true := by decide +kernel

theorem std_mem (std : Std) : std ∈ [Std.ddr4, .ddr5, .lpddr4, .lpddr5, .lpddr6] := by cases std <;> decide

theorem arch_mem (a : BankArch) : a ∈ [BankArch.m16b, .mbg, .m8b] := by cases a <;> decide

theorem core_accepts_type {ms : MemSpec} {k k' : Core} {c : Cmd} {std : Std} (h : k.doCommand std ms c = .ok k') :
    coreTypes std ms.bankArch c.type = true ∧ (isNoEffect std c.type = false → c.rank < ms.numberOfRanks) := by
  unfold Core.doCommand at h
  dsimp only at h
  split at h
  · rename_i he
    refine ⟨?_, fun e => by rw [he] at e; cases e⟩
    unfold isNoEffect at he
    unfold coreTypes
    rw [Bool.or_assoc, he]
    simp
  · split at h
    · rename_i hr
      refine ⟨?_, fun _ => hr⟩
      split at h
      · rename_i he
        unfold coreTypes
        revert he
        unfold handle
        cases hc : c.type <;> cases std <;> simp [supports] <;> split <;> simp_all
      · cases h
    · cases h

theorem run_last {std : Std} {ms : MemSpec} : ∀ (cs : List Cmd) (c : Cmd) {k k' : Core}, k.run std ms (cs ++ [c]) = .ok k' →
    ∃ k1 : Core, k1.doCommand std ms c = .ok k'
  | [], c, k, k', h => by
    simp only [List.nil_append, Core.run] at h
    split at h
    · rename_i e
      exact ⟨k, by rw [e]; exact h⟩
    · cases h
  | x :: cs, c, k, k', h => by
    simp only [List.cons_append, Core.run] at h
    split at h
    · exact run_last cs c h
    · cases h

/-- The core of each standard accepts exactly these types. -/
theorem C37_core (std : Std) (arch : BankArch) (ty : CmdType) : CoreAccepts std arch ty ↔ coreTypes std arch ty = true := by
  constructor
  · rintro ⟨ms, cs, c, k, h1, h2, h3⟩
    obtain ⟨k1, h⟩ := run_last cs c h3
    rw [← h1, ← h2]
    exact (core_accepts_type h).1
  · intro h
    have := core_table std (std_mem std) arch (arch_mem arch) ty (allTypes_mem ty) h
    unfold c37Core at this
    split at this
    · rename_i k hk
      exact ⟨c37Mem arch, c37Before ty, { t := 30, type := ty }, k, rfl, rfl, hk⟩
    · cases this

theorem interface_accepts_type {std : Std} {N : Nat} {sp : IfSpec} {i i' : Interface std N} {c : ICmd} (h : i.doCommand sp c = .ok i') :
    interfaceTypes std sp.arch c.type = true := by
  obtain ⟨i1, h1, _⟩ := ifCommand_ok h
  have hb : std = .ddr5 → c.type = .SREFEX → False := by
    intro e1 e2
    subst e1
    rw [e2] at h1
    obtain ⟨_, _, _, _, h2, _⟩ := handleCommandBus_ok (show i.handleCommandBus sp c = .ok i1 from h1)
    rcases encodeCommand_ok h2 with ⟨e, _⟩ | ⟨_, _, k, hk, _⟩
    · cases e
    · rw [e2] at hk
      simp [CaHandler.command, patterns, ddr5Patterns] at hk
  revert h1 hb
  generalize c.type = ty
  intro h1 hb
  cases std <;> cases ty <;> first | (simp [interfaceTypes, coreTypes, supports]; done) | (simp [ifAction, Interface.act] at h1; done) | skip
  · exact absurd rfl (fun e => hb e rfl)
  · cases ha : sp.arch <;> rw [ha] at h1 <;> simp [ifAction, Interface.act] at h1 <;> decide

theorem interface_run_last {std : Std} {N : Nat} {sp : IfSpec} {ops : List IfOp} {c : ICmd} {i i' : Interface std N}
    (h : i.run sp (ops ++ [.cmd c]) = .ok i') : ∃ j : Interface std N, j.doCommand sp c = .ok i' := by
  rw [Interface.run_append] at h
  obtain ⟨j, _, h⟩ := bind_ok h
  obtain ⟨j', h1, h2⟩ := Interface.run_cons h
  rw [ok_inj (a := j') (b := i') h2] at h1
  exact ⟨j, h1⟩

/-- The interface of each standard accepts exactly these types. -/
theorem C37_interface (std : Std) (arch : BankArch) (ty : CmdType) : InterfaceAccepts std arch ty ↔ interfaceTypes std arch ty = true := by
  constructor
  · rintro ⟨N, sp, ops, c, i, i', h1, h2, _, h4⟩
    obtain ⟨j, h⟩ := interface_run_last h4
    rw [← h1, ← h2]
    exact interface_accepts_type h
  · intro h
    have := interface_table std (std_mem std) arch (arch_mem arch) ty (allTypes_mem ty) h
    unfold c37Interface at this
    split at this
    · cases this
    · rename_i i hi
      split at this
      · rename_i i' hr
        exact ⟨64, c37Spec std arch, [], c37Cmd ty, i, i', rfl, rfl, hi, hr⟩
      · cases this

/-- The first half of the property. -/
def C37_statement_types : Prop := ∀ std arch ty, CoreAccepts std arch ty ↔ InterfaceAccepts std arch ty

/-- It holds for all types except the self-refresh exit of DDR5 and the no-operation of LPDDR6. -/
theorem C37_types_partial (std : Std) (arch : BankArch) (ty : CmdType) (h5 : ¬ (std = .ddr5 ∧ ty = .SREFEX))
    (h6 : ¬ (std = .lpddr6 ∧ ty = .NOP)) : CoreAccepts std arch ty ↔ InterfaceAccepts std arch ty := by
  rw [C37_core, C37_interface]
  unfold interfaceTypes
  have e5 : (std == .ddr5 && ty == .SREFEX) = false := by simpa using fun a b => h5 ⟨a, b⟩
  have e6 : (std == .lpddr6 && ty == .NOP) = false := by simpa using fun a b => h6 ⟨a, b⟩
  rw [e5, e6]
  simp

example : CoreAccepts .lpddr5 .mbg .REFP2B ∧ ¬ CoreAccepts .lpddr5 .m8b .REFP2B ∧ ¬ CoreAccepts .ddr4 .m16b .NOP := by
  simp only [C37_core]; decide

/-- DDR5: the core accepts the self-refresh exit, the interface has no pattern for it. LPDDR6: the interface accepts the
no-operation, the core does not. -/
theorem C37_violation_types (arch : BankArch) :
    CoreAccepts .ddr5 arch .SREFEX ∧ ¬ InterfaceAccepts .ddr5 arch .SREFEX ∧
    InterfaceAccepts .lpddr6 arch .NOP ∧ ¬ CoreAccepts .lpddr6 arch .NOP ∧ ¬ C37_statement_types := by
  have h1 : CoreAccepts .ddr5 arch .SREFEX := (C37_core ..).2 (by cases arch <;> decide)
  have h2 : ¬ InterfaceAccepts .ddr5 arch .SREFEX := fun h => absurd ((C37_interface ..).1 h) (by cases arch <;> decide)
  have h3 : InterfaceAccepts .lpddr6 arch .NOP := (C37_interface ..).2 (by cases arch <;> decide)
  have h4 : ¬ CoreAccepts .lpddr6 arch .NOP := fun h => absurd ((C37_core ..).1 h) (by cases arch <;> decide)
  exact ⟨h1, h2, h3, h4, fun h => h2 ((h .ddr5 arch .SREFEX).1 h1)⟩

/-! ## Whole traces -/

theorem coreTypes_handled {std : Std} {arch : BankArch} {ty : CmdType} (h : coreTypes std arch ty = true)
    (h5 : std = .ddr5 → ty ≠ .SREFEX) : Handled arch std ty := by
  unfold Handled
  revert h h5
  cases std <;> cases arch <;> cases ty <;> decide

theorem halfway_aux {std : Std} {N : Nat} {ms : MemSpec} {sp : IfSpec} (hr : ms.numberOfRanks = sp.ranks) (ha : ms.bankArch = sp.arch)
    (hw : 0 < sp.bitWidth * sp.devices) (hd : 0 < sp.dataRate) :
    ∀ (cs : List ICmd) {s : Simulator std N} {ca dq : Nat}, Ready sp s.interface ca dq → Quiet s.interface →
      (std = .ddr5 → ∀ c ∈ cs, c.type ≠ .SREFEX) → Admissible std sp ca dq cs → (s.run ms sp cs).isHalfway = false
  | [], _, _, _, _, _, _, _ => rfl
  | c :: cs, s, ca, dq, h, hq, h5, hadm => by
    unfold Simulator.run Simulator.doCommand
    cases hc : s.core.doCommand std ms c.core with
    | error e => rfl
    | ok k =>
      obtain ⟨t1, t2⟩ := core_accepts_type hc
      rw [ha] at t1
      have hty := coreTypes_handled t1 (fun e => h5 e c (by simp))
      obtain ⟨i', e1, e2, e3, _⟩ := h.doCommand hw hd hty (fun _ hdir => by
        rw [← hr]
        apply t2
        show isNoEffect std c.type = false
        revert hdir
        cases c.type <;> cases std <;> decide) hadm (hq.turn hadm.2.1)
      dsimp only
      rw [e1]
      exact halfway_aux hr ha hw hd cs e2 (by unfold Quiet; rw [e3]; exact hq) (fun e x hx => h5 e x (by simp [hx])) hadm.2.2.2

/-- The second half of the property. -/
def C37_statement_halfway : Prop :=
  ∀ (std : Std) (N : Nat) (ms : MemSpec) (sp : IfSpec) (s : Simulator std N) (cs : List ICmd), ms.numberOfRanks = sp.ranks →
    ms.bankArch = sp.arch → sp.bitWidth * sp.devices ≤ N → Simulator.init std N ms sp = .ok s → (s.run ms sp cs).isHalfway = false

/-- No command fails half way, whatever the core does, as long as each command finds the command bus free, each data
command finds the data bus free and brings the data it announces, DBI is off, and (LPDDR6) the second bank of every
command is a multiple of the number of bank groups. Missing from the property: the self-refresh exit of DDR5, data
commands without data, LPDDR6 commands for other second banks (`C37_violation_halfway`), simulators with DBI. -/
theorem C37_halfway_partial {std : Std} {N : Nat} {ms : MemSpec} {sp : IfSpec} {s : Simulator std N} {cs : List ICmd}
    (hr : ms.numberOfRanks = sp.ranks) (ha : ms.bankArch = sp.arch) (hN : sp.bitWidth * sp.devices ≤ N)
    (hs : Simulator.init std N ms sp = .ok s) (h5 : std = .ddr5 → ∀ c ∈ cs, c.type ≠ .SREFEX) (hadm : Admissible std sp 0 0 cs) :
    (s.run ms sp cs).isHalfway = false := by
  unfold Simulator.init at hs
  obtain ⟨i, hi, hs⟩ := bind_ok hs
  have e := pure_ok hs
  obtain ⟨h1, h2, h3, h4⟩ := Ready.init hN hi
  subst e
  exact halfway_aux hr ha h2 h3 cs h1 h4 h5 hadm

/-- DDR4 with two ranks. -/
def c37Ddr4 : IfSpec := { dataRate := 2, burstLength := 8, bitWidth := 8, devices := 1, ranks := 2 }

/-- Activate, read and write back to back, precharge, self-refresh. -/
def c37Trace : List ICmd :=
  [{ t := 0, type := .ACT }, { t := 1, type := .ACT, co := { rank := 1 } },
   { t := 10, type := .RD, nBits := 64, data := some [1, 2, 3, 4, 5, 6, 7, 8] },
   { t := 14, type := .WRA, co := { rank := 1 }, nBits := 64, data := some [1, 2, 3, 4, 5, 6, 7, 8] },
   { t := 40, type := .PRE }, { t := 60, type := .SREFEN }, { t := 100, type := .SREFEX }, { t := 110, type := .END_OF_SIMULATION }]

example : Admissible .ddr4 c37Ddr4 0 0 c37Trace := by
  simp only [c37Trace, Admissible]
  refine ⟨?_, ?_, by decide, ?_, ?_, by decide, ?_, ?_, by decide, ?_, ?_, by decide, ?_, ?_, by decide, ?_, ?_, by decide, ?_, ?_, by decide,
    ?_, ?_, by decide, trivial⟩ <;>
    first
    | decide
    | exact fun h => absurd rfl h
    | exact fun _ => ⟨by decide, ⟨by decide, fun d h => by injection h with h; subst h; decide, by decide, by decide, by decide⟩⟩

/-- LPDDR6: activate, read, write, precharge. -/
def c37Trace6 : List ICmd :=
  [{ t := 0, type := .ACT }, { t := 10, type := .RD, nBits := 256, data := some (List.replicate 32 0x5a) },
   { t := 22, type := .WR, nBits := 256, data := some (List.replicate 32 0x5a) }, { t := 60, type := .PRE, co := { bank := 4 } }]

example : Admissible .lpddr6 (c37Spec .lpddr6 .m16b) 0 0 c37Trace6 := by
  simp only [c37Trace6, Admissible]
  refine ⟨?_, ?_, by decide, ?_, ?_, by decide, ?_, ?_, by decide, ?_, ?_, by decide, trivial⟩ <;>
    first
    | decide
    | exact fun h => absurd rfl h
    | exact fun _ => ⟨by decide, ⟨by decide, fun d h => by injection h with h; subst h; decide, by decide, by decide, by decide⟩⟩

/-- Outcome of a trace. -/
def c37Run (std : Std) (ms : MemSpec) (sp : IfSpec) (cs : List ICmd) : Option (Bool × Bool) :=
  match Simulator.init std 64 ms sp with
  | .error _ => none
  | .ok s => some ((s.run ms sp cs).isDone, (s.run ms sp cs).isHalfway)

example : c37Run .ddr4 { c37Mem .m16b with numberOfRanks := 2 } c37Ddr4 c37Trace = some (true, false) := by decide +kernel

example : c37Run .lpddr6 (c37Mem .m16b) (c37Spec .lpddr6 .m16b) c37Trace6 = some (true, false) := by decide +kernel

/-- Commands that fail half way: a read without data (DDR4, and the same for the other standards), the self-refresh exit
of DDR5, and an activation of bank 1 of an LPDDR6 device with four bank groups. -/
theorem C37_violation_halfway : ¬ C37_statement_halfway ∧
    (∀ std ∈ [Std.ddr4, .ddr5, .lpddr4, .lpddr5, .lpddr6],
      c37Run std (c37Mem .m16b) (c37Spec std .m16b) [{ t := 5, type := .ACT }, { t := 15, type := .RD }] = some (false, true)) ∧
    c37Run .ddr5 (c37Mem .m16b) (c37Spec .ddr5 .m16b) [{ t := 5, type := .SREFEN }, { t := 50, type := .SREFEX }] = some (false, true) ∧
    c37Run .lpddr6 (c37Mem .m16b) (c37Spec .lpddr6 .m16b) [{ t := 5, type := .ACT, co := { bank := 1 } }] = some (false, true) := by
  have h1 : ∀ std ∈ [Std.ddr4, .ddr5, .lpddr4, .lpddr5, .lpddr6],
      c37Run std (c37Mem .m16b) (c37Spec std .m16b) [{ t := 5, type := .ACT }, { t := 15, type := .RD }] = some (false, true) := by
    decide +kernel
  refine ⟨fun h => ?_, h1, by decide +kernel, by decide +kernel⟩
  have e := h1 .ddr4 (by decide)
  unfold c37Run at e
  split at e
  · cases e
  · rename_i s hs
    injection e with e
    simp only [Prod.mk.injEq] at e
    have := h .ddr4 64 (c37Mem .m16b) (c37Spec .ddr4 .m16b) s [{ t := 5, type := .ACT }, { t := 15, type := .RD }] rfl rfl (by decide) hs
    rw [e.2] at this
    cases this

end DRAMPower
