import Verif.Sim.Trace
import Verif.Lemmas.Handlers
import Verif.Props.Examples

/-!
# C05: legal traces are accepted, invalid coordinates are rejected
-/

namespace DRAMPower

open Spec

/-- Full statement of the first half: no assertion or exception on legal traces. -/
def C05_accept_statement (std : Std) : Prop :=
  ∀ ms cmds, ValidSpec std ms → LegalTrace std ms cmds → ∃ c, (Core.init ms).run std ms cmds = .ok c

/-- Missing from the full statement: the active power-down situations excluded by `benignCmd`
(not DDR4), for which it is false (`C05_accept_violation`). -/
theorem C05_accept_partial (std : Std) (ms : MemSpec) (cmds : List Cmd) (hv : ValidSpec std ms)
    (ht : TameTrace std ms cmds) : ∃ c, (Core.init ms).run std ms cmds = .ok c := tame_ok hv ht

/-- DDR4: the full statement. -/
theorem C05_accept_ddr4 : C05_accept_statement .ddr4 := fun _ _ hv hl => tame_ok hv (legal_tame_ddr4 hl)

/-- All standards: every legal trace without active power-down. -/
theorem C05_accept_noActivePowerDown (std : Std) (ms : MemSpec) (cmds : List Cmd) (hv : ValidSpec std ms)
    (hl : LegalTrace std ms cmds) (hn : ∀ c ∈ cmds, c.type ≠ .PDEA) :
    ∃ c, (Core.init ms).run std ms cmds = .ok c := tame_ok hv (legal_tame_noPda hl hn)

/-- A device with a large `tRCD`. -/
def c05Ms : MemSpec := { Ex.ms with tRCD := 20, tRCDR := 20, tRAS := 25 }

/-- The auto-precharge closes bank 0 at time 25, during the power-down, but after the power-down the
bank is taken to be active since time 40; the following (empty) precharge power-down is therefore
delayed to time 60, into the self-refresh. -/
def c05Trace : List Cmd :=
  [ { t := 0, type := .ACT }, { t := 5, type := .RDA }, { t := 6, type := .PDEA }, { t := 40, type := .PDXA },
    { t := 40, type := .PDEP }, { t := 40, type := .PDXP }, { t := 41, type := .SREFEN }, { t := 60, type := .SREFEX } ]

/-- DDR5, LPDDR4, LPDDR5, LPDDR6: a legal trace can fail the assertion of `handleSelfRefreshExit`. -/
theorem C05_accept_violation (std : Std) (hs : std ≠ .ddr4) : ¬ C05_accept_statement std := by
  intro h
  obtain ⟨c, hc⟩ := h c05Ms c05Trace (by cases std <;> decide +kernel) (by cases std <;> first | exact absurd rfl hs | decide +kernel)
  have hf : ((Core.init c05Ms).run std c05Ms c05Trace).isOk = false := by
    cases std
    · exact absurd rfl hs
    all_goals decide +kernel
  rw [hc] at hf
  exact absurd hf (by simp [Except.isOk, Except.toBool])

/-! ## Rejection -/

/-- Commands with a bank coordinate. -/
def Spec.usesBank : CmdType → Bool
  | .ACT | .PRE | .RD | .RDA | .WR | .WRA | .REFB | .REFP2B | .REFDB | .PRESB | .REFSB => true
  | _ => false

/-- Some coordinate used by the command does not exist in the device. -/
def Spec.badCoordinate (std : Std) (ms : MemSpec) (c : Cmd) : Prop :=
  unaddressed std c.type = false ∧
  (ms.numberOfRanks ≤ c.rank ∨ (usesBank c.type = true ∧ ms.numberOfBanks ≤ c.bank) ∨
    (c.type = .REFDB ∧ ms.numberOfBanks ≤ c.dbank))

/-- After any accepted history, a command with an invalid coordinate ends in a failed assertion or an
exception (never in undefined behaviour, never in a new state). -/
theorem C05_reject (std : Std) (ms : MemSpec) (cmds : List Cmd) (c : Core)
    (hr : (Core.init ms).run std ms cmds = .ok c) (cmd : Cmd) (hb : badCoordinate std ms cmd) :
    ∃ e, c.doCommand std ms cmd = .error e ∧ ∀ m, e ≠ .ub m := by
  obtain ⟨hu, hb⟩ := hb
  have hwf := process_wf (std := std) (t := cmd.t) (run_wf (init_wf ms) hr)
  simp only [Core.doCommand, isNoEffect_eq, hu]
  simp only [Bool.false_eq_true, if_false]
  split
  · rename_i hlt
    have hn : ((c.process std cmd.t).ranks cmd.rank).nBanks = ms.numberOfBanks := hwf _
    have hb' := hb.resolve_left (by omega)
    have key : ∃ e, handle std ms ((c.process std cmd.t).ranks cmd.rank) cmd = .error e ∧ ∀ m, e ≠ .ub m := by
      unfold handle
      have hw : ∀ k, ms.numberOfBanks ≤ cmd.bank → ∃ e, withBank ((c.process std cmd.t).ranks cmd.rank) cmd.bank k = .error e ∧ ∀ m, e ≠ .ub m := by
        intro k hk
        unfold withBank
        rw [if_neg (by omega)]
        exact ⟨_, rfl, by simp⟩
      have hw' : ∀ k, ms.numberOfBanks ≤ cmd.dbank → ∃ e, withBank ((c.process std cmd.t).ranks cmd.rank) cmd.dbank k = .error e ∧ ∀ m, e ≠ .ub m := by
        intro k hk
        unfold withBank
        rw [if_neg (by omega)]
        exact ⟨_, rfl, by simp⟩
      have hun : ∀ m : String, ∃ e, (Except.error (.assertion m) : Except Err HRes) = .error e ∧ ∀ m, e ≠ .ub m :=
        fun m => ⟨_, rfl, by simp⟩
      cases hty : cmd.type <;> simp only [hty, usesBank, Bool.false_eq_true, false_and, true_and, reduceCtorEq, or_false] at hb' ⊢
      all_goals first
        | exact hb'.elim
        | exact hw _ hb'
        | skip
      · split
        · exact hw _ hb'
        · exact hun _
      · split
        · split
          · exact ⟨_, rfl, by simp⟩
          · exact hw _ hb'
        · exact hun _
      · split
        · by_cases h1 : ms.numberOfBanks ≤ cmd.bank
          · exact hw _ h1
          · unfold withBank
            rw [if_pos (by omega)]
            exact hw' _ (hb'.resolve_left h1)
        · exact hun _
      · split
        · exact hw _ hb'
        · exact hun _
      · split
        · exact hw _ hb'
        · exact hun _
    obtain ⟨e, he, hne⟩ := key
    rw [he]
    exact ⟨e, rfl, hne⟩
  · exact ⟨_, rfl, by simp⟩

/-! ## Memory safety -/

theorem handle_no_ub {std ms r cmd} (hv : ValidSpec std ms) (hp : std = .lpddr5 → 16 ≤ ms.numberOfBanks)
    (hn : r.nBanks = ms.numberOfBanks) (m : String) : handle std ms r cmd ≠ .error (.ub m) := by
  have hw : ∀ b k, k ≠ .error (.ub m) → withBank r b k ≠ .error (.ub m) := by
    intro b k hk
    unfold withBank
    split
    · exact hk
    · simp
  have hsb : std = .ddr5 → ∀ b, ms.banksPerGroup ≠ 0 ∧ (sameBankIdx ms b).all (· < r.nBanks) = true := by
    intro h b
    have hg := hv.groups h
    have hpos := hv.banks
    have hne : ms.banksPerGroup ≠ 0 := by intro h0; rw [h0, Nat.mul_zero] at hg; omega
    refine ⟨hne, ?_⟩
    rw [List.all_eq_true]
    intro x hx
    simp only [sameBankIdx, List.mem_map, List.mem_range] at hx
    obtain ⟨g, hg', rfl⟩ := hx
    rw [decide_eq_true_eq, hn, hg]
    have : b % ms.banksPerGroup < ms.banksPerGroup := Nat.mod_lt _ (by omega)
    have h2 : (g + 1) * ms.banksPerGroup ≤ ms.numberOfBankGroups * ms.banksPerGroup := Nat.mul_le_mul_right _ hg'
    rw [Nat.add_mul, Nat.one_mul] at h2
    omega
  unfold handle
  cases hty : cmd.type <;> simp only [pureRes]
  all_goals first
    | (simp; done)
    | (apply hw; simp; done)
    | skip
  case REFB => split
               · apply hw; simp
               · simp
  case REFP2B =>
    split
    · rename_i h5
      split
      · simp
      · apply hw
        unfold handleRefPerTwoBanks
        have := hp h5
        have : (cmd.bank + ms.perTwoBankOffset) % 16 < 16 := Nat.mod_lt _ (by omega)
        simp only
        rw [if_pos (by omega)]
        simp
    · simp
  case REFDB => split
                · apply hw; apply hw; simp
                · simp
  case PRESB =>
    split
    · rename_i h5
      apply hw
      unfold handlePreSameBank
      rw [if_neg (hsb h5 cmd.bank).1, if_pos (hsb h5 _).2]
      simp
    · simp
  case REFSB =>
    split
    · rename_i h5
      apply hw
      unfold handleRefSameBank
      rw [if_neg (hsb h5 cmd.bank).1, if_pos (hsb h5 _).2]
      simp
    · simp
  case PDXA => unfold handlePowerDownActExit; split <;> simp
  case SREFEX => unfold handleSelfRefreshExit; split <;> simp
  case DSMEN => split
                · unfold handleDSMEntry; split <;> simp
                · simp
  case DSMEX => split
                · unfold handleDSMExit; split <;> simp
                · simp

/-- No command sequence at all, legal or not, makes the core access a bank that does not exist or
divide by zero, provided the memory spec is consistent (LPDDR5: at least the 16 banks that the
partner computation of REFP2B assumes). -/
theorem C05_no_undefined_behaviour (std : Std) (ms : MemSpec) (hv : ValidSpec std ms)
    (hp : std = .lpddr5 → 16 ≤ ms.numberOfBanks) (cmds : List Cmd) (m : String) :
    (Core.init ms).run std ms cmds ≠ .error (.ub m) := by
  have key : ∀ c : Core, WF ms c → c.run std ms cmds ≠ .error (.ub m) := by
    induction cmds with
    | nil => intro c _; simp [Core.run]
    | cons cmd cmds ih =>
      intro c hc
      simp only [Core.run]
      split
      · rename_i c' h'
        exact ih c' (doCommand_wf hc h')
      · rename_i e he
        intro hcon
        injection hcon with hcon
        subst hcon
        simp only [Core.doCommand] at he
        split at he
        · simp at he
        · split at he
          · split at he
            · simp at he
            · rename_i e' he'
              injection he with he
              subst he
              exact handle_no_ub hv hp (process_wf hc _) m he'
          · simp at he
  exact key _ (init_wf ms)

/-- Without the 16 banks, a REFP2B with a valid bank coordinate accesses a bank that does not exist. -/
theorem C05_refp2b_violation : ∃ ms cmd, ValidSpec .lpddr5 ms ∧ cmd.rank < ms.numberOfRanks ∧ cmd.bank < ms.numberOfBanks ∧
    (Core.init ms).run .lpddr5 ms [cmd] matches .error (.ub _) :=
  ⟨{ Ex.ms with numberOfBanks := 8, perTwoBankOffset := 8 }, { t := 0, type := .REFP2B, bank := 0 },
    by decide +kernel, by decide, by decide, by decide +kernel⟩

/-! ## The hypotheses can be met -/

example (std : Std) : ValidSpec std Ex.ms ∧ LegalTrace std Ex.ms Ex.traffic ∧ (∀ c ∈ Ex.traffic, c.type ≠ .PDEA) ∧
    TameTrace std Ex.ms Ex.activePd := by
  refine ⟨?_, ?_, ?_, ?_⟩ <;> cases std <;> decide +kernel

example (std : Std) : ((Core.init Ex.ms).run std Ex.ms Ex.traffic).isOk = true ∧
    badCoordinate std Ex.ms { t := 50, type := .RDA, bank := 4 } ∧
    badCoordinate std Ex.ms { t := 50, type := .PREA, rank := 2 } := by
  refine ⟨?_, ?_, ?_⟩ <;> cases std <;> simp +decide [badCoordinate]

end DRAMPower
