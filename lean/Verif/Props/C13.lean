import Verif.Lemmas.Banks
import Verif.Sim.Trace
import Verif.Props.Examples

/-!
# C13: bank-set commands hit exactly the intended banks

For every state reachable by any accepted trace (legal or not).
-/

namespace DRAMPower

open Spec

/-- Bank-set commands. -/
def Spec.bankSet (ty : CmdType) : Bool :=
  ty ∈ [CmdType.PREA, .PRESB, .REFA, .REFSB, .REFP2B, .REFDB, .SREFEN]

/-- The banks a bank-set command is meant for. `b` is bank `b % banksPerGroup` of group
`b / banksPerGroup`. -/
def Spec.intended (ms : MemSpec) (c : Cmd) (b : Nat) : Prop :=
  match c.type with
  | .PRESB | .REFSB => ∃ g < ms.numberOfBankGroups, b = g * ms.banksPerGroup + c.bank % ms.banksPerGroup
  | .REFP2B => b = c.bank ∨ b = (c.bank + ms.perTwoBankOffset) % 16
  | .REFDB => b = c.bank ∨ b = c.dbank
  | _ => True

/-- Deferred commands pending for one bank. -/
def pendingFor (c : Core) (rank b : Nat) : List (Nat × Imp) := (localQ rank c.queue).filter fun e => e.2.forBank b

theorem targets_intended {std : Std} {ms : MemSpec} {c : Cmd} {b : Nat} (hs : bankSet c.type = true) (hsup : c.type = .PRESB ∨ c.type = .REFSB → std = .ddr5)
    (hb0 : c.type = .PRESB ∨ c.type = .REFSB → 0 < ms.banksPerGroup)
    (hg : std = .ddr5 → ms.numberOfBanks = ms.numberOfBankGroups * ms.banksPerGroup) (hb : b < ms.numberOfBanks) :
    targets ms c b = true ↔ intended ms c b := by
  unfold intended targets
  have key : (c.type = .PRESB ∨ c.type = .REFSB) → ((b % ms.banksPerGroup == c.bank % ms.banksPerGroup) = true ↔
      ∃ g < ms.numberOfBankGroups, b = g * ms.banksPerGroup + c.bank % ms.banksPerGroup) := by
    intro hc
    rw [beq_iff_eq, ← mem_sameBank (hb0 hc) (hg (hsup hc)) c.bank hb]
    simp only [sameBankIdx, List.mem_map, List.mem_range]
    constructor
    · rintro ⟨g, h1, h2⟩; exact ⟨g, h1, h2.symm⟩
    · rintro ⟨g, h1, h2⟩; exact ⟨g, h1, h2.symm⟩
  cases hc : c.type <;> simp only [hc, bankSet] at * <;> first | (simp at hs; done) | (simp; done) | exact key (by simp)

theorem rinsert_perm (e : Nat × Imp) (q : List (Nat × Imp)) : (rinsert e q).Perm (e :: q) := by
  induction q with
  | nil => exact .refl _
  | cons x q ih =>
    simp only [rinsert]
    split
    · exact .refl _
    · exact (ih.cons x).trans (List.Perm.swap ..)

theorem foldl_rinsert_perm (imps : List (Nat × Imp)) : ∀ q, (imps.foldl (fun q i => rinsert i q) q).Perm (imps ++ q) := by
  induction imps with
  | nil => intro q; exact .refl _
  | cons i imps ih =>
    intro q
    rw [List.foldl_cons]
    refine (ih _).trans ?_
    refine ((rinsert_perm i q).append_left imps).trans ?_
    exact List.perm_middle

theorem handle_sameBank {std ms r c r' imps} (h : handle std ms r c = .ok (r', imps)) (hc : c.type = .PRESB ∨ c.type = .REFSB) :
    std = .ddr5 ∧ 0 < ms.banksPerGroup := by
  rcases hc with hc | hc <;> simp only [handle, hc] at h <;>
  · split at h
    · rename_i hs
      refine ⟨hs, ?_⟩
      obtain ⟨_, h⟩ := withBank_ok h
      first | unfold handlePreSameBank at h | unfold handleRefSameBank at h
      split at h
      · exact absurd h (by simp)
      · omega
    · exact absurd h (by simp)

/-- The state just before a command (`cmd.t` reached, everything due executed), and the state after. -/
theorem doCommand_parts {std ms c cmd c'} (hs : bankSet cmd.type = true) (h : Core.doCommand std ms c cmd = .ok c') :
    ∃ r' imps, handle std ms ((c.process std cmd.t).ranks cmd.rank) cmd = .ok (r', imps) ∧
      c'.ranks = upd (c.process std cmd.t).ranks cmd.rank r' ∧ c'.queue = enqueue cmd.rank imps (c.process std cmd.t).queue := by
  simp only [Core.doCommand] at h
  split at h
  · rename_i hne
    exfalso
    unfold isNoEffect at hne
    revert hs hne
    cases std <;> cases cmd.type <;> decide
  · split at h
    · split at h
      · rename_i r imps hh
        injection h with h; subst h
        exact ⟨r, imps, hh, rfl, rfl⟩
      · exact absurd h (by simp)
    · exact absurd h (by simp)

theorem run_sorted {std ms cmds} : ∀ {c c' : Core}, Sorted c.queue → c.run std ms cmds = .ok c' → Sorted c'.queue := by
  induction cmds with
  | nil => intro c c' h hr; simp only [Core.run] at hr; injection hr with hr; subst hr; exact h
  | cons cmd cmds ih =>
    intro c c' h hr
    simp only [Core.run] at hr
    split at hr
    · rename_i h1; exact ih (doCommand_sorted h h1) hr
    · exact absurd hr (by simp)

section
variable {std : Std} {ms : MemSpec} {cmds : List Cmd} {c c' : Core} {cmd : Cmd}

/-- No other bank changes: neither state, counters nor intervals, nor what is pending for it; nor any
other rank. -/
theorem C13_others (hr : (Core.init ms).run std ms cmds = .ok c) (hd : c.doCommand std ms cmd = .ok c')
    (hs : bankSet cmd.type = true) (h2 : twoBanks ms cmd)
    (hg : std = .ddr5 → ms.numberOfBanks = ms.numberOfBankGroups * ms.banksPerGroup) :
    (∀ b < ms.numberOfBanks, ¬ intended ms cmd b →
      (c'.ranks cmd.rank).banks b = ((c.process std cmd.t).ranks cmd.rank).banks b ∧
      (pendingFor c' cmd.rank b).Perm (pendingFor (c.process std cmd.t) cmd.rank b)) ∧
    (∀ i ≠ cmd.rank, c'.ranks i = (c.process std cmd.t).ranks i) := by
  obtain ⟨r', imps, hh, hrk, hq⟩ := doCommand_parts hs hd
  have hwf : WF ms (c.process std cmd.t) := process_wf (run_wf (init_wf ms) hr)
  have hso : Sorted (c.process std cmd.t).queue := Core.process_sorted (run_sorted (init_sorted ms) hr)
  constructor
  · intro b hb hi
    have ht : ¬ targets ms cmd b = true := fun ht => hi ((targets_intended hs (fun hc => (handle_sameBank hh hc).1)
      (fun hc => (handle_sameBank hh hc).2) hg hb).1 ht)
    constructor
    · rw [hrk]
      simp only [upd, if_true]
      rw [handle_banks hh h2 (hwf _) hg hb, if_neg ht]
    · unfold pendingFor
      rw [hq, enqueue_local hso]
      refine ((foldl_rinsert_perm _ _).filter _).trans ?_
      rw [List.filter_append]
      have : imps.filter (fun e => e.2.forBank b) = [] := by
        cases href : cmd.type.refreshes with
        | true => rw [handle_ref_imps hh h2 (hwf _) hg href hb, if_neg ht]
        | false =>
          rw [handle_pre_imps hh (by revert hs href; cases cmd.type <;> decide)]
          rfl
      rw [this]
      exact .refl _
  · intro i hi
    rw [hrk]; simp [upd, hi]

/-- A refresh command makes every intended bank busy until the end of the refresh, counts it once in
exactly one counter and queues exactly one refresh end. -/
theorem C13_refresh (hr : (Core.init ms).run std ms cmds = .ok c) (hd : c.doCommand std ms cmd = .ok c')
    (hs : cmd.type ∈ [CmdType.REFA, .REFSB, .REFP2B, .REFDB, .SREFEN]) (h2 : twoBanks ms cmd)
    (hg : std = .ddr5 → ms.numberOfBanks = ms.numberOfBankGroups * ms.banksPerGroup)
    (b : Nat) (hb : b < ms.numberOfBanks) (hi : intended ms cmd b) :
    let x := ((c.process std cmd.t).ranks cmd.rank).banks b
    let x' := (c'.ranks cmd.rank).banks b
    x'.state = .active ∧ x'.refreshEndTime = cmd.t + refreshTime ms cmd.type ∧ x'.latestPre = x.latestPre ∧
    x'.act.isOpen = true ∧ (x.act.isOpen = false → x'.act.getStart = cmd.t) ∧ (x.act.isOpen = true → x'.act = x.act) ∧
    x'.counter = (match cmd.type with
      | .REFSB => { x.counter with refSameBank := x.counter.refSameBank + 1 }
      | .REFP2B => { x.counter with refPerTwoBanks := x.counter.refPerTwoBanks + 1 }
      | .REFDB => { x.counter with refDualBanks := x.counter.refDualBanks + 1 }
      | _ => { x.counter with refAllBank := x.counter.refAllBank + 1 }) ∧
    (pendingFor c' cmd.rank b).Perm ((cmd.t + refreshTime ms cmd.type, .refEnd b) :: pendingFor (c.process std cmd.t) cmd.rank b) := by
  have hbs : bankSet cmd.type = true := by revert hs; cases cmd.type <;> decide
  have hrf : cmd.type.refreshes = true := by revert hs; cases cmd.type <;> decide
  obtain ⟨r', imps, hh, hrk, hq⟩ := doCommand_parts hbs hd
  have hwf : WF ms (c.process std cmd.t) := process_wf (run_wf (init_wf ms) hr)
  have hso : Sorted (c.process std cmd.t).queue := Core.process_sorted (run_sorted (init_sorted ms) hr)
  have ht := (targets_intended hbs (fun hc => (handle_sameBank hh hc).1) (fun hc => (handle_sameBank hh hc).2) hg hb).2 hi
  intro x x'
  have hx : x' = x.refr (refCnt cmd.type) (cmd.t + refreshTime ms cmd.type) cmd.t := by
    show (c'.ranks cmd.rank).banks b = _
    rw [hrk]
    simp only [upd, if_true]
    rw [handle_banks hh h2 (hwf _) hg hb, if_pos ht]
    unfold bankEff
    revert hs
    cases hc : cmd.type <;> first | (intro; rfl) | (intro hs; simp at hs)
  rw [hx]
  refine ⟨rfl, rfl, rfl, ?_, ?_, ?_, ?_, ?_⟩
  · simp only [Bank.refr, Interval.startIfNotRunning]
    split
    · assumption
    · exact Interval.isOpen_startAt ..
  · intro ho; simp [Bank.refr, Interval.startIfNotRunning, ho, Interval.getStart_startAt]
  · intro ho; simp [Bank.refr, Interval.startIfNotRunning, ho]
  · revert hs
    cases hc : cmd.type <;> first | (intro; rfl) | (intro hs; simp at hs)
  · unfold pendingFor
    rw [hq, enqueue_local hso]
    refine ((foldl_rinsert_perm _ _).filter _).trans ?_
    rw [List.filter_append, handle_ref_imps hh h2 (hwf _) hg hrf hb, if_pos ht]
    exact .refl _

/-- A precharge command closes every intended bank that is open (counting it once), leaves closed banks
alone and queues nothing. -/
theorem C13_precharge (hr : (Core.init ms).run std ms cmds = .ok c) (hd : c.doCommand std ms cmd = .ok c')
    (hs : cmd.type = .PREA ∨ cmd.type = .PRESB)
    (hg : std = .ddr5 → ms.numberOfBanks = ms.numberOfBankGroups * ms.banksPerGroup)
    (b : Nat) (hb : b < ms.numberOfBanks) (hi : intended ms cmd b) :
    let x := ((c.process std cmd.t).ranks cmd.rank).banks b
    let x' := (c'.ranks cmd.rank).banks b
    (x.state = .precharged → x' = x) ∧
    (x.state = .active → x'.state = .precharged ∧ x'.latestPre = cmd.t ∧ x'.act.isOpen = false ∧
      x'.refreshEndTime = x.refreshEndTime ∧ x'.counter = { x.counter with pre := x.counter.pre + 1 }) ∧
    c'.queue = (c.process std cmd.t).queue := by
  have hbs : bankSet cmd.type = true := by rcases hs with hs | hs <;> rw [hs] <;> decide
  obtain ⟨r', imps, hh, hrk, hq⟩ := doCommand_parts hbs hd
  have hwf : WF ms (c.process std cmd.t) := process_wf (run_wf (init_wf ms) hr)
  have ht := (targets_intended hbs (fun hc => (handle_sameBank hh hc).1) (fun hc => (handle_sameBank hh hc).2) hg hb).2 hi
  have h2 : twoBanks ms cmd := by rcases hs with hs | hs <;> simp [twoBanks, hs]
  intro x x'
  have hx : x' = x.prech cmd.t := by
    show (c'.ranks cmd.rank).banks b = _
    rw [hrk]
    simp only [upd, if_true]
    rw [handle_banks hh h2 (hwf _) hg hb, if_pos ht]
    unfold bankEff
    rcases hs with hs | hs <;> rw [hs]
  rw [hx]
  refine ⟨?_, ?_, ?_⟩
  · intro h; simp [Bank.prech, h]
  · intro h; simp [Bank.prech, h, Interval.isOpen_close]
  · rw [hq, handle_pre_imps hh (by rcases hs with hs | hs <;> rw [hs] <;> rfl)]; rfl

end

/-! ## The hypotheses can be met -/

/-- Bank sets of a device with 2 groups of 2 banks. -/
example : (List.range 4).filter (fun b => decide (∃ g < 2, b = g * 2 + 3 % 2)) = [1, 3] := by decide

example : ((Core.init Ex.ms).run .ddr5 Ex.ms [{ t := 0, type := .ACT, bank := 1 }, { t := 9, type := .PRESB, bank := 3 },
    { t := 12, type := .REFSB, bank := 3 }]).isOk = true ∧ twoBanks Ex.ms { t := 12, type := .REFSB, bank := 3 } ∧
    Ex.ms.numberOfBanks = Ex.ms.numberOfBankGroups * Ex.ms.banksPerGroup := by
  refine ⟨?_, ?_, ?_⟩ <;> decide +kernel

example : ((Core.init Ex.ms).run .lpddr5 Ex.ms [{ t := 0, type := .ACT, bank := 1 }, { t := 12, type := .REFP2B, bank := 0 }]).isOk = true ∧
    ((Core.init Ex.ms).run .lpddr6 Ex.ms [{ t := 0, type := .ACT, bank := 1 }, { t := 12, type := .REFDB, bank := 0, dbank := 3 }]).isOk = true ∧
    twoBanks Ex.ms { t := 12, type := .REFP2B, bank := 0 } ∧ twoBanks Ex.ms { t := 12, type := .REFDB, bank := 0, dbank := 3 } := by
  refine ⟨?_, ?_, ?_, ?_⟩ <;> decide +kernel

end DRAMPower
