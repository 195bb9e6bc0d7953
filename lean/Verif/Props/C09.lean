import Verif.Props.C13

/-!
# C09: command counters count exactly the commands addressed to the bank
-/

namespace DRAMPower

open Spec

/-- Number of commands of type `ty` that target bank `b`. -/
def Spec.hits (ms : MemSpec) (cmds : List Cmd) (ty : CmdType) (b : Nat) : Nat :=
  cmds.countP fun c => decide (c.type = ty) && targets ms c b

/-- Expected counters of bank `b` (`pre` is treated separately). -/
def Spec.tally (ms : MemSpec) (cmds : List Cmd) (b : Nat) : Counters where
  act := hits ms cmds .ACT b
  reads := hits ms cmds .RD b
  writes := hits ms cmds .WR b
  readAuto := hits ms cmds .RDA b
  writeAuto := hits ms cmds .WRA b
  refAllBank := hits ms cmds .REFA b + hits ms cmds .SREFEN b
  refPerBank := hits ms cmds .REFB b
  refPerTwoBanks := hits ms cmds .REFP2B b
  refDualBanks := hits ms cmds .REFDB b
  refSameBank := hits ms cmds .REFSB b

/-- Counters without `pre`. -/
def Counters.noPre (c : Counters) : Counters := { c with pre := 0 }

/-- Component-wise addition. -/
def Counters.plus (a b : Counters) : Counters where
  act := a.act + b.act
  pre := a.pre + b.pre
  reads := a.reads + b.reads
  writes := a.writes + b.writes
  refAllBank := a.refAllBank + b.refAllBank
  refPerBank := a.refPerBank + b.refPerBank
  refPerTwoBanks := a.refPerTwoBanks + b.refPerTwoBanks
  refDualBanks := a.refDualBanks + b.refDualBanks
  refSameBank := a.refSameBank + b.refSameBank
  readAuto := a.readAuto + b.readAuto
  writeAuto := a.writeAuto + b.writeAuto

theorem Counters.plus_assoc (a b c : Counters) : (a.plus b).plus c = a.plus (b.plus c) := by
  simp [Counters.plus, Nat.add_assoc]

theorem tally_cons (ms : MemSpec) (c : Cmd) (cmds : List Cmd) (b : Nat) :
    tally ms (c :: cmds) b = (tally ms [c] b).plus (tally ms cmds b) := by
  simp only [tally, hits, Counters.plus, List.countP_cons, List.countP_nil, Nat.zero_add, Counters.mk.injEq]
  refine ⟨?_, ?_, ?_, ?_, ?_, ?_, ?_, ?_, ?_, ?_, ?_⟩ <;> first | trivial | ac_rfl

theorem tally_nil_plus (ms : MemSpec) (c : Counters) (b : Nat) : c.plus (tally ms [] b) = c := by
  simp [tally, hits, Counters.plus]

theorem mapBanks_counter {r : Rank} {f : Bank → Bank} (hf : ∀ x, (f x).counter = x.counter) (b : Nat) :
    ((r.mapBanks f).banks b).counter = (r.banks b).counter := by
  simp only [Rank.mapBanks]
  split
  · exact hf _
  · rfl

/-- Executing a deferred command changes no counter but `pre`. -/
theorem exec_noPre (std : Std) (r : Rank) (t : Nat) (i : Imp) (b : Nat) :
    ((exec std r t i).banks b).counter.noPre = (r.banks b).counter.noPre := by
  cases i with
  | pre b' =>
    simp only [exec]
    rw [handlePre_banks]
    split
    · rename_i h; subst h
      unfold Bank.prech
      split <;> rfl
    · rfl
  | refEnd b' =>
    have : ∀ (p : Prop) [Decidable p] (x : Bank) (a : Interval), x.counter = (r.banks b').counter →
        ((if p then r.setBank b' x else { r.setBank b' x with act := a }).banks b).counter = (r.banks b).counter := by
      intro p _ x a hx
      split <;> (simp only [Rank.setBank, upd]; split)
      · rename_i h; rw [h, hx]
      · rfl
      · rename_i h; rw [h, hx]
      · rfl
    cases std <;> simp only [exec, DDR4.execRefEnd, Shared.execRefEnd] <;> rw [this _ _ _ (by rfl)]
  | srefEnter => rfl
  | pdaEnter =>
    cases std <;> simp only [exec, DDR4.execPdaEnter, Shared.execPdaEnter, Rank.mapBanks] <;> split <;> rfl
  | pdaExit =>
    cases std <;> simp only [exec, DDR4.execPdaExit, Shared.execPdaExit, LPDDR6.execPdaExit] <;>
      (try split) <;> simp only [Counters.noPre] <;> rw [mapBanks_counter (by intro x; split <;> rfl) b]
  | pdpEnter =>
    cases std <;> simp only [exec, DDR4.execPdpEnter, Shared.execPdpEnter, Rank.mapBanks] <;>
      repeat' (first | rfl | split)
  | pdpExit =>
    cases std <;> simp only [exec, DDR4.execPdpExit, Shared.execPdpExit, Rank.mapBanks] <;>
      repeat' (first | rfl | split)

theorem processQ_noPre {std t} {q : List QEntry} : ∀ {ranks last} (i b : Nat),
    (((processQ std t ranks last q).ranks i).banks b).counter.noPre = ((ranks i).banks b).counter.noPre := by
  induction q with
  | nil => intros; rfl
  | cons e q ih =>
    intro ranks last i b
    simp only [processQ]
    split
    · rw [ih]
      simp only [upd]
      split
      · rename_i h; rw [exec_noPre, h]
      · rfl
    · rfl

theorem bankEff_noPre {std ms c} (x : Bank) (b : Nat) (hsup : supports std c.type = true) :
    (if targets ms c b = true then bankEff ms c x else x).counter.noPre = x.counter.noPre.plus (tally ms [c] b) := by
  have hpre : (x.prech c.t).counter.noPre = x.counter.noPre := by unfold Bank.prech; split <;> rfl
  by_cases ht : targets ms c b = true
  · rw [if_pos ht]
    unfold bankEff
    cases hc : c.type <;>
      first
      | (simp [hc, supports] at hsup; done)
      | (simp only [hpre]; simp [tally, hits, Counters.plus, Counters.noPre, hc, ht]; done)
      | simp [tally, hits, Counters.plus, Counters.noPre, hc, ht, Bank.activ, Bank.refr, refCnt]
  · rw [if_neg ht]
    simp [tally, hits, Counters.plus, Counters.noPre, ht]

theorem handle_supports {std ms r c x} (h : handle std ms r c = .ok x) : supports std c.type = true := by
  unfold handle at h
  unfold supports
  split at h <;> rename_i hc <;> simp only [hc]
  all_goals first | (simp at h; done) | (split at h <;> first | (simp_all; done) | (exact absurd h (by simp)))

/-- For every accepted trace: every counter but `pre` of every bank is the number of the commands that
target the bank. (Hypotheses: DDR5 banks are partitioned into groups; two-bank refreshes name two
different banks.) -/
theorem C09 (std : Std) (ms : MemSpec) (cmds : List Cmd)
    (hg : std = .ddr5 → ms.numberOfBanks = ms.numberOfBankGroups * ms.banksPerGroup)
    (h2 : ∀ cmd ∈ cmds, twoBanks ms cmd) (c : Core) (hr : (Core.init ms).run std ms cmds = .ok c)
    (t : Nat) (i : Nat) (hi : i < ms.numberOfRanks) (b : Nat) (hb : b < ms.numberOfBanks) :
    ((c.getWindowStats std ms t).2.bank[i * ms.numberOfBanks + b]?).map (·.counter.noPre) =
      some (tally ms (forRank std i cmds) b) := by
  have key : ∀ (cmds : List Cmd) (c c' : Core), WF ms c → (∀ cmd ∈ cmds, twoBanks ms cmd) → c.run std ms cmds = .ok c' →
      (((c'.ranks i).banks b).counter.noPre) = ((c.ranks i).banks b).counter.noPre.plus (tally ms (forRank std i cmds) b) := by
    intro cmds
    induction cmds with
    | nil =>
      intro c c' _ _ hr
      simp only [Core.run] at hr; injection hr with hr; subst hr
      rw [show forRank std i [] = [] from rfl, tally_nil_plus]
    | cons cmd cmds ih =>
      intro c c' hwf h2 hr
      simp only [Core.run] at hr
      split at hr
      · rename_i c1 h1
        rw [ih c1 c' (doCommand_wf hwf h1) (fun x hx => h2 x (by simp [hx])) hr]
        have hp : ((((c.process std cmd.t).ranks i).banks b).counter.noPre) = ((c.ranks i).banks b).counter.noPre := processQ_noPre i b
        simp only [Core.doCommand] at h1
        rw [isNoEffect_eq] at h1
        split at h1
        · rename_i hne
          injection h1 with h1; subst h1
          have : forRank std i (cmd :: cmds) = forRank std i cmds := by simp [forRank, hne]
          rw [this]
          show Counters.plus ((((c.process std cmd.t).ranks i).banks b).counter.noPre) _ = _
          rw [hp]
        · rename_i hne
          split at h1
          · split at h1
            · rename_i r imps hh
              injection h1 with h1; subst h1
              by_cases hri : cmd.rank = i
              · have hf : forRank std i (cmd :: cmds) = cmd :: forRank std i cmds := by simp [forRank, hne, hri]
                rw [hf, tally_cons, ← Counters.plus_assoc]
                congr 1
                simp only [upd, hri, if_true]
                rw [handle_banks hh (h2 cmd (by simp)) (process_wf hwf _) hg hb, bankEff_noPre _ _ (handle_supports hh), hri, hp]
              · have hf : forRank std i (cmd :: cmds) = forRank std i cmds := by simp [forRank, hri]
                rw [hf]
                simp only [upd, if_neg (Ne.symm hri)]
                rw [hp]
            · exact absurd h1 (by simp)
          · exact absurd h1 (by simp)
      · exact absurd hr (by simp)
  rw [stats_bank hi hb, Option.map_some]
  have h1 := key cmds _ _ (init_wf ms) h2 hr
  have hp : ((((c.process std t).ranks i).banks b).counter.noPre) = ((c.ranks i).banks b).counter.noPre := processQ_noPre i b
  show some ((((c.process std t).ranks i).banks b).counter.noPre) = _
  rw [hp, h1]
  simp [Core.init, Counters.plus, Counters.noPre]

/-- A two-bank refresh that names the same bank twice is accepted but counted twice. -/
theorem C09_sameBankTwice : ∃ c, (Core.init Ex.ms).run .lpddr6 Ex.ms [{ t := 0, type := .REFDB, bank := 1, dbank := 1 }] = .ok c ∧
    ((c.getWindowStats .lpddr6 Ex.ms 20).2.bank[1]?).map (·.counter.refDualBanks) = some 2 := ⟨_, rfl, rfl⟩

/-- Full statement for `pre`: it is the number of precharges on the reference timeline up to the window end, explicit ones that find
an open row and auto-precharges. -/
def C09_pre_statement (std : Std) : Prop :=
  ∀ ms cmds, ValidSpec std ms → LegalTrace std ms cmds →
  ∀ c, (Core.init ms).run std ms cmds = .ok c →
  ∀ t, NotBefore cmds t → ∀ i < ms.numberOfRanks, ∀ b < ms.numberOfBanks,
    ((c.getWindowStats std ms t).2.bank[i * ms.numberOfBanks + b]?).map (·.counter.pre) =
      some ((((forRank std i cmds).foldl (apply std ms) {}).settle t).bank b).pres

/-- `pre` counts the precharges of open rows. For tame traces it is the number of precharges on the
reference timeline up to the window end: explicit ones that find an open row, and auto-precharges. -/
theorem C09_pre_partial (std : Std) (ms : MemSpec) (cmds : List Cmd) (hv : ValidSpec std ms)
    (ht : TameTrace std ms cmds) (c : Core) (hr : (Core.init ms).run std ms cmds = .ok c)
    (t : Nat) (hT : NotBefore cmds t) (i : Nat) (hi : i < ms.numberOfRanks) (b : Nat) (hb : b < ms.numberOfBanks) :
    ((c.getWindowStats std ms t).2.bank[i * ms.numberOfBanks + b]?).map (·.counter.pre) =
      some ((((forRank std i cmds).foldl (apply std ms) {}).settle t).bank b).pres := by
  obtain ⟨σ, ent, hR, hPS, hq⟩ := tame_rel hv ht hr hT hi
  rw [stats_bank hi hb, Option.map_some]
  have hps : (σ.settle t).bank b = (((forRank std i cmds).foldl (apply std ms) {}).settle t).bank b :=
    congrFun (congrArg State.bank (hPS t (Nat.le_refl _))) b
  rw [← hps]
  show some (((c.process std t).ranks i).banks b).counter.pre = some ((σ.bank b).settle t).pres
  rw [(hR.bank b hb).pre.1]
  have hqb := hR.qbank b hb
  unfold BankS.settle
  split
  · rename_i p hp
    rw [hp] at hqb
    have : (p, Imp.pre b) ∈ bq b ((c.process std t).local i).2 := by rw [hqb]; simp [expBQ]
    have := hq _ (List.mem_filter.1 this).1
    rw [if_neg (by simp only at this; omega)]
  · split <;> rfl
  · rfl

/-- DDR4: the full statement. -/
theorem C09_pre_ddr4 : C09_pre_statement .ddr4 := by
  intro ms cmds hv hl c hr t hT i hi b hb
  exact C09_pre_partial .ddr4 ms cmds hv (legal_tame_ddr4 hl) c hr t hT i hi b hb

/-- All standards: every legal trace without active power-down. -/
theorem C09_pre_noActivePowerDown (std : Std) (ms : MemSpec) (cmds : List Cmd) (hv : ValidSpec std ms)
    (hl : LegalTrace std ms cmds) (hn : ∀ c ∈ cmds, c.type ≠ .PDEA)
    (c : Core) (hr : (Core.init ms).run std ms cmds = .ok c)
    (t : Nat) (hT : NotBefore cmds t) (i : Nat) (hi : i < ms.numberOfRanks) (b : Nat) (hb : b < ms.numberOfBanks) :
    ((c.getWindowStats std ms t).2.bank[i * ms.numberOfBanks + b]?).map (·.counter.pre) =
      some ((((forRank std i cmds).foldl (apply std ms) {}).settle t).bank b).pres :=
  C09_pre_partial std ms cmds hv (legal_tame_noPda hl hn) c hr t hT i hi b hb

/-- A device with a large `tRCD`. -/
def c09Ms : MemSpec := { Ex.ms with tRCD := 20, tRCDR := 20, tRAS := 25 }

/-- The auto-precharge of bank 0 falls into the power-down, the bank is taken to be active since time 40, and the second power-down is
therefore delayed to time 60, when bank 1 has been activated. Its auto-precharge is then delayed to time 85 as if it had been
activated at time 60, and the activation at time 80 finds bank 1 open. -/
def c09Trace : List Cmd :=
  [ { t := 0, type := .ACT }, { t := 5, type := .RDA }, { t := 6, type := .PDEA }, { t := 40, type := .PDXA },
    { t := 40, type := .PDEA }, { t := 41, type := .PDXA }, { t := 42, type := .ACT, bank := 1 }, { t := 65, type := .RDA, bank := 1 },
    { t := 80, type := .ACT, bank := 1 }, { t := 120, type := .PRE, bank := 1 } ]

/-- What the core reports for bank 1 of rank 0 at time 200 and what happened. -/
def c09Pre (std : Std) : Option (Nat × Nat) :=
  match (Core.init c09Ms).run std c09Ms c09Trace with
  | .ok c => match (c.getWindowStats std c09Ms 200).2.bank[1]? with
    | some x => some (x.counter.pre, ((((forRank std 0 c09Trace).foldl (apply std c09Ms) {}).settle 200).bank 1).pres)
    | none => none
  | .error _ => none

/-- DDR5, LPDDR4, LPDDR5, LPDDR6: false in general. Bank 1 is activated twice and precharged twice, the report has one precharge. -/
theorem C09_pre_violation (std : Std) (hs : std ≠ .ddr4) :
    LegalTrace std c09Ms c09Trace ∧ c09Pre std = some (1, 2) ∧ ¬ C09_pre_statement std := by
  have h1 : ValidSpec std c09Ms := by cases std <;> decide +kernel
  have h2 : LegalTrace std c09Ms c09Trace := by cases std <;> first | exact absurd rfl hs | decide +kernel
  have h3 : c09Pre std = some (1, 2) := by
    cases std
    · exact absurd rfl hs
    all_goals decide +kernel
  refine ⟨h2, h3, fun h => ?_⟩
  unfold c09Pre at h3
  split at h3
  · rename_i c hc
    have hh := h c09Ms c09Trace h1 h2 c hc 200 (by decide +kernel) 0 (by decide) 1 (by decide)
    rw [Nat.zero_mul, Nat.zero_add] at hh
    split at h3
    · rename_i x hx
      rw [hx, Option.map_some, Option.some.injEq] at hh
      rw [hh] at h3
      simp only [Option.some.injEq, Prod.mk.injEq] at h3
      omega
    · cases h3
  · cases h3

end DRAMPower

namespace DRAMPower

open Spec

/-! ## The hypotheses can be met -/

example (std : Std) : (∀ cmd ∈ Ex.traffic, twoBanks Ex.ms cmd) ∧ ((Core.init Ex.ms).run std Ex.ms Ex.traffic).isOk = true ∧
    Ex.ms.numberOfBanks = Ex.ms.numberOfBankGroups * Ex.ms.banksPerGroup ∧
    TameTrace std Ex.ms Ex.activePd ∧ NotBefore Ex.activePd 50 := by
  refine ⟨?_, ?_, ?_, ?_, ?_⟩ <;> cases std <;> decide +kernel

example : tally Ex.ms (forRank .ddr5 0 Ex.traffic) 0 = { act := 1, reads := 1, writeAuto := 1 } ∧
    tally Ex.ms (forRank .ddr5 1 Ex.traffic) 1 = { act := 1, readAuto := 1, refAllBank := 2 } := by decide +kernel

/-- Both precharges of `activePd` are counted once the auto-precharge has happened. -/
example : ((((forRank .ddr5 0 Ex.activePd).foldl (apply .ddr5 Ex.ms) {}).settle 50).bank 0).pres = 1 ∧
    ((((forRank .ddr5 0 Ex.activePd).foldl (apply .ddr5 Ex.ms) {}).settle 50).bank 1).pres = 1 := by decide +kernel

end DRAMPower
