import Verif.Sim.Step
import Verif.Lemmas.Session

/-!
# The effect of every accepted command on every single bank, in any state
-/

namespace DRAMPower

open Spec

namespace Bank

/-- What `handlePre` does to the bank. -/
def prech (t : Nat) (x : Bank) : Bank :=
  if x.state = .precharged then x
  else { x with counter := { x.counter with pre := x.counter.pre + 1 }, act := x.act.close t, latestPre := t, state := .precharged }

/-- What a refresh does to the bank. -/
def refr (cnt : Counters → Counters) (tEnd t : Nat) (x : Bank) : Bank :=
  { x with counter := cnt x.counter, state := .active, refreshEndTime := tEnd, act := x.act.startIfNotRunning t }

/-- What `handleAct` does to the bank. -/
def activ (t : Nat) (x : Bank) : Bank :=
  { x with counter := { x.counter with act := x.counter.act + 1 }, act := x.act.startAt t, state := .active }

theorem prech_prech (t : Nat) (x : Bank) : (x.prech t).prech t = x.prech t := by
  unfold prech
  split <;> simp_all

end Bank

theorem handlePre_banks (std : Std) (r : Rank) (b t x : Nat) :
    (handlePre std r b t).banks x = if x = b then (r.banks b).prech t else r.banks x := by
  cases std <;> simp only [handlePre, DDR4.handlePre, Shared.handlePre, Bank.prech] <;>
    (split
     · split
       · rename_i h; rw [h]
       · rfl
     · split <;> simp only [Rank.setBank, upd])

theorem preFold_banks (std : Std) (t : Nat) (l : List Nat) : ∀ (r : Rank) (x : Nat),
    (l.foldl (fun r b => handlePre std r b t) r).banks x = if x ∈ l then (r.banks x).prech t else r.banks x := by
  induction l with
  | nil => intro r x; simp
  | cons b l ih =>
    intro r x
    rw [List.foldl_cons, ih, handlePre_banks]
    by_cases hb : x = b
    · subst hb
      simp only [if_true, List.mem_cons, true_or]
      split
      · exact Bank.prech_prech ..
      · rfl
    · simp [hb]

theorem ifAct_banks (p : Prop) [Decidable p] (r : Rank) (a : Interval) : (if p then r else { r with act := a }).banks = r.banks := by
  split <;> rfl

theorem refreshOnBank_banks (cnt : Counters → Counters) (d t : Nat) (res : HRes) (b x : Nat) :
    (Shared.handleRefreshOnBank cnt d t res b).1.banks x = if x = b then (res.1.banks b).refr cnt (t + d) t else res.1.banks x := by
  have key : ∀ r1 : Rank, r1.banks = upd res.1.banks b { res.1.banks b with counter := cnt (res.1.banks b).counter } →
      (r1.setBank b { r1.banks b with state := .active, refreshEndTime := t + d,
                                      act := if (r1.banks b).act.isOpen then (r1.banks b).act else (r1.banks b).act.startAt t }).banks x =
        if x = b then (res.1.banks b).refr cnt (t + d) t else res.1.banks x := by
    intro r1 h1
    by_cases h : x = b
    · simp [Rank.setBank, h1, upd, h, Bank.refr, Interval.startIfNotRunning]
    · simp [Rank.setBank, h1, upd, h]
  exact key _ (ifAct_banks _ _ _)

theorem refreshFold_banks (cnt : Counters → Counters) (d t : Nat) (l : List Nat) (hl : l.Nodup) : ∀ (res : HRes) (x : Nat),
    (l.foldl (Shared.handleRefreshOnBank cnt d t) res).1.banks x =
      if x ∈ l then (res.1.banks x).refr cnt (t + d) t else res.1.banks x := by
  induction l with
  | nil => intro r x; simp
  | cons b l ih =>
    intro r x
    have hl' := List.nodup_cons.1 hl
    rw [List.foldl_cons, ih hl'.2, refreshOnBank_banks]
    by_cases hb : x = b
    · subst hb
      simp [hl'.1]
    · simp [hb]

theorem handleRefAll_banks (std : Std) (ms : MemSpec) (r : Rank) (t x : Nat) (hx : x < r.nBanks) :
    (handleRefAll std ms r t).1.banks x =
      (r.banks x).refr (fun c => { c with refAllBank := c.refAllBank + 1 }) (t + ms.tRFC) t := by
  cases std
  case ddr4 => simp [handleRefAll, DDR4.handleRefAll, Rank.mapBanks, hx, Bank.refr]
  all_goals
    show ((List.range r.nBanks).foldl _ (r, [])).1.banks x = _
    rw [refreshFold_banks _ _ _ _ List.nodup_range, if_pos (List.mem_range.2 hx)]

/-- The counter a refresh command increments. -/
def refCnt : CmdType → Counters → Counters
  | .REFSB => fun c => { c with refSameBank := c.refSameBank + 1 }
  | .REFB => fun c => { c with refPerBank := c.refPerBank + 1 }
  | .REFP2B => fun c => { c with refPerTwoBanks := c.refPerTwoBanks + 1 }
  | .REFDB => fun c => { c with refDualBanks := c.refDualBanks + 1 }
  | _ => fun c => { c with refAllBank := c.refAllBank + 1 }

/-- Effect of a command on a bank it targets. -/
def bankEff (ms : MemSpec) (c : Cmd) (x : Bank) : Bank :=
  match c.type with
  | .ACT => x.activ c.t
  | .PRE | .PREA | .PRESB => x.prech c.t
  | .RD => { x with counter := { x.counter with reads := x.counter.reads + 1 } }
  | .WR => { x with counter := { x.counter with writes := x.counter.writes + 1 } }
  | .RDA => { x with counter := { x.counter with readAuto := x.counter.readAuto + 1 } }
  | .WRA => { x with counter := { x.counter with writeAuto := x.counter.writeAuto + 1 } }
  | .REFA | .REFB | .REFP2B | .REFDB | .REFSB | .SREFEN =>
      x.refr (refCnt c.type) (c.t + refreshTime ms c.type) c.t
  | _ => x

/-- The two banks of a two-bank refresh are different. -/
def Spec.twoBanks (ms : MemSpec) (c : Cmd) : Prop :=
  (c.type = .REFP2B → (c.bank + ms.perTwoBankOffset) % 16 ≠ c.bank) ∧ (c.type = .REFDB → c.dbank ≠ c.bank)

instance (ms : MemSpec) (c : Cmd) : Decidable (Spec.twoBanks ms c) := by unfold Spec.twoBanks; infer_instance

theorem targets_single {ms : MemSpec} {c : Cmd} (x : Nat) (h : targets ms c x = (x == c.bank)) {α : Type} (a b : α) :
    (if targets ms c x = true then a else b) = if x = c.bank then a else b := by
  rw [h]; simp

theorem handle_banks {std ms r c r' imps} (h : handle std ms r c = .ok (r', imps)) (h2 : twoBanks ms c)
    (hn : r.nBanks = ms.numberOfBanks) (hg : std = .ddr5 → ms.numberOfBanks = ms.numberOfBankGroups * ms.banksPerGroup)
    {x : Nat} (hx : x < ms.numberOfBanks) :
    r'.banks x = if targets ms c x = true then bankEff ms c (r.banks x) else r.banks x := by
  unfold handle at h
  split at h
  case h_1 hc =>
    obtain ⟨_, h⟩ := withBank_ok h; injection h with h; injection h with h _; subst h
    simp only [targets, bankEff, hc, beq_iff_eq]
    by_cases hxb : x = c.bank
    · subst hxb
      cases std <;> simp only [handleAct, DDR4.handleAct, Shared.handleAct, Bank.activ] <;>
        first
        | (split <;> simp [Rank.setBank, upd]; done)
        | simp [Rank.setBank, upd]
    · cases std <;> simp only [handleAct, DDR4.handleAct, Shared.handleAct, Bank.activ] <;>
        first
        | (split <;> simp [Rank.setBank, upd, hxb]; done)
        | simp [Rank.setBank, upd, hxb]
  case h_2 hc =>
    obtain ⟨_, h⟩ := withBank_ok h; injection h with h; injection h with h _; subst h
    simp only [targets, bankEff, hc, beq_iff_eq]
    rw [handlePre_banks]
    split
    · rename_i he; rw [he]
    · rfl
  case h_3 hc =>
    injection h with h; injection h with h _; subst h
    simp only [targets, bankEff, hc, if_true]
    unfold handlePreAll
    rw [preFold_banks, if_pos (List.mem_range.2 (by omega))]
  case h_4 hc =>
    injection h with h; have := congrArg Prod.fst h; subst this
    simp only [targets, bankEff, hc, if_true]
    rw [handleRefAll_banks _ _ _ _ _ (by omega)]
    rfl
  case h_5 hc | h_6 hc | h_7 hc | h_8 hc =>
    obtain ⟨_, h⟩ := withBank_ok h; injection h with h; injection h with h _; subst h
    simp only [targets, bankEff, hc, beq_iff_eq]
    by_cases hxb : x = c.bank
    · subst hxb; simp [Rank.setBank, upd, handleRead, handleWrite]
    · simp [Rank.setBank, upd, hxb, handleRead, handleWrite]
  case h_9 hc =>
    injection h with h; have := congrArg Prod.fst h; subst this
    simp only [targets, bankEff, hc, if_true]
    unfold handleSelfRefreshEntry
    simp only
    rw [handleRefAll_banks _ _ _ _ _ (by omega)]
    rfl
  case h_10 hc =>
    unfold handleSelfRefreshExit at h; split at h
    · injection h with h; injection h with h _; subst h; simp [bankEff, hc]
    · exact absurd h (by simp)
  case h_11 hc | h_12 hc | h_14 hc =>
    injection h with h; injection h with h _; subst h; simp [bankEff, hc]
  case h_13 hc =>
    unfold handlePowerDownActExit at h; split at h
    · exact absurd h (by simp)
    · injection h with h; injection h with h _; subst h; simp [bankEff, hc]
  case h_15 hc =>
    split at h
    · rename_i hs
      obtain ⟨_, h⟩ := withBank_ok h
      unfold handlePreSameBank at h
      split at h
      · exact absurd h (by simp)
      · rename_i h0
        split at h
        · injection h with h; injection h with h _; subst h
          simp only [targets, bankEff, hc, beq_iff_eq]
          have := preFold_banks .ddr5 c.t (sameBankIdx ms c.bank) r x
          simp only [handlePre] at this
          rw [this]
          simp only [mem_sameBank (Nat.pos_of_ne_zero h0) (hg hs) c.bank hx]
        · exact absurd h (by simp)
    · exact absurd h (by simp)
  case h_16 hc =>
    split at h
    · rename_i hs
      obtain ⟨_, h⟩ := withBank_ok h
      unfold handleRefSameBank at h
      split at h
      · exact absurd h (by simp)
      · rename_i h0
        split at h
        · injection h with h; have := congrArg Prod.fst h; subst this
          simp only [targets, bankEff, hc, beq_iff_eq]
          rw [refreshFold_banks _ _ _ _ (sameBank_nodup (Nat.pos_of_ne_zero h0) _)]
          simp only [mem_sameBank (Nat.pos_of_ne_zero h0) (hg hs) c.bank hx]
          rfl
        · exact absurd h (by simp)
    · exact absurd h (by simp)
  case h_17 hc =>
    split at h
    · obtain ⟨_, h⟩ := withBank_ok h
      injection h with h; have := congrArg Prod.fst h; subst this
      simp only [targets, bankEff, hc, beq_iff_eq, handleRefPerBank]
      rw [refreshOnBank_banks]
      split
      · rename_i he; rw [he]; rfl
      · rfl
    · exact absurd h (by simp)
  case h_18 hc =>
    split at h
    · split at h
      · exact absurd h (by simp)
      · obtain ⟨_, h⟩ := withBank_ok h
        unfold handleRefPerTwoBanks at h
        simp only at h
        split at h
        · injection h with h; have := congrArg Prod.fst h; subst this
          simp only [targets, bankEff, hc, Bool.or_eq_true, beq_iff_eq]
          rw [refreshFold_banks _ _ _ _ (by have := h2.1 hc; simp; omega)]
          simp only [List.mem_cons, List.not_mem_nil, or_false]
          rfl
        · exact absurd h (by simp)
    · exact absurd h (by simp)
  case h_19 hc =>
    split at h
    · obtain ⟨_, h⟩ := withBank_ok h
      obtain ⟨_, h⟩ := withBank_ok h
      injection h with h; have := congrArg Prod.fst h; subst this
      simp only [targets, bankEff, hc, Bool.or_eq_true, beq_iff_eq, handleRefDualBanks]
      rw [refreshFold_banks _ _ _ _ (by have := h2.2 hc; simp; omega)]
      simp only [List.mem_cons, List.not_mem_nil, or_false]
      rfl
    · exact absurd h (by simp)
  case h_20 hc =>
    split at h
    · unfold handleDSMEntry at h; split at h
      · injection h with h; injection h with h _; subst h; simp [bankEff, hc]
      · exact absurd h (by simp)
    · exact absurd h (by simp)
  case h_21 hc =>
    split at h
    · unfold handleDSMExit at h; split at h
      · injection h with h; injection h with h _; subst h; simp [bankEff, hc]
      · exact absurd h (by simp)
    · exact absurd h (by simp)
  all_goals exact absurd h (by simp)

end DRAMPower

namespace DRAMPower

open Spec

/-! ## What is queued for which bank -/

theorem refEnd_filter {L : List Nat} (hL : L.Nodup) (t x : Nat) :
    (L.map fun b => (t, Imp.refEnd b)).filter (fun e => e.2.forBank x) = if x ∈ L then [(t, .refEnd x)] else [] := by
  induction L with
  | nil => rfl
  | cons a L ih =>
    have hL' := List.nodup_cons.1 hL
    rw [List.map_cons, List.filter_cons, ih hL'.2]
    by_cases h : a = x
    · subst h
      simp [Imp.forBank, hL'.1]
    · simp [Imp.forBank, h, Ne.symm h]

/-- Is it a command that refreshes banks? -/
def CmdType.refreshes : CmdType → Bool
  | .REFA | .REFB | .REFP2B | .REFDB | .REFSB | .SREFEN => true
  | _ => false

theorem handle_ref_imps {std ms r c r' imps} (h : handle std ms r c = .ok (r', imps)) (h2 : twoBanks ms c)
    (hn : r.nBanks = ms.numberOfBanks) (hg : std = .ddr5 → ms.numberOfBanks = ms.numberOfBankGroups * ms.banksPerGroup)
    (hr : c.type.refreshes = true) {x : Nat} (hx : x < ms.numberOfBanks) :
    imps.filter (fun e => e.2.forBank x) = if targets ms c x = true then [(c.t + refreshTime ms c.type, .refEnd x)] else [] := by
  unfold handle at h
  split at h
  case h_4 hc =>
    injection h with h; have := congrArg Prod.snd h; subst this
    simp only [targets, hc, if_true]
    rw [handleRefAll_imps, refEnd_filter List.nodup_range, if_pos (List.mem_range.2 (by omega))]
    rfl
  case h_9 hc =>
    injection h with h; have := congrArg Prod.snd h; subst this
    simp only [targets, hc, if_true, handleSelfRefreshEntry, List.filter_append]
    rw [handleRefAll_imps, refEnd_filter List.nodup_range, if_pos (List.mem_range.2 (by omega))]
    rfl
  case h_16 hc =>
    split at h
    · rename_i hs
      obtain ⟨_, h⟩ := withBank_ok h
      unfold handleRefSameBank at h
      split at h
      · exact absurd h (by simp)
      · rename_i h0
        split at h
        · injection h with h; have := congrArg Prod.snd h; subst this
          simp only [targets, hc, beq_iff_eq]
          rw [refreshFold_imps, List.nil_append, refEnd_filter (sameBank_nodup (Nat.pos_of_ne_zero h0) _)]
          simp only [mem_sameBank (Nat.pos_of_ne_zero h0) (hg hs) c.bank hx]
          rfl
        · exact absurd h (by simp)
    · exact absurd h (by simp)
  case h_17 hc =>
    split at h
    · obtain ⟨_, h⟩ := withBank_ok h
      injection h with h; have := congrArg Prod.snd h; subst this
      simp only [targets, hc, beq_iff_eq, handleRefPerBank, Shared.handleRefreshOnBank, List.nil_append]
      have := refEnd_filter (L := [c.bank]) (by simp) (c.t + ms.tRFCPB) x
      simp only [List.map_cons, List.map_nil, List.mem_singleton] at this
      exact this
    · exact absurd h (by simp)
  case h_18 hc =>
    split at h
    · split at h
      · exact absurd h (by simp)
      · obtain ⟨_, h⟩ := withBank_ok h
        unfold handleRefPerTwoBanks at h
        simp only at h
        split at h
        · injection h with h; have := congrArg Prod.snd h; subst this
          simp only [targets, hc, Bool.or_eq_true, beq_iff_eq]
          rw [refreshFold_imps, List.nil_append, refEnd_filter (by have := h2.1 hc; simp; omega)]
          simp only [List.mem_cons, List.not_mem_nil, or_false]
          rfl
        · exact absurd h (by simp)
    · exact absurd h (by simp)
  case h_19 hc =>
    split at h
    · obtain ⟨_, h⟩ := withBank_ok h
      obtain ⟨_, h⟩ := withBank_ok h
      injection h with h; have := congrArg Prod.snd h; subst this
      simp only [targets, hc, Bool.or_eq_true, beq_iff_eq, handleRefDualBanks]
      rw [refreshFold_imps, List.nil_append, refEnd_filter (by have := h2.2 hc; simp; omega)]
      simp only [List.mem_cons, List.not_mem_nil, or_false]
      rfl
    · exact absurd h (by simp)
  all_goals (rename_i hc; simp [hc, CmdType.refreshes] at hr)

/-- Is it a command that precharges banks? -/
def CmdType.precharges : CmdType → Bool
  | .PRE | .PREA | .PRESB => true
  | _ => false

theorem handle_pre_imps {std ms r c r' imps} (h : handle std ms r c = .ok (r', imps)) (hr : c.type.precharges = true) : imps = [] := by
  unfold handle at h
  split at h
  case h_2 => obtain ⟨_, h⟩ := withBank_ok h; injection h with h; injection h with _ h; exact h.symm
  case h_3 => injection h with h; injection h with _ h; exact h.symm
  case h_15 =>
    split at h
    · obtain ⟨_, h⟩ := withBank_ok h
      unfold handlePreSameBank at h
      split at h
      · exact absurd h (by simp)
      · split at h
        · injection h with h; injection h with _ h; exact h.symm
        · exact absurd h (by simp)
    · exact absurd h (by simp)
  all_goals (rename_i hc; simp [hc, CmdType.precharges] at hr)

end DRAMPower
