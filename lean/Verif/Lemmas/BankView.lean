import Verif.Lemmas.Banks
import Verif.Lemmas.Handlers
import Verif.Lemmas.Locality
import Verif.Spec.Banks

/-!
# One bank of a rank, seen alone

Without power-down commands, what concerns one bank (its state, the low-power intervals of the rank and
the entries queued for it) depends only on itself and on the commands that concern it.
-/

namespace DRAMPower

open Spec

/-- The low-power part of a rank. -/
structure ModeView where
  sref : Interval
  dsm : Interval
  mem : MemState
  pda : Interval
  pdp : Interval

def Rank.mode (r : Rank) : ModeView :=
  { sref := r.sref, dsm := r.deepSleepMode, mem := r.memState, pda := r.powerDownAct, pdp := r.powerDownPre }

/-- What bank `b` sees of a rank. -/
def Rank.view (r : Rank) (b : Nat) : Bank × ModeView := (r.banks b, r.mode)

/-- Is the queue entry relevant for bank `b`? -/
def relev (b : Nat) (e : Nat × Imp) : Bool := e.2.forBank b || e.2.isMode

/-- Entries queued by commands other than power-down. -/
def Imp.plain : Imp → Bool
  | .pre _ | .refEnd _ | .srefEnter => true
  | _ => false

/-! ## The low-power part -/

theorem ifAct_mode (p : Prop) [Decidable p] (r : Rank) (a : Interval) : (if p then r else { r with act := a }).mode = r.mode := by
  split <;> rfl

theorem setBank_mode (r : Rank) (b : Nat) (x : Bank) : (r.setBank b x).mode = r.mode := rfl

theorem handlePre_mode (std : Std) (r : Rank) (b t : Nat) : (handlePre std r b t).mode = r.mode := by
  cases std <;> simp only [handlePre, DDR4.handlePre, Shared.handlePre] <;>
    (split
     · rfl
     · rw [ifAct_mode]; rfl)

theorem preFold_mode (std : Std) (t : Nat) (l : List Nat) : ∀ r : Rank,
    (l.foldl (fun r b => handlePre std r b t) r).mode = r.mode := by
  induction l with
  | nil => intro r; rfl
  | cons b l ih => intro r; rw [List.foldl_cons, ih, handlePre_mode]

theorem refreshOnBank_mode (cnt : Counters → Counters) (d t : Nat) (res : HRes) (b : Nat) :
    (Shared.handleRefreshOnBank cnt d t res b).1.mode = res.1.mode := by
  simp only [Shared.handleRefreshOnBank]
  rw [setBank_mode, ifAct_mode]; rfl

theorem refreshFold_mode (cnt : Counters → Counters) (d t : Nat) (l : List Nat) : ∀ res : HRes,
    (l.foldl (Shared.handleRefreshOnBank cnt d t) res).1.mode = res.1.mode := by
  induction l with
  | nil => intro r; rfl
  | cons b l ih => intro r; rw [List.foldl_cons, ih, refreshOnBank_mode]

theorem handleRefAll_mode (std : Std) (ms : MemSpec) (r : Rank) (t : Nat) : (handleRefAll std ms r t).1.mode = r.mode := by
  cases std
  case ddr4 => rfl
  all_goals exact refreshFold_mode _ _ _ _ (r, [])

theorem handleAct_mode (std : Std) (r : Rank) (b t : Nat) : (handleAct std r b t).mode = r.mode := by
  cases std <;> simp only [handleAct, DDR4.handleAct, Shared.handleAct] <;>
    first
    | (split <;> rfl; done)
    | rfl

theorem handleAct_banks (std : Std) (r : Rank) (b t x : Nat) :
    (handleAct std r b t).banks x = if x = b then (r.banks b).activ t else r.banks x := by
  by_cases hxb : x = b
  · subst hxb
    cases std <;> simp only [handleAct, DDR4.handleAct, Shared.handleAct, Bank.activ] <;>
      first
      | (split <;> simp [Rank.setBank, upd]; done)
      | simp [Rank.setBank, upd]
  · cases std <;> simp only [handleAct, DDR4.handleAct, Shared.handleAct, Bank.activ] <;>
      first
      | (split <;> simp [Rank.setBank, upd, hxb]; done)
      | simp [Rank.setBank, upd, hxb]

/-! ## Refresh folds, also with repeated banks -/

theorem refreshFold_ne (cnt : Counters → Counters) (d t : Nat) (l : List Nat) {x : Nat} (hx : x ∉ l) : ∀ res : HRes,
    (l.foldl (Shared.handleRefreshOnBank cnt d t) res).1.banks x = res.1.banks x := by
  induction l with
  | nil => intro r; rfl
  | cons b l ih =>
    intro r
    simp only [List.mem_cons, not_or] at hx
    rw [List.foldl_cons, ih hx.2, refreshOnBank_banks, if_neg hx.1]

theorem refreshFold_congr (cnt : Counters → Counters) (d t : Nat) (l : List Nat) {x : Nat} : ∀ res res' : HRes,
    res.1.banks x = res'.1.banks x →
    (l.foldl (Shared.handleRefreshOnBank cnt d t) res).1.banks x = (l.foldl (Shared.handleRefreshOnBank cnt d t) res').1.banks x := by
  induction l with
  | nil => intro r r' h; exact h
  | cons b l ih =>
    intro r r' h
    rw [List.foldl_cons, List.foldl_cons]
    refine ih _ _ ?_
    rw [refreshOnBank_banks, refreshOnBank_banks]
    split
    · rename_i hx; subst hx; rw [h]
    · exact h

theorem refEnd_relev_ne {L : List Nat} {x : Nat} (hx : x ∉ L) (t : Nat) :
    (L.map fun b => (t, Imp.refEnd b)).filter (relev x) = [] := by
  rw [List.filter_eq_nil_iff]
  intro e he
  obtain ⟨b, hb, rfl⟩ := List.mem_map.1 he
  have : b ≠ x := fun h => hx (h ▸ hb)
  simp [relev, Imp.forBank, Imp.isMode, this]

/-! ## Commands -/

theorem view_ext {r r' : Rank} {b : Nat} (h1 : r.banks b = r'.banks b) (h2 : r.mode = r'.mode) : r.view b = r'.view b := by
  simp only [Rank.view, h1, h2]

/-- A command that does not concern the bank leaves it alone. -/
theorem handle_view_ne {std ms r c r' imps} {b : Nat} (h : handle std ms r c = .ok (r', imps))
    (hc : concerns ms b c = false) : r'.view b = r.view b ∧ imps.filter (relev b) = [] := by
  unfold handle at h
  split at h
  case h_1 hty =>
    obtain ⟨_, h⟩ := withBank_ok h; injection h with h; injection h with h h'; subst h h'
    simp only [concerns, hty, beq_eq_false_iff_ne] at hc
    exact ⟨view_ext (by rw [handleAct_banks, if_neg hc]) (handleAct_mode ..), rfl⟩
  case h_2 hty =>
    obtain ⟨_, h⟩ := withBank_ok h; injection h with h; injection h with h h'; subst h h'
    simp only [concerns, hty, beq_eq_false_iff_ne] at hc
    exact ⟨view_ext (by rw [handlePre_banks, if_neg hc]) (handlePre_mode ..), rfl⟩
  case h_5 hty | h_7 hty =>
    obtain ⟨_, h⟩ := withBank_ok h; injection h with h; injection h with h h'; subst h h'
    simp only [concerns, hty, beq_eq_false_iff_ne] at hc
    exact ⟨view_ext (by simp [handleRead, handleWrite, Rank.setBank, upd, hc]) rfl, rfl⟩
  case h_6 hty | h_8 hty =>
    obtain ⟨_, h⟩ := withBank_ok h; injection h with h; injection h with h h'; subst h h'
    simp only [concerns, hty, beq_eq_false_iff_ne] at hc
    refine ⟨view_ext (by simp [Rank.setBank, upd, hc]) rfl, ?_⟩
    simp [relev, Imp.forBank, Imp.isMode, Ne.symm hc]
  case h_15 hty =>
    split at h
    · obtain ⟨_, h⟩ := withBank_ok h
      unfold handlePreSameBank at h
      split at h
      · exact absurd h (by simp)
      · split at h
        · injection h with h; injection h with h h'; subst h h'
          simp only [concerns, hty, decide_eq_false_iff_not] at hc
          have hm : b ∉ sameBankIdx ms c.bank := by
            simp only [sameBankIdx, List.mem_map, List.mem_range]
            rintro ⟨g, h1, h2⟩; exact hc ⟨g, h1, h2.symm⟩
          have k1 := preFold_banks .ddr5 c.t (sameBankIdx ms c.bank) r b
          have k2 := preFold_mode .ddr5 c.t (sameBankIdx ms c.bank) r
          rw [if_neg hm] at k1
          exact ⟨view_ext k1 k2, rfl⟩
        · exact absurd h (by simp)
    · exact absurd h (by simp)
  case h_16 hty =>
    split at h
    · obtain ⟨_, h⟩ := withBank_ok h
      unfold handleRefSameBank at h
      split at h
      · exact absurd h (by simp)
      · split at h
        · injection h with h
          have e1 := congrArg Prod.fst h
          have e2 := congrArg Prod.snd h
          subst e1 e2
          simp only [concerns, hty, decide_eq_false_iff_not] at hc
          have hm : b ∉ sameBankIdx ms c.bank := by
            simp only [sameBankIdx, List.mem_map, List.mem_range]
            rintro ⟨g, h1, h2⟩; exact hc ⟨g, h1, h2.symm⟩
          refine ⟨view_ext (refreshFold_ne _ _ _ _ hm _) (refreshFold_mode ..), ?_⟩
          rw [refreshFold_imps, List.nil_append, refEnd_relev_ne hm]
        · exact absurd h (by simp)
    · exact absurd h (by simp)
  case h_17 hty =>
    split at h
    · obtain ⟨_, h⟩ := withBank_ok h
      injection h with h
      have e1 := congrArg Prod.fst h
      have e2 := congrArg Prod.snd h
      subst e1 e2
      simp only [concerns, hty, beq_eq_false_iff_ne] at hc
      have hm : b ∉ [c.bank] := by simpa using hc
      refine ⟨view_ext (by rw [handleRefPerBank, refreshOnBank_banks, if_neg hc]) (refreshOnBank_mode ..), ?_⟩
      simp [handleRefPerBank, Shared.handleRefreshOnBank, relev, Imp.forBank, Imp.isMode, Ne.symm hc]
    · exact absurd h (by simp)
  case h_18 hty =>
    split at h
    · split at h
      · exact absurd h (by simp)
      · obtain ⟨_, h⟩ := withBank_ok h
        unfold handleRefPerTwoBanks at h
        simp only at h
        split at h
        · injection h with h
          have e1 := congrArg Prod.fst h
          have e2 := congrArg Prod.snd h
          subst e1 e2
          simp only [concerns, hty, Bool.or_eq_false_iff, beq_eq_false_iff_ne] at hc
          have hm : b ∉ [c.bank, (c.bank + ms.perTwoBankOffset) % 16] := by simpa using hc
          refine ⟨view_ext (refreshFold_ne _ _ _ _ hm _) (refreshFold_mode ..), ?_⟩
          rw [refreshFold_imps, List.nil_append, refEnd_relev_ne hm]
        · exact absurd h (by simp)
    · exact absurd h (by simp)
  case h_19 hty =>
    split at h
    · obtain ⟨_, h⟩ := withBank_ok h
      obtain ⟨_, h⟩ := withBank_ok h
      injection h with h
      have e1 := congrArg Prod.fst h
      have e2 := congrArg Prod.snd h
      subst e1 e2
      simp only [concerns, hty, Bool.or_eq_false_iff, beq_eq_false_iff_ne] at hc
      have hm : b ∉ [c.bank, c.dbank] := by simpa using hc
      unfold handleRefDualBanks
      refine ⟨view_ext (refreshFold_ne _ _ _ _ hm _) (refreshFold_mode ..), ?_⟩
      rw [refreshFold_imps, List.nil_append, refEnd_relev_ne hm]
    · exact absurd h (by simp)
  case h_22 | h_23 | h_24 => exact absurd h (by simp)
  all_goals (rename_i hty; simp [concerns, hty] at hc)

theorem handleRefAll_congr (std : Std) (ms : MemSpec) (r s : Rank) (t x : Nat) (hx : x < r.nBanks) (hn : s.nBanks = r.nBanks)
    (h : r.banks x = s.banks x) : (handleRefAll std ms r t).1.banks x = (handleRefAll std ms s t).1.banks x := by
  rw [handleRefAll_banks _ _ _ _ _ hx, handleRefAll_banks _ _ _ _ _ (by omega), h]

/-- The effect of a command that concerns the bank depends only on what the bank sees. -/
theorem handle_view_eq {std ms r c r' imps} {b : Nat} {s : Rank} (h : handle std ms r c = .ok (r', imps))
    (hc : concerns ms b c = true) (hp : powerDown c.type = false) (hb : b < r.nBanks) (hn : s.nBanks = r.nBanks)
    (hv : r.view b = s.view b) :
    ∃ s' imps', handle std ms s c = .ok (s', imps') ∧ r'.view b = s'.view b ∧ imps.filter (relev b) = imps'.filter (relev b) := by
  have hb1 : r.banks b = s.banks b := congrArg Prod.fst hv
  have hm1 : r.mode = s.mode := congrArg Prod.snd hv
  have hmem : r.memState = s.memState := congrArg ModeView.mem hm1
  have hsr : r.sref = s.sref := congrArg ModeView.sref hm1
  have hds : r.deepSleepMode = s.deepSleepMode := congrArg ModeView.dsm hm1
  have hpa : r.powerDownAct = s.powerDownAct := congrArg ModeView.pda hm1
  have hpp : r.powerDownPre = s.powerDownPre := congrArg ModeView.pdp hm1
  unfold handle at h ⊢
  split at h
  case h_1 hty =>
    obtain ⟨hlt, h⟩ := withBank_ok h; injection h with h; injection h with h h'; subst h h'
    simp only [concerns, hty, beq_iff_eq] at hc
    refine ⟨handleAct std s c.bank c.t, [], by simp [withBank, hn, hlt, pureRes], view_ext ?_ ?_, rfl⟩
    · rw [handleAct_banks, handleAct_banks, if_pos hc, if_pos hc, ← hc, hb1]
    · rw [handleAct_mode, handleAct_mode, hm1]
  case h_2 hty =>
    obtain ⟨hlt, h⟩ := withBank_ok h; injection h with h; injection h with h h'; subst h h'
    simp only [concerns, hty, beq_iff_eq] at hc
    refine ⟨handlePre std s c.bank c.t, [], by simp [withBank, hn, hlt, pureRes], view_ext ?_ ?_, rfl⟩
    · rw [handlePre_banks, handlePre_banks, if_pos hc, if_pos hc, ← hc, hb1]
    · rw [handlePre_mode, handlePre_mode, hm1]
  case h_3 hty =>
    injection h with h; injection h with h h'; subst h h'
    refine ⟨handlePreAll std s c.t, [], by simp [pureRes], view_ext ?_ ?_, rfl⟩
    · unfold handlePreAll
      rw [preFold_banks, preFold_banks, if_pos (List.mem_range.2 hb), if_pos (List.mem_range.2 (by omega)), hb1]
    · unfold handlePreAll
      rw [preFold_mode, preFold_mode, hm1]
  case h_4 hty =>
    injection h with h
    have e1 := congrArg Prod.fst h
    have e2 := congrArg Prod.snd h
    subst e1 e2
    refine ⟨(handleRefAll std ms s c.t).1, (handleRefAll std ms s c.t).2, rfl, view_ext ?_ ?_, ?_⟩
    · exact handleRefAll_congr _ _ _ _ _ _ hb hn hb1
    · rw [handleRefAll_mode, handleRefAll_mode, hm1]
    · rw [handleRefAll_imps, handleRefAll_imps, hn]
  case h_5 hty | h_7 hty =>
    obtain ⟨hlt, h⟩ := withBank_ok h; injection h with h; injection h with h h'; subst h h'
    simp only [concerns, hty, beq_iff_eq] at hc
    refine ⟨_, [], if_pos (show c.bank < s.nBanks by omega), view_ext ?_ ?_, rfl⟩
    · subst hc; simp [handleRead, handleWrite, Rank.setBank, upd, hb1]
    · exact hm1
  case h_6 hty | h_8 hty =>
    obtain ⟨hlt, h⟩ := withBank_ok h; injection h with h; injection h with h h'; subst h h'
    simp only [concerns, hty, beq_iff_eq] at hc
    refine ⟨_, _, if_pos (show c.bank < s.nBanks by omega), view_ext ?_ ?_, ?_⟩
    · subst hc; simp [Rank.setBank, upd, hb1]
    · exact hm1
    · subst hc; simp [Rank.setBank, upd, hb1]
  case h_9 hty =>
    injection h with h
    have e1 := congrArg Prod.fst h
    have e2 := congrArg Prod.snd h
    subst e1 e2
    refine ⟨_, _, rfl, view_ext ?_ ?_, ?_⟩
    · exact handleRefAll_congr _ _ _ _ _ _ hb hn hb1
    · exact (handleRefAll_mode ..).trans (hm1.trans (handleRefAll_mode ..).symm)
    · simp only [handleSelfRefreshEntry, handleRefAll_imps, hn]
  case h_10 hty =>
    unfold handleSelfRefreshExit at h ⊢
    split at h
    · rename_i hq
      injection h with h; injection h with h h'; subst h h'
      rw [hmem] at hq
      refine ⟨_, _, if_pos hq, view_ext hb1 ?_, rfl⟩
      simp only [Rank.mode, hsr, hds, hpa, hpp]
    · exact absurd h (by simp)
  case h_15 hty =>
    split at h
    · rename_i hs
      obtain ⟨hlt, h⟩ := withBank_ok h
      unfold handlePreSameBank at h ⊢
      split at h
      · exact absurd h (by simp)
      · split at h
        · rename_i h0 hall
          injection h with h; injection h with h h'; subst h h'
          refine ⟨_, _, (if_pos hs).trans ((if_pos (show c.bank < s.nBanks by omega)).trans ((if_neg h0).trans (if_pos (hn ▸ hall)))), view_ext ?_ ?_, rfl⟩
          · have k1 := preFold_banks .ddr5 c.t (sameBankIdx ms c.bank) r b
            have k2 := preFold_banks .ddr5 c.t (sameBankIdx ms c.bank) s b
            rw [hb1] at k1
            exact k1.trans k2.symm
          · exact (preFold_mode .ddr5 ..).trans (hm1.trans (preFold_mode .ddr5 ..).symm)
        · exact absurd h (by simp)
    · exact absurd h (by simp)
  case h_16 hty =>
    split at h
    · rename_i hs
      obtain ⟨hlt, h⟩ := withBank_ok h
      unfold handleRefSameBank at h ⊢
      split at h
      · exact absurd h (by simp)
      · split at h
        · rename_i h0 hall
          injection h with h
          have e1 := congrArg Prod.fst h
          have e2 := congrArg Prod.snd h
          subst e1 e2
          refine ⟨_, _, (if_pos hs).trans ((if_pos (show c.bank < s.nBanks by omega)).trans ((if_neg h0).trans (if_pos (hn ▸ hall)))), view_ext ?_ ?_, ?_⟩
          · exact refreshFold_congr _ _ _ _ _ _ hb1
          · rw [refreshFold_mode, refreshFold_mode, hm1]
          · rw [refreshFold_imps, refreshFold_imps]
        · exact absurd h (by simp)
    · exact absurd h (by simp)
  case h_17 hty =>
    split at h
    · rename_i hs
      obtain ⟨hlt, h⟩ := withBank_ok h
      injection h with h
      have e1 := congrArg Prod.fst h
      have e2 := congrArg Prod.snd h
      subst e1 e2
      refine ⟨(handleRefPerBank ms s c.bank c.t).1, (handleRefPerBank ms s c.bank c.t).2, (if_pos hs).trans (if_pos (show c.bank < s.nBanks by omega)), view_ext ?_ ?_, rfl⟩
      · exact refreshFold_congr _ _ _ [c.bank] (r, []) (s, []) hb1
      · simp only [handleRefPerBank]
        rw [refreshOnBank_mode, refreshOnBank_mode, hm1]
    · exact absurd h (by simp)
  case h_18 hty =>
    split at h
    · rename_i hs
      split at h
      · exact absurd h (by simp)
      · rename_i ha
        obtain ⟨hlt, h⟩ := withBank_ok h
        unfold handleRefPerTwoBanks at h ⊢
        simp only at h ⊢
        split at h
        · rename_i hlt2
          injection h with h
          have e1 := congrArg Prod.fst h
          have e2 := congrArg Prod.snd h
          subst e1 e2
          refine ⟨([c.bank, (c.bank + ms.perTwoBankOffset) % 16].foldl (Shared.handleRefreshOnBank (fun c => { c with refPerTwoBanks := c.refPerTwoBanks + 1 }) ms.tRFCPB c.t) (s, [])).1, ([c.bank, (c.bank + ms.perTwoBankOffset) % 16].foldl (Shared.handleRefreshOnBank (fun c => { c with refPerTwoBanks := c.refPerTwoBanks + 1 }) ms.tRFCPB c.t) (s, [])).2, (if_pos hs).trans ((if_neg ha).trans ((if_pos (show c.bank < s.nBanks by omega)).trans (if_pos (by omega)))), view_ext ?_ ?_, ?_⟩
          · exact refreshFold_congr _ _ _ _ _ _ hb1
          · rw [refreshFold_mode, refreshFold_mode, hm1]
          · rw [refreshFold_imps, refreshFold_imps]
        · exact absurd h (by simp)
    · exact absurd h (by simp)
  case h_19 hty =>
    split at h
    · rename_i hs
      obtain ⟨hlt, h⟩ := withBank_ok h
      obtain ⟨hlt2, h⟩ := withBank_ok h
      injection h with h
      have e1 := congrArg Prod.fst h
      have e2 := congrArg Prod.snd h
      subst e1 e2
      refine ⟨(handleRefDualBanks ms s c.bank c.dbank c.t).1, (handleRefDualBanks ms s c.bank c.dbank c.t).2, (if_pos hs).trans ((if_pos (show c.bank < s.nBanks by omega)).trans (if_pos (show c.dbank < s.nBanks by omega))), view_ext ?_ ?_, ?_⟩
      · exact refreshFold_congr _ _ _ _ _ _ hb1
      · simp only [handleRefDualBanks]
        rw [refreshFold_mode, refreshFold_mode, hm1]
      · simp only [handleRefDualBanks]
        rw [refreshFold_imps, refreshFold_imps]
    · exact absurd h (by simp)
  case h_20 hty =>
    split at h
    · rename_i hs
      unfold handleDSMEntry at h ⊢
      split at h
      · rename_i hq
        injection h with h; injection h with h h'; subst h h'
        rw [hmem] at hq
        refine ⟨_, _, (if_pos hs).trans (if_pos hq), view_ext hb1 ?_, rfl⟩
        simp only [Rank.mode, hsr, hds, hpa, hpp]
      · exact absurd h (by simp)
    · exact absurd h (by simp)
  case h_21 hty =>
    split at h
    · rename_i hs
      unfold handleDSMExit at h ⊢
      split at h
      · rename_i hq
        injection h with h; injection h with h h'; subst h h'
        rw [hmem] at hq
        refine ⟨_, _, (if_pos hs).trans (if_pos hq), view_ext hb1 ?_, rfl⟩
        simp only [Rank.mode, hsr, hds, hpa, hpp]
      · exact absurd h (by simp)
    · exact absurd h (by simp)
  case h_22 | h_23 | h_24 => exact absurd h (by simp)
  all_goals (rename_i hty; simp [powerDown, hty] at hp)


theorem handle_plain {std ms r c r' imps} (h : handle std ms r c = .ok (r', imps)) (hp : powerDown c.type = false) :
    ∀ e ∈ imps, e.2.plain = true := by
  have key : ∀ (l : List Nat) (t : Nat), ∀ e ∈ l.map (fun b => (t, Imp.refEnd b)), e.2.plain = true := by
    intro l t e he; obtain ⟨b, _, rfl⟩ := List.mem_map.1 he; rfl
  cases hr : c.type.refreshes with
  | true =>
    unfold handle at h
    split at h
    case h_4 hc =>
      injection h with h; have := congrArg Prod.snd h; subst this
      rw [handleRefAll_imps]; exact key _ _
    case h_9 hc =>
      injection h with h; have := congrArg Prod.snd h; subst this
      simp only [handleSelfRefreshEntry, handleRefAll_imps]
      intro e he
      rcases List.mem_append.1 he with he | he
      · exact key _ _ e he
      · rw [List.mem_singleton.1 he]; rfl
    case h_16 hc =>
      split at h
      · obtain ⟨_, h⟩ := withBank_ok h
        unfold handleRefSameBank at h
        split at h
        · exact absurd h (by simp)
        · split at h
          · injection h with h; have := congrArg Prod.snd h; subst this
            rw [refreshFold_imps, List.nil_append]; exact key _ _
          · exact absurd h (by simp)
      · exact absurd h (by simp)
    case h_17 hc =>
      split at h
      · obtain ⟨_, h⟩ := withBank_ok h
        injection h with h; have := congrArg Prod.snd h; subst this
        simp only [handleRefPerBank, Shared.handleRefreshOnBank, List.nil_append]
        exact key [c.bank] _
      · exact absurd h (by simp)
    case h_18 hc =>
      split at h
      · split at h
        · exact absurd h (by simp)
        · obtain ⟨_, h⟩ := withBank_ok h
          unfold handleRefPerTwoBanks at h
          simp only at h
          split at h
          · injection h with h; have := congrArg Prod.snd h; subst this
            rw [refreshFold_imps, List.nil_append]; exact key _ _
          · exact absurd h (by simp)
      · exact absurd h (by simp)
    case h_19 hc =>
      split at h
      · obtain ⟨_, h⟩ := withBank_ok h
        obtain ⟨_, h⟩ := withBank_ok h
        injection h with h; have := congrArg Prod.snd h; subst this
        simp only [handleRefDualBanks]
        rw [refreshFold_imps, List.nil_append]; exact key _ _
      · exact absurd h (by simp)
    all_goals (rename_i hc; simp [hc, CmdType.refreshes] at hr)
  | false =>
    cases hpr : c.type.precharges with
    | true => rw [handle_pre_imps h hpr]; simp
    | false =>
      unfold handle at h
      split at h
      case h_1 | h_5 | h_7 => obtain ⟨_, h⟩ := withBank_ok h; injection h with h; injection h with _ h; subst h; simp
      case h_6 | h_8 =>
        obtain ⟨_, h⟩ := withBank_ok h; injection h with h; injection h with _ h; subst h
        intro e he; rw [List.mem_singleton.1 he]; rfl
      case h_10 =>
        unfold handleSelfRefreshExit at h; split at h
        · injection h with h; injection h with _ h; subst h; simp
        · exact absurd h (by simp)
      case h_20 =>
        split at h
        · unfold handleDSMEntry at h; split at h
          · injection h with h; injection h with _ h; subst h; simp
          · exact absurd h (by simp)
        · exact absurd h (by simp)
      case h_21 =>
        split at h
        · unfold handleDSMExit at h; split at h
          · injection h with h; injection h with _ h; subst h; simp
          · exact absurd h (by simp)
        · exact absurd h (by simp)
      case h_22 | h_23 | h_24 => exact absurd h (by simp)
      all_goals (rename_i hc; first | (simp [hc, powerDown] at hp; done) | (simp [hc, CmdType.refreshes] at hr; done) | (simp [hc, CmdType.precharges] at hpr; done))

/-! ## Deferred commands -/

theorem execRefEnd_banks (std : Std) (r : Rank) (b t x : Nat) :
    (exec std r t (.refEnd b)).banks x = if x = b then { r.banks b with state := .precharged, act := (r.banks b).act.close t } else r.banks x := by
  cases std <;> simp only [exec, DDR4.execRefEnd, Shared.execRefEnd] <;> rw [ifAct_banks] <;> rfl

theorem execRefEnd_mode (std : Std) (r : Rank) (b t : Nat) : (exec std r t (.refEnd b)).mode = r.mode := by
  cases std <;> simp only [exec, DDR4.execRefEnd, Shared.execRefEnd] <;> rw [ifAct_mode] <;> rfl

theorem exec_view_ne {std : Std} {r : Rank} {b : Nat} {e : Nat × Imp} (h : relev b e = false) :
    (exec std r e.1 e.2).view b = r.view b := by
  obtain ⟨t, i⟩ := e
  cases i with
  | pre x =>
    have hx : b ≠ x := by simp [relev, Imp.forBank, Imp.isMode] at h; omega
    exact view_ext (by show (handlePre std r x t).banks b = _; rw [handlePre_banks, if_neg hx]) (handlePre_mode ..)
  | refEnd x =>
    have hx : b ≠ x := by simp [relev, Imp.forBank, Imp.isMode] at h; omega
    exact view_ext (by rw [execRefEnd_banks, if_neg hx]) (execRefEnd_mode ..)
  | _ => simp [relev, Imp.isMode] at h

theorem exec_view_eq {std : Std} {r s : Rank} {b : Nat} {e : Nat × Imp} (hp : e.2.plain = true) (hv : r.view b = s.view b) :
    (exec std r e.1 e.2).view b = (exec std s e.1 e.2).view b := by
  obtain ⟨t, i⟩ := e
  have hb1 : r.banks b = s.banks b := congrArg Prod.fst hv
  have hm1 : r.mode = s.mode := congrArg Prod.snd hv
  have hsr : r.sref = s.sref := congrArg ModeView.sref hm1
  have hds : r.deepSleepMode = s.deepSleepMode := congrArg ModeView.dsm hm1
  have hpa : r.powerDownAct = s.powerDownAct := congrArg ModeView.pda hm1
  have hpp : r.powerDownPre = s.powerDownPre := congrArg ModeView.pdp hm1
  cases i with
  | pre x =>
    refine view_ext ?_ ((handlePre_mode ..).trans (hm1.trans (handlePre_mode ..).symm))
    show (handlePre std r x t).banks b = (handlePre std s x t).banks b
    rw [handlePre_banks, handlePre_banks]
    split
    · rename_i hx; subst hx; rw [hb1]
    · exact hb1
  | refEnd x =>
    refine view_ext ?_ ((execRefEnd_mode ..).trans (hm1.trans (execRefEnd_mode ..).symm))
    rw [execRefEnd_banks, execRefEnd_banks]
    split
    · rename_i hx; subst hx; rw [hb1]
    · exact hb1
  | srefEnter =>
    refine view_ext hb1 ?_
    simp only [exec, execSrefEnter, Rank.mode, hsr, hds, hpa, hpp]
  | _ => simp [Imp.plain] at hp

/-- Two rank-local machines that look the same to bank `b`. -/
structure SameView (b : Nat) (s s' : HRes) : Prop where
  view : s.1.view b = s'.1.view b
  size : s'.1.nBanks = s.1.nBanks
  queue : s.2.filter (relev b) = s'.2.filter (relev b)

/-- A queue in order that contains no power-down. -/
structure PlainQueue (s : HRes) : Prop where
  sorted : RSorted s.2
  plain : ∀ e ∈ s.2, e.2.plain = true

theorem rprocess_filter {std t b} {q : List (Nat × Imp)} (h : RSorted q) (hp : ∀ e ∈ q, e.2.plain = true) : ∀ {r s : Rank},
    r.view b = s.view b → s.nBanks = r.nBanks → SameView b (rprocess std t r q) (rprocess std t s (q.filter (relev b))) := by
  induction q with
  | nil => intro r s hv hn; exact ⟨hv, hn, rfl⟩
  | cons e q ih =>
    intro r s hv hn
    have h' := List.pairwise_cons.1 h
    have hpq : ∀ e ∈ q, e.2.plain = true := fun x hx => hp x (List.mem_cons_of_mem _ hx)
    cases hr : relev b e with
    | true =>
      rw [List.filter_cons_of_pos hr]
      by_cases he : e.1 ≤ t
      · simp only [rprocess, he, if_true]
        exact ih h'.2 hpq (exec_view_eq (hp e (List.mem_cons_self ..)) hv) (by rw [exec_nBanks, exec_nBanks]; exact hn)
      · simp only [rprocess, he, if_false]
        refine ⟨hv, hn, ?_⟩
        simp [hr, List.filter_filter]
    | false =>
      rw [List.filter_cons_of_neg (by simp [hr])]
      by_cases he : e.1 ≤ t
      · simp only [rprocess, he, if_true]
        exact ih h'.2 hpq ((exec_view_ne hr).trans hv) (by rw [exec_nBanks]; exact hn)
      · rw [rprocess_eq_of_gt (q := q.filter (relev b))]
        · simp only [rprocess, he, if_false]
          refine ⟨hv, hn, ?_⟩
          simp [hr, List.filter_filter]
        · intro x hx
          have := h'.1 x (List.mem_filter.1 hx).1
          omega

theorem SameView.trans' {b : Nat} {s1 s2 s3 : HRes} (h : SameView b s1 s3) (h' : SameView b s2 s3) : SameView b s1 s2 :=
  ⟨h.view.trans h'.view.symm, h'.size.symm.trans h.size, h.queue.trans h'.queue.symm⟩

theorem SameView.proc {std t b} {s s' : HRes} (h : SameView b s s') (hs : PlainQueue s) (hs' : PlainQueue s') :
    SameView b (rproc std t s) (rproc std t s') := by
  have h1 := rprocess_filter (std := std) (t := t) hs.sorted hs.plain h.view h.size
  have h2 := rprocess_filter (std := std) (t := t) (b := b) (r := s'.1) (s := s'.1) hs'.sorted hs'.plain rfl rfl
  rw [h.queue] at h1
  exact h1.trans' h2

theorem PlainQueue.proc {std t} {s : HRes} (h : PlainQueue s) : PlainQueue (rproc std t s) := by
  obtain ⟨r, q⟩ := s
  obtain ⟨h, hp⟩ := h
  unfold rproc
  induction q generalizing r with
  | nil => exact ⟨h, hp⟩
  | cons e q ih =>
    simp only [rprocess]
    split
    · exact ih _ (List.pairwise_cons.1 h).2 (fun x hx => hp x (List.mem_cons_of_mem _ hx))
    · exact ⟨h, hp⟩

/-! ## Insertion -/

theorem rinsert_rsorted {e : Nat × Imp} {q : List (Nat × Imp)} (h : RSorted q) : RSorted (rinsert e q) := by
  induction q with
  | nil => simp [rinsert, RSorted]
  | cons y q ih =>
    simp only [RSorted, List.pairwise_cons] at h
    simp only [rinsert]
    split
    · rename_i hlt
      simp only [RSorted, List.pairwise_cons, List.mem_cons]
      refine ⟨?_, h.1, h.2⟩
      rintro x (rfl | hx)
      · omega
      · have := h.1 x hx; omega
    · rename_i hge
      simp only [RSorted, List.pairwise_cons]
      refine ⟨?_, ih h.2⟩
      intro x hx
      rcases mem_rinsert.1 hx with rfl | hx
      · omega
      · exact h.1 x hx

theorem rinsert_filter {b : Nat} {e : Nat × Imp} {q : List (Nat × Imp)} (h : RSorted q) :
    (rinsert e q).filter (relev b) = if relev b e = true then rinsert e (q.filter (relev b)) else q.filter (relev b) := by
  induction q with
  | nil => cases hr : relev b e <;> simp [rinsert, hr]
  | cons x q ih =>
    have h' := List.pairwise_cons.1 h
    simp only [rinsert]
    split
    · rename_i hlt
      cases hr : relev b e with
      | false => simp [hr]
      | true =>
        rw [if_pos rfl, List.filter_cons_of_pos hr, rinsert_of_lt]
        intro y hy
        rcases List.mem_cons.1 (List.mem_filter.1 hy).1 with rfl | hy
        · exact hlt
        · have := h'.1 y hy; omega
    · rename_i hge
      cases hx : relev b x with
      | false => rw [List.filter_cons_of_neg (by simp [hx]), List.filter_cons_of_neg (by simp [hx]), ih h'.2]
      | true =>
        rw [List.filter_cons_of_pos hx, List.filter_cons_of_pos hx, ih h'.2]
        cases hr : relev b e with
        | false => rfl
        | true => simp [rinsert, hge]

theorem insertAll {b : Nat} {imps : List (Nat × Imp)} : ∀ {q : List (Nat × Imp)}, RSorted q →
    RSorted (imps.foldl (fun q i => rinsert i q) q) ∧
    (imps.foldl (fun q i => rinsert i q) q).filter (relev b) =
      (imps.filter (relev b)).foldl (fun q i => rinsert i q) (q.filter (relev b)) := by
  induction imps with
  | nil => intro q h; exact ⟨h, rfl⟩
  | cons i imps ih =>
    intro q h
    simp only [List.foldl_cons]
    have := ih (rinsert_rsorted (e := i) h)
    refine ⟨this.1, ?_⟩
    rw [this.2, rinsert_filter h]
    cases hr : relev b i with
    | false => rw [List.filter_cons_of_neg (by simp [hr])]; rfl
    | true => rw [List.filter_cons_of_pos hr]; rfl

theorem insertAll_mem {imps : List (Nat × Imp)} : ∀ {q : List (Nat × Imp)} {x}, x ∈ imps.foldl (fun q i => rinsert i q) q → x ∈ imps ∨ x ∈ q := by
  induction imps with
  | nil => intro q x h; exact .inr h
  | cons i imps ih =>
    intro q x h
    rw [List.foldl_cons] at h
    rcases ih h with h | h
    · exact .inl (List.mem_cons_of_mem _ h)
    · rcases mem_rinsert.1 h with h | h
      · exact .inl (h ▸ List.mem_cons_self ..)
      · exact .inr h

/-! ## Commands of a rank -/

/-- One command: the result of the handler and what it queues. -/
theorem rstep_parts {std ms s c s'} (h : rstep std ms s c = .ok s') :
    ∃ imps, handle std ms (rproc std c.t s).1 c = .ok (s'.1, imps) ∧ s'.2 = imps.foldl (fun q i => rinsert i q) (rproc std c.t s).2 := by
  simp only [rstep] at h
  split at h
  · rename_i r imps hh
    injection h with h; subst h
    exact ⟨imps, hh, rfl⟩
  · exact absurd h (by simp)

theorem PlainQueue.step {std ms s c s'} (hs : PlainQueue s) (h : rstep std ms s c = .ok s') (hp : powerDown c.type = false) : PlainQueue s' := by
  obtain ⟨imps, hh, hq⟩ := rstep_parts h
  have := hs.proc (std := std) (t := c.t)
  refine ⟨?_, ?_⟩
  · rw [hq]; exact (insertAll (b := 0) this.sorted).1
  · intro e he
    rw [hq] at he
    rcases insertAll_mem he with he | he
    · exact handle_plain hh hp e he
    · exact this.plain e he

/-- A command that does not concern the bank. -/
theorem rstep_ne {std ms s c s' b} (hs : PlainQueue s) (h : rstep std ms s c = .ok s') (hc : concerns ms b c = false) :
    SameView b s' (rproc std c.t s) := by
  obtain ⟨imps, hh, hq⟩ := rstep_parts h
  obtain ⟨hv, hi⟩ := handle_view_ne hh hc
  refine ⟨hv, (handle_nBanks hh).symm, ?_⟩
  rw [hq, (insertAll hs.proc.sorted).2, hi]
  rfl

/-- A command that concerns the bank. -/
theorem rstep_eq' {std ms s c s' b u} (hs : PlainQueue s) (hu : PlainQueue u) (h : rstep std ms s c = .ok s') (hc : concerns ms b c = true)
    (hp : powerDown c.type = false) (hb : b < s.1.nBanks) (hv : SameView b (rproc std c.t s) (rproc std c.t u)) :
    ∃ u', rstep std ms u c = .ok u' ∧ SameView b s' u' := by
  obtain ⟨imps, hh, hq⟩ := rstep_parts h
  obtain ⟨r', imps', h1, h2, h3⟩ := handle_view_eq hh hc hp (by rw [show (rproc std c.t s).1.nBanks = s.1.nBanks from rprocess_nBanks ..]; exact hb) hv.size hv.view
  refine ⟨(r', imps'.foldl (fun q i => rinsert i q) (rproc std c.t u).2), ?_, h2, ?_, ?_⟩
  · have h1' : handle std ms (rprocess std c.t u.1 u.2).1 c = .ok (r', imps') := h1
    simp only [rstep, h1']; rfl
  · rw [handle_nBanks hh]; exact (handle_nBanks h1).trans hv.size
  · rw [hq, (insertAll hs.proc.sorted).2]
    refine Eq.trans ?_ (insertAll hu.proc.sorted).2.symm
    rw [h3, hv.queue]

/-- The rank-local machine, run on all commands and on those that concern bank `b`. -/
theorem rrun_bank {std ms b} : ∀ (cmds : List Cmd) {T : Nat} {s u s' : HRes}, TimesFrom T cmds →
    (∀ c ∈ cmds, powerDown c.type = false) → PlainQueue s → PlainQueue u → b < s.1.nBanks →
    (∀ t, T ≤ t → SameView b (rproc std t s) (rproc std t u)) → rrun std ms s cmds = .ok s' →
    ∃ u', rrun std ms u (cmds.filter (concerns ms b)) = .ok u' ∧ ∀ t, endTime T cmds ≤ t → SameView b (rproc std t s') (rproc std t u')
  | [], T, s, u, s', _, _, _, _, _, hv, hr => by
    simp only [rrun] at hr; injection hr with hr; subst hr
    exact ⟨u, rfl, hv⟩
  | c :: cmds, T, s, u, s', ht, hp, hs, hu, hb, hv, hr => by
    have hpc := hp c (List.mem_cons_self ..)
    have hpq : ∀ c ∈ cmds, powerDown c.type = false := fun x hx => hp x (List.mem_cons_of_mem _ hx)
    simp only [rrun] at hr
    split at hr
    · rename_i s1 h1
      have hs1 := hs.step h1 hpc
      have hb1 : b < s1.1.nBanks := by
        obtain ⟨imps, hh, _⟩ := rstep_parts h1
        rw [handle_nBanks hh]
        exact (rprocess_nBanks ..).symm ▸ hb
      cases hc : concerns ms b c with
      | true =>
        obtain ⟨u1, h2, h3⟩ := rstep_eq' hs hu h1 hc hpc hb (hv _ ht.1)
        have hu1 := hu.step h2 hpc
        rw [List.filter_cons_of_pos hc]
        simp only [rrun, h2]
        exact rrun_bank cmds ht.2 hpq hs1 hu1 hb1 (fun t _ => h3.proc hs1 hu1) hr
      | false =>
        rw [List.filter_cons_of_neg (by simp [hc])]
        refine rrun_bank cmds ht.2 hpq hs1 hu hb1 (fun t hct => ?_) hr
        have k1 := (rstep_ne hs h1 hc).proc (std := std) (t := t) hs1 hs.proc
        rw [rproc_rproc hct] at k1
        have k2 := hv t (Nat.le_trans ht.1 hct)
        exact ⟨k1.view.trans k2.view, k2.size.trans k1.size, k1.queue.trans k2.queue⟩
    · exact absurd hr (by simp)

/-- The statistics of a bank depend only on what the bank sees. -/
theorem bankStats_view {std : Std} {r s : Rank} {b t : Nat} (h : r.view b = s.view b) : bankStats std r t b = bankStats std s t b := by
  have hb1 : r.banks b = s.banks b := congrArg Prod.fst h
  have hm1 : r.mode = s.mode := congrArg Prod.snd h
  have hsr : r.sref = s.sref := congrArg ModeView.sref hm1
  have hds : r.deepSleepMode = s.deepSleepMode := congrArg ModeView.dsm hm1
  have hpa : r.powerDownAct = s.powerDownAct := congrArg ModeView.pda hm1
  have hpp : r.powerDownPre = s.powerDownPre := congrArg ModeView.pdp hm1
  simp only [bankStats, hb1, hsr, hds, hpa, hpp]

end DRAMPower
