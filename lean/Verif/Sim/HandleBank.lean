import Verif.Sim.Process

/-!
# Bank commands preserve the simulation relation
-/

namespace DRAMPower

open Spec

/-- Changes of a bank that the relation does not see. -/
theorem Rel.bankIrrel {std n T q r σ ent acc} (h : Rel std n T q r σ ent acc) {b : Nat} {x : Bank}
    (h1 : x.state = (r.banks b).state) (h2 : x.act = (r.banks b).act)
    (h3 : x.counter.act = (r.banks b).counter.act) (h4 : x.counter.pre = (r.banks b).counter.pre)
    (h5 : x.latestPre = (r.banks b).latestPre) (h6 : x.refreshEndTime = (r.banks b).refreshEndTime) :
    Rel std n T q (r.setBank b x) σ ent acc := by
  have hm := h.modeRel
  refine ⟨h.nb, h.npos, h.qge, h.qord, h.qbank, h.qin, h.qmode, ?_, ?_, h.ract, h.modeOK, h.endRef⟩
  · intro b' hb'
    have hbr := h.bank b' hb'
    by_cases hbb : b' = b
    · subst hbb
      rw [Rank.setBank_same]
      refine ⟨by rw [h1]; exact hbr.state, by rw [h2]; exact hbr.tr, by rw [h3]; exact hbr.acted, ?_,
        by rw [h6]; exact hbr.refEnd, by rw [h2]; exact hbr.since, hbr.opAct, hbr.refr,
        by rw [h2]; exact hbr.stop, by rw [h2]; exact hbr.stopPd⟩
      rw [h4, h5]; exact hbr.pre
    · rw [Rank.setBank_ne _ _ hbb]; exact hbr
  · exact ⟨hm.mem, hm.pda, hm.pdp, hm.sref, hm.dsm, hm.entT, hm.srefT, hm.pdaStart⟩

/-- Opening banks: every bank of `S` was idle before; afterwards it has status `s' b ≠ idle`. The
rank is not in a low-power mode. -/
theorem openBanks_rel {std n T q₀ q r r' σ ent acc} {S : Nat → Prop} [DecidablePred S] {s' : Nat → BankS}
    (h : Rel std n T q₀ r σ ent acc) (hm : σ.mode = .normal)
    (hS : ∃ b < n, S b) (hs' : ∀ b, S b → (s' b).status ≠ .idle)
    (hbr : ∀ b < n, S b → BankRel std .normal ent T (s' b) (r'.banks b) (acc.act b))
    (hbr' : ∀ b < n, ¬ S b → r'.banks b = r.banks b)
    (hnb : r'.nBanks = n) (hact : Tr r'.act T acc.ract true)
    (hmem : r'.memState = r.memState) (hpda : r'.powerDownAct = r.powerDownAct)
    (hpdp : r'.powerDownPre = r.powerDownPre) (hsr : r'.sref = r.sref) (hds : r'.deepSleepMode = r.deepSleepMode)
    (her : T < r'.endRefreshTime → ∃ b < n, (if S b then s' b else σ.bank b).status = .refreshing r'.endRefreshTime)
    (hqge : ∀ e ∈ q, T ≤ e.1) (hqord : q.Pairwise qord)
    (hqb : ∀ b < n, bq b q = expBQ b (if S b then s' b else σ.bank b).status)
    (hqin : ∀ e ∈ q, e.2.isMode = true ∨ ∃ b < n, e.2.forBank b = true) (hqm : mq q = mq q₀) :
    Rel std n T q r' { mode := .normal, bank := fun b => if S b then s' b else σ.bank b } ent acc := by
  have hmr := h.modeRel
  rw [hm] at hmr
  refine ⟨hnb, h.npos, hqge, hqord, hqb, hqin, ?_, ?_, ?_, ?_, trivial, her⟩
  · rw [hqm, h.qmode, hm]
  · intro b hb
    by_cases hsb : S b
    · simp only [hsb, if_true]; exact hbr b hb hsb
    · simp only [hsb, if_false]; rw [hbr' b hb hsb]
      have := h.bank b hb
      rwa [hm] at this
  · exact ⟨by rw [hmem]; exact hmr.mem, by rw [hpda]; exact hmr.pda, by rw [hpdp]; exact hmr.pdp,
      by rw [hsr]; exact hmr.sref, by rw [hds]; exact hmr.dsm, by simp, by simp, by simp⟩
  · obtain ⟨b, hb, hsb⟩ := hS
    refine hact.cast ?_
    have hex : ∃ b < n, (if S b then s' b else σ.bank b).status ≠ .idle :=
      ⟨b, hb, by simp only [hsb, if_true]; exact hs' b hsb⟩
    simp only [hex, decide_true, Bool.true_and]; rfl

theorem Rel.low_normal {std n T q r σ ent acc} (h : Rel std n T q r σ ent acc) (hm : σ.mode = .normal) :
    ∀ b < n, Tr (r.banks b).act T (acc.act b) (decide ((σ.bank b).status ≠ .idle)) := by
  intro b hb
  have := (h.bank b hb).tr
  rw [hm] at this
  simpa [lowNow] using this

theorem Rel.ract_normal {std n T q r σ ent acc} (h : Rel std n T q r σ ent acc) (hm : σ.mode = .normal) :
    Tr r.act T acc.ract (r.isActive T) := by
  refine h.ract.cast ?_
  rw [hm, Bool.eq_iff_iff, h.isActive_iff]
  simp [lowNow]

/-- The rank interval after the "start unless active" idiom. -/
theorem Rel.ract_start {std n T q r σ ent acc} (h : Rel std n T q r σ ent acc) (hm : σ.mode = .normal) :
    Tr (if r.isActive T then r.act else r.act.startAt T) T acc.ract true := by
  have := h.ract_normal hm
  cases ha : r.isActive T with
  | true => rw [ha] at this; simpa using this
  | false => rw [ha] at this; simpa using this.startAt

theorem isActive_congr {r r' : Rank} (hn : r'.nBanks = r.nBanks) (he : r'.endRefreshTime = r.endRefreshTime)
    (hs : ∀ b < r.nBanks, (r'.banks b).state = (r.banks b).state) (t : Nat) : r'.isActive t = r.isActive t := by
  unfold Rank.isActive Rank.countActiveBanks
  rw [hn, he]
  congr 3
  apply List.countP_congr
  intro b hb
  rw [hs b (List.mem_range.1 hb)]

theorem act_rel {std n T q r σ ent acc} (h : Rel std n T q r σ ent acc) (hm : σ.mode = .normal)
    {b : Nat} (hb : b < n) (hidle : (σ.bank b).status = .idle) :
    Rel std n T q (handleAct std r b T) (σ.onBanks (· == b) (·.activate T)) ent acc := by
  have hbr := h.bank b hb
  have hcl : Tr (r.banks b).act T (acc.act b) false := (h.low_normal hm b hb).cast (by simp [hidle])
  let x' : Bank := { r.banks b with counter := { (r.banks b).counter with act := (r.banks b).counter.act + 1 },
                                    state := .active, act := (r.banks b).act.startAt T }
  have hr' : (handleAct std r b T).nBanks = n ∧ (∀ b', (handleAct std r b T).banks b' = if b' = b then x' else r.banks b') ∧
      Tr (handleAct std r b T).act T acc.ract true ∧ (handleAct std r b T).memState = r.memState ∧
      (handleAct std r b T).powerDownAct = r.powerDownAct ∧ (handleAct std r b T).powerDownPre = r.powerDownPre ∧
      (handleAct std r b T).sref = r.sref ∧ (handleAct std r b T).deepSleepMode = r.deepSleepMode ∧
      (handleAct std r b T).endRefreshTime = r.endRefreshTime := by
    have shared : (Shared.handleAct r b T).nBanks = n ∧ (∀ b', (Shared.handleAct r b T).banks b' = if b' = b then x' else r.banks b') ∧
        Tr (Shared.handleAct r b T).act T acc.ract true ∧ (Shared.handleAct r b T).memState = r.memState ∧
        (Shared.handleAct r b T).powerDownAct = r.powerDownAct ∧ (Shared.handleAct r b T).powerDownPre = r.powerDownPre ∧
        (Shared.handleAct r b T).sref = r.sref ∧ (Shared.handleAct r b T).deepSleepMode = r.deepSleepMode ∧
        (Shared.handleAct r b T).endRefreshTime = r.endRefreshTime := by
      have hia : (r.setBank b { r.banks b with counter := { (r.banks b).counter with act := (r.banks b).counter.act + 1 },
                                               act := (r.banks b).act.startAt T }).isActive T = r.isActive T := by
        refine isActive_congr (by rfl) (by rfl) ?_ T
        intro b' _
        by_cases hbb : b' = b
        · subst hbb; rw [Rank.setBank_same]
        · rw [Rank.setBank_ne _ _ hbb]
      have hs := h.ract_start hm
      unfold Shared.handleAct
      simp only [hia]
      cases ha : r.isActive T with
      | true =>
        simp only [if_true]
        rw [ha] at hs
        refine ⟨h.nb, ?_, hs, rfl, rfl, rfl, rfl, rfl, rfl⟩
        intro b'
        by_cases hbb : b' = b <;> simp [Rank.setBank, upd, hbb, x']
      | false =>
        simp only [Bool.false_eq_true, if_false]
        rw [ha] at hs
        refine ⟨h.nb, ?_, hs, rfl, rfl, rfl, rfl, rfl, rfl⟩
        intro b'
        by_cases hbb : b' = b <;> simp [Rank.setBank, upd, hbb, x']
    cases std with
    | ddr4 =>
      refine ⟨h.nb, ?_, (h.ract_normal hm).startIfNotRunning, rfl, rfl, rfl, rfl, rfl, rfl⟩
      intro b'
      by_cases hbb : b' = b <;> simp [handleAct, DDR4.handleAct, Rank.setBank, upd, hbb, x']
    | ddr5 => exact shared
    | lpddr4 => exact shared
    | lpddr5 => exact shared
    | lpddr6 => exact shared
  obtain ⟨e1, e2, e3, e4, e5, e6, e7, e8, e9⟩ := hr'
  have hother : ∀ b' : Nat, b' ≠ b → (if b' = b then (σ.bank b').activate T else σ.bank b') = σ.bank b' := by
    intro b' hne; simp [hne]
  have hres := openBanks_rel (S := (· = b)) (s' := fun b' => (σ.bank b').activate T) (q := q) (r' := handleAct std r b T) h hm ⟨b, hb, rfl⟩
    (by intro b' _; simp [BankS.activate]) ?_ ?_ e1 e3 e4 e5 e6 e7 e8 ?_ h.qge h.qord ?_ h.qin rfl
  · refine hres.congr ?_ ?_
    · exact hm
    · intro b' _
      by_cases hbb : b' = b <;> simp [State.onBanks, hbb]
  · rintro b' hb' rfl
    rw [e2, if_pos rfl]
    refine ⟨by simp [x', BankS.activate], ?_, by simp [x', BankS.activate], ?_, hbr.refEnd, ?_, by simp [BankS.activate],
      by simp [BankS.activate], by simp [BankS.activate], by simp⟩
    · exact hcl.startAt.cast (by simp [BankS.activate, lowNow])
    · exact hbr.pre
    · intro _
      simp [sinceOK, BankS.activate, x', Interval.getStart_startAt]
  · intro b' hb' hne
    rw [e2, if_neg hne]
  · rw [e9]
    intro ht
    obtain ⟨b', hb', hx⟩ := h.endRef ht
    refine ⟨b', hb', ?_⟩
    have hne : b' ≠ b := by rintro rfl; rw [hidle] at hx; exact absurd hx (by simp)
    rw [if_neg hne]; exact hx
  · intro b' hb'
    rw [h.qbank b' hb']
    by_cases hbb : b' = b
    · subst hbb; rw [if_pos rfl, hidle]; rfl
    · rw [if_neg hbb]

/-- Precharging one bank. -/
theorem pre_rel {std n T q r σ ent acc} (h : Rel std n T q r σ ent acc) (hm : σ.mode = .normal)
    {b : Nat} (hb : b < n) (hp : (σ.bank b).prechargeable) :
    Rel std n T q (Shared.handlePre r b T) (σ.setBank b ((σ.bank b).precharge T)) ent acc := by
  have hbr := h.bank b hb
  rcases hp with hs | hs
  · have hstate : (r.banks b).state = .precharged := by rw [hbr.state, hs]; simp
    have h1 : Shared.handlePre r b T = r := by simp [Shared.handlePre, hstate]
    have h2 : (σ.bank b).precharge T = σ.bank b := by simp [BankS.precharge, hs]
    rw [h1, h2]
    refine h.congr rfl ?_
    intro b' _
    by_cases hbb : b' = b
    · subst hbb; simp
    · rw [State.setBank_ne _ _ hbb]
  · have hstate : (r.banks b).state = .active := by rw [hbr.state, hs]; simp
    have hset : (σ.bank b).precharge T = { σ.bank b with status := .idle, preAt := some T, pres := (σ.bank b).pres + 1 } := by
      simp [BankS.precharge, hs]
    have hexec : Shared.handlePre r b T = closeRank (r.setBank b
        { r.banks b with counter := { (r.banks b).counter with pre := (r.banks b).counter.pre + 1 },
                         act := (r.banks b).act.close T, latestPre := T, state := .precharged }) T := by
      simp only [Shared.handlePre, hstate]
      rfl
    rw [hexec, hset]
    have hop : (r.banks b).act.isOpen = true := by
      rw [(h.low_normal hm b hb).openEq, hs]; rfl
    refine closeBank_rel h hb rfl (by rw [hs]; simp) (by rw [hs]; simp) ?_ h.qge h.qord ?_ (fun _ _ _ => rfl)
      (fun _ h => h) rfl ?_
    · refine ⟨by simp, hbr.tr.close.cast (by simp), hbr.acted, by simp [hbr.pre.1], hbr.refEnd, ?_, by simp, by simp, ?_, by simp⟩
      · intro hac
        simp only at hac ⊢
        rw [Interval.getStart_close]
        refine sinceOK_idle (hbr.since hac) ?_ rfl rfl
        intro e x hm'; rw [hm] at hm'; exact absurd hm' (by simp)
      · intro _ _ _
        left
        simp only
        rw [Interval.getEnd_close_open hop]
    · rw [h.qbank b hb, hs]; rfl
    · simp only [ModeOK, State.setBank_mode, hm]

theorem preList_rel {std n T q ent acc} {L : List Nat} : ∀ {r : Rank} {σ : State}, Rel std n T q r σ ent acc →
    σ.mode = .normal → (∀ b ∈ L, b < n) → (∀ b ∈ L, (σ.bank b).prechargeable) →
    Rel std n T q (L.foldl (fun r b => Shared.handlePre r b T) r)
      (σ.onBanks (fun b => decide (b ∈ L)) (·.precharge T)) ent acc := by
  induction L with
  | nil => intro r σ h _ _ _; exact h.congr rfl (by intro b _; simp [State.onBanks])
  | cons b L ih =>
    intro r σ h hm hL hp
    have h1 := pre_rel h hm (hL b (by simp)) (hp b (by simp))
    have hidem : ∀ s : BankS, (s.precharge T).precharge T = s.precharge T := by
      intro s
      cases hs : s.status <;> simp [BankS.precharge, hs]
    have h2 := ih h1 hm (fun b' hb' => hL b' (by simp [hb'])) (by
      intro b' hb'
      by_cases hbb : b' = b
      · subst hbb
        rw [State.setBank_same]
        rcases hp b' (by simp) with hs | hs
        · left; simp [BankS.precharge, hs]
        · left; simp [BankS.precharge, hs]
      · rw [State.setBank_ne _ _ hbb]; exact hp b' (by simp [hb']))
    refine h2.congr rfl ?_
    intro b' _
    by_cases hbb : b' = b
    · subst hbb
      by_cases hin : b' ∈ L
      · simp [State.onBanks, hin, hidem]
      · simp [State.onBanks, hin]
    · by_cases hin : b' ∈ L
      · simp [State.onBanks, hin, State.setBank_ne _ _ hbb]
      · simp [State.onBanks, hin, hbb, State.setBank_ne _ _ hbb]

/-- Scheduling an auto-precharge. -/
theorem autoPre_rel {std n T q r σ ent acc} {ms : MemSpec} (h : Rel std n T q r σ ent acc) (hm : σ.mode = .normal)
    {b off : Nat} (hb : b < n) (hs : (σ.bank b).status = .opened none) :
    Rel std n T (rinsert (max ((r.banks b).act.getStart + ms.tRAS) (T + off), .pre b) q) r
      (σ.onBanks (· == b) (·.autoPrecharge ms.tRAS T off)) ent acc := by
  have hbr := h.bank b hb
  have hac := hbr.opAct _ hs
  have hst : (r.banks b).act.getStart = (σ.bank b).since := by
    have := hbr.since hac
    rw [hm] at this; exact this
  have hmr := h.modeRel
  have hmq : mq q = [] := by rw [h.qmode, hm]; rfl
  have hother : ∀ b', b' ≠ b → (σ.onBanks (· == b) (·.autoPrecharge ms.tRAS T off)).bank b' = σ.bank b' := by
    intro b' hne; simp [State.onBanks, hne]
  have hsame : (σ.onBanks (· == b) (·.autoPrecharge ms.tRAS T off)).bank b = (σ.bank b).autoPrecharge ms.tRAS T off := by
    simp [State.onBanks]
  have hidle : ∀ b', ((σ.onBanks (· == b) (·.autoPrecharge ms.tRAS T off)).bank b').status = .idle ↔ (σ.bank b').status = .idle := by
    intro b'
    by_cases hbb : b' = b
    · subst hbb; rw [hsame, hs]; simp [BankS.autoPrecharge]
    · rw [hother b' hbb]
  rw [hst]
  refine ⟨h.nb, h.npos, ?_, rinsert_qord_bank hmq h.qord, ?_, ?_, ?_, ?_, hmr, ?_, ?_, ?_⟩
  · intro e he
    rcases mem_rinsert.1 he with rfl | he
    · simp only; omega
    · exact h.qge e he
  · intro b' hb'
    by_cases hbb : b' = b
    · subst hbb
      rw [hsame]
      show List.filter _ _ = _
      rw [filter_rinsert_nil (by simp [Imp.forBank])]
      · rfl
      · have := h.qbank b' hb'; rw [hs] at this; exact this
    · rw [hother b' hbb, ← h.qbank b' hb']
      show List.filter _ _ = List.filter _ _
      exact filter_rinsert_neg (by simp [Imp.forBank, Ne.symm hbb]) q
  · intro e he
    rcases mem_rinsert.1 he with rfl | he
    · exact .inr ⟨b, hb, by simp [Imp.forBank]⟩
    · exact h.qin e he
  · rw [show mq (rinsert _ q) = mq q from filter_rinsert_neg (by rfl) q]; exact h.qmode
  · intro b' hb'
    by_cases hbb : b' = b
    · subst hbb
      rw [hsame]
      show BankRel std σ.mode ent T _ _ _
      refine ⟨?_, ?_, hbr.acted, hbr.pre, hbr.refEnd, ?_, fun _ _ => hac, by simp [BankS.autoPrecharge],
        by simp [BankS.autoPrecharge], ?_⟩
      · rw [hbr.state, hs]; simp [BankS.autoPrecharge]
      · exact hbr.tr.cast (by rw [hs]; simp [BankS.autoPrecharge])
      · intro _; rw [hm]; exact hst
      · intro _ e y hmy; rw [hm] at hmy; exact absurd hmy (by simp)
    · rw [hother b' hbb]; exact h.bank b' hb'
  · refine h.ract.cast ?_
    congr 1
    simp only [hidle, ne_eq]
  · simp only [ModeOK, State.onBanks, hm]
  · intro ht
    obtain ⟨b', hb', hx⟩ := h.endRef ht
    have hne : b' ≠ b := by rintro rfl; rw [hs] at hx; exact absurd hx (by simp)
    exact ⟨b', hb', by rw [hother b' hne]; exact hx⟩

end DRAMPower
