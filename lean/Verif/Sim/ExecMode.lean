import Verif.Sim.Exec

/-!
# Executing implicit mode changes preserves the simulation relation
-/

namespace DRAMPower

open Spec

theorem bq_mode {i : Imp} (hi : i.isMode = true) (t b : Nat) (q : List (Nat × Imp)) :
    bq b ((t, i) :: q) = bq b q := bq_cons_ne (Imp.forBank_of_isMode hi b)

/-- What the head of the queue says about the mode. -/
theorem head_mode {std n T t i q r σ ent acc} (h : Rel std n T ((t, i) :: q) r σ ent acc) (hi : i.isMode = true) :
    (t, i) :: mq q = expMQ σ.mode ent := by
  have := h.qmode
  rwa [mq_cons_eq hi] at this

theorem head_enter {m : Mode} {ent : Bool} {a : Bool} {t : Nat} {l : List (Nat × Imp)}
    (h : (t, enterImp a) :: l = expMQ m ent) :
    ent = false ∧ ∃ x, m = .pd a t x ∧ l = expMQ m true := by
  cases m with
  | normal | dsm => simp [expMQ] at h
  | sref s => cases ent <;> cases a <;> simp [expMQ, enterImp] at h
  | pd a' e x =>
    cases ent with
    | true => cases x <;> cases a <;> cases a' <;> simp [expMQ, enterImp, exitImp] at h
    | false =>
      cases x <;> cases a <;> cases a' <;> simp_all [expMQ, enterImp, exitImp]

theorem head_exit {m : Mode} {ent : Bool} {a : Bool} {t : Nat} {l : List (Nat × Imp)}
    (h : (t, exitImp a) :: l = expMQ m ent) :
    ent = true ∧ l = [] ∧ ∃ e, m = .pd a e (some t) := by
  cases m with
  | normal | dsm => simp [expMQ] at h
  | sref s => cases ent <;> cases a <;> simp [expMQ, exitImp] at h
  | pd a' e x =>
    cases ent with
    | false => cases x <;> cases a <;> cases a' <;> simp [expMQ, enterImp, exitImp] at h
    | true =>
      cases x <;> cases a <;> cases a' <;> simp_all [expMQ, exitImp]

theorem head_sref {m : Mode} {ent : Bool} {t : Nat} {l : List (Nat × Imp)}
    (h : (t, Imp.srefEnter) :: l = expMQ m ent) : ent = false ∧ m = .sref t ∧ l = [] := by
  cases m with
  | normal | dsm => simp [expMQ] at h
  | sref s => cases ent <;> simp_all [expMQ]
  | pd a' e x =>
    cases ent <;> cases x <;> cases a' <;> simp [expMQ, enterImp, exitImp] at h

theorem exec_srefEnter {std n T q r σ ent acc} (h : Rel std n T ((T, .srefEnter) :: q) r σ ent acc) :
    Rel std n T q (exec std r T .srefEnter) σ true acc := by
  show Rel std n T q (execSrefEnter r T) σ true acc
  obtain ⟨hent, hm, hmq⟩ := head_sref (head_mode h rfl)
  subst hent
  have hok := h.modeOK
  simp only [ModeOK, hm] at hok
  have hidle : ∀ b < n, (σ.bank b).status = .idle := by
    intro b hb
    have h1 := hok.1 b hb
    rw [open_after_mode h rfl hb] at h1
    simpa using h1
  obtain ⟨htg, hto, hti⟩ := h.tail_ge
  have hmr := h.modeRel
  rw [hm] at hmr
  refine ⟨h.nb, h.npos, htg, hto, ?_, hti, ?_, ?_, ?_, ?_, ?_, h.endRef⟩
  · intro b hb; rw [← h.qbank b hb, bq_mode rfl]
  · rw [hm]; simp [expMQ, hmq]
  · intro b hb
    have hbr := h.bank b hb
    have hi := hidle b hb
    refine ⟨hbr.state, ?_, hbr.acted, hbr.pre, hbr.refEnd, hbr.since, hbr.opAct, hbr.refr, hbr.stop, ?_⟩
    · exact hbr.tr.cast (by simp [hi])
    · intro _ e y hmy; rw [hm] at hmy; exact absurd hmy (by simp)
  · rw [hm]
    have hsr := hmr.sref
    refine ⟨rfl, hmr.pda.cast rfl, hmr.pdp.cast rfl, (hsr.cast (o' := false) rfl).startAt.cast rfl,
      hmr.dsm.cast rfl, by simp, ?_, by simp⟩
    · intro _ s hs; injection hs with hs; omega
  · have hne : ¬ ∃ b < n, (σ.bank b).status ≠ .idle := by
      rintro ⟨b, hb, hx⟩; exact hx (hidle b hb)
    have := h.ract
    simp only [hne, decide_false, Bool.false_and] at this ⊢
    exact this
  · simp only [ModeOK, hm]
    exact ⟨hok.1, fun _ => hidle⟩

theorem Rank.mapBanks_lt (r : Rank) (f : Bank → Bank) {i : Nat} (h : i < r.nBanks) :
    (r.mapBanks f).banks i = f (r.banks i) := by
  simp [Rank.mapBanks, h]

theorem exec_pdaEnter {std n T q r σ ent acc} (h : Rel std n T ((T, .pdaEnter) :: q) r σ ent acc) :
    Rel std n T q (exec std r T .pdaEnter) σ true acc := by
  obtain ⟨hent, x, hm, hmq⟩ := head_enter (a := true) (head_mode h rfl)
  subst hent
  have hok := h.modeOK
  simp only [ModeOK, hm] at hok
  obtain ⟨h1, h2, h3, h4, _, _⟩ := hok
  obtain ⟨htg, hto, hti⟩ := h.tail_ge
  have hmr := h.modeRel
  rw [hm] at hmr
  have hexec : exec std r T .pdaEnter = DDR4.execPdaEnter r T := by cases std <;> rfl
  rw [hexec]
  have hlow : lowNow σ.mode false = none := by rw [hm]; rfl
  refine ⟨h.nb, h.npos, htg, hto, ?_, hti, hmq, ?_, ?_, ?_, ?_, h.endRef⟩
  · intro b hb; rw [← h.qbank b hb, bq_mode rfl]
  · intro b hb
    have hbr := h.bank b hb
    have hbn : b < r.nBanks := by rw [h.nb]; exact hb
    have hbe : (DDR4.execPdaEnter r T).banks b = { r.banks b with act := (r.banks b).act.close T } := by
      simp [DDR4.execPdaEnter, Rank.mapBanks, hbn]
    rw [hbe]
    refine ⟨hbr.state, ?_, hbr.acted, hbr.pre, hbr.refEnd, ?_, hbr.opAct, hbr.refr, ?_, ?_⟩
    · have := hbr.tr.close
      simpa [hm, lowNow] using this
    · intro hac; simp only; rw [Interval.getStart_close]; exact hbr.since hac
    · intro hstd hi hac
      simp only
      have hop := hbr.tr.openEq
      rw [hi] at hop
      rw [Interval.close_closed (by simpa using hop)]
      exact hbr.stop hstd hi hac
    · intro hstd e y hmy _ hni
      rw [hm] at hmy; injection hmy with _ he _
      have hop := hbr.tr.openEq
      rw [hlow] at hop
      simp only
      rw [Interval.getEnd_close_open (by simpa [hni] using hop)]; exact he
  · rw [hm]
    have hp := hmr.pda
    refine ⟨rfl, (hp.cast (o' := false) rfl).startAt.cast rfl, hmr.pdp.cast rfl, hmr.sref.cast rfl,
      hmr.dsm.cast rfl, ?_, by simp, ?_⟩
    · intro _ a e x hx; injection hx with _ hx _; omega
    · intro _ e x hx
      simp only [Mode.pd.injEq, true_and] at hx
      exact hx.1
  · have := h.ract.close
    have hl : decide (lowNow σ.mode true = none) = false := by rw [hm]; rfl
    rw [hl, Bool.and_false]; exact this
  · simp only [ModeOK, hm]
    refine ⟨h1, h2, h3, h4, ?_, ?_⟩
    · intro _ b hb u hu
      have a1 := h1 b hb u hu
      have a2 := after_mode h rfl (h.mem_refreshing hb hu) rfl
      simp only at a2; omega
    · intro _ hstd b hb p hp
      have a1 := (h2 hstd b hb).1 p hp
      have a2 := h.qge _ (h.mem_opened hb hp)
      simp only at a2; omega

theorem exec_pdpEnter {std n T q r σ ent acc} (h : Rel std n T ((T, .pdpEnter) :: q) r σ ent acc) :
    Rel std n T q (exec std r T .pdpEnter) σ true acc := by
  obtain ⟨hent, x, hm, hmq⟩ := head_enter (a := false) (head_mode h rfl)
  subst hent
  have hok := h.modeOK
  simp only [ModeOK, hm] at hok
  obtain ⟨htg, hto, hti⟩ := h.tail_ge
  have hmr := h.modeRel
  rw [hm] at hmr
  have hidle : ∀ b < n, (σ.bank b).status = .idle := by
    intro b hb
    have h1 := hok.1 b hb
    rw [open_after_mode h rfl hb] at h1
    simpa using h1
  have hract : Tr r.act T acc.ract false := by
    have hne : ¬ ∃ b < n, (σ.bank b).status ≠ .idle := by
      rintro ⟨b, hb, hx⟩; exact hx (hidle b hb)
    have := h.ract
    simpa only [hne, decide_false, Bool.false_and] using this
  have hclosed : ∀ b < n, (r.banks b).act.isOpen = false := by
    intro b hb
    have hop := (h.bank b hb).tr.openEq
    rw [hidle b hb] at hop; simpa using hop
  have hexec : (exec std r T .pdpEnter).nBanks = n ∧
      (∀ b < n, (exec std r T .pdpEnter).banks b = r.banks b) ∧
      (exec std r T .pdpEnter).act = r.act ∧
      (exec std r T .pdpEnter).memState = .pdnPre ∧
      (exec std r T .pdpEnter).powerDownPre = r.powerDownPre.startAt T ∧
      (exec std r T .pdpEnter).powerDownAct = r.powerDownAct ∧
      (exec std r T .pdpEnter).sref = r.sref ∧
      (exec std r T .pdpEnter).deepSleepMode = r.deepSleepMode ∧
      (exec std r T .pdpEnter).endRefreshTime = r.endRefreshTime := by
    cases std <;> try exact ⟨h.nb, fun _ _ => rfl, rfl, rfl, rfl, rfl, rfl, rfl, rfl⟩
    refine ⟨h.nb, ?_, ?_, rfl, rfl, rfl, rfl, rfl, rfl⟩
    · intro b hb
      have hbn : b < r.nBanks := by rw [h.nb]; exact hb
      simp [exec, DDR4.execPdpEnter, Rank.mapBanks, hbn, Interval.close_closed (hclosed b hb)]
    · exact Interval.close_closed hract.openEq T
  obtain ⟨e1, e2, e3, e4, e5, e6, e7, e8, e9⟩ := hexec
  refine ⟨e1, h.npos, htg, hto, ?_, hti, hmq, ?_, ?_, ?_, ?_, by rw [e9]; exact h.endRef⟩
  · intro b hb; rw [← h.qbank b hb, bq_mode rfl]
  · intro b hb
    have hbr := h.bank b hb
    have hi := hidle b hb
    rw [e2 b hb]
    refine ⟨hbr.state, ?_, hbr.acted, hbr.pre, hbr.refEnd, hbr.since, hbr.opAct, hbr.refr, hbr.stop, ?_⟩
    · have := hbr.tr; simpa [hi] using this
    · intro _ e y hmy; rw [hm] at hmy; exact absurd hmy (by simp)
  · rw [hm]
    have hp := hmr.pdp
    refine ⟨by rw [e4]; rfl, ?_, ?_, ?_, ?_, ?_, by simp, by simp⟩
    · rw [e6]; simpa [lowNow] using hmr.pda
    · simp only [lowNow] at hp
      rw [e5]; simpa [lowNow] using Tr.startAt (by simpa using hp)
    · rw [e7]; simpa [lowNow] using hmr.sref
    · rw [e8]; simpa [lowNow] using hmr.dsm
    · intro _ a e x hx; injection hx with _ hx _; omega
  · have hl : decide (lowNow σ.mode true = none) = false := by rw [hm]; rfl
    rw [hl, Bool.and_false, e3]; exact hract
  · simp only [ModeOK, hm]
    exact ⟨hok.1, hok.2.1, fun _ => hidle⟩

/-- Leaving active power-down, from the facts all variants share. -/
theorem pdaExit_rel {std n T q r r' σ acc} {e : Nat} (h : Rel std n T ((T, .pdaExit) :: q) r σ true acc)
    (hm : σ.mode = .pd true e (some T)) (hmq : mq q = [])
    (hnb : r'.nBanks = r.nBanks)
    (hbk : ∀ b < n, r'.banks b = if (σ.bank b).status ≠ .idle then { r.banks b with act := (r.banks b).act.startAt T } else r.banks b)
    (hact : r'.act = if ∃ b < n, (σ.bank b).status ≠ .idle then r.act.startAt T else r.act)
    (hmem : r'.memState = .notInPD) (hpda : r'.powerDownAct = r.powerDownAct.close T)
    (hpdp : r'.powerDownPre = r.powerDownPre) (hsr : r'.sref = r.sref) (hds : r'.deepSleepMode = r.deepSleepMode)
    (her : r'.endRefreshTime = r.endRefreshTime) :
    Rel std n T q r' { σ with mode := .normal } false acc := by
  have hok := h.modeOK
  simp only [ModeOK, hm] at hok
  obtain ⟨h1, h2, h3, h4, h5, h6⟩ := hok
  obtain ⟨htg, hto, hti⟩ := h.tail_ge
  have hmr := h.modeRel
  rw [hm] at hmr
  have hlow : lowNow σ.mode true = some .pda := by rw [hm]; rfl
  have hctr : ∀ b < n, Tr (r.banks b).act T (acc.act b) false := by
    intro b hb
    have := (h.bank b hb).tr
    rw [hlow] at this; simpa using this
  have hrtr : Tr r.act T acc.ract false := by
    have := h.ract
    rw [hlow] at this; simpa using this
  refine ⟨by rw [hnb]; exact h.nb, h.npos, htg, hto, ?_, hti, by simp [hmq, expMQ], ?_, ?_, ?_, ?_, ?_⟩
  · intro b hb; show _ = expBQ b (σ.bank b).status; rw [← h.qbank b hb, bq_mode rfl]
  · intro b hb
    have hbr := h.bank b hb
    rw [hbk b hb]
    show BankRel std .normal false T (σ.bank b) _ _
    by_cases hi : (σ.bank b).status = .idle
    · simp only [hi, ne_eq, not_true, if_false]
      refine ⟨hbr.state, ?_, hbr.acted, hbr.pre, hbr.refEnd, ?_, hbr.opAct, hbr.refr, hbr.stop, by simp⟩
      · simpa [hi] using hctr b hb
      · intro hac
        have := hbr.since hac
        rw [hm] at this
        simp only [sinceOK, BankS.isOpen, hi, Bool.false_eq_true, if_false] at this
        exact this
    · simp only [hi, ne_eq, not_false_iff, if_true]
      refine ⟨hbr.state, ?_, hbr.acted, hbr.pre, hbr.refEnd, ?_, hbr.opAct, hbr.refr, ?_, by simp⟩
      · simpa [hi, lowNow] using (hctr b hb).startAt
      · intro hac
        have := hbr.since hac
        rw [hm] at this
        simp only [sinceOK, open_after_mode h rfl hb] at this
        simp only [ne_eq, hi, not_false_iff, decide_true, if_true] at this
        simp only [sinceOK, Interval.getStart_startAt]
        exact this.symm
      · intro _ hc; exact absurd hc hi
  · refine ⟨by rw [hmem]; rfl, ?_, ?_, ?_, ?_, by simp, by simp, by simp⟩
    · rw [hpda]; simpa [lowNow] using hmr.pda.close
    · rw [hpdp]; simpa [lowNow] using hmr.pdp
    · rw [hsr]; simpa [lowNow] using hmr.sref
    · rw [hds]; simpa [lowNow] using hmr.dsm
  · rw [hact]
    by_cases hex : ∃ b < n, (σ.bank b).status ≠ .idle
    · simp only [hex, if_true, decide_true, Bool.true_and]
      exact hrtr.startAt
    · simp only [hex, if_false, decide_false, Bool.false_and]
      exact hrtr
  · trivial
  · rw [her]; exact h.endRef

theorem restarts_iff {std n T q r σ acc} {e : Nat} (hstd : std ≠ .ddr4)
    (h : Rel std n T ((T, .pdaExit) :: q) r σ true acc)
    (hm : σ.mode = .pd true e (some T)) {b : Nat} (hb : b < n) :
    ((r.banks b).counter.act != 0 && (r.banks b).act.getEnd == r.powerDownAct.getStart) =
      decide ((σ.bank b).status ≠ .idle) := by
  have hok := h.modeOK
  simp only [ModeOK, hm] at hok
  obtain ⟨h1, h2, h3, h4, h5, h6⟩ := hok
  have hbr := h.bank b hb
  have hst : r.powerDownAct.getStart = e := h.modeRel.pdaStart rfl e _ hm
  rw [hst]
  by_cases hi : (σ.bank b).status = .idle
  · simp only [hi, ne_eq, not_true, decide_false]
    cases hac : (σ.bank b).acted with
    | false => rw [hbr.acted.2 hac]; simp
    | true =>
      obtain ⟨g1, g2⟩ := (h2 hstd b hb).2 hac
      have hne : (r.banks b).act.getEnd ≠ e := by
        rcases hbr.stop hstd hi hac with h' | h'
        · exact Nat.ne_of_lt (g2 _ h')
        · rw [h']; exact g1
      simp [hne]
  · simp only [ne_eq, hi, not_false_iff, decide_true]
    have hac : (σ.bank b).acted = true := by
      cases hs : (σ.bank b).status with
      | idle => exact absurd hs hi
      | opened o => exact hbr.opAct o hs
      | refreshing u => exact absurd hs (h5 trivial b hb u)
    have hca : (r.banks b).counter.act ≠ 0 := by
      intro hc; rw [hbr.acted.1 hc] at hac; exact absurd hac (by simp)
    have := hbr.stopPd hstd e _ hm rfl hi
    simp [hca, this]

theorem exec_pdaExit {std n T q r σ ent acc} (h : Rel std n T ((T, .pdaExit) :: q) r σ ent acc) :
    Rel std n T q (exec std r T .pdaExit) { σ with mode := .normal } false acc := by
  obtain ⟨hent, hmq, e, hm⟩ := head_exit (a := true) (head_mode h rfl)
  subst hent
  have shared : std ≠ .ddr4 → std ≠ .lpddr6 → Rel std n T q (Shared.execPdaExit r T) { σ with mode := .normal } false acc := by
    intro hs4 hs6
    have key : ∀ b < n, Shared.restarts { r with memState := .notInPD, powerDownAct := r.powerDownAct.close T } (r.banks b) =
        decide ((σ.bank b).status ≠ .idle) := by
      intro b hb
      have := restarts_iff hs4 h hm hb
      simp only [Shared.restarts, Interval.getStart_close]
      exact this
    have hany : ((List.range r.nBanks).any fun i => Shared.restarts { r with memState := .notInPD, powerDownAct := r.powerDownAct.close T } (r.banks i)) = true ↔
        ∃ b < n, (σ.bank b).status ≠ .idle := by
      rw [List.any_eq_true]
      constructor
      · rintro ⟨b, hb, hx⟩
        have hb' : b < n := by rw [List.mem_range, h.nb] at hb; exact hb
        rw [key b hb'] at hx
        exact ⟨b, hb', of_decide_eq_true hx⟩
      · rintro ⟨b, hb, hx⟩
        exact ⟨b, by rw [List.mem_range, h.nb]; exact hb, by rw [key b hb]; exact decide_eq_true hx⟩
    refine pdaExit_rel h hm hmq ?_ ?_ ?_ ?_ ?_ ?_ ?_ ?_ ?_
    · unfold Shared.execPdaExit; simp only; split <;> rfl
    · intro b hb
      have hbn : b < r.nBanks := by rw [h.nb]; exact hb
      have hk := key b hb
      have : (Shared.execPdaExit r T).banks b =
          if Shared.restarts { r with memState := .notInPD, powerDownAct := r.powerDownAct.close T } (r.banks b) then { r.banks b with act := (r.banks b).act.startAt T } else r.banks b := by
        unfold Shared.execPdaExit; simp only
        split <;> simp [Rank.mapBanks, hbn]
      rw [this, hk]
      by_cases hi : (σ.bank b).status = .idle <;> simp [hi]
    · unfold Shared.execPdaExit; simp only
      by_cases hex : ∃ b < n, (σ.bank b).status ≠ .idle
      · rw [if_pos (hany.2 hex), if_pos hex]; rfl
      · rw [if_neg (fun hc => hex (hany.1 hc)), if_neg hex]; rfl
    all_goals (unfold Shared.execPdaExit; simp only; split <;> rfl)
  cases std with
  | ddr5 => exact shared (by simp) (by simp)
  | lpddr4 => exact shared (by simp) (by simp)
  | lpddr5 => exact shared (by simp) (by simp)
  | lpddr6 =>
    have hok := h.modeOK
    simp only [ModeOK, hm] at hok
    obtain ⟨b0, hb0, hs0⟩ := hok.2.2.1 trivial
    have hex : ∃ b < n, (σ.bank b).status ≠ .idle := ⟨b0, hb0, by rw [hs0]; simp⟩
    refine pdaExit_rel h hm hmq rfl ?_ ?_ rfl rfl rfl rfl rfl rfl
    · intro b hb
      have hbn : b < r.nBanks := by rw [h.nb]; exact hb
      have hk := restarts_iff (by simp) h hm hb
      show (Rank.mapBanks _ _).banks b = _
      rw [Rank.mapBanks_lt _ _ (by exact hbn)]
      simp only [Shared.restarts, Interval.getStart_close]
      rw [hk]
      by_cases hi : (σ.bank b).status = .idle <;> simp [hi]
    · rw [if_pos hex]; rfl
  | ddr4 =>
    have hok := h.modeOK
    simp only [ModeOK, hm] at hok
    have hrest : ∀ b < n, (r.banks b).state = .active ↔ (σ.bank b).status ≠ .idle := fun b hb => h.state_iff hb
    let r1 : Rank := ({ r with memState := .notInPD, powerDownAct := r.powerDownAct.close T } : Rank).mapBanks fun bank =>
      if bank.state = .active then { bank with act := bank.act.startAt T } else bank
    have hr1 : exec .ddr4 r T .pdaExit = if r1.isActive T then { r1 with act := r1.act.startAt T } else r1 := rfl
    have hb1 : ∀ b < n, r1.banks b = if (σ.bank b).status ≠ .idle then { r.banks b with act := (r.banks b).act.startAt T } else r.banks b := by
      intro b hb
      have hbn : b < r.nBanks := by rw [h.nb]; exact hb
      show (Rank.mapBanks _ _).banks b = _
      rw [Rank.mapBanks_lt _ _ (by exact hbn)]
      by_cases hi : (σ.bank b).status = .idle
      · have : (r.banks b).state ≠ .active := fun hc => (hrest b hb).1 hc hi
        simp [hi, this]
      · have := (hrest b hb).2 hi
        simp [hi, this]
    have hs1 : ∀ b < n, (r1.banks b).state = .active ↔ (σ.bank b).status ≠ .idle := by
      intro b hb
      rw [← hrest b hb, hb1 b hb]; split <;> rfl
    have hn1 : r1.nBanks = n := h.nb
    have hact : r1.isActive T = true ↔ ∃ b < n, (σ.bank b).status ≠ .idle := by
      rw [isActive_iff]
      · rw [hn1]
        constructor <;> rintro ⟨b, hb, hx⟩
        · exact ⟨b, hb, (hs1 b hb).1 hx⟩
        · exact ⟨b, hb, (hs1 b hb).2 hx⟩
      · intro ht
        obtain ⟨b, hb, hx⟩ := h.endRef ht
        rw [hn1]
        exact ⟨b, hb, (hs1 b hb).2 (by rw [hx]; simp)⟩
    rw [hr1]
    refine pdaExit_rel h hm hmq ?_ ?_ ?_ ?_ ?_ ?_ ?_ ?_ ?_
    · split <;> rfl
    · intro b hb; rw [← hb1 b hb]; split <;> rfl
    · by_cases hex : ∃ b < n, (σ.bank b).status ≠ .idle
      · rw [if_pos (hact.2 hex), if_pos hex]; rfl
      · rw [if_neg (fun hc => hex (hact.1 hc)), if_neg hex]; rfl
    all_goals (split <;> rfl)

theorem exec_pdpExit {std n T q r σ ent acc} (h : Rel std n T ((T, .pdpExit) :: q) r σ ent acc) :
    Rel std n T q (exec std r T .pdpExit) { σ with mode := .normal } false acc := by
  obtain ⟨hent, hmq, e, hm⟩ := head_exit (a := false) (head_mode h rfl)
  subst hent
  have hok := h.modeOK
  simp only [ModeOK, hm] at hok
  obtain ⟨h1, h2, h3⟩ := hok
  have hidle := h3 trivial
  obtain ⟨htg, hto, hti⟩ := h.tail_ge
  have hmr := h.modeRel
  rw [hm] at hmr
  have hexec : (exec std r T .pdpExit).nBanks = n ∧
      (∀ b < n, (exec std r T .pdpExit).banks b = r.banks b) ∧
      (exec std r T .pdpExit).act = r.act ∧
      (exec std r T .pdpExit).memState = .notInPD ∧
      (exec std r T .pdpExit).powerDownPre = r.powerDownPre.close T ∧
      (exec std r T .pdpExit).powerDownAct = r.powerDownAct ∧
      (exec std r T .pdpExit).sref = r.sref ∧
      (exec std r T .pdpExit).deepSleepMode = r.deepSleepMode ∧
      (exec std r T .pdpExit).endRefreshTime = r.endRefreshTime := by
    cases std <;> try exact ⟨h.nb, fun _ _ => rfl, rfl, rfl, rfl, rfl, rfl, rfl, rfl⟩
    refine ⟨h.nb, ?_, rfl, rfl, rfl, rfl, rfl, rfl, rfl⟩
    intro b hb
    have hbn : b < r.nBanks := by rw [h.nb]; exact hb
    have hst : (r.banks b).state ≠ .active := fun hc => (h.state_iff hb).1 hc (hidle b hb)
    show (Rank.mapBanks _ _).banks b = _
    rw [Rank.mapBanks_lt _ _ (by exact hbn), if_neg hst]
  obtain ⟨e1, e2, e3, e4, e5, e6, e7, e8, e9⟩ := hexec
  refine ⟨e1, h.npos, htg, hto, ?_, hti, by simp [hmq, expMQ], ?_, ?_, ?_, trivial, by rw [e9]; exact h.endRef⟩
  · intro b hb; show _ = expBQ b (σ.bank b).status; rw [← h.qbank b hb, bq_mode rfl]
  · intro b hb
    have hbr := h.bank b hb
    have hi := hidle b hb
    rw [e2 b hb]
    show BankRel std .normal false T (σ.bank b) _ _
    refine ⟨hbr.state, ?_, hbr.acted, hbr.pre, hbr.refEnd, ?_, hbr.opAct, hbr.refr, hbr.stop, by simp⟩
    · have := hbr.tr; simpa [hi] using this
    · intro hac
      have := hbr.since hac
      rw [hm] at this; exact this
  · refine ⟨by rw [e4]; rfl, ?_, ?_, ?_, ?_, by simp, by simp, by simp⟩
    · rw [e6]; simpa [lowNow] using hmr.pda
    · rw [e5]; simpa [lowNow] using hmr.pdp.close
    · rw [e7]; simpa [lowNow] using hmr.sref
    · rw [e8]; simpa [lowNow] using hmr.dsm
  · have hne : ¬ ∃ b < n, (σ.bank b).status ≠ .idle := by
      rintro ⟨b, hb, hx⟩; exact hx (hidle b hb)
    have := h.ract
    rw [e3]
    simp only [hne, decide_false, Bool.false_and] at this ⊢
    exact this

/-! ## All events -/

theorem settle_setBank (σ : State) (b : Nat) {T t : Nat} (h : T ≤ t) :
    (σ.setBank b ((σ.bank b).settle T)).settle t = σ.settle t := by
  unfold State.settle State.setBank upd
  simp only [State.mk.injEq, true_and]
  funext b'
  split
  · rename_i hb; subst hb; exact BankS.settle_settle h _
  · rfl

theorem settle_exit {σ : State} {a : Bool} {e T t : Nat} (hm : σ.mode = .pd a e (some T)) (h : T ≤ t) :
    ({ σ with mode := .normal } : State).settle t = σ.settle t := by
  unfold State.settle
  simp only [hm, Mode.settle, h, if_true]

/-- Executing the next implicit command. -/
theorem exec_rel {std n T i q r σ ent acc} (h : Rel std n T ((T, i) :: q) r σ ent acc) :
    ∃ σ' ent', Rel std n T q (exec std r T i) σ' ent' acc ∧ ∀ t, T ≤ t → σ'.settle t = σ.settle t := by
  cases i with
  | pre b => exact ⟨_, _, exec_pre h, fun t ht => settle_setBank σ b ht⟩
  | refEnd b => exact ⟨_, _, exec_refEnd h, fun t ht => settle_setBank σ b ht⟩
  | srefEnter => exact ⟨_, _, exec_srefEnter h, fun _ _ => rfl⟩
  | pdaEnter => exact ⟨_, _, exec_pdaEnter h, fun _ _ => rfl⟩
  | pdpEnter => exact ⟨_, _, exec_pdpEnter h, fun _ _ => rfl⟩
  | pdaExit =>
    obtain ⟨_, _, e, hm⟩ := head_exit (a := true) (head_mode h rfl)
    exact ⟨_, _, exec_pdaExit h, fun t ht => settle_exit hm ht⟩
  | pdpExit =>
    obtain ⟨_, _, e, hm⟩ := head_exit (a := false) (head_mode h rfl)
    exact ⟨_, _, exec_pdpExit h, fun t ht => settle_exit hm ht⟩

end DRAMPower
