import Verif.Lemmas.Moved

/-! # The same trace at a later time: commands and traces -/

namespace DRAMPower

variable {P : Prop} {d : Nat} {r s : Rank}

/-! ## Implicit commands -/

theorem restarts_moved (h : RankMoved P d r s) (hP : P) (b : Nat) :
    Shared.restarts s (s.banks b) = Shared.restarts r (r.banks b) := by
  unfold Shared.restarts
  rw [(h.bank b).counter, (h.bank b).act, h.pda]
  have h1 := (h.bank b).stop hP
  have h2 := h.pdaStart hP
  generalize (r.banks b).act = i at h1
  generalize r.powerDownAct = j at h2
  cases i with | mk c st en => cases j with | mk c' st' en' =>
    simp only at h1 h2
    cases en <;> cases st' <;> simp only [Interval.shift, Interval.getEnd, Interval.getStart, Option.map_some, Option.map_none, Option.getD_some, Option.getD_none]
    · rename_i x
      have : x ≠ 0 := fun e => h2 (by rw [e])
      have e1 : ((0 : Nat) == x + d) = false := by simp; omega
      have e2 : ((0 : Nat) == x) = false := by simp; omega
      rw [e1, e2]
    · rename_i x
      have : x ≠ 0 := fun e => h1 (by rw [e])
      have e1 : (x + d == (0 : Nat)) = false := by simp; omega
      have e2 : (x == (0 : Nat)) = false := by simp; omega
      rw [e1, e2]
    · rename_i x y
      have : (x + d == y + d) = (x == y) := by
        rw [Bool.eq_iff_iff]; simp
      rw [this]

theorem RankMoved.pdaClose (h : RankMoved P d r s) (m : MemState) (t : Nat) :
    RankMoved P d { r with memState := m, powerDownAct := r.powerDownAct.close t } { s with memState := m, powerDownAct := s.powerDownAct.close (t + d) } := by
  refine ⟨rfl, h.pre, h.act, h.ref, h.sref, by rw [Interval.close_shift, h.pda], h.pdp, h.dsm, h.srefC, h.dsmC, h.endRef, h.nb, h.bank, fun hp => ?_⟩
  have := h.pdaStart hp
  simp only [Interval.close]
  split <;> exact this

theorem RankMoved.pdaStartAt (h : RankMoved P d r s) (m : MemState) {t : Nat} (ht : Pos P t) :
    RankMoved P d { r with memState := m, powerDownAct := r.powerDownAct.startAt t } { s with memState := m, powerDownAct := s.powerDownAct.startAt (t + d) } := by
  refine ⟨rfl, h.pre, h.act, h.ref, h.sref, by rw [Interval.startAt_shift, h.pda], h.pdp, h.dsm, h.srefC, h.dsmC, h.endRef, h.nb, h.bank, fun hp => ?_⟩
  simp only [Interval.startAt]
  intro e
  injection e with e
  exact absurd e (Nat.ne_of_gt (ht hp))

theorem RankMoved.pdpSet (h : RankMoved P d r s) (m : MemState) {a b : Interval} (ha : b = a.shift d) :
    RankMoved P d { r with memState := m, powerDownPre := a } { s with memState := m, powerDownPre := b } :=
  ⟨rfl, h.pre, h.act, h.ref, h.sref, h.pda, ha, h.dsm, h.srefC, h.dsmC, h.endRef, h.nb, h.bank, h.pdaStart⟩

theorem any_restarts (h : RankMoved P d r s) (hP : P) :
    ((List.range s.nBanks).any fun i => Shared.restarts s (s.banks i)) = (List.range r.nBanks).any fun i => Shared.restarts r (r.banks i) := by
  rw [h.nb]
  congr 1
  funext i
  exact restarts_moved h hP i

theorem mapRestart_moved (h : RankMoved P d r s) (hP : P) (t : Nat) :
    RankMoved P d (r.mapBanks fun bank => if Shared.restarts r bank then { bank with act := bank.act.startAt t } else bank)
      (s.mapBanks fun bank => if Shared.restarts s bank then { bank with act := bank.act.startAt (t + d) } else bank) := by
  refine h.mapBanks fun b => ?_
  simp only [restarts_moved h hP b]
  split
  · exact (h.bank b).startAt t
  · exact h.bank b

theorem mapActive_moved (h : RankMoved P d r s) (t : Nat) :
    RankMoved P d (r.mapBanks fun bank => if bank.state = .active then { bank with act := bank.act.startAt t } else bank)
      (s.mapBanks fun bank => if bank.state = .active then { bank with act := bank.act.startAt (t + d) } else bank) := by
  refine h.mapBanks fun b => ?_
  have hs := (h.bank b).state
  by_cases hr : (r.banks b).state = .active
  · simp only [hr, hs, if_true]
    have := (h.bank b).startAt t
    rw [hs, hr] at this
    exact this
  · simp only [hr, hs, if_false]
    exact h.bank b

theorem mapClose_moved (h : RankMoved P d r s) {t : Nat} (ht : Pos P t) :
    RankMoved P d (r.mapBanks fun bank => { bank with act := bank.act.close t }) (s.mapBanks fun bank => { bank with act := bank.act.close (t + d) }) :=
  h.mapBanks fun b => (h.bank b).close ht

theorem RankMoved.close (h : RankMoved P d r s) (t : Nat) :
    RankMoved P d { r with act := r.act.close t } { s with act := s.act.close (t + d) } := h.setAct (by rw [Interval.close_shift, h.act])

theorem RankMoved.start (h : RankMoved P d r s) (t : Nat) :
    RankMoved P d { r with act := r.act.startAt t } { s with act := s.act.startAt (t + d) } := h.setAct (by rw [Interval.startAt_shift, h.act])

theorem exec_moved (std : Std) (h : RankMoved P d r s) {t : Nat} (ht : Pos P t) (i : Imp) (hi : i = .pdaExit → std = .ddr4 ∨ P) :
    RankMoved P d (exec std r t i) (exec std s (t + d) i) := by
  cases i with
  | pre b =>
    cases std <;> exact handlePre_moved h b ht
  | refEnd b =>
    have : RankMoved P d (Shared.execRefEnd r b t) (Shared.execRefEnd s b (t + d)) :=
      (h.setBank b (((h.bank b).close ht).setState .precharged)).closeUnless t
    cases std <;> exact this
  | srefEnter =>
    exact ⟨rfl, h.pre, h.act, h.ref, by simp only [exec, execSrefEnter, h.sref]; rfl, h.pda, h.pdp, h.dsm, by simp only [exec, execSrefEnter, h.srefC], h.dsmC, h.endRef, h.nb, h.bank, h.pdaStart⟩
  | pdaEnter =>
    have : RankMoved P d (Shared.execPdaEnter r t) (Shared.execPdaEnter s (t + d)) := mapClose_moved ((h.pdaStartAt .pdnAct ht).close t) ht
    cases std <;> exact this
  | pdaExit =>
    have h1 := h.pdaClose .notInPD t
    have hsh : P → RankMoved P d (Shared.execPdaExit r t) (Shared.execPdaExit s (t + d)) := by
      intro hP
      unfold Shared.execPdaExit
      simp only [any_restarts h1 hP]
      split
      · exact (mapRestart_moved h1 hP t).start t
      · exact mapRestart_moved h1 hP t
    cases std
    case ddr4 =>
      simp only [exec, DDR4.execPdaExit]
      have h2 := mapActive_moved h1 t
      rw [h2.active]
      split
      · exact h2.start t
      · exact h2
    case lpddr6 =>
      have hP : P := (hi rfl).resolve_left (by simp)
      exact mapRestart_moved (h1.start t) hP t
    all_goals exact hsh ((hi rfl).resolve_left (by simp))
  | pdpEnter =>
    cases std
    case ddr4 =>
      have h1 := (mapClose_moved h ht).close t
      exact h1.pdpSet .pdnPre (by simp only [Rank.mapBanks, h.pdp, Interval.startAt_shift])
    all_goals exact h.pdpSet .pdnPre (by rw [h.pdp, Interval.startAt_shift])
  | pdpExit =>
    have h1 := h.pdpSet .notInPD (a := r.powerDownPre.close t) (b := s.powerDownPre.close (t + d)) (by rw [h.pdp, Interval.close_shift])
    cases std
    case ddr4 => exact mapActive_moved h1 t
    all_goals exact h1

/-! ## Commands -/

/-- A command `d` later. -/
def laterCmd (d : Nat) (c : Cmd) : Cmd := { c with t := c.t + d }

theorem HMoved.pure {std : Std} {t : Nat} (h : RankMoved P d r s) : HMoved std P d t (pureRes r) (pureRes s) :=
  .ok r s [] h (by simp) (by simp)

theorem HMoved.withBank {std : Std} {t : Nat} (h : RankMoved P d r s) (b : Nat) {k k' : Except Err HRes} (hk : HMoved std P d t k k') :
    HMoved std P d t (withBank r b k) (withBank s b k') := by
  unfold DRAMPower.withBank
  rw [h.nb]
  split
  · exact hk
  · exact .error _

theorem refImps_mem (cnt : Counters → Counters) (dur t : Nat) (l : List Nat) : ∀ (res : HRes) (e : Nat × Imp),
    e ∈ (l.foldl (Shared.handleRefreshOnBank cnt dur t) res).2 → e ∈ res.2 ∨ (t ≤ e.1 ∧ e.2 ≠ .pdaExit) := by
  induction l with
  | nil => intro res e h; exact .inl h
  | cons b l ih =>
    intro res e h
    rcases ih _ e h with h | h
    · simp only [Shared.handleRefreshOnBank, List.mem_append, List.mem_singleton] at h
      rcases h with h | h
      · exact .inl h
      · subst h; exact .inr ⟨by simp, by simp⟩
    · exact .inr h

theorem HMoved.refresh {std : Std} {cnt : Counters → Counters} (ha : ∀ c, (cnt c).act = c.act) (hp : ∀ c, (cnt c).pre = c.pre) (dur t : Nat) (l : List Nat)
    (h : RankMoved P d r s) :
    HMoved std P d t (.ok (l.foldl (Shared.handleRefreshOnBank cnt dur t) (r, []))) (.ok (l.foldl (Shared.handleRefreshOnBank cnt dur (t + d)) (s, []))) := by
  obtain ⟨h1, h2⟩ := refreshFold_moved (P := P) (d := d) ha hp dur t l (res := (r, [])) (res' := (s, [])) h rfl
  have hm := refImps_mem cnt dur t l (r, [])
  generalize l.foldl (Shared.handleRefreshOnBank cnt dur t) (r, []) = x at h1 h2 hm
  generalize l.foldl (Shared.handleRefreshOnBank cnt dur (t + d)) (s, []) = y at h1 h2
  obtain ⟨x1, x2⟩ := x
  obtain ⟨y1, y2⟩ := y
  simp only at h1 h2 hm
  subst h2
  refine .ok x1 y1 x2 h1 (fun e he => ?_) ?_
  · rcases hm e he with h | h
    · simp at h
    · exact h.1
  · rintro ⟨e, he, hx⟩
    rcases hm e he with h | h
    · simp at h
    · exact absurd hx h.2

theorem RankMoved.setEnd (h : RankMoved P d r s) (t : Nat) : RankMoved P d { r with endRefreshTime := t } { s with endRefreshTime := t + d } :=
  ⟨h.mem, h.pre, h.act, h.ref, h.sref, h.pda, h.pdp, h.dsm, h.srefC, h.dsmC, .inl rfl, h.nb, h.bank, h.pdaStart⟩

theorem refAll_moved {std : Std} (ms : MemSpec) (h : RankMoved P d r s) (t : Nat) :
    HMoved std P d t (.ok (handleRefAll std ms r t)) (.ok (handleRefAll std ms s (t + d))) := by
  have e : t + d + ms.tRFC = t + ms.tRFC + d := by omega
  have hsh : HMoved std P d t (.ok (Shared.handleRefAll ms r t)) (.ok (Shared.handleRefAll ms s (t + d))) := by
    have := HMoved.refresh (std := std) (cnt := fun c => { c with refAllBank := c.refAllBank + 1 }) (fun _ => rfl) (fun _ => rfl) ms.tRFC t (List.range r.nBanks) h
    unfold Shared.handleRefAll
    rw [h.nb]
    generalize (List.range r.nBanks).foldl (Shared.handleRefreshOnBank (fun c => { c with refAllBank := c.refAllBank + 1 }) ms.tRFC t) (r, []) = x at this ⊢
    generalize (List.range r.nBanks).foldl (Shared.handleRefreshOnBank (fun c => { c with refAllBank := c.refAllBank + 1 }) ms.tRFC (t + d)) (s, []) = y at this ⊢
    cases this with
    | ok r' s' l hr ht hi =>
      simp only [e]
      exact .ok _ _ l (hr.setEnd _) ht hi
  cases std
  case ddr4 =>
    have h1 := (h.setEnd (t + ms.tRFC)).setAct (a := r.act.startIfNotRunning t) (b := s.act.startIfNotRunning (t + d))
      (by rw [Interval.startIfNotRunning_shift, h.act])
    simp only [handleRefAll, DDR4.handleRefAll, e]
    have h2 := h1.mapBanks (f := fun bank => { bank with state := .active, counter := { bank.counter with refAllBank := bank.counter.refAllBank + 1 }, act := bank.act.startIfNotRunning t, refreshEndTime := t + ms.tRFC })
      (g := fun bank => { bank with state := .active, counter := { bank.counter with refAllBank := bank.counter.refAllBank + 1 }, act := bank.act.startIfNotRunning (t + d), refreshEndTime := t + ms.tRFC + d }) (fun b => by
          have hb := (((h.bank b).count (f := fun c => { c with refAllBank := c.refAllBank + 1 }) (fun _ => rfl) (fun _ => rfl)).startIfNotRunning t).setState .active
          exact hb.setRefr (t + ms.tRFC))
    have h3 : ((List.range s.nBanks).map fun b => (t + ms.tRFC + d, Imp.refEnd b)) =
        laterImps d ((List.range r.nBanks).map fun b => (t + ms.tRFC, Imp.refEnd b)) := by
      rw [h.nb]; simp [laterImps, List.map_map, Function.comp_def]
    simp only [Rank.mapBanks] at h2 ⊢
    rw [h3]
    refine .ok _ _ _ h2 ?_ ?_
    · intro x hx
      obtain ⟨b, -, rfl⟩ := List.mem_map.1 hx
      simp
    · rintro ⟨x, hx, hx'⟩
      obtain ⟨b, -, rfl⟩ := List.mem_map.1 hx
      simp at hx'
  all_goals exact hsh

theorem HMoved.later {std : Std} (ms : MemSpec) (h : RankMoved P d r s) (t : Nat) (i : Imp) (hi : i = .pdaExit → std = .ddr4 ∨ P) :
    HMoved std P d t (.ok (r, [(max t (earliestPossible std ms r), i)])) (.ok (s, [(max (t + d) (earliestPossible std ms s), i)])) := by
  have e : max (t + d) (earliestPossible std ms s) = max t (earliestPossible std ms r) + d := (earliestPossible_moved std ms h).max_time
  rw [e]
  exact .ok r s [(max t (earliestPossible std ms r), i)] h (by simp; omega) (by rintro ⟨x, hx, hx'⟩; simp at hx; subst hx; exact hi hx')

theorem auto_moved {std : Std} (ms : MemSpec) (h : RankMoved P d r s) (b t o : Nat) {f : Counters → Counters} (ha : ∀ c, (f c).act = c.act)
    (hp : ∀ c, (f c).pre = c.pre) (hc : b < r.nBanks → (r.banks b).counter.act ≠ 0) :
    HMoved std P d t
      (DRAMPower.withBank r b (.ok (r.setBank b { r.banks b with counter := f (r.banks b).counter },
        [(max (((r.setBank b { r.banks b with counter := f (r.banks b).counter }).banks b).act.getStart + ms.tRAS) (t + o), .pre b)])))
      (DRAMPower.withBank s b (.ok (s.setBank b { s.banks b with counter := f (s.banks b).counter },
        [(max (((s.setBank b { s.banks b with counter := f (s.banks b).counter }).banks b).act.getStart + ms.tRAS) (t + d + o), .pre b)]))) := by
  unfold DRAMPower.withBank
  rw [h.nb]
  split
  · rename_i hb
    have h1 := h.setBank b ((h.bank b).count ha hp)
    have e : max (((s.setBank b { s.banks b with counter := f (s.banks b).counter }).banks b).act.getStart + ms.tRAS) (t + d + o) =
        max (((r.setBank b { r.banks b with counter := f (r.banks b).counter }).banks b).act.getStart + ms.tRAS) (t + o) + d := by
      rw [(h1.bank b).act, Interval.getStart_shift]
      · have : ∀ x : Nat, max (x + d + ms.tRAS) (t + d + o) = max (x + ms.tRAS) (t + o) + d := fun x => by omega
        exact this _
      · simpa [Rank.setBank, upd] using (h.bank b).started (hc hb)
    rw [e]
    exact .ok _ _ [(_, .pre b)] h1 (by simp; omega) (by simp)
  · exact .error _

theorem handle_moved (std : Std) (ms : MemSpec) (h : RankMoved P d r s) (c : Cmd) (ht : Pos P c.t)
    (ha : c.type = .RDA ∨ c.type = .WRA → c.bank < r.nBanks → (r.banks c.bank).counter.act ≠ 0) (hx : c.type = .PDXA → std = .ddr4 ∨ P) :
    HMoved std P d c.t (handle std ms r c) (handle std ms s (laterCmd d c)) := by
  have hpre : handlePre std = Shared.handlePre := by cases std <;> rfl
  unfold handle
  have hty : (laterCmd d c).type = c.type := rfl
  have hbk : (laterCmd d c).bank = c.bank := rfl
  have hdb : (laterCmd d c).dbank = c.dbank := rfl
  have htt : (laterCmd d c).t = c.t + d := rfl
  rw [hty, hbk, hdb, htt]
  cases hc : c.type <;> simp only
  case ACT => exact .withBank h _ (.pure (handleAct_moved std h _ _))
  case PRE => rw [hpre]; exact .withBank h _ (.pure (handlePre_moved h _ ht))
  case PREA =>
    refine .pure ?_
    unfold handlePreAll
    rw [h.nb, hpre]
    exact preFold_moved ht _ h
  case REFA => exact refAll_moved ms h _
  case RD => exact .withBank h _ (.pure (h.setBank _ ((h.bank _).count (f := fun c => { c with reads := c.reads + 1 }) (fun _ => rfl) (fun _ => rfl))))
  case WR => exact .withBank h _ (.pure (h.setBank _ ((h.bank _).count (f := fun c => { c with writes := c.writes + 1 }) (fun _ => rfl) (fun _ => rfl))))
  case RDA => exact auto_moved ms h _ _ _ (f := fun c => { c with readAuto := c.readAuto + 1 }) (fun _ => rfl) (fun _ => rfl) (ha (.inl hc))
  case WRA => exact auto_moved ms h _ _ _ (f := fun c => { c with writeAuto := c.writeAuto + 1 }) (fun _ => rfl) (fun _ => rfl) (ha (.inr hc))
  case SREFEN =>
    unfold handleSelfRefreshEntry
    have := refAll_moved (std := std) ms h c.t
    generalize handleRefAll std ms r c.t = x at this
    generalize handleRefAll std ms s (c.t + d) = y at this
    cases this with
    | ok r' s' l hr hl hi =>
      have e : laterImps d l ++ [(c.t + d + ms.tRFC, Imp.srefEnter)] = laterImps d (l ++ [(c.t + ms.tRFC, .srefEnter)]) := by
        simp [laterImps]; omega
      simp only [e]
      refine .ok r' s' _ hr ?_ ?_
      · intro e he
        rcases List.mem_append.1 he with he | he
        · exact hl e he
        · simp at he; subst he; simp
      · rintro ⟨e, he, hee⟩
        rcases List.mem_append.1 he with he | he
        · exact hi ⟨e, he, hee⟩
        · simp at he; subst he; simp at hee
  case SREFEX =>
    unfold handleSelfRefreshExit
    rw [h.mem]
    split
    · exact .ok _ _ [] ⟨rfl, h.pre, h.act, h.ref, by rw [Interval.close_shift, h.sref], h.pda, h.pdp, h.dsm, h.srefC, h.dsmC, h.endRef, h.nb, h.bank, h.pdaStart⟩
        (by simp) (by simp)
    · exact .error _
  case PDEA => exact .later ms h _ _ (by simp)
  case PDEP => exact .later ms h _ _ (by simp)
  case PDXA =>
    unfold handlePowerDownActExit
    rw [h.mem]
    split
    · exact .error _
    · exact .later ms h _ _ fun _ => hx hc
  case PDXP => exact .later ms h _ _ (by simp)
  case PRESB =>
    split
    · refine .withBank h _ ?_
      unfold handlePreSameBank
      rw [h.nb]
      split
      · exact .error _
      · split
        · exact .ok _ _ [] (preFold_moved ht _ h) (by simp) (by simp)
        · exact .error _
    · exact .error _
  case REFSB =>
    split
    · refine .withBank h _ ?_
      unfold handleRefSameBank
      rw [h.nb]
      split
      · exact .error _
      · split
        · exact .refresh (cnt := fun c => { c with refSameBank := c.refSameBank + 1 }) (fun _ => rfl) (fun _ => rfl) _ _ _ h
        · exact .error _
    · exact .error _
  case REFB =>
    split
    · exact .withBank h _ (.refresh (cnt := fun c => { c with refPerBank := c.refPerBank + 1 }) (fun _ => rfl) (fun _ => rfl) ms.tRFCPB c.t [c.bank] h)
    · exact .error _
  case REFP2B =>
    split
    · split
      · exact .error _
      · refine .withBank h _ ?_
        unfold handleRefPerTwoBanks
        simp only [h.nb]
        split
        · exact .refresh (cnt := fun c => { c with refPerTwoBanks := c.refPerTwoBanks + 1 }) (fun _ => rfl) (fun _ => rfl) _ _ _ h
        · exact .error _
    · exact .error _
  case REFDB =>
    split
    · exact .withBank h _ (.withBank h _ (.refresh (cnt := fun c => { c with refDualBanks := c.refDualBanks + 1 }) (fun _ => rfl) (fun _ => rfl) _ _ _ h))
    · exact .error _
  case DSMEN =>
    split
    · unfold handleDSMEntry
      rw [h.mem]
      split
      · exact .ok _ _ [] ⟨rfl, h.pre, h.act, h.ref, h.sref, h.pda, h.pdp, by rw [Interval.startAt_shift, h.dsm], h.srefC, by simp only [h.dsmC], h.endRef, h.nb, h.bank, h.pdaStart⟩
          (by simp) (by simp)
      · exact .error _
    · exact .error _
  case DSMEX =>
    split
    · unfold handleDSMExit
      rw [h.mem]
      split
      · exact .ok _ _ [] ⟨rfl, h.pre, h.act, h.ref, h.sref, h.pda, h.pdp, by rw [Interval.close_shift, h.dsm], h.srefC, h.dsmC, h.endRef, h.nb, h.bank, h.pdaStart⟩
          (by simp) (by simp)
      · exact .error _
    · exact .error _
  all_goals exact .error _

end DRAMPower
