import Verif.Lemmas.Machine

/-!
# The machine runs traces like the model
-/

namespace DRAMPower

open Machine (w)
open Spec

variable {T U k m : Nat} {r : Rank} {s : Machine.Rank} {t : Nat} {std : Std} {ms : MemSpec}

/-! ## Implicit commands -/

theorem counter_ne_zero {n : Nat} (h : n < 2 ^ 64) : (w n != 0) = (n != 0) := by
  have : w n = 0 ↔ n = 0 := by rw [← w_zero]; exact w_inj h (by decide)
  by_cases hn : n = 0
  · subst hn; rfl
  · have h' : w n ≠ 0 := fun e => hn (this.1 e)
    rw [bne_iff_ne.2 hn, bne_iff_ne.2 h']

theorem restarts_wrap (L : Limits T U k) (h : RankW T U k m r s) {x : Bank} {y : Machine.Bank} (hb : BankW T U k m x y) :
    Machine.Shared.restarts s y = Shared.restarts r x := by
  have h1 := hb.rng.act.getEnd
  have h2 := h.rng.pda.getStart
  have := L.le
  have := L.lt
  have := L.count
  have := hb.rng.acts
  simp only [Machine.Shared.restarts, Shared.restarts, hb.eq, h.eq]
  have e1 : (x.wrap.counter.act != 0) = (x.counter.act != 0) := counter_ne_zero (by omega)
  have e2 : (x.wrap.act.getEnd == r.wrap.powerDownAct.getStart) = (x.act.getEnd == r.powerDownAct.getStart) := by
    show (x.act.wrap.getEnd == r.powerDownAct.wrap.getStart) = _
    rw [wrap_getEnd, wrap_getStart]
    rw [Bool.eq_iff_iff, beq_iff_eq, beq_iff_eq]
    exact w_inj (by omega) (by omega)
  rw [e1, e2]

theorem RankW.pdaSet (h : RankW T U k m r s) (x : MemState) {a : Interval} {b : Machine.Interval} (e : b = a.wrap) (ha : a.Upto T) :
    RankW T U k m { r with memState := x, powerDownAct := a } { s with memState := x, powerDownAct := b } :=
  ⟨by rw [h.eq, e]; rfl, h.rng.act, h.rng.sref, ha, h.rng.pdp, h.rng.dsm, h.rng.endRef, h.rng.bank⟩

theorem RankW.pdpSet (h : RankW T U k m r s) (x : MemState) {a : Interval} {b : Machine.Interval} (e : b = a.wrap) (ha : a.Upto T) :
    RankW T U k m { r with memState := x, powerDownPre := a } { s with memState := x, powerDownPre := b } :=
  ⟨by rw [h.eq, e]; rfl, h.rng.act, h.rng.sref, h.rng.pda, ha, h.rng.dsm, h.rng.endRef, h.rng.bank⟩

theorem mapClose_wrap (L : Limits T U k) (h : RankW T U k m r s) (ht : t ≤ T) :
    RankW T U k m (r.mapBanks fun bank => { bank with act := bank.act.close t }) (s.mapBanks fun bank => { bank with act := bank.act.close (w t) }) :=
  h.mapBanks fun b => (h.bank b).close L ht

theorem mapActive_wrap (h : RankW T U k m r s) (ht : t ≤ T) :
    RankW T U k m (r.mapBanks fun bank => if bank.state = .active then { bank with act := bank.act.startAt t } else bank)
      (s.mapBanks fun bank => if bank.state = .active then { bank with act := bank.act.startAt (w t) } else bank) :=
  h.mapBanks fun b => by
    by_cases hs : (r.banks b).state = .active
    · rw [if_pos hs, if_pos ((h.bank b).state.trans hs)]; exact (h.bank b).startAt ht
    · rw [if_neg hs, if_neg (fun e => hs ((h.bank b).state.symm.trans e))]; exact h.bank b

theorem mapRestart_wrap (L : Limits T U k) (h : RankW T U k m r s) (ht : t ≤ T) :
    RankW T U k m (r.mapBanks fun bank => if Shared.restarts r bank then { bank with act := bank.act.startAt t } else bank)
      (s.mapBanks fun bank => if Machine.Shared.restarts s bank then { bank with act := bank.act.startAt (w t) } else bank) :=
  h.mapBanks fun b => by
    rw [restarts_wrap L h (h.bank b)]
    split
    · exact (h.bank b).startAt ht
    · exact h.bank b

theorem any_restarts_wrap (L : Limits T U k) (h : RankW T U k m r s) :
    ((List.range s.nBanks).any fun i => Machine.Shared.restarts s (s.banks i)) = (List.range r.nBanks).any fun i => Shared.restarts r (r.banks i) := by
  rw [h.nb]
  congr 1
  funext b
  exact restarts_wrap L h (h.bank b)

theorem exec_wrap (std : Std) (L : Limits T U k) (h : RankW T U k k r s) (ht : t ≤ T) (i : Imp) :
    RankW T U k k (exec std r t i) (Machine.exec std s (w t) i) := by
  have hT := Nat.lt_of_le_of_lt L.le L.lt
  cases i with
  | pre b => cases std <;> exact handlePre_wrap L h b ht
  | refEnd b =>
    have : RankW T U k k (Shared.execRefEnd r b t) (Machine.Shared.execRefEnd s b (w t)) :=
      (h.setBank b (((h.bank b).close L ht).shut)).closeUnless L ht
    cases std <;> exact this
  | srefEnter =>
    refine ⟨?_, h.rng.act, .startAt ht, h.rng.pda, h.rng.pdp, h.rng.dsm, h.rng.endRef, h.rng.bank⟩
    rw [h.eq]
    simp only [exec, Machine.exec, execSrefEnter, Machine.execSrefEnter, Rank.wrap, w_add, wrap_startAt]
    rfl
  | pdaEnter =>
    have : RankW T U k k (Shared.execPdaEnter r t) (Machine.Shared.execPdaEnter s (w t)) :=
      mapClose_wrap L ((h.pdaSet .pdnAct (by rw [h.eq]; rfl) (.startAt ht)).close L ht) ht
    cases std <;> exact this
  | pdaExit =>
    have h1 := h.pdaSet .notInPD (a := r.powerDownAct.close t) (b := s.powerDownAct.close (w t))
      (by rw [h.eq]; exact (wrap_close h.rng.pda hT t).symm) (h.rng.pda.close ht)
    have hsh : RankW T U k k (Shared.execPdaExit r t) (Machine.Shared.execPdaExit s (w t)) := by
      unfold Shared.execPdaExit Machine.Shared.execPdaExit
      simp only [any_restarts_wrap L h1]
      split
      · exact (mapRestart_wrap L h1 ht).start ht
      · exact mapRestart_wrap L h1 ht
    cases std
    case ddr4 =>
      simp only [exec, DDR4.execPdaExit, Machine.exec, Machine.DDR4.execPdaExit]
      have h2 := mapActive_wrap h1 ht
      rw [h2.active L ht]
      split
      · exact h2.start ht
      · exact h2
    case lpddr6 => exact mapRestart_wrap L (h1.start ht) ht
    all_goals exact hsh
  | pdpEnter =>
    cases std
    case ddr4 =>
      have h1 := (mapClose_wrap L h ht).close L ht
      exact h1.pdpSet .pdnPre (a := r.powerDownPre.startAt t) (b := s.powerDownPre.startAt (w t)) (by rw [h.eq]; rfl) (.startAt ht)
    all_goals exact h.pdpSet .pdnPre (by rw [h.eq]; rfl) (.startAt ht)
  | pdpExit =>
    have h1 := h.pdpSet .notInPD (a := r.powerDownPre.close t) (b := s.powerDownPre.close (w t))
      (by rw [h.eq]; exact (wrap_close h.rng.pdp hT t).symm) (h.rng.pdp.close ht)
    cases std
    case ddr4 => exact mapActive_wrap h1 ht
    all_goals exact h1

/-! ## Commands -/

/-- All delays fit between `T` and `U`. -/
structure Delays (std : Std) (ms : MemSpec) (T U : Nat) : Prop where
  rfc : T + ms.tRFC ≤ U
  rfcsb : T + ms.tRFCsb ≤ U
  rfcpb : T + ms.tRFCPB ≤ U
  rfcdb : T + ms.tRFCDB ≤ U
  ras : T + ms.tRAS ≤ U
  rp : T + ms.tRP ≤ U
  rd : T + ms.prechargeOffsetRD ≤ U
  wr : T + ms.prechargeOffsetWR ≤ U
  rcd : T + effRCD std ms ≤ U

theorem earliest_wrap (L : Limits T U k) (D : Delays std ms T U) (h : RankW T U k k r s) :
    Machine.earliestPossible std ms s = w (earliestPossible std ms r) ∧ earliestPossible std ms r ≤ U := by
  unfold earliestPossible Machine.earliestPossible
  rw [h.nb]
  generalize List.range r.nBanks = l
  have : ∀ (l : List Nat) (a : Nat), a ≤ U →
      l.foldl (fun acc i => max (max (max acc (if (s.banks i).counter.act = 0 then 0 else (s.banks i).act.getStart + w (effRCD std ms)))
        (if (s.banks i).counter.pre = 0 then 0 else (s.banks i).latestPre + w ms.tRP)) (s.banks i).refreshEndTime) (w a) =
      w (l.foldl (fun acc i => max (max (max acc (if (r.banks i).counter.act = 0 then 0 else (r.banks i).act.getStart + effRCD std ms))
        (if (r.banks i).counter.pre = 0 then 0 else (r.banks i).latestPre + ms.tRP)) (r.banks i).refreshEndTime) a) ∧
      l.foldl (fun acc i => max (max (max acc (if (r.banks i).counter.act = 0 then 0 else (r.banks i).act.getStart + effRCD std ms))
        (if (r.banks i).counter.pre = 0 then 0 else (r.banks i).latestPre + ms.tRP)) (r.banks i).refreshEndTime) a ≤ U := by
    intro l
    induction l with
    | nil => intro a ha; exact ⟨rfl, ha⟩
    | cons i l ih =>
      intro a ha
      have hb := h.rng.bank i
      have h1 := hb.act.getStart
      have h2 := hb.latest
      have h3 := hb.refr
      have d1 := D.rcd
      have d2 := D.rp
      have hU := L.lt
      have hk := L.count
      have hca := hb.acts
      have hcp := hb.pres
      have b1 : (if (r.banks i).counter.act = 0 then 0 else (r.banks i).act.getStart + effRCD std ms) ≤ U := by split <;> omega
      have b2 : (if (r.banks i).counter.pre = 0 then 0 else (r.banks i).latestPre + ms.tRP) ≤ U := by split <;> omega
      have e1 : (if (s.banks i).counter.act = 0 then 0 else (s.banks i).act.getStart + w (effRCD std ms)) =
          w (if (r.banks i).counter.act = 0 then 0 else (r.banks i).act.getStart + effRCD std ms) := by
        rw [(h.bank i).eq]
        show (if w (r.banks i).counter.act = 0 then 0 else (r.banks i).act.wrap.getStart + _) = _
        rw [wrap_getStart, ← w_add]
        by_cases hc : (r.banks i).counter.act = 0
        · rw [if_pos hc, hc]; rfl
        · rw [if_neg hc, if_neg]
          intro e
          exact hc ((w_inj (by omega) (by decide)).1 (e.trans w_zero.symm))
      have e2 : (if (s.banks i).counter.pre = 0 then 0 else (s.banks i).latestPre + w ms.tRP) =
          w (if (r.banks i).counter.pre = 0 then 0 else (r.banks i).latestPre + ms.tRP) := by
        rw [(h.bank i).eq]
        show (if w (r.banks i).counter.pre = 0 then 0 else w (r.banks i).latestPre + _) = _
        rw [← w_add]
        by_cases hc : (r.banks i).counter.pre = 0
        · rw [if_pos hc, hc]; rfl
        · rw [if_neg hc, if_neg]
          intro e
          exact hc ((w_inj (by omega) (by decide)).1 (e.trans w_zero.symm))
      have e3 : (s.banks i).refreshEndTime = w (r.banks i).refreshEndTime := by rw [(h.bank i).eq]; rfl
      rw [List.foldl_cons, List.foldl_cons, e1, e2, e3, ← w_max (by omega) (by omega), ← w_max (by omega) (by omega), ← w_max (by omega) (by omega)]
      exact ih _ (by omega)
  have := this l 0 (Nat.zero_le _)
  exact this

/-- Two results of a handler. -/
inductive HW (T U k : Nat) : Except Err HRes → Except Err Machine.HRes → Prop
  | error (e : Err) : HW T U k (.error e) (.error e)
  | ok (r : Rank) (s : Machine.Rank) (l : List (Nat × Imp)) (h : RankW T U (k + 1) (k + 1) r s) (hl : ∀ e ∈ l, e.1 ≤ U) :
      HW T U k (.ok (r, l)) (.ok (s, wrapImps l))

theorem HW.pure (h : RankW T U (k + 1) (k + 1) r s) : HW T U k (pureRes r) (Machine.pureRes s) := .ok r s [] h (by simp)

theorem HW.withBank (h : RankW T U k k r s) (b : Nat) {x : Except Err HRes} {y : Except Err Machine.HRes} (hk : HW T U k x y) :
    HW T U k (withBank r b x) (Machine.withBank s b y) := by
  unfold DRAMPower.withBank Machine.withBank
  rw [h.nb]
  split
  · exact hk
  · exact .error _

theorem HW.refresh {f : Counters → Counters} {g : Machine.Counters → Machine.Counters} (hf : Counts f g) (L : Limits T U (k + 1)) (dur : Nat)
    (hd : t + dur ≤ U) (ht : t ≤ T) (l : List Nat) (h : RankW T U k k r s) :
    HW T U k (.ok (l.foldl (Shared.handleRefreshOnBank f dur t) (r, []))) (.ok (l.foldl (Machine.Shared.handleRefreshOnBank g (w dur) (w t)) (s, []))) := by
  obtain ⟨h1, h2, h3⟩ := refreshFold_wrap hf L dur hd ht l (res := (r, [])) (res' := (s, [])) (h.mono (Nat.le_succ k) (Nat.le_refl k)) rfl (by simp)
  generalize l.foldl (Shared.handleRefreshOnBank f dur t) (r, []) = x at h1 h2 h3
  generalize l.foldl (Machine.Shared.handleRefreshOnBank g (w dur) (w t)) (s, []) = y at h1 h2
  obtain ⟨x1, x2⟩ := x
  obtain ⟨y1, y2⟩ := y
  simp only at h1 h2 h3
  subst h2
  exact .ok x1 y1 x2 (h1.mono (Nat.le_refl _) (Nat.le_succ k)) h3

theorem RankW.setEnd (h : RankW T U k m r s) {u : Nat} (hu : u ≤ U) : RankW T U k m { r with endRefreshTime := u } { s with endRefreshTime := w u } :=
  ⟨by rw [h.eq]; rfl, h.rng.act, h.rng.sref, h.rng.pda, h.rng.pdp, h.rng.dsm, hu, h.rng.bank⟩

theorem refAll_wrap (L : Limits T U (k + 1)) (D : Delays std ms T U) (h : RankW T U k k r s) (ht : t ≤ T) :
    HW T U k (.ok (handleRefAll std ms r t)) (.ok (Machine.handleRefAll std ms s (w t))) := by
  have hd : t + ms.tRFC ≤ U := by have := D.rfc; omega
  have hsh : HW T U k (.ok (Shared.handleRefAll ms r t)) (.ok (Machine.Shared.handleRefAll ms s (w t))) := by
    have := HW.refresh counts_refAll L ms.tRFC hd ht (List.range r.nBanks) h
    unfold Shared.handleRefAll Machine.Shared.handleRefAll
    rw [h.nb]
    generalize (List.range r.nBanks).foldl (Shared.handleRefreshOnBank (fun c => { c with refAllBank := c.refAllBank + 1 }) ms.tRFC t) (r, []) = x at this ⊢
    generalize (List.range r.nBanks).foldl (Machine.Shared.handleRefreshOnBank (fun c => { c with refAllBank := c.refAllBank + 1 }) (w ms.tRFC) (w t)) (s, []) = y at this ⊢
    cases this with
    | ok r' s' l hr hl =>
      simp only [← w_add]
      exact .ok _ _ l (hr.setEnd hd) hl
  cases std
  case ddr4 =>
    have h0 := h.mono (Nat.le_succ k) (Nat.le_refl k)
    have h1 := (h0.setEnd hd).startIfNotRunning ht
    have h2 := h1.mapBanks (f := fun bank => { bank with state := .active, counter := { bank.counter with refAllBank := bank.counter.refAllBank + 1 }, act := bank.act.startIfNotRunning t, refreshEndTime := t + ms.tRFC })
      (g := fun bank => { bank with state := .active, counter := { bank.counter with refAllBank := bank.counter.refAllBank + 1 }, act := bank.act.startIfNotRunning (w t), refreshEndTime := w (t + ms.tRFC) }) (fun b =>
          (((((h0.bank b).count counts_refAll).startIfNotRunning ht).opens).setRefr hd))
    have h3 : ((List.range s.nBanks).map fun b => (w (t + ms.tRFC), Imp.refEnd b)) =
        wrapImps ((List.range r.nBanks).map fun b => (t + ms.tRFC, Imp.refEnd b)) := by
      rw [h.nb]; simp [wrapImps, List.map_map, Function.comp_def]
    simp only [handleRefAll, DDR4.handleRefAll, Machine.handleRefAll, Machine.DDR4.handleRefAll, ← w_add]
    simp only [Rank.mapBanks, Machine.Rank.mapBanks] at h2 ⊢
    rw [h3]
    refine .ok _ _ _ (h2.mono (Nat.le_refl _) (Nat.le_succ k)) ?_
    intro x hx
    obtain ⟨b, -, rfl⟩ := List.mem_map.1 hx
    exact hd
  all_goals exact hsh

theorem HW.later (L : Limits T U (k + 1)) (D : Delays std ms T U) (h : RankW T U k k r s) (ht : t ≤ T) (i : Imp) :
    HW T U k (.ok (r, [(max t (earliestPossible std ms r), i)])) (.ok (s, [(max (w t) (Machine.earliestPossible std ms s), i)])) := by
  obtain ⟨e, hu⟩ := earliest_wrap ⟨L.le, L.lt, by have := L.count; omega⟩ D h
  have := L.le
  have := L.lt
  rw [e, ← w_max (by omega) (by omega)]
  exact .ok r s [(max t (earliestPossible std ms r), i)] (h.mono (Nat.le_succ k) (Nat.le_succ k)) (by simp; omega)

theorem auto_wrap {f : Counters → Counters} {g : Machine.Counters → Machine.Counters} (hf : Counts f g) (L : Limits T U (k + 1)) (D : Delays std ms T U)
    (h : RankW T U k k r s) (ht : t ≤ T) (b o : Nat) (ho : T + o ≤ U) :
    HW T U k
      (DRAMPower.withBank r b (.ok (r.setBank b { r.banks b with counter := f (r.banks b).counter },
        [(max (((r.setBank b { r.banks b with counter := f (r.banks b).counter }).banks b).act.getStart + ms.tRAS) (t + o), .pre b)])))
      (Machine.withBank s b (.ok (s.setBank b { s.banks b with counter := g (s.banks b).counter },
        [(max (((s.setBank b { s.banks b with counter := g (s.banks b).counter }).banks b).act.getStart + w ms.tRAS) (w t + w o), .pre b)]))) := by
  refine .withBank h b ?_
  have h1 := h.setBank b ((h.bank b).count hf)
  have hs := (h1.rng.bank b).act.getStart
  have := D.ras
  have := L.lt
  rw [(h1.bank b).eq]
  generalize r.setBank b { r.banks b with counter := f (r.banks b).counter } = u at h1 hs ⊢
  have e : (u.banks b).wrap.act.getStart = w (u.banks b).act.getStart := wrap_getStart _
  rw [e, ← w_add, ← w_add, ← w_max (by omega) (by omega)]
  exact .ok _ _ [(_, .pre b)] (h1.mono (Nat.le_succ k) (Nat.le_succ k)) (by simp; omega)

theorem handle_wrap (L : Limits T U (k + 1)) (D : Delays std ms T U) (h : RankW T U k k r s) (c : Cmd) (ht : c.t ≤ T) :
    HW T U k (handle std ms r c) (Machine.handle std ms s (toMachine c)) := by
  have L0 : Limits T U k := ⟨L.le, L.lt, by have := L.count; omega⟩
  have hT := Nat.lt_of_le_of_lt L.le L.lt
  have hup : ∀ {r' : Rank} {s' : Machine.Rank}, RankW T U k k r' s' → RankW T U (k + 1) (k + 1) r' s' := fun h => h.mono (Nat.le_succ k) (Nat.le_succ k)
  have hle : ∀ {d : Nat}, T + d ≤ U → c.t + d ≤ U := fun h => by omega
  unfold handle Machine.handle
  have hty : (toMachine c).type = c.type := rfl
  have hbk : (toMachine c).bank = c.bank := rfl
  have hdb : (toMachine c).dbank = c.dbank := rfl
  have htt : (toMachine c).t = w c.t := rfl
  rw [hty, hbk, hdb, htt]
  cases hc : c.type <;> simp only
  case ACT => exact .withBank h _ (.pure ((handleAct_wrap std L h _ ht).mono (Nat.le_refl _) (Nat.le_succ k)))
  case PRE => rw [handlePre_shared, machine_handlePre]; exact .withBank h _ (.pure (hup (handlePre_wrap L0 h _ ht)))
  case PREA =>
    refine .pure ?_
    unfold handlePreAll Machine.handlePreAll
    rw [h.nb, handlePre_shared, machine_handlePre]
    exact hup (preFold_wrap L0 ht _ h)
  case REFA => exact refAll_wrap L D h ht
  case RD => exact .withBank h _ (.pure (hup (h.setBank _ ((h.bank _).count counts_reads))))
  case WR => exact .withBank h _ (.pure (hup (h.setBank _ ((h.bank _).count counts_writes))))
  case RDA => exact auto_wrap counts_readAuto L D h ht _ _ D.rd
  case WRA => exact auto_wrap counts_writeAuto L D h ht _ _ D.wr
  case SREFEN =>
    unfold handleSelfRefreshEntry Machine.handleSelfRefreshEntry
    have := refAll_wrap (std := std) L D h ht
    generalize handleRefAll std ms r c.t = x at this
    generalize Machine.handleRefAll std ms s (w c.t) = y at this
    cases this with
    | ok r' s' l hr hl =>
      have e : wrapImps l ++ [(w c.t + w ms.tRFC, Imp.srefEnter)] = wrapImps (l ++ [(c.t + ms.tRFC, .srefEnter)]) := by
        simp [wrapImps]
      simp only [e]
      refine .ok r' s' _ hr ?_
      intro e he
      rcases List.mem_append.1 he with he | he
      · exact hl e he
      · simp at he; subst he; exact hle D.rfc
  case SREFEX =>
    unfold handleSelfRefreshExit Machine.handleSelfRefreshExit
    rw [h.mem]
    split
    · refine .ok _ _ [] (hup ⟨?_, h.rng.act, h.rng.sref.close ht, h.rng.pda, h.rng.pdp, h.rng.dsm, h.rng.endRef, h.rng.bank⟩) (by simp)
      rw [h.eq]
      simp only [Rank.wrap, wrap_close h.rng.sref hT]
    · exact .error _
  case PDEA => exact .later L D h ht _
  case PDEP => exact .later L D h ht _
  case PDXA =>
    unfold handlePowerDownActExit Machine.handlePowerDownActExit
    rw [h.mem]
    split
    · exact .error _
    · exact .later L D h ht _
  case PDXP => exact .later L D h ht _
  case PRESB =>
    split
    · refine .withBank h _ ?_
      unfold handlePreSameBank Machine.handlePreSameBank
      rw [h.nb]
      split
      · exact .error _
      · split
        · exact .ok _ _ [] (hup (preFold_wrap L0 ht _ h)) (by simp)
        · exact .error _
    · exact .error _
  case REFSB =>
    split
    · refine .withBank h _ ?_
      unfold handleRefSameBank Machine.handleRefSameBank
      rw [h.nb]
      split
      · exact .error _
      · split
        · exact .refresh counts_refSame L _ (hle D.rfcsb) ht _ h
        · exact .error _
    · exact .error _
  case REFB =>
    split
    · exact .withBank h _ (.refresh counts_refPer L ms.tRFCPB (hle D.rfcpb) ht [c.bank] h)
    · exact .error _
  case REFP2B =>
    split
    · split
      · exact .error _
      · refine .withBank h _ ?_
        unfold handleRefPerTwoBanks Machine.handleRefPerTwoBanks
        simp only [h.nb]
        split
        · exact .refresh counts_refTwo L ms.tRFCPB (hle D.rfcpb) ht _ h
        · exact .error _
    · exact .error _
  case REFDB =>
    split
    · exact .withBank h _ (.withBank h _ (.refresh counts_refDual L ms.tRFCDB (hle D.rfcdb) ht _ h))
    · exact .error _
  case DSMEN =>
    split
    · unfold handleDSMEntry Machine.handleDSMEntry
      rw [h.mem]
      split
      · refine .ok _ _ [] (hup ⟨?_, h.rng.act, h.rng.sref, h.rng.pda, h.rng.pdp, .startAt ht, h.rng.endRef, h.rng.bank⟩) (by simp)
        rw [h.eq]
        simp [Rank.wrap, wrap_startAt]
      · exact .error _
    · exact .error _
  case DSMEX =>
    split
    · unfold handleDSMExit Machine.handleDSMExit
      rw [h.mem]
      split
      · refine .ok _ _ [] (hup ⟨?_, h.rng.act, h.rng.sref, h.rng.pda, h.rng.pdp, h.rng.dsm.close ht, h.rng.endRef, h.rng.bank⟩) (by simp)
        rw [h.eq]
        simp only [Rank.wrap, wrap_close h.rng.dsm hT]
      · exact .error _
    · exact .error _
  all_goals exact .error _

/-! ## Traces -/

def QEntry.wrap (e : QEntry) : Machine.QEntry := { t := w e.t, rank := e.rank, imp := e.imp }

theorem addImplicit_wrap (hU : U < 2 ^ 64) (e : QEntry) (he : e.t ≤ U) (q : List QEntry) (hq : ∀ x ∈ q, x.t ≤ U) :
    Machine.addImplicit e.wrap (q.map QEntry.wrap) = (addImplicit e q).map QEntry.wrap := by
  induction q with
  | nil => rfl
  | cons x q ih =>
    have hx := hq x (by simp)
    have : (e.wrap.t < x.wrap.t) ↔ e.t < x.t := w_lt (by omega) (by omega)
    simp only [List.map_cons, Machine.addImplicit, addImplicit]
    by_cases h : e.t < x.t
    · rw [if_pos h, if_pos (this.2 h)]; rfl
    · rw [if_neg h, if_neg (fun h' => h (this.1 h')), ih fun y hy => hq y (by simp [hy])]; rfl

theorem enqueue_wrap (hU : U < 2 ^ 64) (rank : Nat) (l : List (Nat × Imp)) : ∀ q : List QEntry, (∀ e ∈ l, e.1 ≤ U) → (∀ x ∈ q, x.t ≤ U) →
    Machine.enqueue rank (wrapImps l) (q.map QEntry.wrap) = (enqueue rank l q).map QEntry.wrap ∧ ∀ x ∈ enqueue rank l q, x.t ≤ U := by
  induction l with
  | nil => intro q _ hq; exact ⟨rfl, hq⟩
  | cons a l ih =>
    intro q hl hq
    have ha := hl a (by simp)
    have := ih (addImplicit { t := a.1, rank := rank, imp := a.2 } q) (fun e he => hl e (by simp [he])) (fun x hx => by
      rcases mem_addImplicit.1 hx with h | h
      · subst h; exact ha
      · exact hq x h)
    rw [← addImplicit_wrap hU _ ha q hq] at this
    exact this

/-- The machine's core is the image of the model's, which is in range. -/
structure CoreW (T U k : Nat) (c : Core) (d : Machine.Core) : Prop where
  rank : ∀ i, RankW T U k k (c.ranks i) (d.ranks i)
  queue : d.queue = c.queue.map QEntry.wrap
  bound : ∀ e ∈ c.queue, e.t ≤ U
  last : d.last = w c.last
  lastIn : c.last ≤ U

theorem processQ_wrap (L : Limits T U k) (ht : t < 2 ^ 64) (q : List QEntry) (hq : ∀ e ∈ q, e.t ≤ t → e.t ≤ T) : ∀ {c : Nat → Rank} {d : Nat → Machine.Rank} {l : Nat} {l' : UInt64},
    (∀ i, RankW T U k k (c i) (d i)) → (∀ e ∈ q, e.t ≤ U) → l' = w l → l ≤ U →
    CoreW T U k (processQ std t c l q) (Machine.processQ std (w t) d l' (q.map QEntry.wrap)) := by
  induction q with
  | nil => intro c d l l' hr _ hl hlU; exact ⟨hr, rfl, by simp [processQ], hl, hlU⟩
  | cons e q ih =>
    intro c d l l' hr hb hl hlU
    have heU := hb e (by simp)
    have hU := L.lt
    have hle : (e.wrap.t ≤ w t) ↔ e.t ≤ t := w_le (by omega) ht
    simp only [List.map_cons, processQ, Machine.processQ]
    by_cases h : e.t ≤ t
    · rw [if_pos h, if_pos (hle.2 h)]
      refine ih (fun x hx => hq x (by simp [hx])) ?_ (fun x hx => hb x (by simp [hx])) rfl heU
      intro i
      show RankW T U k k (if i = e.rank then _ else _) (if i = e.rank then _ else _)
      by_cases hi : i = e.rank
      · rw [if_pos hi, if_pos hi]
        exact exec_wrap std L (hr e.rank) (hq e (by simp) h) e.imp
      · rw [if_neg hi, if_neg hi]
        exact hr i
    · rw [if_neg h, if_neg (fun h' => h (hle.1 h'))]
      exact ⟨hr, rfl, hb, hl, hlU⟩

theorem process_wrap (L : Limits T U k) {c : Core} {d : Machine.Core} (h : CoreW T U k c d) (ht : t < 2 ^ 64) (hq : ∀ e ∈ c.queue, e.t ≤ t → e.t ≤ T) :
    CoreW T U k (c.process std t) (d.process std (w t)) := by
  unfold Core.process Machine.Core.process
  rw [h.queue]
  exact processQ_wrap L ht c.queue hq h.rank h.bound h.last h.lastIn

/-- Two results of a command. -/
inductive CW (T U k : Nat) : Except Err Core → Except Err Machine.Core → Prop
  | error (e : Err) : CW T U k (.error e) (.error e)
  | ok (c : Core) (d : Machine.Core) (h : CoreW T U k c d) : CW T U k (.ok c) (.ok d)

theorem doCommand_wrap (L : Limits T U (k + 1)) (D : Delays std ms T U) {c : Core} {d : Machine.Core} (h : CoreW T U k c d) (cmd : Cmd) (ht : cmd.t ≤ T) :
    CW T U (k + 1) (c.doCommand std ms cmd) (d.doCommand std ms (toMachine cmd)) := by
  have L0 : Limits T U k := ⟨L.le, L.lt, by have := L.count; omega⟩
  have hTU := L.le
  have hU := L.lt
  have h1 := process_wrap (std := std) L0 h (t := cmd.t) (by omega) fun e _ he => Nat.le_trans he ht
  have hl : max (w cmd.t) (d.process std (w cmd.t)).last = w (max cmd.t (c.process std cmd.t).last) := by
    have := h1.lastIn
    rw [h1.last, ← w_max (by omega) (by omega)]
  have hlU : max cmd.t (c.process std cmd.t).last ≤ U := by have := h1.lastIn; omega
  have hup : ∀ i, RankW T U (k + 1) (k + 1) ((c.process std cmd.t).ranks i) ((d.process std (w cmd.t)).ranks i) :=
    fun i => (h1.rank i).mono (Nat.le_succ k) (Nat.le_succ k)
  simp only [Core.doCommand, Machine.Core.doCommand]
  have e1 : (toMachine cmd).t = w cmd.t := rfl
  have e2 : (toMachine cmd).type = cmd.type := rfl
  have e3 : (toMachine cmd).rank = cmd.rank := rfl
  rw [e1, e2, e3, hl]
  split
  · exact .ok _ _ ⟨hup, h1.queue, h1.bound, rfl, hlU⟩
  · split
    · have h2 := handle_wrap L D (h1.rank cmd.rank) cmd ht
      generalize handle std ms ((c.process std cmd.t).ranks cmd.rank) cmd = x at h2 ⊢
      generalize Machine.handle std ms ((d.process std (w cmd.t)).ranks cmd.rank) (toMachine cmd) = y at h2 ⊢
      cases h2 with
      | error e => exact .error e
      | ok r s l hr hl' =>
        obtain ⟨q1, q2⟩ := enqueue_wrap hU cmd.rank l _ hl' h1.bound
        refine .ok _ _ ⟨fun i => ?_, ?_, q2, rfl, hlU⟩
        · show RankW T U (k + 1) (k + 1) (if i = cmd.rank then _ else _) (if i = cmd.rank then _ else _)
          by_cases hi : i = cmd.rank
          · rw [if_pos hi, if_pos hi]; exact hr
          · rw [if_neg hi, if_neg hi]; exact hup i
        · simp only [h1.queue]
          exact q1
    · exact .error _

theorem run_wrap (D : Delays std ms T U) (hTU : T ≤ U) (hU : U < 2 ^ 64) (cmds : List Cmd) : ∀ {c : Core} {d : Machine.Core} {k : Nat},
    CoreW T U k c d → (∀ x ∈ cmds, x.t ≤ T) → k + cmds.length < 2 ^ 64 →
    CW T U (k + cmds.length) (c.run std ms cmds) (d.run std ms (cmds.map toMachine)) := by
  induction cmds with
  | nil => intro c d k h _ _; exact .ok c d h
  | cons x cmds ih =>
    intro c d k h ht hk
    simp only [List.length_cons] at hk
    have h1 := doCommand_wrap ⟨hTU, hU, by omega⟩ D h x (ht x (by simp))
    simp only [List.map_cons, Core.run, Machine.Core.run, List.length_cons]
    generalize c.doCommand std ms x = a at h1 ⊢
    generalize d.doCommand std ms (toMachine x) = b at h1 ⊢
    cases h1 with
    | error e => exact .error e
    | ok c' d' h' =>
      have := ih h' (fun y hy => ht y (by simp [hy])) (by omega)
      rwa [show k + 1 + cmds.length = k + (cmds.length + 1) by omega] at this

theorem init_wrap : CoreW T U 0 (Core.init ms) (Machine.Core.init ms) := by
  have hi : Interval.Upto T {} := Interval.upto_init
  refine ⟨fun i => ⟨rfl, hi, hi, hi, hi, hi, Nat.zero_le _, fun b => ⟨hi, Nat.zero_le _, Nat.zero_le _, Nat.zero_le _, Nat.zero_le _, ?_⟩⟩, rfl,
    by simp [Core.init], rfl, Nat.zero_le _⟩
  intro e
  cases e

end DRAMPower
