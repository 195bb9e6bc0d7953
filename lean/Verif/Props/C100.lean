import Verif.Spec.Needless
import Verif.Lemmas.Banks
import Verif.Props.C98

/-!
# C100: a precharge of closed banks has no effect
-/

namespace DRAMPower
open Spec

variable {std : Std} {ms : MemSpec}

/-! ## Closed banks stay closed -/

theorem prech_state (t : Nat) (x : Bank) : (x.prech t).state = .precharged := by
  unfold Bank.prech
  split
  · assumption
  · rfl

/-- No implicit command opens a bank. -/
theorem exec_closed {r : Rank} {t b : Nat} (i : Imp) (h : (r.banks b).state = .precharged) : ((exec std r t i).banks b).state = .precharged := by
  cases i with
  | pre x =>
    show ((handlePre std r x t).banks b).state = _
    rw [handlePre_banks]
    split
    · exact prech_state ..
    · exact h
  | refEnd x =>
    cases std <;> simp only [exec, DDR4.execRefEnd, Shared.execRefEnd] <;> split <;> simp only [Rank.setBank, upd] <;> split <;> first | rfl | exact h
  | srefEnter => exact h
  | pdaEnter => cases std <;> simp only [exec, DDR4.execPdaEnter, Shared.execPdaEnter, Rank.mapBanks] <;> (repeat' split) <;> exact h
  | pdaExit =>
    cases std <;> simp only [exec, DDR4.execPdaExit, Shared.execPdaExit, LPDDR6.execPdaExit, Rank.mapBanks] <;> (repeat' split) <;> (try dsimp only) <;> (repeat' split) <;> exact h
  | pdpEnter => cases std <;> simp only [exec, DDR4.execPdpEnter, Shared.execPdpEnter, Rank.mapBanks] <;> (repeat' split) <;> exact h
  | pdpExit => cases std <;> simp only [exec, DDR4.execPdpExit, Shared.execPdpExit, Rank.mapBanks] <;> (repeat' split) <;> exact h

theorem refreshFold_other (cnt : Counters → Counters) (d t : Nat) (l : List Nat) {x : Nat} : x ∉ l → ∀ res : HRes,
    (l.foldl (Shared.handleRefreshOnBank cnt d t) res).1.banks x = res.1.banks x := by
  induction l with
  | nil => intro _ _; rfl
  | cons b l ih =>
    intro hx res
    rw [List.foldl_cons, ih (fun h => hx (List.mem_cons_of_mem _ h)), refreshOnBank_banks, if_neg]
    exact fun h => hx (h ▸ List.mem_cons_self ..)

/-- A command opens no bank it does not activate or refresh, and its precharges close. -/
theorem handle_closed {r r' : Rank} {imps : List (Nat × Imp)} {c : Cmd} (h : handle std ms r c = .ok (r', imps)) (hn : r.nBanks = ms.numberOfBanks)
    (hg : std = .ddr5 → ms.numberOfBanks = ms.numberOfBankGroups * ms.banksPerGroup) {x : Nat} (hx : x < ms.numberOfBanks)
    (hc : if targets ms c x = true then closes c.type = true ∨ ((r.banks x).state = .precharged ∧ opens c.type = false)
      else (r.banks x).state = .precharged) : (r'.banks x).state = .precharged := by
  by_cases h2 : twoBanks ms c
  · rw [handle_banks h h2 hn hg hx]
    split at hc
    · rename_i ht
      rw [if_pos ht]
      unfold bankEff
      rcases hc with hc | ⟨hs, ho⟩
      · cases hty : c.type <;> simp only [closes, hty] at hc ⊢ <;> first | exact prech_state .. | cases hc
      · cases hty : c.type <;> simp only [opens, hty] at ho ⊢ <;> first | exact prech_state .. | exact hs | cases ho
    · rename_i ht
      rw [if_neg ht]
      exact hc
  · have hty : c.type = .REFP2B ∨ c.type = .REFDB := by
      by_cases h1 : c.type = .REFP2B
      · exact .inl h1
      · by_cases h3 : c.type = .REFDB
        · exact .inr h3
        · exact absurd ⟨fun e => absurd e h1, fun e => absurd e h3⟩ h2
    split at hc
    · rcases hty with e | e <;> simp [e, closes, opens] at hc
    · rename_i ht
      unfold handle at h
      rcases hty with e | e <;> simp only [e] at h <;> simp only [targets, e, Bool.or_eq_true, beq_iff_eq, not_or] at ht
      · split at h
        · split at h
          · cases h
          · obtain ⟨_, h⟩ := withBank_ok h
            unfold handleRefPerTwoBanks at h
            simp only at h
            split at h
            · injection h with h
              have := congrArg Prod.fst h
              subst this
              rw [refreshFold_other _ _ _ _ (by simp [ht.1, ht.2])]
              exact hc
            · cases h
        · cases h
      · split at h
        · obtain ⟨_, h⟩ := withBank_ok h
          obtain ⟨_, h⟩ := withBank_ok h
          injection h with h
          have := congrArg Prod.fst h
          subst this
          unfold handleRefDualBanks
          rw [refreshFold_other _ _ _ _ (by simp [ht.1, ht.2])]
          exact hc
        · cases h

/-! ## The invariant -/

/-- After the commands `h` the core has precharged what rests. -/
structure Rests (ms : MemSpec) (h : List Cmd) (c : Core) : Prop where
  wf : WF ms c
  closed : ∀ i, ∀ b < ms.numberOfBanks, rests ms i b h = true → ((c.ranks i).banks b).state = .precharged

theorem processQ_rests {h : List Cmd} {t : Nat} : ∀ (q : List QEntry) (rs : Nat → Rank) (l : Nat),
    (∀ i, ∀ b < ms.numberOfBanks, rests ms i b h = true → ((rs i).banks b).state = .precharged) →
    ∀ i, ∀ b < ms.numberOfBanks, rests ms i b h = true → (((processQ std t rs l q).ranks i).banks b).state = .precharged
  | [], _, _, hr => hr
  | e :: q, rs, l, hr => by
    unfold processQ
    split
    · refine processQ_rests q _ _ fun i b hb hi => ?_
      simp only [upd]
      split
      · rename_i he
        subst he
        exact exec_closed _ (hr _ b hb hi)
      · exact hr i b hb hi
    · exact hr

theorem Rests.process {h : List Cmd} {c : Core} (hr : Rests ms h c) (t : Nat) : Rests ms h (c.process std t) :=
  ⟨process_wf hr.wf, processQ_rests _ _ _ hr.closed⟩

theorem rests_append (i b : Nat) (h : List Cmd) (c : Cmd) : rests ms i b (h ++ [c]) =
    if c.rank = i ∧ targets ms c b = true then (closes c.type || (rests ms i b h && !opens c.type)) else rests ms i b h := by
  unfold rests
  rw [List.foldl_append]
  rfl

theorem Rests.doCommand {h : List Cmd} {c d : Core} {cmd : Cmd} (hr : Rests ms h c) (hd : c.doCommand std ms cmd = .ok d)
    (hg : std = .ddr5 → ms.numberOfBanks = ms.numberOfBankGroups * ms.banksPerGroup) : Rests ms (h ++ [cmd]) d := by
  refine ⟨doCommand_wf hr.wf hd, fun i b hb hi => ?_⟩
  have hp := hr.process (std := std) cmd.t
  rw [rests_append] at hi
  unfold Core.doCommand at hd
  simp only at hd
  split at hd
  · rename_i hn
    cases hd
    have hty : closes cmd.type = false := by
      unfold isNoEffect at hn
      cases hty : cmd.type <;> simp_all [closes]
    refine hp.closed i b hb ?_
    split at hi
    · rw [hty, Bool.false_or, Bool.and_eq_true] at hi; exact hi.1
    · exact hi
  · split at hd
    · split at hd
      · rename_i r' imps hh
        cases hd
        simp only [upd]
        split
        · rename_i he
          subst he
          refine handle_closed hh (hp.wf _) hg hb ?_
          split
          · rename_i ht
            rw [if_pos ⟨rfl, ht⟩, Bool.or_eq_true, Bool.and_eq_true] at hi
            rcases hi with hi | ⟨hi, ho⟩
            · exact .inl hi
            · exact .inr ⟨hp.closed _ b hb hi, by simpa using ho⟩
          · rename_i ht
            rw [if_neg (fun k => ht k.2)] at hi
            exact hp.closed _ b hb hi
        · rename_i he
          rw [if_neg (fun k => he k.1.symm)] at hi
          exact hp.closed i b hb hi
      · cases hd
    · cases hd

/-! ## A precharge of closed banks -/

theorem handlePre_closed {r : Rank} {b t : Nat} (h : (r.banks b).state = .precharged) : handlePre std r b t = r := by
  cases std <;> simp only [handlePre, DDR4.handlePre, Shared.handlePre, if_pos h]

theorem preFold_closed {t : Nat} {r : Rank} : ∀ l : List Nat, (∀ b ∈ l, (r.banks b).state = .precharged) → l.foldl (fun r b => handlePre std r b t) r = r
  | [], _ => rfl
  | b :: l, h => by
    rw [List.foldl_cons, handlePre_closed (h b (List.mem_cons_self ..))]
    exact preFold_closed l fun x hx => h x (List.mem_cons_of_mem _ hx)

theorem handle_needless {r : Rank} {x : HRes} {c : Cmd} (hx : handle std ms r c = .ok x) (hn : r.nBanks = ms.numberOfBanks) (ht : closes c.type = true)
    (h : ∀ b < ms.numberOfBanks, targets ms c b = true → (r.banks b).state = .precharged) : x = (r, []) := by
  unfold handle at hx
  cases hty : c.type <;> simp only [hty, closes] at ht hx <;> try cases ht
  · obtain ⟨hb, hx⟩ := withBank_ok hx
    cases hx
    rw [handlePre_closed (h _ (hn ▸ hb) (by simp [targets, hty]))]
  · split at hx
    · rename_i hs
      obtain ⟨_, hx⟩ := withBank_ok hx
      unfold handlePreSameBank at hx
      split at hx
      · cases hx
      · split at hx
        · rename_i hall
          cases hx
          have := preFold_closed (std := .ddr5) (t := c.t) (r := r) (sameBankIdx ms c.bank) fun b hb => by
            refine h b ?_ ?_
            · have := List.all_eq_true.1 hall b hb
              rw [← hn]
              simpa using this
            · obtain ⟨g, _, rfl⟩ := List.mem_map.1 hb
              simp [targets, hty]
          simp only [handlePre] at this
          rw [this]
        · cases hx
    · cases hx
  · cases hx
    have := preFold_closed (std := std) (t := c.t) (r := r) (List.range r.nBanks) fun b hb =>
      h b (hn ▸ List.mem_range.1 hb) (by simp [targets, hty])
    unfold handlePreAll
    rw [this]

theorem more_needless {h : List Cmd} {c0 c' d' : Core} {cmd : Cmd} (hm : Core.More (fun _ _ => 0) (fun _ _ => 0) c0 c') (hr : Rests ms h c')
    (hd : c'.doCommand std ms cmd = .ok d') (ht : closes cmd.type = true)
    (hc : ∀ b < ms.numberOfBanks, targets ms cmd b = true → rests ms cmd.rank b h = true) :
    Core.More (fun _ _ => 0) (fun _ _ => 0) (c0.process std cmd.t) d' := by
  have hp := hm.process (std := std) cmd.t
  have hq := hr.process (std := std) cmd.t
  unfold Core.doCommand at hd
  have hn : isNoEffect std cmd.type = false := by
    unfold isNoEffect
    cases hty : cmd.type <;> simp_all [closes]
  simp only [hn, Bool.false_eq_true, if_false] at hd
  split at hd
  · split at hd
    · rename_i r' imps hh
      have := handle_needless hh (hq.wf _) ht fun b hb hb' => hq.closed _ b hb (hc b hb hb')
      cases this
      cases hd
      refine ⟨fun i => ?_, hp.queue⟩
      simp only [upd]
      split
      · rename_i he; subst he; exact hp.ranks _
      · exact hp.ranks i
    · cases hd
  · cases hd

theorem run_needless (hg : std = .ddr5 → ms.numberOfBanks = ms.numberOfBankGroups * ms.banksPerGroup) : ∀ (l : List (Cmd × Bool)) (h : List Cmd) (now : Nat)
    (c0 c c' d' : Core), Core.More (fun _ _ => 0) (fun _ _ => 0) c0 c' → SameAt std now c0 c → Rests ms h c' →
    Ordered (whole l) → (∀ x ∈ whole l, now ≤ x.t) → Needless ms h l → c'.run std ms (whole l) = .ok d' →
    ∃ d, c.run std ms (kept l) = .ok d ∧ ∀ t, now ≤ t → NotBefore (whole l) t →
      Core.More (fun _ _ => 0) (fun _ _ => 0) (d.process std t) (d'.process std t) := by
  intro l
  induction l with
  | nil =>
    intro h now c0 c c' d' hm hs _ _ _ _ hr
    cases hr
    refine ⟨c, rfl, fun t ht _ => ?_⟩
    rw [← hs.mono ht]
    exact hm.process t
  | cons p l ih =>
    obtain ⟨x, k⟩ := p
    intro h now c0 c c' d' hm hs hre ho hn ha hr
    have ho' := List.pairwise_cons.1 (show (x :: whole l).Pairwise (·.t ≤ ·.t) from ho)
    have hx : now ≤ x.t := hn x (List.mem_cons_self ..)
    change c'.run std ms (x :: whole l) = _ at hr
    simp only [Core.run] at hr
    cases hd : c'.doCommand std ms x with
    | error e => rw [hd] at hr; cases hr
    | ok e' =>
      rw [hd] at hr
      have hre' := hre.doCommand hd hg
      cases k with
      | true =>
        obtain ⟨e, he, hme⟩ := hm.doCommand hd
        rw [hs.doCommand hx] at he
        obtain ⟨d, hrd, hfin⟩ := ih _ x.t e e e' d' hme rfl hre' ho'.2 (fun y hy => ho'.1 y hy) ha.2 hr
        refine ⟨d, ?_, fun t _ hnb => hfin t (hnb x (List.mem_cons_self ..)) (fun y hy => hnb y (List.mem_cons_of_mem _ hy))⟩
        show c.run std ms (x :: kept l) = _
        simp only [Core.run, he]
        exact hrd
      | false =>
        obtain ⟨h1, h2⟩ := ha.1 rfl
        have hma := more_needless hm hre hd h1 h2
        have hs' : SameAt std x.t (c0.process std x.t) c := by
          unfold SameAt
          rw [Core.process_process (Nat.le_refl _)]
          exact hs.mono hx
        obtain ⟨d, hrd, hfin⟩ := ih _ x.t _ c e' d' hma hs' hre' ho'.2 (fun y hy => ho'.1 y hy) ha.2 hr
        exact ⟨d, hrd, fun t _ hnb => hfin t (hnb x (List.mem_cons_self ..)) (fun y hy => hnb y (List.mem_cons_of_mem _ hy))⟩

theorem init_rests (ms : MemSpec) : Rests ms [] (Core.init ms) := ⟨init_wf ms, fun _ _ _ _ => rfl⟩

/-- For every trace, legal or not: without precharges of closed banks it is accepted, too, and all statistics are the same. -/
theorem C100 (l : List (Cmd × Bool)) (hv : ValidSpec std ms) (ho : Ordered (whole l)) (ha : Needless ms [] l) (c' : Core)
    (hr : (Core.init ms).run std ms (whole l) = .ok c') :
    ∃ c, (Core.init ms).run std ms (kept l) = .ok c ∧ ∀ t, NotBefore (whole l) t → (c'.getWindowStats std ms t).2 = (c.getWindowStats std ms t).2 := by
  obtain ⟨c, hc, h⟩ := run_needless hv.groups l [] 0 _ _ _ c' (more_none _) (rfl : SameAt std 0 (Core.init ms) _) (init_rests ms) ho
    (fun _ _ => Nat.zero_le _) ha hr
  refine ⟨c, hc, fun t ht => ?_⟩
  have h := h t (Nat.zero_le _) ht
  have hk : (c'.process std t).ranks = (c.process std t).ranks := funext fun i => (h.ranks i).trans rfl
  simp only [Core.getWindowStats, Core.statsAt, hk]

/-- And so is the core energy. -/
theorem C100_energy {N : Nat} {sp : IfSpec} {ps : PowerSpec} (l : List (ICmd × Bool)) (hv : ValidSpec std ms) (ho : Ordered ((whole l).map ICmd.core))
    (ha : Needless ms [] (coreMarks l)) {s0 s s' q q' : Simulator std N} {t : Nat} {e e' : Energy} (hk : ps.ranks = ms.numberOfRanks)
    (hi : Simulator.init std N ms sp = .ok s0) (hr : s0.run ms sp (kept l) = .done s) (hr' : s0.run ms sp (whole l) = .done s')
    (hT : ∀ c ∈ whole l, c.t ≤ t) (he : s.calcCoreEnergy ms sp ps t = .ok (q, e)) (he' : s'.calcCoreEnergy ms sp ps t = .ok (q', e')) :
    e'.total = e.total := by
  obtain ⟨hc, _⟩ := simulator_init hi
  obtain ⟨hr, _⟩ := run_halves _ hr
  obtain ⟨hr', _⟩ := run_halves _ hr'
  rw [hc] at hr hr'
  rw [← kept_core] at hr
  rw [← whole_core] at hr' ho
  obtain ⟨c, hcr, h⟩ := C100 _ hv ho ha _ hr'
  cases ok_inj (hr.symm.trans hcr)
  have h := h t (by
    intro d hd
    rw [whole_core] at hd
    obtain ⟨k, hk, rfl⟩ := List.mem_map.1 hd
    exact hT k hk)
  obtain ⟨x, hx, bx, rx⟩ := rank_figures hk he
  obtain ⟨y, hy, by', ry⟩ := rank_figures hk he'
  rw [PowerSpec.total_closed hx, PowerSpec.total_closed hy]
  congr 1
  refine List.map_congr_left fun d _ => ?_
  congr 1
  refine List.map_congr_left fun i hi => ?_
  have hi : i < ms.numberOfRanks := by rw [← hk]; exact List.mem_range.1 hi
  have hcyc : (y.rankTotal.getD i {}).cycles = (x.rankTotal.getD i {}).cycles := by rw [rx i hi, ry i hi, h]
  have hbank : y.bank = x.bank := by rw [bx, by', h]
  unfold PowerSpec.rankSum PowerSpec.contrib PowerSpec.statsIndex
  rw [PowerSpec.sharedTotal_rankEnergy, PowerSpec.sharedTotal_rankEnergy, hcyc]
  simp only [PowerSpec.bankTotal_bankEnergy, hbank, hcyc]

/-! ## A case that meets the hypotheses -/

/-- Precharges (one bank, all banks) before the first activation, and again after the bank has been precharged. -/
def c100Trace : List (ICmd × Bool) :=
  [ ({ t := 0, type := .PRE }, false), ({ t := 4, type := .PREA }, false), ({ t := 8, type := .ACT }, true), ({ t := 12, type := .PREA, co := { rank := 1 } }, false),
    ({ t := 20, type := .PRE }, true), ({ t := 32, type := .PRE }, false), ({ t := 40, type := .PREA }, false), ({ t := 48, type := .ACT }, true),
    ({ t := 60, type := .PREA }, true) ]

example (std : Std) : ValidSpec std Ex.ms ∧ Ordered ((whole c100Trace).map ICmd.core) ∧ Needless Ex.ms [] (coreMarks c100Trace) ∧
    (∀ c ∈ whole c100Trace, c.t ≤ 80) ∧ c53Power.ranks = Ex.ms.numberOfRanks ∧
    (c67Total std (whole c100Trace) 80).isSome = true ∧ (c67Total std (kept c100Trace) 80).isSome = true := by
  refine ⟨?_, ?_, ?_, ?_, ?_, ?_, ?_⟩ <;> cases std <;> decide +kernel

/-- Precharges of open banks are not needless. -/
example : ¬ Needless Ex.ms [] (coreMarks [({ t := 8, type := .ACT }, true), ({ t := 20, type := .PRE }, false)]) := by decide +kernel

end DRAMPower
