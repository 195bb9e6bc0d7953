import Verif.Lemmas.Session

/-!
# The numbers of reads and writes are only counted

Nothing in the core depends on the counters of reads and writes.
-/

namespace DRAMPower

/-- `f` reads and `g` writes more. -/
def Bank.more (f g : Nat) (b : Bank) : Bank :=
  { b with counter := { b.counter with reads := b.counter.reads + f, writes := b.counter.writes + g } }

/-- `f b` reads and `g b` writes more of every bank `b`. -/
def Rank.more (f g : Nat → Nat) (r : Rank) : Rank := { r with banks := fun b => (r.banks b).more (f b) (g b) }

variable {f g : Nat → Nat} {r : Rank} {std : Std} {ms : MemSpec}

theorem Rank.setBank_more {b : Nat} {x : Bank} : (r.more f g).setBank b (x.more (f b) (g b)) = (r.setBank b x).more f g := by
  unfold Rank.setBank Rank.more
  congr 1
  funext i
  simp only [upd]
  split
  · rename_i h; subst h; rfl
  · rfl

theorem Rank.isActive_more {t : Nat} : (r.more f g).isActive t = r.isActive t := rfl

theorem Rank.mapBanks_more {h : Bank → Bank} (hh : ∀ f g x, h (x.more f g) = (h x).more f g) : (r.more f g).mapBanks h = (r.mapBanks h).more f g := by
  unfold Rank.mapBanks Rank.more
  congr 1
  funext i
  simp only [hh]
  split <;> rfl

theorem Rank.ite_more {c : Prop} [Decidable c] {a b : Rank} : (if c then a.more f g else b.more f g) = (if c then a else b).more f g := by
  split <;> rfl

theorem Shared.handleAct_more {b t : Nat} : Shared.handleAct (r.more f g) b t = (Shared.handleAct r b t).more f g := by
  unfold Shared.handleAct
  have e : ∀ a : Rank, (let r' := if (a.more f g).isActive t then a.more f g else { a.more f g with act := (a.more f g).act.startAt t };
      r'.setBank b { r'.banks b with state := .active }) =
      (let r' := if a.isActive t then a else { a with act := a.act.startAt t }; r'.setBank b { r'.banks b with state := .active }).more f g := by
    intro a
    have h : (if (a.more f g).isActive t then a.more f g else { a.more f g with act := (a.more f g).act.startAt t }) =
        (if a.isActive t then a else { a with act := a.act.startAt t }).more f g := by rw [Rank.isActive_more]; split <;> rfl
    simp only [h]
    exact Rank.setBank_more (x := { (if a.isActive t then a else { a with act := a.act.startAt t }).banks b with state := .active })
  have k := Rank.setBank_more (f := f) (g := g) (r := r) (b := b)
    (x := { r.banks b with counter := { (r.banks b).counter with act := (r.banks b).counter.act + 1 }, act := (r.banks b).act.startAt t })
  have := e (r.setBank b { r.banks b with counter := { (r.banks b).counter with act := (r.banks b).counter.act + 1 }, act := (r.banks b).act.startAt t })
  rw [← k] at this
  exact this

theorem DDR4.handleAct_more {b t : Nat} : DDR4.handleAct (r.more f g) b t = (DDR4.handleAct r b t).more f g := by
  unfold DDR4.handleAct
  have k := Rank.setBank_more (f := f) (g := g) (r := r) (b := b)
    (x := { r.banks b with counter := { (r.banks b).counter with act := (r.banks b).counter.act + 1 }, state := .active, act := (r.banks b).act.startAt t })
  exact congrArg (fun a : Rank => { a with act := a.act.startIfNotRunning t }) k

theorem closes_more {t : Nat} {a : Rank} : (if (a.more f g).isActive t then a.more f g else { a.more f g with act := (a.more f g).act.close t }) =
    (if a.isActive t then a else { a with act := a.act.close t }).more f g := by
  rw [Rank.isActive_more]; split <;> rfl

theorem Shared.handlePre_more {b t : Nat} : Shared.handlePre (r.more f g) b t = (Shared.handlePre r b t).more f g := by
  unfold Shared.handlePre
  have k := Rank.setBank_more (f := f) (g := g) (r := r) (b := b)
    (x := { r.banks b with counter := { (r.banks b).counter with pre := (r.banks b).counter.pre + 1 }, act := (r.banks b).act.close t, latestPre := t, state := .precharged })
  have h := closes_more (f := f) (g := g) (t := t) (a := r.setBank b
    { r.banks b with counter := { (r.banks b).counter with pre := (r.banks b).counter.pre + 1 }, act := (r.banks b).act.close t, latestPre := t, state := .precharged })
  rw [← k] at h
  by_cases c : (r.banks b).state = .precharged
  · rw [if_pos c, if_pos (show ((r.more f g).banks b).state = .precharged from c)]
  · rw [if_neg c, if_neg (show ¬ ((r.more f g).banks b).state = .precharged from c)]
    exact h

theorem DDR4.handlePre_more {b t : Nat} : DDR4.handlePre (r.more f g) b t = (DDR4.handlePre r b t).more f g := by
  unfold DDR4.handlePre
  have k := Rank.setBank_more (f := f) (g := g) (r := r) (b := b)
    (x := { r.banks b with counter := { (r.banks b).counter with pre := (r.banks b).counter.pre + 1 }, state := .precharged, act := (r.banks b).act.close t, latestPre := t })
  have h := closes_more (f := f) (g := g) (t := t) (a := r.setBank b
    { r.banks b with counter := { (r.banks b).counter with pre := (r.banks b).counter.pre + 1 }, state := .precharged, act := (r.banks b).act.close t, latestPre := t })
  rw [← k] at h
  by_cases c : (r.banks b).state = .precharged
  · rw [if_pos c, if_pos (show ((r.more f g).banks b).state = .precharged from c)]
  · rw [if_neg c, if_neg (show ¬ ((r.more f g).banks b).state = .precharged from c)]
    exact h

theorem handleAct_more {b t : Nat} : handleAct std (r.more f g) b t = (handleAct std r b t).more f g := by
  cases std <;> first | exact DDR4.handleAct_more | exact Shared.handleAct_more

theorem handlePre_more {b t : Nat} : handlePre std (r.more f g) b t = (handlePre std r b t).more f g := by
  cases std <;> first | exact DDR4.handlePre_more | exact Shared.handlePre_more

theorem foldl_more {h : Rank → Nat → Rank} (hh : ∀ r b, h (r.more f g) b = (h r b).more f g) (l : List Nat) :
    ∀ r : Rank, l.foldl h (r.more f g) = (l.foldl h r).more f g := by
  induction l with
  | nil => intro r; rfl
  | cons a l ih => intro r; rw [List.foldl_cons, List.foldl_cons, hh, ih]

theorem handlePreAll_more {t : Nat} : handlePreAll std (r.more f g) t = (handlePreAll std r t).more f g :=
  foldl_more (h := fun r b => handlePre std r b t) (fun _ _ => handlePre_more) _ _

/-- The result of a handler with the larger counters. -/
def HRes.more (f g : Nat → Nat) (x : HRes) : HRes := (x.1.more f g, x.2)

/-- Updaters that leave the numbers of reads and writes alone. -/
def Aside (cnt : Counters → Counters) : Prop :=
  ∀ (c : Counters) (f g : Nat), cnt { c with reads := c.reads + f, writes := c.writes + g } = { cnt c with reads := (cnt c).reads + f, writes := (cnt c).writes + g }

theorem Shared.handleRefreshOnBank_more {cnt : Counters → Counters} (hc : Aside cnt) {timing t b : Nat} (res : HRes) :
    Shared.handleRefreshOnBank cnt timing t (HRes.more f g res) b = HRes.more f g (Shared.handleRefreshOnBank cnt timing t res b) := by
  obtain ⟨r, l⟩ := res
  have k := Rank.setBank_more (f := f) (g := g) (r := r) (b := b) (x := { r.banks b with counter := cnt (r.banks b).counter })
  have k0 : Bank.more (f b) (g b) { r.banks b with counter := cnt (r.banks b).counter } =
      { (r.more f g).banks b with counter := cnt ((r.more f g).banks b).counter } := by
    show _ = Bank.mk (cnt { (r.banks b).counter with reads := (r.banks b).counter.reads + f b, writes := (r.banks b).counter.writes + g b }) _ _ _ _ _ _
    rw [hc]
    rfl
  rw [k0] at k
  unfold Shared.handleRefreshOnBank HRes.more
  simp only [k]
  generalize r.setBank b { r.banks b with counter := cnt (r.banks b).counter } = a
  have h : (if (a.more f g).isActive t then a.more f g else { a.more f g with act := (a.more f g).act.startAt t }) =
      (if a.isActive t then a else { a with act := a.act.startAt t }).more f g := by rw [Rank.isActive_more]; split <;> rfl
  simp only [h]
  generalize (if a.isActive t then a else { a with act := a.act.startAt t }) = a'
  refine Prod.ext ?_ rfl
  exact Rank.setBank_more (x := { a'.banks b with state := .active, refreshEndTime := t + timing, act := if (a'.banks b).act.isOpen then (a'.banks b).act else (a'.banks b).act.startAt t })

theorem foldl_refresh_more {cnt : Counters → Counters} (hc : Aside cnt) {timing t : Nat} (l : List Nat) : ∀ res : HRes,
    l.foldl (Shared.handleRefreshOnBank cnt timing t) (HRes.more f g res) = HRes.more f g (l.foldl (Shared.handleRefreshOnBank cnt timing t) res) := by
  induction l with
  | nil => intro r; rfl
  | cons a l ih => intro r; rw [List.foldl_cons, List.foldl_cons, Shared.handleRefreshOnBank_more hc, ih]

theorem handleRefAll_more {t : Nat} : handleRefAll std ms (r.more f g) t = HRes.more f g (handleRefAll std ms r t) := by
  have hs : Shared.handleRefAll ms (r.more f g) t = HRes.more f g (Shared.handleRefAll ms r t) := by
    unfold Shared.handleRefAll
    have := foldl_refresh_more (f := f) (g := g) (cnt := fun c => { c with refAllBank := c.refAllBank + 1 }) (fun _ _ _ => rfl) (timing := ms.tRFC) (t := t)
      (List.range r.nBanks) (r, [])
    exact congrArg (fun res : HRes => (({ res.1 with endRefreshTime := t + ms.tRFC }, res.2) : HRes)) this
  have hd : DDR4.handleRefAll ms (r.more f g) t = HRes.more f g (DDR4.handleRefAll ms r t) := by
    unfold DDR4.handleRefAll
    refine Prod.ext ?_ rfl
    exact Rank.mapBanks_more (r := { r with endRefreshTime := t + ms.tRFC, act := r.act.startIfNotRunning t })
      (h := fun bank => { bank with state := .active, counter := { bank.counter with refAllBank := bank.counter.refAllBank + 1 }, act := bank.act.startIfNotRunning t, refreshEndTime := t + ms.tRFC }) (fun _ _ _ => rfl)
  cases std <;> first | exact hd | exact hs

theorem earliestPossible_more : earliestPossible std ms (r.more f g) = earliestPossible std ms r := rfl

theorem exec_more {t : Nat} {i : Imp} : exec std (r.more f g) t i = (exec std r t i).more f g := by
  have hre : ∀ b, Shared.execRefEnd (r.more f g) b t = (Shared.execRefEnd r b t).more f g := fun b => by
    unfold Shared.execRefEnd
    have k := Rank.setBank_more (f := f) (g := g) (r := r) (b := b) (x := { r.banks b with state := .precharged, act := (r.banks b).act.close t })
    have h := closes_more (f := f) (g := g) (t := t) (a := r.setBank b { r.banks b with state := .precharged, act := (r.banks b).act.close t })
    rw [← k] at h
    exact h
  have hst : ∀ a : Rank, (a.more f g).mapBanks (fun bank => if bank.state = .active then { bank with act := bank.act.startAt t } else bank) =
      (a.mapBanks fun bank => if bank.state = .active then { bank with act := bank.act.startAt t } else bank).more f g := fun a =>
    Rank.mapBanks_more fun f' g' x => by
      rw [show (x.more f' g').state = x.state from rfl]
      split <;> rfl
  cases i with
  | pre b => exact handlePre_more
  | refEnd b => cases std <;> exact hre b
  | srefEnter => rfl
  | pdaEnter =>
    cases std <;> exact Rank.mapBanks_more (r := { r with powerDownAct := r.powerDownAct.startAt t, memState := .pdnAct, act := r.act.close t })
      (h := fun bank => { bank with act := bank.act.close t }) (fun _ _ _ => rfl)
  | pdaExit =>
    have hd : DDR4.execPdaExit (r.more f g) t = (DDR4.execPdaExit r t).more f g := by
      unfold DDR4.execPdaExit
      have k := hst { r with memState := .notInPD, powerDownAct := r.powerDownAct.close t }
      have h : ∀ a : Rank, (if (a.more f g).isActive t then { a.more f g with act := (a.more f g).act.startAt t } else a.more f g) =
          (if a.isActive t then { a with act := a.act.startAt t } else a).more f g := fun a => by
        rw [Rank.isActive_more]; split <;> rfl
      have h := h ((Rank.mapBanks { r with memState := .notInPD, powerDownAct := r.powerDownAct.close t }) fun bank =>
        if bank.state = .active then { bank with act := bank.act.startAt t } else bank)
      rw [← k] at h
      exact h
    have hr : ∀ (a : Rank) (f' g' : Nat) (x : Bank), (if Shared.restarts a (x.more f' g') then { x.more f' g' with act := (x.more f' g').act.startAt t } else x.more f' g') =
        (if Shared.restarts a x then { x with act := x.act.startAt t } else x).more f' g' := fun a f' g' x => by
      rw [show Shared.restarts a (x.more f' g') = Shared.restarts a x from rfl]
      split <;> rfl
    have hs : Shared.execPdaExit (r.more f g) t = (Shared.execPdaExit r t).more f g := by
      unfold Shared.execPdaExit
      have k := Rank.mapBanks_more (f := f) (g := g) (r := { r with memState := .notInPD, powerDownAct := r.powerDownAct.close t })
        (h := fun x => if Shared.restarts { r with memState := .notInPD, powerDownAct := r.powerDownAct.close t } x then { x with act := x.act.startAt t } else x)
        (hr { r with memState := .notInPD, powerDownAct := r.powerDownAct.close t })
      have h : ∀ (q : Bool) (a : Rank), (if q then { a.more f g with act := (a.more f g).act.startAt t } else a.more f g) =
          (if q then { a with act := a.act.startAt t } else a).more f g := fun q a => by split <;> rfl
      have h := h ((List.range r.nBanks).any fun i => Shared.restarts { r with memState := .notInPD, powerDownAct := r.powerDownAct.close t } (r.banks i))
        (Rank.mapBanks { r with memState := .notInPD, powerDownAct := r.powerDownAct.close t } fun x =>
          if Shared.restarts { r with memState := .notInPD, powerDownAct := r.powerDownAct.close t } x then { x with act := x.act.startAt t } else x)
      rw [← k] at h
      exact h
    have hl : LPDDR6.execPdaExit (r.more f g) t = (LPDDR6.execPdaExit r t).more f g :=
      Rank.mapBanks_more (f := f) (g := g) (r := { r with memState := .notInPD, powerDownAct := r.powerDownAct.close t, act := r.act.startAt t })
        (h := fun x => if Shared.restarts { r with memState := .notInPD, powerDownAct := r.powerDownAct.close t, act := r.act.startAt t } x then { x with act := x.act.startAt t } else x)
        (hr { r with memState := .notInPD, powerDownAct := r.powerDownAct.close t, act := r.act.startAt t })
    cases std
    · exact hd
    · exact hs
    · exact hs
    · exact hs
    · exact hl
  | pdpEnter =>
    have hd : DDR4.execPdpEnter (r.more f g) t = (DDR4.execPdpEnter r t).more f g :=
      congrArg (fun a : Rank => { a with memState := .pdnPre, powerDownPre := a.powerDownPre.startAt t, act := a.act.close t })
        (Rank.mapBanks_more (f := f) (g := g) (r := r) (h := fun bank => { bank with act := bank.act.close t }) (fun _ _ _ => rfl))
    cases std
    · exact hd
    all_goals rfl
  | pdpExit =>
    have hd : DDR4.execPdpExit (r.more f g) t = (DDR4.execPdpExit r t).more f g :=
      hst { r with memState := .notInPD, powerDownPre := r.powerDownPre.close t }
    cases std
    · exact hd
    all_goals rfl

/-- Every handler does the same, whatever the numbers of reads and writes. -/
theorem handle_more {c : Cmd} : handle std ms (r.more f g) c = (handle std ms r c).map (HRes.more f g) := by
  have hw : ∀ (b : Nat) (k k' : Except Err HRes), k = k'.map (HRes.more f g) → withBank (r.more f g) b k = (withBank r b k').map (HRes.more f g) := by
    intro b k k' h
    unfold withBank
    rw [show (r.more f g).nBanks = r.nBanks from rfl]
    split
    · exact h
    · rfl
  have hp : ∀ x : Rank, pureRes (x.more f g) = (pureRes x).map (HRes.more f g) := fun _ => rfl
  have hauto : ∀ (cnt : Counters → Counters) (_ : Aside cnt) (b off : Nat) (t : Nat),
      ((r.more f g).setBank b { (r.more f g).banks b with counter := cnt ((r.more f g).banks b).counter }) =
        (r.setBank b { r.banks b with counter := cnt (r.banks b).counter }).more f g := by
    intro cnt hc b off t
    rw [← Rank.setBank_more]
    congr 1
    show Bank.mk (cnt { (r.banks b).counter with reads := (r.banks b).counter.reads + f b, writes := (r.banks b).counter.writes + g b }) _ _ _ _ _ _ = _
    rw [hc]
    rfl
  have hsame : ∀ (b t : Nat), handlePreSameBank ms (r.more f g) b t = (handlePreSameBank ms r b t).map (HRes.more f g) := by
    intro b t
    unfold handlePreSameBank
    rw [show (r.more f g).nBanks = r.nBanks from rfl]
    split
    · rfl
    · split
      · rw [foldl_more (h := fun r b => Shared.handlePre r b t) (fun _ _ => Shared.handlePre_more)]; rfl
      · rfl
  have hrsame : ∀ (b t : Nat), handleRefSameBank ms (r.more f g) b t = (handleRefSameBank ms r b t).map (HRes.more f g) := by
    intro b t
    unfold handleRefSameBank
    rw [show (r.more f g).nBanks = r.nBanks from rfl]
    split
    · rfl
    · split
      · exact congrArg Except.ok (foldl_refresh_more (cnt := fun c => { c with refSameBank := c.refSameBank + 1 }) (fun _ _ _ => rfl) _ (r, []))
      · rfl
  have hr2 : ∀ (b t : Nat), handleRefPerTwoBanks ms (r.more f g) b t = (handleRefPerTwoBanks ms r b t).map (HRes.more f g) := by
    intro b t
    unfold handleRefPerTwoBanks
    rw [show (r.more f g).nBanks = r.nBanks from rfl]
    simp only
    split
    · exact congrArg Except.ok (foldl_refresh_more (cnt := fun c => { c with refPerTwoBanks := c.refPerTwoBanks + 1 }) (fun _ _ _ => rfl) _ (r, []))
    · rfl
  unfold handle
  cases c.type <;> simp only
  case ACT => exact hw _ _ _ (congrArg pureRes handleAct_more)
  case PRE => exact hw _ _ _ (congrArg pureRes handlePre_more)
  case PREA => exact congrArg pureRes handlePreAll_more
  case REFA => exact congrArg Except.ok handleRefAll_more
  case RD =>
    refine hw _ _ _ (congrArg pureRes ?_)
    exact hauto (fun c => { c with reads := c.reads + 1 }) (fun c f g => by simp only [Counters.mk.injEq, true_and, and_true]; omega) _ 0 0
  case WR =>
    refine hw _ _ _ (congrArg pureRes ?_)
    exact hauto (fun c => { c with writes := c.writes + 1 }) (fun c f g => by simp only [Counters.mk.injEq, true_and, and_true]; omega) _ 0 0
  case RDA =>
    refine hw _ _ _ (congrArg Except.ok ?_)
    have k := hauto (fun c => { c with readAuto := c.readAuto + 1 }) (fun c f g => rfl) c.bank 0 0
    exact Prod.ext k (by simp [handleReadAuto, handleWriteAuto, HRes.more, Rank.setBank, Rank.more, Bank.more, upd])
  case WRA =>
    refine hw _ _ _ (congrArg Except.ok ?_)
    have k := hauto (fun c => { c with writeAuto := c.writeAuto + 1 }) (fun c f g => rfl) c.bank 0 0
    exact Prod.ext k (by simp [handleReadAuto, handleWriteAuto, HRes.more, Rank.setBank, Rank.more, Bank.more, upd])
  case SREFEN =>
    unfold handleSelfRefreshEntry
    rw [handleRefAll_more]
    rfl
  case SREFEX =>
    unfold handleSelfRefreshExit
    rw [show (r.more f g).memState = r.memState from rfl]
    split <;> rfl
  case PDEA => rfl
  case PDEP => rfl
  case PDXA =>
    unfold handlePowerDownActExit
    rw [show (r.more f g).memState = r.memState from rfl]
    split <;> rfl
  case PDXP => rfl
  case PRESB =>
    split
    · exact hw _ _ _ (hsame _ _)
    · rfl
  case REFSB =>
    split
    · exact hw _ _ _ (hrsame _ _)
    · rfl
  case REFB =>
    split
    · refine hw _ _ _ (congrArg Except.ok ?_)
      exact Shared.handleRefreshOnBank_more (cnt := fun c => { c with refPerBank := c.refPerBank + 1 }) (fun _ _ _ => rfl) (r, [])
    · rfl
  case REFP2B =>
    split
    · split
      · rfl
      · exact hw _ _ _ (hr2 _ _)
    · rfl
  case REFDB =>
    split
    · refine hw _ _ _ (hw _ _ _ (congrArg Except.ok ?_))
      exact foldl_refresh_more (cnt := fun c => { c with refDualBanks := c.refDualBanks + 1 }) (fun _ _ _ => rfl) [_, _] (r, [])
    · rfl
  case DSMEN =>
    split
    · unfold handleDSMEntry
      rw [show (r.more f g).memState = r.memState from rfl]
      split <;> rfl
    · rfl
  case DSMEX =>
    split
    · unfold handleDSMExit
      rw [show (r.more f g).memState = r.memState from rfl]
      split <;> rfl
    · rfl
  all_goals rfl

/-! ## Whole cores -/

/-- `c'` is `c` with more reads and writes counted; when the last command came is left open. -/
structure Core.More (f g : Nat → Nat → Nat) (c c' : Core) : Prop where
  ranks : ∀ i, c'.ranks i = (c.ranks i).more (f i) (g i)
  queue : c'.queue = c.queue

theorem processQ_more {f g : Nat → Nat → Nat} {t : Nat} : ∀ (q : List QEntry) (rs rs' : Nat → Rank) (l l' : Nat), (∀ i, rs' i = (rs i).more (f i) (g i)) →
    Core.More f g (processQ std t rs l q) (processQ std t rs' l' q)
  | [], _, _, _, _, h => ⟨h, rfl⟩
  | e :: q, rs, rs', l, l', h => by
    unfold processQ
    split
    · refine processQ_more q _ _ _ _ fun i => ?_
      simp only [upd]
      split
      · rename_i hi; subst hi; rw [h, exec_more]
      · exact h i
    · exact ⟨h, rfl⟩

theorem Core.More.process {f g : Nat → Nat → Nat} {c c' : Core} (h : Core.More f g c c') (t : Nat) : Core.More f g (c.process std t) (c'.process std t) := by
  unfold Core.process
  rw [h.queue]
  exact processQ_more _ _ _ _ _ h.ranks

theorem Core.More.doCommand {f g : Nat → Nat → Nat} {c c' d' : Core} {cmd : Cmd} (h : Core.More f g c c') (hd : c'.doCommand std ms cmd = .ok d') :
    ∃ d, c.doCommand std ms cmd = .ok d ∧ Core.More f g d d' := by
  have hp := h.process (std := std) cmd.t
  unfold Core.doCommand at hd ⊢
  simp only at hd ⊢
  split at hd
  · rename_i hn
    rw [if_pos hn]
    cases hd
    exact ⟨_, rfl, hp.ranks, hp.queue⟩
  · rename_i hn
    rw [if_neg hn]
    split at hd
    · rename_i hr
      rw [if_pos hr]
      rw [hp.ranks, handle_more] at hd
      cases hh : handle std ms ((c.process std cmd.t).ranks cmd.rank) cmd with
      | error e => rw [hh] at hd; cases hd
      | ok x =>
        rw [hh] at hd
        cases hd
        refine ⟨_, rfl, fun i => ?_, ?_⟩
        · simp only [upd]
          split
          · rename_i hi; subst hi; rfl
          · exact hp.ranks i
        · show enqueue _ _ _ = enqueue _ _ _
          rw [hp.queue]
    · cases hd

/-- A read or a write only counts. -/
theorem Core.More.access {f g : Nat → Nat → Nat} {c c' d' : Core} {cmd : Cmd} (h : Core.More f g c c') (hd : c'.doCommand std ms cmd = .ok d')
    (ha : cmd.type = .RD ∨ cmd.type = .WR) :
    Core.More (fun i b => f i b + if cmd.type = .RD ∧ cmd.rank = i ∧ cmd.bank = b then 1 else 0)
      (fun i b => g i b + if cmd.type = .WR ∧ cmd.rank = i ∧ cmd.bank = b then 1 else 0) (c.process std cmd.t) d' := by
  have hp := h.process (std := std) cmd.t
  unfold Core.doCommand at hd
  simp only at hd
  have hn : isNoEffect std cmd.type = false := by rcases ha with e | e <;> rw [e] <;> cases std <;> rfl
  rw [hn] at hd
  simp only [Bool.false_eq_true, if_false] at hd
  split at hd
  · have key : ∀ x, handle std ms ((c'.process std cmd.t).ranks cmd.rank) cmd = .ok x → x.2 = [] ∧
        x.1 = ((c.process std cmd.t).ranks cmd.rank).more (fun b => f cmd.rank b + if cmd.type = .RD ∧ cmd.bank = b then 1 else 0)
          (fun b => g cmd.rank b + if cmd.type = .WR ∧ cmd.bank = b then 1 else 0) := by
      intro x hx
      rw [hp.ranks] at hx
      generalize (c.process std cmd.t).ranks cmd.rank = r at hx ⊢
      unfold handle at hx
      rcases ha with e | e <;> rw [e] at hx ⊢ <;> simp only [withBank, pureRes] at hx <;> split at hx <;> cases hx <;> refine ⟨rfl, ?_⟩ <;>
        simp only [handleRead, handleWrite, Rank.setBank, Rank.more, Rank.mk.injEq, true_and] <;> funext b <;> simp only [upd] <;> split
      all_goals first
        | (rename_i hb; subst hb; simp [Bank.more]; omega)
        | (rename_i hb; simp [Bank.more, Ne.symm hb])
    split at hd
    · rename_i r' imps hx
      cases hd
      obtain ⟨k1, k2⟩ := key _ hx
      simp only at k1 k2
      subst k1
      refine ⟨fun i => ?_, hp.queue⟩
      simp only [upd]
      split
      · rename_i hi
        subst hi
        rw [k2]
        simp
      · rename_i hi
        rw [hp.ranks]
        simp [Ne.symm hi]
    · cases hd
  · cases hd

end DRAMPower
