import Verif.Lemmas.Queue

/-!
# The same trace at a later time

A core that has executed a trace and one that has executed the same trace `d` cycles later.
-/

namespace DRAMPower

/-- All times of an interval `d` later. -/
def Interval.shift (d : Nat) (i : Interval) : Interval := { i with start := i.start.map (· + d), stop := i.stop.map (· + d) }

namespace Interval

variable (d : Nat) (i : Interval) (t : Nat)

theorem isOpen_shift : (i.shift d).isOpen = i.isOpen := by
  cases i with | mk c s e => cases s <;> cases e <;> rfl

theorem getStart_shift (h : i.start.isSome = true) : (i.shift d).getStart = i.getStart + d := by
  cases i with | mk c s e => cases s with
    | none => cases h
    | some s => rfl

theorem start_of_open (h : i.isOpen = true) : i.start.isSome = true := by
  simp only [isOpen, Bool.and_eq_true] at h
  exact h.1

theorem usub_shift (a b : Nat) : usub (a + d) (b + d) = usub a b := by
  unfold usub
  by_cases h : b ≤ a
  · rw [if_pos h, if_pos (by omega)]; omega
  · rw [if_neg h, if_neg (by omega)]; omega

theorem startAt_shift : (i.startAt t).shift d = (i.shift d).startAt (t + d) := rfl

theorem close_shift : (i.close t).shift d = (i.shift d).close (t + d) := by
  unfold close
  rw [isOpen_shift]
  by_cases h : i.isOpen = true
  · rw [if_pos h, if_pos h, getStart_shift d i (start_of_open i h)]
    simp only [shift, Option.map_some, Interval.mk.injEq, true_and, and_true]
    rw [← Nat.add_assoc, usub_shift]
  · rw [if_neg h, if_neg h]

theorem startIfNotRunning_shift : (i.startIfNotRunning t).shift d = (i.shift d).startIfNotRunning (t + d) := by
  unfold startIfNotRunning
  rw [isOpen_shift]
  split <;> rfl

theorem countAt_shift : (i.shift d).countAt (t + d) = i.countAt t := by
  unfold countAt
  rw [isOpen_shift]
  by_cases h : i.isOpen = true
  · rw [getStart_shift d i (start_of_open i h)]
    have hc : (i.shift d).count = i.count := rfl
    by_cases ht : i.getStart < t
    · simp only [h, hc, Bool.true_and, gt_iff_lt, decide_eq_true_eq, ht, if_true]
      rw [if_pos (by omega)]
      omega
    · simp only [h, hc, Bool.true_and, gt_iff_lt, decide_eq_true_eq, ht, if_false]
      rw [if_neg (by omega)]
  · simp only [Bool.not_eq_true] at h
    simp [h, shift]

end Interval

/-- A time that is `d` later, or has never been set. -/
def Later (d a b : Nat) : Prop := b = a + d ∨ a = 0 ∧ b = 0

theorem Later.max {d a b a' b' : Nat} (h : Later d a b) (h' : Later d a' b') : Later d (max a a') (max b b') := by
  unfold Later at *; omega

theorem Later.max_time {d a b t : Nat} (h : Later d a b) : Nat.max (t + d) b = Nat.max t a + d := by
  show Max.max (t + d) b = Max.max t a + d
  unfold Later at h; omega

/-- The restriction on times under which "never" and "at time 0" cannot be confused. -/
abbrev Pos (P : Prop) (t : Nat) : Prop := P → 0 < t

structure BankMoved (P : Prop) (d : Nat) (x y : Bank) : Prop where
  counter : y.counter = x.counter
  act : y.act = x.act.shift d
  pda : y.powerDownAct = x.powerDownAct.shift d
  pdp : y.powerDownPre = x.powerDownPre.shift d
  state : y.state = x.state
  latest : x.counter.pre ≠ 0 → y.latestPre = x.latestPre + d
  refr : Later d x.refreshEndTime y.refreshEndTime
  started : x.counter.act ≠ 0 → x.act.start.isSome = true
  stop : P → x.act.stop ≠ some 0

structure RankMoved (P : Prop) (d : Nat) (r s : Rank) : Prop where
  mem : s.memState = r.memState
  pre : s.pre = r.pre.shift d
  act : s.act = r.act.shift d
  ref : s.ref = r.ref.shift d
  sref : s.sref = r.sref.shift d
  pda : s.powerDownAct = r.powerDownAct.shift d
  pdp : s.powerDownPre = r.powerDownPre.shift d
  dsm : s.deepSleepMode = r.deepSleepMode.shift d
  srefC : s.selfRefreshCounter = r.selfRefreshCounter
  dsmC : s.deepSleepCounter = r.deepSleepCounter
  endRef : Later d r.endRefreshTime s.endRefreshTime
  nb : s.nBanks = r.nBanks
  bank : ∀ b, BankMoved P d (r.banks b) (s.banks b)
  pdaStart : P → r.powerDownAct.start ≠ some 0

variable {P : Prop} {d : Nat} {r s : Rank}

theorem RankMoved.init (n : Nat) : RankMoved P d { nBanks := n } { nBanks := n } := by
  refine ⟨rfl, rfl, rfl, rfl, rfl, rfl, rfl, rfl, rfl, rfl, .inr ⟨rfl, rfl⟩, rfl, fun b => ?_, by simp⟩
  exact ⟨rfl, rfl, rfl, rfl, rfl, fun h => absurd rfl h, .inr ⟨rfl, rfl⟩, fun h => absurd rfl h, by simp⟩

theorem RankMoved.active (h : RankMoved P d r s) (t : Nat) : s.isActive (t + d) = r.isActive t := by
  unfold Rank.isActive Rank.countActiveBanks
  rw [h.nb]
  have : (fun i => (s.banks i).state == BankState.active) = fun i => (r.banks i).state == BankState.active := by
    funext i; rw [(h.bank i).state]
  rw [this]
  have he : (t + d < s.endRefreshTime) = (t < r.endRefreshTime) := by
    have := h.endRef
    unfold Later at this
    exact propext ⟨fun _ => by omega, fun _ => by omega⟩
  simp only [he]

theorem RankMoved.setBank (h : RankMoved P d r s) {x y : Bank} (b : Nat) (hb : BankMoved P d x y) : RankMoved P d (r.setBank b x) (s.setBank b y) := by
  refine ⟨h.mem, h.pre, h.act, h.ref, h.sref, h.pda, h.pdp, h.dsm, h.srefC, h.dsmC, h.endRef, h.nb, fun i => ?_, h.pdaStart⟩
  simp only [Rank.setBank, upd]
  split
  · exact hb
  · exact h.bank i

theorem RankMoved.setAct (h : RankMoved P d r s) {a b : Interval} (ha : b = a.shift d) : RankMoved P d { r with act := a } { s with act := b } :=
  ⟨h.mem, h.pre, ha, h.ref, h.sref, h.pda, h.pdp, h.dsm, h.srefC, h.dsmC, h.endRef, h.nb, h.bank, h.pdaStart⟩

theorem RankMoved.mapBanks (h : RankMoved P d r s) {f g : Bank → Bank} (hf : ∀ b, BankMoved P d (f (r.banks b)) (g (s.banks b))) :
    RankMoved P d (r.mapBanks f) (s.mapBanks g) := by
  refine ⟨h.mem, h.pre, h.act, h.ref, h.sref, h.pda, h.pdp, h.dsm, h.srefC, h.dsmC, h.endRef, h.nb, fun i => ?_, h.pdaStart⟩
  simp only [Rank.mapBanks, h.nb]
  split
  · exact hf i
  · exact h.bank i

theorem BankMoved.close {x y : Bank} (h : BankMoved P d x y) {t : Nat} (ht : Pos P t) :
    BankMoved P d { x with act := x.act.close t } { y with act := y.act.close (t + d) } := by
  refine ⟨h.counter, by rw [Interval.close_shift, h.act], h.pda, h.pdp, h.state, h.latest, h.refr, fun hc => ?_, fun hp => ?_⟩
  · have := h.started hc
    unfold Interval.close
    split <;> exact this
  · unfold Interval.close
    split
    · intro he; injection he with he; exact absurd he (Nat.ne_of_gt (ht hp))
    · exact h.stop hp

theorem BankMoved.startAt {x y : Bank} (h : BankMoved P d x y) (t : Nat) :
    BankMoved P d { x with act := x.act.startAt t } { y with act := y.act.startAt (t + d) } :=
  ⟨h.counter, by rw [Interval.startAt_shift, h.act], h.pda, h.pdp, h.state, h.latest, h.refr, fun _ => rfl, fun _ => by simp [Interval.startAt]⟩

theorem BankMoved.startIfNotRunning {x y : Bank} (h : BankMoved P d x y) (t : Nat) :
    BankMoved P d { x with act := x.act.startIfNotRunning t } { y with act := y.act.startIfNotRunning (t + d) } := by
  refine ⟨h.counter, by rw [Interval.startIfNotRunning_shift, h.act], h.pda, h.pdp, h.state, h.latest, h.refr, fun hc => ?_, fun hp => ?_⟩
  · unfold Interval.startIfNotRunning; split
    · exact h.started hc
    · rfl
  · unfold Interval.startIfNotRunning; split
    · exact h.stop hp
    · simp [Interval.startAt]

theorem BankMoved.setState {x y : Bank} (h : BankMoved P d x y) (st : BankState) : BankMoved P d { x with state := st } { y with state := st } :=
  ⟨h.counter, h.act, h.pda, h.pdp, rfl, h.latest, h.refr, h.started, h.stop⟩

theorem BankMoved.setRefr {x y : Bank} (h : BankMoved P d x y) (t : Nat) :
    BankMoved P d { x with refreshEndTime := t } { y with refreshEndTime := t + d } :=
  ⟨h.counter, h.act, h.pda, h.pdp, h.state, h.latest, .inl rfl, h.started, h.stop⟩

/-- A counter other than those of activations and precharges. -/
theorem BankMoved.count {x y : Bank} (h : BankMoved P d x y) {f : Counters → Counters} (ha : ∀ c, (f c).act = c.act) (hp : ∀ c, (f c).pre = c.pre) :
    BankMoved P d { x with counter := f x.counter } { y with counter := f y.counter } :=
  ⟨by rw [h.counter], h.act, h.pda, h.pdp, h.state, fun hc => h.latest (by rwa [← hp]), h.refr, fun hc => h.started (by rwa [← ha]), h.stop⟩

/-- Closing the interval of the rank unless something is active. -/
theorem RankMoved.closeUnless (h : RankMoved P d r s) (t : Nat) :
    RankMoved P d (if r.isActive t then r else { r with act := r.act.close t }) (if s.isActive (t + d) then s else { s with act := s.act.close (t + d) }) := by
  rw [h.active]
  split
  · exact h
  · exact h.setAct (by rw [Interval.close_shift, h.act])

/-- Starting the interval of the rank unless something is active. -/
theorem RankMoved.startUnless (h : RankMoved P d r s) (t : Nat) :
    RankMoved P d (if r.isActive t then r else { r with act := r.act.startAt t })
      (if s.isActive (t + d) then s else { s with act := s.act.startAt (t + d) }) := by
  rw [h.active]
  split
  · exact h
  · exact h.setAct (by rw [Interval.startAt_shift, h.act])

theorem handlePre_moved (h : RankMoved P d r s) (b : Nat) {t : Nat} (ht : Pos P t) :
    RankMoved P d (Shared.handlePre r b t) (Shared.handlePre s b (t + d)) := by
  unfold Shared.handlePre
  simp only [(h.bank b).state]
  split
  · exact h
  · have hb := ((h.bank b).close ht).setState .precharged
    refine RankMoved.closeUnless (h.setBank b ?_) t
    exact ⟨by simp only [(h.bank b).counter], hb.act, hb.pda, hb.pdp, rfl, fun _ => rfl, hb.refr, hb.started, hb.stop⟩

theorem DDR4.handlePre_eq : DDR4.handlePre = Shared.handlePre := rfl

theorem handleAct_moved (std : Std) (h : RankMoved P d r s) (b t : Nat) : RankMoved P d (handleAct std r b t) (handleAct std s b (t + d)) := by
  have hb : ∀ st st' : BankState, st = st' →
      BankMoved P d { r.banks b with counter := { (r.banks b).counter with act := (r.banks b).counter.act + 1 }, state := st, act := (r.banks b).act.startAt t }
        { s.banks b with counter := { (s.banks b).counter with act := (s.banks b).counter.act + 1 }, state := st', act := (s.banks b).act.startAt (t + d) } := by
    intro st st' e
    have hb := (h.bank b).startAt t
    exact ⟨by simp only [(h.bank b).counter], hb.act, hb.pda, hb.pdp, e.symm, hb.latest, hb.refr, fun _ => rfl, hb.stop⟩
  have hs : RankMoved P d (Shared.handleAct r b t) (Shared.handleAct s b (t + d)) := by
    unfold Shared.handleAct
    have h1 := (h.setBank b (hb _ _ (h.bank b).state.symm)).startUnless t
    exact h1.setBank b ((h1.bank b).setState .active)
  cases std
  case ddr4 =>
    have h1 := h.setBank b (hb .active .active rfl)
    exact h1.setAct (by rw [Interval.startIfNotRunning_shift, h1.act])
  all_goals exact hs

theorem refreshOnBank_moved {cnt : Counters → Counters} (ha : ∀ c, (cnt c).act = c.act) (hp : ∀ c, (cnt c).pre = c.pre) (dur t : Nat) {res res' : HRes}
    (h : RankMoved P d res.1 res'.1) (b : Nat) :
    RankMoved P d (Shared.handleRefreshOnBank cnt dur t res b).1 (Shared.handleRefreshOnBank cnt dur (t + d) res' b).1 := by
  unfold Shared.handleRefreshOnBank
  have h1 := (h.setBank b ((h.bank b).count ha hp)).startUnless t
  have h2 := (((h1.bank b).startIfNotRunning t).setState .active).setRefr (t + dur)
  have e : t + d + dur = t + dur + d := by omega
  simp only [e]
  exact h1.setBank b h2

/-- Implicit commands `d` later. -/
def laterImps (d : Nat) (l : List (Nat × Imp)) : List (Nat × Imp) := l.map fun e => (e.1 + d, e.2)

theorem refreshFold_moved {cnt : Counters → Counters} (ha : ∀ c, (cnt c).act = c.act) (hp : ∀ c, (cnt c).pre = c.pre) (dur t : Nat) (l : List Nat) :
    ∀ {res res' : HRes}, RankMoved P d res.1 res'.1 → res'.2 = laterImps d res.2 →
      RankMoved P d (l.foldl (Shared.handleRefreshOnBank cnt dur t) res).1 (l.foldl (Shared.handleRefreshOnBank cnt dur (t + d)) res').1 ∧
        (l.foldl (Shared.handleRefreshOnBank cnt dur (t + d)) res').2 = laterImps d (l.foldl (Shared.handleRefreshOnBank cnt dur t) res).2 := by
  induction l with
  | nil => intro res res' h1 h2; exact ⟨h1, h2⟩
  | cons b l ih =>
    intro res res' h1 h2
    refine ih (refreshOnBank_moved ha hp dur t h1 b) ?_
    simp only [Shared.handleRefreshOnBank, h2, laterImps, List.map_append, List.map_cons, List.map_nil]
    have e : t + d + dur = t + dur + d := by omega
    rw [e]

theorem preFold_moved {t : Nat} (ht : Pos P t) (l : List Nat) : ∀ {r s : Rank}, RankMoved P d r s →
    RankMoved P d (l.foldl (fun r b => Shared.handlePre r b t) r) (l.foldl (fun r b => Shared.handlePre r b (t + d)) s) := by
  induction l with
  | nil => intro r s h; exact h
  | cons b l ih => intro r s h; exact ih (handlePre_moved h b ht)

theorem earliestPossible_moved (std : Std) (ms : MemSpec) (h : RankMoved P d r s) : Later d (earliestPossible std ms r) (earliestPossible std ms s) := by
  unfold earliestPossible
  rw [h.nb]
  generalize List.range r.nBanks = l
  have : ∀ (l : List Nat) (a a' : Nat), Later d a a' → Later d
      (l.foldl (fun acc i => max (max (max acc (if (r.banks i).counter.act = 0 then 0 else (r.banks i).act.getStart + effRCD std ms))
        (if (r.banks i).counter.pre = 0 then 0 else (r.banks i).latestPre + ms.tRP)) (r.banks i).refreshEndTime) a)
      (l.foldl (fun acc i => max (max (max acc (if (s.banks i).counter.act = 0 then 0 else (s.banks i).act.getStart + effRCD std ms))
        (if (s.banks i).counter.pre = 0 then 0 else (s.banks i).latestPre + ms.tRP)) (s.banks i).refreshEndTime) a') := by
    intro l
    induction l with
    | nil => intro a a' h; exact h
    | cons i l ih =>
      intro a a' ha
      refine ih _ _ (((ha.max ?_).max ?_).max (h.bank i).refr)
      · rw [(h.bank i).counter]
        by_cases hc : (r.banks i).counter.act = 0
        · rw [if_pos hc, if_pos hc]; exact .inr ⟨rfl, rfl⟩
        · rw [if_neg hc, if_neg hc, (h.bank i).act, Interval.getStart_shift _ _ ((h.bank i).started hc)]
          left; omega
      · rw [(h.bank i).counter]
        by_cases hc : (r.banks i).counter.pre = 0
        · rw [if_pos hc, if_pos hc]; exact .inr ⟨rfl, rfl⟩
        · rw [if_neg hc, if_neg hc, (h.bank i).latest hc]
          left; omega
  exact this l 0 0 (.inr ⟨rfl, rfl⟩)

/-- Two results of a handler. -/
inductive HMoved (std : Std) (P : Prop) (d t : Nat) : Except Err HRes → Except Err HRes → Prop
  | error (e : Err) : HMoved std P d t (.error e) (.error e)
  | ok (r s : Rank) (l : List (Nat × Imp)) (h : RankMoved P d r s) (ht : ∀ e ∈ l, t ≤ e.1) (hi : (∃ e ∈ l, e.2 = .pdaExit) → std = .ddr4 ∨ P) :
      HMoved std P d t (.ok (r, l)) (.ok (s, laterImps d l))

end DRAMPower
