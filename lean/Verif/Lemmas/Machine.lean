import Verif.Spec.Machine
import Verif.Lemmas.MovedRun

/-!
# The machine computes modulo 2^64

`wrap…` takes the state of the core over the natural numbers to the state of the core over `UInt64`. It commutes with every handler as long as
the *times* in the state are below 2^64; the accumulated counts need not be.
-/

namespace DRAMPower

open Machine (w)

theorem w_toNat {a : Nat} (h : a < 2 ^ 64) : (w a).toNat = a := UInt64.toNat_ofNat_of_lt' h

theorem w_lt {a b : Nat} (ha : a < 2 ^ 64) (hb : b < 2 ^ 64) : w a < w b ↔ a < b := by
  rw [UInt64.lt_iff_toNat_lt, w_toNat ha, w_toNat hb]

theorem w_le {a b : Nat} (ha : a < 2 ^ 64) (hb : b < 2 ^ 64) : w a ≤ w b ↔ a ≤ b := by
  rw [UInt64.le_iff_toNat_le, w_toNat ha, w_toNat hb]

theorem w_inj {a b : Nat} (ha : a < 2 ^ 64) (hb : b < 2 ^ 64) : w a = w b ↔ a = b := by
  rw [← UInt64.toNat_inj, w_toNat ha, w_toNat hb]

theorem w_max {a b : Nat} (ha : a < 2 ^ 64) (hb : b < 2 ^ 64) : w (max a b) = max (w a) (w b) := by
  by_cases h : a ≤ b
  · have : max (w a) (w b) = w b := if_pos ((w_le ha hb).2 h)
    rw [this, Nat.max_eq_right h]
  · have : max (w a) (w b) = w a := if_neg fun h' => h ((w_le ha hb).1 h')
    rw [this, Nat.max_eq_left (by omega)]

theorem w_add (a b : Nat) : w (a + b) = w a + w b := UInt64.ofNat_add _ _

theorem w_sub {a b : Nat} (h : b ≤ a) : w (a - b) = w a - w b := UInt64.ofNat_sub h

theorem w_zero : w 0 = 0 := rfl

theorem w_usub {a b : Nat} (h : b ≤ a + 2 ^ 64) : w (usub a b) = w a - w b := by
  unfold usub
  split
  · rename_i hb; exact w_sub hb
  · rw [w_sub h, w_add, show w (2 ^ 64) = 0 from rfl, UInt64.add_zero]

/-! ## States -/

def Interval.wrap (i : Interval) : Machine.Interval := { count := w i.count, start := i.start.map w, stop := i.stop.map w }

def Counters.wrap (c : Counters) : Machine.Counters where
  act := w c.act
  pre := w c.pre
  reads := w c.reads
  writes := w c.writes
  refAllBank := w c.refAllBank
  refPerBank := w c.refPerBank
  refPerTwoBanks := w c.refPerTwoBanks
  refDualBanks := w c.refDualBanks
  refSameBank := w c.refSameBank
  readAuto := w c.readAuto
  writeAuto := w c.writeAuto

def Bank.wrap (b : Bank) : Machine.Bank where
  counter := b.counter.wrap
  act := b.act.wrap
  powerDownAct := b.powerDownAct.wrap
  powerDownPre := b.powerDownPre.wrap
  state := b.state
  latestPre := w b.latestPre
  refreshEndTime := w b.refreshEndTime

def Rank.wrap (r : Rank) : Machine.Rank where
  memState := r.memState
  pre := r.pre.wrap
  act := r.act.wrap
  ref := r.ref.wrap
  sref := r.sref.wrap
  powerDownAct := r.powerDownAct.wrap
  powerDownPre := r.powerDownPre.wrap
  deepSleepMode := r.deepSleepMode.wrap
  selfRefreshCounter := w r.selfRefreshCounter
  deepSleepCounter := w r.deepSleepCounter
  endRefreshTime := w r.endRefreshTime
  nBanks := r.nBanks
  banks := fun b => (r.banks b).wrap

def wrapImps (l : List (Nat × Imp)) : List (UInt64 × Imp) := l.map fun e => (w e.1, e.2)

def HRes.wrap (s : HRes) : Machine.HRes := (s.1.wrap, wrapImps s.2)

/-- The times of an interval are at most `T`. -/
structure Interval.Upto (T : Nat) (i : Interval) : Prop where
  start : ∀ x, i.start = some x → x ≤ T
  stop : ∀ x, i.stop = some x → x ≤ T

variable {T U k : Nat} {i : Interval} {r : Rank} {t : Nat}

theorem Interval.Upto.getStart (h : i.Upto T) : i.getStart ≤ T := by
  unfold Interval.getStart
  cases e : i.start with
  | none => simp
  | some x => exact h.start x e

theorem Interval.Upto.getEnd (h : i.Upto T) : i.getEnd ≤ T := by
  unfold Interval.getEnd
  cases e : i.stop with
  | none => simp
  | some x => exact h.stop x e

theorem Interval.upto_init : Interval.Upto T {} := Interval.Upto.mk (fun x h => nomatch h) (fun x h => nomatch h)

theorem Interval.Upto.startAt (h : t ≤ T) : (i.startAt t).Upto T :=
  ⟨fun x e => by cases e; exact h, fun x e => by cases e⟩

theorem Interval.Upto.close (h : i.Upto T) (ht : t ≤ T) : (i.close t).Upto T := by
  unfold Interval.close
  split
  · exact ⟨h.start, fun x e => by cases e; exact ht⟩
  · exact h

theorem Interval.Upto.startIfNotRunning (h : i.Upto T) (ht : t ≤ T) : (i.startIfNotRunning t).Upto T := by
  unfold Interval.startIfNotRunning
  split
  · exact h
  · exact .startAt ht

theorem wrap_isOpen (i : Interval) : i.wrap.isOpen = i.isOpen := by
  simp [Machine.Interval.isOpen, Interval.isOpen, Interval.wrap]

theorem wrap_getStart (i : Interval) : i.wrap.getStart = w i.getStart := by
  simp only [Machine.Interval.getStart, Interval.getStart, Interval.wrap]
  cases i.start <;> rfl

theorem wrap_getEnd (i : Interval) : i.wrap.getEnd = w i.getEnd := by
  simp only [Machine.Interval.getEnd, Interval.getEnd, Interval.wrap]
  cases i.stop <;> rfl

theorem wrap_startAt (i : Interval) (t : Nat) : (i.startAt t).wrap = i.wrap.startAt (w t) := rfl

theorem wrap_startIfNotRunning (i : Interval) (t : Nat) : (i.startIfNotRunning t).wrap = i.wrap.startIfNotRunning (w t) := by
  simp only [Machine.Interval.startIfNotRunning, Interval.startIfNotRunning, wrap_isOpen]
  split <;> rfl

theorem wrap_close (h : i.Upto T) (hT : T < 2 ^ 64) (t : Nat) : (i.close t).wrap = i.wrap.close (w t) := by
  simp only [Machine.Interval.close, Interval.close, wrap_isOpen]
  split
  · have := h.getStart
    rw [wrap_getStart]
    simp only [Interval.wrap, Option.map_some, Machine.Interval.mk.injEq, and_true]
    rw [w_usub (by omega), w_add, UInt64.sub_eq_add_neg, UInt64.sub_eq_add_neg, UInt64.add_assoc]
  · rfl

theorem wrap_countAt (h : i.Upto T) (hT : T < 2 ^ 64) (ht : t < 2 ^ 64) : i.wrap.countAt (w t) = w (i.countAt t) := by
  have hs := h.getStart
  simp only [Machine.Interval.countAt, Interval.countAt, wrap_isOpen, wrap_getStart, gt_iff_lt, w_lt (a := i.getStart) (b := t) (by omega) ht]
  split
  · rename_i hh
    simp only [Bool.and_eq_true, decide_eq_true_eq] at hh
    rw [w_sub (by omega), w_add]
    rfl
  · rfl

theorem wrap_setBank (r : Rank) (b : Nat) (x : Bank) : (r.setBank b x).wrap = r.wrap.setBank b x.wrap := by
  simp only [Rank.setBank, Machine.Rank.setBank, Rank.wrap, Machine.Rank.mk.injEq, true_and]
  funext j
  simp only [upd]
  split <;> rfl

theorem wrap_mapBanks (r : Rank) {f : Bank → Bank} {g : Machine.Bank → Machine.Bank} (h : ∀ b, (f (r.banks b)).wrap = g (r.banks b).wrap) :
    (r.mapBanks f).wrap = r.wrap.mapBanks g := by
  simp only [Rank.mapBanks, Machine.Rank.mapBanks, Rank.wrap, Machine.Rank.mk.injEq, true_and]
  funext j
  by_cases hj : j < r.nBanks
  · rw [if_pos hj]; exact (h j).trans (if_pos hj).symm
  · rw [if_neg hj]; exact (if_neg hj).symm

theorem wrap_countActive (r : Rank) : r.wrap.countActiveBanks = r.countActiveBanks := rfl

theorem wrap_isActive (he : r.endRefreshTime < 2 ^ 64) (ht : t < 2 ^ 64) : r.wrap.isActive (w t) = r.isActive t := by
  simp only [Machine.Rank.isActive, Rank.isActive, wrap_countActive]
  congr 1
  exact decide_eq_decide.2 (w_lt ht he)

/-! ## States in range, and their images -/

/-- Times up to `T`, ends of refreshes up to `U`; at most `k` activations and `m` precharges, and a precharge of an open bank leaves at most
`k`. -/
structure BankIn (T U k m : Nat) (b : Bank) : Prop where
  act : b.act.Upto T
  latest : b.latestPre ≤ T
  refr : b.refreshEndTime ≤ U
  acts : b.counter.act ≤ k
  pres : b.counter.pre ≤ m
  opened : b.state = .active → b.counter.pre + 1 ≤ k

structure RankIn (T U k m : Nat) (r : Rank) : Prop where
  act : r.act.Upto T
  sref : r.sref.Upto T
  pda : r.powerDownAct.Upto T
  pdp : r.powerDownPre.Upto T
  dsm : r.deepSleepMode.Upto T
  endRef : r.endRefreshTime ≤ U
  bank : ∀ b, BankIn T U k m (r.banks b)

/-- `x` is the image of the bank `b`, which is in range. -/
structure BankW (T U k m : Nat) (b : Bank) (x : Machine.Bank) : Prop where
  eq : x = b.wrap
  rng : BankIn T U k m b

structure RankW (T U k m : Nat) (r : Rank) (s : Machine.Rank) : Prop where
  eq : s = r.wrap
  rng : RankIn T U k m r

/-- The limits. -/
structure Limits (T U k : Nat) : Prop where
  le : T ≤ U
  lt : U < 2 ^ 64
  count : k < 2 ^ 64

variable {m : Nat} {s : Machine.Rank} {x : Bank} {y : Machine.Bank}

theorem RankW.bank (h : RankW T U k m r s) (b : Nat) : BankW T U k m (r.banks b) (s.banks b) := ⟨by rw [h.eq]; rfl, h.rng.bank b⟩

theorem RankW.nb (h : RankW T U k m r s) : s.nBanks = r.nBanks := by rw [h.eq]; rfl

theorem RankW.mem (h : RankW T U k m r s) : s.memState = r.memState := by rw [h.eq]; rfl

theorem BankW.state (h : BankW T U k m x y) : y.state = x.state := by rw [h.eq]; rfl

theorem RankW.setBank (h : RankW T U k m r s) (b : Nat) (hb : BankW T U k m x y) : RankW T U k m (r.setBank b x) (s.setBank b y) := by
  refine ⟨by rw [wrap_setBank, h.eq, hb.eq], h.rng.act, h.rng.sref, h.rng.pda, h.rng.pdp, h.rng.dsm, h.rng.endRef, fun j => ?_⟩
  simp only [Rank.setBank, upd]
  split
  · exact hb.rng
  · exact h.rng.bank j

theorem RankW.mapBanks (h : RankW T U k m r s) {f : Bank → Bank} {g : Machine.Bank → Machine.Bank}
    (hf : ∀ b, BankW T U k m (f (r.banks b)) (g (s.banks b))) : RankW T U k m (r.mapBanks f) (s.mapBanks g) := by
  refine ⟨?_, h.rng.act, h.rng.sref, h.rng.pda, h.rng.pdp, h.rng.dsm, h.rng.endRef, fun j => ?_⟩
  · rw [wrap_mapBanks r (g := g), h.eq]
    intro b
    have := (hf b).eq
    rw [h.eq] at this
    exact this.symm
  · simp only [Rank.mapBanks]
    split
    · exact (hf j).rng
    · exact h.rng.bank j

theorem RankW.active (L : Limits T U k) (h : RankW T U k m r s) (ht : t ≤ T) : s.isActive (w t) = r.isActive t := by
  have := h.rng.endRef
  have := L.le
  have := L.lt
  rw [h.eq]
  exact wrap_isActive (by omega) (by omega)

theorem RankW.setAct (h : RankW T U k m r s) {a : Interval} {b : Machine.Interval} (e : b = a.wrap) (ha : a.Upto T) :
    RankW T U k m { r with act := a } { s with act := b } :=
  ⟨by rw [h.eq, e]; rfl, ha, h.rng.sref, h.rng.pda, h.rng.pdp, h.rng.dsm, h.rng.endRef, h.rng.bank⟩

theorem RankW.close (L : Limits T U k) (h : RankW T U k m r s) (ht : t ≤ T) :
    RankW T U k m { r with act := r.act.close t } { s with act := s.act.close (w t) } :=
  h.setAct (by rw [h.eq]; exact (wrap_close h.rng.act (Nat.lt_of_le_of_lt L.le L.lt) t).symm) (h.rng.act.close ht)

theorem RankW.start (h : RankW T U k m r s) (ht : t ≤ T) :
    RankW T U k m { r with act := r.act.startAt t } { s with act := s.act.startAt (w t) } :=
  h.setAct (by rw [h.eq]; rfl) (.startAt ht)

theorem RankW.startIfNotRunning (h : RankW T U k m r s) (ht : t ≤ T) :
    RankW T U k m { r with act := r.act.startIfNotRunning t } { s with act := s.act.startIfNotRunning (w t) } :=
  h.setAct (by rw [h.eq]; exact (wrap_startIfNotRunning r.act t).symm) (h.rng.act.startIfNotRunning ht)

theorem RankW.closeUnless (L : Limits T U k) (h : RankW T U k m r s) (ht : t ≤ T) :
    RankW T U k m (if r.isActive t then r else { r with act := r.act.close t }) (if s.isActive (w t) then s else { s with act := s.act.close (w t) }) := by
  rw [h.active L ht]
  split
  · exact h
  · exact h.close L ht

theorem RankW.startUnless (L : Limits T U k) (h : RankW T U k m r s) (ht : t ≤ T) :
    RankW T U k m (if r.isActive t then r else { r with act := r.act.startAt t }) (if s.isActive (w t) then s else { s with act := s.act.startAt (w t) }) := by
  rw [h.active L ht]
  split
  · exact h
  · exact h.start ht

theorem BankW.close (L : Limits T U k) (h : BankW T U k m x y) (ht : t ≤ T) :
    BankW T U k m { x with act := x.act.close t } { y with act := y.act.close (w t) } :=
  ⟨by rw [h.eq]; exact congrArg (fun a => ({ x.wrap with act := a } : Machine.Bank)) (wrap_close h.rng.act (Nat.lt_of_le_of_lt L.le L.lt) t).symm,
    h.rng.act.close ht, h.rng.latest, h.rng.refr, h.rng.acts, h.rng.pres, h.rng.opened⟩

theorem BankW.startAt (h : BankW T U k m x y) (ht : t ≤ T) :
    BankW T U k m { x with act := x.act.startAt t } { y with act := y.act.startAt (w t) } :=
  ⟨by rw [h.eq]; rfl, .startAt ht, h.rng.latest, h.rng.refr, h.rng.acts, h.rng.pres, h.rng.opened⟩

theorem BankW.startIfNotRunning (h : BankW T U k m x y) (ht : t ≤ T) :
    BankW T U k m { x with act := x.act.startIfNotRunning t } { y with act := y.act.startIfNotRunning (w t) } :=
  ⟨by rw [h.eq]; exact congrArg (fun a => ({ x.wrap with act := a } : Machine.Bank)) (wrap_startIfNotRunning x.act t).symm,
    h.rng.act.startIfNotRunning ht, h.rng.latest, h.rng.refr, h.rng.acts, h.rng.pres, h.rng.opened⟩

theorem BankW.shut (h : BankW T U k m x y) : BankW T U k m { x with state := .precharged } { y with state := .precharged } :=
  ⟨by rw [h.eq]; rfl, h.rng.act, h.rng.latest, h.rng.refr, h.rng.acts, h.rng.pres, fun e => by cases e⟩

/-- More precharges may be counted from now on. -/
theorem BankW.opens (h : BankW T U (k + 1) k x y) : BankW T U (k + 1) k { x with state := .active } { y with state := .active } :=
  ⟨by rw [h.eq]; rfl, h.rng.act, h.rng.latest, h.rng.refr, h.rng.acts, h.rng.pres, fun _ => Nat.succ_le_succ h.rng.pres⟩

theorem BankW.setRefr (h : BankW T U k m x y) {u : Nat} (hu : u ≤ U) :
    BankW T U k m { x with refreshEndTime := u } { y with refreshEndTime := w u } :=
  ⟨by rw [h.eq]; rfl, h.rng.act, h.rng.latest, hu, h.rng.acts, h.rng.pres, h.rng.opened⟩

/-- An update of a counter other than those of activations and precharges. -/
structure Counts (f : Counters → Counters) (g : Machine.Counters → Machine.Counters) : Prop where
  eq : ∀ c, g c.wrap = (f c).wrap
  act : ∀ c, (f c).act = c.act
  pre : ∀ c, (f c).pre = c.pre

theorem BankW.count (h : BankW T U k m x y) {f : Counters → Counters} {g : Machine.Counters → Machine.Counters} (hf : Counts f g) :
    BankW T U k m { x with counter := f x.counter } { y with counter := g y.counter } := by
  refine ⟨?_, h.rng.act, h.rng.latest, h.rng.refr, ?_, ?_, fun e => ?_⟩
  · rw [h.eq]
    exact congrArg (fun a => ({ x.wrap with counter := a } : Machine.Bank)) (hf.eq x.counter)
  · simp only [hf.act]; exact h.rng.acts
  · simp only [hf.pre]; exact h.rng.pres
  · simp only [hf.pre]; exact h.rng.opened e

theorem BankIn.mono (h : BankIn T U k m x) {k' m' : Nat} (hk : k ≤ k') (hm : m ≤ m') : BankIn T U k' m' x :=
  ⟨h.act, h.latest, h.refr, Nat.le_trans h.acts hk, Nat.le_trans h.pres hm, fun e => Nat.le_trans (h.opened e) hk⟩

theorem RankW.mono (h : RankW T U k m r s) {k' m' : Nat} (hk : k ≤ k') (hm : m ≤ m') : RankW T U k' m' r s :=
  ⟨h.eq, h.rng.act, h.rng.sref, h.rng.pda, h.rng.pdp, h.rng.dsm, h.rng.endRef, fun b => (h.rng.bank b).mono hk hm⟩

theorem counts_refAll : Counts (fun c => { c with refAllBank := c.refAllBank + 1 }) (fun c => { c with refAllBank := c.refAllBank + 1 }) :=
  ⟨fun c => by simp [Counters.wrap, w_add], fun _ => rfl, fun _ => rfl⟩
theorem counts_refSame : Counts (fun c => { c with refSameBank := c.refSameBank + 1 }) (fun c => { c with refSameBank := c.refSameBank + 1 }) :=
  ⟨fun c => by simp [Counters.wrap, w_add], fun _ => rfl, fun _ => rfl⟩
theorem counts_refPer : Counts (fun c => { c with refPerBank := c.refPerBank + 1 }) (fun c => { c with refPerBank := c.refPerBank + 1 }) :=
  ⟨fun c => by simp [Counters.wrap, w_add], fun _ => rfl, fun _ => rfl⟩
theorem counts_refTwo : Counts (fun c => { c with refPerTwoBanks := c.refPerTwoBanks + 1 }) (fun c => { c with refPerTwoBanks := c.refPerTwoBanks + 1 }) :=
  ⟨fun c => by simp [Counters.wrap, w_add], fun _ => rfl, fun _ => rfl⟩
theorem counts_refDual : Counts (fun c => { c with refDualBanks := c.refDualBanks + 1 }) (fun c => { c with refDualBanks := c.refDualBanks + 1 }) :=
  ⟨fun c => by simp [Counters.wrap, w_add], fun _ => rfl, fun _ => rfl⟩
theorem counts_reads : Counts (fun c => { c with reads := c.reads + 1 }) (fun c => { c with reads := c.reads + 1 }) :=
  ⟨fun c => by simp [Counters.wrap, w_add], fun _ => rfl, fun _ => rfl⟩
theorem counts_writes : Counts (fun c => { c with writes := c.writes + 1 }) (fun c => { c with writes := c.writes + 1 }) :=
  ⟨fun c => by simp [Counters.wrap, w_add], fun _ => rfl, fun _ => rfl⟩
theorem counts_readAuto : Counts (fun c => { c with readAuto := c.readAuto + 1 }) (fun c => { c with readAuto := c.readAuto + 1 }) :=
  ⟨fun c => by simp [Counters.wrap, w_add], fun _ => rfl, fun _ => rfl⟩
theorem counts_writeAuto : Counts (fun c => { c with writeAuto := c.writeAuto + 1 }) (fun c => { c with writeAuto := c.writeAuto + 1 }) :=
  ⟨fun c => by simp [Counters.wrap, w_add], fun _ => rfl, fun _ => rfl⟩

theorem handlePre_wrap (L : Limits T U k) (h : RankW T U k k r s) (b : Nat) (ht : t ≤ T) :
    RankW T U k k (Shared.handlePre r b t) (Machine.Shared.handlePre s b (w t)) := by
  unfold Shared.handlePre Machine.Shared.handlePre
  simp only [(h.bank b).state]
  split
  · exact h
  · rename_i hs
    have hb := (h.bank b).close L ht
    refine RankW.closeUnless L (h.setBank b ⟨?_, hb.rng.act, ht, hb.rng.refr, hb.rng.acts, ?_, fun e => by cases e⟩) ht
    · rw [(h.bank b).eq] at hb ⊢
      have e := congrArg Machine.Bank.act hb.eq
      simp only [Bank.wrap] at e ⊢
      rw [e]
      simp [Counters.wrap, w_add]
    · refine (h.rng.bank b).opened ?_
      cases e : (r.banks b).state with
      | active => rfl
      | precharged => exact absurd e hs

theorem machine_handlePre (std : Std) : Machine.handlePre std = Machine.Shared.handlePre := by cases std <;> rfl

theorem preFold_wrap (L : Limits T U k) (ht : t ≤ T) (l : List Nat) : ∀ {r : Rank} {s : Machine.Rank}, RankW T U k k r s →
    RankW T U k k (l.foldl (fun r b => Shared.handlePre r b t) r) (l.foldl (fun r b => Machine.Shared.handlePre r b (w t)) s) := by
  induction l with
  | nil => intro r s h; exact h
  | cons b l ih => intro r s h; exact ih (handlePre_wrap L h b ht)

theorem handleAct_wrap (std : Std) (L : Limits T U (k + 1)) (h : RankW T U k k r s) (b : Nat) (ht : t ≤ T) :
    RankW T U (k + 1) k (handleAct std r b t) (Machine.handleAct std s b (w t)) := by
  have hb : BankW T U (k + 1) k { r.banks b with counter := { (r.banks b).counter with act := (r.banks b).counter.act + 1 }, act := (r.banks b).act.startAt t }
        { s.banks b with counter := { (s.banks b).counter with act := (s.banks b).counter.act + 1 }, act := (s.banks b).act.startAt (w t) } := by
    have hb := (h.bank b).startAt ht
    refine ⟨?_, hb.rng.act, hb.rng.latest, hb.rng.refr, Nat.succ_le_succ hb.rng.acts, hb.rng.pres, fun e => Nat.le_succ_of_le (hb.rng.opened e)⟩
    rw [(h.bank b).eq]
    simp [Bank.wrap, Counters.wrap, w_add, wrap_startAt]
  have h' := h.mono (Nat.le_succ k) (Nat.le_refl k)
  have hs : RankW T U (k + 1) k (Shared.handleAct r b t) (Machine.Shared.handleAct s b (w t)) := by
    unfold Shared.handleAct Machine.Shared.handleAct
    have h1 := (h'.setBank b hb).startUnless L ht
    exact h1.setBank b (h1.bank b).opens
  cases std
  case ddr4 => exact (h'.setBank b hb.opens).startIfNotRunning ht
  all_goals exact hs

theorem refreshOnBank_wrap {f : Counters → Counters} {g : Machine.Counters → Machine.Counters} (hf : Counts f g) (L : Limits T U (k + 1))
    (dur : Nat) (hd : t + dur ≤ U) (ht : t ≤ T) {res : HRes} {res' : Machine.HRes} (h : RankW T U (k + 1) k res.1 res'.1) (b : Nat) :
    RankW T U (k + 1) k (Shared.handleRefreshOnBank f dur t res b).1 (Machine.Shared.handleRefreshOnBank g (w dur) (w t) res' b).1 := by
  unfold Shared.handleRefreshOnBank Machine.Shared.handleRefreshOnBank
  have h1 := (h.setBank b ((h.bank b).count hf)).startUnless L ht
  have h2 := (((h1.bank b).startIfNotRunning ht).opens).setRefr hd
  simp only [← w_add]
  exact h1.setBank b h2

theorem refreshFold_wrap {f : Counters → Counters} {g : Machine.Counters → Machine.Counters} (hf : Counts f g) (L : Limits T U (k + 1))
    (dur : Nat) (hd : t + dur ≤ U) (ht : t ≤ T) (l : List Nat) : ∀ {res : HRes} {res' : Machine.HRes}, RankW T U (k + 1) k res.1 res'.1 →
    res'.2 = wrapImps res.2 → (∀ e ∈ res.2, e.1 ≤ U) →
      RankW T U (k + 1) k (l.foldl (Shared.handleRefreshOnBank f dur t) res).1 (l.foldl (Machine.Shared.handleRefreshOnBank g (w dur) (w t)) res').1 ∧
      (l.foldl (Machine.Shared.handleRefreshOnBank g (w dur) (w t)) res').2 = wrapImps (l.foldl (Shared.handleRefreshOnBank f dur t) res).2 ∧
      ∀ e ∈ (l.foldl (Shared.handleRefreshOnBank f dur t) res).2, e.1 ≤ U := by
  induction l with
  | nil => intro res res' h1 h2 h3; exact ⟨h1, h2, h3⟩
  | cons b l ih =>
    intro res res' h1 h2 h3
    refine ih (refreshOnBank_wrap hf L dur hd ht h1 b) ?_ ?_
    · simp only [Shared.handleRefreshOnBank, Machine.Shared.handleRefreshOnBank, h2, wrapImps, List.map_append, List.map_cons, List.map_nil, w_add]
    · intro e he
      simp only [Shared.handleRefreshOnBank, List.mem_append, List.mem_singleton] at he
      rcases he with he | he
      · exact h3 e he
      · subst he; exact hd

end DRAMPower
