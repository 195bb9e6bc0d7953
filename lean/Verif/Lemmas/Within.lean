import Verif.Lemmas.Queue
import Verif.Lemmas.Schedule
import Verif.Props.C13

/-!
# No interval counter exceeds the time
-/

namespace DRAMPower

variable {std : Std} {ms : MemSpec} {n t : Nat} {i : Interval} {r : Rank}

/-- The counted cycles lie before `n`, and before the open interval. -/
structure Interval.Within (n : Nat) (i : Interval) : Prop where
  count : i.count ≤ n
  opened : i.isOpen = true → i.count ≤ i.getStart ∧ i.getStart ≤ n

namespace Interval.Within

theorem mono (h : i.Within n) (ht : n ≤ t) : i.Within t := ⟨Nat.le_trans h.count ht, fun o => ⟨(h.opened o).1, Nat.le_trans (h.opened o).2 ht⟩⟩

theorem startAt (h : i.Within n) (ht : n ≤ t) : (i.startAt t).Within t :=
  ⟨Nat.le_trans h.count ht, fun _ => ⟨Nat.le_trans h.count ht, Nat.le_refl t⟩⟩

theorem startIfNotRunning (h : i.Within n) (ht : n ≤ t) : (i.startIfNotRunning t).Within t := by
  unfold Interval.startIfNotRunning
  split
  · exact h.mono ht
  · exact h.startAt ht

theorem close (h : i.Within n) (ht : n ≤ t) : (i.close t).Within t := by
  unfold Interval.close
  split
  · rename_i ho
    have := h.opened ho
    refine ⟨?_, fun o => by simp [Interval.isOpen] at o⟩
    simp only [usub]
    split <;> omega
  · exact h.mono ht

theorem countAt (h : i.Within n) (ht : n ≤ t) : i.countAt t ≤ t := by
  have := h.count
  unfold Interval.countAt
  split
  · rename_i ho
    simp only [Bool.and_eq_true, decide_eq_true_eq] at ho
    have := h.opened ho.1
    omega
  · omega

theorem empty : Interval.Within n {} := ⟨Nat.zero_le n, fun o => by cases o⟩

end Interval.Within

structure RankWithin (n : Nat) (r : Rank) : Prop where
  act : r.act.Within n
  sref : r.sref.Within n
  pda : r.powerDownAct.Within n
  pdp : r.powerDownPre.Within n
  dsm : r.deepSleepMode.Within n
  bank : ∀ b, (r.banks b).act.Within n

namespace RankWithin

theorem mono (h : RankWithin n r) (ht : n ≤ t) : RankWithin t r :=
  ⟨h.act.mono ht, h.sref.mono ht, h.pda.mono ht, h.pdp.mono ht, h.dsm.mono ht, fun b => (h.bank b).mono ht⟩

theorem setBank (h : RankWithin n r) (b : Nat) {x : Bank} (hx : x.act.Within n) : RankWithin n (r.setBank b x) := by
  refine ⟨h.act, h.sref, h.pda, h.pdp, h.dsm, fun j => ?_⟩
  simp only [Rank.setBank, upd]
  split
  · exact hx
  · exact h.bank j

theorem mapBanks (h : RankWithin n r) {f : Bank → Bank} (hf : ∀ b, (f (r.banks b)).act.Within n) : RankWithin n (r.mapBanks f) := by
  refine ⟨h.act, h.sref, h.pda, h.pdp, h.dsm, fun j => ?_⟩
  simp only [Rank.mapBanks]
  split
  · exact hf j
  · exact h.bank j

theorem setAct (h : RankWithin n r) {a : Interval} (ha : a.Within n) : RankWithin n { r with act := a } :=
  ⟨ha, h.sref, h.pda, h.pdp, h.dsm, h.bank⟩

theorem setPda (h : RankWithin n r) (x : MemState) {a : Interval} (ha : a.Within n) : RankWithin n { r with memState := x, powerDownAct := a } :=
  ⟨h.act, h.sref, ha, h.pdp, h.dsm, h.bank⟩

theorem setPdp (h : RankWithin n r) (x : MemState) {a : Interval} (ha : a.Within n) : RankWithin n { r with memState := x, powerDownPre := a } :=
  ⟨h.act, h.sref, h.pda, ha, h.dsm, h.bank⟩

theorem startAt' (i : Interval) (h : i.Within t) : (i.startAt t).Within t := h.startAt (Nat.le_refl t)
theorem close' (i : Interval) (h : i.Within t) : (i.close t).Within t := h.close (Nat.le_refl t)
theorem startIf' (i : Interval) (h : i.Within t) : (i.startIfNotRunning t).Within t := h.startIfNotRunning (Nat.le_refl t)

theorem act_close {p : Bool} (h : RankWithin t r) : RankWithin t (if p then r else { r with act := r.act.close t }) := by
  split
  · exact h
  · exact h.setAct (close' _ h.act)

theorem act_start {p : Bool} (h : RankWithin t r) : RankWithin t (if p then r else { r with act := r.act.startAt t }) := by
  split
  · exact h
  · exact h.setAct (startAt' _ h.act)

theorem bank_start {p : Bank → Prop} [DecidablePred p] (h : RankWithin t r) :
    RankWithin t (r.mapBanks fun x => if p x then { x with act := x.act.startAt t } else x) :=
  h.mapBanks fun b => by
    split
    · exact startAt' _ (h.bank b)
    · exact h.bank b

theorem handleAct (h : RankWithin t r) (b : Nat) : RankWithin t (handleAct std r b t) := by
  cases std
  case ddr4 => exact (h.setBank b (startAt' _ (h.bank b))).setAct (startIf' _ h.act)
  all_goals
    have h1 := (h.setBank b (x := { r.banks b with counter := { (r.banks b).counter with act := (r.banks b).counter.act + 1 }, act := (r.banks b).act.startAt t })
      (startAt' _ (h.bank b))).act_start (p := (r.setBank b { r.banks b with counter := { (r.banks b).counter with act := (r.banks b).counter.act + 1 }, act := (r.banks b).act.startAt t }).isActive t)
    exact h1.setBank b (h1.bank b)

theorem handlePre (h : RankWithin t r) (b : Nat) : RankWithin t (handlePre std r b t) := by
  cases std <;>
  · simp only [DRAMPower.handlePre, DDR4.handlePre, Shared.handlePre]
    split
    · exact h
    · exact (h.setBank b (x := { r.banks b with counter := { (r.banks b).counter with pre := (r.banks b).counter.pre + 1 }, act := (r.banks b).act.close t, latestPre := t, state := .precharged })
        (close' _ (h.bank b))).act_close

theorem preFold (l : List Nat) : ∀ {r : Rank}, RankWithin t r → RankWithin t (l.foldl (fun r b => DRAMPower.handlePre std r b t) r) := by
  induction l with
  | nil => exact id
  | cons b l ih => exact fun h => ih (h.handlePre b)

theorem refreshBank (cnt : Counters → Counters) (d : Nat) (q : List (Nat × Imp)) (h : RankWithin t r) (b : Nat) :
    RankWithin t (Shared.handleRefreshOnBank cnt d t (r, q) b).1 := by
  have h1 := (h.setBank b (x := { r.banks b with counter := cnt (r.banks b).counter }) (h.bank b)).act_start
    (p := (r.setBank b { r.banks b with counter := cnt (r.banks b).counter }).isActive t)
  have key : ∀ {r1 : Rank}, RankWithin t r1 → RankWithin t (r1.setBank b { r1.banks b with
      state := .active, refreshEndTime := t + d, act := if (r1.banks b).act.isOpen then (r1.banks b).act else (r1.banks b).act.startAt t }) := fun h1 =>
    h1.setBank b (by
      show Interval.Within t (if _ then _ else _)
      split
      · exact h1.bank b
      · exact startAt' _ (h1.bank b))
  exact key h1

theorem refreshFold (cnt : Counters → Counters) (d : Nat) (l : List Nat) : ∀ {res : HRes}, RankWithin t res.1 →
    RankWithin t (l.foldl (Shared.handleRefreshOnBank cnt d t) res).1 := by
  induction l with
  | nil => exact id
  | cons b l ih => exact fun h => ih (refreshBank cnt d _ h b)

theorem setEnd (h : RankWithin n r) (u : Nat) : RankWithin n { r with endRefreshTime := u } := ⟨h.act, h.sref, h.pda, h.pdp, h.dsm, h.bank⟩

theorem refAll (h : RankWithin t r) : RankWithin t (handleRefAll std ms r t).1 := by
  cases std
  case ddr4 =>
    have h1 := (h.setEnd (t + ms.tRFC)).setAct (startIf' _ h.act)
    exact h1.mapBanks (f := fun bank => { bank with
      state := .active, counter := { bank.counter with refAllBank := bank.counter.refAllBank + 1 }, act := bank.act.startIfNotRunning t,
      refreshEndTime := t + ms.tRFC }) fun b => startIf' _ (h1.bank b)
  all_goals exact (refreshFold _ _ _ h).setEnd _

theorem exec (h : RankWithin t r) (i : Imp) : RankWithin t (exec std r t i) := by
  cases i with
  | pre b => exact h.handlePre b
  | refEnd b =>
    cases std <;> exact (h.setBank b (x := { r.banks b with state := .precharged, act := (r.banks b).act.close t }) (close' _ (h.bank b))).act_close
  | srefEnter => exact ⟨h.act, startAt' _ h.sref, h.pda, h.pdp, h.dsm, h.bank⟩
  | pdaEnter =>
    have h1 := (h.setPda .pdnAct (startAt' _ h.pda)).setAct (close' _ h.act)
    have h2 := h1.mapBanks (f := fun bank => { bank with act := bank.act.close t }) fun b => close' _ (h1.bank b)
    cases std <;> exact h2
  | pdpEnter =>
    cases std
    case ddr4 =>
      have h1 := h.mapBanks (f := fun bank => { bank with act := bank.act.close t }) fun b => close' _ (h.bank b)
      exact (h1.setPdp .pdnPre (startAt' _ h.pdp)).setAct (close' _ h.act)
    all_goals exact h.setPdp .pdnPre (startAt' _ h.pdp)
  | pdpExit =>
    cases std
    case ddr4 => exact (h.setPdp .notInPD (close' _ h.pdp)).bank_start (p := fun b => b.state = .active)
    all_goals exact h.setPdp .notInPD (close' _ h.pdp)
  | pdaExit =>
    have h1 := h.setPda .notInPD (close' _ h.pda)
    have sh : RankWithin t (Shared.execPdaExit r t) := by
      have h2 := h1.bank_start (p := fun b => Shared.restarts { r with memState := .notInPD, powerDownAct := r.powerDownAct.close t } b = true)
      unfold Shared.execPdaExit
      simp only
      split
      · exact h2.setAct (startAt' _ h2.act)
      · exact h2
    cases std
    case ddr4 =>
      have h2 := h1.bank_start (p := fun b => b.state = .active)
      simp only [DRAMPower.exec, DDR4.execPdaExit]
      split
      · exact h2.setAct (startAt' _ h2.act)
      · exact h2
    case lpddr6 => exact (h1.setAct (startAt' _ h.act)).bank_start (p := fun b => Shared.restarts { r with memState := .notInPD, powerDownAct := r.powerDownAct.close t, act := r.act.startAt t } b = true)
    all_goals exact sh

theorem withBank {b : Nat} {x : Except Err HRes} {y : HRes} (h : DRAMPower.withBank r b x = .ok y) : x = .ok y := by
  unfold DRAMPower.withBank at h
  split at h
  · exact h
  · cases h

theorem handle {c : Cmd} {x : HRes} (h : RankWithin c.t r) (hx : handle std ms r c = .ok x) : RankWithin c.t x.1 := by
  have up : ∀ {y : HRes}, (Except.ok y : Except Err HRes) = .ok x → RankWithin c.t y.1 → RankWithin c.t x.1 := fun e h => by cases e; exact h
  unfold DRAMPower.handle at hx
  split at hx
  case h_1 => exact up (withBank hx) (h.handleAct c.bank)
  case h_2 => exact up (withBank hx) (h.handlePre c.bank)
  case h_3 => exact up hx (preFold _ h)
  case h_4 => exact up hx h.refAll
  case h_5 => exact up (withBank hx) (h.setBank _ (h.bank _))
  case h_6 => exact up (withBank hx) (h.setBank _ (h.bank _))
  case h_7 => exact up (withBank hx) (h.setBank _ (h.bank _))
  case h_8 => exact up (withBank hx) (h.setBank _ (h.bank _))
  case h_9 => exact up hx h.refAll
  case h_10 =>
    unfold handleSelfRefreshExit at hx
    split at hx
    · exact up hx ⟨h.act, close' _ h.sref, h.pda, h.pdp, h.dsm, h.bank⟩
    · cases hx
  case h_11 => exact up hx h
  case h_12 => exact up hx h
  case h_13 =>
    unfold handlePowerDownActExit at hx
    split at hx
    · cases hx
    · exact up hx h
  case h_14 => exact up hx h
  case h_15 =>
    split at hx
    · have hx := withBank hx
      unfold handlePreSameBank at hx
      split at hx
      · cases hx
      · split at hx
        · exact up hx (preFold (std := .ddr5) _ h)
        · cases hx
    · cases hx
  case h_16 =>
    split at hx
    · have hx := withBank hx
      unfold handleRefSameBank at hx
      split at hx
      · cases hx
      · split at hx
        · exact up hx (refreshFold _ _ _ h)
        · cases hx
    · cases hx
  case h_17 =>
    split at hx
    · exact up (withBank hx) (refreshBank _ _ _ h _)
    · cases hx
  case h_18 =>
    split at hx
    · split at hx
      · cases hx
      · have hx := withBank hx
        unfold handleRefPerTwoBanks at hx
        simp only at hx
        split at hx
        · exact up hx (refreshFold _ _ [_, _] h)
        · cases hx
    · cases hx
  case h_19 =>
    split at hx
    · exact up (withBank (withBank hx)) (refreshFold _ _ [_, _] h)
    · cases hx
  case h_20 =>
    split at hx
    · unfold handleDSMEntry at hx
      split at hx
      · exact up hx ⟨h.act, h.sref, h.pda, h.pdp, startAt' _ h.dsm, h.bank⟩
      · cases hx
    · cases hx
  case h_21 =>
    split at hx
    · unfold handleDSMExit at hx
      split at hx
      · exact up hx ⟨h.act, h.sref, h.pda, h.pdp, close' _ h.dsm, h.bank⟩
      · cases hx
    · cases hx
  all_goals cases hx

end RankWithin

/-- All interval counters lie before `n`, all deferred commands not. -/
structure CoreWithin (n : Nat) (c : Core) : Prop where
  rank : ∀ i, RankWithin n (c.ranks i)
  sorted : Sorted c.queue
  fut : ∀ e ∈ c.queue, n ≤ e.t

theorem processQ_within (q : List QEntry) : ∀ {n : Nat} {f : Nat → Rank} {l : Nat}, (∀ i, RankWithin n (f i)) → Sorted q → (∀ e ∈ q, n ≤ e.t) → n ≤ t →
    CoreWithin t (processQ std t f l q) := by
  induction q with
  | nil => intro n f l hf hs _ ht; exact ⟨fun i => (hf i).mono ht, hs, by simp [processQ]⟩
  | cons e q ih =>
    intro n f l hf hs hq ht
    have hs' := List.pairwise_cons.1 hs
    have he := hq e (by simp)
    simp only [processQ]
    split
    · rename_i h
      refine ih (n := e.t) (fun i => ?_) hs'.2 (fun x hx => hs'.1 x hx) h
      simp only [upd]
      split
      · exact ((hf _).mono he).exec _
      · exact (hf i).mono he
    · rename_i h
      refine ⟨fun i => (hf i).mono ht, hs, fun x hx => ?_⟩
      rcases List.mem_cons.1 hx with rfl | hx
      · omega
      · have := hs'.1 x hx
        omega

theorem CoreWithin.process {c : Core} (h : CoreWithin n c) (ht : n ≤ t) : CoreWithin t (c.process std t) :=
  processQ_within c.queue h.rank h.sorted h.fut ht

theorem CoreWithin.doCommand {c c' : Core} {cmd : Cmd} (h : CoreWithin n c) (ht : n ≤ cmd.t) (hc : c.doCommand std ms cmd = .ok c') : CoreWithin cmd.t c' := by
  have h1 := h.process (std := std) ht
  have hs := doCommand_sorted h.sorted hc
  simp only [Core.doCommand] at hc
  split at hc
  · cases hc
    exact ⟨h1.rank, hs, h1.fut⟩
  · split at hc
    · split at hc
      · rename_i r imps hh
        cases hc
        refine ⟨fun i => ?_, hs, fun e he => ?_⟩
        · simp only [upd]
          split
          · exact (h1.rank cmd.rank).handle hh
          · exact h1.rank i
        · have hge := handle_imps_ge hh
          rcases mem_enqueue.1 he with ⟨i, hi, rfl⟩ | hm
          · exact hge i hi
          · exact h1.fut e hm
      · cases hc
    · cases hc

theorem CoreWithin.run (cmds : List Cmd) : ∀ {n : Nat} {c c' : Core}, CoreWithin n c → Spec.Ordered cmds → (∀ x ∈ cmds, n ≤ x.t) → c.run std ms cmds = .ok c' →
    (∀ x ∈ cmds, x.t ≤ t) → n ≤ t → CoreWithin t (c'.process std t) := by
  induction cmds with
  | nil => intro n c c' h _ _ hc _ ht; cases hc; exact h.process ht
  | cons x cmds ih =>
    intro n c c' h ho hn hc ht _
    have ho' := List.pairwise_cons.1 ho
    simp only [Core.run] at hc
    split at hc
    · rename_i c1 h1
      exact ih (h.doCommand (hn x (by simp)) h1) ho'.2 ho'.1 hc (fun y hy => ht y (by simp [hy])) (ht x (by simp))
    · cases hc

theorem CoreWithin.init (ms : MemSpec) : CoreWithin 0 (Core.init ms) :=
  ⟨fun _ => ⟨.empty, .empty, .empty, .empty, .empty, fun _ => .empty⟩, .nil, by simp [Core.init]⟩

end DRAMPower
