import Verif.Lemmas.MachineRun
import Verif.Props.C03
import Verif.Props.C09
import Verif.Props.C04
import Verif.Props.C05
import Verif.Lemmas.Within

/-!
# C76: 64 bits are enough

`Machine.Core` is the core with the arithmetic of the program: `uint64_t`, modulo 2^64 (Model/Machine.lean). All other theorems are about
natural numbers; this one says when the program reports the same numbers.

* `C76_accepted`: all traces, legal or not, whose times stay below 2^64 after adding the longest delay of the specification: the program accepts
  and refuses the same traces, for the same reason.
* `C76`: all such traces in the order of time, legal or not: the whole report is exact, if three times the time of the report is below 2^64.
* `C76_conserved`, `C76_ddr4`, `C76_noActivePowerDown`: up to the time 2^64 - 1, for the traces of `C03_partial` etc. (where the figures add up to
  the time).
* `C76_figures`: no figure exceeds the time of the report, for all traces in the order of time.
* `C76_needsRange`: without the condition on the times it is false.
-/

namespace DRAMPower

open Machine (w)
open Spec

variable {std : Std} {ms : MemSpec} {T U k m t : Nat} {r : Rank} {s : Machine.Rank}

/-! ## Reports -/

theorem w_toNat_mod (n : Nat) : (w n).toNat = n % 2 ^ 64 := UInt64.toNat_ofNat'

theorem countersOf_wrap (c : Counters) : countersOf c.wrap = countersMod c := by
  simp only [countersOf, countersMod, Counters.wrap, w_toNat_mod]

theorem usub_lt {a b : Nat} (ha : a < 2 ^ 64) : usub a b < 2 ^ 64 := by
  unfold usub; split <;> omega

theorem toNat_usub {a b : Nat} (ha : a < 2 ^ 64) (h : b ≤ a + 2 ^ 64) : (w a - w b).toNat = usub a b := by
  rw [← w_usub h, w_toNat_mod, Nat.mod_eq_of_lt (usub_lt ha)]

theorem toNat_w {a : Nat} (ha : a < 2 ^ 64) : (w a).toNat = a := by rw [w_toNat_mod, Nat.mod_eq_of_lt ha]

/-- The figures of the report, as far as the program computes them without a subtraction. -/
structure Sums (t A S P Q E : Nat) : Prop where
  a : A < 2 ^ 64
  s : S < 2 ^ 64
  p : P < 2 ^ 64
  q : Q < 2 ^ 64
  e : E < 2 ^ 64
  sum : A + (P + Q + S) ≤ t + 2 ^ 64

theorem cyclesOf_rank (hU : U < 2 ^ 64) (h : RankW U U k m r s) (ht : t < 2 ^ 64)
    (hs : Sums t (r.act.countAt t) (r.sref.countAt t) (r.powerDownAct.countAt t) (r.powerDownPre.countAt t) (r.deepSleepMode.countAt t)) :
    cyclesOf (Machine.rankStats std s (w t)) = rankStats std r t := by
  obtain ⟨rfl, h⟩ := h
  have h1 : r.wrap.act.countAt (w t) = _ := wrap_countAt h.act hU ht
  have h2 : r.wrap.sref.countAt (w t) = _ := wrap_countAt h.sref hU ht
  have h3 : r.wrap.powerDownAct.countAt (w t) = _ := wrap_countAt h.pda hU ht
  have h4 : r.wrap.powerDownPre.countAt (w t) = _ := wrap_countAt h.pdp hU ht
  have h5 : r.wrap.deepSleepMode.countAt (w t) = _ := wrap_countAt h.dsm hU ht
  unfold rankStats Machine.rankStats cyclesOf
  simp only [h1, h2, h3, h4, h5, ← w_add]
  obtain ⟨ha, hs, hp, hq, he, hsum⟩ := hs
  cases std <;> simp only <;> rw [toNat_w ha, toNat_w hp, toNat_w hq, toNat_usub ht hsum] <;>
    first
    | rw [toNat_usub hs (by omega), toNat_w he]
    | rw [toNat_w hs, toNat_w he]
    | (rw [toNat_w hs]; rfl)

theorem cyclesOf_bank (hU : U < 2 ^ 64) (h : RankW U U k m r s) (ht : t < 2 ^ 64) (j : Nat)
    (hs : Sums t ((r.banks j).act.countAt t) (r.sref.countAt t) (r.powerDownAct.countAt t) (r.powerDownPre.countAt t) (r.deepSleepMode.countAt t)) :
    cyclesOf (Machine.bankStats std s (w t) j).cycles = (bankStats std r t j).cycles := by
  obtain ⟨rfl, h⟩ := h
  have h1 : (r.wrap.banks j).act.countAt (w t) = _ := wrap_countAt (h.bank j).act hU ht
  have h2 : r.wrap.sref.countAt (w t) = _ := wrap_countAt h.sref hU ht
  have h3 : r.wrap.powerDownAct.countAt (w t) = _ := wrap_countAt h.pda hU ht
  have h4 : r.wrap.powerDownPre.countAt (w t) = _ := wrap_countAt h.pdp hU ht
  have h5 : r.wrap.deepSleepMode.countAt (w t) = _ := wrap_countAt h.dsm hU ht
  unfold bankStats Machine.bankStats cyclesOf
  simp only [h1, h2, h3, h4, h5, ← w_add]
  obtain ⟨ha, hs, hp, hq, he, hsum⟩ := hs
  cases std <;> simp only <;> rw [toNat_w ha, toNat_w hp, toNat_w hq, toNat_usub ht hsum] <;>
    first
    | rw [toNat_usub hs (by omega), toNat_w he]
    | rw [toNat_w hs, toNat_w he]
    | (rw [toNat_w hs]; rfl)

theorem countersOf_bank (h : RankW U U k m r s) (j : Nat) (hc : countersMod (r.banks j).counter = (r.banks j).counter) :
    countersOf (Machine.bankStats std s (w t) j).counter = (bankStats std r t j).counter := by
  obtain ⟨rfl, h⟩ := h
  exact (countersOf_wrap _).trans hc

/-! ## Runs -/

theorem Interval.Upto.mono {i : Interval} (h : i.Upto T) (hU : T ≤ U) : i.Upto U :=
  ⟨fun x hx => Nat.le_trans (h.1 x hx) hU, fun x hx => Nat.le_trans (h.2 x hx) hU⟩

theorem CoreW.raise {c : Core} {d : Machine.Core} (h : CoreW T U k c d) (hU : T ≤ U) : CoreW U U k c d :=
  ⟨fun i =>
    have r := (h.rank i).rng
    ⟨(h.rank i).eq, r.act.mono hU, r.sref.mono hU, r.pda.mono hU, r.pdp.mono hU, r.dsm.mono hU, r.endRef, fun b =>
      have x := r.bank b
      ⟨x.act.mono hU, Nat.le_trans x.latest hU, x.refr, x.acts, x.pres, x.opened⟩⟩,
    h.queue, h.bound, h.last, h.lastIn⟩

theorem le_longestDelay {x : Nat} (hx : x ∈ [ms.tRFC, ms.tRFCsb, ms.tRFCPB, ms.tRFCDB, ms.tRAS, ms.tRP, ms.prechargeOffsetRD, ms.prechargeOffsetWR] ++
    if std = .lpddr6 then [ms.tRCDR, ms.tRCDW] else [ms.tRCD]) : x ≤ longestDelay std ms := by
  have key : ∀ (l : List Nat) (a : Nat), a ≤ l.foldl max a ∧ ∀ x ∈ l, x ≤ l.foldl max a := by
    intro l
    induction l with
    | nil => intro a; exact ⟨Nat.le_refl a, by simp⟩
    | cons y l ih =>
      intro a
      obtain ⟨h1, h2⟩ := ih (max a y)
      refine ⟨by simp only [List.foldl_cons]; omega, fun x hx => ?_⟩
      rcases List.mem_cons.1 hx with rfl | hx
      · simp only [List.foldl_cons]; omega
      · exact h2 x hx
  exact (key _ 0).2 x hx

theorem delays (h : T + longestDelay std ms ≤ U) : Delays std ms T U := by
  have hx : ∀ x, x ∈ [ms.tRFC, ms.tRFCsb, ms.tRFCPB, ms.tRFCDB, ms.tRAS, ms.tRP, ms.prechargeOffsetRD, ms.prechargeOffsetWR] ++
      (if std = .lpddr6 then [ms.tRCDR, ms.tRCDW] else [ms.tRCD]) → T + x ≤ U := fun x hx => by
    have := le_longestDelay hx
    omega
  refine ⟨hx _ (by simp), hx _ (by simp), hx _ (by simp), hx _ (by simp), hx _ (by simp), hx _ (by simp), hx _ (by simp), hx _ (by simp), ?_⟩
  cases std
  case lpddr6 =>
    have h1 := hx ms.tRCDR (by simp)
    have h2 := hx ms.tRCDW (by simp)
    simp only [effRCD]
    omega
  all_goals exact hx ms.tRCD (by simp)

theorem machine_run {cmds : List Cmd} (h : In64 std ms cmds) :
    ∃ U < 2 ^ 64, CW U U cmds.length ((Core.init ms).run std ms cmds) ((Machine.Core.init ms).run std ms (cmds.map toMachine)) := by
  cases cmds with
  | nil => exact ⟨0, by decide, .ok _ _ init_wrap⟩
  | cons c cmds =>
    have hc := h.times c (by simp)
    refine ⟨2 ^ 64 - 1, by decide, ?_⟩
    have := run_wrap (std := std) (ms := ms) (T := 2 ^ 64 - 1 - longestDelay std ms) (U := 2 ^ 64 - 1) (delays (by omega)) (by omega) (by decide) (c :: cmds)
      (k := 0) (init_wrap (ms := ms)) (fun x hx => by have := h.times x hx; omega) (by have := h.length; omega)
    rw [Nat.zero_add] at this
    generalize (Core.init ms).run std ms (c :: cmds) = x at this ⊢
    generalize (Machine.Core.init ms).run std ms ((c :: cmds).map toMachine) = y at this ⊢
    cases this with
    | error e => exact .error e
    | ok c d h => exact .ok c d (h.raise (by omega))

/-- The program accepts and refuses the same traces, for the same reason; the time of the last command is the same. -/
theorem C76_accepted {cmds : List Cmd} (h : In64 std ms cmds) :
    (∃ e, (Core.init ms).run std ms cmds = .error e ∧ (Machine.Core.init ms).run std ms (cmds.map toMachine) = .error e) ∨
    ∃ c d, (Core.init ms).run std ms cmds = .ok c ∧ (Machine.Core.init ms).run std ms (cmds.map toMachine) = .ok d ∧ d.last.toNat = c.last := by
  obtain ⟨U, hU, hr⟩ := machine_run h
  generalize (Core.init ms).run std ms cmds = x at hr ⊢
  generalize (Machine.Core.init ms).run std ms (cmds.map toMachine) = y at hr ⊢
  cases hr with
  | error e => exact .inl ⟨e, rfl, rfl⟩
  | ok c d h => exact .inr ⟨c, d, rfl, rfl, by rw [h.last, toNat_w (by have := h.lastIn; omega)]⟩

/-- The report is exact if all counters and figures fit. -/
theorem report_exact {cmds : List Cmd} (h : In64 std ms cmds) (ht : t < 2 ^ 64) {c : Core} {d : Machine.Core}
    (hr : (Core.init ms).run std ms cmds = .ok c) (hd : (Machine.Core.init ms).run std ms (cmds.map toMachine) = .ok d)
    (hs : ∀ i < ms.numberOfRanks, ∀ r, r = (c.process std t).ranks i →
      Sums t (r.act.countAt t) (r.sref.countAt t) (r.powerDownAct.countAt t) (r.powerDownPre.countAt t) (r.deepSleepMode.countAt t) ∧
      ∀ j < ms.numberOfBanks, (r.banks j).counter.pre ≤ cmds.length → countersMod (r.banks j).counter = (r.banks j).counter ∧
        Sums t ((r.banks j).act.countAt t) (r.sref.countAt t) (r.powerDownAct.countAt t) (r.powerDownPre.countAt t) (r.deepSleepMode.countAt t)) :
    machineReport (d.getWindowStats std ms (w t)).2 = (c.getWindowStats std ms t).2 := by
  obtain ⟨U, hU, hw⟩ := machine_run h
  rw [hr, hd] at hw
  cases hw with
  | ok c d hw =>
  have L : Limits U U cmds.length := ⟨Nat.le_refl U, hU, h.length⟩
  have hp := process_wrap (std := std) L hw ht fun e he _ => hw.bound e he
  simp only [machineReport, Core.getWindowStats, Machine.Core.getWindowStats, Core.statsAt, Machine.Core.statsAt, List.map_flatMap, List.map_map, CoreStats.mk.injEq]
  constructor
  · refine List.flatMap_congr fun i hi => List.map_congr_left fun j hj => ?_
    obtain ⟨h1, h2⟩ := hs i (List.mem_range.1 hi) _ rfl
    have hw := hp.rank i
    have h3 := h2 j (List.mem_range.1 hj) (hw.rng.bank j).pres
    have e1 := countersOf_bank (std := std) (t := t) hw j h3.1
    have e2 := cyclesOf_bank (std := std) hU hw ht j h3.2
    show BankStats.mk _ _ = _
    rw [e1, e2]
  · refine List.map_congr_left fun i hi => ?_
    exact cyclesOf_rank hU (hp.rank i) ht (hs i (List.mem_range.1 hi) _ rfl).1

theorem hits_le (ms : MemSpec) (std : Std) (i : Nat) (cmds : List Cmd) (ty : CmdType) (b : Nat) : hits ms (forRank std i cmds) ty b ≤ cmds.length := by
  unfold hits forRank
  exact Nat.le_trans List.countP_le_length (List.length_filter_le _ _)

theorem hits_two_le (ms : MemSpec) (std : Std) (i : Nat) (cmds : List Cmd) {x y : CmdType} (hxy : x ≠ y) (b : Nat) :
    hits ms (forRank std i cmds) x b + hits ms (forRank std i cmds) y b ≤ cmds.length := by
  refine Nat.le_trans ?_ (List.length_filter_le (fun c => c.rank == i && !unaddressed std c.type) cmds)
  unfold hits
  have : ∀ l : List Cmd, l.countP (fun c => decide (c.type = x) && targets ms c b) + l.countP (fun c => decide (c.type = y) && targets ms c b) ≤ l.length := by
    intro l
    induction l with
    | nil => simp
    | cons c l ih =>
      simp only [List.countP_cons, List.length_cons]
      by_cases h1 : c.type = x
      · have : c.type ≠ y := fun h2 => hxy (h1.symm.trans h2)
        simp only [this, decide_false, Bool.false_and, Bool.false_eq_true, if_false]
        split <;> omega
      · simp only [h1, decide_false, Bool.false_and, Bool.false_eq_true, if_false]
        split <;> omega
  exact this _

theorem counters_fit {cmds : List Cmd} (h : In64 std ms cmds) (hg : std = .ddr5 → ms.numberOfBanks = ms.numberOfBankGroups * ms.banksPerGroup)
    (h2 : ∀ c ∈ cmds, twoBanks ms c) {c : Core} (hr : (Core.init ms).run std ms cmds = .ok c) {i j : Nat} (hi : i < ms.numberOfRanks) (hj : j < ms.numberOfBanks)
    (hp : (((c.process std t).ranks i).banks j).counter.pre ≤ cmds.length) :
    countersMod (((c.process std t).ranks i).banks j).counter = (((c.process std t).ranks i).banks j).counter := by
  have h9 := C09 std ms cmds hg h2 c hr t i hi j hj
  rw [stats_bank hi hj, Option.map_some, Option.some.injEq] at h9
  have hlen := h.length
  have hb := fun ty => hits_le ms std i cmds ty j
  have hrs := hits_two_le ms std i cmds (x := .REFA) (y := .SREFEN) (by decide) j
  simp only [bankStats, Counters.noPre, tally, Counters.mk.injEq] at h9
  obtain ⟨e1, -, e2, e3, e4, e5, e6, e7, e8, e9, e10⟩ := h9
  generalize (((c.process std t).ranks i).banks j).counter = x at *
  have key : ∀ {a b : Nat}, a = b → b ≤ cmds.length → a % 2 ^ 64 = a := fun h h' => Nat.mod_eq_of_lt (by omega)
  unfold countersMod
  rw [key e1 (hb _), key (rfl : x.pre = x.pre) hp, key e2 (hb _), key e3 (hb _), key e4 hrs, key e5 (hb _), key e6 (hb _), key e7 (hb _), key e8 (hb _),
    key e9 (hb _), key e10 (hb _)]

/-- No figure, apart from the time in the precharged state, exceeds the time of the report: any trace in the order of time, legal or not. -/
theorem figures_within {cmds : List Cmd} (ho : Ordered cmds) {c : Core} (hr : (Core.init ms).run std ms cmds = .ok c) (hT : NotBefore cmds t) (i : Nat) :
    RankWithin t ((c.process std t).ranks i) :=
  ((CoreWithin.init ms).run cmds ho (fun _ _ => Nat.zero_le _) hr hT (Nat.zero_le t)).rank i

/-- All traces in the order of time, legal or not: if three times the time of the report is within 64 bits, the program reports what it ought to. -/
theorem C76 {cmds : List Cmd} (hg : std = .ddr5 → ms.numberOfBanks = ms.numberOfBankGroups * ms.banksPerGroup) (ho : Ordered cmds)
    (h2 : ∀ c ∈ cmds, twoBanks ms c) (h : In64 std ms cmds) (hT : NotBefore cmds t) (ht : 3 * t < 2 ^ 64) {c : Core}
    (hr : (Core.init ms).run std ms cmds = .ok c) :
    ∃ d, (Machine.Core.init ms).run std ms (cmds.map toMachine) = .ok d ∧
      machineReport (d.getWindowStats std ms (UInt64.ofNat t)).2 = (c.getWindowStats std ms t).2 := by
  rcases C76_accepted h with ⟨e, he, _⟩ | ⟨c', d, hc, hd, _⟩
  · rw [hr] at he; cases he
  refine ⟨d, hd, report_exact h (by omega) hr hd fun i hi r hri => ?_⟩
  have hw := figures_within ho hr hT i
  rw [← hri] at hw
  have h0 : t ≤ t := Nat.le_refl t
  have ha := hw.act.countAt h0
  have hs := hw.sref.countAt h0
  have hp := hw.pda.countAt h0
  have hq := hw.pdp.countAt h0
  have he := hw.dsm.countAt h0
  refine ⟨⟨by omega, by omega, by omega, by omega, by omega, by omega⟩, fun j hj hpre => ?_⟩
  have hb := (hw.bank j).countAt h0
  refine ⟨?_, ⟨by omega, by omega, by omega, by omega, by omega, by omega⟩⟩
  rw [hri] at hpre ⊢
  exact counters_fit h hg h2 hr hi hj hpre

theorem usub_sum {t A P Q S E x : Nat} (hx : x + A + P + Q + (usub S E + E) = t) : A + (P + Q + S) ≤ t + 2 ^ 64 := by
  have : S ≤ usub S E + E := by unfold usub; split <;> omega
  omega

/-- The figures add up to the time, so it may come up to 2^64 - 1. -/
theorem C76_conserved {cmds : List Cmd} (hv : ValidSpec std ms) (htt : TameTrace std ms cmds) (h : In64 std ms cmds) (hT : NotBefore cmds t) (ht : t < 2 ^ 64)
    {c : Core} (hr : (Core.init ms).run std ms cmds = .ok c) :
    ∃ d, (Machine.Core.init ms).run std ms (cmds.map toMachine) = .ok d ∧
      machineReport (d.getWindowStats std ms (UInt64.ofNat t)).2 = (c.getWindowStats std ms t).2 := by
  rcases C76_accepted h with ⟨e, he, _⟩ | ⟨c', d, hc, hd, _⟩
  · rw [hr] at he; cases he
  refine ⟨d, hd, report_exact h (by omega) hr hd fun i hi r hri => ?_⟩
  have hw := figures_within htt.ordered hr hT i
  rw [← hri] at hw
  have h0 : t ≤ t := Nat.le_refl t
  have ha := hw.act.countAt h0
  have hs := hw.sref.countAt h0
  have hp := hw.pda.countAt h0
  have hq := hw.pdp.countAt h0
  have he := hw.dsm.countAt h0
  obtain ⟨hsb, hsr⟩ := C03_partial std ms cmds hv htt c hr t hT
  have hsr := hsr _ (List.mem_of_getElem? (stats_rank (std := std) (t := t) (c := c) hi))
  rw [← hri] at hsr
  refine ⟨⟨by omega, by omega, by omega, by omega, by omega, ?_⟩, fun j hj hpre => ?_⟩
  · unfold Cycles.sum rankStats at hsr
    have := @usub_sum t (r.act.countAt t) (r.powerDownAct.countAt t) (r.powerDownPre.countAt t) (r.sref.countAt t) (r.deepSleepMode.countAt t)
      (usub t (r.act.countAt t + (r.powerDownAct.countAt t + r.powerDownPre.countAt t + r.sref.countAt t)))
    cases std <;> simp only at hsr <;> omega
  have hb := (hw.bank j).countAt h0
  have hsb := hsb _ (List.mem_of_getElem? (stats_bank (std := std) (t := t) (c := c) hi hj))
  rw [← hri] at hsb
  refine ⟨?_, ⟨by omega, by omega, by omega, by omega, by omega, ?_⟩⟩
  · rw [hri] at hpre ⊢
    exact counters_fit h hv.groups (tame_twoBanks htt) hr hi hj hpre
  · unfold Cycles.sum bankStats at hsb
    have := @usub_sum t ((r.banks j).act.countAt t) (r.powerDownAct.countAt t) (r.powerDownPre.countAt t) (r.sref.countAt t) (r.deepSleepMode.countAt t)
      (usub t ((r.banks j).act.countAt t + (r.powerDownAct.countAt t + r.powerDownPre.countAt t + r.sref.countAt t)))
    cases std <;> simp only at hsb <;> omega

/-- Legal traces, up to the last time. -/
def C76_statement (std : Std) : Prop :=
  ∀ (ms : MemSpec) (cmds : List Cmd) (t : Nat), ValidSpec std ms → LegalTrace std ms cmds → In64 std ms cmds → NotBefore cmds t → t < 2 ^ 64 →
    ∃ c d, (Core.init ms).run std ms cmds = .ok c ∧ (Machine.Core.init ms).run std ms (cmds.map toMachine) = .ok d ∧
      machineReport (d.getWindowStats std ms (UInt64.ofNat t)).2 = (c.getWindowStats std ms t).2

theorem C76_ddr4 : C76_statement .ddr4 := fun ms cmds _ hv hl h hT ht => by
  obtain ⟨c, hr⟩ := C05_accept_ddr4 ms cmds hv hl
  obtain ⟨d, hd⟩ := C76_conserved hv (legal_tame_ddr4 hl) h hT ht hr
  exact ⟨c, d, hr, hd⟩

theorem C76_noActivePowerDown {cmds : List Cmd} (hv : ValidSpec std ms) (hl : LegalTrace std ms cmds) (hn : ∀ c ∈ cmds, c.type ≠ .PDEA)
    (h : In64 std ms cmds) (hT : NotBefore cmds t) (ht : t < 2 ^ 64) :
    ∃ c d, (Core.init ms).run std ms cmds = .ok c ∧ (Machine.Core.init ms).run std ms (cmds.map toMachine) = .ok d ∧
      machineReport (d.getWindowStats std ms (UInt64.ofNat t)).2 = (c.getWindowStats std ms t).2 := by
  obtain ⟨c, hr⟩ := C05_accept_noActivePowerDown std ms cmds hv hl hn
  obtain ⟨d, hd⟩ := C76_conserved hv (legal_tame_noPda hl hn) h hT ht hr
  exact ⟨c, d, hr, hd⟩

/-- No figure, apart from the time in the precharged state and self refresh, exceeds the time of the report: any trace in the order of time, legal
or not. -/
theorem C76_figures {cmds : List Cmd} (ho : Ordered cmds) {c : Core} (hr : (Core.init ms).run std ms cmds = .ok c) (hT : NotBefore cmds t) :
    (∀ x ∈ (c.getWindowStats std ms t).2.bank, x.cycles.act ≤ t ∧ x.cycles.powerDownAct ≤ t ∧ x.cycles.powerDownPre ≤ t ∧ x.cycles.deepSleepMode ≤ t) ∧
    ∀ x ∈ (c.getWindowStats std ms t).2.rankTotal, x.act ≤ t ∧ x.powerDownAct ≤ t ∧ x.powerDownPre ≤ t ∧ x.deepSleepMode ≤ t := by
  have h0 : t ≤ t := Nat.le_refl t
  constructor
  · intro x hx
    simp only [Core.getWindowStats, Core.statsAt, List.mem_flatMap, List.mem_map, List.mem_range] at hx
    obtain ⟨i, _, b, _, rfl⟩ := hx
    have hw := figures_within ho hr hT i
    refine ⟨(hw.bank b).countAt h0, hw.pda.countAt h0, hw.pdp.countAt h0, ?_⟩
    cases std <;> first | exact hw.dsm.countAt h0 | exact Nat.zero_le t
  · intro x hx
    simp only [Core.getWindowStats, Core.statsAt, List.mem_map, List.mem_range] at hx
    obtain ⟨i, _, rfl⟩ := hx
    have hw := figures_within ho hr hT i
    refine ⟨hw.act.countAt h0, hw.pda.countAt h0, hw.pdp.countAt h0, ?_⟩
    cases std <;> first | exact hw.dsm.countAt h0 | exact Nat.zero_le t

/-! ## The limit of the times -/

/-- An access with auto-precharge shortly before the time 2^64. -/
def c76Late : List Cmd := [{ t := 2 ^ 64 - 20, type := .ACT, bank := 0 }, { t := 2 ^ 64 - 2, type := .RDA, bank := 0 }]

/-- Times in the active state of bank 0, of the ideal core and of the program. -/
def c76Active (std : Std) (ms : MemSpec) (cmds : List Cmd) (t : Nat) : Option Nat × Option Nat :=
  (match (Core.init ms).run std ms cmds with
    | .ok c => (c.getWindowStats std ms t).2.bank.head?.map (·.cycles.act)
    | .error _ => none,
   match (Machine.Core.init ms).run std ms (cmds.map toMachine) with
    | .ok d => (d.getWindowStats std ms (UInt64.ofNat t)).2.bank.head?.map (·.cycles.act.toNat)
    | .error _ => none)

/-- A legal trace whose times are below 2^64, not so the end of the read: the program takes the precharge for one before the read and reports
6 instead of 19 active cycles. -/
theorem C76_needsRange (std : Std) : ValidSpec std Ex.ms ∧ LegalTrace std Ex.ms c76Late ∧ NotBefore c76Late (2 ^ 64 - 1) ∧
    c76Active std Ex.ms c76Late (2 ^ 64 - 1) = (some 19, some 6) := by
  refine ⟨?_, ?_, ?_, ?_⟩ <;> cases std <;> decide +kernel

/-- The mixed traffic of the examples, moved close to the end of the range. -/
def c76Trace : List Cmd := Ex.traffic.map fun c => { c with t := c.t + (2 ^ 64 - 60) }

instance {std : Std} {ms : MemSpec} {cmds : List Cmd} : Decidable (In64 std ms cmds) :=
  decidable_of_iff ((∀ c ∈ cmds, c.t + longestDelay std ms < 2 ^ 64) ∧ cmds.length < 2 ^ 64) ⟨fun h => ⟨h.1, h.2⟩, fun h => ⟨h.1, h.2⟩⟩

example (std : Std) : ValidSpec std Ex.ms ∧ LegalTrace std Ex.ms c76Trace ∧ In64 std Ex.ms c76Trace ∧ NotBefore c76Trace (2 ^ 64 - 1) ∧
    (∀ c ∈ c76Trace, c.type ≠ .PDEA) := by
  cases std <;> decide +kernel

/-- An unlawful trace: a second `ACT` to an open bank, active power-down, a `PRE` of a closed bank. -/
def c76Odd : List Cmd :=
  [{ t := 2 ^ 62, type := .ACT, bank := 0 }, { t := 2 ^ 62 + 1, type := .ACT, bank := 0 }, { t := 2 ^ 62 + 2, type := .PDEA },
   { t := 2 ^ 62 + 9, type := .PDXA }, { t := 2 ^ 62 + 9, type := .PRE, bank := 1 }]

example (std : Std) : (std = .ddr5 → Ex.ms.numberOfBanks = Ex.ms.numberOfBankGroups * Ex.ms.banksPerGroup) ∧ Ordered c76Odd ∧ (∀ c ∈ c76Odd, twoBanks Ex.ms c) ∧
    In64 std Ex.ms c76Odd ∧ NotBefore c76Odd (2 ^ 62 + 20) ∧ 3 * (2 ^ 62 + 20) < 2 ^ 64 ∧ ¬ LegalTrace std Ex.ms c76Odd ∧
    ((Core.init Ex.ms).run std Ex.ms c76Odd).isOk = true := by
  cases std <;> decide +kernel

end DRAMPower
