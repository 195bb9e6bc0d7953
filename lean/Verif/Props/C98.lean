import Verif.Spec.Accesses
import Verif.Lemmas.Accesses
import Verif.Props.C06
import Verif.Props.C97
import Verif.Props.C16

/-!
# C98: reads and writes only count

Leaving out any reads and writes changes no state of a bank or rank: all cycles stay, and of the counters only those of the
reads and writes left out.
-/

namespace DRAMPower
open Spec

variable {std : Std} {ms : MemSpec}

theorem leftOut_cons (c : Cmd) (k : Bool) (l : List (Cmd × Bool)) (ty : CmdType) (i b : Nat) :
    leftOut ((c, k) :: l) ty i b = (if k = false ∧ c.type = ty ∧ c.rank = i ∧ c.bank = b then 1 else 0) + leftOut l ty i b := by
  unfold leftOut
  rw [List.countP_cons, Nat.add_comm]
  congr 1
  cases k <;> simp

/-- Along a trace: the core that received everything is the one that received the kept commands, up to counters. -/
theorem run_more : ∀ (l : List (Cmd × Bool)) (f g : Nat → Nat → Nat) (now : Nat) (c0 c c' d' : Core), Core.More f g c0 c' → SameAt std now c0 c →
    Ordered (whole l) → (∀ x ∈ whole l, now ≤ x.t) → AccessesOnly l → c'.run std ms (whole l) = .ok d' →
    ∃ d, c.run std ms (kept l) = .ok d ∧ ∀ t, now ≤ t → NotBefore (whole l) t →
      Core.More (fun i b => f i b + leftOut l .RD i b) (fun i b => g i b + leftOut l .WR i b) (d.process std t) (d'.process std t) := by
  intro l
  induction l with
  | nil =>
    intro f g now c0 c c' d' hm hs _ _ _ hr
    cases hr
    refine ⟨c, rfl, fun t ht _ => ?_⟩
    rw [← hs.mono ht]
    exact hm.process t
  | cons p l ih =>
    obtain ⟨x, k⟩ := p
    intro f g now c0 c c' d' hm hs ho hn ha hr
    have ho' := List.pairwise_cons.1 (show (x :: whole l).Pairwise (·.t ≤ ·.t) from ho)
    have hx : now ≤ x.t := hn x (List.mem_cons_self ..)
    have ha' : AccessesOnly l := fun p hp => ha p (List.mem_cons_of_mem _ hp)
    change c'.run std ms (x :: whole l) = _ at hr
    simp only [Core.run] at hr
    cases hd : c'.doCommand std ms x with
    | error e => rw [hd] at hr; cases hr
    | ok e' =>
      rw [hd] at hr
      cases k with
      | true =>
        obtain ⟨e, he, hme⟩ := hm.doCommand hd
        rw [hs.doCommand hx] at he
        obtain ⟨d, hrd, hfin⟩ := ih f g x.t e e e' d' hme rfl ho'.2 (fun y hy => ho'.1 y hy) ha' hr
        refine ⟨d, ?_, fun t ht hnb => ?_⟩
        · show c.run std ms (x :: kept l) = _
          simp only [Core.run, he]
          exact hrd
        · have := hfin t (hnb x (List.mem_cons_self ..)) (fun y hy => hnb y (List.mem_cons_of_mem _ hy))
          simpa only [leftOut_cons, Bool.true_eq_false, false_and, if_false, Nat.zero_add] using this
      | false =>
        have hma := hm.access hd (ha (x, false) (List.mem_cons_self ..) rfl)
        have hs' : SameAt std x.t (c0.process std x.t) c := by
          unfold SameAt
          rw [Core.process_process (Nat.le_refl _)]
          exact hs.mono hx
        obtain ⟨d, hrd, hfin⟩ := ih _ _ x.t _ c e' d' hma hs' ho'.2 (fun y hy => ho'.1 y hy) ha' hr
        refine ⟨d, hrd, fun t ht hnb => ?_⟩
        have := hfin t (hnb x (List.mem_cons_self ..)) (fun y hy => hnb y (List.mem_cons_of_mem _ hy))
        simpa only [leftOut_cons, true_and, Nat.add_assoc] using this

theorem more_none (c : Core) : Core.More (fun _ _ => 0) (fun _ _ => 0) c c := ⟨fun _ => rfl, rfl⟩

/-- For every trace, legal or not: if the whole trace is accepted, so is the trace without some of its reads and writes, and at
every query after it the cycles of all ranks and banks are the same; of the counters only reads and writes differ, by those left out. -/
theorem C98 (l : List (Cmd × Bool)) (ho : Ordered (whole l)) (ha : AccessesOnly l) (c' : Core) (hr : (Core.init ms).run std ms (whole l) = .ok c') :
    ∃ c, (Core.init ms).run std ms (kept l) = .ok c ∧ ∀ t, NotBefore (whole l) t →
      (c'.getWindowStats std ms t).2.rankTotal = (c.getWindowStats std ms t).2.rankTotal ∧
      ∀ i < ms.numberOfRanks, ∀ b < ms.numberOfBanks, ∃ x y, (c.getWindowStats std ms t).2.bank[i * ms.numberOfBanks + b]? = some x ∧
        (c'.getWindowStats std ms t).2.bank[i * ms.numberOfBanks + b]? = some y ∧ y.cycles = x.cycles ∧
        y.counter = { x.counter with reads := x.counter.reads + leftOut l .RD i b, writes := x.counter.writes + leftOut l .WR i b } := by
  obtain ⟨c, hc, h⟩ := run_more l (fun _ _ => 0) (fun _ _ => 0) 0 _ _ _ c' (more_none _) (rfl : SameAt std 0 (Core.init ms) _) ho
    (fun _ _ => Nat.zero_le _) ha hr
  refine ⟨c, hc, fun t ht => ?_⟩
  have h := h t (Nat.zero_le _) ht
  refine ⟨?_, fun i hi b hb => ⟨_, _, stats_bank hi hb, stats_bank hi hb, ?_, ?_⟩⟩
  · simp only [Core.getWindowStats, Core.statsAt]
    refine List.map_congr_left fun i _ => ?_
    rw [h.ranks]
    rfl
  · rw [h.ranks]; rfl
  · rw [h.ranks]
    simp only [bankStats, Rank.more, Bank.more, Nat.zero_add]

/-! ## Adding reads and writes -/

theorem Core.More.doCommand_back {f g : Nat → Nat → Nat} {c c' d : Core} {cmd : Cmd} (h : Core.More f g c c') (hd : c.doCommand std ms cmd = .ok d) :
    ∃ d', c'.doCommand std ms cmd = .ok d' := by
  have hp := h.process (std := std) cmd.t
  unfold Core.doCommand at hd ⊢
  simp only at hd ⊢
  split at hd
  · rename_i hn
    rw [if_pos hn]
    exact ⟨_, rfl⟩
  · rename_i hn
    rw [if_neg hn]
    split at hd
    · rename_i hr
      rw [if_pos hr, hp.ranks, handle_more]
      cases hh : handle std ms ((c.process std cmd.t).ranks cmd.rank) cmd with
      | error e => rw [hh] at hd; cases hd
      | ok x => exact ⟨_, rfl⟩
    · cases hd

theorem access_accepted {c : Core} {cmd : Cmd} (hw : WF ms c) (ha : cmd.type = .RD ∨ cmd.type = .WR) (hr : cmd.rank < ms.numberOfRanks)
    (hb : cmd.bank < ms.numberOfBanks) : ∃ d, c.doCommand std ms cmd = .ok d := by
  have hw := process_wf (std := std) (t := cmd.t) hw
  have hn : isNoEffect std cmd.type = false := by rcases ha with e | e <;> rw [e] <;> cases std <;> rfl
  unfold Core.doCommand
  simp only [hn, Bool.false_eq_true, if_false, if_pos hr]
  have : cmd.bank < ((c.process std cmd.t).ranks cmd.rank).nBanks := by rw [hw]; exact hb
  unfold handle
  rcases ha with e | e <;> rw [e] <;> simp only [withBank, pureRes, if_pos this] <;> exact ⟨_, rfl⟩

theorem run_back : ∀ (l : List (Cmd × Bool)) (f g : Nat → Nat → Nat) (now : Nat) (c0 c c' d : Core), Core.More f g c0 c' → SameAt std now c0 c → WF ms c' →
    Ordered (whole l) → (∀ x ∈ whole l, now ≤ x.t) → AccessesOnly l →
    (∀ p ∈ l, p.2 = false → p.1.rank < ms.numberOfRanks ∧ p.1.bank < ms.numberOfBanks) → c.run std ms (kept l) = .ok d →
    ∃ d', c'.run std ms (whole l) = .ok d' := by
  intro l
  induction l with
  | nil => intro _ _ _ _ _ c' _ _ _ _ _ _ _ _ _; exact ⟨c', rfl⟩
  | cons p l ih =>
    obtain ⟨x, k⟩ := p
    intro f g now c0 c c' d hm hs hw ho hn ha he hr
    have ho' := List.pairwise_cons.1 (show (x :: whole l).Pairwise (·.t ≤ ·.t) from ho)
    have hx : now ≤ x.t := hn x (List.mem_cons_self ..)
    have ha' : AccessesOnly l := fun p hp => ha p (List.mem_cons_of_mem _ hp)
    have he' := fun p hp => he p (List.mem_cons_of_mem _ hp)
    change ∃ d', c'.run std ms (x :: whole l) = .ok d'
    simp only [Core.run]
    cases k with
    | true =>
      change c.run std ms (x :: kept l) = _ at hr
      simp only [Core.run] at hr
      cases hd : c.doCommand std ms x with
      | error e => rw [hd] at hr; cases hr
      | ok e =>
        rw [hd] at hr
        rw [← hs.doCommand hx] at hd
        obtain ⟨e', hde⟩ := hm.doCommand_back hd
        obtain ⟨e2, hd2, hme⟩ := hm.doCommand hde
        cases ok_inj (hd.symm.trans hd2)
        rw [hde]
        exact ih f g x.t e e e' d hme rfl (doCommand_wf hw hde) ho'.2 (fun y hy => ho'.1 y hy) ha' he' hr
    | false =>
      have hax := ha (x, false) (List.mem_cons_self ..) rfl
      obtain ⟨h1, h2⟩ := he (x, false) (List.mem_cons_self ..) rfl
      obtain ⟨e', hde⟩ := access_accepted (std := std) hw hax h1 h2
      have hs' : SameAt std x.t (c0.process std x.t) c := by
        unfold SameAt
        rw [Core.process_process (Nat.le_refl _)]
        exact hs.mono hx
      rw [hde]
      exact ih _ _ x.t _ c e' d (hm.access hde hax) hs' (doCommand_wf hw hde) ho'.2 (fun y hy => ho'.1 y hy) ha' he' hr

/-- Reads and writes of existing banks can be added anywhere to an accepted trace. -/
theorem C98_adding (l : List (Cmd × Bool)) (ho : Ordered (whole l)) (ha : AccessesOnly l)
    (he : ∀ p ∈ l, p.2 = false → p.1.rank < ms.numberOfRanks ∧ p.1.bank < ms.numberOfBanks) (c : Core)
    (hr : (Core.init ms).run std ms (kept l) = .ok c) : ∃ c', (Core.init ms).run std ms (whole l) = .ok c' :=
  run_back l (fun _ _ => 0) (fun _ _ => 0) 0 _ _ _ c (more_none _) (rfl : SameAt std 0 (Core.init ms) _) (init_wf ms) ho (fun _ _ => Nat.zero_le _) ha he hr

/-! ## The energy of the reads and writes left out -/

section energy
variable {N : Nat} {sp : IfSpec} {ps : PowerSpec}

theorem PowerSpec.eRead_more (d : Domain) (n k : Nat) : ps.eRead std d (n + k) = ps.eRead std d n + k * ps.eRead std d 1 := by
  cases std <;> simp only [PowerSpec.eRead, E_RD_ddr, E_burst] <;> push_cast <;> ring

theorem PowerSpec.eWrite_more (d : Domain) (n k : Nat) : ps.eWrite std d (n + k) = ps.eWrite std d n + k * ps.eWrite std d 1 := by
  simp only [PowerSpec.eWrite, E_burst]
  push_cast
  ring

theorem whole_core (l : List (ICmd × Bool)) : whole (coreMarks l) = (whole l).map ICmd.core := by
  simp [whole, coreMarks, Function.comp_def]

theorem kept_core (l : List (ICmd × Bool)) : kept (coreMarks l) = (kept l).map ICmd.core := by
  simp [kept, coreMarks, List.filter_map, Function.comp_def]

theorem sum_cast_mul {α : Type} (L : List α) (f : α → Nat) (k : Rat) : (L.map fun a => (f a : Rat) * k).sum = ((L.map f).sum : Nat) * k := by
  induction L with
  | nil => simp
  | cons a L ih => simp only [List.map_cons, List.sum_cons, ih]; push_cast; ring

/-- The core energy of the reads and writes left out: each costs its burst charge in every device. -/
theorem C98_energy (l : List (ICmd × Bool)) (ho : Ordered ((whole l).map ICmd.core)) (ha : AccessesOnly (coreMarks l))
    {s0 s s' q q' : Simulator std N} {t : Nat} {e e' : Energy} (hk : ps.ranks = ms.numberOfRanks) (hb : ps.banks = ms.numberOfBanks)
    (hbl : ps.dataRate ∣ ps.burstLength) (hi : Simulator.init std N ms sp = .ok s0)
    (hr : s0.run ms sp (kept l) = .done s) (hr' : s0.run ms sp (whole l) = .done s')
    (hT : ∀ c ∈ whole l, c.t ≤ t) (he : s.calcCoreEnergy ms sp ps t = .ok (q, e)) (he' : s'.calcCoreEnergy ms sp ps t = .ok (q', e')) :
    e'.total - e.total = ps.devices * (ps.domains.map fun d => d.v *
      ((leftOutAll ms (coreMarks l) .RD : Rat) * commandCharge std ps d .RD + leftOutAll ms (coreMarks l) .WR * commandCharge std ps d .WR)).sum := by
  obtain ⟨hc, _⟩ := simulator_init hi
  obtain ⟨hr, _⟩ := run_halves _ hr
  obtain ⟨hr', _⟩ := run_halves _ hr'
  rw [hc] at hr hr'
  rw [← kept_core] at hr
  rw [← whole_core] at hr' ho
  obtain ⟨c, hcr, h⟩ := C98 _ ho ha _ hr'
  cases ok_inj (hr.symm.trans hcr)
  obtain ⟨hrank, hbank⟩ := h t (by
    intro d hd
    rw [whole_core] at hd
    obtain ⟨k, hk, rfl⟩ := List.mem_map.1 hd
    exact hT k hk)
  obtain ⟨x, hx, bx, rx⟩ := rank_figures hk he
  obtain ⟨y, hy, by', ry⟩ := rank_figures hk he'
  have hdiv := PowerSpec.divisors_of_ok hx
  generalize coreMarks l = m at *
  have key : ∀ i < ms.numberOfRanks, ∀ d : Domain, ps.rankSum std y i d = ps.rankSum std x i d +
      (ps.devices : Rat) * ((List.range ms.numberOfBanks).map fun b => (leftOut m .RD i b : Rat) * (d.v * commandCharge std ps d .RD) +
        (leftOut m .WR i b : Rat) * (d.v * commandCharge std ps d .WR)).sum := by
    intro i hi d
    have hcyc : (y.rankTotal.getD i {}).cycles = (x.rankTotal.getD i {}).cycles := by rw [rx i hi, ry i hi, hrank]
    have e1 : ∀ b ∈ List.range ms.numberOfBanks, bankTotal (ps.bankEnergy std d (y.bank.getD (i * ms.numberOfBanks + b) {}) (y.rankTotal.getD i {})) =
        bankTotal (ps.bankEnergy std d (x.bank.getD (i * ms.numberOfBanks + b) {}) (x.rankTotal.getD i {})) +
        ((leftOut m .RD i b : Rat) * (d.v * commandCharge std ps d .RD) + (leftOut m .WR i b : Rat) * (d.v * commandCharge std ps d .WR)) := by
      intro b hb
      obtain ⟨f, g, hf, hg, hcy, hcnt⟩ := hbank i hi b (List.mem_range.1 hb)
      have hxf : x.bank.getD (i * ms.numberOfBanks + b) {} = f.toCycle := by
        rw [bx, List.getD_eq_getElem?_getD]
        simp only [CoreStats.toSim, List.getElem?_map, hf]
        rfl
      have hyg : y.bank.getD (i * ms.numberOfBanks + b) {} = g.toCycle := by
        rw [by', List.getD_eq_getElem?_getD]
        simp only [CoreStats.toSim, List.getElem?_map, hg]
        rfl
      have c1 : g.toCycle.counter = { f.counter with reads := f.counter.reads + leftOut m .RD i b, writes := f.counter.writes + leftOut m .WR i b } := hcnt
      have c2 : g.toCycle.cycles.act = f.toCycle.cycles.act := congrArg _ hcy
      rw [hxf, hyg, PowerSpec.bankTotal_bankEnergy, PowerSpec.bankTotal_bankEnergy, c1, c2, hcyc]
      simp only [PowerSpec.eRead_more d _ (leftOut m .RD i b), PowerSpec.eWrite_more d _ (leftOut m .WR i b),
        PowerSpec.eRead_one hdiv hbl, PowerSpec.eWrite_one hdiv hbl, show f.toCycle.counter = f.counter from rfl]
      ring
    have e2 : sharedTotal (ps.rankEnergy std d (y.rankTotal.getD i {})) = sharedTotal (ps.rankEnergy std d (x.rankTotal.getD i {})) := by
      rw [PowerSpec.sharedTotal_rankEnergy, PowerSpec.sharedTotal_rankEnergy, hcyc]
    unfold PowerSpec.rankSum PowerSpec.contrib PowerSpec.statsIndex
    rw [hb, List.map_congr_left e1, List.sum_map_add, e2]
    ring
  rw [PowerSpec.total_closed hx, PowerSpec.total_closed hy, sub_eq_iff_eq_add', ← sum_mul_left, ← List.sum_map_add]
  congr 1
  refine List.map_congr_left fun d _ => ?_
  rw [hk, List.map_congr_left fun i hi => key i (List.mem_range.1 hi) d, List.sum_map_add, sum_mul_left]
  congr 2
  have hs : ∀ (ty : CmdType) (k : Rat), ((List.range ms.numberOfRanks).map fun i => ((List.range ms.numberOfBanks).map fun b => (leftOut m ty i b : Rat) * k).sum).sum =
      (leftOutAll ms m ty : Rat) * k := by
    intro ty k
    unfold leftOutAll
    simp only [sum_cast_mul]
  simp only [List.sum_map_add, hs]
  ring

end energy

/-! ## A case that meets the hypotheses -/

/-- Interleaved traffic; the two plain accesses marked `false` are left out, one kept. -/
def c98Trace : List (Cmd × Bool) :=
  [ ({ t := 0, type := .ACT, bank := 0 }, true), ({ t := 1, type := .ACT, bank := 1, rank := 1 }, true),
    ({ t := 3, type := .RD, bank := 0 }, false), ({ t := 4, type := .WR, bank := 1, rank := 1 }, false), ({ t := 5, type := .RD, bank := 0 }, true),
    ({ t := 6, type := .RD, bank := 0 }, false), ({ t := 7, type := .RDA, bank := 1, rank := 1 }, true), ({ t := 8, type := .WRA, bank := 0 }, true),
    ({ t := 30, type := .PDEP }, true), ({ t := 40, type := .PDXP }, true) ]

example (std : Std) : Ordered (whole c98Trace) ∧ leftOut c98Trace .RD 0 0 = 2 ∧ leftOut c98Trace .WR 1 1 = 1 ∧ leftOut c98Trace .WR 0 0 = 0 ∧
    (((Core.init Ex.ms).run std Ex.ms (whole c98Trace)).toOption.map fun c => (c.getWindowStats std Ex.ms 50).2.bank.map fun x => (x.counter.reads, x.counter.writes)) =
      some [(3, 0), (0, 0), (0, 0), (0, 0), (0, 0), (0, 1), (0, 0), (0, 0)] ∧
    (((Core.init Ex.ms).run std Ex.ms (kept c98Trace)).toOption.map fun c => (c.getWindowStats std Ex.ms 50).2.bank.map fun x => (x.counter.reads, x.counter.writes)) =
      some [(1, 0), (0, 0), (0, 0), (0, 0), (0, 0), (0, 0), (0, 0), (0, 0)] := by
  cases std <;> decide +kernel

example : AccessesOnly c98Trace ∧ ∀ p ∈ c98Trace, p.2 = false → p.1.rank < Ex.ms.numberOfRanks ∧ p.1.bank < Ex.ms.numberOfBanks := by
  unfold AccessesOnly
  decide

/-- For the energy theorem: two reads and a write are left out, one read is kept. -/
def c98Bits : Option (List UInt8) := some [1, 2, 3, 4, 5, 6, 7, 8]
def c98Sim : List (ICmd × Bool) :=
  [ ({ t := 0, type := .ACT }, true), ({ t := 8, type := .RD, nBits := 64, data := c98Bits }, false),
    ({ t := 24, type := .RD, nBits := 64, data := c98Bits }, true), ({ t := 40, type := .WR, nBits := 64, data := c98Bits }, false),
    ({ t := 56, type := .RD, nBits := 64, data := c98Bits }, false), ({ t := 80, type := .PRE }, true) ]

example (std : Std) (hs : std ≠ .lpddr6) : Ordered ((whole c98Sim).map ICmd.core) ∧ AccessesOnly (coreMarks c98Sim) ∧
    c53Power.ranks = Ex.ms.numberOfRanks ∧ c53Power.banks = Ex.ms.numberOfBanks ∧ c53Power.dataRate ∣ c53Power.burstLength ∧
    (∀ c ∈ whole c98Sim, c.t ≤ 100) ∧ leftOutAll Ex.ms (coreMarks c98Sim) .RD = 2 ∧ leftOutAll Ex.ms (coreMarks c98Sim) .WR = 1 ∧
    (c67Total std (whole c98Sim) 100).isSome = true ∧ (c67Total std (kept c98Sim) 100).isSome = true ∧
    c67Total std (whole c98Sim) 100 ≠ c67Total std (kept c98Sim) 100 := by
  unfold AccessesOnly
  cases std <;> first | exact absurd rfl hs | decide +kernel

/-- LPDDR6, with payloads of its own size. -/
def c98Six : List (ICmd × Bool) :=
  [ ({ t := 0, type := .ACT, dbank := 0 }, true), (burst 8 .RD, false), (burst 40 .RD, true), (burst 72 .WR, false), ({ t := 120, type := .PRE, dbank := 0 }, true) ]
where
  burst (t : Nat) (ty : CmdType) : ICmd := { t, type := ty, dbank := 0, nBits := 256, data := some (List.replicate 32 7) }

def c98Total (cs : List ICmd) (t : Nat) : Option Rat :=
  match Simulator.init .lpddr6 64 Ex.ms (c16Spec .lpddr6) with
  | .error _ => none
  | .ok s => match s.run Ex.ms (c16Spec .lpddr6) cs with
    | .done s => match s.calcCoreEnergy Ex.ms (c16Spec .lpddr6) c53Power t with
      | .ok (_, e) => some e.total
      | _ => none
    | _ => none

example : Ordered ((whole c98Six).map ICmd.core) ∧ AccessesOnly (coreMarks c98Six) ∧ (∀ c ∈ whole c98Six, c.t ≤ 150) ∧
    leftOutAll Ex.ms (coreMarks c98Six) .RD = 1 ∧ leftOutAll Ex.ms (coreMarks c98Six) .WR = 1 ∧
    (c98Total (whole c98Six) 150).isSome = true ∧ (c98Total (kept c98Six) 150).isSome = true ∧
    c98Total (whole c98Six) 150 ≠ c98Total (kept c98Six) 150 := by
  unfold AccessesOnly
  decide +kernel

end DRAMPower
