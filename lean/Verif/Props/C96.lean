import Verif.Spec.Steady
import Verif.Lemmas.SteadyWires
import Verif.Props.C30
import Verif.Props.C46
import Verif.Props.C91
import Verif.Props.C53

/-!
# C96: a memory left alone draws constant power

From some time after the last command on, every cycle adds the same figures to the statistics: one cycle in one state for every bank and rank, no
command, and the same numbers of levels and edges on the wires. So every cycle takes the same energy.
-/

namespace DRAMPower
open Spec

variable {std : Std} {N : Nat} {ms : MemSpec} {sp : IfSpec}

/-- The full statement. -/
def C96_statement (std : Std) : Prop :=
  ∀ (N : Nat) (ms : MemSpec) (sp : IfSpec) (cs : List ICmd) (s0 s : Simulator std N), ValidSpec std ms → LegalTrace std ms (cs.map ICmd.core) →
    (std = .ddr4 → sp.ranks = ms.numberOfRanks) → Simulator.init std N ms sp = .ok s0 → s0.run ms sp cs = .done s →
    ∃ t1 b d, Waited 1 ms.numberOfRanks ms.numberOfBanks d ∧ ∀ n s' x, s.getWindowStats ms sp (t1 + n) = .ok (s', x) → x = grown b d n

/-! ## One cycle -/

/-- Cycles in a state. -/
def tick (m : Nat) (k : Cat) : CycleStats := { cycles := cycles fun c => if k = c then m else 0 }

/-- An entry after `n` further cycles in a state. -/
def spend (c : Counters) (p : Prepos) (y : Cat → Nat) (k : Cat) (n : Nat) : CycleStats :=
  { counter := c, prepos := p, cycles := cycles fun x => y x + if k = x then n else 0 }

theorem tick_waits (m : Nat) (k : Cat) : Waits m (tick m k) := by
  refine ⟨rfl, rfl, ?_⟩
  cases k <;> simp [tick, cycles]

theorem spend_add (c : Counters) (p : Prepos) (y : Cat → Nat) (k : Cat) (m n : Nat) : spend c p y k (n + m) = (spend c p y k n).add (tick m k) := by
  apply CycleStats.ext_count
  intro q
  rw [CoreCount.of_add]
  cases q <;> cases k <;> first | rfl | exact (Nat.add_assoc ..).symm

theorem addCycles_range (m : Nat) (f g : Nat → CycleStats) :
    addCycles ((List.range m).map f) ((List.range m).map g) = (List.range m).map fun j => (f j).add (g j) := by
  apply addCycles_ext
  · simp [addCycles_length]
  · intro j
    rw [addCycles_getD]
    simp only [List.getD_eq_getElem?_getD, List.getElem?_map]
    by_cases h : j < m
    · simp [List.getElem?_range h]
    · simp only [List.getElem?_eq_none (show (List.range m).length ≤ j by simp; omega), Option.map_none, Option.getD_none]
      rfl

theorem list_entries {l : List CycleStats} {m : Nat} {f : Nat → CycleStats} (hl : l.length = m) (h : ∀ j < m, l[j]? = some (f j)) :
    l = (List.range m).map f := by
  apply List.ext_getElem?
  intro j
  rw [List.getElem?_map]
  by_cases hj : j < m
  · rw [h j hj, List.getElem?_range hj]; rfl
  · rw [List.getElem?_eq_none (by omega), List.getElem?_eq_none (by simp; omega)]; rfl

theorem grown_of_succ {S : Nat → SimStats} {d : SimStats} (h : ∀ n, S (n + 1) = (S n).add d) : ∀ n, S n = grown (S 0) d n
  | 0 => rfl
  | n + 1 => by rw [h, grown_of_succ h n]; rfl

/-- What the proof finds: also the sizes of the first statistics. -/
theorem steady_window {cs : List ICmd} {s0 s : Simulator std N} (hv : ValidSpec std ms) (ht : TameTrace std ms (cs.map ICmd.core))
    {k : Nat} (he : mobile std → sp.wckAlwaysOn = true → 2 ∣ k * sp.wckRate) (h4 : std = .ddr4 → sp.ranks = ms.numberOfRanks) (hi : Simulator.init std N ms sp = .ok s0)
    (hr : s0.run ms sp cs = .done s) :
    ∃ t1 b d, Waited k ms.numberOfRanks ms.numberOfBanks d ∧ (b.bank.length = ms.numberOfRanks * ms.numberOfBanks ∧ b.rankTotal.length = ms.numberOfRanks) ∧
      ∀ n s' x, s.getWindowStats ms sp (t1 + k * n) = .ok (s', x) → x = grown b d n := by
  obtain ⟨hc0, hi0⟩ := simulator_init hi
  obtain ⟨hrc, hri⟩ := run_halves cs hr
  rw [hc0] at hrc
  obtain ⟨T1, h1⟩ := core_steady hv ht hrc
  obtain ⟨T2, h2⟩ := wires_steady hi0 hri he
  generalize hT : max T1 T2 = T
  obtain ⟨cb, yb, kb, yr, kr, hb⟩ := h1 T (by omega)
  obtain ⟨B, D, hw⟩ := h2 T (by omega)
  have hlen : std = .ddr4 → s.interface.ranks.length = ms.numberOfRanks := by
    intro h
    let κ : Codec := { pad := fun _ => 0, rate := fun _ => [], toRate := fun _ => none, order := id, reserve := id }
    have hk : Faithful κ sp := ⟨fun _ => .refl _, fun _ => Nat.le_refl _, rfl, fun _ _ => Nat.le_max_left _ _⟩
    have kept : Kept κ sp s0.interface s.interface := (Kept.init hk hi0).run hk (fun op hop => by
      obtain ⟨c, _, rfl⟩ := List.mem_map.1 hop
      trivial) hri
    have e0 : s0.interface.ranks = if std = .ddr4 then List.replicate sp.ranks {} else [] := by
      unfold Interface.init at hi0
      obtain ⟨_, _, h2⟩ := bind_ok hi0
      obtain ⟨_, _, h2⟩ := bind_ok h2
      obtain ⟨_, _, h2⟩ := bind_ok h2
      split at h2
      · cases h2
      · have e := pure_ok h2
        rw [← e, if_pos h]
    rw [kept.ranks, e0, if_pos h, List.length_replicate, h4 h]
  let pos : Nat → Prepos := fun i => if std = .ddr4 then ((s.interface.ranks[i]?).map RankIf.prepos).getD {} else {}
  let S : Nat → SimStats := fun n =>
    { commandBus := B .command + n * D .command
      readBus := B .readData + n * D .readData
      writeBus := B .writeData + n * D .writeData
      clockStats := B .clock + n * D .clock
      wClockStats := B .dataClock + n * D .dataClock
      readDBI := B .readInv + n * D .readInv
      writeDBI := B .writeInv + n * D .writeInv
      togglingRead := B .readRate + n * D .readRate
      togglingWrite := B .writeRate + n * D .writeRate
      readDQSStats := B .readStrobe + n * D .readStrobe
      writeDQSStats := B .writeStrobe + n * D .writeStrobe
      bank := (List.range (ms.numberOfRanks * ms.numberOfBanks)).map fun j =>
        spend (cb (j / ms.numberOfBanks) (j % ms.numberOfBanks)) {} (yb (j / ms.numberOfBanks) (j % ms.numberOfBanks))
          (kb (j / ms.numberOfBanks) (j % ms.numberOfBanks)) (k * n)
      rankTotal := (List.range ms.numberOfRanks).map fun i => spend {} (pos i) (yr i) (kr i) (k * n) }
  let d : SimStats :=
    { commandBus := D .command
      readBus := D .readData
      writeBus := D .writeData
      clockStats := D .clock
      wClockStats := D .dataClock
      readDBI := D .readInv
      writeDBI := D .writeInv
      togglingRead := D .readRate
      togglingWrite := D .writeRate
      readDQSStats := D .readStrobe
      writeDQSStats := D .writeStrobe
      bank := (List.range (ms.numberOfRanks * ms.numberOfBanks)).map fun j => tick k (kb (j / ms.numberOfBanks) (j % ms.numberOfBanks))
      rankTotal := (List.range ms.numberOfRanks).map fun i => tick k (kr i) }
  have succ : ∀ n, S (n + 1) = (S n).add d := by
    intro n
    simp only [S, d, SimStats.add, addCycles_range, Nat.mul_succ, spend_add, BusStats.succ_mul, BusStats.add_assoc]
  refine ⟨T, S 0, d, ⟨?_, ?_, by simp [d], by simp [d]⟩, ⟨by simp [S], by simp [S]⟩, fun n s' x hx => ?_⟩
  · intro c hc
    obtain ⟨j, _, rfl⟩ := List.mem_map.1 hc
    exact tick_waits _ _
  · intro c hc
    obtain ⟨j, _, rfl⟩ := List.mem_map.1 hc
    exact tick_waits _ _
  · rw [← grown_of_succ succ n]
    have hx := simulator_stats hx
    obtain ⟨l1, l2⟩ := window_lists hx
    have w := hw n _ x (fun g => by cases g <;> rfl) hx
    have e1 : x.bank = (S n).bank := by
      rw [l1]
      refine list_entries (by simp [CoreStats.toSim, Core.getWindowStats, Core.statsAt, List.length_flatMap]) fun j hj => ?_
      have hB : 0 < ms.numberOfBanks := hv.banks
      have hdj : j / ms.numberOfBanks < ms.numberOfRanks := Nat.div_lt_of_lt_mul (by rw [Nat.mul_comm]; exact hj)
      have := hb.bank (k * n) _ hdj _ (Nat.mod_lt j hB)
      rw [Nat.div_add_mod'] at this
      simp only [CoreStats.toSim, List.getElem?_map, this]
      rfl
    have e2 : x.rankTotal = (S n).rankTotal := by
      rw [l2]
      by_cases h : std = .ddr4
      · rw [if_pos h]
        refine list_entries (by simp [Interface.rankTotals, hlen h]) fun i hi => ?_
        have hr := hb.rank (k * n) i hi
        have hi' : i < s.interface.ranks.length := by rw [hlen h]; exact hi
        simp only [Interface.rankTotals, List.getElem?_mapIdx, List.getElem?_eq_getElem hi', Option.map_some, CoreStats.toSim,
          List.getD_eq_getElem?_getD, List.getElem?_map, hr, Option.getD_some, pos, if_pos h]
        rfl
      · rw [if_neg h]
        refine list_entries (by simp [CoreStats.toSim, Core.getWindowStats, Core.statsAt]) fun i hi => ?_
        simp only [CoreStats.toSim, List.getElem?_map, hb.rank (k * n) i hi, pos, if_neg h]
        rfl
    have v : ∀ {a b : SimStats}, (∀ g : Group, g.figures a = g.figures b) → a.bank = b.bank → a.rankTotal = b.rankTotal → a = b := by
      intro a b hg h1 h2
      have g1 := hg .clock
      have g2 := hg .dataClock
      have g3 := hg .command
      have g4 := hg .readStrobe
      have g5 := hg .writeStrobe
      have g6 := hg .readData
      have g7 := hg .writeData
      have g8 := hg .readRate
      have g9 := hg .writeRate
      have g10 := hg .readInv
      have g11 := hg .writeInv
      cases a; cases b
      simp only [Group.figures] at g1 g2 g3 g4 g5 g6 g7 g8 g9 g10 g11 h1 h2
      simp only [SimStats.mk.injEq]
      exact ⟨g3, g6, g7, g1, g2, g10, g11, g8, g9, g4, g5, h1, h2⟩
    exact v (fun g => by rw [w g]; cases g <;> rfl) e1 e2

/-- Missing from the full statement: the active power-down situations excluded by `benignCmd` (not DDR4), and LPDDR5 and LPDDR6 memories with a data
clock that never stops and has an odd number of levels per cycle. -/
theorem C96_partial {cs : List ICmd} {s0 s : Simulator std N} (hv : ValidSpec std ms) (ht : TameTrace std ms (cs.map ICmd.core))
    (he : EvenDataClock std sp) (h4 : std = .ddr4 → sp.ranks = ms.numberOfRanks) (hi : Simulator.init std N ms sp = .ok s0)
    (hr : s0.run ms sp cs = .done s) :
    ∃ t1 b d, Waited 1 ms.numberOfRanks ms.numberOfBanks d ∧ ∀ n s' x, s.getWindowStats ms sp (t1 + n) = .ok (s', x) → x = grown b d n := by
  obtain ⟨t1, b, d, h1, _, h2⟩ := steady_window (k := 1) hv ht (fun hm ho => by rw [Nat.one_mul]; exact he hm ho) h4 hi hr
  exact ⟨t1, b, d, h1, fun n s' x hx => h2 n s' x (by rw [Nat.one_mul]; exact hx)⟩

/-- Without a condition on the data clock: every period of two cycles adds the same. -/
theorem C96_pairs_partial {cs : List ICmd} {s0 s : Simulator std N} (hv : ValidSpec std ms) (ht : TameTrace std ms (cs.map ICmd.core))
    (h4 : std = .ddr4 → sp.ranks = ms.numberOfRanks) (hi : Simulator.init std N ms sp = .ok s0) (hr : s0.run ms sp cs = .done s) :
    ∃ t1 b d, Waited 2 ms.numberOfRanks ms.numberOfBanks d ∧ ∀ n s' x, s.getWindowStats ms sp (t1 + 2 * n) = .ok (s', x) → x = grown b d n := by
  obtain ⟨t1, b, d, h1, _, h2⟩ := steady_window (k := 2) hv ht (fun _ _ => ⟨_, rfl⟩) h4 hi hr
  exact ⟨t1, b, d, h1, h2⟩

theorem C96_ddr4 : C96_statement .ddr4 := fun N ms sp cs s0 s hv hl h4 hi hr =>
  C96_partial hv (legal_tame_ddr4 hl) (fun h => by rcases h with h | h <;> cases h) h4 hi hr

/-- All standards: every legal trace without active power-down. -/
theorem C96_noActivePowerDown {cs : List ICmd} {s0 s : Simulator std N} (hv : ValidSpec std ms) (hl : LegalTrace std ms (cs.map ICmd.core))
    (hn : ∀ c ∈ cs, c.type ≠ .PDEA) (he : EvenDataClock std sp) (h4 : std = .ddr4 → sp.ranks = ms.numberOfRanks)
    (hi : Simulator.init std N ms sp = .ok s0) (hr : s0.run ms sp cs = .done s) :
    ∃ t1 b d, Waited 1 ms.numberOfRanks ms.numberOfBanks d ∧ ∀ n s' x, s.getWindowStats ms sp (t1 + n) = .ok (s', x) → x = grown b d n :=
  C96_partial hv (legal_tame_noPda hl fun c hc => by
    obtain ⟨d, hd, rfl⟩ := List.mem_map.1 hc
    exact hn d hd) he h4 hi hr

/-! ## Energy -/

theorem core_total_add {ps : PowerSpec} {a b : SimStats} {e f g : Energy} (ha : ps.calcEnergy std a = .ok e) (hb : ps.calcEnergy std b = .ok f)
    (hab : ps.calcEnergy std (a.add b) = .ok g) : g.total = e.total + f.total := by
  obtain ⟨g', hg, l1, l2, h1, h2⟩ := C30 std ps a b e f ha hb
  cases ok_inj (hab.symm.trans hg)
  rw [C32_partial, C32_partial, C32_partial, bank_sum e, bank_sum f, bank_sum g, ← l1, ← l2]
  have e1 : ((List.range g.bank.length).map fun i => bankTotal (g.bank.getD i {})).sum =
      ((List.range g.bank.length).map fun i => bankTotal (e.bank.getD i {})).sum +
      ((List.range g.bank.length).map fun i => bankTotal (f.bank.getD i {})).sum := by
    rw [← List.sum_map_add]
    congr 1
    refine List.map_congr_left fun i _ => ?_
    unfold bankTotal
    rw [← List.sum_map_add]
    congr 1
    exact List.map_congr_left fun c _ => h1 i c
  have e2 : sharedTotal g.shared = sharedTotal e.shared + sharedTotal f.shared := by
    unfold sharedTotal
    rw [← List.sum_map_add]
    congr 1
    exact List.map_congr_left fun c _ => h2 c
  rw [e1, e2]
  ring

/-- Without the figures of the ranks. -/
def unranked (x : SimStats) : SimStats := { x with rankTotal := [] }

theorem unranked_grown (b d : SimStats) : ∀ n, unranked (grown b d n) = grown (unranked b) (unranked d) n
  | 0 => rfl
  | n + 1 => by
    show unranked ((grown b d n).add d) = (grown (unranked b) (unranked d) n).add (unranked d)
    rw [← unranked_grown b d n]
    rfl

theorem grown_unranked (b d : SimStats) (n : Nat) : (grown (unranked b) (unranked d) n).rankTotal = [] := by
  rw [← unranked_grown]; rfl

theorem unranked_regular {ws : WireSpec} {a b : SimStats} (ha : a.rankTotal = []) (hb : b.rankTotal = []) : SumRegular ws a b := by
  intro read
  simp [gaplessOf, rankTransfers, ha, hb]

theorem info_total_add (a b : InterfaceInfo) : (a.add b).total = a.total + b.total := by
  simp only [InterfaceInfo.total, InterfaceInfo.add, InterfaceEnergy.add]
  ring

/-- What the counters of the ranks contribute does not depend on the figures of the wires. -/
theorem wire_total_diff {ws : WireSpec} {x y : SimStats} {e f e' f' : InterfaceInfo} (h4 : std = .ddr4 → ∀ read,
      WireSpec.transferCount x read = WireSpec.transferCount y read ∧ WireSpec.seamlessCount x read = WireSpec.seamlessCount y read)
    (hx : ws.calculateEnergy std x = .ok e) (hy : ws.calculateEnergy std y = .ok f) (hx' : ws.calculateEnergy std (unranked x) = .ok e')
    (hy' : ws.calculateEnergy std (unranked y) = .ok f') : f.total - e.total = f'.total - e'.total := by
  by_cases hd : std = .ddr4
  · subst hd
    have split : ∀ {z : SimStats} {g g' : InterfaceInfo}, ws.calculateEnergy .ddr4 z = .ok g → ws.calculateEnergy .ddr4 (unranked z) = .ok g' →
        ∃ a b, ws.ambleEnergy z ws.imp.wdqs false = .ok a ∧ ws.ambleEnergy z ws.imp.rdqs true = .ok b ∧
          g.total = g'.total + (a.dynamic + a.static + b.dynamic + b.static) := by
      intro z g g' h h'
      have hz : ∀ w read a, ws.ambleEnergy (unranked z) w read = .ok a → a = {} := by
        intro w read a ha
        unfold WireSpec.ambleEnergy at ha
        have e : usub (WireSpec.transferCount (unranked z) read) (WireSpec.seamlessCount (unranked z) read) = 0 := by cases read <;> rfl
        simp only [e] at ha
        split at ha
        · exact (ok_inj ha).symm
        · split at ha
          · cases ha
          · rw [← ok_inj ha]
            simp [WireSpec.static, WireSpec.dynamic]
      unfold WireSpec.calculateEnergy at h h'
      obtain ⟨c1, x1, h⟩ := bind_ok h
      obtain ⟨c2, x2, h⟩ := bind_ok h
      obtain ⟨c3, x3, h⟩ := bind_ok h
      obtain ⟨c4, x4, h⟩ := bind_ok h
      obtain ⟨c5, x5, h⟩ := bind_ok h
      obtain ⟨d1, y1, h'⟩ := bind_ok h'
      obtain ⟨d2, y2, h'⟩ := bind_ok h'
      obtain ⟨d3, y3, h'⟩ := bind_ok h'
      obtain ⟨d4, y4, h'⟩ := bind_ok h'
      obtain ⟨d5, y5, h'⟩ := bind_ok h'
      rw [if_neg (by decide)] at h h'
      obtain ⟨c6, x6, h⟩ := bind_ok h
      obtain ⟨d6, y6, h'⟩ := bind_ok h'
      cases ok_inj (x1.symm.trans y1)
      cases ok_inj (x3.symm.trans y3)
      cases ok_inj (x4.symm.trans y4)
      cases ok_inj (x5.symm.trans y5)
      cases ok_inj (x6.symm.trans y6)
      unfold WireSpec.dqsEnergy at x2 y2
      obtain ⟨r, r1, x2⟩ := bind_ok x2
      obtain ⟨r', r2, y2⟩ := bind_ok y2
      rw [if_neg (by decide)] at x2 y2
      obtain ⟨w, w1, x2⟩ := bind_ok x2
      obtain ⟨w', w2, y2⟩ := bind_ok y2
      rw [if_pos rfl] at x2 y2
      obtain ⟨a, a1, x2⟩ := bind_ok x2
      obtain ⟨a', a2, y2⟩ := bind_ok y2
      obtain ⟨b, b1, x2⟩ := bind_ok x2
      obtain ⟨b', b2, y2⟩ := bind_ok y2
      cases ok_inj (r1.symm.trans r2)
      cases ok_inj (w1.symm.trans w2)
      cases hz _ _ _ a2
      cases hz _ _ _ b2
      refine ⟨a, b, a1, b1, ?_⟩
      rw [← pure_ok h, ← pure_ok h', ← pure_ok x2, ← pure_ok y2]
      simp only [InterfaceInfo.total, InterfaceInfo.add, InterfaceEnergy.add]
      ring
    obtain ⟨a, b, a1, a2, a3⟩ := split hx hx'
    obtain ⟨a', b', b1, b2, b3⟩ := split hy hy'
    have same : ∀ w read, ws.ambleEnergy x w read = ws.ambleEnergy y w read := fun w read => by
      unfold WireSpec.ambleEnergy
      rw [(h4 rfl read).1, (h4 rfl read).2]
    rw [same] at a1 a2
    cases ok_inj (a1.symm.trans b1)
    cases ok_inj (a2.symm.trans b2)
    rw [a3, b3]
    ring
  · have same : ∀ z : SimStats, ws.calculateEnergy std (unranked z) = ws.calculateEnergy std z := fun z => by
      unfold WireSpec.calculateEnergy WireSpec.dqsEnergy
      simp only [if_neg hd]
      rfl
    rw [same] at hx' hy'
    cases ok_inj (hx.symm.trans hx')
    cases ok_inj (hy.symm.trans hy')
    rfl

/-- The counters of the ranks that the interface energy depends on are the same in every window. -/
theorem counters_same {s sa sb : Simulator .ddr4 N} {t t' : Nat} {x y : SimStats} (ha : s.getWindowStats ms sp t = .ok (sa, x))
    (hb : s.getWindowStats ms sp t' = .ok (sb, y)) (read : Bool) :
    WireSpec.transferCount x read = WireSpec.transferCount y read ∧ WireSpec.seamlessCount x read = WireSpec.seamlessCount y read := by
  have la := (window_lists (simulator_stats ha)).2
  have lb := (window_lists (simulator_stats hb)).2
  rw [if_pos rfl] at la lb
  constructor
  · rw [transfers_zero (C45_rank_counters ha), transfers_zero (C45_rank_counters hb)]
  · unfold WireSpec.seamlessCount
    rw [la, lb]
    congr 1
    apply List.ext_getElem?
    intro k
    simp only [Interface.rankTotals, List.getElem?_map, List.getElem?_mapIdx]
    cases s.interface.ranks[k]? <;> rfl

/-- A calculation of energy that answers for `b` and `d` and is additive grows by the same amount in every step. -/
theorem core_linear {ps : PowerSpec} {b d : SimStats} {e f : Energy} (hb : ps.calcEnergy std b = .ok e) (hd : ps.calcEnergy std d = .ok f) :
    ∀ n : Nat, ∃ g, ps.calcEnergy std (grown b d n) = .ok g ∧ g.total = e.total + n * f.total
  | 0 => ⟨e, hb, by push_cast; ring⟩
  | n + 1 => by
    obtain ⟨g, hg, eg⟩ := core_linear hb hd n
    obtain ⟨g', hg', _⟩ := C30 std ps _ _ g f hg hd
    refine ⟨g', hg', ?_⟩
    rw [core_total_add hg hd hg', eg]
    push_cast
    ring

theorem wire_linear {ws : WireSpec} {b d : SimStats} {e f : InterfaceInfo} (hb : ws.calculateEnergy std (unranked b) = .ok e)
    (hd : ws.calculateEnergy std (unranked d) = .ok f) :
    ∀ n : Nat, ∃ g, ws.calculateEnergy std (unranked (grown b d n)) = .ok g ∧ g.total = e.total + n * f.total
  | 0 => ⟨e, hb, by push_cast; ring⟩
  | n + 1 => by
    obtain ⟨g, hg, eg⟩ := wire_linear hb hd n
    refine ⟨g.add f, ?_, ?_⟩
    · have h := C46_add_partial (fun _ => unranked_regular (ws := ws) rfl rfl) hg hd
      exact h
    · rw [info_total_add, eg]
      push_cast
      ring

/-- From some time on every period of `k` cycles takes the same energy: `p` in the core and `q` on the wires. -/
theorem energy_steady {ps : PowerSpec} {ws : WireSpec} {cs : List ICmd} {s0 s : Simulator std N} (hv : ValidSpec std ms)
    (ht : TameTrace std ms (cs.map ICmd.core)) {k : Nat} (he : mobile std → sp.wckAlwaysOn = true → 2 ∣ k * sp.wckRate)
    (hc : Calculable std ms sp ps ws)
    (hi : Simulator.init std N ms sp = .ok s0) (hr : s0.run ms sp cs = .done s) :
    ∃ (t1 : Nat) (p q : Rat), ∀ m n : Nat,
      (∀ s1 s2 e f, s.calcCoreEnergy ms sp ps (t1 + k * m) = .ok (s1, e) → s.calcCoreEnergy ms sp ps (t1 + k * n) = .ok (s2, f) →
        f.total - e.total = ((n : Rat) - m) * p) ∧
      (∀ s1 s2 e f, s.calcInterfaceEnergy ms sp ws (t1 + k * m) = .ok (s1, e) → s.calcInterfaceEnergy ms sp ws (t1 + k * n) = .ok (s2, f) →
        f.total - e.total = ((n : Rat) - m) * q) ∧
      ∀ s1 s2 e f, s.getTotalEnergy ms sp ps ws (t1 + k * m) = .ok (s1, e) → s.getTotalEnergy ms sp ps ws (t1 + k * n) = .ok (s2, f) →
        f - e = ((n : Rat) - m) * (p + q) := by
  obtain ⟨t1, b, d, hd, hb, hx⟩ := steady_window hv ht he hc.lines hi hr
  have answers : ∀ x : SimStats, x.bank.length = ms.numberOfRanks * ms.numberOfBanks → x.rankTotal.length = ms.numberOfRanks →
      ∃ e, ps.calcEnergy std x = .ok e := by
    intro x n1 n2
    unfold PowerSpec.calcEnergy
    rw [if_neg hc.core, if_neg (by
      rw [n1, n2, hc.ranks, hc.banks]
      omega)]
    exact ⟨_, rfl⟩
  obtain ⟨eb, heb⟩ := answers b hb.1 hb.2
  obtain ⟨ed, hed⟩ := answers d hd.banks hd.ranks
  obtain ⟨ib, hib⟩ := energy_answers (unranked b) hc.wires hc.rate
  obtain ⟨id, hid⟩ := energy_answers (unranked d) hc.wires hc.rate
  have core : ∀ m n s1 s2 e f, s.calcCoreEnergy ms sp ps (t1 + k * m) = .ok (s1, e) → s.calcCoreEnergy ms sp ps (t1 + k * n) = .ok (s2, f) →
      f.total - e.total = ((n : Rat) - m) * ed.total := by
    intro m n s1 s2 e f h h'
    unfold Simulator.calcCoreEnergy at h h'
    obtain ⟨⟨a, x⟩, ha, h⟩ := bind_ok h
    obtain ⟨ce, hce, h⟩ := bind_ok h
    obtain ⟨⟨a', y⟩, ha', h'⟩ := bind_ok h'
    obtain ⟨cf, hcf, h'⟩ := bind_ok h'
    cases pure_ok h
    cases pure_ok h'
    rw [hx m _ _ ha] at hce
    rw [hx n _ _ ha'] at hcf
    obtain ⟨g, hg, eg⟩ := core_linear heb hed m
    obtain ⟨g', hg', eg'⟩ := core_linear heb hed n
    cases ok_inj (hce.symm.trans hg)
    cases ok_inj (hcf.symm.trans hg')
    rw [eg, eg']
    ring
  have wires : ∀ m n s1 s2 e f, s.calcInterfaceEnergy ms sp ws (t1 + k * m) = .ok (s1, e) → s.calcInterfaceEnergy ms sp ws (t1 + k * n) = .ok (s2, f) →
      f.total - e.total = ((n : Rat) - m) * id.total := by
    intro m n s1 s2 e f h h'
    unfold Simulator.calcInterfaceEnergy at h h'
    obtain ⟨⟨a, x⟩, ha, h⟩ := bind_ok h
    obtain ⟨ce, hce, h⟩ := bind_ok h
    obtain ⟨⟨a', y⟩, ha', h'⟩ := bind_ok h'
    obtain ⟨cf, hcf, h'⟩ := bind_ok h'
    cases pure_ok h
    cases pure_ok h'
    obtain ⟨g, hg, eg⟩ := wire_linear hib hid m
    obtain ⟨g', hg', eg'⟩ := wire_linear hib hid n
    rw [← hx m _ _ ha] at hg
    rw [← hx n _ _ ha'] at hg'
    rw [wire_total_diff (fun h4 read => by subst h4; exact counters_same ha ha' read) hce hcf hg hg', eg, eg']
    ring
  refine ⟨t1, ed.total, id.total, fun m n => ⟨core m n, wires m n, ?_⟩⟩
  intro s1 s2 e f h h'
  obtain ⟨_, a, i, h1, h2, rfl⟩ := total_parts h
  obtain ⟨_, a', i', h1', h2', rfl⟩ := total_parts h'
  have z1 := core m n _ _ _ _ h1 h1'
  have z2 := wires m n _ _ _ _ h2 h2'
  rw [mul_add, ← z1, ← z2]
  ring

/-- From some time on every cycle takes the same energy: `p` in the core and `q` on the wires. -/
theorem C96_energy_partial {ps : PowerSpec} {ws : WireSpec} {cs : List ICmd} {s0 s : Simulator std N} (hv : ValidSpec std ms)
    (ht : TameTrace std ms (cs.map ICmd.core)) (he : EvenDataClock std sp) (hc : Calculable std ms sp ps ws)
    (hi : Simulator.init std N ms sp = .ok s0) (hr : s0.run ms sp cs = .done s) :
    ∃ (t1 : Nat) (p q : Rat), ∀ m n : Nat,
      (∀ s1 s2 e f, s.calcCoreEnergy ms sp ps (t1 + m) = .ok (s1, e) → s.calcCoreEnergy ms sp ps (t1 + n) = .ok (s2, f) →
        f.total - e.total = ((n : Rat) - m) * p) ∧
      (∀ s1 s2 e f, s.calcInterfaceEnergy ms sp ws (t1 + m) = .ok (s1, e) → s.calcInterfaceEnergy ms sp ws (t1 + n) = .ok (s2, f) →
        f.total - e.total = ((n : Rat) - m) * q) ∧
      ∀ s1 s2 e f, s.getTotalEnergy ms sp ps ws (t1 + m) = .ok (s1, e) → s.getTotalEnergy ms sp ps ws (t1 + n) = .ok (s2, f) →
        f - e = ((n : Rat) - m) * (p + q) := by
  obtain ⟨t1, p, q, h⟩ := energy_steady (k := 1) hv ht (fun hm ho => by rw [Nat.one_mul]; exact he hm ho) hc hi hr
  simp only [Nat.one_mul] at h
  exact ⟨t1, p, q, h⟩

/-- Without a condition on the data clock: every period of two cycles takes the same energy. -/
theorem C96_energy_pairs_partial {ps : PowerSpec} {ws : WireSpec} {cs : List ICmd} {s0 s : Simulator std N} (hv : ValidSpec std ms)
    (ht : TameTrace std ms (cs.map ICmd.core)) (hc : Calculable std ms sp ps ws) (hi : Simulator.init std N ms sp = .ok s0)
    (hr : s0.run ms sp cs = .done s) :
    ∃ (t1 : Nat) (p q : Rat), ∀ m n : Nat,
      (∀ s1 s2 e f, s.calcCoreEnergy ms sp ps (t1 + 2 * m) = .ok (s1, e) → s.calcCoreEnergy ms sp ps (t1 + 2 * n) = .ok (s2, f) →
        f.total - e.total = ((n : Rat) - m) * p) ∧
      (∀ s1 s2 e f, s.calcInterfaceEnergy ms sp ws (t1 + 2 * m) = .ok (s1, e) → s.calcInterfaceEnergy ms sp ws (t1 + 2 * n) = .ok (s2, f) →
        f.total - e.total = ((n : Rat) - m) * q) ∧
      ∀ s1 s2 e f, s.getTotalEnergy ms sp ps ws (t1 + 2 * m) = .ok (s1, e) → s.getTotalEnergy ms sp ps ws (t1 + 2 * n) = .ok (s2, f) →
        f - e = ((n : Rat) - m) * (p + q) :=
  energy_steady (k := 2) hv ht (fun _ _ => ⟨_, rfl⟩) hc hi hr

/-! ## Two states at once -/

/-- The trace of `C03_violation`. -/
def c96Trace : List ICmd := c03Trace.map fun c => { t := c.t, type := c.type }

/-- In the end the first bank is both active and powered down. -/
def c96Both (std : Std) : Option (Simulator std 64 × Simulator std 64) :=
  match Simulator.init std 64 Ex.ms c53If with
  | .error _ => none
  | .ok s0 => match s0.run Ex.ms c53If c96Trace with
    | .done s =>
      let r := (s.core.process std 60).ranks 0
      if (∀ e ∈ s.core.queue, e.t ≤ 60) ∧ (r.banks 0).act.isOpen = true ∧ (r.banks 0).act.getStart ≤ 60 ∧ r.powerDownPre.isOpen = true ∧
        r.powerDownPre.getStart ≤ 60 then some (s0, s) else none
    | _ => none

theorem c96_both (hs : std ≠ .ddr4) : ∃ s0 s, Simulator.init std 64 Ex.ms c53If = .ok s0 ∧ s0.run Ex.ms c53If c96Trace = .done s ∧
    ∃ a p, ∀ t, 61 ≤ t → ∃ s' x, s.getWindowStats Ex.ms c53If t = .ok (s', x) ∧ ∃ c, x.bank[0]? = some c ∧ c.cycles.act + 60 = a + t ∧
      c.cycles.powerDownPre + 60 = p + t := by
  have hb : (c96Both std).isSome = true := by
    cases std
    · exact absurd rfl hs
    all_goals decide +kernel
  unfold c96Both at hb
  split at hb
  · cases hb
  · rename_i s0 hi
    split at hb
    · rename_i s hr
      simp only [] at hb
      split at hb
      · rename_i hq
        obtain ⟨q1, q2, q3, q4, q5⟩ := hq
        refine ⟨s0, s, hi, hr, (((s.core.process std 60).ranks 0).banks 0).act.count + 60 - (((s.core.process std 60).ranks 0).banks 0).act.getStart,
          ((s.core.process std 60).ranks 0).powerDownPre.count + 60 - ((s.core.process std 60).ranks 0).powerDownPre.getStart, fun t ht => ?_⟩
        obtain ⟨_, hi0⟩ := simulator_init hi
        obtain ⟨_, hri⟩ := run_halves _ hr
        have hin : ∀ c, IfOp.cmd c ∈ c96Trace.map IfOp.cmd → c.t ≤ t := fun c hc => by
          obtain ⟨d, hd, e⟩ := List.mem_map.1 hc
          cases e
          have : ∀ d ∈ c96Trace, d.t ≤ 60 := by decide +kernel
          exact Nat.le_trans (this _ hd) (by omega)
        obtain ⟨x, hx⟩ := interface_answers (T := t) hi0 hri hin (fun _ h => by cases h) (.inl (by decide))
          (s.core.getWindowStats std Ex.ms t).2.toSim
        refine ⟨_, x, window_answers hx, ?_⟩
        rw [(window_lists hx).1]
        have e : Core.process std s.core t = Core.process std s.core 60 := processQ_all q1 (by omega)
        refine ⟨(bankStats std ((s.core.process std 60).ranks 0) t 0).toCycle, ?_, ?_, ?_⟩
        · rw [← e]
          rfl
        · show Interval.countAt _ t + 60 = _
          unfold Interval.countAt
          rw [if_pos (by simp only [q2, Bool.true_and, decide_eq_true_eq]; omega)]
          omega
        · show Interval.countAt _ t + 60 = _
          unfold Interval.countAt
          rw [if_pos (by simp only [q4, Bool.true_and, decide_eq_true_eq]; omega)]
          omega
      · cases hb
    · cases hb

/-- DDR5, LPDDR4, LPDDR5, LPDDR6: false in general; a bank may stay in two states at once for ever (C03). -/
theorem C96_violation_states (hs : std ≠ .ddr4) : ¬ C96_statement std := by
  intro h
  obtain ⟨s0, s, hi, hr, a, p, hw⟩ := c96_both hs
  obtain ⟨t1, b, d, hd, hx⟩ := h 64 Ex.ms c53If c96Trace s0 s (by cases std <;> decide +kernel)
    (by cases std <;> first | exact absurd rfl hs | decide +kernel) (fun h4 => absurd h4 hs) hi hr
  have at' : ∀ n, 61 ≤ n → ∃ c, (grown b d n).bank[0]? = some c ∧ c.cycles.act + 60 = a + (t1 + n) ∧ c.cycles.powerDownPre + 60 = p + (t1 + n) := by
    intro n hn
    obtain ⟨s', x, h1, h2⟩ := hw (t1 + n) (by omega)
    rw [← hx n s' x h1]
    exact h2
  obtain ⟨c, c1, c2, c3⟩ := at' 61 (by omega)
  obtain ⟨c', d1, d2, d3⟩ := at' 62 (by omega)
  have hl : 0 < d.bank.length := by rw [hd.banks]; decide
  have e : (grown b d 62).bank.getD 0 {} = ((grown b d 61).bank.getD 0 {}).add (d.bank.getD 0 {}) := addCycles_getD ..
  simp only [List.getD_eq_getElem?_getD, c1, d1, List.getElem?_eq_getElem hl, Option.getD_some] at e
  obtain ⟨_, _, hsum⟩ := hd.bank _ (List.getElem_mem hl)
  have e1 : c'.cycles.act = c.cycles.act + d.bank[0].cycles.act := by rw [e]; rfl
  have e2 : c'.cycles.powerDownPre = c.cycles.powerDownPre + d.bank[0].cycles.powerDownPre := by rw [e]; rfl
  omega

/-! ## A data clock with an odd number of levels per cycle -/

/-- One level per cycle on a data clock that never stops. -/
def c96If : IfSpec := { c53If with wckAlwaysOn := true, dataRate := 2, wckToCk := 2 }

/-- The simulator answers, whenever it is asked, and reports on the data clock two levels and two edges of each kind after every second
cycle. -/
theorem c96_dataClock (hm : mobile std) (t : Nat) : ∃ s0 s' x, Simulator.init std 64 Ex.ms c96If = .ok s0 ∧ s0.run Ex.ms c96If [] = .done s0 ∧
    s0.getWindowStats Ex.ms c96If t = .ok (s', x) ∧ x.wClockStats.ones = 2 * (t / 2) := by
  have hs : ∃ s0, Simulator.init std 64 Ex.ms c96If = .ok s0 := by rcases hm with rfl | rfl <;> exact ⟨_, rfl⟩
  obtain ⟨s0, hi⟩ := hs
  obtain ⟨_, hi0⟩ := simulator_init hi
  obtain ⟨x, hx⟩ := interface_answers (T := t) (ops := []) hi0 rfl (fun c h => by cases h) (fun _ _ c h => by cases h)
    (.inr (.inr (.inr (by simp)))) (s0.core.getWindowStats std Ex.ms t).2.toSim
  refine ⟨s0, _, x, hi, rfl, window_answers hx, ?_⟩
  obtain ⟨_, _, _, _, _, _, ek, _⟩ := init_parts hi0
  rw [(windowStats_ok hx).2.2.2.2.2.1 hm, ek]
  rw [show (!(std != Std.lpddr6 || c96If.enabled) || !c96If.wckAlwaysOn) = false by rcases hm with rfl | rfl <;> decide]
  have e : (2 * (Clock.init c96If.wckRate).getStats t).ones = (0 + usub t 0 * c96If.wckRate / 2) * 2 := rfl
  rw [e, show c96If.wckRate = 1 by decide]
  simp [usub, Nat.mul_comm]

/-- Mobile standards: with such a data clock, odd and even cycles differ for ever. -/
theorem C96_violation_dataClock (hm : mobile std) : ¬ C96_statement std := by
  intro h
  obtain ⟨s0, _, _, hi, hr, _⟩ := c96_dataClock hm 0
  obtain ⟨t1, b, d, _, hx⟩ := h 64 Ex.ms c96If [] s0 s0 (by rcases hm with rfl | rfl <;> decide +kernel)
    (by rcases hm with rfl | rfl <;> decide +kernel) (by rcases hm with rfl | rfl <;> decide) hi hr
  have at' : ∀ n, (grown b d n).wClockStats.ones = 2 * ((t1 + n) / 2) := by
    intro n
    obtain ⟨s1, s', x, hi', _, hw, e⟩ := c96_dataClock hm (t1 + n)
    cases ok_inj (hi.symm.trans hi')
    rw [← hx n s' x hw, e]
  have a0 : b.wClockStats.ones = 2 * ((t1 + 0) / 2) := at' 0
  have a1 : b.wClockStats.ones + d.wClockStats.ones = 2 * ((t1 + 1) / 2) := at' 1
  have a2 : b.wClockStats.ones + d.wClockStats.ones + d.wClockStats.ones = 2 * ((t1 + 2) / 2) := at' 2
  omega

/-- The hypotheses can be met, for every standard. -/
example (std : Std) : ValidSpec std Ex.ms ∧ TameTrace std Ex.ms ((c53Example std).map ICmd.core) ∧ LegalTrace std Ex.ms ((c53Example std).map ICmd.core) ∧
    (∀ c ∈ c53Example std, c.type ≠ .PDEA) ∧ EvenDataClock std c53If ∧ (c53Totals std (c53Example std) 60 70).isSome = true := by
  refine ⟨?_, ?_, ?_, ?_, ?_, ?_⟩ <;> cases std <;> decide +kernel

/-- The memory of `C96_violation_dataClock` executes this trace, too. -/
example : (∀ std, mobile std → ¬ EvenDataClock std c96If) ∧
    (match Simulator.init .lpddr5 64 Ex.ms c96If with
      | .error _ => false
      | .ok s => match s.run Ex.ms c96If (c53Example .lpddr5) with
        | .done _ => true
        | _ => false) = true := by
  refine ⟨fun std h => ?_, by decide +kernel⟩
  rcases h with rfl | rfl <;> decide

/-- DDR4: 17 units of energy per cycle. -/
example : c53Totals .ddr4 (c53Example .ddr4) 60 70 = some (10911 / 2, 11251 / 2) ∧
    c53Totals .ddr4 (c53Example .ddr4) 1000 1001 = some (42871 / 2, 42905 / 2) := by decide +kernel

/-- The calculations fit the memory. -/
example (std : Std) : Calculable std Ex.ms c53If c53Power c53Wires where
  ranks := rfl
  banks := rfl
  lines _ := rfl
  core := by cases std <;> decide +kernel
  wires := by intro g _; cases std <;> cases g <;> unfold Group.Defined <;> decide +kernel
  rate _ := by decide

end DRAMPower
