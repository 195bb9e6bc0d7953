import Verif.Lemmas.Sequence
import Verif.Props.C67

/-!
# C74: traces run one after the other add up

`followed first second T` is `first` followed by `second`, delayed by `T`; `MayFollow` says when `second` may begin (Spec/Sequence.lean).

* `C74_partial`: traces without the power-down situations of `benignCmd`. Full statement `C74_statement`: all legal traces, refuted by
  `C74_violation` (not DDR4).
* `C74_ddr4`, `C74_noActivePowerDown`: the full statement; that the joint trace is legal and accepted is part of the claim.
* `C74_legal`: the joint trace is legal, in any case.
* `C74_repeated`: a trace repeated `n` times.
* `C74_energy_partial`, `C74_energy`, `C74_repeated_energy`: the reported core energy.
-/

namespace DRAMPower
open Spec

variable {std : Std} {N : Nat} {ms : MemSpec} {sp : IfSpec} {ps : PowerSpec} {first second : List Cmd} {T t : Nat}

/-- Full statement. -/
def C74_statement (std : Std) : Prop :=
  ∀ (ms : MemSpec) (first second : List Cmd) (T t : Nat), ValidSpec std ms → LegalTrace std ms first → LegalTrace std ms second →
    MayFollow std ms first second T → NotBefore second t →
    ∃ c1 c2 c, (Core.init ms).run std ms first = .ok c1 ∧ (Core.init ms).run std ms second = .ok c2 ∧
      (Core.init ms).run std ms (followed first second T) = .ok c ∧
      (c.getWindowStats std ms (T + t)).2 = sumReports (c1.getWindowStats std ms T).2 (c2.getWindowStats std ms t).2

theorem forRank_followed (i : Nat) : forRank std i (followed first second T) = forRank std i first ++ later T (forRank std i second) := by
  unfold followed forRank
  rw [List.filter_append, later_eq, later_eq, List.filter_map]
  rfl

theorem Spec.TameFrom.legalFrom : ∀ {h : List Cmd} {s : State} {now : Nat}, TameFrom std ms s now h → LegalFrom std ms s now h
  | [], _, _, _ => trivial
  | _ :: _, _, _, ⟨h0, h1, h2⟩ => ⟨h0, h1.1, TameFrom.legalFrom h2⟩

theorem Spec.TameTrace.legalTrace {cmds : List Cmd} (h : TameTrace std ms cmds) : LegalTrace std ms cmds :=
  ⟨h.ordered, h.ranks, fun i hi => (h.tame i hi).legalFrom⟩

theorem tameFrom_prefix : ∀ {h g : List Cmd} {s : State} {now : Nat}, TameFrom std ms s now (h ++ g) → TameFrom std ms s now h
  | [], _, _, _, _ => trivial
  | _ :: _, _, _, _, ⟨h0, h1, h2⟩ => ⟨h0, h1, tameFrom_prefix h2⟩

theorem tame_first (h : TameTrace std ms (followed first second T)) : TameTrace std ms first :=
  ⟨(List.pairwise_append.1 h.ordered).1, fun c hc => h.ranks c (List.mem_append_left _ hc), fun i hi => by
    have := h.tame i hi
    rw [forRank_followed] at this
    exact tameFrom_prefix this⟩

theorem rank_ready (hr : MayFollow std ms first second T) (hl : LegalTrace std ms second) {i : Nat} (hi : i < ms.numberOfRanks) :
    RankReady std ms (forRank std i first) (forRank std i second) T :=
  ⟨fun c hc => hr.sent c (List.mem_filter.1 hc).1, hr.rest i hi, hr.recovered.imp (fun h c hc => h c (List.mem_filter.1 hc).1)
    fun h => ⟨h.1, h.2 i hi⟩, hl.legal i hi⟩

/-- The joint trace is legal. -/
theorem C74_legal (h1 : LegalTrace std ms first) (h2 : LegalTrace std ms second) (hr : MayFollow std ms first second T) :
    LegalTrace std ms (followed first second T) := by
  refine ⟨?_, ?_, fun i hi => ?_⟩
  · refine List.pairwise_append.2 ⟨h1.ordered, List.pairwise_map.2 (h2.ordered.imp fun h => by simpa using h), fun a ha b hb => ?_⟩
    obtain ⟨d, _, rfl⟩ := List.mem_map.1 hb
    have := hr.sent a ha
    show a.t ≤ d.t + T
    omega
  · intro c hc
    rcases List.mem_append.1 hc with hc | hc
    · exact h1.ranks c hc
    · obtain ⟨d, hd, rfl⟩ := List.mem_map.1 hc
      exact h2.ranks d hd
  · rw [forRank_followed]
    exact (rank_ready hr h2 hi).legal_all (h1.legal i hi)

theorem notBefore_followed (h1 : NotBefore first T) (h2 : NotBefore second t) : NotBefore (followed first second T) (T + t) := by
  intro c hc
  rcases List.mem_append.1 hc with hc | hc
  · have := h1 c hc; omega
  · obtain ⟨d, hd, rfl⟩ := List.mem_map.1 hc
    have := h2 d hd
    show d.t + T ≤ _
    omega

/-- The report for a bank from the timeline. -/
theorem bank_report {cmds : List Cmd} {c : Core} (hv : ValidSpec std ms) (ht : TameTrace std ms cmds)
    (hr : (Core.init ms).run std ms cmds = .ok c) (hT : NotBefore cmds t) {i b : Nat} (hi : i < ms.numberOfRanks) (hb : b < ms.numberOfBanks) :
    (c.getWindowStats std ms t).2.bank[i * ms.numberOfBanks + b]? = some
      { counter := { tally ms (forRank std i cmds) b with pre := ((((forRank std i cmds).foldl (apply std ms) {}).settle t).bank b).pres }
        cycles := cycles fun k => bankTime std ms (forRank std i cmds) b k t } := by
  have c1 := C01_partial std ms cmds hv ht c hr t hT i hi b hb
  have c2 := C09 std ms cmds hv.groups (tame_twoBanks ht) c hr t i hi b hb
  have c3 := C09_pre_partial std ms cmds hv ht c hr t hT i hi b hb
  cases hx : (c.getWindowStats std ms t).2.bank[i * ms.numberOfBanks + b]? with
  | none => rw [hx] at c1; cases c1
  | some y =>
    rw [hx] at c1 c2 c3
    simp only [Option.map_some, Option.some.injEq] at c1 c2 c3
    obtain ⟨yc, yy⟩ := y
    simp only at c1 c2 c3
    rw [c1, ← c2, ← c3]
    rfl

theorem stats_length (c : Core) (t : Nat) :
    (c.getWindowStats std ms t).2.bank.length = ms.numberOfRanks * ms.numberOfBanks ∧
    (c.getWindowStats std ms t).2.rankTotal.length = ms.numberOfRanks := by
  simp [Core.getWindowStats, Core.statsAt, List.length_flatMap]

/-- Missing from the full statement: the active power-down situations excluded by `benignCmd` (not DDR4), for which it is false
(`C74_violation`). -/
theorem C74_partial {c1 c2 c : Core} (hv : ValidSpec std ms) (h2 : TameTrace std ms second) (h : TameTrace std ms (followed first second T))
    (hr : MayFollow std ms first second T) (hT : NotBefore second t) (r1 : (Core.init ms).run std ms first = .ok c1)
    (r2 : (Core.init ms).run std ms second = .ok c2) (r : (Core.init ms).run std ms (followed first second T) = .ok c) :
    (c.getWindowStats std ms (T + t)).2 = sumReports (c1.getWindowStats std ms T).2 (c2.getWindowStats std ms t).2 := by
  have h1 := tame_first h
  have hTT := notBefore_followed hr.sent hT
  obtain ⟨la, lb⟩ := stats_length (std := std) (ms := ms) c (T + t)
  obtain ⟨la1, lb1⟩ := stats_length (std := std) (ms := ms) c1 T
  obtain ⟨la2, lb2⟩ := stats_length (std := std) (ms := ms) c2 t
  have hbank : (c.getWindowStats std ms (T + t)).2.bank = (sumReports (c1.getWindowStats std ms T).2 (c2.getWindowStats std ms t).2).bank := by
    refine List.ext_getElem? fun k => ?_
    by_cases hk : k < ms.numberOfRanks * ms.numberOfBanks
    · have hB : 0 < ms.numberOfBanks := hv.banks
      have hi : k / ms.numberOfBanks < ms.numberOfRanks := (Nat.div_lt_iff_lt_mul hB).2 hk
      have hb := Nat.mod_lt k hB
      have ek : k = k / ms.numberOfBanks * ms.numberOfBanks + k % ms.numberOfBanks := by
        rw [Nat.mul_comm]; exact (Nat.div_add_mod k _).symm
      have rr := rank_ready hr h2.legalTrace hi
      rw [ek, bank_report hv h r hTT hi hb]
      unfold sumReports
      simp only [List.getElem?_zipWith]
      rw [bank_report hv h1 r1 hr.sent hi hb, bank_report hv h2 r2 hT hi hb, forRank_followed]
      simp only [RankReady.tally_after, rr.pres_after hb, rr.bankTime_after hb, Counters.plus, sumCounters, sumCycles, cycles]
    · rw [List.getElem?_eq_none (by omega), List.getElem?_eq_none]
      simp only [sumReports, List.length_zipWith]
      omega
  have hrank : (c.getWindowStats std ms (T + t)).2.rankTotal =
      (sumReports (c1.getWindowStats std ms T).2 (c2.getWindowStats std ms t).2).rankTotal := by
    refine List.ext_getElem? fun i => ?_
    by_cases hi : i < ms.numberOfRanks
    · have rr := rank_ready hr h2.legalTrace hi
      unfold sumReports
      simp only [List.getElem?_zipWith]
      rw [C02_partial std ms _ hv h c r _ hTT i hi, C02_partial std ms _ hv h1 c1 r1 _ hr.sent i hi,
        C02_partial std ms _ hv h2 c2 r2 _ hT i hi, forRank_followed]
      simp only [rr.rankTime_after, sumCycles, cycles]
    · rw [List.getElem?_eq_none (by omega), List.getElem?_eq_none]
      simp only [sumReports, List.length_zipWith]
      omega
  generalize (c.getWindowStats std ms (T + t)).2 = x at hbank hrank
  obtain ⟨xb, xr⟩ := x
  simp only at hbank hrank
  rw [hbank, hrank]

/-- The claim for tame traces. -/
theorem c74_all (hv : ValidSpec std ms) (h1 : TameTrace std ms first) (h2 : TameTrace std ms second)
    (h : TameTrace std ms (followed first second T)) (hr : MayFollow std ms first second T) (hT : NotBefore second t) :
    ∃ c1 c2 c, (Core.init ms).run std ms first = .ok c1 ∧ (Core.init ms).run std ms second = .ok c2 ∧
      (Core.init ms).run std ms (followed first second T) = .ok c ∧
      (c.getWindowStats std ms (T + t)).2 = sumReports (c1.getWindowStats std ms T).2 (c2.getWindowStats std ms t).2 := by
  obtain ⟨c1, r1⟩ := tame_ok hv h1
  obtain ⟨c2, r2⟩ := tame_ok hv h2
  obtain ⟨c, r⟩ := tame_ok hv h
  exact ⟨c1, c2, c, r1, r2, r, C74_partial hv h2 h hr hT r1 r2 r⟩

/-- DDR4: the full statement. -/
theorem C74_ddr4 : C74_statement .ddr4 := fun _ _ _ _ _ hv h1 h2 hr hT =>
  c74_all hv (legal_tame_ddr4 h1) (legal_tame_ddr4 h2) (legal_tame_ddr4 (C74_legal h1 h2 hr)) hr hT

theorem noPda_followed (n1 : ∀ c ∈ first, c.type ≠ .PDEA) (n2 : ∀ c ∈ second, c.type ≠ .PDEA) :
    ∀ c ∈ followed first second T, c.type ≠ .PDEA := by
  intro c hc
  rcases List.mem_append.1 hc with hc | hc
  · exact n1 c hc
  · obtain ⟨d, hd, rfl⟩ := List.mem_map.1 hc
    exact n2 d hd

/-- All standards: legal traces without active power-down. -/
theorem C74_noActivePowerDown (hv : ValidSpec std ms) (h1 : LegalTrace std ms first) (h2 : LegalTrace std ms second)
    (n1 : ∀ c ∈ first, c.type ≠ .PDEA) (n2 : ∀ c ∈ second, c.type ≠ .PDEA) (hr : MayFollow std ms first second T) (hT : NotBefore second t) :
    ∃ c1 c2 c, (Core.init ms).run std ms first = .ok c1 ∧ (Core.init ms).run std ms second = .ok c2 ∧
      (Core.init ms).run std ms (followed first second T) = .ok c ∧
      (c.getWindowStats std ms (T + t)).2 = sumReports (c1.getWindowStats std ms T).2 (c2.getWindowStats std ms t).2 :=
  c74_all hv (legal_tame_noPda h1 n1) (legal_tame_noPda h2 n2) (legal_tame_noPda (C74_legal h1 h2 hr) (noPda_followed n1 n2)) hr hT

/-! ## Repetition -/

theorem mayFollow_repeated {trace : List Cmd} {P : Nat} (hl : LegalTrace std ms trace) (hr : MayFollow std ms trace trace P) :
    ∀ n, LegalTrace std ms (repeated trace P n) ∧ MayFollow std ms (repeated trace P n) trace (n * P)
  | 0 => by
    refine ⟨⟨.nil, by simp [repeated, RanksExist], fun i _ => trivial⟩, by simp [repeated, NotBefore], fun i _ => ?_, hr.recovered.imp id fun h => ⟨h.1, fun i _ => ?_⟩⟩
    · exact ⟨rfl, fun b _ => rfl⟩
    · unfold Recovered
      rw [earliest_def]
      show (List.range ms.numberOfBanks).foldl (fun acc _ => max acc 0) 0 ≤ _
      induction (List.range ms.numberOfBanks) with
      | nil => exact Nat.zero_le _
      | cons a L ih => exact ih
  | n + 1 => by
    obtain ⟨h1, h2⟩ := mayFollow_repeated hl hr n
    refine ⟨C74_legal h1 hl h2, ?_, fun i hi => ?_, ?_⟩
    · have := notBefore_followed h2.sent hr.sent
      rwa [Nat.succ_mul]
    · have := (rank_ready h2 hl hi).rest_after (hr.rest i hi)
      rw [← forRank_followed] at this
      rwa [Nat.succ_mul]
    · rcases hr.recovered with h | ⟨h, h'⟩
      · exact .inl h
      · refine h2.recovered.imp id fun k => ⟨h, fun i hi => ?_⟩
        have := (rank_ready h2 hl hi).recovered_after ⟨h, k.2 i hi⟩ (h' i hi)
        rw [← forRank_followed] at this
        rwa [Nat.succ_mul]

theorem sum_times (n : Nat) (x : CoreStats) : sumReports (timesReport n x) x = timesReport (n + 1) x := by
  obtain ⟨xb, xr⟩ := x
  simp only [sumReports, timesReport, CoreStats.mk.injEq]
  refine ⟨List.ext_getElem? fun k => ?_, List.ext_getElem? fun k => ?_⟩
  · simp only [List.getElem?_zipWith, List.getElem?_map]
    cases xb[k]? with
    | none => rfl
    | some y => simp [sumCounters, sumCycles, timesReport.timesCycles, Nat.succ_mul]
  · simp only [List.getElem?_zipWith, List.getElem?_map]
    cases xr[k]? with
    | none => rfl
    | some y => simp [sumCycles, timesReport.timesCycles, Nat.succ_mul]

theorem report_empty (hv : ValidSpec std ms) (c : Core) (t : Nat) :
    ((Core.init ms).getWindowStats std ms 0).2 = timesReport 0 (c.getWindowStats std ms t).2 := by
  obtain ⟨la, lb⟩ := stats_length (std := std) (ms := ms) (Core.init ms) 0
  obtain ⟨la1, lb1⟩ := stats_length (std := std) (ms := ms) c t
  have h0 : TameTrace std ms [] := ⟨.nil, by simp [RanksExist], fun i _ => trivial⟩
  have hb : ((Core.init ms).getWindowStats std ms 0).2.bank = (timesReport 0 (c.getWindowStats std ms t).2).bank := by
    refine List.ext_getElem? fun k => ?_
    by_cases hk : k < ms.numberOfRanks * ms.numberOfBanks
    · have hB : 0 < ms.numberOfBanks := hv.banks
      have hi : k / ms.numberOfBanks < ms.numberOfRanks := (Nat.div_lt_iff_lt_mul hB).2 hk
      have hb := Nat.mod_lt k hB
      have ek : k = k / ms.numberOfBanks * ms.numberOfBanks + k % ms.numberOfBanks := by
        rw [Nat.mul_comm]; exact (Nat.div_add_mod k _).symm
      have := bank_report (c := Core.init ms) (t := 0) hv h0 rfl (by simp [NotBefore]) hi hb
      rw [← ek] at this
      rw [this]
      simp only [timesReport, List.getElem?_map, List.getElem?_eq_getElem (show k < (c.getWindowStats std ms t).2.bank.length by omega)]
      simp [tally, hits, forRank, bankTime, cycles, timesReport.timesCycles, State.settle, BankS.settle]
    · rw [List.getElem?_eq_none (by omega), List.getElem?_eq_none]
      simp only [timesReport, List.length_map]
      omega
  have hr : ((Core.init ms).getWindowStats std ms 0).2.rankTotal = (timesReport 0 (c.getWindowStats std ms t).2).rankTotal := by
    refine List.ext_getElem? fun i => ?_
    by_cases hi : i < ms.numberOfRanks
    · rw [C02_partial std ms [] hv h0 (Core.init ms) rfl 0 (by simp [NotBefore]) i hi]
      simp only [timesReport, List.getElem?_map, List.getElem?_eq_getElem (show i < (c.getWindowStats std ms t).2.rankTotal.length by omega)]
      simp [rankTime, cycles, timesReport.timesCycles]
    · rw [List.getElem?_eq_none (by omega), List.getElem?_eq_none]
      simp only [timesReport, List.length_map]
      omega
  generalize ((Core.init ms).getWindowStats std ms 0).2 = x at hb hr
  obtain ⟨xb, xr⟩ := x
  simp only at hb hr
  rw [hb, hr]

theorem mem_repeated {trace : List Cmd} {P : Nat} {c : Cmd} : ∀ {n}, c ∈ repeated trace P n → ∃ a ∈ trace, c.type = a.type
  | n + 1, h => by
    rcases List.mem_append.1 h with h | h
    · exact mem_repeated h
    · obtain ⟨d, hd, rfl⟩ := List.mem_map.1 h
      exact ⟨d, hd, rfl⟩

/-- A trace that leaves the ranks at rest after `P` cycles, repeated `n` times: everything reported is `n` times as much. -/
theorem C74_repeated {trace : List Cmd} {P : Nat} (hv : ValidSpec std ms) (hl : LegalTrace std ms trace)
    (hn : std = .ddr4 ∨ ∀ c ∈ trace, c.type ≠ .PDEA) (hr : MayFollow std ms trace trace P) (n : Nat) :
    ∃ c1 c, (Core.init ms).run std ms trace = .ok c1 ∧ (Core.init ms).run std ms (repeated trace P n) = .ok c ∧
      (c.getWindowStats std ms (n * P)).2 = timesReport n (c1.getWindowStats std ms P).2 := by
  have htame : ∀ cmds, LegalTrace std ms cmds → (∀ c ∈ cmds, ∃ a ∈ trace, c.type = a.type) → TameTrace std ms cmds := fun cmds hc ht => by
    rcases hn with rfl | hn
    · exact legal_tame_ddr4 hc
    · exact legal_tame_noPda hc fun c hc => by obtain ⟨a, ha, e⟩ := ht c hc; rw [e]; exact hn a ha
  have h1 := htame _ hl fun c hc => ⟨c, hc, rfl⟩
  obtain ⟨c1, r1⟩ := tame_ok hv h1
  refine ⟨c1, ?_⟩
  induction n with
  | zero =>
    rw [Nat.zero_mul]
    exact ⟨_, r1, rfl, report_empty hv c1 P⟩
  | succ n ih =>
    obtain ⟨c, -, r, e⟩ := ih
    obtain ⟨hl', hf⟩ := mayFollow_repeated hl hr n
    have h' : TameTrace std ms (repeated trace P (n + 1)) := htame _ (mayFollow_repeated hl hr (n + 1)).1 fun _ h => mem_repeated h
    obtain ⟨c', r'⟩ := tame_ok hv h'
    refine ⟨c', r1, r', ?_⟩
    rw [Nat.succ_mul, C74_partial hv h1 h' hf hr.sent r r1 r', e, sum_times]

/-! ## Energy -/

/-- The timeline's energy. -/
theorem coreEnergy_followed (h2 : LegalTrace std ms second) (hr : MayFollow std ms first second T) :
    coreEnergy std ms ps (followed first second T) (T + t) = coreEnergy std ms ps first T + coreEnergy std ms ps second t := by
  unfold coreEnergy
  rw [← mul_add, ← List.sum_map_add]
  congr 2
  refine List.map_congr_left fun d _ => ?_
  rw [← mul_add, ← List.sum_map_add]
  congr 2
  refine List.map_congr_left fun i hi => ?_
  rw [forRank_followed, (rank_ready hr h2 (List.mem_range.1 hi)).charge_after]

/-- The commands of a simulator, `T` later. -/
def laterI (T : Nat) (cs : List ICmd) : List ICmd := cs.map fun c => { c with t := c.t + T }

theorem laterI_core (T : Nat) (cs : List ICmd) : (laterI T cs).map ICmd.core = later T (cs.map ICmd.core) := by
  unfold laterI later
  rw [List.map_map, List.map_map]
  rfl

/-- The reported core energy of two traces one after the other is the sum of what each is reported on its own. Missing: the active
power-down situations excluded by `benignCmd` (not DDR4). -/
theorem C74_energy_partial {cs1 cs2 : List ICmd} {s0 s1 s2 s s1' s2' s' : Simulator std N} {e1 e2 e : Energy} (hv : ValidSpec std ms)
    (hf : Fits std ms ps) (h2 : TameTrace std ms (cs2.map ICmd.core)) (h : TameTrace std ms ((cs1 ++ laterI T cs2).map ICmd.core))
    (hr : MayFollow std ms (cs1.map ICmd.core) (cs2.map ICmd.core) T) (hT : ∀ c ∈ cs2, c.t ≤ t) (hi : Simulator.init std N ms sp = .ok s0)
    (r1 : s0.run ms sp cs1 = .done s1) (r2 : s0.run ms sp cs2 = .done s2) (r : s0.run ms sp (cs1 ++ laterI T cs2) = .done s)
    (q1 : s1.calcCoreEnergy ms sp ps T = .ok (s1', e1)) (q2 : s2.calcCoreEnergy ms sp ps t = .ok (s2', e2))
    (q : s.calcCoreEnergy ms sp ps (T + t) = .ok (s', e)) : e.total = e1.total + e2.total := by
  have hm : (cs1 ++ laterI T cs2).map ICmd.core = followed (cs1.map ICmd.core) (cs2.map ICmd.core) T := by
    rw [List.map_append, laterI_core]; rfl
  have n1 : ∀ c ∈ cs1, c.t ≤ T := fun c hc => hr.sent c.core (List.mem_map_of_mem hc)
  rw [C67_partial hv hf h2 hi r2 hT q2, C67_partial hv hf (tame_first (by rw [← hm]; exact h)) hi r1 n1 q1,
    C67_partial hv hf h hi r (fun c hc => ?_) q, hm, coreEnergy_followed h2.legalTrace hr]
  rcases List.mem_append.1 hc with hc | hc
  · have := n1 c hc; omega
  · obtain ⟨d, hd, rfl⟩ := List.mem_map.1 hc
    have := hT d hd
    show d.t + T ≤ _
    omega

theorem laterI_noPda {cs1 cs2 : List ICmd} (n1 : ∀ c ∈ cs1, c.type ≠ .PDEA) (n2 : ∀ c ∈ cs2, c.type ≠ .PDEA) :
    ∀ c ∈ (cs1 ++ laterI T cs2).map ICmd.core, c.type ≠ .PDEA := by
  intro c hc
  obtain ⟨k, hk, rfl⟩ := List.mem_map.1 hc
  rcases List.mem_append.1 hk with hk | hk
  · exact n1 k hk
  · obtain ⟨d, hd, rfl⟩ := List.mem_map.1 hk
    exact n2 d hd

/-- DDR4, or no active power-down: the energies of legal traces add. -/
theorem C74_energy {cs1 cs2 : List ICmd} {s0 s1 s2 s s1' s2' s' : Simulator std N} {e1 e2 e : Energy} (hv : ValidSpec std ms)
    (hf : Fits std ms ps) (l1 : LegalTrace std ms (cs1.map ICmd.core)) (l2 : LegalTrace std ms (cs2.map ICmd.core))
    (hn : std = .ddr4 ∨ (∀ c ∈ cs1, c.type ≠ .PDEA) ∧ ∀ c ∈ cs2, c.type ≠ .PDEA)
    (hr : MayFollow std ms (cs1.map ICmd.core) (cs2.map ICmd.core) T) (hT : ∀ c ∈ cs2, c.t ≤ t) (hi : Simulator.init std N ms sp = .ok s0)
    (r1 : s0.run ms sp cs1 = .done s1) (r2 : s0.run ms sp cs2 = .done s2) (r : s0.run ms sp (cs1 ++ laterI T cs2) = .done s)
    (q1 : s1.calcCoreEnergy ms sp ps T = .ok (s1', e1)) (q2 : s2.calcCoreEnergy ms sp ps t = .ok (s2', e2))
    (q : s.calcCoreEnergy ms sp ps (T + t) = .ok (s', e)) : e.total = e1.total + e2.total := by
  have hm : (cs1 ++ laterI T cs2).map ICmd.core = followed (cs1.map ICmd.core) (cs2.map ICmd.core) T := by
    rw [List.map_append, laterI_core]; rfl
  have l : LegalTrace std ms ((cs1 ++ laterI T cs2).map ICmd.core) := by rw [hm]; exact C74_legal l1 l2 hr
  rcases hn with rfl | ⟨n1, n2⟩
  · exact C74_energy_partial hv hf (legal_tame_ddr4 l2) (legal_tame_ddr4 l) hr hT hi r1 r2 r q1 q2 q
  · refine C74_energy_partial hv hf (legal_tame_noPda l2 fun c hc => ?_) (legal_tame_noPda l (laterI_noPda n1 n2)) hr hT hi r1 r2 r q1 q2 q
    obtain ⟨k, hk, rfl⟩ := List.mem_map.1 hc
    exact n2 k hk

/-- The commands of a simulator every `P` cycles, `n` times. -/
def repeatedI (cs : List ICmd) (P : Nat) : Nat → List ICmd
  | 0 => []
  | n + 1 => repeatedI cs P n ++ laterI (n * P) cs

theorem repeatedI_core (cs : List ICmd) (P : Nat) : ∀ n, (repeatedI cs P n).map ICmd.core = repeated (cs.map ICmd.core) P n
  | 0 => rfl
  | n + 1 => by
    unfold repeatedI repeated followed
    rw [List.map_append, laterI_core, repeatedI_core cs P n]

theorem coreEnergy_repeated {trace : List Cmd} {P : Nat} (hl : LegalTrace std ms trace) (hr : MayFollow std ms trace trace P) :
    ∀ n : Nat, coreEnergy std ms ps (repeated trace P n) (n * P) = n * coreEnergy std ms ps trace P
  | 0 => by
    have h := coreEnergy_followed (t := P) (ps := ps) hl (mayFollow_repeated hl hr 0).2
    have e : followed (repeated trace P 0) trace (0 * P) = trace := by
      show [] ++ later (0 * P) trace = trace
      rw [Nat.zero_mul, List.nil_append, later_eq]
      exact (List.map_congr_left fun c _ => rfl).trans (List.map_id _)
    rw [e, Nat.zero_mul, Nat.zero_add] at h
    rw [Nat.zero_mul]
    push_cast
    linarith
  | n + 1 => by
    show coreEnergy std ms ps (followed (repeated trace P n) trace (n * P)) _ = _
    rw [Nat.succ_mul, coreEnergy_followed hl (mayFollow_repeated hl hr n).2, coreEnergy_repeated hl hr n]
    push_cast
    ring

/-- DDR4, or no active power-down: the reported core energy of a trace repeated `n` times is `n` times that of the trace. -/
theorem C74_repeated_energy {cs : List ICmd} {s0 s1 s s1' s' : Simulator std N} {e1 e : Energy} {P : Nat} (hv : ValidSpec std ms)
    (hf : Fits std ms ps) (hl : LegalTrace std ms (cs.map ICmd.core)) (hn : std = .ddr4 ∨ ∀ c ∈ cs, c.type ≠ .PDEA)
    (hr : MayFollow std ms (cs.map ICmd.core) (cs.map ICmd.core) P) (hi : Simulator.init std N ms sp = .ok s0) (n : Nat)
    (r1 : s0.run ms sp cs = .done s1) (r : s0.run ms sp (repeatedI cs P n) = .done s)
    (q1 : s1.calcCoreEnergy ms sp ps P = .ok (s1', e1)) (q : s.calcCoreEnergy ms sp ps (n * P) = .ok (s', e)) :
    e.total = n * e1.total := by
  have hn' : std = .ddr4 ∨ ∀ c ∈ cs.map ICmd.core, c.type ≠ .PDEA := hn.imp_right fun h c hc => by
    obtain ⟨k, hk, rfl⟩ := List.mem_map.1 hc
    exact h k hk
  have htame : ∀ cmds, LegalTrace std ms cmds → (∀ c ∈ cmds, ∃ a ∈ cs.map ICmd.core, c.type = a.type) → TameTrace std ms cmds := fun cmds hc ht => by
    rcases hn' with rfl | hn
    · exact legal_tame_ddr4 hc
    · exact legal_tame_noPda hc fun c hc => by obtain ⟨a, ha, e⟩ := ht c hc; rw [e]; exact hn a ha
  rw [C67_partial hv hf (htame _ hl fun c hc => ⟨c, hc, rfl⟩) hi r1 (fun c hc => hr.sent c.core (List.mem_map_of_mem hc)) q1,
    C67_partial hv hf (by rw [repeatedI_core]; exact htame _ (mayFollow_repeated hl hr n).1 fun _ h => mem_repeated h) hi r
      (fun c hc => (mayFollow_repeated hl hr n).2.sent c.core (by rw [← repeatedI_core]; exact List.mem_map_of_mem hc)) q,
    repeatedI_core, coreEnergy_repeated hl hr n]

/-! ## Counterexample -/

/-- The reports of two traces add up. -/
def c74Adds (std : Std) (ms : MemSpec) (first second : List Cmd) (T t : Nat) : Bool :=
  match (Core.init ms).run std ms first, (Core.init ms).run std ms second, (Core.init ms).run std ms (followed first second T) with
  | .ok c1, .ok c2, .ok c =>
    decide ((c.getWindowStats std ms (T + t)).2 = sumReports (c1.getWindowStats std ms T).2 (c2.getWindowStats std ms t).2)
  | _, _, _ => false

/-- One activation. -/
def c74First : List Cmd := [{ t := 0, type := .ACT }, { t := 10, type := .PREA }]

/-- A refresh, then an active power-down. -/
def c74Second : List Cmd := [{ t := 0, type := .REFA }, { t := 2, type := .PDEA }, { t := 20, type := .PDXA }]

/-- DDR5, LPDDR4, LPDDR5, LPDDR6: a refresh and an active power-down are reported otherwise if the bank has been activated at any time before. -/
theorem C74_violation (std : Std) (hs : std ≠ .ddr4) : ¬ C74_statement std := by
  intro h
  obtain ⟨c1, c2, c, r1, r2, r, e⟩ := h Ex.ms c74First c74Second 20 40 (by cases std <;> decide +kernel) (by cases std <;> decide +kernel)
    (by cases std <;> decide +kernel) (by cases std <;> decide +kernel) (by decide)
  have hw : c74Adds std Ex.ms c74First c74Second 20 40 = false := by
    cases std
    · exact absurd rfl hs
    all_goals decide +kernel
  unfold c74Adds at hw
  rw [r1, r2, r] at hw
  simp [e] at hw

/-! ## The hypotheses can be met -/

/-- Traffic on two ranks, twice, a power-down in between; 50 cycles apart. -/
example (std : Std) : ValidSpec std Ex.ms ∧ LegalTrace std Ex.ms Ex.traffic ∧ (∀ c ∈ Ex.traffic, c.type ≠ .PDEA) ∧
    MayFollow std Ex.ms Ex.traffic Ex.traffic 50 ∧ NotBefore Ex.traffic 50 ∧ c74Adds std Ex.ms Ex.traffic Ex.traffic 50 50 = true := by
  refine ⟨?_, ?_, ?_, ?_, ?_, ?_⟩ <;> cases std <;> decide +kernel

/-- Active power-down with benign timing. -/
example (std : Std) : TameTrace std Ex.ms Ex.activePd ∧ TameTrace std Ex.ms (followed Ex.traffic Ex.activePd 50) ∧
    MayFollow std Ex.ms Ex.traffic Ex.activePd 50 ∧ NotBefore Ex.activePd 60 ∧ c74Adds std Ex.ms Ex.traffic Ex.activePd 50 60 = true := by
  refine ⟨?_, ?_, ?_, ?_, ?_⟩ <;> cases std <;> decide +kernel

/-- The traces of C53, then the end of the power-down. -/
def c74Example (std : Std) : List ICmd := c53Example std ++ [{ t := 50, type := .PDXP }]

/-- Simulators. -/
example (std : Std) : Fits std Ex.ms c53Power ∧ LegalTrace std Ex.ms ((c74Example std).map ICmd.core) ∧
    (∀ c ∈ c74Example std, c.type ≠ .PDEA) ∧ TameTrace std Ex.ms ((c74Example std ++ laterI 60 (c74Example std)).map ICmd.core) ∧
    MayFollow std Ex.ms ((c74Example std).map ICmd.core) ((c74Example std).map ICmd.core) 60 ∧ (∀ c ∈ c74Example std, c.t ≤ 60) ∧
    (c67Total std (c74Example std) 60).isSome = true ∧ (c67Total std (c74Example std ++ laterI 60 (c74Example std)) 120).isSome = true ∧
    (c67Total std (repeatedI (c74Example std) 60 2) (2 * 60)).isSome = true := by
  refine ⟨c67Fits std, ?_, ?_, ?_, ?_, ?_, ?_, ?_, ?_⟩ <;> cases std <;> decide +kernel

end DRAMPower
