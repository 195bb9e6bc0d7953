import Verif.Lemmas.RenumberRun
import Verif.Props.C67
import Verif.Props.C66

/-!
# C71: the numbering of ranks and banks does not matter

For all accepted traces, legal or not. `C71_accepted`: the renumbered trace is accepted; `C71`: same report under the new numbers;
`C71_energy`: same energies under the new numbers, same total. `C71_needsSymmetry`: what the standard treats together must stay together.
-/

namespace DRAMPower
open Spec

variable {std : Std} {N : Nat} {ms : MemSpec} {sp : IfSpec} {ps : PowerSpec} {ρ : Nat → Nat} {f : Nat → Nat → Nat}

/-- Both numberings. -/
structure Spec.Renumbering (std : Std) (ms : MemSpec) (ρ : Nat → Nat) (f : Nat → Nat → Nat) : Prop where
  ranks : RankSymmetry ms ρ
  banks : ∀ i < ms.numberOfRanks, BankSymmetry std ms (f i)

instance (std : Std) (ms : MemSpec) (ρ : Nat → Nat) (f : Nat → Nat → Nat) : Decidable (Renumbering std ms ρ f) :=
  decidable_of_iff (RankSymmetry ms ρ ∧ ∀ i < ms.numberOfRanks, BankSymmetry std ms (f i)) ⟨fun ⟨a, b⟩ => ⟨a, b⟩, fun ⟨a, b⟩ => ⟨a, b⟩⟩

theorem ranks_perm (h : RankSymmetry ms ρ) : ((List.range ms.numberOfRanks).map ρ).Perm (List.range ms.numberOfRanks) := by
  have hn : ((List.range ms.numberOfRanks).map ρ).Nodup := by
    refine List.Nodup.map_on ?_ List.nodup_range
    intro a ha b hb hab
    exact h.inj a (List.mem_range.1 ha) b (List.mem_range.1 hb) hab
  refine (hn.subperm ?_).perm_of_length_le (by simp)
  intro x hx
  obtain ⟨a, ha, rfl⟩ := List.mem_map.1 hx
  exact List.mem_range.2 (h.range a (List.mem_range.1 ha))

theorem run_ranksExist : ∀ (cmds : List Cmd) {c c' : Core}, c.run std ms cmds = .ok c' → RanksExist std ms cmds
  | [], _, _, _ => by intro x hx; cases hx
  | cmd :: cmds, c, c', h => by
    simp only [Core.run] at h
    split at h
    · rename_i c1 h1
      intro x hx
      rcases List.mem_cons.1 hx with rfl | hx
      · rw [← isNoEffect_eq]; exact doCommand_rank_lt h1
      · exact run_ranksExist cmds h x hx
    · cases h

theorem renumber_ordered {cmds : List Cmd} (h : Ordered cmds) : Ordered (cmds.map (renumber ρ f)) := List.pairwise_map.2 h

theorem forRank_renumber (hρ : RankSymmetry ms ρ) {cmds : List Cmd} (hr : RanksExist std ms cmds) {i : Nat} (hi : i < ms.numberOfRanks) :
    forRank std (ρ i) (cmds.map (renumber ρ f)) = ((forRank std i cmds).map (bankRen (f i))).map fun c => { c with rank := ρ i } := by
  unfold forRank
  induction cmds with
  | nil => rfl
  | cons c cmds ih =>
    have ih := ih fun x hx => hr x (by simp [hx])
    rw [List.map_cons, List.filter_cons, List.filter_cons]
    have h1 : (renumber ρ f c).rank = ρ c.rank := rfl
    have h2 : (renumber ρ f c).type = c.type := rfl
    rw [h1, h2]
    by_cases hu : unaddressed std c.type = true
    · simp only [hu, Bool.not_true, Bool.and_false, Bool.false_eq_true, if_false]
      exact ih
    · have hlt := (hr c (by simp)).resolve_left hu
      by_cases hci : c.rank = i
      · subst hci
        simp only [hu, decide_true, Bool.true_and, Bool.not_false, if_true, List.map_cons]
        rw [ih]
        rfl
      · have : ρ c.rank ≠ ρ i := fun e => hci (hρ.inj _ hlt _ hi e)
        simp only [hci, this, decide_false, Bool.false_and, Bool.false_eq_true, if_false]
        exact ih

theorem rrun_anyRank (k : Nat) : ∀ (L : List Cmd) (s : HRes), rrun std ms s (L.map fun c => { c with rank := k }) = rrun std ms s L
  | [], _ => rfl
  | c :: L, s => by
    have h1 : rstep std ms s { c with rank := k } = rstep std ms s c := rfl
    simp only [List.map_cons, rrun, h1]
    split
    · exact rrun_anyRank k L _
    · rfl

/-- The local run of a rank under its new number. -/
theorem local_renumber (hn : Renumbering std ms ρ f) (hg : std = .ddr5 → ms.numberOfBanks = ms.numberOfBankGroups * ms.banksPerGroup)
    {cmds : List Cmd} (ho : Ordered cmds) {c : Core} (hc : (Core.init ms).run std ms cmds = .ok c) {i : Nat} (hi : i < ms.numberOfRanks) :
    ∃ u u', rrun std ms ({ nBanks := ms.numberOfBanks }, []) (forRank std (ρ i) (cmds.map (renumber ρ f))) = .ok u' ∧
      LocalRen ms (f i) u u' ∧ ∀ t, NotBefore cmds t → (c.process std t).local i = rproc std t u := by
  obtain ⟨_, u, h1, h2⟩ := run_rank ho hc i
  obtain ⟨u', h3, h4⟩ := LocalRen.run (hn.banks i hi) hg _ LocalRen.init h1
  refine ⟨u, u', ?_, h4, h2⟩
  rw [forRank_renumber hn.ranks (run_ranksExist cmds hc) hi, rrun_anyRank]
  exact h3

/-- The renumbered trace is accepted too. -/
theorem C71_accepted (std : Std) (ms : MemSpec) (ρ : Nat → Nat) (f : Nat → Nat → Nat) (hn : Renumbering std ms ρ f)
    (hg : std = .ddr5 → ms.numberOfBanks = ms.numberOfBankGroups * ms.banksPerGroup) (cmds : List Cmd) (ho : Ordered cmds) (c : Core)
    (hc : (Core.init ms).run std ms cmds = .ok c) : ∃ c', (Core.init ms).run std ms (cmds.map (renumber ρ f)) = .ok c' := by
  refine run_ok (T := 0) (s := fun _ => ({ nBanks := ms.numberOfBanks }, [])) (init_sorted ms) (renumber_ordered ho).times
    (fun _ _ => rfl) ?_ ?_
  · intro x hx
    obtain ⟨y, hy, rfl⟩ := List.mem_map.1 hx
    rw [isNoEffect_eq]
    rcases run_ranksExist cmds hc y hy with h | h
    · exact .inl h
    · exact .inr (hn.ranks.range _ h)
  · intro j hj
    have := ((ranks_perm hn.ranks).mem_iff (a := j)).2 (List.mem_range.2 hj)
    obtain ⟨i, hi, rfl⟩ := List.mem_map.1 this
    obtain ⟨_, u', h, _⟩ := local_renumber hn hg ho hc (List.mem_range.1 hi)
    rw [rankCmds_eq]
    exact ⟨u', h⟩

/-- At every window end the rank and the bank report under their new numbers what they report under the old ones. -/
theorem C71 (std : Std) (ms : MemSpec) (ρ : Nat → Nat) (f : Nat → Nat → Nat) (hn : Renumbering std ms ρ f)
    (hg : std = .ddr5 → ms.numberOfBanks = ms.numberOfBankGroups * ms.banksPerGroup) (cmds : List Cmd) (ho : Ordered cmds) (c c' : Core)
    (hc : (Core.init ms).run std ms cmds = .ok c) (hc' : (Core.init ms).run std ms (cmds.map (renumber ρ f)) = .ok c')
    (t : Nat) (ht : NotBefore cmds t) (i : Nat) (hi : i < ms.numberOfRanks) :
    (c'.getWindowStats std ms t).2.rankTotal[ρ i]? = (c.getWindowStats std ms t).2.rankTotal[i]? ∧
    ∀ b < ms.numberOfBanks,
      reportOf ms (c'.getWindowStats std ms t).2 (ρ i) (f i b) = reportOf ms (c.getWindowStats std ms t).2 i b := by
  obtain ⟨u, u', h1, h2, h3⟩ := local_renumber hn hg ho hc hi
  obtain ⟨_, v, k1, k2⟩ := run_rank (renumber_ordered ho) hc' (ρ i)
  rw [h1] at k1
  injection k1 with k1
  subst k1
  have ht' : NotBefore (cmds.map (renumber ρ f)) t := by
    intro x hx
    obtain ⟨y, hy, rfl⟩ := List.mem_map.1 hx
    exact ht y hy
  have e1 : (c.process std t).ranks i = (rproc std t u).1 := congrArg Prod.fst (h3 t ht)
  have e2 : (c'.process std t).ranks (ρ i) = (rproc std t u').1 := congrArg Prod.fst (k2 t ht')
  have hr := (h2.process (hn.banks i hi) t).rank
  rw [← e1, ← e2] at hr
  refine ⟨?_, fun b hb => ?_⟩
  · rw [stats_rank (hn.ranks.range i hi), stats_rank hi]
    unfold rankStats
    rw [hr.rest]
  · unfold reportOf
    rw [stats_bank (hn.ranks.range i hi) ((hn.banks i hi).range b hb), stats_bank hi hb]
    unfold bankStats
    rw [hr.banks b hb, hr.rest]

/-- What the energy calculation reads of the totals of a rank is the core's. -/
theorem rank_cycles {s s1 : Simulator std N} {t : Nat} {x : SimStats} (ha : s.getWindowStats ms sp t = .ok (s1, x)) {i : Nat}
    (hi : i < x.rankTotal.length) :
    (x.rankTotal.getD i {}).cycles = ((s.core.getWindowStats std ms t).2.toSim.rankTotal.getD i {}).cycles := by
  obtain ⟨_, rx⟩ := window_lists (simulator_stats ha)
  rw [rx] at hi ⊢
  split
  · rename_i hs
    rw [if_pos hs] at hi
    unfold Interface.rankTotals at hi ⊢
    rw [List.getD_eq_getElem?_getD, List.getD_eq_getElem?_getD, List.getElem?_mapIdx]
    rw [List.length_mapIdx] at hi
    rw [List.getElem?_eq_getElem hi, List.getD_eq_getElem?_getD]
    rfl
  · rfl

/-- What a bank adds depends on its own statistics and on the cycles of its rank. -/
theorem contrib_congr {x y : SimStats} {r b r' b' : Nat} (d : Domain)
    (hb : x.bank.getD (ps.statsIndex r b) {} = y.bank.getD (ps.statsIndex r' b') {})
    (hr : (x.rankTotal.getD r {}).cycles = (y.rankTotal.getD r' {}).cycles) :
    ps.contrib std x r b d = ps.contrib std y r' b' d := by
  unfold PowerSpec.contrib
  rw [hb]
  unfold PowerSpec.bankEnergy
  rw [hr]

/-- The energies under the new numbers are those under the old ones: every component of every bank of every device, and the total. -/
theorem C71_energy {cs cs' : List ICmd} {s0 s s1 s' s1' : Simulator std N} {t : Nat} {e e' : Energy} (hn : Renumbering std ms ρ f)
    (hv : ValidSpec std ms) (hf : Fits std ms ps) (ho : Ordered (cs.map ICmd.core))
    (hcs : cs'.map ICmd.core = (cs.map ICmd.core).map (renumber ρ f)) (hi : Simulator.init std N ms sp = .ok s0)
    (hr : s0.run ms sp cs = .done s) (hr' : s0.run ms sp cs' = .done s') (hT : NotBefore (cs.map ICmd.core) t)
    (he : s.calcCoreEnergy ms sp ps t = .ok (s1, e)) (he' : s'.calcCoreEnergy ms sp ps t = .ok (s1', e')) :
    (∀ i < ms.numberOfRanks, ∀ dev < ps.devices, ∀ b < ms.numberOfBanks, ∀ k : Component,
      entry e' (ps.energyIndex (ρ i) dev (f i b)) k = entry e (ps.energyIndex i dev b) k) ∧ e'.total = e.total := by
  obtain ⟨hc, _⟩ := simulator_init hi
  obtain ⟨hr, _⟩ := run_halves cs hr
  obtain ⟨hr', _⟩ := run_halves cs' hr'
  rw [hc] at hr hr'
  rw [hcs] at hr'
  unfold Simulator.calcCoreEnergy at he he'
  obtain ⟨⟨a, x⟩, ha, he⟩ := bind_ok he
  obtain ⟨ea, hea, he⟩ := bind_ok he
  cases pure_ok he
  obtain ⟨⟨a', x'⟩, ha', he'⟩ := bind_ok he'
  obtain ⟨ea', hea', he'⟩ := bind_ok he'
  cases pure_ok he'
  have key := C71 std ms ρ f hn hv.groups (cs.map ICmd.core) ho s.core s'.core hr hr' t hT
  have hcyc : ∀ i < ms.numberOfRanks, (x'.rankTotal.getD (ρ i) {}).cycles = (x.rankTotal.getD i {}).cycles := by
    intro i hi
    have l1 : i < x.rankTotal.length := by have := ranks_of_ok hea; have := hf.ranks; omega
    have l2 : ρ i < x'.rankTotal.length := by
      have := ranks_of_ok hea'; have := hf.ranks; have := hn.ranks.range i hi; omega
    rw [rank_cycles ha l1, rank_cycles ha' l2]
    simp only [CoreStats.toSim, List.getD_eq_getElem?_getD, List.getElem?_map]
    rw [(key i hi).1]
  have hbank : ∀ i < ms.numberOfRanks, ∀ b < ms.numberOfBanks,
      x'.bank.getD (ps.statsIndex (ρ i) (f i b)) {} = x.bank.getD (ps.statsIndex i b) {} := by
    intro i hi b hb
    rw [(window_lists (simulator_stats ha)).1, (window_lists (simulator_stats ha')).1]
    unfold PowerSpec.statsIndex
    rw [hf.banks]
    simp only [CoreStats.toSim, List.getD_eq_getElem?_getD, List.getElem?_map]
    have := (key i hi).2 b hb
    unfold reportOf at this
    rw [this]
  have hcon : ∀ i < ms.numberOfRanks, ∀ b < ms.numberOfBanks, ∀ d, ps.contrib std x' (ρ i) (f i b) d = ps.contrib std x i b d :=
    fun i hi b hb d => contrib_congr d (hbank i hi b hb) (hcyc i hi)
  refine ⟨fun i hi dev hdev b hb k => ?_, ?_⟩
  · have h1 := hf.banks
    have h2 := hf.ranks
    rw [(PowerSpec.calc_closed hea).bank i dev b (by omega) hdev (by omega) k,
      (PowerSpec.calc_closed hea').bank (ρ i) dev (f i b) (by have := hn.ranks.range i hi; omega) hdev
        (by have := (hn.banks i hi).range b hb; omega) k]
    congr 1
    exact List.map_congr_left fun d _ => by rw [hcon i hi b hb d]
  · rw [PowerSpec.total_closed hea, PowerSpec.total_closed hea']
    congr 1
    refine List.map_congr_left fun d _ => ?_
    rw [hf.ranks, ← ((ranks_perm hn.ranks).map _).sum_eq, List.map_map]
    congr 1
    refine List.map_congr_left fun i hi => ?_
    have hi := List.mem_range.1 hi
    show ps.rankSum std x' (ρ i) d = ps.rankSum std x i d
    unfold PowerSpec.rankSum
    have h1 : ps.rankEnergy std d (x'.rankTotal.getD (ρ i) {}) = ps.rankEnergy std d (x.rankTotal.getD i {}) := by
      unfold PowerSpec.rankEnergy
      rw [hcyc i hi]
    rw [h1, hf.banks, ← ((hn.banks i hi).perm.map _).sum_eq, List.map_map]
    congr 3
    refine List.map_congr_left fun b hb => ?_
    show bankTotal (ps.contrib std x' (ρ i) (f i b) d) = _
    rw [hcon i hi b (List.mem_range.1 hb) d]

/-- A renumbering does not turn a trace of the reference timeline that is tame into one that is not. -/
theorem C71_tame (std : Std) (ms : MemSpec) (f : Nat → Nat) (hf : BankSymmetry std ms f) (h : List Cmd) (ht : Tame std ms h) :
    Tame std ms (h.map fun c => { c with bank := f c.bank, dbank := f c.dbank }) := tameFrom_ren hf h init_ren ht

/-! ## What belongs together must stay together -/

/-- Exchange banks 0 and 1 and leave the others. -/
def swap01 (b : Nat) : Nat := if b = 0 then 1 else if b = 1 then 0 else b

/-- Refresh of the banks with the number of bank 0 in their groups, while bank 3 is open. -/
def sameBankTrace : List Cmd := [{ t := 0, type := .ACT, bank := 3 }, { t := 5, type := .REFSB, bank := 0 }]

/-- The report of bank `b` of rank 0 at time 20. -/
def c71Report (std : Std) (cmds : List Cmd) (b : Nat) : Option BankStats :=
  match (Core.init Ex.ms).run std Ex.ms cmds with
  | .ok c => reportOf Ex.ms (c.getWindowStats std Ex.ms 20).2 0 b
  | .error _ => none

/-- Exchanging bank 0 and bank 1 of the first group only: with the refresh of equal banks of all groups, bank 2 is no longer refreshed. -/
theorem C71_needsSymmetry : ¬ BankSymmetry .ddr5 Ex.ms swap01 ∧ (c71Report .ddr5 sameBankTrace 2).isSome = true ∧
    (c71Report .ddr5 (sameBankTrace.map (renumber id fun _ => swap01)) (swap01 2)).isSome = true ∧
    c71Report .ddr5 (sameBankTrace.map (renumber id fun _ => swap01)) (swap01 2) ≠ c71Report .ddr5 sameBankTrace 2 := by
  refine ⟨?_, ?_, ?_, ?_⟩ <;> decide +kernel

/-! ## The hypotheses can be met -/

/-- In rank 0 exchange neighbouring banks; for LPDDR6, which refuses most second banks, exchange banks 1 and 3. -/
def c71Banks (std : Std) (i b : Nat) : Nat :=
  if i ≠ 0 then b else if std = .lpddr6 then (4 - b) % 4 else if b % 2 = 0 then b + 1 else b - 1

example (std : Std) : Renumbering std Ex.ms (fun i => 1 - i) (c71Banks std) ∧ ValidSpec std Ex.ms ∧ Ordered Ex.traffic ∧
    ((Core.init Ex.ms).run std Ex.ms Ex.traffic).isOk = true ∧
    (Ex.traffic.map (renumber (fun i => 1 - i) (c71Banks std))) ≠ Ex.traffic := by
  refine ⟨?_, ?_, ?_, ?_, ?_⟩ <;> cases std <;> decide +kernel

/-- The commands of the whole simulator with exchanged numbers. -/
def c71Renumber (std : Std) (c : ICmd) : ICmd :=
  { c with co := { c.co with rank := 1 - c.co.rank, bank := c71Banks std c.co.rank c.co.bank }, dbank := c71Banks std c.co.rank c.dbank }

example (std : Std) : Fits std Ex.ms c53Power ∧ Ordered ((c53Example std).map ICmd.core) ∧ NotBefore ((c53Example std).map ICmd.core) 40 ∧
    ((c53Example std).map (c71Renumber std)).map ICmd.core = ((c53Example std).map ICmd.core).map (renumber (fun i => 1 - i) (c71Banks std)) ∧
    (c67Total std (c53Example std) 40).isSome = true ∧
    c67Total std ((c53Example std).map (c71Renumber std)) 40 = c67Total std (c53Example std) 40 := by
  refine ⟨c67Fits std, ?_, ?_, ?_, ?_, ?_⟩ <;> cases std <;> decide +kernel

end DRAMPower
