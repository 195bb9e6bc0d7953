import Verif.Sim.Main

/-!
# From one rank to whole traces and to the values returned by `getWindowStats`
-/

namespace DRAMPower

open Spec

theorem rankCmds_eq (std : Std) (i : Nat) (cmds : List Cmd) : rankCmds std i cmds = forRank std i cmds := by
  unfold rankCmds forRank
  congr 1
  funext c
  have : isNoEffect std c.type = unaddressed std c.type := by
    unfold isNoEffect unaddressed
    cases std <;> cases c.type <;> rfl
  rw [this]

theorem isNoEffect_eq (std : Std) (ty : CmdType) : isNoEffect std ty = unaddressed std ty := by
  unfold isNoEffect unaddressed
  cases std <;> cases ty <;> rfl

theorem timesFrom_iff {now : Nat} {cmds : List Cmd} :
    TimesFrom now cmds ↔ (∀ c ∈ cmds, now ≤ c.t) ∧ Ordered cmds := by
  induction cmds generalizing now with
  | nil => simp [TimesFrom, Ordered]
  | cons c cmds ih =>
    simp only [TimesFrom, ih, Ordered, List.pairwise_cons, List.mem_cons]
    constructor
    · rintro ⟨h1, h2, h3⟩
      refine ⟨?_, h2, h3⟩
      rintro x (rfl | hx)
      · exact h1
      · have := h2 x hx; omega
    · rintro ⟨h1, h2, h3⟩
      exact ⟨h1 c (.inl rfl), h2, h3⟩

theorem Spec.Ordered.times {cmds : List Cmd} (h : Ordered cmds) : TimesFrom 0 cmds :=
  timesFrom_iff.2 ⟨by simp, h⟩

theorem endTime_le {now t : Nat} {cmds : List Cmd} (h1 : now ≤ t) (h : NotBefore cmds t) : endTime now cmds ≤ t := by
  induction cmds generalizing now with
  | nil => exact h1
  | cons c cmds ih => exact ih (h c (by simp)) (fun x hx => h x (by simp [hx]))

theorem Spec.NotBefore.forRank {std i t} {cmds : List Cmd} (h : NotBefore cmds t) : NotBefore (forRank std i cmds) t := by
  intro c hc
  exact h c (List.mem_filter.1 hc).1

theorem init_sorted (ms : MemSpec) : Sorted (Core.init ms).queue := by simp [Core.init, Sorted]

/-- Projection of an accepted run from the initial state to one rank, at any time after the last
command. -/
theorem run_rank {std ms c cmds} (ho : Ordered cmds) (hr : (Core.init ms).run std ms cmds = .ok c) (i : Nat) :
    Sorted c.queue ∧ ∃ s, rrun std ms ({ nBanks := ms.numberOfBanks }, []) (forRank std i cmds) = .ok s ∧
      ∀ t, NotBefore cmds t → (c.process std t).local i = rproc std t s := by
  obtain ⟨hs, s, h1, h2⟩ := run_local (i := i) (T := 0) (s := ({ nBanks := ms.numberOfBanks }, []))
    (init_sorted ms) ho.times rfl hr
  refine ⟨hs, s, by rw [← rankCmds_eq]; exact h1, ?_⟩
  intro t ht
  have hle := endTime_le (Nat.zero_le t) ht
  rw [Core.process_local' hs, ← rproc_rproc hle, ← h2, rproc_rproc hle]

/-- A tame trace is accepted. -/
theorem tame_ok {std ms cmds} (hv : ValidSpec std ms) (ht : TameTrace std ms cmds) :
    ∃ c, (Core.init ms).run std ms cmds = .ok c := by
  refine run_ok (T := 0) (s := fun _ => ({ nBanks := ms.numberOfBanks }, [])) (init_sorted ms) ht.ordered.times
    (fun _ _ => rfl) ?_ ?_
  · intro c hc; rw [isNoEffect_eq]; exact ht.ranks c hc
  · intro i hi
    obtain ⟨s, h1, _⟩ := rank_main hv (ht.tame i hi)
    exact ⟨s, by rw [rankCmds_eq]; exact h1⟩

/-- State of a rank after a tame trace, at any query time. -/
theorem tame_rel {std ms cmds c} (hv : ValidSpec std ms) (ht : TameTrace std ms cmds)
    (hr : (Core.init ms).run std ms cmds = .ok c) {t i : Nat} (hT : NotBefore cmds t) (hi : i < ms.numberOfRanks) :
    ∃ σ ent, Rel std ms.numberOfBanks t ((c.process std t).local i).2 ((c.process std t).ranks i) σ ent
        (accAt (stateAt std ms (forRank std i cmds)) ms.numberOfBanks t) ∧
      PS t ((forRank std i cmds).foldl (apply std ms) {}) σ ∧
      ∀ e ∈ ((c.process std t).local i).2, t < e.1 := by
  obtain ⟨hs, s, h1, h2⟩ := run_rank ht.ordered hr i
  obtain ⟨s', h1', h3⟩ := rank_main hv (ht.tame i hi)
  rw [h1] at h1'
  injection h1' with h1'
  subst h1'
  obtain ⟨σ, ent, g1, g2, g3⟩ := h3 t (endTime_le (Nat.zero_le t) hT.forRank)
  have he := h2 t hT
  refine ⟨σ, ent, ?_, g2, ?_⟩
  · have : (c.process std t).ranks i = (rproc std t s).1 := congrArg Prod.fst he
    rw [he, this]; exact g1
  · rw [he]; exact g3

/-! ## Indexing of the reported vectors -/

theorem flatMap_range_get {α : Type} (f : Nat → Nat → α) (m n : Nat) {i j : Nat} (hi : i < m) (hj : j < n) :
    ((List.range m).flatMap fun i => (List.range n).map fun j => f i j)[i * n + j]? = some (f i j) := by
  induction m generalizing i with
  | zero => omega
  | succ m ih =>
    have hlen : ((List.range m).flatMap fun i => (List.range n).map fun j => f i j).length = m * n := by
      rw [List.length_flatMap]
      simp only [List.length_map, List.length_range, List.map_const', List.sum_replicate_nat]
    rw [List.range_succ, List.flatMap_append]
    by_cases h : i < m
    · rw [List.getElem?_append_left]
      · exact ih h
      · rw [hlen]
        have : (i + 1) * n ≤ m * n := Nat.mul_le_mul_right n h
        rw [Nat.add_mul, Nat.one_mul] at this
        omega
    · have : i = m := by omega
      subst this
      rw [List.getElem?_append_right (by rw [hlen]; omega), hlen]
      simp only [List.flatMap_cons, List.flatMap_nil, List.append_nil]
      rw [show i * n + j - i * n = j by omega]
      simp [hj]

theorem stats_bank {std ms c t i j} (hi : i < ms.numberOfRanks) (hj : j < ms.numberOfBanks) :
    (Core.getWindowStats std ms c t).2.bank[i * ms.numberOfBanks + j]? = some (bankStats std ((c.process std t).ranks i) t j) :=
  flatMap_range_get (fun i j => bankStats std ((c.process std t).ranks i) t j) _ _ hi hj

theorem stats_rank {std ms c t i} (hi : i < ms.numberOfRanks) :
    (Core.getWindowStats std ms c t).2.rankTotal[i]? = some (rankStats std ((c.process std t).ranks i) t) := by
  simp [Core.getWindowStats, Core.statsAt, hi]

/-! ## Legal histories that are tame anyway -/

theorem legal_tame_from {ms : MemSpec} {h : List Cmd} : ∀ {s now}, LegalFrom .ddr4 ms s now h → TameFrom .ddr4 ms s now h := by
  induction h with
  | nil => intros; trivial
  | cons c h ih =>
    intro s now hl
    exact ⟨hl.1, ⟨hl.2.1, fun _ hs => absurd rfl hs⟩, ih hl.2.2⟩

theorem legal_tame_ddr4 {ms cmds} (h : LegalTrace .ddr4 ms cmds) : TameTrace .ddr4 ms cmds :=
  ⟨h.ordered, h.ranks, fun i hi => legal_tame_from (h.legal i hi)⟩

theorem legal_tame_noPda_from {std} {ms : MemSpec} {h : List Cmd} : ∀ {s now}, (∀ c ∈ h, c.type ≠ .PDEA) →
    LegalFrom std ms s now h → TameFrom std ms s now h := by
  induction h with
  | nil => intros; trivial
  | cons c h ih =>
    intro s now hn hl
    exact ⟨hl.1, ⟨hl.2.1, fun hc _ => absurd hc (hn c (by simp))⟩, ih (fun x hx => hn x (by simp [hx])) hl.2.2⟩

theorem legal_tame_noPda {std ms cmds} (h : LegalTrace std ms cmds) (hn : ∀ c ∈ cmds, c.type ≠ .PDEA) :
    TameTrace std ms cmds :=
  ⟨h.ordered, h.ranks, fun i hi => legal_tame_noPda_from (fun c hc => hn c (List.mem_filter.1 hc).1) (h.legal i hi)⟩

end DRAMPower
