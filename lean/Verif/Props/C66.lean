import Verif.Lemmas.BankView
import Verif.Sim.Trace
import Verif.Props.Examples

/-!
# C66: banks of a rank are independent as long as the rank does not enter power-down

For all accepted traces, legal or not.
-/

namespace DRAMPower

open Spec

/-- What `getWindowStats` reports about bank `b` of rank `i`. -/
def Spec.reportOf (ms : MemSpec) (s : CoreStats) (i b : Nat) : Option BankStats := s.bank[i * ms.numberOfBanks + b]?

/-- The commands of a trace that concern bank `b` of rank `i`. -/
def Spec.forBank (std : Std) (ms : MemSpec) (i b : Nat) (cmds : List Cmd) : List Cmd :=
  (forRank std i cmds).filter (concerns ms b)

/-- No power-down command to rank `i`. -/
def Spec.Awake (i : Nat) (cmds : List Cmd) : Prop := ∀ c ∈ cmds, c.rank = i → powerDown c.type = false

instance (i : Nat) (cmds : List Cmd) : Decidable (Awake i cmds) := by unfold Awake; infer_instance

theorem run_bank {std ms cmds c} (ho : Ordered cmds) (hr : (Core.init ms).run std ms cmds = .ok c) {i b : Nat}
    (hb : b < ms.numberOfBanks) (hp : Awake i cmds) :
    ∃ u, rrun std ms ({ nBanks := ms.numberOfBanks }, []) (Spec.forBank std ms i b cmds) = .ok u ∧
      ∀ t, NotBefore cmds t → ((c.process std t).ranks i).view b = (rproc std t u).1.view b := by
  obtain ⟨_, s, h1, h2⟩ := run_rank ho hr i
  have hof : Ordered (forRank std i cmds) := List.Pairwise.filter _ ho
  have hpl : PlainQueue (({ nBanks := ms.numberOfBanks }, []) : HRes) := ⟨List.Pairwise.nil, by simp⟩
  obtain ⟨u, h3, h4⟩ := rrun_bank (b := b) (forRank std i cmds) hof.times (s := ({ nBanks := ms.numberOfBanks }, []))
    (u := ({ nBanks := ms.numberOfBanks }, []))
    (fun c hc => hp c (List.mem_filter.1 hc).1 (by have := (List.mem_filter.1 hc).2; simp at this; exact this.1))
    hpl hpl hb (fun t _ => ⟨rfl, rfl, rfl⟩) h1
  refine ⟨u, h3, fun t ht => ?_⟩
  have := h4 t (endTime_le (Nat.zero_le t) (fun x hx => ht x (List.mem_filter.1 hx).1))
  rw [← this.view, ← h2 t ht]
  rfl

/-- Two accepted traces without power-down of the rank that contain the same commands concerning bank `b`
report the same about it: counters and cycles. -/
theorem C66_same_commands (std : Std) (ms : MemSpec) (cmds cmds' : List Cmd) (ho : Ordered cmds) (ho' : Ordered cmds')
    (i b : Nat) (hi : i < ms.numberOfRanks) (hb : b < ms.numberOfBanks) (hp : Awake i cmds) (hp' : Awake i cmds')
    (he : Spec.forBank std ms i b cmds = Spec.forBank std ms i b cmds')
    (c c' : Core) (hc : (Core.init ms).run std ms cmds = .ok c) (hc' : (Core.init ms).run std ms cmds' = .ok c')
    (t : Nat) (ht : NotBefore cmds t) (ht' : NotBefore cmds' t) :
    reportOf ms (c.getWindowStats std ms t).2 i b = reportOf ms (c'.getWindowStats std ms t).2 i b := by
  obtain ⟨u, h1, h2⟩ := run_bank ho hc hb hp
  obtain ⟨u', h1', h2'⟩ := run_bank ho' hc' hb hp'
  rw [he, h1'] at h1
  injection h1 with h1
  unfold reportOf
  rw [stats_bank hi hb, stats_bank hi hb]
  congr 1
  refine bankStats_view ?_
  rw [h2 t ht, h2' t ht', h1]

theorem forRank_forBank (std : Std) (ms : MemSpec) (i b j : Nat) (cmds : List Cmd) :
    forRank std j (Spec.forBank std ms i b cmds) = if j = i then Spec.forBank std ms i b cmds else [] := by
  split
  · rename_i h
    unfold Spec.forBank forRank
    rw [List.filter_eq_self]
    intro c hc
    have := (List.mem_filter.1 (List.mem_filter.1 hc).1).2
    rw [h]; exact this
  · rename_i h
    unfold forRank
    rw [List.filter_eq_nil_iff]
    intro c hc
    have := (List.mem_filter.1 (List.mem_filter.1 hc).1).2
    simp only [Bool.and_eq_true, decide_eq_true_eq] at this
    have hj : c.rank ≠ j := by rw [this.1]; exact Ne.symm h
    simp [hj]

/-- Dropping everything that does not concern bank `b` of rank `i` from an accepted trace leaves an
accepted trace that reports the same about the bank at every window end. -/
theorem C66_drop_other_banks (std : Std) (ms : MemSpec) (cmds : List Cmd) (ho : Ordered cmds)
    (c : Core) (hc : (Core.init ms).run std ms cmds = .ok c) (i b : Nat) (hi : i < ms.numberOfRanks)
    (hb : b < ms.numberOfBanks) (hp : Awake i cmds) :
    ∃ c', (Core.init ms).run std ms (Spec.forBank std ms i b cmds) = .ok c' ∧
      ∀ t, NotBefore cmds t →
        reportOf ms (c.getWindowStats std ms t).2 i b = reportOf ms (c'.getWindowStats std ms t).2 i b := by
  have hsub : ∀ x ∈ Spec.forBank std ms i b cmds, x ∈ cmds := fun x hx =>
    (List.mem_filter.1 (List.mem_filter.1 hx).1).1
  have ho' : Ordered (Spec.forBank std ms i b cmds) := List.Pairwise.filter _ (List.Pairwise.filter _ ho)
  obtain ⟨u, h1, _⟩ := run_bank ho hc hb hp
  have hok : ∃ c', (Core.init ms).run std ms (Spec.forBank std ms i b cmds) = .ok c' := by
    refine run_ok (T := 0) (s := fun _ => ({ nBanks := ms.numberOfBanks }, [])) (init_sorted ms) ho'.times
      (fun _ _ => rfl) ?_ ?_
    · intro cmd hcmd
      have := (List.mem_filter.1 (List.mem_filter.1 hcmd).1).2
      simp only [Bool.and_eq_true, decide_eq_true_eq] at this
      exact .inr (by omega)
    · intro j _
      rw [rankCmds_eq, forRank_forBank]
      split
      · exact ⟨u, h1⟩
      · exact ⟨_, rfl⟩
  obtain ⟨c', hc'⟩ := hok
  refine ⟨c', hc', fun t ht => ?_⟩
  refine C66_same_commands std ms cmds _ ho ho' i b hi hb hp (fun x hx => hp x (hsub x hx)) ?_ c c' hc hc' t ht
    (fun x hx => ht x (hsub x hx))
  unfold Spec.forBank
  have := forRank_forBank std ms i b i cmds
  rw [if_pos rfl] at this
  unfold Spec.forBank at this
  rw [this, List.filter_filter]
  simp

/-! ## Power-down couples the banks -/

/-- ACT to bank 0, ACT to bank 1 and power-down. -/
def pdTrace : List Cmd := [{ t := 0, type := .ACT, bank := 0 }, { t := 9, type := .ACT, bank := 1 }, { t := 10, type := .PDEA }]

/-- The entry into power-down is deferred until the other bank allows it, so without the restriction the
claim does not hold. -/
theorem C66_power_down (std : Std) :
    let x := (Core.init Ex.ms).run std Ex.ms pdTrace
    let y := (Core.init Ex.ms).run std Ex.ms (Spec.forBank std Ex.ms 0 0 pdTrace)
    x.isOk = true ∧ y.isOk = true ∧
    ((x.toOption.bind fun c => reportOf Ex.ms (c.getWindowStats std Ex.ms 100).2 0 0) ≠
     (y.toOption.bind fun c => reportOf Ex.ms (c.getWindowStats std Ex.ms 100).2 0 0)) := by
  cases std <;> decide +kernel

/-! ## The hypotheses can be met -/

/-- Traffic on three banks of two ranks with auto-precharge, refresh and self-refresh. -/
def bankTraffic : List Cmd :=
  [{ t := 0, type := .ACT, bank := 0 }, { t := 2, type := .ACT, bank := 1 }, { t := 3, type := .ACT, bank := 0, rank := 1 },
   { t := 12, type := .RD, bank := 0 }, { t := 14, type := .RDA, bank := 1 }, { t := 40, type := .PREA },
   { t := 60, type := .ACT, bank := 3 }, { t := 80, type := .WRA, bank := 3 }, { t := 200, type := .SREFEN },
   { t := 400, type := .SREFEX }, { t := 420, type := .ACT, bank := 0 }]

example (std : Std) : Ordered bankTraffic ∧ ((Core.init Ex.ms).run std Ex.ms bankTraffic).isOk = true ∧ Awake 0 bankTraffic ∧
    (Spec.forBank std Ex.ms 0 0 bankTraffic).length = 6 ∧ (Spec.forBank std Ex.ms 0 3 bankTraffic).length = 5 ∧
    0 < Ex.ms.numberOfRanks ∧ 3 < Ex.ms.numberOfBanks := by
  cases std <;> decide +kernel

end DRAMPower
