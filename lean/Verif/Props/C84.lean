import Mathlib.Data.List.Basic
import Verif.Props.C04
import Verif.Props.C05
import Verif.Props.C09

/-!
# C84: the standards agree on what they have in common

* `C84_noActivePowerDown`: a trace of commands two standards have in common, legal for one of them, without active power-down: legal for
  the other too, accepted by both, and the same statistics.
* `C84_partial`: with active power-down, outside the situations of `benignCmd`. Full statement `C84_statement`: for every trace that is
  legal for both; refuted by `C84_violation` for DDR4 and any other.
-/

namespace DRAMPower
open Spec

variable {std std' : Std} {ms : MemSpec}

/-- Full statement. The time from an activation to an access, by which power-down is delayed, is the only timing parameter with another
meaning in one of the standards (LPDDR6). -/
def C84_statement (std std' : Std) : Prop :=
  ∀ (ms : MemSpec) (cmds : List Cmd), ValidSpec std ms → ValidSpec std' ms → tRCDof std ms = tRCDof std' ms →
    (∀ c ∈ cmds, c.type ≠ .NOP) → LegalTrace std ms cmds → LegalTrace std' ms cmds →
    ∃ c c', (Core.init ms).run std ms cmds = .ok c ∧ (Core.init ms).run std' ms cmds = .ok c' ∧
      ∀ t, NotBefore cmds t → (c.getWindowStats std ms t).2 = (c'.getWindowStats std' ms t).2

theorem apply_alike (h : tRCDof std ms = tRCDof std' ms) : Spec.apply std ms = Spec.apply std' ms := by
  have hp : pdTime std ms = pdTime std' ms := by
    funext s t
    unfold pdTime
    rw [h]
  funext s c
  simp only [Spec.apply, hp]

theorem forRank_alike {cmds : List Cmd} (hn : ∀ c ∈ cmds, c.type ≠ .NOP) (i : Nat) : forRank std i cmds = forRank std' i cmds := by
  unfold forRank
  refine List.filter_congr fun c hc => ?_
  have : unaddressed std c.type = unaddressed std' c.type := by
    have := hn c hc
    unfold unaddressed
    simp [this]
  rw [this]

theorem bankTime_alike (h : tRCDof std ms = tRCDof std' ms) (l : List Cmd) (b : Nat) (k : Cat) (t : Nat) :
    bankTime std ms l b k t = bankTime std' ms l b k t := by
  unfold bankTime category stateAt
  rw [apply_alike h]

theorem rankTime_alike (h : tRCDof std ms = tRCDof std' ms) (l : List Cmd) (k : Cat) (t : Nat) :
    rankTime std ms l k t = rankTime std' ms l k t := by
  unfold rankTime rankCategory stateAt
  rw [apply_alike h]

/-- Missing from the full statement: the active power-down situations excluded by `benignCmd`, for which it is false
(`C84_violation`). -/
theorem C84_partial (std std' : Std) (ms : MemSpec) (cmds : List Cmd) (hv : ValidSpec std ms) (hv' : ValidSpec std' ms)
    (hrcd : tRCDof std ms = tRCDof std' ms) (hn : ∀ c ∈ cmds, c.type ≠ .NOP) (ht : TameTrace std ms cmds) (ht' : TameTrace std' ms cmds) :
    ∃ c c', (Core.init ms).run std ms cmds = .ok c ∧ (Core.init ms).run std' ms cmds = .ok c' ∧
      ∀ t, NotBefore cmds t → (c.getWindowStats std ms t).2 = (c'.getWindowStats std' ms t).2 := by
  obtain ⟨c, hr⟩ := C05_accept_partial std ms cmds hv ht
  obtain ⟨c', hr'⟩ := C05_accept_partial std' ms cmds hv' ht'
  refine ⟨c, c', hr, hr', fun t hT => ?_⟩
  have hbank : ∀ i < ms.numberOfRanks, ∀ b < ms.numberOfBanks, bankStats std ((c.process std t).ranks i) t b = bankStats std' ((c'.process std' t).ranks i) t b := by
    intro i hi b hb
    have a1 := C01_partial std ms cmds hv ht c hr t hT i hi b hb
    have a2 := C09 std ms cmds hv.groups (tame_twoBanks ht) c hr t i hi b hb
    have a3 := C09_pre_partial std ms cmds hv ht c hr t hT i hi b hb
    have b1 := C01_partial std' ms cmds hv' ht' c' hr' t hT i hi b hb
    have b2 := C09 std' ms cmds hv'.groups (tame_twoBanks ht') c' hr' t i hi b hb
    have b3 := C09_pre_partial std' ms cmds hv' ht' c' hr' t hT i hi b hb
    rw [stats_bank hi hb, Option.map_some, Option.some.injEq] at a1 a2 a3 b1 b2 b3
    rw [forRank_alike (std' := std') hn] at a1 a2 a3
    rw [apply_alike hrcd, ← b3] at a3
    rw [← b2] at a2
    have h1 : (bankStats std ((c.process std t).ranks i) t b).cycles = (bankStats std' ((c'.process std' t).ranks i) t b).cycles := by
      rw [a1, b1]
      congr 1
      funext k
      exact bankTime_alike hrcd _ _ _ _
    have h2 : (bankStats std ((c.process std t).ranks i) t b).counter = (bankStats std' ((c'.process std' t).ranks i) t b).counter := by
      generalize (bankStats std ((c.process std t).ranks i) t b).counter = x at a2 a3
      generalize (bankStats std' ((c'.process std' t).ranks i) t b).counter = y at a2 a3
      cases x
      cases y
      simp only [Counters.noPre, Counters.mk.injEq] at a2 a3 ⊢
      exact ⟨a2.1, a3, a2.2.2⟩
    generalize bankStats std ((c.process std t).ranks i) t b = x at h1 h2
    generalize bankStats std' ((c'.process std' t).ranks i) t b = y at h1 h2
    cases x
    cases y
    cases h1
    cases h2
    rfl
  have hrank : ∀ i < ms.numberOfRanks, rankStats std ((c.process std t).ranks i) t = rankStats std' ((c'.process std' t).ranks i) t := by
    intro i hi
    have a1 := C02_partial std ms cmds hv ht c hr t hT i hi
    have b1 := C02_partial std' ms cmds hv' ht' c' hr' t hT i hi
    rw [stats_rank hi, Option.some.injEq] at a1 b1
    rw [a1, b1, forRank_alike (std' := std') hn]
    congr 1
    funext k
    exact rankTime_alike hrcd _ _ _
  show (c.process std t).statsAt std ms t = (c'.process std' t).statsAt std' ms t
  unfold Core.statsAt
  congr 1
  · refine List.flatMap_congr fun i hi => ?_
    exact List.map_congr_left fun b hb => hbank i (List.mem_range.1 hi) b (List.mem_range.1 hb)
  · exact List.map_congr_left fun i hi => hrank i (List.mem_range.1 hi)

theorem legal_alike (h : tRCDof std ms = tRCDof std' ms) (l : List Cmd) : ∀ (s : State) (now : Nat),
    (∀ c ∈ l, supports std' c.type = true ∧ c.type ≠ .PDXA) → LegalFrom std ms s now l → LegalFrom std' ms s now l := by
  induction l with
  | nil => intro s now _ _; trivial
  | cons c l ih =>
    intro s now hs hl
    obtain ⟨h1, ⟨h2, h3, h4⟩, h5⟩ := hl
    have hc := hs c List.mem_cons_self
    have hp : pdTime std ms = pdTime std' ms := by
      funext s t
      unfold pdTime
      rw [h]
    refine ⟨h1, ⟨hc.1, h3, ?_⟩, ?_⟩
    · cases hty : c.type <;> simp only [hty] at h4 ⊢
      case PDXA => exact absurd hty hc.2
      case PDEP => rw [← hp]; exact h4
      all_goals exact h4
    · rw [← apply_alike h]
      exact ih _ _ (fun x hx => hs x (List.mem_cons_of_mem _ hx)) h5

/-- Every legal trace of common commands without active power-down. -/
theorem C84_noActivePowerDown (std std' : Std) (ms : MemSpec) (cmds : List Cmd) (hv : ValidSpec std ms) (hv' : ValidSpec std' ms)
    (hrcd : tRCDof std ms = tRCDof std' ms) (hl : LegalTrace std ms cmds)
    (hs : ∀ c ∈ cmds, c.type = .END_OF_SIMULATION ∨ supports std' c.type = true) (hn : ∀ c ∈ cmds, c.type ≠ .PDEA ∧ c.type ≠ .PDXA) :
    LegalTrace std' ms cmds ∧ ∃ c c', (Core.init ms).run std ms cmds = .ok c ∧ (Core.init ms).run std' ms cmds = .ok c' ∧
      ∀ t, NotBefore cmds t → (c.getWindowStats std ms t).2 = (c'.getWindowStats std' ms t).2 := by
  have hnop : ∀ c ∈ cmds, c.type ≠ .NOP := fun c hc h => by
    rcases hs c hc with h' | h'
    · rw [h] at h'; cases h'
    · rw [h] at h'; cases h'
  have hl' : LegalTrace std' ms cmds := by
    refine ⟨hl.ordered, fun c hc => ?_, fun i hi => ?_⟩
    · rcases hl.ranks c hc with h | h
      · left
        have := hnop c hc
        unfold unaddressed at h ⊢
        simpa [this] using h
      · exact .inr h
    · rw [← forRank_alike (std := std) hnop]
      refine legal_alike hrcd _ _ _ (fun c hc => ?_) (hl.legal i hi)
      obtain ⟨h1, h2⟩ := List.mem_filter.1 hc
      refine ⟨?_, (hn c h1).2⟩
      rcases hs c h1 with h | h
      · rw [h] at h2
        simp [unaddressed] at h2
      · exact h
  exact ⟨hl', C84_partial std std' ms cmds hv hv' hrcd hnop (legal_tame_noPda hl fun c hc => (hn c hc).1) (legal_tame_noPda hl' fun c hc => (hn c hc).1)⟩

/-- The specification of the other examples with the same time before reads and writes. -/
def c84Ms : MemSpec := { Ex.ms with tRCDW := 3 }

/-- The statistics of a trace at `t`. -/
def c84Stats (std : Std) (cmds : List Cmd) (t : Nat) : Option CoreStats :=
  match (Core.init c84Ms).run std c84Ms cmds with
  | .ok c => some (c.getWindowStats std c84Ms t).2
  | .error _ => none

theorem c84Stats_ok {std : Std} {cmds : List Cmd} {c : Core} (t : Nat) (h : (Core.init c84Ms).run std c84Ms cmds = .ok c) :
    c84Stats std cmds t = some (c.getWindowStats std c84Ms t).2 := by
  unfold c84Stats
  rw [h]

/-- DDR4 and any other: an active power-down during a refresh. -/
theorem C84_violation (std : Std) (hs : std ≠ .ddr4) : ¬ C84_statement .ddr4 std := by
  intro h
  have hne : c84Stats .ddr4 Ex.refreshThenPd 60 ≠ c84Stats std Ex.refreshThenPd 60 := by
    cases std
    · exact absurd rfl hs
    all_goals decide +kernel
  obtain ⟨c, c', h1, h2, h3⟩ := h c84Ms Ex.refreshThenPd (by decide +kernel) (by cases std <;> decide +kernel) (by cases std <;> rfl) (by decide)
    (by decide +kernel) (by cases std <;> decide +kernel)
  exact hne (by rw [c84Stats_ok 60 h1, c84Stats_ok 60 h2, h3 60 (by decide)])

/-! ## The hypotheses can be met -/

example (std std' : Std) : ValidSpec std c84Ms ∧ ValidSpec std' c84Ms ∧ tRCDof std c84Ms = tRCDof std' c84Ms ∧ LegalTrace std c84Ms Ex.traffic ∧
    (∀ c ∈ Ex.traffic, c.type = .END_OF_SIMULATION ∨ supports std' c.type = true) ∧ (∀ c ∈ Ex.traffic, c.type ≠ .PDEA ∧ c.type ≠ .PDXA) ∧
    NotBefore Ex.traffic 50 := by
  refine ⟨?_, ?_, ?_, ?_, ?_, by decide, by decide⟩
  · cases std <;> decide +kernel
  · cases std' <;> decide +kernel
  · cases std <;> cases std' <;> rfl
  · cases std <;> decide +kernel
  · cases std' <;> decide

/-- With active power-down. -/
example (std : Std) : TameTrace std c84Ms Ex.activePd ∧ (∀ c ∈ Ex.activePd, c.type ≠ .NOP) := by
  refine ⟨?_, by decide⟩
  cases std <;> decide +kernel

/-- Bank 0 of rank 0 at 50. -/
example (std : Std) : ((c84Stats std Ex.traffic 50).bind fun x => x.bank[0]?.map (·.cycles)) = ((c84Stats .ddr4 Ex.traffic 50).bind fun x => x.bank[0]?.map (·.cycles)) ∧
    (c84Stats std Ex.traffic 50).isSome = true := by
  cases std <;> exact ⟨by decide +kernel, by decide +kernel⟩

end DRAMPower
