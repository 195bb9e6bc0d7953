import Verif.Lemmas.Seamless

/-!
# C39: DDR4 pre- and postamble counters

`Spec.spans sp read rank ops` are the transfers of one direction on one rank, read off the list of calls.
-/

namespace DRAMPower
open Spec

/-- 1 if the first of the transfers starts at time 0. -/
def startsAtZero (l : List Span) : Nat := match l.head? with
  | some a => if a.start = 0 then 1 else 0
  | none => 0

theorem counted'_zero (l : List Span) : counted' 0 l = startsAtZero l + neighbours gapless l := by
  cases l with
  | nil => rfl
  | cons a l => rw [counted', counted'_eq]; rfl

theorem neighbours_le (p : Span → Span → Bool) : ∀ l, neighbours p l + 1 ≤ l.length ∨ l = []
  | [] => .inr rfl
  | [_] => .inl (by simp [neighbours])
  | a :: b :: l => by
    left
    rcases neighbours_le p (b :: l) with h | h
    · simp only [neighbours, List.length_cons] at h ⊢
      split <;> omega
    · exact absurd h (by simp)

theorem rankTotals_prepos {ranks : List RankIf} {l : List CycleStats} {k : Nat} {r : RankIf} (h : ranks[k]? = some r) :
    ∃ x, (Interface.rankTotals l ranks)[k]? = some x ∧ x.prepos = r.prepos := by
  refine ⟨{ l.getD k {} with prepos := r.prepos }, ?_, rfl⟩
  unfold Interface.rankTotals
  rw [List.getElem?_mapIdx, h]
  rfl

/-- For every accepted sequence of calls and every rank: the number of seamless reads (writes) reported is the number of
transfers that start exactly when the previous one of the same kind on the rank ended, plus one if the first one starts at
time 0; no transfer is ever counted as merged. Missing from the property: the first transfer
(`C39_violation_first`) and the merged counters (`C39_violation_merged`). -/
theorem C39_partial {N : Nat} {sp : IfSpec} {ops : List IfOp} {i i' : Interface .ddr4 N} (hi : Interface.init .ddr4 N sp = .ok i)
    (hr : i.run sp ops = .ok i') {t : Nat} {s s' : SimStats} (hs : i'.getWindowStats sp t s = .ok s') {rank : Nat}
    (hk : rank < sp.ranks) :
    ∃ x, s'.rankTotal[rank]? = some x ∧
      x.prepos.readSeamless = startsAtZero (spans sp true rank ops) + neighbours gapless (spans sp true rank ops) ∧
      x.prepos.writeSeamless = startsAtZero (spans sp false rank ops) + neighbours gapless (spans sp false rank ops) ∧
      x.prepos.readMerged = 0 ∧ x.prepos.writeMerged = 0 ∧ x.prepos.readMergedTime = 0 ∧ x.prepos.writeMergedTime = 0 := by
  obtain ⟨h1, h2, h3⟩ := init_ok hi
  rw [if_pos rfl] at h3
  have h0 : RanksAt sp i sp.ranks := ⟨by rw [h3]; simp, h1, h2, by
    rw [h3]; intro r hr; rw [List.eq_of_mem_replicate hr]; exact ⟨rfl, rfl, rfl, rfl⟩⟩
  obtain ⟨hE, hC⟩ := run_ranks ops h0 hr
  have hz : i.ranks[rank]? = some {} := by rw [h3]; simp [hk]
  obtain ⟨r1, g1, e1⟩ := hC rank {} true hz
  obtain ⟨r2, g2, e2⟩ := hC rank {} false hz
  rw [g1] at g2
  injection g2 with g2
  subst g2
  have hu := hE.unmerged r1 (List.mem_of_getElem? g1)
  obtain ⟨x, hx, hp⟩ := rankTotals_prepos (l := s.rankTotal) g1
  have hrt : s'.rankTotal = Interface.rankTotals s.rankTotal i'.ranks := by
    unfold Interface.getWindowStats at hs
    obtain ⟨_, _, hs⟩ := bind_ok hs
    obtain ⟨_, _, hs⟩ := bind_ok hs
    obtain ⟨_, _, hs⟩ := bind_ok hs
    obtain ⟨_, _, hs⟩ := bind_ok hs
    rw [← pure_ok hs]
    rfl
  refine ⟨x, by rw [hrt]; exact hx, ?_⟩
  rw [hp, ← counted'_zero, ← counted'_zero]
  have z1 : ({} : RankIf).seamless true = 0 := rfl
  have z2 : ({} : RankIf).seamless false = 0 := rfl
  have z3 : ({} : RankIf).lastEnd true = 0 := rfl
  have z4 : ({} : RankIf).lastEnd false = 0 := rfl
  rw [z1, z3, Nat.zero_add] at e1
  rw [z2, z4, Nat.zero_add] at e2
  exact ⟨e1, e2, hu.1, hu.2.1, hu.2.2.1, hu.2.2.2⟩

/-- Each transfer is counted at most once: there are never more seamless and merged ones than transfers. -/
theorem C39_once {N : Nat} {sp : IfSpec} {ops : List IfOp} {i i' : Interface .ddr4 N} (hi : Interface.init .ddr4 N sp = .ok i)
    (hr : i.run sp ops = .ok i') {t : Nat} {s s' : SimStats} (hs : i'.getWindowStats sp t s = .ok s') {rank : Nat}
    (hk : rank < sp.ranks) :
    ∃ x, s'.rankTotal[rank]? = some x ∧
      x.prepos.readSeamless + x.prepos.readMerged ≤ (spans sp true rank ops).length ∧
      x.prepos.writeSeamless + x.prepos.writeMerged ≤ (spans sp false rank ops).length := by
  obtain ⟨x, hx, h1, h2, h3, h4, _⟩ := C39_partial hi hr hs hk
  have key : ∀ l, startsAtZero l + neighbours gapless l ≤ l.length := by
    intro l
    rcases neighbours_le gapless l with h | h
    · have : startsAtZero l ≤ 1 := by
        unfold startsAtZero
        split
        · split <;> omega
        · omega
      omega
    · subst h; simp [startsAtZero, neighbours]
  refine ⟨x, hx, ?_, ?_⟩
  · rw [h1, h3]; exact key _
  · rw [h2, h4]; exact key _

/-- A rank of a device with eight wires and bursts of eight beats. -/
def c39Spec : IfSpec := { dataRate := 2, burstLength := 8, bitWidth := 8, devices := 1, ranks := 2 }

/-- A command with a burst of eight bytes. -/
def c39Cmd (t : Nat) (type : CmdType) (rank : Nat) : IfOp :=
  .cmd { t, type, co := { rank }, nBits := 64, data := some [1, 2, 3, 4, 5, 6, 7, 8] }

/-- Reads on rank 0 at 10 (ends at 14), 14 (seamless) and 19 (one cycle gap), a write in between, a read on rank 1. -/
def c39Ops : List IfOp :=
  [c39Cmd 10 .RD 0, c39Cmd 14 .RDA 0, c39Cmd 19 .RD 0, c39Cmd 23 .WR 0, c39Cmd 27 .RD 1, c39Cmd 40 .WRA 0, c39Cmd 44 .WR 0]

/-- Run, then the counters of all ranks: seamless reads and writes, merged reads and writes. -/
def c39Run (ops : List IfOp) (t : Nat) : Except Err (List (Nat × Nat × Nat × Nat)) := do
  let i ← Interface.init .ddr4 64 c39Spec
  let i ← i.run c39Spec ops
  let s ← i.getWindowStats c39Spec t {}
  pure (s.rankTotal.map fun x => (x.prepos.readSeamless, x.prepos.writeSeamless, x.prepos.readMerged, x.prepos.writeMerged))

example : c39Run c39Ops 60 = .ok [(1, 1, 0, 0), (0, 0, 0, 0)] := by decide +kernel

example : neighbours gapless (spans c39Spec true 0 c39Ops) = 1 ∧ neighbours (shortGap 2) (spans c39Spec true 0 c39Ops) = 1 := by
  decide

/-- The seamless half of the property. -/
def C39_statement_seamless : Prop :=
  ∀ (N : Nat) (sp : IfSpec) (ops : List IfOp) (i i' : Interface .ddr4 N), Interface.init .ddr4 N sp = .ok i →
    i.run sp ops = .ok i' → ∀ (t : Nat) (s s' : SimStats), i'.getWindowStats sp t s = .ok s' → ∀ rank, rank < sp.ranks →
    ∃ x, s'.rankTotal[rank]? = some x ∧
      x.prepos.readSeamless = neighbours gapless (spans sp true rank ops) ∧
      x.prepos.writeSeamless = neighbours gapless (spans sp false rank ops)

/-- The merged half of the property, `minGap` being the length of pre- and postamble in cycles. -/
def C39_statement_merged (minGap : Nat) : Prop :=
  ∀ (N : Nat) (sp : IfSpec) (ops : List IfOp) (i i' : Interface .ddr4 N), Interface.init .ddr4 N sp = .ok i →
    i.run sp ops = .ok i' → ∀ (t : Nat) (s s' : SimStats), i'.getWindowStats sp t s = .ok s' → ∀ rank, rank < sp.ranks →
    ∃ x, s'.rankTotal[rank]? = some x ∧
      x.prepos.readMerged = neighbours (shortGap minGap) (spans sp true rank ops) ∧
      x.prepos.writeMerged = neighbours (shortGap minGap) (spans sp false rank ops)

theorem c39Run_cases {ops : List IfOp} {t : Nat} {l : List (Nat × Nat × Nat × Nat)} (h : c39Run ops t = .ok l) :
    ∃ i i' s', Interface.init .ddr4 64 c39Spec = .ok i ∧ i.run c39Spec ops = .ok i' ∧ i'.getWindowStats c39Spec t {} = .ok s' ∧
      s'.rankTotal.map (fun x => (x.prepos.readSeamless, x.prepos.writeSeamless, x.prepos.readMerged, x.prepos.writeMerged)) = l := by
  unfold c39Run at h
  obtain ⟨i, h1, h⟩ := bind_ok h
  obtain ⟨i', h2, h⟩ := bind_ok h
  obtain ⟨s', h3, h⟩ := bind_ok h
  exact ⟨i, i', s', h1, h2, h3, pure_ok h⟩

/-- A single read at time 0 is counted as seamless although nothing precedes it. -/
theorem C39_violation_first : ¬ C39_statement_seamless := by
  intro h
  have e : c39Run [c39Cmd 0 .RD 0] 10 = .ok [(1, 0, 0, 0), (0, 0, 0, 0)] := by decide +kernel
  obtain ⟨i, i', s', h1, h2, h3, h4⟩ := c39Run_cases e
  obtain ⟨x, hx, hs, _⟩ := h 64 c39Spec _ i i' h1 h2 10 {} s' h3 0 (by decide)
  have : (s'.rankTotal.map (fun x => (x.prepos.readSeamless, x.prepos.writeSeamless, x.prepos.readMerged, x.prepos.writeMerged)))[0]? =
      some (1, 0, 0, 0) := by rw [h4]; rfl
  rw [List.getElem?_map, hx] at this
  simp only [Option.map_some, Option.some.injEq, Prod.mk.injEq] at this
  have hz : neighbours gapless (spans c39Spec true 0 [c39Cmd 0 .RD 0]) = 0 := by decide
  omega

/-- Whatever the length of pre- and postamble (at least two cycles): two reads with a gap of one cycle are not counted as
merged. -/
theorem C39_violation_merged (minGap : Nat) (hg : 2 ≤ minGap) : ¬ C39_statement_merged minGap := by
  intro h
  have e : c39Run [c39Cmd 10 .RD 0, c39Cmd 15 .RD 0] 30 = .ok [(0, 0, 0, 0), (0, 0, 0, 0)] := by decide +kernel
  obtain ⟨i, i', s', h1, h2, h3, h4⟩ := c39Run_cases e
  obtain ⟨x, hx, hs, _⟩ := h 64 c39Spec _ i i' h1 h2 30 {} s' h3 0 (by decide)
  have : (s'.rankTotal.map (fun x => (x.prepos.readSeamless, x.prepos.writeSeamless, x.prepos.readMerged, x.prepos.writeMerged)))[0]? =
      some (0, 0, 0, 0) := by rw [h4]; rfl
  rw [List.getElem?_map, hx] at this
  simp only [Option.map_some, Option.some.injEq, Prod.mk.injEq] at this
  have hz : spans c39Spec true 0 [c39Cmd 10 .RD 0, c39Cmd 15 .RD 0] = [⟨10, 14⟩, ⟨15, 19⟩] := by decide
  have h1 : neighbours (shortGap minGap) [⟨10, 14⟩, ⟨15, 19⟩] = 1 := by
    have : shortGap minGap ⟨10, 14⟩ ⟨15, 19⟩ = true := by simp [shortGap]; omega
    simp [neighbours, this]
  rw [hz] at hs
  omega

end DRAMPower
