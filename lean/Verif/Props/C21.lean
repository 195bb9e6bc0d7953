import Verif.Model.Clock
import Verif.Lemmas.BusStats

/-!
# C21: clock statistics

Reference: a running period consists of half-cycles, low and high in turn, each followed by an edge.
-/

namespace DRAMPower

namespace Spec

/-- Figures of `n` consecutive half-cycles, the first one low: half-cycle `i` is high iff `i` is odd; a low one
ends with a rising edge, a high one with a falling edge. -/
def halfCycles : Nat → BusStats
  | 0 => {}
  | i + 1 => halfCycles i + if i % 2 = 0 then { zeroes := 1, zeroesToOnes := 1, bitChanges := 1 }
      else { ones := 1, onesToZeroes := 1, bitChanges := 1 }

/-- Figures of a start/stop history up to time `t`; `running` is the start of the period in progress. -/
def clock (dataRate : Nat) (running : Option Nat) (ops : List ClockOp) (t : Nat) : BusStats :=
  match running, ops with
  | none, [] => {}
  | some s, [] => halfCycles ((t - s) * dataRate)
  | some s, .stop e :: ops => halfCycles ((e - s) * dataRate) + clock dataRate none ops t
  | some _, .start s :: ops => clock dataRate (some s) ops t
  | none, .start s :: ops => clock dataRate (some s) ops t
  | none, .stop _ :: ops => clock dataRate none ops t

end Spec
open Spec

/-- All times named in a history are at most `t`. -/
def ClockOp.le (t : Nat) : ClockOp → Prop
  | .start s => s ≤ t
  | .stop s => s ≤ t

theorem halfCycles_even (m : Nat) :
    halfCycles (2 * m) = { ones := m, zeroes := m, zeroesToOnes := m, onesToZeroes := m, bitChanges := m + m } := by
  induction m with
  | zero => rfl
  | succ m ih =>
    rw [show 2 * (m + 1) = 2 * m + 1 + 1 by omega, halfCycles, halfCycles, ih, if_pos (by omega), if_neg (by omega)]
    apply BusStats.ext' <;> simp <;> omega

theorem halfCycles_odd (m : Nat) :
    halfCycles (2 * m + 1) = { ones := m, zeroes := m + 1, zeroesToOnes := m + 1, onesToZeroes := m, bitChanges := m + m + 1 } := by
  rw [halfCycles, halfCycles_even, if_pos (by omega)]
  apply BusStats.ext' <;> simp

theorem count_even (c : Clock) (he : c.dataRate % 2 = 0) (d : Nat) : c.count d = halfCycles (d * c.dataRate) := by
  obtain ⟨m, e⟩ : ∃ m, d * c.dataRate = 2 * m := ⟨d * c.dataRate / 2, by
    have : d * c.dataRate % 2 = 0 := by rw [Nat.mul_mod, he]; simp
    omega⟩
  rw [e, halfCycles_even]
  unfold Clock.count
  rw [e]
  apply BusStats.ext' <;> simp

/-- For an even data rate (all clocks have two half-cycles per clock, strobes an even number), every accepted
start/stop history and every query after it: the figures are those of the half-cycles of the running periods. Missing
from the property: odd data rates (`C21_violation`). -/
theorem C21_partial (c c' : Clock) (he : c.dataRate % 2 = 0) (ops : List ClockOp) (h : c.run ops = .ok c') (t : Nat)
    (hs : ∀ s, c.lastStart = some s → s ≤ t) (ht : ∀ op ∈ ops, op.le t) :
    c'.getStats t = c.stats + clock c.dataRate c.lastStart ops t := by
  induction ops generalizing c with
  | nil =>
    obtain rfl := Except.ok.inj h
    unfold Clock.getStats
    cases hl : c.lastStart with
    | none => simp [clock]
    | some s =>
      simp only [clock]
      rw [usub, if_pos (hs s hl), count_even c he]
  | cons op ops ih =>
    cases op with
    | start u =>
      unfold Clock.run Clock.start at h
      cases hl : c.lastStart with
      | some s => rw [hl] at h; cases h
      | none =>
        rw [hl] at h
        have := ih { c with lastStart := some u } he h (by intro s hs; cases hs; exact ht (.start u) (by simp)) fun o ho => ht o (by simp [ho])
        rw [this]
        rfl
    | stop u =>
      unfold Clock.run Clock.stop at h
      cases hl : c.lastStart with
      | none => rw [hl] at h; cases h
      | some s =>
        rw [hl] at h
        simp only at h
        split at h
        rotate_left
        · cases h
        have := ih { c with stats := c.stats + c.count (u - s), lastStart := none } he h (by intro s hs; cases hs) fun o ho => ht o (by simp [ho])
        rw [this, count_even c he]
        simp only [clock, BusStats.add_assoc]

/-- Of the half-cycles of a running period half are ones and half zeroes, and each is followed by one transition. -/
theorem C21_period (n : Nat) (hn : n % 2 = 0) : (halfCycles n).ones = n / 2 ∧ (halfCycles n).zeroes = n / 2 ∧
    (halfCycles n).bitChanges = n ∧ (halfCycles n).zeroesToOnes = n / 2 ∧ (halfCycles n).onesToZeroes = n / 2 := by
  obtain ⟨m, rfl⟩ : ∃ m, n = 2 * m := ⟨n / 2, by omega⟩
  rw [halfCycles_even]
  refine ⟨?_, ?_, ?_, ?_, ?_⟩ <;> simp only <;> omega

/-- Splitting a running period at any point `m`, then continuing in any way, gives the same answers (even data rate). -/
theorem C21_split_partial (c : Clock) (s m : Nat) (he : c.dataRate % 2 = 0) (hs : c.lastStart = some s) (hm : s < m)
    (ops : List ClockOp) (c' : Clock) (h : c.run ops = .ok c') (hlater : ∀ e rest, ops = .stop e :: rest → m < e) (t : Nat)
    (ht : ∀ op ∈ ops, op.le t) (hmt : m ≤ t) :
    ∃ c'', c.run (.stop m :: .start m :: ops) = .ok c'' ∧ c''.getStats t = c'.getStats t := by
  have hc : ∀ d d', c.count (d + d') = c.count d + c.count d' := by
    intro d d'
    have q1 : d * c.dataRate % 2 = 0 := by rw [Nat.mul_mod, he]; simp
    have q2 : d' * c.dataRate % 2 = 0 := by rw [Nat.mul_mod, he]; simp
    unfold Clock.count
    rw [Nat.add_mul]
    apply BusStats.ext' <;> simp <;> omega
  have hsplit : c.run (.stop m :: .start m :: ops)
      = Clock.run { c with stats := c.stats + c.count (m - s), lastStart := some m } ops := by
    simp only [Clock.run, Clock.stop, hs, hm, if_true, bind, Except.bind, Clock.start]
  rw [hsplit]
  cases ops with
  | nil =>
    cases h
    refine ⟨_, rfl, ?_⟩
    unfold Clock.getStats
    rw [hs]
    simp only
    rw [usub, usub, if_pos hmt, if_pos (by omega), show t - s = (m - s) + (t - m) by omega, hc, BusStats.add_assoc]
    rfl
  | cons op ops =>
    cases op with
    | start u => simp [Clock.run, Clock.start, hs, bind, Except.bind] at h
    | stop u =>
      have hu := hlater u ops rfl
      simp only [Clock.run, Clock.stop, hs, bind, Except.bind, if_pos (show s < u by omega)] at h
      simp only [Clock.run, Clock.stop, bind, Except.bind, if_pos hu]
      have e : c.stats + c.count (m - s) + c.count (u - m) = c.stats + c.count (u - s) := by
        rw [BusStats.add_assoc, ← hc, show (m - s) + (u - m) = u - s by omega]
      refine ⟨c', ?_, rfl⟩
      show Clock.run { c with stats := c.stats + c.count (m - s) + c.count (u - m), lastStart := none } ops = _
      rw [e]
      exact h

/-- The property without the restriction to even data rates. -/
def C21_statement : Prop :=
  ∀ (dataRate : Nat) (ops : List ClockOp) (c' : Clock), (Clock.init dataRate).run ops = .ok c' → ∀ t, (∀ op ∈ ops, op.le t) →
    c'.getStats t = clock dataRate (some 0) ops t

/-- Data rate 1, stopped and started again at clock 1: the two half-cycles until clock 2 are lost. -/
theorem C21_violation : ¬ C21_statement := by
  intro h
  have := h 1 [.stop 1, .start 1] _ rfl 2 (by simp [ClockOp.le])
  exact absurd this (by decide +kernel)

/-- For every data rate: ones and falling edges are exact, zeroes and rising edges are short by at most one half-cycle per period. -/
theorem C21_any_rate (c : Clock) (d : Nat) :
    (c.count d).ones = (halfCycles (d * c.dataRate)).ones ∧
      (c.count d).onesToZeroes = (halfCycles (d * c.dataRate)).onesToZeroes ∧
      (c.count d).zeroes + d * c.dataRate % 2 = (halfCycles (d * c.dataRate)).zeroes ∧
      (c.count d).zeroesToOnes + d * c.dataRate % 2 = (halfCycles (d * c.dataRate)).zeroesToOnes := by
  generalize hn : d * c.dataRate = n
  unfold Clock.count
  rw [hn]
  rcases Nat.mod_two_eq_zero_or_one n with h | h
  · obtain ⟨m, rfl⟩ : ∃ m, n = 2 * m := ⟨n / 2, by omega⟩
    rw [halfCycles_even]; refine ⟨?_, ?_, ?_, ?_⟩ <;> simp only <;> omega
  · obtain ⟨m, rfl⟩ : ∃ m, n = 2 * m + 1 := ⟨n / 2, by omega⟩
    rw [halfCycles_odd]; refine ⟨?_, ?_, ?_, ?_⟩ <;> simp only <;> omega

/-- A gated strobe: two running periods of 4 and 3 clocks with data rate 2, and one in progress. -/
example : ∃ c', (Clock.init 2 true).run [.start 3, .stop 7, .start 10, .stop 13, .start 20] = .ok c' ∧
    c'.getStats 25 = { ones := 12, zeroes := 12, bitChanges := 24, onesToZeroes := 12, zeroesToOnes := 12 } := ⟨_, rfl, by decide⟩

/-- The same clock is a case of `C21_split_partial` (split at 5). -/
example : ∃ c', (Clock.init 2).run [.stop 7] = .ok c' ∧ c'.getStats 9 = { ones := 7, zeroes := 7, bitChanges := 14, onesToZeroes := 7, zeroesToOnes := 7 } :=
  ⟨_, rfl, by decide⟩

end DRAMPower
