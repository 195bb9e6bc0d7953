import Verif.Lemmas.Bus
import Verif.Lemmas.BusShort

/-!
# C17: bus statistics equal the statistics of the transmitted waveform

`Spec.Line.after … (ops.map BusOp.drive)` is the waveform of a history of calls, `Spec.Line.stats` sums its beats.
`NonOverlapping` describes the histories. The order in which the words of a burst appear is the subject of C18; here
it is the one of the code (`lastFirst`).
-/

namespace DRAMPower
open Spec

/-- Every history of non-overlapping, non-empty bursts on an enabled bus is accepted, and every later query returns
the sums over the beats before it. Missing from the property: bursts shorter than one word (`C17_short_violation`). -/
theorem C17_partial (N width datarate : Nat) (pat : IdlePattern) (hw : 0 < width) (hN : width ≤ N) (hd : 0 < datarate)
    (ops : List BusOp) (hops : NonOverlapping width datarate 0 ops) :
    ∃ start b, Bus.init N width datarate pat = .ok start ∧ start.run ops = .ok b ∧
      ∀ t, (∀ op ∈ ops, op.time ≤ t) →
        b.getStats t = .ok (Line.stats width (fun _ => pat == .H)
          (Line.after width datarate lastFirst (fun _ => pat == .H) true (ops.map BusOp.drive)) (t * datarate)) := by
  have hs : ∃ start, Bus.init N width datarate pat = .ok start := by
    unfold Bus.init; rw [if_neg (by omega)]; exact ⟨_, rfl⟩
  obtain ⟨start, hs⟩ := hs
  obtain ⟨hi, h1, h2, h3, h4, h5, h6⟩ := bus_init_inv hw hN hd hs
  have ha : BusActive start (fun _ => some (fun _ => pat == .H)) (fun _ => pat == .H) 0 := by
    rcases hi with ⟨X, ha, e⟩ | hn
    · rw [h5] at e
      have : X = 0 := by omega
      subst this; exact ha
    · rw [hn.enabled] at h4; cases h4
  obtain ⟨p1, p2, p3⟩ := hops.proper (lo := 0) (Nat.le_refl _)
  have hc : start.storage.count = 0 := by
    unfold Bus.init at hs; rw [if_neg (by omega)] at hs; cases hs; rfl
  obtain ⟨b, hb⟩ := bus_run_ok ops ha h5 (by rw [h1, h2, h3, hc]; exact hops)
  refine ⟨start, b, hs, hb, fun t ht => ?_⟩
  obtain ⟨k1, k2, k3, k4, k5, _⟩ := bus_run_inv ops hi hb (by rw [h1]; exact p1) (by rw [h2, h3]; exact p2)
  rw [h1, h2, h4, p3, Nat.zero_add] at k1
  have hl : b.lastLoad ≤ t * b.datarate := by
    rw [k3]; exact k5 t (by rw [h3]; exact Nat.zero_le _) ht
  have e : Line.after width datarate lastFirst (fun _ => pat == .H) true (ops.map BusOp.drive)
      = ops.foldl (fun l op => Line.drive width datarate lastFirst (fun _ => pat == .H) l op.drive)
        (fun _ => if true = true then some (fun _ => pat == .H) else none) := by
    unfold Line.after; rw [List.foldl_map]
  rw [e, ← h1.symm.trans (h1.trans rfl)]
  rw [← h2, ← h1] at *
  rcases k1 with ⟨X, ha', e'⟩ | hn
  · have hX : X = 0 := by omega
    have hF : b.fresh = 0 := by omega
    have := ha'.getStats_last hF hl
    rw [hX, BusStats.zero_mul, BusStats.add_zero, k2, k3] at this
    exact this
  · have := hn.getStats hl
    rw [BusStats.zero_mul, BusStats.add_zero, k2, k3] at this
    exact this

/-- Sums of any waveform: each beat with the bus on has `width` levels, each change has one of two directions. -/
theorem waveform_sums (width : Nat) (idle : Levels) (line : Line) (T : Nat) (hon : ∀ k < T, (line k).isSome = true) :
    (line.stats width idle T).ones + (line.stats width idle T).zeroes = width * T ∧
      (line.stats width idle T).bitChanges = (line.stats width idle T).onesToZeroes + (line.stats width idle T).zeroesToOnes := by
  have hb : ∀ a c : Levels, (beat width a c).ones + (beat width a c).zeroes = width ∧
      (beat width a c).bitChanges = (beat width a c).onesToZeroes + (beat width a c).zeroesToOnes := by
    intro a c
    simp only [beat, wires]
    induction width with
    | zero => simp
    | succ w ih =>
      simp only [List.range_succ, List.countP_append, List.countP_cons, List.countP_nil]
      cases a w <;> cases c w <;> simp <;> omega
  induction T with
  | zero => simp [Line.stats]
  | succ T ih =>
    obtain ⟨i1, i2⟩ := ih fun k hk => hon k (by omega)
    have := hon T (by omega)
    rw [Option.isSome_iff_exists] at this
    obtain ⟨now, e⟩ := this
    obtain ⟨b1, b2⟩ := hb (line.before idle T) now
    rw [Line.stats]
    simp only [Line.at, e, BusStats.add_ones, BusStats.add_zeroes, BusStats.add_bitChanges, BusStats.add_onesToZeroes,
      BusStats.add_zeroesToOnes, Nat.mul_succ]
    omega

theorem after_on {width datarate : Nat} {idle : Levels} : ∀ (ops : List BusOp) {free : Nat}, NonOverlapping width datarate free ops →
    ∀ (line : Line), (∀ k, (line k).isSome = true) →
    ∀ k, ((ops.foldl (fun l op => Line.drive width datarate lastFirst idle l op.drive) line) k).isSome = true
  | [], _, _, _, h => h
  | .load t data n :: ops, free, ⟨_, _, _, h4⟩, line, h => by
    rw [List.foldl_cons]
    refine after_on ops h4 _ fun k => ?_
    simp only [BusOp.drive, Line.drive]
    split
    · rfl
    · exact h k

/-- In particular the levels add up to `width` per beat and the changes to their two directions. -/
theorem C17_sums_partial (N width datarate : Nat) (pat : IdlePattern) (hw : 0 < width) (hN : width ≤ N) (hd : 0 < datarate)
    (ops : List BusOp) (hops : NonOverlapping width datarate 0 ops) (start b : Bus N)
    (hs : Bus.init N width datarate pat = .ok start) (hb : start.run ops = .ok b) (t : Nat) (ht : ∀ op ∈ ops, op.time ≤ t) :
    ∃ s, b.getStats t = .ok s ∧ s.ones + s.zeroes = width * (t * datarate) ∧ s.bitChanges = s.onesToZeroes + s.zeroesToOnes := by
  obtain ⟨start', b', hs', hb', h⟩ := C17_partial N width datarate pat hw hN hd ops hops
  rw [hs] at hs'
  cases hs'
  rw [hb] at hb'
  cases hb'
  refine ⟨_, h t ht, waveform_sums _ _ _ _ fun k _ => ?_⟩
  have := after_on (idle := fun _ => pat == .H) ops hops (fun _ => some fun _ => pat == .H) (fun _ => rfl) k
  simpa [Line.after, List.foldl_map] using this

/-- Two bursts on a bus of three wires, data rate 2, idle high. -/
def c17Ops : List BusOp := [.load 1 [0x2d] 6, .load 4 [0x39, 0x01] 9]

example : NonOverlapping 3 2 0 c17Ops := by simp [NonOverlapping, c17Ops]

/-- The theorem applies to it, and the figures are not trivial. -/
example : (do let b ← Bus.init 8 3 2 .H; let b ← b.run c17Ops; b.getStats 7) =
    .ok { ones := 36, zeroes := 6, bitChanges := 10, onesToZeroes := 5, zeroesToOnes := 5 } := by decide +kernel

/-- The property for all non-overlapping loads, however short. -/
def C17_statement : Prop :=
  ∀ (N width datarate : Nat) (pat : IdlePattern), 0 < width → width ≤ N → 0 < datarate → ∀ t data nBits start b t',
    nBits ≤ 8 * data.length → t ≤ t' →
    Bus.init N width datarate pat = .ok start → start.run [.load t data nBits] = .ok b →
    b.getStats t' = .ok (Line.stats width (fun _ => pat == .H)
      (Line.after width datarate lastFirst (fun _ => pat == .H) true [.send t data nBits]) (t' * datarate))

/-- A load of fewer bits than the bus is wide is accepted at clock 5; the query at clock 6 trips an assertion. -/
theorem C17_short_violation : ¬ C17_statement := by
  intro h
  have h1 : ∃ start b, Bus.init 8 8 1 .L = .ok start ∧ start.run [.load 5 [0xff] 4] = .ok b ∧
      b.getStats 6 = .error (.assertion "n >= last_load") := by
    refine ⟨_, _, rfl, rfl, ?_⟩
    decide +kernel
  obtain ⟨start, b, e1, e2, e3⟩ := h1
  have := h 8 8 1 .L (by decide) (by decide) (by decide) 5 [0xff] 4 start b 6 (by decide) (by decide) e1 e2
  rw [e3] at this
  cases this

/-- Short bursts included, the figures are never wrong: whatever history of bursts has been accepted, the answer to an accepted query
is the sum over the beats before it. -/
theorem C17_accepted {N width datarate : Nat} {pat : IdlePattern} (hw : 0 < width) (hN : width ≤ N) (hd : 0 < datarate)
    {start b : Bus N} (hs : Bus.init N width datarate pat = .ok start) {ops : List BusOp} (hr : start.run ops = .ok b)
    (hl : ∀ op ∈ ops, ∃ t data nBits, op = .load t data nBits) {t : Nat} {x : BusStats} (hq : b.getStats t = .ok x) :
    x = Line.stats width (fun _ => pat == .H)
      (Line.after width datarate lastFirst (fun _ => pat == .H) true (ops.map BusOp.drive)) (t * datarate) :=
  sent_stats hw hN hd hs hr (fun op ho => by obtain ⟨_, _, _, e⟩ := hl op ho; rw [e]; trivial) hq

/-- A whole word at clock 2 and half a word at clock 5; the query is at clock 5. -/
example : (do
    let b ← Bus.init 8 8 1 .L
    let b ← b.run [.load 2 [0xf1] 8, .load 5 [0xff] 4]
    b.getStats 5) = .ok { ones := 5, zeroes := 35, bitChanges := 10, onesToZeroes := 5, zeroesToOnes := 5 } := by
  decide +kernel

end DRAMPower
