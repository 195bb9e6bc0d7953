import Verif.Lemmas.Bus

/-!
# C19: a disabled bus contributes nothing and resumes cleanly

The waveform `Spec.Line` is `none` while the bus is off; such beats contribute nothing to `Spec.Line.stats`.
-/

namespace DRAMPower
open Spec

/-- Exact statistics of every accepted history of non-empty bursts, `disable` (after clock 0) and `enable`, queried
after its last call: the beats at which the bus was on, each counted once, **plus** as many idle beats as each `enable`
is late: enabling a disabled bus at beat `e` counts `e` idle beats too many. -/
theorem C19_exact (N width datarate : Nat) (pat : IdlePattern) (enabled : Bool) (hw : 0 < width) (hN : width ≤ N) (hd : 0 < datarate)
    (start b : Bus N) (ops : List BusOp) (hs : Bus.init N width datarate pat enabled = .ok start) (hrun : start.run ops = .ok b)
    (hp : ∀ op ∈ ops, op.Proper width) (htimes : BusTimed datarate 0 ops) (t : Nat) (h0 : 0 < t) (ht : ∀ op ∈ ops, op.time < t) :
    b.getStats t = .ok (Line.stats width (fun _ => pat == .H)
        (Line.after width datarate lastFirst (fun _ => pat == .H) enabled (ops.map BusOp.drive)) (t * datarate)
      + reEnabled datarate enabled ops * beat width (fun _ => pat == .H) (fun _ => pat == .H)) := by
  obtain ⟨hi, h1, h2, h3, h4, h5, h6⟩ := bus_init_inv hw hN hd hs
  obtain ⟨k1, k2, k3, k4, k5, k6⟩ := bus_run_inv ops hi hrun (by rw [h1]; exact hp) (by rw [h2, h3]; exact htimes)
  rw [h1, h2, h4, Nat.zero_add] at k1
  have hl : b.lastLoad < t * b.datarate := by
    rw [k3]; exact k6 t (by rw [h3, h2]; exact Nat.mul_pos h0 hd) ht
  have e : Line.after width datarate lastFirst (fun _ => pat == .H) enabled (ops.map BusOp.drive)
      = ops.foldl (fun l op => Line.drive width datarate lastFirst (fun _ => pat == .H) l op.drive)
        (fun _ => if enabled = true then some (fun _ => pat == .H) else none) := by
    unfold Line.after; rw [List.foldl_map]
  rw [e]
  rcases k1 with ⟨X, ha', e'⟩ | hn
  · have := ha'.getStats hl
    rw [k2, k3, k4, h1, h2, h6, ← e'] at this
    exact this
  · have := hn.getStats (Nat.le_of_lt hl)
    rw [k2, k3, k4, h1, h2, h6] at this
    exact this

/-- Without switching a disabled bus on again the property holds: no beat after the switching off is counted, every
beat before is counted once. Missing from the property: re-enabling (`C19_violation`), a `disable` at clock 0
(`C19_disable0_violation`), and queries at the very clock of the last call. -/
theorem C19_partial (N width datarate : Nat) (pat : IdlePattern) (enabled : Bool) (hw : 0 < width) (hN : width ≤ N) (hd : 0 < datarate)
    (start b : Bus N) (ops : List BusOp) (hs : Bus.init N width datarate pat enabled = .ok start) (hrun : start.run ops = .ok b)
    (hp : ∀ op ∈ ops, op.Proper width) (htimes : BusTimed datarate 0 ops) (hno : reEnabled datarate enabled ops = 0)
    (t : Nat) (h0 : 0 < t) (ht : ∀ op ∈ ops, op.time < t) :
    b.getStats t = .ok (Line.stats width (fun _ => pat == .H)
        (Line.after width datarate lastFirst (fun _ => pat == .H) enabled (ops.map BusOp.drive)) (t * datarate)) := by
  rw [C19_exact N width datarate pat enabled hw hN hd start b ops hs hrun hp htimes t h0 ht, hno, BusStats.zero_mul, BusStats.add_zero]

/-- The property, for histories of the three calls. -/
def C19_statement : Prop :=
  ∀ (N width datarate : Nat) (pat : IdlePattern), 0 < width → width ≤ N → 0 < datarate → ∀ (start b : Bus N) ops,
    Bus.init N width datarate pat = .ok start → start.run ops = .ok b → BusTimed datarate 0 ops →
    ∀ t, 0 < t → (∀ op ∈ ops, op.time < t) →
    b.getStats t = .ok (Line.stats width (fun _ => pat == .H)
        (Line.after width datarate lastFirst (fun _ => pat == .H) true (ops.map BusOp.drive)) (t * datarate))

/-- Runs a history on an idle-low bus of eight wires and compares. -/
def c19Differs (ops : List BusOp) (t : Nat) : Bool :=
  match Bus.init 8 8 1 .L with
  | .error _ => false
  | .ok s => match s.run ops with
    | .error _ => false
    | .ok b => decide (b.getStats t ≠ .ok (Line.stats 8 (fun _ => IdlePattern.L == .H)
        (Line.after 8 1 lastFirst (fun _ => IdlePattern.L == .H) true (ops.map BusOp.drive)) (t * 1)))

theorem c19Differs_spec {ops : List BusOp} {t : Nat} (h : c19Differs ops t = true) (ht : BusTimed 1 0 ops) (h0 : 0 < t)
    (hlt : ∀ op ∈ ops, op.time < t) : ¬ C19_statement := by
  intro hall
  unfold c19Differs at h
  split at h
  · cases h
  rename_i s hs
  split at h
  · cases h
  rename_i b hb
  exact of_decide_eq_true h (hall 8 8 1 .L (by decide) (by decide) (by decide) s b ops hs hb ht t h0 hlt)

/-- Off from clock 10 to clock 20, queried at clock 30: 40 idle beats are reported instead of 20. -/
theorem C19_violation : ¬ C19_statement :=
  c19Differs_spec (ops := [.disable 10, .enable 20]) (t := 30) (by decide +kernel) (by simp [BusTimed, BusOp.time]) (by decide)
    (by simp [BusOp.time])

/-- Off from clock 0 on: one idle beat is reported all the same. -/
theorem C19_disable0_violation : ¬ C19_statement :=
  c19Differs_spec (ops := [.disable 0]) (t := 5) (by decide +kernel) (by simp [BusTimed, BusOp.time]) (by decide)
    (by simp [BusOp.time])

/-- A burst in the very beat in which the bus is enabled trips an assertion. -/
theorem C19_load_at_enable :
    ((Bus.init 8 8 1 .L >>= fun b => b.run [.disable 10, .enable 20, .load 20 [0xff] 8]) : Except Err (Bus 8))
      = .error (.assertion "n >= last_load") := by decide +kernel

/-- Histories that satisfy the hypotheses: a burst cut off, loads while off, switched on again, another burst. -/
def c19Ops : List BusOp := [.load 3 [0x12, 0x34, 0x56] 24, .disable 5, .load 6 [0xff] 8, .enable 9, .load 12 [0xa5] 8, .disable 20]

example : (∀ op ∈ c19Ops, op.Proper 8) ∧ BusTimed 1 0 c19Ops ∧ (∀ op ∈ c19Ops, op.time < 25) ∧ reEnabled 1 true c19Ops = 9 ∧
    (do let b ← Bus.init 8 8 1 .L; let b ← b.run c19Ops; b.getStats 25 : Except Err BusStats)
      = .ok { ones := 11, zeroes := 189, bitChanges := 15, onesToZeroes := 6, zeroesToOnes := 9 } := by
  refine ⟨?_, ?_, ?_, rfl, by decide +kernel⟩ <;> simp [c19Ops, BusOp.Proper, BusTimed, BusOp.time]

def c19Ops' : List BusOp := [.load 3 [0x12, 0x34, 0x56] 24, .disable 5, .load 6 [0xff] 8]

example : (∀ op ∈ c19Ops', op.Proper 8) ∧ BusTimed 1 0 c19Ops' ∧ (∀ op ∈ c19Ops', op.time < 25) ∧ reEnabled 1 true c19Ops' = 0 ∧
    (do let b ← Bus.init 8 8 1 .L; let b ← b.run c19Ops'; b.getStats 25 : Except Err BusStats)
      = .ok { ones := 7, zeroes := 33, bitChanges := 7, onesToZeroes := 2, zeroesToOnes := 5 } := by
  refine ⟨?_, ?_, ?_, rfl, by decide +kernel⟩ <;> simp [c19Ops', BusOp.Proper, BusTimed, BusOp.time]

end DRAMPower
