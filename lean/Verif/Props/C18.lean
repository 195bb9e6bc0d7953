import Verif.Lemmas.Bus

/-!
# C18: data layout on the bus

What a burst puts on the wires is observed through `at` (util/bus.h 182-190), the public accessor for the levels of
a beat. `C17_partial` shows that the statistics are those of the same levels.
-/

namespace DRAMPower
open Spec

/-- A burst loaded into an enabled bus after any history of calls occupies exactly its whole words' beats. Every payload
bit of these words appears on its wire, the wires beyond the width stay low, and from then on the bus is idle. The last
word of the payload is transmitted first: beat `i` of `n` carries the payload bits `(n-1-i)*width + j`. The property
wants them in payload order (`C18_violation`). -/
theorem C18_partial (N width datarate : Nat) (pat : IdlePattern) (enabled : Bool) (hw : 0 < width) (hN : width ≤ N) (hd : 0 < datarate)
    (start b b' : Bus N) (before : List BusOp) (hs : Bus.init N width datarate pat enabled = .ok start)
    (hrun : start.run before = .ok b) (hp : ∀ op ∈ before, op.Proper width) (ht : BusTimed datarate 0 before)
    (hen : b.enabled = true) (t nBits : Nat) (data : List UInt8) (hne : width ≤ nBits) (hl : b.load t data nBits = .ok b') :
    (∀ i < nBits / width, ∃ w, b'.at? (t * datarate + i) = .ok w ∧
      (∀ j < width, w.getLsbD j = bitOf data ((nBits / width - 1 - i) * width + j)) ∧ ∀ j, width ≤ j → w.getLsbD j = false) ∧
    (∀ k, t * datarate + nBits / width ≤ k → ∃ w, b'.at? k = .ok w ∧
      (∀ j < width, w.getLsbD j = (pat == .H)) ∧ ∀ j, width ≤ j → w.getLsbD j = false) := by
  obtain ⟨hi, h1, h2, h3, h4, h5, h6⟩ := bus_init_inv hw hN hd hs
  obtain ⟨k1, k2, k3, -, -, -⟩ := bus_run_inv before hi hrun (by rw [h1]; exact hp) (by rw [h2, h3]; exact ht)
  generalize (List.foldl _ _ before : Line) = L at k1
  rcases k1 with ⟨X, ha, -⟩ | hn
  rotate_left
  · rw [hn.enabled] at hen; cases hen
  obtain ⟨a1, a2, a3, a4, a5, a6⟩ := bus_load_active ha (by rw [k2, h1]; exact hne) hl
  rw [k2, h1] at a3
  rw [k3, h2] at a4 a6
  have hword := fun k => a1.word_narrow k
  rw [a3] at hword
  have hat : ∀ k, t * datarate ≤ k → b'.at? k = .ok (b'.word k) := by
    intro k hk; unfold Bus.at?; rw [if_neg (by omega)]
  have hfree : (L (t * b.datarate)).isSome = true := by
    have hle : b.lastLoad ≤ t * b.datarate := by
      unfold Bus.load at hl
      rw [if_neg (by simp [hen]), if_neg (by have := ha.dr; omega)] at hl
      simp only at hl
      split at hl
      · cases hl
      · omega
    obtain ⟨l, e, _⟩ := ha.lines _ hle
    rw [e]; rfl
  refine ⟨fun i hi => ⟨_, hat _ (Nat.le_add_right _ _), ?_, hword _⟩, fun k hk => ⟨_, hat k (Nat.le_trans (Nat.le_add_right _ _) hk), ?_, hword _⟩⟩
  · obtain ⟨l, e, hA⟩ := a1.lines (t * datarate + i) (by omega)
    rw [k2, k3, h1, h2] at e
    rw [k3, h2] at hfree
    simp only [Line.drive, hfree] at e
    rw [if_pos (by simpa using hi)] at e
    cases e
    intro j hj
    rw [← hA j (by rw [a3]; exact hj)]
    simp [lastFirst, payloadWord, Nat.add_sub_cancel_left]
  · intro j hj
    have hc : b'.storage.count ≤ k - b'.lastLoad := by
      have := (load_active_count ha (by rw [k2, h1]; exact hne) hl)
      rw [k2, h1] at this
      rw [this, a6]
      exact Nat.le_sub_of_add_le (by rw [Nat.add_comm]; exact hk)
    rw [word_ge hc, ← a1.idleAgrees j (by rw [a3]; exact hj)]

/-- A load given as an integer is the load of its binary digits: word `i`, wire `j` is bit `i*width + j`. -/
theorem C18_integer {N : Nat} (b : Bus N) (t x burstLength : Nat) (hfit : burstLength * b.width ≤ 64) :
    ∃ data, b.loadWord t x burstLength = b.load t data (burstLength * b.width) ∧ burstLength * b.width ≤ 8 * data.length ∧
      ∀ i < burstLength * b.width, bitOf data i = (x / 2 ^ i % 2 == 1) := by
  refine ⟨Bus.leBytes x ((burstLength * b.width + 7) / 8), ?_, ?_, ?_⟩
  · unfold Bus.loadWord
    simp only
    rw [if_neg (by omega)]
  · rw [leBytes_length]; omega
  · intro i hi
    exact bitOf_leBytes _ _ _ (by omega)

/-- The property: the words of the payload appear in payload order. -/
def C18_statement : Prop :=
  ∀ (N width datarate : Nat) (pat : IdlePattern), 0 < width → width ≤ N → 0 < datarate → ∀ start b' : Bus N,
    Bus.init N width datarate pat = .ok start → ∀ t nBits data, width ≤ nBits → start.load t data nBits = .ok b' →
    ∀ i < nBits / width, ∃ w, b'.at? (t * datarate + i) = .ok w ∧ ∀ j < width, w.getLsbD j = bitOf data (i * width + j)

/-- The burst 01, 11 on two wires starts with 11. -/
def c18Burst : Except Err (BitVec 8) := do
  let b ← Bus.init 8 2 1 .L
  let b ← b.load 3 [0x0d] 4
  b.at? 3

theorem C18_violation : ¬ C18_statement := by
  intro h
  have hv : c18Burst = .ok 3 := by decide +kernel
  simp only [c18Burst, bind, Except.bind] at hv
  split at hv
  · cases hv
  rename_i start hs
  split at hv
  · cases hv
  rename_i b' hb
  obtain ⟨w, e, g⟩ := h 8 2 1 .L (by decide) (by decide) (by decide) start b' hs 3 4 [0x0d] (by decide) hb 0 (by decide)
  rw [show 3 * 1 + 0 = 3 from rfl, hv] at e
  cases e
  exact absurd (g 1 (by decide)) (by decide +kernel)

/-- The order is visible in the statistics as well: two seamless bursts, compared with the payload-order waveform. -/
def C18_stats_statement : Prop :=
  ∀ (N width datarate : Nat) (pat : IdlePattern), 0 < width → width ≤ N → 0 < datarate → ∀ ops, NonOverlapping width datarate 0 ops →
    ∀ start b : Bus N, Bus.init N width datarate pat = .ok start → start.run ops = .ok b → ∀ t, (∀ op ∈ ops, op.time ≤ t) →
    b.getStats t = .ok (Line.stats width (fun _ => pat == .H)
      (Line.after width datarate firstFirst (fun _ => pat == .H) true (ops.map BusOp.drive)) (t * datarate))

def c18Ops : List BusOp := [.load 0 [0x0c] 4, .load 2 [0x0c] 4, .load 4 [0x0f] 4]

def c18Stats : Except Err BusStats := do
  let b ← Bus.init 8 2 1 .L
  let b ← b.run c18Ops
  b.getStats 6

theorem C18_stats_violation : ¬ C18_stats_statement := by
  intro h
  have hv : c18Stats ≠ .ok (Line.stats 2 (fun _ => IdlePattern.L == .H)
      (Line.after 2 1 firstFirst (fun _ => IdlePattern.L == .H) true (c18Ops.map BusOp.drive)) (6 * 1)) := by decide +kernel
  apply hv
  have hn : NonOverlapping 2 1 0 c18Ops := by simp [NonOverlapping, c18Ops]
  have hr : ∃ s b : Bus 8, Bus.init 8 2 1 .L = .ok s ∧ s.run c18Ops = .ok b := ⟨_, _, rfl, rfl⟩
  obtain ⟨s, b, e1, e2⟩ := hr
  have := h 8 2 1 .L (by decide) (by decide) (by decide) c18Ops hn s b e1 e2 6 (by simp [c18Ops, BusOp.time])
  simpa only [c18Stats, bind, Except.bind, e1, e2] using this

/-- A history that satisfies the hypotheses of `C18_partial`: two bursts, the bus switched off and on in between. -/
example : ∃ start b b' : Bus 8, Bus.init 8 3 2 .H = .ok start ∧
    start.run [.load 1 [0x2d] 6, .disable 4, .load 5 [0x01] 3, .enable 7] = .ok b ∧ b.enabled = true ∧
    b.load 9 [0x39, 0x01] 9 = .ok b' ∧ BusTimed 2 0 [.load 1 [0x2d] 6, .disable 4, .load 5 [0x01] 3, .enable 7] ∧
    (b'.at? 18, b'.at? 19, b'.at? 20, b'.at? 21) = (.ok 4, .ok 7, .ok 1, .ok 7) := by
  refine ⟨_, _, _, rfl, rfl, rfl, rfl, ?_, ?_⟩
  · simp [BusTimed, BusOp.time]
  · decide +kernel

end DRAMPower
