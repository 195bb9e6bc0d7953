import Verif.Lemmas.Pin

/-!
# C20: pin statistics equal the statistics of the pin waveform

`Spec.PinLine.after idle bursts` is the waveform; its levels are those handed to `set`, one per beat.
-/

namespace DRAMPower
open Spec

/-- Every history of non-overlapping bursts of driven levels, given in beats (data rate argument 1, as all
interfaces call `set`), is accepted, and every later query, with any data rate, returns the sums over the beats before it.
Missing from the property: calls of `set` with another data rate (`C20_violation`). -/
theorem C20_partial (N : Nat) (initial idle : PinState) (bursts : List (Nat × List PinState)) (h : PinBursts N 0 bursts) :
    ∃ p, (Pin.init N initial idle).run bursts = .ok p ∧
      ∀ t dataRate, (∀ b ∈ bursts, b.1 ≤ t * dataRate) →
        p.getStats t dataRate = .ok ((PinLine.after idle bursts).stats initial (t * dataRate)) := by
  cases bursts with
  | nil =>
    refine ⟨_, rfl, fun t dr _ => ?_⟩
    show (Pin.init N initial idle).getStats t dr = .ok (PinLine.stats (fun _ => idle) initial (t * dr))
    unfold Pin.getStats Pin.init
    generalize t * dr = vt
    cases vt with
    | zero => rfl
    | succ n =>
      simp only [Nat.not_lt_zero, if_false, Nat.add_one_ne_zero, Nat.zero_lt_succ, true_and, and_self, if_true, Pin.addPending,
        Bool.false_eq_true, false_and, Pin.count, BitsetContainer.endTime, Nat.le_zero_eq, Nat.add_zero, Nat.lt_irrefl, pure, Except.pure,
        Nat.sub_zero]
      rw [idle_stats, BusStats.zero_add]
  | cons b bursts =>
    obtain ⟨t, bits⟩ := b
    obtain ⟨a1, a2, a3, a4, a5⟩ := h
    obtain ⟨p1, e1, h1, l1, c1, i1⟩ := init_burst (N := N) initial idle (t := t) a2 a4 a3
    obtain ⟨p2, e2, h2, l2⟩ := PinOk.run bursts h1 (by rw [l1, c1]; exact a5)
    refine ⟨p2, ?_, fun u dr hu => ?_⟩
    · unfold Pin.run at e2 ⊢
      rw [List.foldlM_cons, e1]
      exact e2
    · exact h2.getStats (l2 _ (by rw [l1]; exact hu (t, bits) (by simp)) fun b hb => hu b (by simp [hb]))

/-- Two bursts, the second one seamless, and a third one after a gap. -/
def c20Bursts : List (Nat × List PinState) := [(3, [.L, .H, .L, .L]), (7, [.H, .H]), (20, [.L])]

example : PinBursts 8 0 c20Bursts := by simp [PinBursts, c20Bursts]

example : ((Pin.init 8 .L .H).run c20Bursts >>= fun p => p.getStats 15 2)
    = .ok { ones := 26, zeroes := 4, bitChanges := 7, onesToZeroes := 3, zeroesToOnes := 4 } := by decide +kernel

/-- The property for histories given in clocks with the data rate as argument of `set`. -/
def C20_statement : Prop :=
  ∀ (N dataRate : Nat) (initial idle : PinState) (bursts : List (Nat × List PinState)), 0 < dataRate →
    PinBursts N 0 (bursts.map fun b => (b.1 * dataRate, b.2)) → ∀ p, (Pin.init N initial idle).run bursts dataRate = .ok p →
    ∀ t, (∀ b ∈ bursts, b.1 ≤ t) →
      p.getStats t dataRate = .ok ((PinLine.after idle (bursts.map fun b => (b.1 * dataRate, b.2))).stats initial (t * dataRate))

/-- One burst of one beat at clock 3 with data rate 2: `set` multiplies the time by the data rate twice, and 12
instead of 6 idle beats are counted before the burst. -/
theorem C20_violation : ¬ C20_statement := by
  intro h
  have hv : ((Pin.init 8 .H .H).run [(3, [.L])] 2 >>= fun p => p.getStats 4 2)
      ≠ .ok ((PinLine.after .H ([(3, [.L])].map fun b => (b.1 * 2, b.2))).stats .H (4 * 2)) := by decide +kernel
  apply hv
  have hr : ∃ p, (Pin.init 8 .H .H).run [(3, [.L])] 2 = .ok p := ⟨_, rfl⟩
  obtain ⟨p, e⟩ := hr
  have := h 8 2 .H .H [(3, [.L])] (by decide) (by simp [PinBursts]) p e 4 (by simp)
  rw [e]
  exact this

end DRAMPower
