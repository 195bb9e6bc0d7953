import Mathlib.Tactic.Ring
import Verif.Lemmas.BusStats
import Verif.Lemmas.Project

/-!
# Wires left alone

From some time on the figures of a wire nobody drives grow by the same amount in every cycle.
-/

namespace DRAMPower

/-- From `t1` on, every answer is a fixed part and a fixed amount per cycle. -/
def Steady (f : Nat → Except Err BusStats) (t1 : Nat) : Prop :=
  ∃ b d : BusStats, ∀ n x, f (t1 + n) = .ok x → x = b + n * d

namespace Steady
variable {f g : Nat → Except Err BusStats} {t1 t2 : Nat}

theorem later (h : Steady f t1) (ht : t1 ≤ t2) : Steady f t2 := by
  obtain ⟨b, d, h⟩ := h
  refine ⟨b + (t2 - t1) * d, d, fun n x hx => ?_⟩
  have e : t2 + n = t1 + ((t2 - t1) + n) := by omega
  rw [e] at hx
  rw [h _ _ hx, BusStats.add_mul, BusStats.add_assoc]

theorem const {x0 : BusStats} (h : ∀ n x, f (t1 + n) = .ok x → x = x0) : Steady f t1 :=
  ⟨x0, {}, fun n x hx => by
    rw [h n x hx]
    exact BusStats.ext' (by simp) (by simp) (by simp) (by simp) (by simp)⟩

theorem add (hf : Steady f t1) (hg : Steady g t1) {F : Nat → Except Err BusStats}
    (h : ∀ t x, F t = .ok x → ∃ a b, f t = .ok a ∧ g t = .ok b ∧ x = a + b) : Steady F t1 := by
  obtain ⟨b, d, hf⟩ := hf
  obtain ⟨b', d', hg⟩ := hg
  refine ⟨b + b', d + d', fun n x hx => ?_⟩
  obtain ⟨u, v, hu, hv, e⟩ := h _ _ hx
  rw [e, hf _ _ hu, hg _ _ hv]
  apply BusStats.ext' <;> simp only [BusStats.add_ones, BusStats.add_zeroes, BusStats.add_bitChanges, BusStats.add_onesToZeroes,
    BusStats.add_zeroesToOnes, BusStats.mul_ones, BusStats.mul_zeroes, BusStats.mul_bitChanges, BusStats.mul_onesToZeroes,
    BusStats.mul_zeroesToOnes, Nat.add_mul] <;> omega

theorem mul (k : Nat) (hf : Steady f t1) {F : Nat → Except Err BusStats} (h : ∀ t x, F t = .ok x → ∃ a, f t = .ok a ∧ x = k * a) :
    Steady F t1 := by
  obtain ⟨b, d, hf⟩ := hf
  refine ⟨k * b, k * d, fun n x hx => ?_⟩
  obtain ⟨u, hu, e⟩ := h _ _ hx
  rw [e, hf _ _ hu]
  apply BusStats.ext' <;> simp only [BusStats.add_ones, BusStats.add_zeroes, BusStats.add_bitChanges, BusStats.add_onesToZeroes,
    BusStats.add_zeroesToOnes, BusStats.mul_ones, BusStats.mul_zeroes, BusStats.mul_bitChanges, BusStats.mul_onesToZeroes,
    BusStats.mul_zeroesToOnes, Nat.add_mul, Nat.mul_right_comm]

end Steady

/-- From `t1` on, every answer after a number of periods of `k` cycles is a fixed part and a fixed amount per period. -/
def SteadyBy (k : Nat) (f : Nat → Except Err BusStats) (t1 : Nat) : Prop :=
  ∀ t, t1 ≤ t → ∃ b d : BusStats, ∀ n x, f (t + k * n) = .ok x → x = b + n * d

theorem Steady.by {f : Nat → Except Err BusStats} (k : Nat) : (∃ t1, Steady f t1) → ∃ t1, SteadyBy k f t1 := by
  rintro ⟨t1, h⟩
  refine ⟨t1, fun t ht => ?_⟩
  obtain ⟨b, d, h⟩ := h.later ht
  refine ⟨b, k * d, fun n x hx => ?_⟩
  rw [h _ _ hx]
  congr 1
  apply BusStats.ext' <;> simp only [BusStats.mul_ones, BusStats.mul_zeroes, BusStats.mul_bitChanges, BusStats.mul_onesToZeroes,
    BusStats.mul_zeroesToOnes, Nat.mul_assoc]

/-- A bus after its last burst repeats the idle word. -/
theorem Bus.steady {N : Nat} (b : Bus N) : ∃ t1, Steady b.getStats t1 := by
  by_cases hr : b.datarate = 0
  · refine ⟨0, .const (x0 := b.stats) fun n x hx => ?_⟩
    unfold Bus.getStats at hx
    simp only [hr, Nat.mul_zero, if_true] at hx
    split at hx
    · cases hx
    · exact (Except.ok.inj hx).symm
  · refine ⟨b.lastLoad + b.storage.endTime + b.pending.timestamp + 1, ?_⟩
    generalize ht1 : b.lastLoad + b.storage.endTime + b.pending.timestamp + 1 = t1
    have hpos : 1 ≤ b.datarate := Nat.pos_of_ne_zero hr
    have hvt : ∀ n, t1 + n ≤ (t1 + n) * b.datarate := fun n => Nat.le_mul_of_pos_right _ hpos
    have h0 : t1 ≤ t1 * b.datarate := hvt 0
    generalize hs : (if b.pending.pending = true then b.stats + b.pending.stats else b.stats) = s
    by_cases hen : b.enabled = true
    · generalize hs1 : b.burstLoop b.storage.endTime s = s1
      by_cases he : 0 < b.storage.endTime
      · cases ha : b.at? (b.storage.endTime - 1) with
        | error e =>
          refine .const (x0 := {}) fun n x hx => ?_
          have := hvt n
          unfold Bus.getStats Bus.advance at hx
          simp only [] at hx
          rw [if_neg (by omega), if_neg (by omega), if_pos hen, if_pos (by omega), ha] at hx
          cases hx
        | ok high =>
          cases hb : b.at? b.storage.endTime with
          | error e =>
            refine .const (x0 := {}) fun n x hx => ?_
            have := hvt n
            unfold Bus.getStats Bus.advance at hx
            simp only [] at hx
            rw [if_neg (by omega), if_neg (by omega), if_pos hen, if_pos (by omega), ha, hb] at hx
            cases hx
          | ok low =>
            refine ⟨s1 + Bus.diff b.width high low + (t1 * b.datarate - b.storage.endTime - 1) * b.idleStats, b.datarate * b.idleStats,
              fun n x hx => ?_⟩
            have := hvt n
            unfold Bus.getStats Bus.advance at hx
            simp only [] at hx
            rw [if_neg (by omega), if_neg (by omega), if_pos hen, if_pos (by omega), ha, hb, Nat.min_eq_left (by omega)] at hx
            have e : (if b.pending.pending = true ∧ b.pending.timestamp < (t1 + n) * b.datarate then b.stats + b.pending.stats else b.stats) = s := by
              rw [← hs]
              by_cases hp : b.pending.pending = true
              · rw [if_pos ⟨hp, by omega⟩, if_pos hp]
              · rw [if_neg (fun h => hp h.1), if_neg hp]
            rw [e, hs1] at hx
            have hx := (Except.ok.inj (show (Except.ok _ : Except Err BusStats) = _ from (by simpa [bind, Except.bind, pure, Except.pure, show b.storage.endTime < (t1 + n) * b.datarate by omega] using hx))).symm
            rw [hx]
            have em : (t1 + n) * b.datarate - b.storage.endTime - 1 = (t1 * b.datarate - b.storage.endTime - 1) + n * b.datarate := by
              rw [Nat.add_mul]; omega
            rw [em, BusStats.add_mul, ← BusStats.add_assoc]
            congr 1
            apply BusStats.ext' <;> simp only [BusStats.mul_ones, BusStats.mul_zeroes, BusStats.mul_bitChanges, BusStats.mul_onesToZeroes,
              BusStats.mul_zeroesToOnes, Nat.mul_assoc, Nat.mul_comm b.datarate]
      · refine ⟨s1 + (t1 * b.datarate - b.storage.endTime - 1) * b.idleStats, b.datarate * b.idleStats, fun n x hx => ?_⟩
        have := hvt n
        unfold Bus.getStats Bus.advance at hx
        simp only [] at hx
        rw [if_neg (by omega), if_neg (by omega), if_pos hen, if_neg (by omega), Nat.min_eq_left (by omega)] at hx
        have e : (if b.pending.pending = true ∧ b.pending.timestamp < (t1 + n) * b.datarate then b.stats + b.pending.stats else b.stats) = s := by
          rw [← hs]
          by_cases hp : b.pending.pending = true
          · rw [if_pos ⟨hp, by omega⟩, if_pos hp]
          · rw [if_neg (fun h => hp h.1), if_neg hp]
        rw [e, hs1] at hx
        have hx := (Except.ok.inj (show (Except.ok _ : Except Err BusStats) = _ from (by simpa [bind, Except.bind, pure, Except.pure, show b.storage.endTime < (t1 + n) * b.datarate by omega] using hx))).symm
        rw [hx]
        have em : (t1 + n) * b.datarate - b.storage.endTime - 1 = (t1 * b.datarate - b.storage.endTime - 1) + n * b.datarate := by
          rw [Nat.add_mul]; omega
        rw [em, BusStats.add_mul, ← BusStats.add_assoc]
        congr 1
        apply BusStats.ext' <;> simp only [BusStats.mul_ones, BusStats.mul_zeroes, BusStats.mul_bitChanges, BusStats.mul_onesToZeroes,
          BusStats.mul_zeroesToOnes, Nat.mul_assoc, Nat.mul_comm b.datarate]
    · refine .const (x0 := s) fun n x hx => ?_
      have := hvt n
      unfold Bus.getStats at hx
      simp only [] at hx
      rw [if_neg (by omega), if_neg (by omega), if_neg hen] at hx
      rw [← Except.ok.inj hx, ← hs]
      by_cases hp : b.pending.pending = true
      · rw [if_pos ⟨hp, by omega⟩, if_pos hp]
      · rw [if_neg (fun h => hp h.1), if_neg hp]

/-- A clock with an even number of levels per period has as many rising as falling edges in every period. -/
theorem Clock.steadyBy (c : Clock) (k m : Nat) (h : c.lastStart = none ∨ 2 ∣ k * c.dataRate) :
    ∃ t1, SteadyBy k (fun t => .ok (m * c.getStats t)) t1 := by
  unfold Clock.getStats
  cases hs : c.lastStart with
  | none => exact Steady.by k ⟨0, .const (x0 := m * c.stats) fun n x hx => (Except.ok.inj hx).symm⟩
  | some s =>
    obtain ⟨q, hq⟩ := h.resolve_left (by rw [hs]; simp)
    refine ⟨s, fun t ht => ⟨m * (c.stats + c.count (t - s)), m * ({ ones := q, zeroes := q, zeroesToOnes := q, onesToZeroes := q, bitChanges := q + q } : BusStats),
      fun n x hx => ?_⟩⟩
    rw [← Except.ok.inj hx]
    have e : usub (t + k * n) s = (t - s) + k * n := by unfold usub; rw [if_pos (by omega)]; omega
    simp only [e]
    have e2 : ((t - s) + k * n) * c.dataRate / 2 = (t - s) * c.dataRate / 2 + n * q := by
      rw [Nat.add_mul, Nat.mul_right_comm, hq, Nat.mul_assoc, Nat.add_mul_div_left _ _ (by omega), Nat.mul_comm q]
    unfold Clock.count
    rw [e2]
    apply BusStats.ext' <;> simp only [BusStats.add_ones, BusStats.add_zeroes, BusStats.add_bitChanges, BusStats.add_onesToZeroes,
      BusStats.add_zeroesToOnes, BusStats.mul_ones, BusStats.mul_zeroes, BusStats.mul_bitChanges, BusStats.mul_onesToZeroes,
      BusStats.mul_zeroesToOnes] <;> ring

/-- A toggling-rate model after its last burst counts idle beats, or nothing while it is off. -/
theorem Toggling.steady (h : Toggling) : ∃ t1, Steady h.getStats t1 := by
  by_cases hr : h.datarate = 0
  · cases hx0 : h.getStats 0 with
    | error e =>
      refine ⟨0, .const (x0 := {}) fun n x hx => ?_⟩
      have : h.getStats (0 + n) = h.getStats 0 := by unfold Toggling.getStats; simp only [hr, Nat.mul_zero]
      rw [this, hx0] at hx
      cases hx
    | ok x0 =>
      refine ⟨0, .const (x0 := x0) fun n x hx => ?_⟩
      have : h.getStats (0 + n) = h.getStats 0 := by unfold Toggling.getStats; simp only [hr, Nat.mul_zero]
      rw [this, hx0] at hx
      exact (Except.ok.inj hx).symm
  · have hpos : 1 ≤ h.datarate := Nat.pos_of_ne_zero hr
    refine ⟨h.lastLength + h.lastLoad + h.disableTimestamp + h.disableTime + h.count + h.lastLength, ?_⟩
    generalize ht1 : h.lastLength + h.lastLoad + h.disableTimestamp + h.disableTime + h.count + h.lastLength = t1
    have hvt : ∀ n, t1 + n ≤ (t1 + n) * h.datarate := fun n => Nat.le_mul_of_pos_right _ hpos
    generalize hc : (if h.enabled = true ∧ (!h.handled) = true then h.count + h.lastLength else h.count) = cnt
    have hcnt : cnt ≤ h.count + h.lastLength := by rw [← hc]; split <;> omega
    have ec : ∀ n, (if h.enabled = true ∧ (!h.handled) = true then
        if (t1 + n) * h.datarate < h.lastLength + h.lastLoad then h.count + usub ((t1 + n) * h.datarate) h.lastLoad else h.count + h.lastLength
        else h.count) = cnt := by
      intro n
      have := hvt n
      rw [← hc]
      simp only [if_neg (show ¬ (t1 + n) * h.datarate < h.lastLength + h.lastLoad by omega)]
    have ei : ∃ q d, ∀ n, usub (usub ((t1 + n) * h.datarate) (if h.enabled = true then h.disableTime
        else h.disableTime + usub ((t1 + n) * h.datarate) h.disableTimestamp)) cnt = q + n * d := by
      by_cases hen : h.enabled = true
      · refine ⟨t1 * h.datarate - h.disableTime - cnt, h.datarate, fun n => ?_⟩
        have := hvt n
        have := hvt 0
        rw [if_pos hen]
        have e1 : usub ((t1 + n) * h.datarate) h.disableTime = (t1 + n) * h.datarate - h.disableTime := by
          unfold usub; rw [if_pos (by omega)]
        have e2 : usub ((t1 + n) * h.datarate - h.disableTime) cnt = (t1 + n) * h.datarate - h.disableTime - cnt := by
          unfold usub; rw [if_pos (by omega)]
        rw [e1, e2, Nat.add_mul]
        simp only [Nat.add_zero] at this
        omega
      · refine ⟨usub (if h.disableTime ≤ h.disableTimestamp then h.disableTimestamp - h.disableTime
          else 2 ^ 64 + h.disableTimestamp - h.disableTime) cnt, 0, fun n => ?_⟩
        have := hvt n
        rw [if_neg hen, Nat.mul_zero, Nat.add_zero]
        congr 1
        generalize (t1 + n) * h.datarate = vt at this ⊢
        have e1 : usub vt h.disableTimestamp = vt - h.disableTimestamp := by unfold usub; rw [if_pos (by omega)]
        rw [e1]
        unfold usub
        split <;> split <;> omega
    obtain ⟨q, d, ei⟩ := ei
    cases hi : h.idle with
    | invalid =>
      refine .const (x0 := {}) fun n x hx => ?_
      unfold Toggling.getStats at hx
      simp only [hi] at hx
      cases hx
    | L =>
      refine ⟨{ ones := cnt * h.dutyCycle.num / h.dutyCycle.den * h.width
                zeroes := (cnt * (h.dutyCycle.den - h.dutyCycle.num) / h.dutyCycle.den + q) * h.width
                onesToZeroes := cnt * h.togglingRate.num / (2 * h.togglingRate.den) * h.width
                zeroesToOnes := cnt * h.togglingRate.num / (2 * h.togglingRate.den) * h.width
                bitChanges := cnt * h.togglingRate.num / (2 * h.togglingRate.den) * h.width +
                  cnt * h.togglingRate.num / (2 * h.togglingRate.den) * h.width },
        { zeroes := d * h.width }, fun n x hx => ?_⟩
      unfold Toggling.getStats at hx
      simp only [hi, ec, ei] at hx
      rw [← Except.ok.inj hx]
      apply BusStats.ext' <;> simp [Nat.add_mul, Nat.add_assoc, Nat.mul_comm n, Nat.mul_right_comm]
    | H =>
      refine ⟨{ ones := (cnt * h.dutyCycle.num / h.dutyCycle.den + q) * h.width
                zeroes := cnt * (h.dutyCycle.den - h.dutyCycle.num) / h.dutyCycle.den * h.width
                onesToZeroes := cnt * h.togglingRate.num / (2 * h.togglingRate.den) * h.width
                zeroesToOnes := cnt * h.togglingRate.num / (2 * h.togglingRate.den) * h.width
                bitChanges := cnt * h.togglingRate.num / (2 * h.togglingRate.den) * h.width +
                  cnt * h.togglingRate.num / (2 * h.togglingRate.den) * h.width },
        { ones := d * h.width }, fun n x hx => ?_⟩
      unfold Toggling.getStats at hx
      simp only [hi, ec, ei] at hx
      rw [← Except.ok.inj hx]
      apply BusStats.ext' <;> simp [Nat.add_mul, Nat.add_assoc, Nat.mul_comm n, Nat.mul_right_comm]

theorem duration_split (st : PinState) (m n : Nat) : Pin.duration st (m + n) = Pin.duration st m + Pin.duration st n := by
  cases st <;> rfl

theorem duration_mul (st : PinState) (k n : Nat) : Pin.duration st (n * k) = n * Pin.duration st k := by
  cases st <;> apply BusStats.ext' <;> simp [Pin.duration, Nat.mul_comm]

/-- A pin after its last burst keeps its idle state. -/
theorem Pin.steady {P : Nat} (p : Pin P) (r : Nat) : ∃ t1, Steady (fun t => p.getStats t r) t1 := by
  by_cases hr : r = 0
  · cases hx0 : p.getStats 0 0 with
    | error e =>
      refine ⟨0, .const (x0 := {}) fun n x hx => ?_⟩
      have : p.getStats (0 + n) r = p.getStats 0 0 := by unfold Pin.getStats; simp only [hr, Nat.mul_zero]
      rw [this, hx0] at hx
      cases hx
    | ok x0 =>
      refine ⟨0, .const (x0 := x0) fun n x hx => ?_⟩
      have : p.getStats (0 + n) r = p.getStats 0 0 := by unfold Pin.getStats; simp only [hr, Nat.mul_zero]
      rw [this, hx0] at hx
      exact (Except.ok.inj hx).symm
  · have hpos : 1 ≤ r := Nat.pos_of_ne_zero hr
    refine ⟨p.lastSet + p.pending.timestamp + p.storage.endTime + p.storage.count + 1, ?_⟩
    generalize ht1 : p.lastSet + p.pending.timestamp + p.storage.endTime + p.storage.count + 1 = t1
    have hvt : ∀ n, t1 + n ≤ (t1 + n) * r := fun n => Nat.le_mul_of_pos_right _ hpos
    have h0 : t1 ≤ t1 * r := hvt 0
    have es : ∃ s, ∀ n, addPending ((t1 + n) * r) p.pending
        (if p.initLoad = true ∧ 0 < (t1 + n) * r then p.stats + change p.lastState p.idleState else p.stats) = s := by
      refine ⟨addPending (t1 * r) p.pending (if p.initLoad = true ∧ 0 < t1 * r then p.stats + change p.lastState p.idleState else p.stats), fun n => ?_⟩
      have := hvt n
      have e1 : (0 < (t1 + n) * r) = (0 < t1 * r) := propext ⟨fun _ => by omega, fun _ => by omega⟩
      have e2 : (p.pending.timestamp < (t1 + n) * r) = (p.pending.timestamp < t1 * r) := propext ⟨fun _ => by omega, fun _ => by omega⟩
      unfold addPending
      simp only [e1, e2]
    obtain ⟨s, es⟩ := es
    have key : ∀ n x, p.getStats (t1 + n) r = .ok x → p.count ((t1 + n) * r) p.lastSet p.idleState s = .ok x := by
      intro n x hx
      have := hvt n
      unfold Pin.getStats at hx
      simp only [] at hx
      rw [if_neg (by omega), if_neg (by omega), es] at hx
      exact hx
    by_cases hb : p.lastSet < p.storage.endTime
    · have ec : ∀ n, p.storage.stats p.lastSet ((t1 + n) * r) = p.storage.stats p.lastSet (t1 * r) := by
        intro n
        have := hvt n
        unfold BitsetContainer.stats usub
        simp only [if_pos (show p.lastSet ≤ (t1 + n) * r by omega), if_pos (show p.lastSet ≤ t1 * r by omega),
          if_pos (show p.storage.count < (t1 + n) * r - p.lastSet by omega), if_pos (show p.storage.count < t1 * r - p.lastSet by omega)]
      cases hc : p.storage.stats p.lastSet (t1 * r) with
      | error e =>
        refine .const (x0 := {}) fun n x hx => ?_
        have := hvt n
        have hx := key n x hx
        unfold Pin.count at hx
        rw [if_neg (by omega), if_pos hb, ec, hc] at hx
        cases hx
      | ok c =>
        cases hl : p.storage.last with
        | error e =>
          refine .const (x0 := {}) fun n x hx => ?_
          have := hvt n
          have hx := key n x hx
          unfold Pin.count at hx
          rw [if_neg (by omega), if_pos hb, ec, hc] at hx
          simp only [hl, bind, Except.bind, if_pos (show p.storage.endTime < (t1 + n) * r by omega)] at hx
          cases hx
        | ok b =>
          refine ⟨s + c + change (if b = true then .H else .L) p.idleState + duration p.idleState (t1 * r - p.storage.endTime),
            duration p.idleState r, fun n x hx => ?_⟩
          have := hvt n
          have hx := key n x hx
          unfold Pin.count at hx
          rw [if_neg (by omega), if_pos hb, ec, hc] at hx
          simp only [hl, bind, Except.bind, if_pos (show p.storage.endTime < (t1 + n) * r by omega)] at hx
          rw [← Except.ok.inj hx]
          have em : (t1 + n) * r - p.storage.endTime = (t1 * r - p.storage.endTime) + n * r := by rw [Nat.add_mul]; omega
          rw [em, duration_split, ← BusStats.add_assoc, duration_mul]
    · refine ⟨s + duration p.idleState (t1 * r - p.lastSet), duration p.idleState r, fun n x hx => ?_⟩
      have := hvt n
      have hx := key n x hx
      unfold Pin.count at hx
      rw [if_neg (by omega), if_neg hb] at hx
      rw [← Except.ok.inj hx]
      have em : (t1 + n) * r - p.lastSet = (t1 * r - p.lastSet) + n * r := by rw [Nat.add_mul]; omega
      rw [em, duration_split, ← BusStats.add_assoc, duration_mul]

theorem pins_steady {P : Nat} : ∀ (pins : List (Pin P)) (f : Nat → Except Err BusStats), (∃ t1, Steady f t1) →
    ∃ t1, Steady (fun t => f t >>= fun s => Interface.pinStats pins t s) t1
  | [], f, ⟨t1, h⟩ => by
    obtain ⟨b, d, h⟩ := h
    refine ⟨t1, b, d, fun n x hx => ?_⟩
    obtain ⟨s, hs, hx⟩ := bind_ok hx
    rw [← pure_ok hx]
    exact h n s hs
  | p :: pins, f, ⟨t1, h⟩ => by
    obtain ⟨t2, h2⟩ := Pin.steady p 2
    have h3 : Steady (fun t => f t >>= fun s => p.getStats t 2 >>= fun x => pure (s + x)) (max t1 t2) := by
      refine .add (h.later (Nat.le_max_left _ _)) (h2.later (Nat.le_max_right _ _)) fun t x hx => ?_
      obtain ⟨a, ha, hx⟩ := bind_ok hx
      obtain ⟨b, hb, hx⟩ := bind_ok hx
      exact ⟨a, b, ha, hb, (pure_ok hx).symm⟩
    obtain ⟨t3, h4⟩ := pins_steady pins _ ⟨_, h3⟩
    refine ⟨t3, ?_⟩
    obtain ⟨b, d, h4⟩ := h4
    refine ⟨b, d, fun n x hx => h4 n x ?_⟩
    rw [← hx]
    obtain ⟨s, hs, hx⟩ := bind_ok hx
    show (f (t3 + n) >>= _) >>= _ = f (t3 + n) >>= _
    rw [hs]
    rfl

end DRAMPower
