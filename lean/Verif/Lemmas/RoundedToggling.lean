import Mathlib.Tactic.Linarith
import Mathlib.Tactic.Positivity
import Mathlib.Tactic.NormNum
import Mathlib.Data.Rat.Floor
import Mathlib.Data.Rat.Cast.Order
import Verif.Lemmas.Toggling
import Verif.Model.RoundedToggling
import Verif.Spec.Rounding

/-!
# Rounding errors of the toggling-rate model
-/

namespace DRAMPower
open Spec

theorem Rate.value_nonneg (r : Rate) : 0 ≤ r.value := by unfold Rate.value; positivity

theorem Rate.value_le (r : Rate) : r.value ≤ 1 := by
  have h1 : (0 : Rat) < r.den := by exact_mod_cast r.pos
  have h2 : (r.num : Rat) ≤ r.den := by exact_mod_cast r.le
  unfold Rate.value
  rw [div_le_one h1]
  exact h2

/-- What truncation does to a number of the range. -/
theorem truncate_ok {x : Rat} (h0 : 0 ≤ x) (h1 : x < 2 ^ 64) : ∃ n : Nat, truncate x = .ok n ∧ (n : Rat) ≤ x ∧ x < n + 1 ∧ n = x.floor.toNat := by
  refine ⟨x.floor.toNat, ?_, ?_, ?_, rfl⟩
  · unfold truncate
    rw [if_neg (by rintro (h | h) <;> linarith)]
  · have h2 : ((x.floor : Int) : Rat) ≤ x := Rat.floor_le x
    have h3 : 0 ≤ x.floor := by
      have := Rat.lt_floor_add_one x
      have h4 : (-1 : Rat) < (x.floor : Int) := by
        have : x < (x.floor : Int) + 1 := by exact_mod_cast this
        linarith
      have : (-1 : Int) < x.floor := by exact_mod_cast h4
      omega
    have h4 : ((x.floor.toNat : Int) : Rat) = (x.floor : Int) := by rw [Int.toNat_of_nonneg h3]
    rw [Int.cast_natCast] at h4
    rw [h4]; exact h2
  · have h2 : x < (x.floor : Int) + 1 := by exact_mod_cast Rat.lt_floor_add_one x
    have h4 : ((x.floor : Int) : Rat) ≤ ((x.floor.toNat : Int) : Rat) := by exact_mod_cast Int.self_le_toNat x.floor
    rw [Int.cast_natCast] at h4
    linarith

section
variable {fl : Rat → Rat} (hf : Rounds fl)
include hf

theorem rounds_bounds {x : Rat} (hx : 0 ≤ x) : x - x / 2 ^ 53 ≤ fl x ∧ fl x ≤ x + x / 2 ^ 53 ∧ 0 ≤ fl x := by
  have := hf x
  rw [abs_of_nonneg hx, abs_le] at this
  refine ⟨by linarith [this.1], by linarith [this.2], ?_⟩
  have h2 : x / 2 ^ 53 ≤ x := div_le_self hx (by norm_num)
  linarith [this.1]

/-- A product rounded after factors that are off by at most one part in `2^52`. -/
theorem rounds_product {a' a b' b : Rat} (ha : 0 ≤ a) (hb : 0 ≤ b) (hb1 : b ≤ 1) (a1 : a - a / 2 ^ 53 ≤ a') (a2 : a' ≤ a + a / 2 ^ 53)
    (b1 : b - b / 2 ^ 53 ≤ b') (b2 : b' ≤ b + b / 2 ^ 53) :
    a * b - a / 2 ^ 51 ≤ fl (a' * b') ∧ fl (a' * b') ≤ a * b + a / 2 ^ 51 ∧ 0 ≤ fl (a' * b') := by
  have ha' : 0 ≤ a' := by
    have : a / 2 ^ 53 ≤ a := div_le_self ha (by norm_num)
    linarith
  have hb' : 0 ≤ b' := by
    have : b / 2 ^ 53 ≤ b := div_le_self hb (by norm_num)
    linarith
  obtain ⟨h1, h2, h3⟩ := rounds_bounds hf (mul_nonneg ha' hb')
  have hab : 0 ≤ a * b := mul_nonneg ha hb
  have hab1 : a * b ≤ a := by nlinarith
  have up : a' * b' ≤ (a + a / 2 ^ 53) * (b + b / 2 ^ 53) := mul_le_mul a2 b2 hb' (by positivity)
  have low : (a - a / 2 ^ 53) * (b - b / 2 ^ 53) ≤ a' * b' := by
    refine mul_le_mul a1 b1 ?_ ha'
    have : b / 2 ^ 53 ≤ b := div_le_self hb (by norm_num)
    linarith
  have e1 : (a + a / 2 ^ 53) * (b + b / 2 ^ 53) = a * b * (1 + 2 / 2 ^ 53 + 1 / 2 ^ 106) := by ring
  have e2 : (a - a / 2 ^ 53) * (b - b / 2 ^ 53) = a * b * (1 - 2 / 2 ^ 53 + 1 / 2 ^ 106) := by ring
  rw [e1] at up
  rw [e2] at low
  refine ⟨?_, ?_, h3⟩
  · norm_num at *
    linarith
  · norm_num at *
    linarith

theorem toggleOnes_near (r : Rate) (n : Nat) :
    n * r.value - n / 2 ^ 51 ≤ (Arith.rounded fl).toggleOnes r.value n ∧
    (Arith.rounded fl).toggleOnes r.value n ≤ n * r.value + n / 2 ^ 51 ∧ 0 ≤ (Arith.rounded fl).toggleOnes r.value n := by
  have hn : (0 : Rat) ≤ n := Nat.cast_nonneg n
  obtain ⟨h1, h2, -⟩ := rounds_bounds hf hn
  have hr := r.value_nonneg
  have h3 : 0 ≤ r.value / 2 ^ 53 := by positivity
  exact rounds_product hf hn hr r.value_le h1 h2 (b' := r.value) (by linarith) (by linarith)

theorem toggleZeroes_near (r : Rate) (n : Nat) :
    n * (1 - r.value) - n / 2 ^ 51 ≤ (Arith.rounded fl).toggleZeroes r.value n ∧
    (Arith.rounded fl).toggleZeroes r.value n ≤ n * (1 - r.value) + n / 2 ^ 51 ∧ 0 ≤ (Arith.rounded fl).toggleZeroes r.value n := by
  have hn : (0 : Rat) ≤ n := Nat.cast_nonneg n
  obtain ⟨h1, h2, -⟩ := rounds_bounds hf hn
  have hr := r.value_nonneg
  have hr1 := r.value_le
  obtain ⟨h3, h4, -⟩ := rounds_bounds hf (x := 1 - r.value) (by linarith)
  exact rounds_product hf hn (by linarith) (by linarith) h1 h2 h3 h4

theorem toggleFalls_near (r : Rate) (n : Nat) :
    n * r.value / 2 - n / 2 ^ 51 ≤ (Arith.rounded fl).toggleFalls r.value n ∧
    (Arith.rounded fl).toggleFalls r.value n ≤ n * r.value / 2 + n / 2 ^ 51 ∧ 0 ≤ (Arith.rounded fl).toggleFalls r.value n := by
  have hn : (0 : Rat) ≤ n := Nat.cast_nonneg n
  obtain ⟨h1, h2, h3⟩ := toggleOnes_near hf r n
  have hr := r.value_nonneg
  have hr1 := r.value_le
  show _ ≤ fl ((Arith.rounded fl).toggleOnes r.value n / 2) ∧ fl ((Arith.rounded fl).toggleOnes r.value n / 2) ≤ _ ∧ 0 ≤ fl ((Arith.rounded fl).toggleOnes r.value n / 2)
  generalize (Arith.rounded fl).toggleOnes r.value n = x at *
  obtain ⟨h4, h5, h6⟩ := rounds_bounds hf (x := x / 2) (by linarith)
  have hnr : n * r.value ≤ n := by nlinarith
  have hx : x / 2 / 2 ^ 53 ≤ n / 2 ^ 52 := by
    norm_num at *
    linarith
  refine ⟨?_, ?_, h6⟩
  · norm_num at *
    linarith
  · norm_num at *
    linarith

end

/-- The answer to a query in terms of the activity of the bus. -/
theorem ToggleInv.togglingStats {h : Toggling} {a : Activity} {base : Nat} (A : Arith) (i : ToggleInv h a base) {t : Nat}
    (ht : base ≤ t * h.datarate) : A.togglingStats h t = (do
      let ones ← truncate (A.toggleOnes h.dutyCycle.value (a.beats (some true) (t * h.datarate)))
      let zeroes ← truncate (A.toggleZeroes h.dutyCycle.value (a.beats (some true) (t * h.datarate)))
      let falls ← truncate (A.toggleFalls h.togglingRate.value (a.beats (some true) (t * h.datarate)))
      if h.idle = .invalid then .error (.exception "Invalid TogglingRateIdlePattern") else
      .ok { ones := h.width * (ones + if h.idle = .H then a.beats (some false) (t * h.datarate) else 0)
            zeroes := h.width * (zeroes + if h.idle = .H then 0 else a.beats (some false) (t * h.datarate))
            onesToZeroes := h.width * falls
            zeroesToOnes := h.width * falls
            bitChanges := 2 * (h.width * falls) }) := by
  have tr := i.transfers ht
  have of := i.offs ht
  have tot := beats_total a (t * h.datarate)
  unfold Arith.togglingStats
  simp only
  have hc : (if h.enabled = true ∧ (!h.handled) = true then
      if t * h.datarate < h.lastLength + h.lastLoad then h.count + usub (t * h.datarate) h.lastLoad else h.count + h.lastLength
      else h.count) = a.beats (some true) (t * h.datarate) := by
    rw [tr]
    cases hen : h.enabled <;> cases hh : h.handled <;> simp
    have hl := i.load hh
    by_cases hc : t * h.datarate < h.lastLength + h.lastLoad
    · rw [if_pos hc, Nat.min_eq_left (by omega), usub, if_pos (by omega)]
    · rw [if_neg hc, Nat.min_eq_right (by omega), Nat.add_sub_cancel_left]
  have hd : (if h.enabled = true then h.disableTime else h.disableTime + usub (t * h.datarate) h.disableTimestamp) = a.beats none (t * h.datarate) := by
    rw [of]
    cases hen : h.enabled
    · obtain ⟨_, hd, _⟩ := i.off hen
      simp [usub, hd, ht]
    · simp
  rw [hc, hd]
  have hidle : usub (usub (t * h.datarate) (a.beats none (t * h.datarate))) (a.beats (some true) (t * h.datarate))
      = a.beats (some false) (t * h.datarate) := by
    have e1 : usub (t * h.datarate) (a.beats none (t * h.datarate)) = t * h.datarate - a.beats none (t * h.datarate) := by
      rw [usub, if_pos (by omega)]
    rw [e1, usub, if_pos (by omega)]
    omega
  rw [hidle]
  rcases truncate (A.toggleOnes h.dutyCycle.value (a.beats (some true) (t * h.datarate))) with e | x
  · rfl
  rcases truncate (A.toggleZeroes h.dutyCycle.value (a.beats (some true) (t * h.datarate))) with e | y
  · rfl
  rcases truncate (A.toggleFalls h.togglingRate.value (a.beats (some true) (t * h.datarate))) with e | z
  · rfl
  cases hi : h.idle <;> simp [bind, Except.bind, Nat.mul_comm, Nat.mul_two]

end DRAMPower
