import Mathlib.Algebra.Order.Field.Power
import Mathlib.Algebra.Order.Field.Rat
import Mathlib.Data.Rat.Floor
import Mathlib.Data.Rat.Cast.Order
import Mathlib.Tactic.Linarith
import Mathlib.Tactic.Positivity
import Mathlib.Tactic.FieldSimp
import Mathlib.Tactic.Ring
import Verif.Model.Rounded
import Verif.Spec.Rounding

/-!
# Rounding to nearest
-/

namespace DRAMPower
open Spec
namespace Arith

theorem nearest_err (y : Rat) : |(nearest y : Rat) - y| ≤ 1 / 2 := by
  have h1 : ((y.floor : Int) : Rat) ≤ y := Rat.floor_le y
  have h2 : y < (y.floor : Int) + 1 := by exact_mod_cast Rat.lt_floor_add_one y
  unfold nearest
  simp only
  rw [abs_le]
  split
  · constructor <;> linarith
  · split
    · push_cast
      constructor <;> linarith
    · split
      · constructor <;> linarith
      · push_cast
        constructor <;> linarith

/-- No integer is nearer. -/
theorem nearest_le (y : Rat) (n : Int) : |(nearest y : Rat) - y| ≤ |(n : Rat) - y| := by
  have h1 : ((y.floor : Int) : Rat) ≤ y := Rat.floor_le y
  have h2 : y < (y.floor : Int) + 1 := by exact_mod_cast Rat.lt_floor_add_one y
  have key : min (y - y.floor) (y.floor + 1 - y) ≤ |(n : Rat) - y| := by
    by_cases h : n ≤ y.floor
    · refine le_trans (min_le_left _ _) ?_
      have : (n : Rat) ≤ y.floor := by exact_mod_cast h
      rw [abs_of_nonpos (by linarith)]
      linarith
    · refine le_trans (min_le_right _ _) ?_
      have : (y.floor : Rat) + 1 ≤ n := by exact_mod_cast (by omega : y.floor + 1 ≤ n)
      rw [abs_of_nonneg (by linarith)]
      linarith
  refine le_trans ?_ key
  unfold nearest
  simp only
  have a : ∀ h : ((y.floor : Int) : Rat) ≤ y, |((y.floor : Int) : Rat) - y| = y - y.floor := fun h => by rw [abs_of_nonpos (by linarith)]; ring
  have b : |((y.floor + 1 : Int) : Rat) - y| = y.floor + 1 - y := by push_cast; rw [abs_of_nonneg (by linarith)]
  split
  · rw [a h1, le_min_iff]; constructor <;> linarith
  · split
    · rw [b, le_min_iff]; constructor <;> linarith
    · split
      · rw [a h1, le_min_iff]; constructor <;> linarith
      · rw [b, le_min_iff]; constructor <;> linarith

theorem exponent_spec {x : Rat} (hx : 0 < x) : (2 : Rat) ^ exponent x ≤ x ∧ x < 2 ^ (exponent x + 1) := by
  have hn : x.num.natAbs ≠ 0 := by
    have := Rat.num_pos.2 hx
    omega
  have hd : x.den ≠ 0 := x.den_nz
  have e : x = (x.num.natAbs : Rat) / x.den := by
    have h1 : ((x.num.natAbs : Int) : Rat) = x.num := by
      rw [Int.natAbs_of_nonneg (le_of_lt (Rat.num_pos.2 hx))]
    have h2 := (Rat.num_div_den x).symm
    rw [← h1, Int.cast_natCast] at h2
    exact h2
  have h1 : ((2 ^ x.num.natAbs.log2 : Nat) : Rat) ≤ x.num.natAbs := by exact_mod_cast Nat.log2_self_le hn
  have h2 : (x.num.natAbs : Rat) < ((2 ^ (x.num.natAbs.log2 + 1) : Nat) : Rat) := by exact_mod_cast Nat.lt_log2_self
  have h3 : ((2 ^ x.den.log2 : Nat) : Rat) ≤ x.den := by exact_mod_cast Nat.log2_self_le hd
  have h4 : (x.den : Rat) < ((2 ^ (x.den.log2 + 1) : Nat) : Rat) := by exact_mod_cast Nat.lt_log2_self
  push_cast at h1 h2 h3 h4
  have hdp : (0 : Rat) < x.den := by exact_mod_cast Nat.pos_of_ne_zero hd
  have low : (2 : Rat) ^ ((x.num.natAbs.log2 : Int) - (x.den.log2 : Int) - 1) ≤ x := by
    rw [sub_sub, zpow_sub₀ (by norm_num), zpow_natCast, show ((x.den.log2 : Int) + 1) = ((x.den.log2 + 1 : Nat) : Int) by push_cast; rfl, zpow_natCast]
    conv_rhs => rw [e]
    rw [div_le_div_iff₀ (by positivity) hdp]
    have : (0 : Rat) < 2 ^ x.num.natAbs.log2 := by positivity
    nlinarith
  have high : x < (2 : Rat) ^ ((x.num.natAbs.log2 : Int) - (x.den.log2 : Int) + 1) := by
    rw [show (x.num.natAbs.log2 : Int) - (x.den.log2 : Int) + 1 = ((x.num.natAbs.log2 + 1 : Nat) : Int) - (x.den.log2 : Nat) by push_cast; ring,
      zpow_sub₀ (by norm_num), zpow_natCast, zpow_natCast]
    conv_lhs => rw [e]
    rw [div_lt_div_iff₀ hdp (by positivity)]
    have : (0 : Rat) < 2 ^ x.den.log2 := by positivity
    have : (0 : Rat) < x.num.natAbs := by exact_mod_cast Nat.pos_of_ne_zero hn
    nlinarith
  unfold exponent
  simp only
  split
  · exact ⟨by assumption, high⟩
  · refine ⟨low, ?_⟩
    rw [sub_add_cancel]
    exact lt_of_not_ge (by assumption)

theorem abs_eq (x : Rat) : (if x < 0 then -x else x) = |x| := by
  split
  · rw [abs_of_neg (by assumption)]
  · rw [abs_of_nonneg (by linarith)]

theorem double_eq {x : Rat} (hx : x ≠ 0) :
    double x = nearest (x / 2 ^ (exponent |x| - 52)) * (2 : Rat) ^ (exponent |x| - 52) := by
  unfold double
  rw [if_neg hx, abs_eq]

theorem double_zero : double 0 = 0 := if_pos rfl

theorem double_err {x : Rat} (hx : x ≠ 0) (n : Int) :
    |double x - x| ≤ |n * (2 : Rat) ^ (exponent |x| - 52) - x| ∧ |double x - x| ≤ 1 / 2 * (2 : Rat) ^ (exponent |x| - 52) := by
  rw [double_eq hx]
  generalize hu : (2 : Rat) ^ (exponent |x| - 52) = u
  have hp : 0 < u := by rw [← hu]; positivity
  have e : ∀ m : Rat, |m * u - x| = |m - x / u| * u := fun m => by
    rw [← abs_of_pos hp, ← abs_mul, abs_of_pos hp, sub_mul, div_mul_cancel₀ _ (ne_of_gt hp)]
  rw [e, e]
  exact ⟨mul_le_mul_of_nonneg_right (nearest_le _ n) (le_of_lt hp), mul_le_mul_of_nonneg_right (nearest_err _) (le_of_lt hp)⟩

theorem double_rounds : Rounds double := by
  intro x
  by_cases hx : x = 0
  · rw [hx, double_zero]; simp
  · have h1 := (double_err hx 0).2
    have h2 := (exponent_spec (abs_pos.2 hx)).1
    rw [zpow_sub₀ (by norm_num)] at h1
    refine le_trans h1 ?_
    rw [le_div_iff₀ (by norm_num)]
    have : (1 : Rat) / 2 * (2 ^ exponent |x| / 2 ^ (52 : Int)) * 2 ^ 53 = 2 ^ exponent |x| := by
      rw [show (2 : Rat) ^ (52 : Int) = 2 ^ 52 by norm_cast]
      ring
    rw [this]
    exact h2

/-- The result has 53 significant bits. -/
theorem double_digits (x : Rat) : Digits (double x) := by
  by_cases hx : x = 0
  · exact ⟨0, 0, by norm_num, by rw [hx, double_zero]; simp⟩
  · obtain ⟨-, h2⟩ := exponent_spec (abs_pos.2 hx)
    refine ⟨nearest (x / 2 ^ (exponent |x| - 52)), exponent |x| - 52, ?_, double_eq hx⟩
    have h3 := nearest_le (x / 2 ^ (exponent |x| - 52))
    generalize hy : x / 2 ^ (exponent |x| - 52) = y at h3 ⊢
    have hyabs : |y| < 2 ^ 53 := by
      rw [← hy, abs_div, abs_of_pos (a := (2 : Rat) ^ (exponent |x| - 52)) (by positivity), div_lt_iff₀ (by positivity)]
      refine lt_of_lt_of_eq h2 ?_
      rw [show ((2 : Rat) ^ 53) = 2 ^ (53 : Int) by norm_cast, ← zpow_add₀ (by norm_num)]
      congr 1
      ring
    rw [abs_lt] at hyabs
    have e1 := nearest_err y
    rw [abs_le] at e1
    have h5 : (nearest y : Rat) < 2 ^ 53 + 1 := by linarith [hyabs.2]
    have h6 : -(2 ^ 53 + 1 : Rat) < nearest y := by linarith [hyabs.1]
    have h5 : nearest y < 2 ^ 53 + 1 := by exact_mod_cast h5
    have h6 : -(2 ^ 53 + 1) < nearest y := by exact_mod_cast h6
    rw [abs_le]
    constructor <;> omega

/-- No number with 53 significant bits is nearer. -/
theorem double_nearest (x : Rat) {y : Rat} (hy : Digits y) : |double x - x| ≤ |y - x| := by
  by_cases hx : x = 0
  · rw [hx, double_zero]; simp
  · obtain ⟨m, k, hm, rfl⟩ := hy
    obtain ⟨h1, -⟩ := exponent_spec (abs_pos.2 hx)
    by_cases hk : exponent |x| - 52 ≤ k
    · obtain ⟨j, hj⟩ := Int.eq_ofNat_of_zero_le (sub_nonneg.2 hk)
      have : (m : Rat) * 2 ^ k = ((m * 2 ^ j : Int) : Rat) * 2 ^ (exponent |x| - 52) := by
        rw [show k = (j : Int) + (exponent |x| - 52) by omega, zpow_add₀ (by norm_num)]
        push_cast
        rw [zpow_natCast]
        ring
      rw [this]
      exact (double_err hx _).1
    · -- `y` is not above the power of two below `x`
      have hy : |(m : Rat) * 2 ^ k| ≤ 2 ^ exponent |x| := by
        rw [abs_mul, abs_of_pos (a := (2 : Rat) ^ k) (by positivity)]
        have h3 : |(m : Rat)| ≤ 2 ^ 53 := by
          rw [← Int.cast_abs]; exact_mod_cast hm
        have h4 : (2 : Rat) ^ k ≤ 2 ^ (exponent |x| - 53) := zpow_le_zpow_right₀ (by norm_num) (by omega)
        have h5 : (2 : Rat) ^ 53 * 2 ^ (exponent |x| - 53) = 2 ^ exponent |x| := by
          rw [show ((2 : Rat) ^ 53) = 2 ^ (53 : Int) by norm_cast, ← zpow_add₀ (by norm_num)]
          congr 1
          ring
        rw [← h5]
        exact mul_le_mul h3 h4 (by positivity) (by positivity)
      have h52 : (2 : Rat) ^ exponent |x| = ((2 ^ 52 : Int) : Rat) * 2 ^ (exponent |x| - 52) := by
        rw [show (((2 ^ 52 : Int)) : Rat) = 2 ^ (52 : Int) by norm_cast, ← zpow_add₀ (by norm_num)]
        congr 1
        ring
      rcases lt_or_gt_of_ne hx with hneg | hpos
      · have e := (double_err hx (-2 ^ 52)).1
        rw [abs_of_neg hneg] at h1 h52 hy
        rw [abs_of_neg hneg, show ((-2 ^ 52 : Int) : Rat) * 2 ^ (exponent (-x) - 52) = -(2 : Rat) ^ exponent (-x) by rw [h52]; push_cast; ring,
          abs_of_nonneg (a := -(2 : Rat) ^ exponent (-x) - x) (by linarith)] at e
        rw [abs_le] at hy
        refine le_trans e (le_trans ?_ (le_abs_self _))
        linarith [hy.1]
      · have e := (double_err hx (2 ^ 52)).1
        rw [abs_of_pos hpos] at h1 h52 hy
        rw [abs_of_pos hpos, ← h52, abs_of_nonpos (a := (2 : Rat) ^ exponent x - x) (by linarith)] at e
        rw [abs_le] at hy
        refine le_trans e (le_trans ?_ (neg_le_abs _))
        linarith [hy.2]

end Arith
end DRAMPower
