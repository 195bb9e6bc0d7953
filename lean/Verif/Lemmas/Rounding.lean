import Mathlib.Tactic.Linarith
import Mathlib.Tactic.Ring
import Mathlib.Tactic.Positivity
import Mathlib.Tactic.FieldSimp
import Mathlib.Tactic.NormNum
import Verif.Model.Rounded
import Verif.Spec.Rounding

/-!
# Propagation of rounding errors
-/

namespace DRAMPower
open Spec

/-- The growth of an error by `k` roundings. -/
def grow (k : Nat) : Rat := (1 + 1 / 2 ^ 52) ^ k

theorem grow_zero : grow 0 = 1 := pow_zero _

theorem grow_succ (k : Nat) : grow (k + 1) = grow k * (1 + 1 / 2 ^ 52) := pow_succ _ _

theorem grow_add (j k : Nat) : grow (j + k) = grow j * grow k := pow_add _ _ _

theorem grow_one_le (k : Nat) : 1 ≤ grow k := one_le_pow₀ (by norm_num)

theorem grow_pos (k : Nat) : 0 < grow k := lt_of_lt_of_le one_pos (grow_one_le k)

theorem grow_mono {j k : Nat} (h : j ≤ k) : grow j ≤ grow k := pow_le_pow_right₀ (by norm_num) h

theorem grow_le : ∀ k : Nat, k ≤ 2 ^ 51 → grow k ≤ 1 + k / 2 ^ 51
  | 0, _ => by simp [grow_zero]
  | k + 1, h => by
    have ih := grow_le k (by omega)
    have hk : (k : Rat) ≤ 2 ^ 51 := by exact_mod_cast (show k ≤ 2 ^ 51 by omega)
    have h0 : (0 : Rat) ≤ k := Nat.cast_nonneg k
    rw [grow_succ]
    push_cast
    nlinarith

/-- `x'` is `x` after `k` roundings of things not larger than `m`. -/
structure Near (k : Nat) (x' x m : Rat) : Prop where
  err : |x' - x| ≤ (grow k - 1) * m
  le : |x| ≤ m

/-- `x'` is the number `x`, which is not negative, up to a factor of `k` roundings. -/
structure RelErr (k : Nat) (x' x : Rat) : Prop where
  nonneg : 0 ≤ x
  low : x ≤ grow k * x'
  high : x' ≤ grow k * x

namespace Near

variable {j k : Nat} {a' a m b' b n x' x : Rat} {fl : Rat → Rat}

theorem nonneg (h : Near k x' x m) : 0 ≤ m := le_trans (abs_nonneg x) h.le

theorem size (h : Near k x' x m) : |x'| ≤ grow k * m := by
  have h1 := h.err
  have h2 := h.le
  have : |x'| ≤ |x' - x| + |x| := by
    have := abs_add_le (x' - x) x
    rwa [sub_add_cancel] at this
  linarith

theorem of_nonneg (hx : 0 ≤ x) : Near 0 x x x := ⟨by rw [sub_self, abs_zero, grow_zero, sub_self, zero_mul], by rw [abs_of_nonneg hx]⟩

theorem zero : Near 0 0 0 0 := of_nonneg (le_refl 0)

theorem mono (h : Near j a' a m) (hk : j ≤ k) (hm : m ≤ n) : Near k a' a n := by
  have h1 := grow_mono hk
  have h2 := grow_one_le j
  have h3 := h.nonneg
  have h4 := h.err
  exact ⟨by nlinarith, le_trans h.le hm⟩

theorem more (h : Near j a' a m) (hk : j ≤ k) : Near k a' a m := h.mono hk (le_refl m)

/-- One more rounding. -/
theorem round (hf : Rounds fl) (h : Near k a' a m) : Near (k + 1) (fl a') a m := by
  have h1 := hf a'
  have h2 := h.size
  have h3 := h.err
  have h4 : |fl a' - a| ≤ |fl a' - a'| + |a' - a| := by
    have := abs_add_le (fl a' - a') (a' - a)
    rwa [sub_add_sub_cancel] at this
  have h5 : 0 ≤ grow k * m := mul_nonneg (le_of_lt (grow_pos k)) h.nonneg
  refine ⟨?_, h.le⟩
  rw [grow_succ]
  have h6 : |a'| / 2 ^ 53 ≤ grow k * m * (1 / 2 ^ 52) := by
    rw [div_le_iff₀ (by norm_num)]
    nlinarith
  nlinarith

theorem nat (hf : Rounds fl) (n : Nat) : Near 1 (fl n) n n := (of_nonneg (Nat.cast_nonneg n)).round hf

theorem add_exact (ha : Near j a' a m) (hb : Near k b' b n) : Near (max j k) (a' + b') (a + b) (m + n) := by
  have h1 := (ha.more (le_max_left j k)).err
  have h2 := (hb.more (le_max_right j k)).err
  refine ⟨?_, le_trans (abs_add_le a b) (add_le_add ha.le hb.le)⟩
  have : |a' + b' - (a + b)| ≤ |a' - a| + |b' - b| := by
    rw [show a' + b' - (a + b) = (a' - a) + (b' - b) by ring]
    exact abs_add_le _ _
  linarith

theorem neg (h : Near k a' a m) : Near k (-a') (-a) m :=
  ⟨by rw [neg_sub_neg, abs_sub_comm]; exact h.err, by rw [abs_neg]; exact h.le⟩

theorem add (hf : Rounds fl) (ha : Near j a' a m) (hb : Near k b' b n) : Near (max j k + 1) (fl (a' + b')) (a + b) (m + n) :=
  (ha.add_exact hb).round hf

theorem sub (hf : Rounds fl) (ha : Near j a' a m) (hb : Near k b' b n) : Near (max j k + 1) (fl (a' - b')) (a - b) (m + n) := by
  rw [sub_eq_add_neg, sub_eq_add_neg]
  exact ha.add hf hb.neg

theorem mul (hf : Rounds fl) (ha : Near j a' a m) (hb : Near k b' b n) : Near (j + k + 1) (fl (a' * b')) (a * b) (m * n) := by
  refine Near.round hf ⟨?_, by rw [abs_mul]; exact mul_le_mul ha.le hb.le (abs_nonneg b) ha.nonneg⟩
  have h1 : |a' * b' - a * b| ≤ |a' - a| * |b'| + |a| * |b' - b| := by
    rw [show a' * b' - a * b = (a' - a) * b' + a * (b' - b) by ring, ← abs_mul, ← abs_mul]
    exact abs_add_le _ _
  have h2 : |a' - a| * |b'| ≤ (grow j - 1) * m * (grow k * n) :=
    mul_le_mul ha.err hb.size (abs_nonneg _) (le_trans (abs_nonneg _) ha.err)
  have h3 : |a| * |b' - b| ≤ m * ((grow k - 1) * n) := mul_le_mul ha.le hb.err (abs_nonneg _) ha.nonneg
  rw [grow_add]
  nlinarith

theorem div (hf : Rounds fl) (ha : Near j a' a m) (hb : RelErr k b' b) (hp : 0 < b) :
    Near (j + k + 1) (fl (a' / b')) (a / b) (m / b) := by
  have hg := grow_pos k
  have hb' : 0 < b' := by
    have h := hb.low
    by_contra hn
    have : grow k * b' ≤ 0 := mul_nonpos_of_nonneg_of_nonpos (le_of_lt hg) (le_of_not_gt hn)
    linarith
  have hi : Near k (1 / b') (1 / b) (1 / b) := by
    refine ⟨?_, by rw [abs_of_nonneg (by positivity)]⟩
    rw [abs_le]
    have h1 : 1 / b' ≤ grow k * (1 / b) := by
      rw [mul_one_div, div_le_div_iff₀ hb' hp]
      linarith [hb.low]
    have h2 : 1 / b ≤ grow k * (1 / b') := by
      rw [mul_one_div, div_le_div_iff₀ hp hb']
      linarith [hb.high]
    have h4 : 0 < 1 / b := by positivity
    have h5 : 0 < 1 / b' := by positivity
    have h6 := grow_one_le k
    constructor
    · nlinarith [mul_nonneg (sub_nonneg.2 h6) (le_of_lt h5)]
    · linarith
  have := (ha.mul (fl := fl) hf hi)
  rw [mul_one_div, mul_one_div, mul_one_div] at this
  exact this

end Near

namespace RelErr

variable {j k : Nat} {a' a b' b x' x : Rat} {fl : Rat → Rat}

theorem of_nonneg (hx : 0 ≤ x) : RelErr 0 x x := ⟨hx, by rw [grow_zero, one_mul], by rw [grow_zero, one_mul]⟩

theorem nonneg' (h : RelErr k x' x) : 0 ≤ x' := by
  have h1 := h.low
  have h3 := h.nonneg
  by_contra hn
  have : grow k * x' < 0 := mul_neg_of_pos_of_neg (grow_pos k) (lt_of_not_ge hn)
  linarith

theorem pos' (h : RelErr k x' x) (hx : 0 < x) : 0 < x' := by
  have h1 := h.low
  by_contra hn
  have : grow k * x' ≤ 0 := mul_nonpos_of_nonneg_of_nonpos (le_of_lt (grow_pos k)) (le_of_not_gt hn)
  linarith

theorem near (h : RelErr k x' x) : Near k x' x x := by
  have h1 := h.low
  have h2 := h.high
  have h3 := h.nonneg
  have h4 := grow_one_le k
  refine ⟨?_, by rw [abs_of_nonneg h3]⟩
  rw [abs_le]
  have := h.nonneg'
  constructor
  · nlinarith
  · nlinarith

theorem round (hf : Rounds fl) (h : RelErr k x' x) : RelErr (k + 1) (fl x') x := by
  have h0 := h.nonneg'
  have h1 := hf x'
  rw [abs_of_nonneg h0, abs_le] at h1
  have h2 := h.low
  have h3 := h.high
  have hg := grow_pos k
  obtain ⟨h4, h5⟩ := h1
  refine ⟨h.nonneg, ?_, ?_⟩
  · have : x' ≤ (1 + 1 / 2 ^ 52) * fl x' := by
      have : x' * (1 - 1 / 2 ^ 53) ≤ fl x' := by linarith
      nlinarith
    rw [grow_succ, mul_assoc]
    exact le_trans h2 (mul_le_mul_of_nonneg_left this (le_of_lt hg))
  · have : fl x' ≤ (1 + 1 / 2 ^ 52) * x' := by
      have : fl x' ≤ x' + x' / 2 ^ 53 := by linarith
      nlinarith
    rw [grow_succ]
    nlinarith

theorem more (h : RelErr j x' x) (hk : j ≤ k) : RelErr k x' x := by
  have h1 := grow_mono hk
  exact ⟨h.nonneg, le_trans h.low (mul_le_mul_of_nonneg_right h1 h.nonneg'),
    le_trans h.high (mul_le_mul_of_nonneg_right h1 h.nonneg)⟩

theorem nat (hf : Rounds fl) (n : Nat) : RelErr 1 (fl n) n := (of_nonneg (Nat.cast_nonneg n)).round hf

theorem mul (hf : Rounds fl) (ha : RelErr j a' a) (hb : RelErr k b' b) : RelErr (j + k + 1) (fl (a' * b')) (a * b) := by
  have h1 := ha.nonneg'
  have h2 := hb.nonneg'
  have h3 := ha.nonneg
  have h4 := hb.nonneg
  refine RelErr.round hf ⟨mul_nonneg h3 h4, ?_, ?_⟩
  · rw [grow_add, mul_mul_mul_comm]
    exact mul_le_mul ha.low hb.low h4 (le_trans h3 ha.low)
  · rw [grow_add, mul_mul_mul_comm]
    exact mul_le_mul ha.high hb.high h2 (le_trans h1 ha.high)

theorem add (hf : Rounds fl) (ha : RelErr j a' a) (hb : RelErr k b' b) : RelErr (max j k + 1) (fl (a' + b')) (a + b) := by
  have ha := ha.more (le_max_left j k)
  have hb := hb.more (le_max_right j k)
  refine RelErr.round hf ⟨add_nonneg ha.nonneg hb.nonneg, ?_, ?_⟩
  · linarith [ha.low, hb.low]
  · linarith [ha.high, hb.high]

end RelErr

/-! ## Sums -/

theorem near_foldl {α : Type} {fl : Rat → Rat} (hf : Rounds fl) {k : Nat} {f' f g : α → Rat} :
    ∀ (L : List α) {i : Nat} {a' a m : Rat}, (∀ x ∈ L, Near k (f' x) (f x) (g x)) → Near (k + i) a' a m →
      Near (k + i + L.length) (L.foldl (fun e x => fl (e + f' x)) a') (a + (L.map f).sum) (m + (L.map g).sum)
  | [], i, a', a, m, _, h => by simpa using h
  | x :: L, i, a', a, m, hL, h => by
    have h1 := h.add hf ((hL x (by simp)).more (Nat.le_add_right k i))
    rw [Nat.max_self, Nat.add_assoc k i 1] at h1
    have h2 := near_foldl hf L (fun y hy => hL y (by simp [hy])) h1
    simp only [List.foldl_cons, List.map_cons, List.sum_cons, List.length_cons, ← add_assoc]
    rw [show k + i + L.length + 1 = k + (i + 1) + L.length by omega]
    exact h2

end DRAMPower
