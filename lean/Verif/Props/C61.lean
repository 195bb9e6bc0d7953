import Verif.Lemmas.RoundedEnergy
import Verif.Lemmas.Double
import Verif.Lemmas.RoundedExample

/-! # C61: The energies computed with `double` are close to the exact ones -/

namespace DRAMPower
open Spec

/-- The arithmetic of the code: every result is the nearest number with 53 significant bits, the relative error is at most half a unit in the
last place; numbers that need no rounding are not changed, and rounding keeps the order. -/
theorem C61_double : Rounds Arith.double ∧
    (∀ x, Digits (Arith.double x) ∧ ∀ y, Digits y → |Arith.double x - x| ≤ |y - x|) ∧
    (∀ x, Digits x → Arith.double x = x) ∧ (∀ x y, x ≤ y → Arith.double x ≤ Arith.double y) := by
  refine ⟨Arith.double_rounds, fun x => ⟨Arith.double_digits x, fun y => Arith.double_nearest x⟩, fun x hx => ?_, fun x y h => ?_⟩
  · have := Arith.double_nearest x hx
    rw [sub_self, abs_zero] at this
    exact sub_eq_zero.1 (abs_eq_zero.1 (le_antisymm this (abs_nonneg _)))
  · by_contra hn
    have hlt : Arith.double y < Arith.double x := lt_of_not_ge hn
    have h1 := Arith.double_nearest x (Arith.double_digits y)
    have h2 := Arith.double_nearest y (Arith.double_digits x)
    have m1 : Arith.double x + Arith.double y ≤ 2 * x := by
      rcases abs_cases (Arith.double x - x) with ⟨e, -⟩ | ⟨e, g⟩ <;> rcases abs_cases (Arith.double y - x) with ⟨e', g'⟩ | ⟨e', -⟩ <;>
        rw [e, e'] at h1 <;> linarith
    have m2 : 2 * y ≤ Arith.double x + Arith.double y := by
      rcases abs_cases (Arith.double y - y) with ⟨e, g⟩ | ⟨e, g⟩ <;> rcases abs_cases (Arith.double x - y) with ⟨e', g'⟩ | ⟨e', g'⟩ <;>
        rw [e, e'] at h2 <;> linarith
    have : x = y := le_antisymm h (by linarith)
    rw [this] at hlt
    exact lt_irrefl _ hlt

/-- A third is rounded down, a tenth up; a half is not rounded. -/
example : Arith.double (1 / 3) = 6004799503160661 / 2 ^ 54 ∧ Arith.double (1 / 10) = 3602879701896397 / 2 ^ 55 ∧ Arith.double (1 / 2) = 1 / 2 := by
  decide +kernel

/-- Rounding does not change whether the calculation succeeds. -/
theorem C61_outcome (fl : Rat → Rat) (hf : Rounds fl) (std : Std) (s : PowerSpec) (hs : NonNegative s) (stats : SimStats) (x : Err) :
    (Arith.rounded fl).calcEnergy std s stats = .error x ↔ s.calcEnergy std stats = .error x := by
  unfold Arith.calcEnergy PowerSpec.calcEnergy
  by_cases h1 : 0 ∈ s.divisors std
  · rw [if_pos h1, if_pos ((divisors_iff hf hs).2 h1)]
  · rw [if_neg h1, if_neg fun h => h1 ((divisors_iff hf hs).1 h)]
    split
    · exact Iff.rfl
    · constructor <;> intro h <;> cases h

theorem rounded_ok {fl : Rat → Rat} (hf : Rounds fl) {std : Std} {s : PowerSpec} (hs : NonNegative s) {stats : SimStats} {e : Energy}
    (h : s.calcEnergy std stats = .ok e) : ∃ e', (Arith.rounded fl).calcEnergy std s stats = .ok e' := by
  cases h' : (Arith.rounded fl).calcEnergy std s stats with
  | ok e' => exact ⟨e', rfl⟩
  | error x =>
    rw [(C61_outcome fl hf std s hs stats x).1 h'] at h
    cases h

/-- A `Near` as a bound. -/
theorem Near.bound {k K : Nat} {x' x m : Rat} (h : Near k x' x (10 * m)) (hk : k ≤ K) (hK : K ≤ 2 ^ 51) :
    |x' - x| ≤ K * (5 / 10 ^ 15) * m := by
  have h1 := (h.more hk).err
  have h2 := grow_le K hK
  have h3 := h.nonneg
  have h4 : (0 : Rat) ≤ K := Nat.cast_nonneg K
  refine le_trans h1 ?_
  have h5 : (grow K - 1) * (10 * m) ≤ K / 2 ^ 51 * (10 * m) := mul_le_mul_of_nonneg_right (by linarith) h3
  have h6 : (K : Rat) / 2 ^ 51 * 10 ≤ K * (5 / 10 ^ 15) := by
    rw [div_mul_eq_mul_div, mul_div_assoc]
    exact mul_le_mul_of_nonneg_left (by norm_num) h4
  have h7 : 0 ≤ m := by linarith
  nlinarith

/-- Every part of the energy of every bank differs from the exact value by less than a trillionth of the energy of the largest current during
the time the part is charged for. -/
theorem C61_bank (fl : Rat → Rat) (hf : Rounds fl) (std : Std) (s : PowerSpec) (hs : NonNegative s) (hD : s.domains.length ≤ 3) (stats : SimStats)
    (e : Energy) (h : s.calcEnergy std stats = .ok e) :
    ∃ e', (Arith.rounded fl).calcEnergy std s stats = .ok e' ∧ e'.bank.length = e.bank.length ∧
      ∀ r d b, r < s.ranks → d < s.devices → b < s.banks → ∀ c,
        |entry e' ((r * s.devices + d) * s.banks + b) c - entry e ((r * s.devices + d) * s.banks + b) c| ≤ 2 / 10 ^ 13 * fullBank std s stats r b c := by
  obtain ⟨e', h'⟩ := rounded_ok hf hs h
  refine ⟨e', h', by rw [((Arith.rounded fl).calc_closed h').length, (PowerSpec.calc_closed h).length], fun r d b hr hd hb c => ?_⟩
  have hn := near_bank hf hs h h' hr hd hb c
  rw [PowerSpec.energyIndex_eq] at hn
  have := hn.bound (K := 27) (by omega) (by norm_num)
  have h7 : 0 ≤ fullBank std s stats r b c := by linarith [hn.nonneg]
  refine le_trans this (mul_le_mul_of_nonneg_right (by norm_num) h7)

/-- The same for the shared parts; every rank adds to the error. -/
theorem C61_shared (fl : Rat → Rat) (hf : Rounds fl) (std : Std) (s : PowerSpec) (hs : NonNegative s) (hD : s.domains.length ≤ 3)
    (hR : s.ranks ≤ 10 ^ 12) (stats : SimStats) (e : Energy) (h : s.calcEnergy std stats = .ok e) :
    ∃ e', (Arith.rounded fl).calcEnergy std s stats = .ok e' ∧
      ∀ c : SharedComponent, |c.of e'.shared - c.of e.shared| ≤ (24 + 3 * s.ranks : Nat) * (5 / 10 ^ 15) * fullShared s stats c := by
  obtain ⟨e', h'⟩ := rounded_ok hf hs h
  refine ⟨e', h', fun c => (near_shared hf hs h h' c).bound ?_ (by norm_num at hR ⊢; omega)⟩
  have := Nat.mul_le_mul_right s.ranks hD
  omega

/-- The same for the total energy; every rank and every bank of every device adds to the error. -/
theorem C61_total (fl : Rat → Rat) (hf : Rounds fl) (std : Std) (s : PowerSpec) (hs : NonNegative s) (hD : s.domains.length ≤ 3)
    (hR : s.ranks ≤ 10 ^ 12) (hN : s.ranks * s.devices * s.banks ≤ 10 ^ 12) (stats : SimStats) (e : Energy)
    (h : s.calcEnergy std stats = .ok e) :
    ∃ e', (Arith.rounded fl).calcEnergy std s stats = .ok e' ∧
      |(Arith.rounded fl).total e' - e.total| ≤
        (46 + 3 * s.ranks + s.ranks * s.devices * s.banks : Nat) * (5 / 10 ^ 15) * fullTotal std s stats := by
  obtain ⟨e', h'⟩ := rounded_ok hf hs h
  refine ⟨e', h', (near_total hf hs h h').bound ?_ (by norm_num at hR hN ⊢; omega)⟩
  have := Nat.mul_le_mul_right s.ranks hD
  omega

/-- Without rounding it is the calculation of the other properties. -/
theorem C61_exact (std : Std) (s : PowerSpec) (stats : SimStats) (e : Energy) :
    Arith.exact.calcEnergy std s stats = s.calcEnergy std stats ∧ Arith.exact.total e = e.total :=
  ⟨by cases std <;> rfl, rfl⟩

/-- `decimalSpec` has no negative numbers, its calculation succeeds, and rounding does something: the reported total is not the exact one. -/
example : NonNegative decimalSpec ∧ decimalSpec.domains.length ≤ 3 ∧ decimalSpec.ranks ≤ 10 ^ 12 ∧
    decimalSpec.ranks * decimalSpec.devices * decimalSpec.banks ≤ 10 ^ 12 ∧
    (match decimalSpec.calcEnergy .ddr4 (decimalStats 1000), (Arith.rounded Arith.double).calcEnergy .ddr4 decimalSpec (decimalStats 1000) with
      | .ok e, .ok e' => decide (e.total ≠ (Arith.rounded Arith.double).total e' ∧ entry e 0 .act ≠ entry e' 0 .act)
      | _, _ => false) = true := by
  refine ⟨⟨by decide +kernel, by decide +kernel, by decide +kernel, ?_, ?_⟩, by decide, by decide, by decide, by decide +kernel⟩
  · decide +kernel
  · decide +kernel

end DRAMPower
