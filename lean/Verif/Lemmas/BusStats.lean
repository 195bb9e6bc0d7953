import Verif.Model.Bus
import Verif.Spec.Waveform

/-! # Arithmetic of bus statistics; bit sets against wire levels -/

namespace DRAMPower
open Spec

namespace BusStats

theorem ext' {a b : BusStats} (h1 : a.ones = b.ones) (h2 : a.zeroes = b.zeroes) (h3 : a.bitChanges = b.bitChanges)
    (h4 : a.onesToZeroes = b.onesToZeroes) (h5 : a.zeroesToOnes = b.zeroesToOnes) : a = b := by
  cases a; cases b; simp_all

@[simp] theorem add_ones (a b : BusStats) : (a + b).ones = a.ones + b.ones := rfl
@[simp] theorem add_zeroes (a b : BusStats) : (a + b).zeroes = a.zeroes + b.zeroes := rfl
@[simp] theorem add_bitChanges (a b : BusStats) : (a + b).bitChanges = a.bitChanges + b.bitChanges := rfl
@[simp] theorem add_onesToZeroes (a b : BusStats) : (a + b).onesToZeroes = a.onesToZeroes + b.onesToZeroes := rfl
@[simp] theorem add_zeroesToOnes (a b : BusStats) : (a + b).zeroesToOnes = a.zeroesToOnes + b.zeroesToOnes := rfl
@[simp] theorem mul_ones (k : Nat) (a : BusStats) : (k * a).ones = a.ones * k := rfl
@[simp] theorem mul_zeroes (k : Nat) (a : BusStats) : (k * a).zeroes = a.zeroes * k := rfl
@[simp] theorem mul_bitChanges (k : Nat) (a : BusStats) : (k * a).bitChanges = a.bitChanges * k := rfl
@[simp] theorem mul_onesToZeroes (k : Nat) (a : BusStats) : (k * a).onesToZeroes = a.onesToZeroes * k := rfl
@[simp] theorem mul_zeroesToOnes (k : Nat) (a : BusStats) : (k * a).zeroesToOnes = a.zeroesToOnes * k := rfl

theorem add_assoc (a b c : BusStats) : a + b + c = a + (b + c) := by
  apply ext' <;> simp [Nat.add_assoc]

theorem add_comm (a b : BusStats) : a + b = b + a := by
  apply ext' <;> simp [Nat.add_comm]

theorem add_right_comm (a b c : BusStats) : a + b + c = a + c + b := by
  apply ext' <;> simp <;> omega

@[simp] theorem add_zero (a : BusStats) : a + ({} : BusStats) = a := by
  apply ext' <;> simp

@[simp] theorem zero_add (a : BusStats) : ({} : BusStats) + a = a := by
  apply ext' <;> simp

@[simp] theorem zero_mul (a : BusStats) : 0 * a = ({} : BusStats) := by
  apply ext' <;> simp

theorem one_mul (a : BusStats) : 1 * a = a := by
  apply ext' <;> simp

theorem add_mul (m n : Nat) (a : BusStats) : (m + n) * a = m * a + n * a := by
  apply ext' <;> simp [Nat.mul_add]

theorem succ_mul (n : Nat) (a : BusStats) : (n + 1) * a = n * a + a := by
  rw [add_mul, one_mul]

end BusStats

/-! ## Bit sets -/

theorem countP_range_le {p : Nat → Bool} {m n : Nat} (hmn : m ≤ n) (h : ∀ j, m ≤ j → j < n → p j = false) :
    (List.range n).countP p = (List.range m).countP p := by
  induction n with
  | zero => simp_all
  | succ n ih =>
    by_cases hm : m = n + 1
    · rw [hm]
    · rw [List.range_succ, List.countP_append, ih (by omega) fun j h1 h2 => h j h1 (by omega)]
      simp [h n (by omega) (by omega)]

theorem getLsbD_setBit {N : Nat} (x : BitVec N) (i : Nat) (v : Bool) (j : Nat) (hi : i < N) :
    (setBit x i v).getLsbD j = if j = i then v else x.getLsbD j := by
  unfold setBit
  by_cases hj : j = i
  · subst hj
    cases v <;> simp [BitVec.getLsbD_twoPow, hi]
  · cases v
    · simp only [Bool.false_eq_true, if_false, hj]
      by_cases hjN : j < N
      · simp [BitVec.getLsbD_twoPow, hjN, Ne.symm hj, hj]
      · simp [BitVec.getLsbD_of_ge _ _ (by omega : N ≤ j)]
    · simp only [if_true, hj, if_false]
      simp [BitVec.getLsbD_twoPow, Ne.symm hj]

/-- No bits at or above `width`. -/
def Narrow {N : Nat} (width : Nat) (w : BitVec N) : Prop := ∀ j, width ≤ j → w.getLsbD j = false

theorem narrow_zero {N width : Nat} : Narrow width (0 : BitVec N) := by intro j _; simp

theorem popcount_narrow {N width : Nat} {w : BitVec N} (hw : width ≤ N) (h : Narrow width w) :
    popcount w = wires width fun j => w.getLsbD j :=
  countP_range_le hw fun j hj _ => h j hj

theorem popcount_le {N width : Nat} {w : BitVec N} (hw : width ≤ N) (h : Narrow width w) : popcount w ≤ width := by
  rw [popcount_narrow hw h]
  exact Nat.le_trans List.countP_le_length (by simp)

theorem wires_not (width : Nat) (p : Nat → Bool) : (wires width fun j => !p j) = width - wires width p := by
  have := List.length_eq_countP_add_countP (l := List.range width) p
  simp only [List.length_range] at this
  unfold wires
  have e : (List.range width).countP (fun j => !p j) = (List.range width).countP (fun a => decide ¬p a = true) := by
    congr 1; funext j; cases p j <;> rfl
  rw [e]
  omega

/-- `Bus::diff` on narrow words is the contribution of one beat. -/
theorem diff_eq {N width : Nat} {p q : BitVec N} (hw : width ≤ N) (hp : Narrow width p) (hq : Narrow width q) :
    Bus.diff width p q = beat width p.getLsbD q.getLsbD := by
  have hle := popcount_le hw hq
  have e1 := popcount_narrow hw hq
  have n1 : Narrow width (p ^^^ q) := by intro j hj; simp [hp j hj, hq j hj]
  have n2 : Narrow width (p &&& ~~~ q) := by intro j hj; simp [hp j hj]
  have n3 : Narrow width (~~~ p &&& q) := by intro j hj; simp [hq j hj]
  apply BusStats.ext'
  · exact e1
  · show usub width (popcount q) = _
    rw [usub, if_pos hle, e1]
    exact (wires_not _ _).symm
  · show popcount (p ^^^ q) = _
    rw [popcount_narrow hw n1]
    simp [beat, wires]
  · show popcount (p &&& ~~~ q) = _
    rw [popcount_narrow hw n2]
    refine List.countP_congr ?_
    intro j hj
    have : j < N := by have := List.mem_range.mp hj; omega
    simp [this]
  · show popcount (~~~ p &&& q) = _
    rw [popcount_narrow hw n3]
    refine List.countP_congr ?_
    intro j hj
    have : j < N := by have := List.mem_range.mp hj; omega
    simp [this]

theorem fill_aux {N : Nat} (f : Nat → Bool) (w : BitVec N) : ∀ n, n ≤ N → ∀ j,
    ((List.range n).foldl (fun w j => setBit w j (f j)) w).getLsbD j = if j < n then f j else w.getLsbD j := by
  intro n
  induction n with
  | zero => intro _ j; simp
  | succ n ih =>
    intro hn j
    rw [List.range_succ, List.foldl_append]
    simp only [List.foldl_cons, List.foldl_nil]
    rw [getLsbD_setBit _ _ _ _ (by omega), ih (by omega)]
    by_cases h : j = n
    · simp [h]
    · rw [if_neg h]
      by_cases h2 : j < n
      · rw [if_pos h2, if_pos (by omega)]
      · rw [if_neg h2, if_neg (by omega)]

theorem payloadBit_eq (data : List UInt8) (i : Nat) : payloadBit data i = bitOf data i := by
  unfold payloadBit bitOf
  rw [Nat.testBit_eq_decide_div_mod_eq]
  simp [BEq.beq]

theorem fillWord_get {N width : Nat} (data : List UInt8) (i : Nat) (w : BitVec N) (hw : width ≤ N) (j : Nat) :
    (fillWord width data i w).getLsbD j = if j < width then payloadWord width data i j else w.getLsbD j := by
  unfold fillWord
  rw [fill_aux _ _ _ hw]
  simp [payloadWord, payloadBit_eq]

theorem idleOf_get {N width : Nat} (idle : IdlePattern) (hw : width ≤ N) (j : Nat) :
    (Bus.idleOf width idle : BitVec N).getLsbD j = (decide (j < width) && idle == .H) := by
  cases idle
  · simp [Bus.idleOf]
  · simp only [Bus.idleOf]
    rw [fill_aux (fun _ => true) _ _ hw]
    by_cases h : j < width <;> simp [h]

end DRAMPower
