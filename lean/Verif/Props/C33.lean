import Verif.Lemmas.Stats
import Verif.Lemmas.BusStats

/-! # C33: Statistics form a commutative monoid -/

namespace DRAMPower
open Spec

/-- Addition is componentwise; lists of different length are added as if the shorter one were continued with zeroes. -/
theorem C33_componentwise (a b : SimStats) :
    (∀ (k : StatBus) (c : BusCount), c.of (k.of (a.add b)) = c.of (k.of a) + c.of (k.of b)) ∧
    (a.add b).bank.length = max a.bank.length b.bank.length ∧
    (a.add b).rankTotal.length = max a.rankTotal.length b.rankTotal.length ∧
    (∀ i (c : CoreCount), coreAt (a.add b).bank i c = coreAt a.bank i c + coreAt b.bank i c) ∧
    ∀ i (c : CoreCount), coreAt (a.add b).rankTotal i c = coreAt a.rankTotal i c + coreAt b.rankTotal i c := by
  refine ⟨fun k c => ?_, addCycles_length _ _, addCycles_length _ _, fun i c => ?_, fun i c => ?_⟩
  · cases k <;> cases c <;> rfl
  · unfold coreAt; rw [← CoreCount.of_add, ← addCycles_getD]; rfl
  · unfold coreAt; rw [← CoreCount.of_add, ← addCycles_getD]; rfl

/-- Two statistics with one and two banks. -/
example : coreAt (SimStats.add { bank := [{ counter := { act := 1 } }] }
    { bank := [{ counter := { act := 2 } }, { cycles := { pre := 7 } }] }).bank 1 .cyclesPre = 7 := by decide +kernel

/-- Statistics with equal components are equal. -/
theorem SimStats.ext_count {a b : SimStats} (hb : ∀ k : StatBus, k.of a = k.of b) (h1 : a.bank = b.bank)
    (h2 : a.rankTotal = b.rankTotal) : a = b := by
  obtain ⟨_, _, _, _, _, _, _, _, _, _, _, _, _⟩ := a
  obtain ⟨_, _, _, _, _, _, _, _, _, _, _, _, _⟩ := b
  simp only [SimStats.mk.injEq]
  exact ⟨hb .commandBus, hb .readBus, hb .writeBus, hb .clock, hb .wclock, hb .readDBI, hb .writeDBI, hb .togglingRead,
    hb .togglingWrite, hb .readDQS, hb .writeDQS, h1, h2⟩

theorem StatBus.of_add (k : StatBus) (a b : SimStats) : k.of (a.add b) = k.of a + k.of b := by cases k <;> rfl

/-- Commutative. -/
theorem C33_comm (a b : SimStats) : a.add b = b.add a :=
  SimStats.ext_count (fun k => by rw [StatBus.of_add, StatBus.of_add, BusStats.add_comm]) (addCycles_comm _ _) (addCycles_comm _ _)

/-- Associative. -/
theorem C33_assoc (a b c : SimStats) : (a.add b).add c = a.add (b.add c) :=
  SimStats.ext_count (fun k => by simp only [StatBus.of_add, BusStats.add_assoc]) (addCycles_assoc _ _ _) (addCycles_assoc _ _ _)

/-- The empty statistics are neutral. -/
theorem C33_neutral (a : SimStats) : a.add {} = a ∧ SimStats.add {} a = a := by
  have h : a.add {} = a := SimStats.ext_count
    (fun k => by rw [StatBus.of_add, show k.of {} = ({} : BusStats) by cases k <;> rfl, BusStats.add_zero])
    (addCycles_nil _) (addCycles_nil _)
  exact ⟨h, by rw [C33_comm]; exact h⟩

/-- `==` holds exactly if all components are equal. -/
theorem C33_eq (a b : SimStats) : a.eq b = true ↔
    (∀ (k : StatBus) (c : BusCount), c.of (k.of a) = c.of (k.of b)) ∧
    a.bank.length = b.bank.length ∧ a.rankTotal.length = b.rankTotal.length ∧
    (∀ i (c : CoreCount), coreAt a.bank i c = coreAt b.bank i c) ∧ ∀ i (c : CoreCount), coreAt a.rankTotal i c = coreAt b.rankTotal i c := by
  have hiff : a.eq b = true ↔ (∀ k : StatBus, k.of a = k.of b) ∧ a.bank = b.bank ∧ a.rankTotal = b.rankTotal := by
    unfold SimStats.eq
    simp only [Bool.and_eq_true, BusStats.eq_iff, eqCycles_iff, and_assoc]
    constructor
    · rintro ⟨h1, h2, h3, h4, h5, h6, h7, h8, h9, h10, h11, h12, h13⟩
      exact ⟨fun k => by cases k <;> assumption, h12, h13⟩
    · rintro ⟨h, h12, h13⟩
      exact ⟨h .commandBus, h .readBus, h .writeBus, h .clock, h .wclock, h .readDBI, h .writeDBI, h .togglingRead,
        h .togglingWrite, h .readDQS, h .writeDQS, h12, h13⟩
  rw [hiff]
  constructor
  · rintro ⟨h1, h2, h3⟩
    exact ⟨fun k c => by rw [h1], by rw [h2], by rw [h3], fun i c => by rw [h2], fun i c => by rw [h3]⟩
  · rintro ⟨h1, h2, h3, h4, h5⟩
    refine ⟨fun k => ?_, addCycles_ext h2 fun j => CycleStats.ext_count (h4 j), addCycles_ext h3 fun j => CycleStats.ext_count (h5 j)⟩
    exact BusStats.ext' (h1 k .ones) (h1 k .zeroes) (h1 k .bitChanges) (h1 k .onesToZeroes) (h1 k .zeroesToOnes)

example : SimStats.eq { bank := [{ prepos := { writeSeamless := 1 } }] } { bank := [{}] } = false := by decide +kernel

/-- Scaling of bus statistics multiplies every component and distributes over addition. -/
theorem C33_scale (k l : Nat) (a b : BusStats) :
    (∀ c : BusCount, c.of (k * a) = k * c.of a) ∧ k * (a + b) = k * a + k * b ∧ (k + l) * a = k * a + l * a ∧
    (k * l) * a = k * (l * a) ∧ 1 * a = a ∧ 0 * a = ({} : BusStats) := by
  have hs : ∀ (k : Nat) (a : BusStats) (c : BusCount), c.of (k * a) = k * c.of a := fun k a c => by
    cases c <;> exact Nat.mul_comm _ _
  have ha : ∀ (a b : BusStats) (c : BusCount), c.of (a + b) = c.of a + c.of b := fun a b c => by cases c <;> rfl
  have hx : ∀ a b : BusStats, (∀ c : BusCount, c.of a = c.of b) → a = b := fun a b h =>
    BusStats.ext' (h .ones) (h .zeroes) (h .bitChanges) (h .onesToZeroes) (h .zeroesToOnes)
  exact ⟨hs k a, hx _ _ fun c => by simp only [hs, ha, Nat.mul_add], BusStats.add_mul k l a,
    hx _ _ fun c => by simp only [hs, Nat.mul_assoc], BusStats.one_mul a, BusStats.zero_mul a⟩

example : 3 * ({ ones := 2, bitChanges := 1 } : BusStats) = { ones := 6, bitChanges := 3 } := by decide +kernel

end DRAMPower
