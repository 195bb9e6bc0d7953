import Verif.Spec.Signals
import Mathlib.Tactic.Ring
import Mathlib.Tactic.Linarith
import Mathlib.Tactic.Positivity
import Mathlib.Algebra.Order.Field.Rat

/-! # Lemmas on the interface energy calculation -/

namespace DRAMPower
open Spec

theorem drained_eq (std : Std) (b : BusStats) : WireSpec.drained std b = Group.lossy std b := by cases std <;> rfl

/-- A group whose figures are evaluated with its own termination flag. -/
theorem pair_group {std : Std} {s : WireSpec} {st : SimStats} (g : Group) (h : g.Defined std s) :
    s.pair std (g.wiring s.imp) (g.wiring s.imp).termination (g.figures st) (g.period s) (g.rate std s) =
      .ok { static := g.static std s st, dynamic := g.dynamic s st } := by
  unfold WireSpec.pair WireSpec.termination Group.static Group.dynamic WireSpec.dynamic
  by_cases ht : (g.wiring s.imp).termination = true
  · obtain ⟨h1, h2⟩ := h ht
    rw [if_neg (by simp [ht]), if_neg (by simp [h1, h2]), if_pos ht]
    simp only [bind, Except.bind, pure, Except.pure, WireSpec.static, Group.power, drained_eq]
    congr 2 <;> ring
  · have hf : (g.wiring s.imp).termination = false := by simpa using ht
    rw [if_pos hf, if_neg ht]
    simp only [bind, Except.bind, pure, Except.pure]
    congr 2; ring

/-- The same with another flag, if that flag makes no difference. -/
theorem pair_flag {std : Std} {s : WireSpec} {st : SimStats} (g : Group) (on : Bool) (h : g.Defined std s)
    (hf : on = (g.wiring s.imp).termination ∨
      ((g.wiring s.imp).termination = false ∧ (g.wiring s.imp).rEq ≠ 0 ∧ g.rate std s ≠ 0 ∧ Group.lossy std (g.figures st) = 0)) :
    s.pair std (g.wiring s.imp) on (g.figures st) (g.period s) (g.rate std s) =
      .ok { static := g.static std s st, dynamic := g.dynamic s st } := by
  rcases hf with hf | ⟨h0, h1, h2, h3⟩
  · rw [hf]; exact pair_group g h
  · rw [← pair_group g h]
    unfold WireSpec.pair WireSpec.termination
    rw [if_pos h0, if_neg (show ¬ ((g.wiring s.imp).rEq = 0 ∨ g.rate std s = 0) by simp [h1, h2])]
    split
    · rfl
    · rw [drained_eq, h3]
      simp [WireSpec.static]

theorem info_ext {a b : InterfaceInfo} (h1 : a.controller.static = b.controller.static) (h2 : a.controller.dynamic = b.controller.dynamic)
    (h3 : a.dram.static = b.dram.static) (h4 : a.dram.dynamic = b.dram.dynamic) : a = b := by
  obtain ⟨⟨a1, a2⟩, ⟨a3, a4⟩⟩ := a
  obtain ⟨⟨b1, b2⟩, ⟨b3, b4⟩⟩ := b
  simp only at h1 h2 h3 h4
  subst h1 h2 h3 h4
  rfl

theorem amble_ok {s : WireSpec} {st : SimStats} (read : Bool)
    (hd : (if read then s.imp.rdqs else s.imp.wdqs).termination = true → (if read then s.imp.rdqs else s.imp.wdqs).rEq ≠ 0)
    (h1 : WireSpec.transferCount st read = transfersOf st read) (h2 : gaplessOf st read ≤ transfersOf st read)
    (h3 : ambleCount s st read * (if read then s.ambles.readZeroesToOnes else s.ambles.writeZeroesToOnes) < 2 ^ 64) :
    s.ambleEnergy st (if read then s.imp.rdqs else s.imp.wdqs) read =
      .ok { static := ambleStatic .ddr4 s st read, dynamic := ambleDynamic .ddr4 s st read } := by
  have e : usub (WireSpec.transferCount st read) (WireSpec.seamlessCount st read) = transfersOf st read - gaplessOf st read := by
    rw [h1]; exact if_pos h2
  have key : ∀ (w : Wiring) (zeroes : Rat) (rises : Nat), (w.termination = true → w.rEq ≠ 0) → ambleCount s st read * rises < 2 ^ 64 →
      (if w.termination = false then (.ok {} : Except Err InterfaceEnergy)
        else if w.rEq = 0 then .error (.exception "division by zero")
        else .ok { static := WireSpec.static (s.pairs * zeroes * (transfersOf st read - gaplessOf st read : Nat)) w.rEq s.tCK s.vddq
                   dynamic := WireSpec.dynamic (s.pairs * rises * (transfersOf st read - gaplessOf st read) % 2 ^ 64) w.dynE }) =
      .ok { static := if Std.ddr4 = .ddr4 ∧ w.termination then s.vddq * s.vddq / w.rEq * (ambleCount s st read * zeroes * s.tCK) else 0
            dynamic := if Std.ddr4 = .ddr4 ∧ w.termination then w.dynE * (ambleCount s st read * rises : Nat) else 0 } := by
    intro w zeroes rises hd h3
    by_cases ht : w.termination = true
    · rw [if_neg (by simp [ht]), if_neg (hd ht), if_pos ⟨rfl, ht⟩, if_pos ⟨rfl, ht⟩]
      have e2 : s.pairs * rises * (transfersOf st read - gaplessOf st read) = ambleCount s st read * rises := by
        unfold WireSpec.pairs ambleCount; ring
      rw [e2, Nat.mod_eq_of_lt h3]
      congr 2
      · simp only [WireSpec.dynamic]; ring
      · simp only [WireSpec.static, ambleCount, WireSpec.pairs, Nat.cast_mul]; ring
    · rw [if_pos (by simpa using ht), if_neg (by simp [ht]), if_neg (by simp [ht])]
  unfold WireSpec.ambleEnergy ambleStatic ambleDynamic
  rw [e]
  exact key _ _ _ hd h3

end DRAMPower
