import Verif.Spec.Growth
import Verif.Lemmas.InterfaceSum

/-!
# Larger figures, larger interface energy
-/

namespace DRAMPower
open Spec

variable {std : Std} {s : WireSpec}

namespace Spec.InterfaceLe

theorem add {a b c d : InterfaceInfo} (h : InterfaceLe a b) (h' : InterfaceLe c d) : InterfaceLe (a.add c) (b.add d) :=
  ⟨add_le_add h.1 h'.1, add_le_add h.2 h'.2, add_le_add h.3 h'.3, add_le_add h.4 h'.4⟩

theorem total {a b : InterfaceInfo} (h : InterfaceLe a b) : a.total ≤ b.total := by
  obtain ⟨h1, h2, h3, h4⟩ := h
  simp only [InterfaceInfo.total]
  linarith

end Spec.InterfaceLe

theorem drained_le {a b : BusStats} (h : FiguresLe a b) : WireSpec.drained std a ≤ WireSpec.drained std b := by
  cases std <;> first | exact h.zeroes | exact h.ones

theorem pair_grows {w : Wiring} {on : Bool} {a b : BusStats} {t : Rat} {rate : Nat} {e f : InterfaceEnergy} (h : FiguresLe a b)
    (hr : 0 ≤ w.rEq) (hd : 0 ≤ w.dynE) (ht : 0 ≤ t) (ha : s.pair std w on a t rate = .ok e) (hb : s.pair std w on b t rate = .ok f) :
    e.static ≤ f.static ∧ e.dynamic ≤ f.dynamic := by
  obtain ⟨-, e1, e2⟩ := pair_ok ha
  obtain ⟨-, f1, f2⟩ := pair_ok hb
  have h1 : (WireSpec.drained std a : Rat) ≤ WireSpec.drained std b := by exact_mod_cast drained_le h
  have h2 : (a.zeroesToOnes : Rat) ≤ b.zeroesToOnes := by exact_mod_cast h.rises
  rw [e1, e2, f1, f2]
  refine ⟨?_, mul_le_mul_of_nonneg_right h2 hd⟩
  split
  · have : 0 ≤ s.vddq * s.vddq := mul_self_nonneg _
    have h3 : 0 ≤ s.vddq * s.vddq / w.rEq := by positivity
    have h4 : 0 ≤ t / rate := by positivity
    exact mul_le_mul_of_nonneg_right (mul_le_mul_of_nonneg_right h1 h3) h4
  · exact le_refl _

/-- Equal counters of the ranks, larger figures: larger energy. -/
theorem energy_grows (hp : Physical s) {x y : SimStats} {e f : InterfaceInfo}
    (h4 : std = .ddr4 → ∀ read, WireSpec.transferCount x read = WireSpec.transferCount y read ∧
      WireSpec.seamlessCount x read = WireSpec.seamlessCount y read)
    (h : ∀ g : Group, FiguresLe (g.figures x) (g.figures y))
    (he : s.calculateEnergy std x = .ok e) (hf : s.calculateEnergy std y = .ok f) : InterfaceLe e f := by
  have P : ∀ (g : Group) {on t rate a b}, 0 ≤ t → s.pair std (g.wiring s.imp) on (g.figures x) t rate = .ok a →
      s.pair std (g.wiring s.imp) on (g.figures y) t rate = .ok b → a.static ≤ b.static ∧ a.dynamic ≤ b.dynamic :=
    fun g _ _ _ _ _ ht hx hy => pair_grows (h g) (hp.wires g).1 (hp.wires g).2 ht hx hy
  unfold WireSpec.calculateEnergy at he hf
  obtain ⟨clock, x1, he⟩ := bind_ok he
  obtain ⟨dqs, x2, he⟩ := bind_ok he
  obtain ⟨toggling, x3, he⟩ := bind_ok he
  obtain ⟨dq, x4, he⟩ := bind_ok he
  obtain ⟨ca, x5, he⟩ := bind_ok he
  obtain ⟨clock', y1, hf⟩ := bind_ok hf
  obtain ⟨dqs', y2, hf⟩ := bind_ok hf
  obtain ⟨toggling', y3, hf⟩ := bind_ok hf
  obtain ⟨dq', y4, hf⟩ := bind_ok hf
  obtain ⟨ca', y5, hf⟩ := bind_ok hf
  have z1 : InterfaceLe clock clock' := by
    unfold WireSpec.clockEnergy at x1 y1
    obtain ⟨ck, c1, x1⟩ := bind_ok x1
    obtain ⟨ck', c1', y1⟩ := bind_ok y1
    have q1 := P .clock hp.tCK c1 c1'
    split at x1
    · rename_i hm
      rw [if_pos hm] at y1
      obtain ⟨wck, c2, x1⟩ := bind_ok x1
      obtain ⟨wck', c2', y1⟩ := bind_ok y1
      have q2 := P .dataClock hp.tWCK c2 c2'
      rw [← pure_ok x1, ← pure_ok y1]
      exact ⟨add_le_add q1.1 q2.1, add_le_add q1.2 q2.2, le_refl _, le_refl _⟩
    · rename_i hm
      rw [if_neg hm] at y1
      rw [← pure_ok x1, ← pure_ok y1]
      exact ⟨q1.1, q1.2, le_refl _, le_refl _⟩
  have z2 : InterfaceLe dqs dqs' := by
    unfold WireSpec.dqsEnergy at x2 y2
    obtain ⟨r, c1, x2⟩ := bind_ok x2
    obtain ⟨r', c1', y2⟩ := bind_ok y2
    have q1 := P .readStrobe hp.tCK c1 c1'
    split at x2
    · rename_i hm
      rw [if_pos hm] at y2
      rw [← pure_ok x2, ← pure_ok y2]
      exact ⟨le_refl _, le_refl _, q1.1, q1.2⟩
    · rename_i hm
      rw [if_neg hm] at y2
      obtain ⟨w, c2, x2⟩ := bind_ok x2
      obtain ⟨w', c2', y2⟩ := bind_ok y2
      have q2 := P .writeStrobe hp.tCK c2 c2'
      split at x2
      · rename_i hd
        rw [if_pos hd] at y2
        obtain ⟨wa, c3, x2⟩ := bind_ok x2
        obtain ⟨ra, c4, x2⟩ := bind_ok x2
        obtain ⟨wa', c3', y2⟩ := bind_ok y2
        obtain ⟨ra', c4', y2⟩ := bind_ok y2
        have same : ∀ w read, s.ambleEnergy x w read = s.ambleEnergy y w read := fun w read => by
          unfold WireSpec.ambleEnergy
          rw [(h4 hd read).1, (h4 hd read).2]
        rw [same] at c3 c4
        have e3 := Except.ok.inj (c3.symm.trans c3')
        have e4 := Except.ok.inj (c4.symm.trans c4')
        rw [← pure_ok x2, ← pure_ok y2, e3, e4]
        exact ⟨add_le_add (le_refl _) q2.1, add_le_add (le_refl _) q2.2, add_le_add (le_refl _) q1.1, add_le_add (le_refl _) q1.2⟩
      · rename_i hd
        rw [if_neg hd] at y2
        rw [← pure_ok x2, ← pure_ok y2]
        exact ⟨q2.1, q2.2, q1.1, q1.2⟩
  have z3 : InterfaceLe toggling toggling' := by
    unfold WireSpec.togglingEnergy at x3 y3
    obtain ⟨w, c1, x3⟩ := bind_ok x3
    obtain ⟨r, c2, x3⟩ := bind_ok x3
    obtain ⟨w', c1', y3⟩ := bind_ok y3
    obtain ⟨r', c2', y3⟩ := bind_ok y3
    have q1 := P .writeRate hp.tCK c1 c1'
    have q2 := P .readRate hp.tCK c2 c2'
    rw [← pure_ok x3, ← pure_ok y3]
    exact ⟨q1.1, q1.2, q2.1, q2.2⟩
  have z4 : InterfaceLe dq dq' := by
    unfold WireSpec.dqEnergy at x4 y4
    obtain ⟨r, c1, x4⟩ := bind_ok x4
    obtain ⟨w, c2, x4⟩ := bind_ok x4
    obtain ⟨r', c1', y4⟩ := bind_ok y4
    obtain ⟨w', c2', y4⟩ := bind_ok y4
    have q1 := P .readData hp.tCK c1 c1'
    have q2 := P .writeData hp.tCK c2 c2'
    rw [← pure_ok x4, ← pure_ok y4]
    exact ⟨q2.1, q2.2, q1.1, q1.2⟩
  have z5 : InterfaceLe ca ca' := by
    unfold WireSpec.caEnergy at x5 y5
    obtain ⟨r, c1, x5⟩ := bind_ok x5
    obtain ⟨r', c1', y5⟩ := bind_ok y5
    have q1 := P .command hp.tCK c1 c1'
    rw [← pure_ok x5, ← pure_ok y5]
    exact ⟨q1.1, q1.2, le_refl _, le_refl _⟩
  have z0 : InterfaceLe {} {} := ⟨le_refl _, le_refl _, le_refl _, le_refl _⟩
  have z := ((((z0.add z1).add z2).add z3).add z4).add z5
  split at he
  · rename_i hd
    rw [if_pos hd] at hf
    rw [← pure_ok he, ← pure_ok hf]
    exact z
  · rename_i hd
    rw [if_neg hd] at hf
    obtain ⟨dbi, x6, he⟩ := bind_ok he
    obtain ⟨dbi', y6, hf⟩ := bind_ok hf
    have z6 : InterfaceLe dbi dbi' := by
      unfold WireSpec.dbiEnergy at x6 y6
      obtain ⟨r, c1, x6⟩ := bind_ok x6
      obtain ⟨w, c2, x6⟩ := bind_ok x6
      obtain ⟨r', c1', y6⟩ := bind_ok y6
      obtain ⟨w', c2', y6⟩ := bind_ok y6
      have q1 := P .readInv hp.tCK c1 c1'
      have q2 := P .writeInv hp.tCK c2 c2'
      rw [← pure_ok x6, ← pure_ok y6]
      exact ⟨q2.1, q2.2, q1.1, q1.2⟩
    rw [← pure_ok he, ← pure_ok hf]
    exact z.add z6

end DRAMPower
