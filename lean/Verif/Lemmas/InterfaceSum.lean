import Verif.Lemmas.InterfaceEnergy
import Verif.Lemmas.Stats
import Verif.Lemmas.Interface

/-! # Additivity and sign of the interface energy -/

namespace DRAMPower
open Spec

theorem sum_getD (f : CycleStats → Nat) (h0 : f {} = 0) : ∀ (l : List CycleStats) (n : Nat), l.length ≤ n →
    (l.map f).sum = ((List.range n).map fun i => f (l.getD i {})).sum := by
  intro l
  induction l with
  | nil => intro n _; induction n with
    | zero => rfl
    | succ n ih => rw [List.range_succ, List.map_append, List.sum_append, ← ih (by simp)]; simp [h0]
  | cons x l ih =>
    intro n hn
    obtain ⟨n, rfl⟩ : ∃ m, n = m + 1 := ⟨n - 1, by simp at hn; omega⟩
    rw [List.range_succ_eq_map, List.map_cons, List.map_cons, List.sum_cons, List.sum_cons, List.map_map, ih n (by simpa using hn)]
    rfl

theorem sum_addCycles (f : CycleStats → Nat) (h0 : f {} = 0) (ha : ∀ x y : CycleStats, f (x.add y) = f x + f y) (a b : List CycleStats) :
    ((addCycles a b).map f).sum = (a.map f).sum + (b.map f).sum := by
  rw [sum_getD f h0 _ (max a.length b.length) (by rw [addCycles_length]), sum_getD f h0 a (max a.length b.length) (by omega),
    sum_getD f h0 b (max a.length b.length) (by omega)]
  generalize List.range (max a.length b.length) = l
  induction l with
  | nil => rfl
  | cons i l ih =>
    simp only [List.map_cons, List.sum_cons]
    rw [ih, addCycles_getD, ha]; omega

theorem transferCount_add (a b : SimStats) (read : Bool) :
    WireSpec.transferCount (a.add b) read = WireSpec.transferCount a read + WireSpec.transferCount b read := by
  unfold WireSpec.transferCount
  refine sum_addCycles _ (by cases read <;> rfl) ?_ _ _
  intro x y
  cases read <;> simp only [CycleStats.add, Counters.add, if_true, Bool.false_eq_true, if_false] <;> omega

theorem seamlessCount_add (a b : SimStats) (read : Bool) :
    WireSpec.seamlessCount (a.add b) read = WireSpec.seamlessCount a read + WireSpec.seamlessCount b read := by
  unfold WireSpec.seamlessCount
  refine sum_addCycles _ (by cases read <;> rfl) ?_ _ _
  intro x y
  cases read <;> rfl

variable {std : Std} {s : WireSpec}

theorem pair_ok {w : Wiring} {on : Bool} {b : BusStats} {t : Rat} {rate : Nat} {e : InterfaceEnergy}
    (h : s.pair std w on b t rate = .ok e) : (on = true → w.rEq ≠ 0 ∧ rate ≠ 0) ∧
      e.static = (if on then (WireSpec.drained std b : Rat) * (s.vddq * s.vddq / w.rEq) * (t / rate) else 0) ∧
      e.dynamic = (b.zeroesToOnes : Rat) * w.dynE := by
  unfold WireSpec.pair WireSpec.termination at h
  cases on with
  | false => rw [if_pos rfl] at h; cases h; exact ⟨(fun h => nomatch h), rfl, rfl⟩
  | true =>
    rw [if_neg (by decide)] at h
    split at h
    · cases h
    · rename_i hn
      cases h
      exact ⟨fun _ => ⟨fun h => hn (.inl h), fun h => hn (.inr h)⟩, rfl, rfl⟩

theorem pair_mk {w : Wiring} {on : Bool} {b : BusStats} {t : Rat} {rate : Nat} (h : on = true → w.rEq ≠ 0 ∧ rate ≠ 0) :
    s.pair std w on b t rate = .ok
      { static := if on then (WireSpec.drained std b : Rat) * (s.vddq * s.vddq / w.rEq) * (t / rate) else 0
        dynamic := (b.zeroesToOnes : Rat) * w.dynE } := by
  unfold WireSpec.pair WireSpec.termination
  cases on with
  | false => rfl
  | true =>
    rw [if_neg (by decide), if_neg (by rintro (h1 | h1); exacts [(h rfl).1 h1, (h rfl).2 h1])]
    rfl

theorem drained_add (b c : BusStats) : WireSpec.drained std (b + c) = WireSpec.drained std b + WireSpec.drained std c := by
  cases std <;> rfl

theorem energy_ext {a b : InterfaceEnergy} (h1 : a.static = b.static) (h2 : a.dynamic = b.dynamic) : a = b := by
  obtain ⟨_, _⟩ := a; obtain ⟨_, _⟩ := b; simp only at h1 h2; subst h1 h2; rfl

theorem pair_add {w : Wiring} {on : Bool} {b c : BusStats} {t : Rat} {rate : Nat} {e f : InterfaceEnergy}
    (h1 : s.pair std w on b t rate = .ok e) (h2 : s.pair std w on c t rate = .ok f) : s.pair std w on (b + c) t rate = .ok (e.add f) := by
  obtain ⟨d, e1, e2⟩ := pair_ok h1
  obtain ⟨-, f1, f2⟩ := pair_ok h2
  rw [pair_mk d]
  congr 1
  apply energy_ext
  · simp only [InterfaceEnergy.add, e1, f1, drained_add]
    split <;> push_cast <;> ring
  · simp only [InterfaceEnergy.add, e2, f2]
    rw [show (b + c).zeroesToOnes = b.zeroesToOnes + c.zeroesToOnes from rfl]
    push_cast; ring

theorem pair_nonneg {w : Wiring} {on : Bool} {b : BusStats} {t : Rat} {rate : Nat} {e : InterfaceEnergy}
    (h : s.pair std w on b t rate = .ok e) (hr : 0 ≤ w.rEq) (hd : 0 ≤ w.dynE) (ht : 0 ≤ t) : 0 ≤ e.static ∧ 0 ≤ e.dynamic := by
  obtain ⟨-, e1, e2⟩ := pair_ok h
  rw [e1, e2]
  refine ⟨?_, by positivity⟩
  split
  · have : 0 ≤ s.vddq * s.vddq := mul_self_nonneg _
    positivity
  · exact le_refl _

theorem amble_add {a b : SimStats} {w : Wiring} {read : Bool} {e f : InterfaceEnergy}
    (ha : WireSpec.seamlessCount a read ≤ WireSpec.transferCount a read) (hb : WireSpec.seamlessCount b read ≤ WireSpec.transferCount b read)
    (hlt : s.pairs * (if read then s.ambles.readZeroesToOnes else s.ambles.writeZeroesToOnes) *
      WireSpec.transferCount (a.add b) read < 2 ^ 64)
    (h1 : s.ambleEnergy a w read = .ok e) (h2 : s.ambleEnergy b w read = .ok f) : s.ambleEnergy (a.add b) w read = .ok (e.add f) := by
  unfold WireSpec.ambleEnergy at h1 h2 ⊢
  have u1 : usub (WireSpec.transferCount a read) (WireSpec.seamlessCount a read) = _ := if_pos ha
  have u2 : usub (WireSpec.transferCount b read) (WireSpec.seamlessCount b read) = _ := if_pos hb
  have u3 : usub (WireSpec.transferCount (a.add b) read) (WireSpec.seamlessCount (a.add b) read) =
      (WireSpec.transferCount a read - WireSpec.seamlessCount a read) + (WireSpec.transferCount b read - WireSpec.seamlessCount b read) := by
    rw [transferCount_add, seamlessCount_add]
    refine (if_pos (by omega)).trans (by omega)
  rw [transferCount_add] at hlt
  rw [u1] at h1
  rw [u2] at h2
  rw [u3]
  generalize (if read then s.ambles.readZeroes else s.ambles.writeZeroes) = z at h1 h2 ⊢
  generalize (if read then s.ambles.readZeroesToOnes else s.ambles.writeZeroesToOnes) = r at h1 h2 hlt ⊢
  generalize WireSpec.transferCount a read = ta at *
  generalize WireSpec.transferCount b read = tb at *
  generalize WireSpec.seamlessCount a read = sa at *
  generalize WireSpec.seamlessCount b read = sb at *
  simp only at h1 h2 ⊢
  by_cases ht : w.termination = false
  · rw [if_pos ht] at h1 h2 ⊢
    cases h1; cases h2
    simp [InterfaceEnergy.add]
  · rw [if_neg ht] at h1 h2 ⊢
    by_cases hr : w.rEq = 0
    · rw [if_pos hr] at h1; cases h1
    · rw [if_neg hr] at h1 h2 ⊢
      cases h1; cases h2
      have m1 : s.pairs * r * (ta - sa) < 2 ^ 64 := Nat.lt_of_le_of_lt (Nat.mul_le_mul_left _ (by omega)) hlt
      have m2 : s.pairs * r * (tb - sb) < 2 ^ 64 := Nat.lt_of_le_of_lt (Nat.mul_le_mul_left _ (by omega)) hlt
      have m3 : s.pairs * r * (ta - sa + (tb - sb)) < 2 ^ 64 := Nat.lt_of_le_of_lt (Nat.mul_le_mul_left _ (by omega)) hlt
      rw [Nat.mod_eq_of_lt m1, Nat.mod_eq_of_lt m2, Nat.mod_eq_of_lt m3]
      congr 1
      apply energy_ext
      · simp only [InterfaceEnergy.add, WireSpec.static, Nat.cast_add]; ring
      · simp only [InterfaceEnergy.add, WireSpec.dynamic, Nat.mul_add, Nat.cast_add]; ring

theorem amble_nonneg {a : SimStats} {w : Wiring} {read : Bool} {e : InterfaceEnergy} (h : s.ambleEnergy a w read = .ok e) (hr : 0 ≤ w.rEq)
    (hd : 0 ≤ w.dynE) (ht : 0 ≤ s.tCK) (hz : 0 ≤ s.ambles.readZeroes ∧ 0 ≤ s.ambles.writeZeroes) : 0 ≤ e.static ∧ 0 ≤ e.dynamic := by
  unfold WireSpec.ambleEnergy at h
  simp only at h
  have hz' : 0 ≤ (if read then s.ambles.readZeroes else s.ambles.writeZeroes) := by cases read; exacts [hz.2, hz.1]
  generalize (if read then s.ambles.readZeroes else s.ambles.writeZeroes) = z at h hz'
  generalize (if read then s.ambles.readZeroesToOnes else s.ambles.writeZeroesToOnes) = r at h
  split at h
  · cases h; exact ⟨le_refl _, le_refl _⟩
  · split at h
    · cases h
    · cases h
      have : 0 ≤ s.vddq * s.vddq := mul_self_nonneg _
      refine ⟨?_, ?_⟩
      · simp only [WireSpec.static]; positivity
      · simp only [WireSpec.dynamic]; positivity

end DRAMPower
