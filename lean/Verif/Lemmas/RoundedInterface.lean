import Verif.Lemmas.Rounding
import Verif.Model.RoundedInterface
import Verif.Spec.Growth

/-!
# The interface calculation in two arithmetics

The calculation is carried out twice, with two arithmetics and two statistics. A relation of numbers that all operations respect relates the
results.
-/

namespace DRAMPower
open Spec

/-- Related outcomes: the same error, or related results. -/
def Out {α : Type} (R : α → α → Prop) : Except Err α → Except Err α → Prop
  | .ok a, .ok b => R a b
  | .error x, .error y => x = y
  | _, _ => False

theorem Out.bind {α β : Type} {R : α → α → Prop} {S : β → β → Prop} {x y : Except Err α} {f g : α → Except Err β} (h : Out R x y)
    (hf : ∀ a b, R a b → Out S (f a) (g b)) : Out S (x >>= f) (y >>= g) := by
  cases x <;> cases y
  · exact h
  · exact h.elim
  · exact h.elim
  · exact hf _ _ h

theorem Out.error_iff {α : Type} {R : α → α → Prop} {x y : Except Err α} (h : Out R x y) (e : Err) : x = .error e ↔ y = .error e := by
  cases x <;> cases y
  · rw [show _ = _ from h]
  · exact h.elim
  · exact h.elim
  · exact Iff.intro (fun h => nomatch h) (fun h => nomatch h)

theorem Out.ok {α : Type} {R : α → α → Prop} {x y : Except Err α} (h : Out R x y) {b : α} (hy : y = .ok b) : ∃ a, x = .ok a ∧ R a b := by
  subst hy
  cases x
  · exact h.elim
  · exact ⟨_, rfl, h⟩

/-- `P k`: related numbers, after `k` operations. `Q`: related counters. -/
structure Respects (A B : Arith) (P : Nat → Rat → Rat → Prop) (Q : Nat → Nat → Prop) : Prop where
  more : ∀ {j k a b}, j ≤ k → P j a b → P k a b
  const : ∀ {x}, 0 ≤ x → P 0 x x
  same : ∀ n, Q n n
  nat : ∀ {m n}, Q m n → P 1 (A.nat m) (B.nat n)
  square : ∀ v, P 1 (A.mul v v) (B.mul v v)
  add : ∀ {j k a b c d}, P j a b → P k c d → P (max j k + 1) (A.add a c) (B.add b d)
  mul : ∀ {j k a b c d}, P j a b → P k c d → P (j + k + 1) (A.mul a c) (B.mul b d)
  divConst : ∀ {j a b c}, 0 < c → P j a b → P (j + 1) (A.div a c) (B.div b c)
  divNat : ∀ {j a b n}, n ≠ 0 → P j a b → P (j + 2) (A.div a (A.nat n)) (B.div b (B.nat n))
  zeroA : ∀ n, A.nat n = 0 ↔ n = 0
  zeroB : ∀ n, B.nat n = 0 ↔ n = 0

/-- Related energies of one side. -/
structure Both (P : Nat → Rat → Rat → Prop) (k : Nat) (a b : InterfaceEnergy) : Prop where
  static : P k a.static b.static
  dynamic : P k a.dynamic b.dynamic

/-- Related energies of the interface. -/
structure All (P : Nat → Rat → Rat → Prop) (k : Nat) (a b : InterfaceInfo) : Prop where
  controller : Both P k a.controller b.controller
  dram : Both P k a.dram b.dram

variable {A B : Arith} {P : Nat → Rat → Rat → Prop} {Q : Nat → Nat → Prop} {std : Std} {s : WireSpec}

namespace Both

variable (H : Respects A B P Q)
include H

theorem more {j k : Nat} {a b : InterfaceEnergy} (hk : j ≤ k) (h : Both P j a b) : Both P k a b :=
  ⟨H.more hk h.1, H.more hk h.2⟩

theorem zero (k : Nat) : Both P k {} {} := ⟨H.more (Nat.zero_le k) (H.const (le_refl 0)), H.more (Nat.zero_le k) (H.const (le_refl 0))⟩

theorem add {k : Nat} {a b c d : InterfaceEnergy} (h : Both P k a b) (h' : Both P k c d) :
    Both P (k + 1) (A.addEnergy a c) (B.addEnergy b d) := by
  have h1 := H.add h.1 h'.1
  have h2 := H.add h.2 h'.2
  rw [Nat.max_self] at h1 h2
  exact ⟨h1, h2⟩

end Both

namespace All

variable (H : Respects A B P Q)
include H

theorem zero (k : Nat) : All P k {} {} := ⟨Both.zero H k, Both.zero H k⟩

theorem more {j k : Nat} {a b : InterfaceInfo} (hk : j ≤ k) (h : All P j a b) : All P k a b := ⟨h.1.more H hk, h.2.more H hk⟩

theorem add {k : Nat} {a b c d : InterfaceInfo} (h : All P k a b) (h' : All P k c d) :
    All P (k + 1) (A.addInterface a c) (B.addInterface b d) := ⟨h.1.add H h'.1, h.2.add H h'.2⟩

end All

section

variable (H : Respects A B P Q)
include H

theorem static_respects {j k : Nat} {n m r t u v : Rat} (hr : 0 < r) (hn : P j n m) (ht : P k t u) :
    P (j + k + 4) (A.static std n r t v) (B.static std m r u v) := by
  have h1 := H.mul (H.mul hn (H.divConst hr (H.square v))) ht
  have h2 := H.divConst hr (H.mul (H.mul hn (H.square v)) ht)
  cases std
  · exact H.more (by omega) h1
  · exact H.more (by omega) h2
  · exact H.more (by omega) h1
  · exact H.more (by omega) h2
  · exact H.more (by omega) h2

theorem dynamic_respects {m n : Nat} {e : Rat} (he : 0 ≤ e) (h : Q m n) : P 2 (A.dynamic m e) (B.dynamic n e) :=
  H.mul (H.nat h) (H.const he)

theorem pair_respects {w : Wiring} {on : Bool} {a b : BusStats} {t : Rat} {rate : Nat} (hr : 0 ≤ w.rEq) (he : 0 ≤ w.dynE) (ht : 0 ≤ t)
    (hl : Q (WireSpec.drained std a) (WireSpec.drained std b)) (hz : Q a.zeroesToOnes b.zeroesToOnes) :
    Out (Both P 7) (A.pair std s w on a t rate) (B.pair std s w on b t rate) := by
  refine Out.bind (R := P 7) ?_ fun x y h => ⟨h, H.more (by omega) (dynamic_respects H he hz)⟩
  unfold Arith.termination
  split
  · exact H.more (by omega) (H.const (le_refl 0))
  · by_cases h0 : w.rEq = 0
    · rw [if_pos (Or.inl h0), if_pos (Or.inl h0)]
      rfl
    · by_cases h1 : rate = 0
      · rw [if_pos (Or.inr ((H.zeroA rate).2 h1)), if_pos (Or.inr ((H.zeroB rate).2 h1))]
        rfl
      · rw [if_neg (by rw [H.zeroA]; simp [h0, h1]), if_neg (by rw [H.zeroB]; simp [h0, h1])]
        exact static_respects H (lt_of_le_of_ne hr (Ne.symm h0)) (H.nat hl) (H.divNat h1 (H.const ht))

theorem added_respects {w : Wiring} {on : Bool} {a b : BusStats} {t : Rat} {rate : Nat} (hr : 0 ≤ w.rEq) (he : 0 ≤ w.dynE) (ht : 0 ≤ t)
    (hl : Q (WireSpec.drained std a) (WireSpec.drained std b)) (hz : Q a.zeroesToOnes b.zeroesToOnes) :
    Out (Both P 8) (A.added std s w on a t rate) (B.added std s w on b t rate) :=
  Out.bind (pair_respects H hr he ht hl hz) fun _ _ h => (Both.zero H 7).add H h

/-- The counters of the pre- and postambles. -/
def AmblesQ (Q : Nat → Nat → Prop) (s : WireSpec) (x y : SimStats) : Prop :=
  ∀ read, Q (usub (WireSpec.transferCount x read) (WireSpec.seamlessCount x read)) (usub (WireSpec.transferCount y read) (WireSpec.seamlessCount y read)) ∧
    Q (s.pairs * (if read then s.ambles.readZeroesToOnes else s.ambles.writeZeroesToOnes) *
        usub (WireSpec.transferCount x read) (WireSpec.seamlessCount x read) % 2 ^ 64)
      (s.pairs * (if read then s.ambles.readZeroesToOnes else s.ambles.writeZeroesToOnes) *
        usub (WireSpec.transferCount y read) (WireSpec.seamlessCount y read) % 2 ^ 64)

theorem amble_respects {w : Wiring} {x y : SimStats} (hp : Physical s) (hr : 0 ≤ w.rEq) (he : 0 ≤ w.dynE) (hq : AmblesQ Q s x y) (read : Bool) :
    Out (Both P 9) (A.ambleEnergy s x w read) (B.ambleEnergy s y w read) := by
  unfold Arith.ambleEnergy
  simp only
  split
  · exact Both.zero H 9
  · split
    · rfl
    · rename_i h0
      have hz : 0 ≤ (if read then s.ambles.readZeroes else s.ambles.writeZeroes) := by
        split
        · exact hp.ambles.1
        · exact hp.ambles.2
      refine (Both.zero H 8).add H ⟨?_, H.more (by omega) (dynamic_respects H he (hq read).2)⟩
      exact static_respects (j := 4) (k := 0) (std := .ddr4) (v := s.vddq) H (lt_of_le_of_ne hr (Ne.symm h0))
        (H.mul (H.mul (H.nat (H.same _)) (H.const hz)) (H.nat (hq read).1)) (H.const hp.tCK)

/-- The whole calculation. -/
theorem calculate_respects (hp : Physical s) {x y : SimStats} (h4 : std = .ddr4 → AmblesQ Q s x y)
    (hq : ∀ g : Group, Q (WireSpec.drained std (g.figures x)) (WireSpec.drained std (g.figures y)) ∧
      Q (g.figures x).zeroesToOnes (g.figures y).zeroesToOnes) :
    Out (All P 16) (A.calculateEnergy std s x) (B.calculateEnergy std s y) := by
  have pr : ∀ (g : Group) {on t rate}, 0 ≤ t →
      Out (Both P 7) (A.pair std s (g.wiring s.imp) on (g.figures x) t rate) (B.pair std s (g.wiring s.imp) on (g.figures y) t rate) :=
    fun g _ _ _ ht => pair_respects H (hp.wires g).1 (hp.wires g).2 ht (hq g).1 (hq g).2
  have ad : ∀ (g : Group) {on t rate}, 0 ≤ t →
      Out (Both P 8) (A.added std s (g.wiring s.imp) on (g.figures x) t rate) (B.added std s (g.wiring s.imp) on (g.figures y) t rate) :=
    fun g _ _ _ ht => added_respects H (hp.wires g).1 (hp.wires g).2 ht (hq g).1 (hq g).2
  have clock : Out (All P 8) (A.clockEnergy std s x) (B.clockEnergy std s y) := by
    refine Out.bind (pr .clock hp.tCK) fun ck ck' h => ?_
    split
    · exact Out.bind (pr .dataClock hp.tWCK) fun wck wck' h' => ⟨h.add H h', Both.zero H 8⟩
    · exact ⟨h.more H (by omega), Both.zero H 8⟩
  have dqs : Out (All P 10) (A.dqsEnergy std s x) (B.dqsEnergy std s y) := by
    refine Out.bind (pr .readStrobe hp.tCK) fun r r' h => ?_
    split
    · exact ⟨Both.zero H 10, ((Both.zero H 7).add H h).more H (by omega)⟩
    · refine Out.bind (pr .writeStrobe hp.tCK) fun w w' h' => ?_
      split
      · rename_i hd
        refine Out.bind (amble_respects H hp (hp.wires .writeStrobe).1 (hp.wires .writeStrobe).2 (h4 hd) false) fun wa wa' ha => ?_
        refine Out.bind (amble_respects H hp (hp.wires .readStrobe).1 (hp.wires .readStrobe).2 (h4 hd) true) fun ra ra' hb => ?_
        exact ⟨ha.add H (h'.more H (by omega)), hb.add H (h.more H (by omega))⟩
      · exact ⟨((Both.zero H 7).add H h').more H (by omega), ((Both.zero H 7).add H h).more H (by omega)⟩
  have tog : Out (All P 8) (A.togglingEnergy std s x) (B.togglingEnergy std s y) :=
    Out.bind (ad .writeRate hp.tCK) fun w w' h => Out.bind (ad .readRate hp.tCK) fun r r' h' => ⟨h, h'⟩
  have dq : Out (All P 8) (A.dqEnergy std s x) (B.dqEnergy std s y) :=
    Out.bind (ad .readData hp.tCK) fun w w' h => Out.bind (ad .writeData hp.tCK) fun r r' h' => ⟨h', h⟩
  have dbi : Out (All P 8) (A.dbiEnergy std s x) (B.dbiEnergy std s y) :=
    Out.bind (ad .readInv hp.tCK) fun w w' h => Out.bind (ad .writeInv hp.tCK) fun r r' h' => ⟨h', h⟩
  have ca : Out (All P 7) (A.caEnergy std s x) (B.caEnergy std s y) :=
    Out.bind (pr .command hp.tCK) fun c c' h => ⟨h, Both.zero H 7⟩
  refine Out.bind clock fun a a' h1 => Out.bind dqs fun b b' h2 => Out.bind tog fun c c' h3 => Out.bind dq fun d d' h4 => Out.bind ca fun e e' h5 => ?_
  have i0 : All P 11 _ _ := (((All.zero H 8).add H h1).more H (by omega : _ ≤ 10)).add H h2
  have i1 : All P 14 _ _ := ((i0.add H (h3.more H (by omega))).add H (h4.more H (by omega))).add H (h5.more H (by omega))
  have i2 : All P 14 _ _ := ((i0.add H (h5.more H (by omega))).add H (((h4.add H h3)).more H (by omega))).more H (by omega : _ ≤ 14)
  have i3 : All P 14
      (if std = .ddr4 ∨ std = .lpddr4 then A.addInterface (A.addInterface (A.addInterface (A.addInterface (A.addInterface {} a) b) c) d) e
        else A.addInterface (A.addInterface (A.addInterface (A.addInterface {} a) b) e) (A.addInterface d c))
      (if std = .ddr4 ∨ std = .lpddr4 then B.addInterface (B.addInterface (B.addInterface (B.addInterface (B.addInterface {} a') b') c') d') e'
        else B.addInterface (B.addInterface (B.addInterface (B.addInterface {} a') b') e') (B.addInterface d' c')) := by
    split
    · exact i1
    · exact i2
  simp only
  split
  · rename_i hd
    exact i3.more H (by omega)
  · rename_i hd
    exact Out.bind dbi fun f f' h6 => (i3.add H (h6.more H (by omega))).more H (by omega)

theorem total_respects {k : Nat} {a b : InterfaceInfo} (h : All P k a b) : P (k + 3) (A.interfaceTotal a) (B.interfaceTotal b) :=
  H.more (by omega) (H.add (H.add (H.add h.controller.dynamic h.controller.static) h.dram.dynamic) h.dram.static)

end

/-! ## Without rounding it is the calculation of `Model/InterfaceEnergy` -/

theorem exact_static (std : Std) (n r t v : Rat) : Arith.exact.static std n r t v = WireSpec.static n r t v := by
  cases std <;> simp only [Arith.static, Arith.exact, WireSpec.static] <;> ring

theorem exact_pair (std : Std) (s : WireSpec) (w : Wiring) (on : Bool) (b : BusStats) (t : Rat) (rate : Nat) :
    Arith.exact.pair std s w on b t rate = s.pair std w on b t rate := by
  have : Arith.exact.termination std on b w.rEq t rate s.vddq = WireSpec.termination std on b w.rEq t rate s.vddq := by
    unfold Arith.termination WireSpec.termination
    rw [exact_static]
    simp only [Arith.exact, Nat.cast_eq_zero]
  unfold Arith.pair WireSpec.pair
  rw [this]
  rfl

theorem exact_zero (x : InterfaceEnergy) : Arith.exact.addEnergy {} x = x := by
  simp [Arith.addEnergy, Arith.exact]

theorem exact_addEnergy (x y : InterfaceEnergy) : Arith.exact.addEnergy x y = x.add y := rfl

theorem exact_addInterface (x y : InterfaceInfo) : Arith.exact.addInterface x y = x.add y := rfl

theorem exact_added (std : Std) (s : WireSpec) (w : Wiring) (on : Bool) (b : BusStats) (t : Rat) (rate : Nat) :
    Arith.exact.added std s w on b t rate = s.pair std w on b t rate := by
  unfold Arith.added
  rw [exact_pair]
  simp only [exact_zero]
  exact bind_pure _

theorem exact_amble (s : WireSpec) (st : SimStats) (w : Wiring) (read : Bool) :
    Arith.exact.ambleEnergy s st w read = s.ambleEnergy st w read := by
  unfold Arith.ambleEnergy WireSpec.ambleEnergy
  simp only [exact_static, exact_zero]
  rfl

theorem exact_calculate (std : Std) (s : WireSpec) (st : SimStats) : Arith.exact.calculateEnergy std s st = s.calculateEnergy std st := by
  have e1 : Arith.exact.clockEnergy std s st = s.clockEnergy std st := by
    unfold Arith.clockEnergy WireSpec.clockEnergy
    simp only [exact_pair, exact_addEnergy]
  have e2 : Arith.exact.dqsEnergy std s st = s.dqsEnergy std st := by
    unfold Arith.dqsEnergy WireSpec.dqsEnergy
    simp only [exact_pair, exact_zero, exact_amble]
    rfl
  have e3 : Arith.exact.togglingEnergy std s st = s.togglingEnergy std st := by
    unfold Arith.togglingEnergy WireSpec.togglingEnergy
    simp only [exact_added]
  have e4 : Arith.exact.dqEnergy std s st = s.dqEnergy std st := by
    unfold Arith.dqEnergy WireSpec.dqEnergy
    simp only [exact_added]
  have e5 : Arith.exact.caEnergy std s st = s.caEnergy std st := by
    unfold Arith.caEnergy WireSpec.caEnergy
    simp only [exact_pair]
  have e6 : Arith.exact.dbiEnergy std s st = s.dbiEnergy std st := by
    unfold Arith.dbiEnergy WireSpec.dbiEnergy
    simp only [exact_added]
  have order : ∀ a b c d e : InterfaceInfo, ((((({} : InterfaceInfo).add a).add b).add e).add (d.add c)) =
      ((((({} : InterfaceInfo).add a).add b).add c).add d).add e := by
    intro a b c d e
    simp only [InterfaceInfo.add, InterfaceEnergy.add, InterfaceInfo.mk.injEq, InterfaceEnergy.mk.injEq]
    refine ⟨⟨?_, ?_⟩, ⟨?_, ?_⟩⟩ <;> ring
  unfold Arith.calculateEnergy WireSpec.calculateEnergy
  simp only [e1, e2, e3, e4, e5, e6, exact_addInterface, order, ite_self]

end DRAMPower
