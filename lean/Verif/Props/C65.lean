import Verif.Lemmas.RoundedInterface
import Verif.Props.C62

/-! # C65: The interface energies computed with `double` -/

namespace DRAMPower
open Spec

section

variable {fl : Rat → Rat}

theorem rounded_zero (hf : Rounds fl) (n : Nat) : (Arith.rounded fl).nat n = 0 ↔ n = 0 := by
  have h := RelErr.nat hf n
  constructor
  · intro h0
    have h1 := h.low
    rw [show fl n = 0 from h0, mul_zero] at h1
    exact_mod_cast le_antisymm h1 h.nonneg
  · rintro rfl
    have h1 := h.high
    rw [Nat.cast_zero, mul_zero] at h1
    exact le_antisymm h1 h.nonneg'

theorem RelErr.div {j k : Nat} {a' a b' b : Rat} (hf : Rounds fl) (ha : RelErr j a' a) (hb : RelErr k b' b) (hp : 0 < b) :
    RelErr (j + k + 1) (fl (a' / b')) (a / b) := by
  have hb' := hb.pos' hp
  have ha' := ha.nonneg'
  have g1 := grow_pos j
  have g2 := grow_pos k
  refine RelErr.round hf ⟨div_nonneg ha.nonneg hp.le, ?_, ?_⟩
  · rw [grow_add, div_le_iff₀ hp]
    have h1 : grow j * a' ≤ grow j * grow k * (a' / b') * b := by
      have h2 : b' / b' ≤ grow k * b / b' := div_le_div_of_nonneg_right hb.high hb'.le
      rw [div_self hb'.ne'] at h2
      have h3 := mul_le_mul_of_nonneg_left h2 (mul_nonneg g1.le ha')
      calc grow j * a' = grow j * a' * 1 := (mul_one _).symm
        _ ≤ grow j * a' * (grow k * b / b') := h3
        _ = grow j * grow k * (a' / b') * b := by ring
    exact le_trans ha.low h1
  · rw [grow_add, div_le_iff₀ hb']
    have h1 : grow j * a ≤ grow j * grow k * (a / b) * b' := by
      have h2 : b / b ≤ grow k * b' / b := div_le_div_of_nonneg_right hb.low hp.le
      rw [div_self hp.ne'] at h2
      have h3 := mul_le_mul_of_nonneg_left h2 (mul_nonneg g1.le ha.nonneg)
      calc grow j * a = grow j * a * 1 := (mul_one _).symm
        _ ≤ grow j * a * (grow k * b' / b) := h3
        _ = grow j * grow k * (a / b) * b' := by ring
    exact le_trans ha.high h1

theorem respects_exact (hf : Rounds fl) : Respects (Arith.rounded fl) Arith.exact RelErr Eq where
  more h h' := h'.more h
  const h := RelErr.of_nonneg h
  same _ := rfl
  nat := by rintro m n rfl; exact RelErr.nat hf m
  square v := RelErr.round (fl := fl) hf (RelErr.of_nonneg (mul_self_nonneg v))
  add h h' := h.add hf h'
  mul h h' := h.mul hf h'
  divConst hc h := h.div hf (RelErr.of_nonneg hc.le) hc
  divNat hn h := h.div hf (RelErr.nat hf _) (Nat.cast_pos.2 (Nat.pos_of_ne_zero hn))
  zeroA := rounded_zero hf
  zeroB n := Nat.cast_eq_zero

theorem respects_inc (hf : Rounds fl) (hm : ∀ x y, x ≤ y → fl x ≤ fl y) :
    Respects (Arith.rounded fl) (Arith.rounded fl) (fun _ => Inc) (· ≤ ·) where
  more _ h' := h'
  const h := Inc.refl h
  same n := Nat.le_refl n
  nat h := Inc.nat hf hm h
  square v := Inc.round (fl := fl) hf hm (Inc.refl (mul_self_nonneg v))
  add h h' := h.add hf hm h'
  mul h h' := h.mul hf hm h'
  divConst hc h := Inc.round hf hm ⟨div_nonneg h.1 hc.le, div_le_div_of_nonneg_right h.2 hc.le⟩
  divNat {_ _ _ n} _ h := by
    have hn : 0 ≤ (Arith.rounded fl).nat n := (Inc.nat hf hm (Nat.le_refl n)).1
    exact Inc.round hf hm ⟨div_nonneg h.1 hn, div_le_div_of_nonneg_right h.2 hn⟩
  zeroA := rounded_zero hf
  zeroB := rounded_zero hf

theorem RelErr.bound {k : Nat} {x' x : Rat} (h : RelErr k x' x) (hk : k ≤ 19) : |x' - x| ≤ 1 / 10 ^ 14 * x := by
  have h1 := (h.more hk).near.err
  have h2 := grow_le 19 (by norm_num)
  have h3 := h.nonneg
  refine le_trans h1 (mul_le_mul_of_nonneg_right ?_ h3)
  norm_num at h2 ⊢
  linarith

end

/-- Rounding does not change whether the calculation succeeds. -/
theorem C65_outcome (fl : Rat → Rat) (hf : Rounds fl) (std : Std) (s : WireSpec) (hs : Physical s) (st : SimStats) (x : Err) :
    (Arith.rounded fl).calculateEnergy std s st = .error x ↔ s.calculateEnergy std st = .error x := by
  rw [← exact_calculate]
  exact (calculate_respects (respects_exact hf) hs (fun _ _ => ⟨rfl, rfl⟩) fun _ => ⟨rfl, rfl⟩).error_iff x

/-- Every part of the interface energy, and their total, differs from the exact value by at most a hundred-trillionth of that value. -/
theorem C65_close (fl : Rat → Rat) (hf : Rounds fl) (std : Std) (s : WireSpec) (hs : Physical s) (st : SimStats) (e : InterfaceInfo)
    (h : s.calculateEnergy std st = .ok e) :
    ∃ e', (Arith.rounded fl).calculateEnergy std s st = .ok e' ∧
      |e'.controller.static - e.controller.static| ≤ 1 / 10 ^ 14 * e.controller.static ∧
      |e'.controller.dynamic - e.controller.dynamic| ≤ 1 / 10 ^ 14 * e.controller.dynamic ∧
      |e'.dram.static - e.dram.static| ≤ 1 / 10 ^ 14 * e.dram.static ∧
      |e'.dram.dynamic - e.dram.dynamic| ≤ 1 / 10 ^ 14 * e.dram.dynamic ∧
      |(Arith.rounded fl).interfaceTotal e' - e.total| ≤ 1 / 10 ^ 14 * e.total := by
  rw [← exact_calculate] at h
  have H := respects_exact hf
  obtain ⟨e', h', r⟩ := (calculate_respects H hs (fun _ _ => ⟨rfl, rfl⟩) fun _ => ⟨rfl, rfl⟩).ok h
  exact ⟨e', h', r.controller.static.bound (by omega), r.controller.dynamic.bound (by omega), r.dram.static.bound (by omega),
    r.dram.dynamic.bound (by omega), (total_respects H r).bound (by omega)⟩

/-- For every rounding that keeps the order: no reported part is negative, and larger figures of the signals do not decrease any of them.
For DDR4 also the number of pre- and postambles must not be smaller. -/
theorem C65_monotone (fl : Rat → Rat) (hf : Rounds fl) (hm : ∀ x y, x ≤ y → fl x ≤ fl y) (std : Std) (s : WireSpec) (hs : Physical s)
    (a b : SimStats) (h4 : std = .ddr4 → AmblesLe s a b) (h : ∀ g : Group, FiguresLe (g.figures a) (g.figures b)) (eb : InterfaceInfo)
    (hb : (Arith.rounded fl).calculateEnergy std s b = .ok eb) :
    ∃ ea, (Arith.rounded fl).calculateEnergy std s a = .ok ea ∧ InterfaceLe {} ea ∧ InterfaceLe ea eb ∧
      0 ≤ (Arith.rounded fl).interfaceTotal ea ∧ (Arith.rounded fl).interfaceTotal ea ≤ (Arith.rounded fl).interfaceTotal eb := by
  have H := respects_inc hf hm
  have hq : ∀ g : Group, WireSpec.drained std (g.figures a) ≤ WireSpec.drained std (g.figures b) ∧
      (g.figures a).zeroesToOnes ≤ (g.figures b).zeroesToOnes := fun g => by
    refine ⟨?_, (h g).rises⟩
    cases std <;> first | exact (h g).zeroes | exact (h g).ones
  have h4' : std = .ddr4 → AmblesQ (· ≤ ·) s a b := fun hd read => by
    obtain ⟨q1, q2, q3, q4⟩ := h4 hd read
    have ea : usub (WireSpec.transferCount a read) (WireSpec.seamlessCount a read) = rankTransfers a read - gaplessOf a read := if_pos q1
    have eb : usub (WireSpec.transferCount b read) (WireSpec.seamlessCount b read) = rankTransfers b read - gaplessOf b read := if_pos q2
    rw [ea, eb]
    have le := Nat.mul_le_mul_left (s.pairs * (if read then s.ambles.readZeroesToOnes else s.ambles.writeZeroesToOnes)) q3
    have lt : s.pairs * (if read then s.ambles.readZeroesToOnes else s.ambles.writeZeroesToOnes) * (rankTransfers b read - gaplessOf b read) < 2 ^ 64 := q4
    refine ⟨q3, ?_⟩
    rw [Nat.mod_eq_of_lt lt, Nat.mod_eq_of_lt (lt_of_le_of_lt le lt)]
    exact le
  obtain ⟨ea, ha, r⟩ := (calculate_respects H hs h4' hq).ok hb
  have t := total_respects H r
  exact ⟨ea, ha, ⟨r.controller.static.1, r.controller.dynamic.1, r.dram.static.1, r.dram.dynamic.1⟩,
    ⟨r.controller.static.2, r.controller.dynamic.2, r.dram.static.2, r.dram.dynamic.2⟩, t.1, t.2⟩

/-- Without rounding it is the calculation of the other properties. -/
theorem C65_exact (std : Std) (s : WireSpec) (st : SimStats) (e : InterfaceInfo) :
    Arith.exact.calculateEnergy std s st = s.calculateEnergy std st ∧ Arith.exact.interfaceTotal e = e.total :=
  ⟨exact_calculate std s st, rfl⟩

/-- A specification in decimal numbers, rounded to `double`. -/
def decimalWires : WireSpec where
  tCK := Arith.double (625 / 10 ^ 12)
  tWCK := Arith.double (125 / 10 ^ 12)
  vddq := Arith.double (12 / 10)
  dataRate := 2
  bitWidth := 16
  ambles := { readZeroes := Arith.double (7 / 10), writeZeroes := Arith.double (13 / 10), readZeroesToOnes := 1, writeZeroesToOnes := 2 }
  imp :=
    { ck := ⟨true, Arith.double (4995 / 100), Arith.double (3 / 10 ^ 13)⟩, wck := ⟨true, 50, Arith.double (3 / 10 ^ 13)⟩
      ca := ⟨true, 47, Arith.double (7 / 10 ^ 13)⟩, rdq := ⟨true, 43, Arith.double (11 / 10 ^ 13)⟩, wdq := ⟨false, 0, Arith.double (9 / 10 ^ 13)⟩
      rdqs := ⟨true, 41, Arith.double (9 / 10 ^ 13)⟩, wdqs := ⟨true, 37, Arith.double (9 / 10 ^ 13)⟩ }

/-- Statistics with `n` levels and edges on the clock, the data buses and the strobes, and `n` reads and writes. -/
def decimalFigures (n : Nat) : SimStats :=
  { rankTotal := [{ counter := { reads := n, writes := n }, prepos := { readSeamless := 1 } }]
    clockStats := ⟨n, n, n, n, n⟩, wClockStats := ⟨n, n, n, n, n⟩, readBus := ⟨n, n, n, n, n⟩, writeBus := ⟨n, n, n, n, n⟩
    readDQSStats := ⟨n, n, n, n, n⟩, writeDQSStats := ⟨n, n, n, n, n⟩ }

/-- All hypotheses hold for these, for every standard; rounding does something: the reported total is not the exact one. -/
example : Physical decimalWires ∧ AmblesLe decimalWires (decimalFigures 1000) (decimalFigures 1003) ∧
    (∀ g : Group, FiguresLe (g.figures (decimalFigures 1000)) (g.figures (decimalFigures 1003))) ∧
    ∀ std ∈ [Std.ddr4, .ddr5, .lpddr4, .lpddr5, .lpddr6],
      (match decimalWires.calculateEnergy std (decimalFigures 1003), (Arith.rounded Arith.double).calculateEnergy std decimalWires (decimalFigures 1003) with
        | .ok e, .ok e' => decide (0 < e.total ∧ e.total ≠ (Arith.rounded Arith.double).interfaceTotal e' ∧ e.controller.static ≠ e'.controller.static)
        | _, _ => false) = true := by
  refine ⟨⟨by decide +kernel, by decide +kernel, by decide +kernel, fun g => ?_⟩, fun read => ?_, fun g => ?_, by decide +kernel⟩
  · cases g <;> decide +kernel
  · cases read <;> decide +kernel
  · cases g <;> constructor <;> decide +kernel

end DRAMPower
