import Verif.Lemmas.Project
import Verif.Props.C21

/-!
# C47: strobes toggle once per transferred beat

`Spec.bursts std sp read ops` are the bursts of one direction, read off the list of calls; `Spec.strobe` says what one
strobe wire does during them.
-/

namespace DRAMPower
open Spec

namespace Spec

/-- Figures of a strobe wire up to time `t`: one half-cycle for each beat of data before `t`. -/
def strobe (dataRate : Nat) : List (Nat × Nat) → Nat → BusStats
  | [], _ => {}
  | b :: l, t => halfCycles (min b.2 ((t - b.1) * dataRate)) + strobe dataRate l t

/-- Number of strobe wires: two per pair, one pair, for 16 data wires per device two pairs (for LPDDR5 and LPDDR6 one). -/
def strobeWires (std : Std) (bitWidth : Nat) : Nat :=
  match std with
  | .ddr4 | .ddr5 | .lpddr4 => if bitWidth = 16 then 4 else 2
  | .lpddr5 | .lpddr6 => 2

end Spec

theorem strobeWires_eq (std : Std) (sp : IfSpec) : Interface.strobeWires std sp = Spec.strobeWires std sp.bitWidth := by
  unfold Interface.strobeWires Spec.strobeWires
  cases std <;> simp

theorem clock_strobes (rate dr t : Nat) (hr : rate = dr) (hd : 0 < dr) : ∀ l : List (Nat × Nat), (∀ b ∈ l, dr ∣ b.2) →
    (∀ b ∈ l, b.1 * dr + b.2 ≤ t * dr) → Spec.clock rate none (l.flatMap (strobeCalls dr)) t = Spec.strobe dr l t
  | [], _, _ => rfl
  | b :: l, h1, h2 => by
    have ih := clock_strobes rate dr t hr hd l (fun x hx => h1 x (by simp [hx])) fun x hx => h2 x (by simp [hx])
    have hb := h2 b (by simp)
    show halfCycles ((b.1 + b.2 / dr - b.1) * rate) + Spec.clock rate none (l.flatMap (strobeCalls dr)) t = _
    rw [ih, hr, Nat.add_sub_cancel_left, Nat.div_mul_cancel (h1 b (by simp))]
    have hm : min b.2 ((t - b.1) * dr) = b.2 := Nat.min_eq_left (by rw [Nat.sub_mul]; omega)
    rw [Spec.strobe, hm]

theorem strobes_before {dr t : Nat} (hd : 0 < dr) {l : List (Nat × Nat)} (h : ∀ b ∈ l, b.1 * dr + b.2 ≤ t * dr) :
    ∀ op ∈ l.flatMap (strobeCalls dr), op.le t := by
  intro op hop
  obtain ⟨b, hb, ho⟩ := List.mem_flatMap.1 hop
  have hb := h b hb
  have h3 : (b.1 + b.2 / dr) * dr ≤ t * dr := by
    rw [Nat.add_mul]
    have := Nat.div_mul_le_self b.2 dr
    omega
  have h4 := Nat.le_of_mul_le_mul_right h3 hd
  simp only [strobeCalls, List.mem_cons, List.not_mem_nil, or_false] at ho
  rcases ho with rfl | rfl
  · exact Nat.le_trans (Nat.le_add_right _ _) h4
  · exact h4

theorem strobe_figures {rate dr t : Nat} {k : Clock} {l : List (Nat × Nat)} (h : (Clock.init rate true).run (l.flatMap (strobeCalls dr)) = .ok k)
    (hr : rate = dr) (he : dr % 2 = 0) (hd : 0 < dr) (h1 : ∀ b ∈ l, dr ∣ b.2) (h2 : ∀ b ∈ l, b.1 * dr + b.2 ≤ t * dr) :
    k.getStats t = Spec.strobe dr l t := by
  rw [C21_partial _ _ (by show rate % 2 = 0; rw [hr]; exact he) _ h t (by intro s hs; cases hs) (strobes_before hd h2)]
  show ({} : BusStats) + Spec.clock rate none _ t = _
  rw [clock_strobes rate dr t hr hd l h1 h2, BusStats.zero_add]

/-- Every accepted trace and every query after the last burst: with an even data rate that divides the lengths of the bursts
and is the rate of the strobes, each strobe wire makes one half-cycle per beat of the bursts of its direction, and none
otherwise. Missing from the property: queries during a burst (`C47_violation`), bursts that end between two clocks
(`C47_violation_fraction`), DDR5 with another strobe rate (`C47_violation_rate`). -/
theorem C47_partial {std : Std} {N : Nat} {sp : IfSpec} {ops : List IfOp} {i i' : Interface std N}
    (hi : Interface.init std N sp = .ok i) (hr : i.run sp ops = .ok i') (heven : sp.dataRate % 2 = 0)
    (hrate : std = .ddr5 → sp.dqsRate = sp.dataRate) (t : Nat) (s s' : SimStats) (hs : i'.getWindowStats sp t s = .ok s')
    (read : Bool) (hw : read = false → std ≠ .lpddr5 ∧ std ≠ .lpddr6)
    (hdiv : ∀ b ∈ bursts std sp read ops, sp.dataRate ∣ b.2)
    (ht : ∀ b ∈ bursts std sp read ops, b.1 * sp.dataRate + b.2 ≤ t * sp.dataRate) :
    (if read then s'.readDQSStats else s'.writeDQSStats)
      = Spec.strobeWires std sp.bitWidth * Spec.strobe sp.dataRate (bursts std sp read ops) t := by
  obtain ⟨hd, _, _, _, er, ew, _⟩ := init_parts hi
  have hc := run_clocks ops (init_shaped hi) hr
  obtain ⟨_, _, _, _, _, _, hrd, hwr⟩ := windowStats_ok hs
  have hrt : sp.strobeRate std = sp.dataRate := by
    unfold IfSpec.strobeRate
    split
    · exact hrate ‹_›
    · rfl
  cases read with
  | true =>
    rw [if_pos rfl, hrd, strobeWires_eq]
    have h1 := hc.read
    rw [er] at h1
    rw [strobe_figures h1 hrt heven hd hdiv ht]
  | false =>
    have hm : ¬ mobile std := by
      obtain ⟨a, b⟩ := hw rfl
      rintro (h | h)
      · exact a h
      · exact b h
    rw [if_neg (by simp), hwr hm, strobeWires_eq]
    have h1 := hc.write hm
    rw [ew] at h1
    rw [strobe_figures h1 hrt heven hd hdiv ht]

/-- Consequence: the edges of a strobe wire are as many as the beats transferred. -/
theorem C47_edges {dr t : Nat} : ∀ {l : List (Nat × Nat)}, (∀ b ∈ l, b.2 % 2 = 0) → (∀ b ∈ l, b.1 * dr + b.2 ≤ t * dr) →
    (Spec.strobe dr l t).bitChanges = (l.map Prod.snd).sum
  | [], _, _ => rfl
  | b :: l, h1, h2 => by
    have ih := C47_edges (dr := dr) (t := t) (l := l) (fun x hx => h1 x (by simp [hx])) fun x hx => h2 x (by simp [hx])
    have hb := h2 b (by simp)
    unfold Spec.strobe
    rw [Nat.min_eq_left (by rw [Nat.sub_mul]; omega), BusStats.add_bitChanges, ih, (C21_period b.2 (h1 b (by simp))).2.2.1]
    simp

/-- The property for all traces and queries `p` admits. -/
def C47_statement (p : Std → IfSpec → List IfOp → Nat → Prop) : Prop :=
  ∀ (std : Std) (N : Nat) (sp : IfSpec) (ops : List IfOp) (i i' : Interface std N) (t : Nat) (s' : SimStats),
    Interface.init std N sp = .ok i → i.run sp ops = .ok i' → i'.getWindowStats sp t {} = .ok s' → p std sp ops t →
    s'.readDQSStats = Spec.strobeWires std sp.bitWidth * Spec.strobe sp.dataRate (bursts std sp true ops) t

/-- Eight data wires. -/
def c47Spec (dataRate : Nat) : IfSpec := { dataRate, burstLength := 8, bitWidth := 8, devices := 1, dqsRate := 2 }

/-- A read of `n` beats at clock 2, and a second one of 8 beats at clock 20. -/
def c47Trace (n : Nat) : List IfOp :=
  [.cmd { t := 2, type := .RD, nBits := 8 * n, data := some (List.replicate n 0x5a) },
   .cmd { t := 20, type := .RD, nBits := 64, data := some (List.replicate 8 0xc3) }]

/-- The read strobe figures of this trace. -/
def c47Run (std : Std) (dataRate n t : Nat) : Except Err BusStats := do
  let i ← Interface.init std 8 (c47Spec dataRate)
  let i ← i.run (c47Spec dataRate) (c47Trace n)
  let s ← i.getWindowStats (c47Spec dataRate) t {}
  pure s.readDQSStats

theorem c47_refutes {std : Std} {dataRate n t : Nat} {x : BusStats} {p : Std → IfSpec → List IfOp → Nat → Prop}
    (h : c47Run std dataRate n t = .ok x) (hp : p std (c47Spec dataRate) (c47Trace n) t)
    (hx : x ≠ Spec.strobeWires std 8 * Spec.strobe dataRate (bursts std (c47Spec dataRate) true (c47Trace n)) t) :
    ¬ C47_statement p := by
  intro hc
  unfold c47Run at h
  obtain ⟨i, h1, h⟩ := bind_ok h
  obtain ⟨i', h2, h⟩ := bind_ok h
  obtain ⟨s, h3, h⟩ := bind_ok h
  exact hx ((pure_ok h).symm.trans (hc std 8 (c47Spec dataRate) (c47Trace n) i i' t s h1 h2 h3 hp))

/-- All bursts of a trace have started at time `t`. -/
def Started (std : Std) (sp : IfSpec) (ops : List IfOp) (t : Nat) : Prop := ∀ b ∈ bursts std sp true ops, b.1 ≤ t

/-- All bursts of a trace have ended at time `t`. -/
def Ended (std : Std) (sp : IfSpec) (ops : List IfOp) (t : Nat) : Prop := ∀ b ∈ bursts std sp true ops, b.1 * sp.dataRate + b.2 ≤ t * sp.dataRate

/-- During a burst all its strobe edges are reported already: at clock 21 of a burst from 20 to 24. -/
theorem C47_violation : ¬ C47_statement fun std sp ops t => Started std sp ops t ∧ sp.dataRate = 2 ∧ ∀ b ∈ bursts std sp true ops, 2 ∣ b.2 :=
  c47_refutes (std := .ddr4) (dataRate := 2) (n := 8) (t := 21)
    (x := { ones := 16, zeroes := 16, bitChanges := 32, onesToZeroes := 16, zeroesToOnes := 16 }) (by decide +kernel)
    ⟨by unfold Started; decide, rfl, by decide⟩ (by decide +kernel)

/-- Six beats at data rate 4 take one and a half clocks; only four strobe edges are counted. -/
theorem C47_violation_fraction : ¬ C47_statement fun std sp ops t => Ended std sp ops t ∧ sp.dataRate % 2 = 0 ∧ std ≠ .ddr5 :=
  c47_refutes (std := .lpddr4) (dataRate := 4) (n := 6) (t := 30)
    (x := { ones := 12, zeroes := 12, bitChanges := 24, onesToZeroes := 12, zeroesToOnes := 12 }) (by decide +kernel)
    ⟨by unfold Ended; decide, rfl, by decide⟩ (by decide +kernel)

/-- DDR5: strobe rate 2 with data rate 4. -/
theorem C47_violation_rate : ¬ C47_statement fun _ sp ops t => Ended .ddr5 sp ops t ∧ sp.dataRate % 2 = 0 ∧ ∀ b ∈ bursts .ddr5 sp true ops, sp.dataRate ∣ b.2 :=
  c47_refutes (std := .ddr5) (dataRate := 4) (n := 8) (t := 30)
    (x := { ones := 8, zeroes := 8, bitChanges := 16, onesToZeroes := 8, zeroesToOnes := 8 }) (by decide +kernel)
    ⟨by unfold Ended; decide, rfl, by decide⟩ (by decide +kernel)

/-- A trace that meets the hypotheses of `C47_partial`: two reads of eight beats, two strobe wires, 16 edges on each. -/
example : c47Run .lpddr5 2 8 30 = .ok { ones := 16, zeroes := 16, bitChanges := 32, onesToZeroes := 16, zeroesToOnes := 16 } ∧
    Ended .lpddr5 (c47Spec 2) (c47Trace 8) 30 ∧ (∀ b ∈ bursts .lpddr5 (c47Spec 2) true (c47Trace 8), 2 ∣ b.2) ∧
    bursts .lpddr5 (c47Spec 2) true (c47Trace 8) = [(2, 8), (20, 8)] :=
  ⟨by decide +kernel, by unfold Ended; decide, by decide, by decide⟩

end DRAMPower
