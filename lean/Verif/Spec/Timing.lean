import Verif.Model.Config

/-!
# Burst time and precharge delays of the standards

Stated with the exact duration of a burst in clock cycles, a rational number.
-/

namespace DRAMPower.Spec

/-- Data beats per clock cycle. -/
def beatsPerCycle (std : Std) (c : Config) : Nat :=
  c.dataRate * if std = .lpddr5 ∨ std = .lpddr6 then c.wck2ck else 1

/-- Duration of a burst in clock cycles. -/
def burstCycles (std : Std) (c : Config) : Rat := (c.burstLength : Rat) / (beatsPerCycle std c : Rat)

/-- Delay from a read to the precharge: the additive latency and `RTP` (DDR4), `RTP` (DDR5), `RTP` after the first eight cycles of the
burst are over (LPDDR4), the burst and `RBTP` (LPDDR5, LPDDR6). -/
def readToPrecharge (std : Std) (c : Config) : Rat :=
  match std with
  | .ddr4 => (c.al : Rat) + (c.rtp : Rat)
  | .ddr5 => (c.rtp : Rat)
  | .lpddr4 => (burstCycles std c - 8) + (c.rtp : Rat)
  | .lpddr5 | .lpddr6 => burstCycles std c + (c.rbtp : Rat)

/-- Delay from a write to the precharge: the write latency, the burst and the write recovery, one cycle more for LPDDR. -/
def writeToPrecharge (std : Std) (c : Config) : Rat :=
  (c.wl : Rat) + burstCycles std c + (c.wr : Rat) + if std = .ddr4 ∨ std = .ddr5 then 0 else 1

/-- The quantities that must not vanish. -/
def Positive (std : Std) (c : Config) : Prop :=
  (std ≠ .lpddr4 → beatsPerCycle std c ≠ 0) ∧ (std ≠ .ddr4 → c.bankGroups ≠ 0)

/-- Self-refresh of a part of the array is not requested from a device of fewer than eight banks. -/
def PasrFits (std : Std) (c : Config) : Prop := std = .lpddr4 → c.flgPASR = true → 8 ≤ c.banks

/-- The bank organisations of LPDDR5 the constructor recognises, zero groups standing for no groups. -/
def recognised (c : Config) : Prop :=
  (c.banks, c.bankGroups) ∈ [(16, 0), (16, 1), (16, 4), (8, 0), (8, 1)]

/-- The part of the array that is refreshed in each PASR mode: numerator, denominator, whether it is the end of the array. -/
def pasrPart : Nat → Nat × Nat × Bool
  | 1 => (1, 2, false)
  | 2 => (1, 4, false)
  | 3 => (1, 8, false)
  | 4 => (3, 4, true)
  | 5 => (1, 2, true)
  | 6 => (1, 4, true)
  | 7 => (1, 8, true)
  | _ => (1, 1, false)

/-- Whether bank `b` of `n` banks belongs to the part. -/
def inPart (n m b : Nat) : Prop :=
  b < n ∧ match pasrPart m with
    | (num, den, false) => b * den < n * num
    | (num, den, true) => (n - 1 - b) * den < n * num

instance (n m b : Nat) : Decidable (inPart n m b) := by
  unfold inPart
  match h : pasrPart m with
  | (num, den, false) => simp only; infer_instance
  | (num, den, true) => simp only; infer_instance

end DRAMPower.Spec
