import Verif.Spec.Timing
import Verif.Model.BusStats
import Mathlib.Tactic.Ring
import Mathlib.Tactic.FieldSimp

/-!
# C38: Derived timing values are well defined

The constructors reject no configuration, so "accepted" is every configuration; `Positive` is what is needed for the divisions.
LPDDR5 treats zero bank groups as a valid organisation (`recognised`) but has divided by them before.
-/

namespace DRAMPower
open Spec

namespace Config

theorem pasr_le (m : Nat) : (pasrTable m).1 ≤ 7 := by
  unfold pasrTable
  split <;> decide

theorem activeBanks_ok {std : Std} {c : Config} (h : PasrFits std c) : ∃ l, c.activeBanks std = .ok l := by
  unfold activeBanks
  split
  · rename_i hc
    have h8 := h hc.1 hc.2
    have h7 := pasr_le c.pasrMode
    unfold pasrRange
    rw [if_neg (by omega)]
    exact ⟨_, rfl⟩
  · exact ⟨_, rfl⟩

theorem beatDivisor_eq {std : Std} (c : Config) (h : std ≠ .lpddr4) : c.beatDivisor std = beatsPerCycle std c := by
  unfold beatDivisor beatsPerCycle
  cases std <;> first | exact absurd rfl h | simp

theorem cast_floor {a b : Nat} (h : b ∣ a) (hb : b ≠ 0) : ((a / b : Nat) : Rat) = (a : Rat) / (b : Rat) := by
  obtain ⟨k, rfl⟩ := h
  have hb' : (b : Rat) ≠ 0 := by exact_mod_cast hb
  rw [Nat.mul_div_cancel_left k (Nat.pos_of_ne_zero hb)]
  push_cast
  field_simp

end Config

/-- Construction performs no division by zero and succeeds if the divisors are positive. -/
theorem C38_partial (std : Std) (c : Config) (hp : Positive std c) (hf : PasrFits std c) : ∃ d, c.derive std = .ok d := by
  obtain ⟨l, hl⟩ := Config.activeBanks_ok hf
  unfold Config.derive
  have hg : ∃ g, c.banksPerGroup std = .ok g := by
    unfold Config.banksPerGroup
    split
    · exact ⟨_, rfl⟩
    · rename_i h; rw [if_neg (hp.2 h)]; exact ⟨_, rfl⟩
  obtain ⟨g, hg⟩ := hg
  have hb : c.beatDivisor std ≠ 0 := by
    by_cases h : std = .lpddr4
    · subst h; exact Nat.one_ne_zero
    · rw [Config.beatDivisor_eq c h]; exact hp.1 h
  simp only [bind, Except.bind, hg, hl]
  rw [if_neg hb]
  exact ⟨_, rfl⟩

/-- The condition is necessary: otherwise a division by zero is performed, whatever else is configured. -/
theorem C38_necessary (std : Std) (c : Config) (hp : ¬ Positive std c) (hf : PasrFits std c) : ∃ m, c.derive std = .error (.ub m) := by
  obtain ⟨l, hl⟩ := Config.activeBanks_ok hf
  unfold Config.derive Config.banksPerGroup
  by_cases hg : std ≠ .ddr4 ∧ c.bankGroups = 0
  · rw [if_neg hg.1, if_pos hg.2]
    exact ⟨_, rfl⟩
  · have h1 : std ≠ .lpddr4 ∧ beatsPerCycle std c = 0 := by
      by_contra h
      refine hp ⟨fun h4 h0 => h ⟨h4, h0⟩, fun h4 h0 => hg ⟨h4, h0⟩⟩
    have hb : c.beatDivisor std = 0 := by rw [Config.beatDivisor_eq c h1.1]; exact h1.2
    by_cases h4 : std = .ddr4
    · simp only [bind, Except.bind, if_pos h4, hl]
      rw [if_pos hb]
      exact ⟨_, rfl⟩
    · have h0 : c.bankGroups ≠ 0 := fun h => hg ⟨h4, h⟩
      simp only [bind, Except.bind, if_neg h4, if_neg h0, hl]
      rw [if_pos hb]
      exact ⟨_, rfl⟩

theorem Config.derive_ok {std : Std} {c : Config} {d : Derived} (h : c.derive std = .ok d) :
    ∃ g l, c.banksPerGroup std = .ok g ∧ c.activeBanks std = .ok l ∧ c.beatDivisor std ≠ 0 ∧
      d = { core := c.coreSpec std g, power := c.powerSpec std, tBurst := c.tBurst std, activeBanks := l } := by
  unfold Config.derive at h
  simp only [bind, Except.bind] at h
  cases hg : c.banksPerGroup std with
  | error e => rw [hg] at h; cases h
  | ok g =>
    cases hl : c.activeBanks std with
    | error e => rw [hg, hl] at h; cases h
    | ok l =>
      rw [hg, hl] at h
      simp only at h
      by_cases hb : c.beatDivisor std = 0
      · rw [if_pos hb] at h; cases h
      · rw [if_neg hb] at h; cases h; exact ⟨g, l, rfl, rfl, hb, rfl⟩

/-- The burst time is the duration of the burst in clock cycles, rounded down. -/
theorem C38_tBurst (std : Std) (hstd : std ≠ .lpddr4) (c : Config) (d : Derived) (h : c.derive std = .ok d) :
    d.tBurst * beatsPerCycle std c ≤ c.burstLength ∧ c.burstLength < (d.tBurst + 1) * beatsPerCycle std c := by
  obtain ⟨g, l, -, -, hb, rfl⟩ := Config.derive_ok h
  rw [Config.beatDivisor_eq c hstd] at hb
  have ht : c.tBurst std = c.burstLength / beatsPerCycle std c := by
    rw [← Config.beatDivisor_eq c hstd]
    unfold Config.tBurst
    cases std <;> first | exact absurd rfl hstd | rfl
  show c.tBurst std * _ ≤ _ ∧ _ < (c.tBurst std + 1) * _
  rw [ht]
  refine ⟨Nat.div_mul_le_self _ _, ?_⟩
  have := Nat.lt_mul_div_succ c.burstLength (Nat.pos_of_ne_zero hb)
  rwa [Nat.mul_comm] at this

/-- If a burst takes whole clock cycles, the precharge offsets are those of the standard. LPDDR4: for the burst lengths of the standard
at the data rate of the standard. -/
theorem C38_offsets (std : Std) (c : Config) (d : Derived) (h : c.derive std = .ok d) (hdvd : beatsPerCycle std c ∣ c.burstLength)
    (h4 : std = .lpddr4 → c.dataRate = 2 ∧ (c.burstLength = 16 ∨ c.burstLength = 32)) :
    (d.core.prechargeOffsetRD : Rat) = readToPrecharge std c ∧ (d.core.prechargeOffsetWR : Rat) = writeToPrecharge std c := by
  obtain ⟨g, l, -, -, hb, rfl⟩ := Config.derive_ok h
  show ((c.offsetRD std : Nat) : Rat) = _ ∧ ((c.offsetWR std : Nat) : Rat) = _
  by_cases hs : std = .lpddr4
  · subst hs
    obtain ⟨hr, hl⟩ := h4 rfl
    have hc : burstCycles .lpddr4 c = ((c.burstLength / 2 : Nat) : Rat) := by
      unfold burstCycles beatsPerCycle
      rw [hr, Config.cast_floor (by rcases hl with h | h <;> rw [h] <;> decide) (by decide)]
      simp
    unfold readToPrecharge writeToPrecharge Config.offsetRD Config.offsetWR
    simp only [hc]
    rcases hl with hl | hl <;> rw [hl] <;> constructor <;> ((try push_cast) <;> (try norm_num) <;> (try ring))
  · rw [Config.beatDivisor_eq c hs] at hb
    have ht : ((c.tBurst std : Nat) : Rat) = burstCycles std c := by
      have : c.tBurst std = c.burstLength / beatsPerCycle std c := by
        rw [← Config.beatDivisor_eq c hs]
        unfold Config.tBurst
        cases std <;> first | exact absurd rfl hs | rfl
      rw [this, Config.cast_floor hdvd hb]
      rfl
    cases std
    case lpddr4 => exact absurd rfl hs
    all_goals
      simp only [readToPrecharge, writeToPrecharge, Config.offsetRD, Config.offsetWR, ← ht]
      constructor <;> ((try push_cast) <;> (try simp) <;> (try ring))

/-- A configuration of LPDDR5. -/
def exampleConfig : Config where
  banks := 16
  bankGroups := 4
  ranks := 1
  devices := 1
  burstLength := 16
  dataRate := 2
  tCK := 1
  wck2ck := 4
  ras := 10
  rbtp := 4
  rtp := 4
  wl := 6
  wr := 8
  rp := 9
  rfc1 := 100
  domains := []

/-- `exampleConfig` meets the hypotheses for every standard. -/
example (std : Std) : Positive std exampleConfig ∧ PasrFits std exampleConfig ∧ beatsPerCycle std exampleConfig ∣ exampleConfig.burstLength ∧
    exampleConfig.dataRate = 2 ∧ exampleConfig.burstLength = 16 := by
  refine ⟨⟨fun _ => ?_, fun _ => by decide⟩, (fun _ h => Bool.noConfusion h : PasrFits std exampleConfig), ?_, rfl, rfl⟩ <;> cases std <;> decide

/-- The property is violated. LPDDR5 without bank groups: the organisation is recognised as valid but the number of banks has been divided
by the number of groups before. A data rate of zero is not rejected either. -/
theorem C38_violation : recognised { exampleConfig with bankGroups := 0 } ∧
    ((({ exampleConfig with bankGroups := 0 }).derive .lpddr5).map fun d : Derived => d.tBurst) = .error (.ub "numberOfBanks / 0") ∧
    ((({ exampleConfig with dataRate := 0 }).derive .ddr4).map fun d : Derived => d.tBurst) = .error (.ub "burstLength / 0") := by
  refine ⟨by unfold recognised; decide, by decide +kernel, by decide +kernel⟩

/-- LPDDR4 assumes two beats per clock cycle and treats every other burst length like 32. A burst that does not take whole clock cycles is
rounded down. -/
theorem C38_violation_formula :
    ((({ exampleConfig with dataRate := 1 }).derive .lpddr4).map fun d : Derived => (d.core.prechargeOffsetRD, d.core.prechargeOffsetWR)) = .ok (4, 23) ∧
    readToPrecharge .lpddr4 { exampleConfig with dataRate := 1 } = 12 ∧ writeToPrecharge .lpddr4 { exampleConfig with dataRate := 1 } = 31 ∧
    ((({ exampleConfig with burstLength := 12 }).derive .lpddr5).map fun d : Derived => d.core.prechargeOffsetRD) = .ok 5 ∧
    readToPrecharge .lpddr5 { exampleConfig with burstLength := 12 } = 11 / 2 := by
  refine ⟨by decide +kernel, by decide +kernel, by decide +kernel, by decide +kernel, by decide +kernel⟩

end DRAMPower
