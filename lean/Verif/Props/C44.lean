import Verif.Props.C38

/-!
# C44: The derived bank organisation is consistent

The number of banks is the number of groups times the banks per group; the LPDDR5 mode is the one of the configured numbers; the banks
refreshed in a PASR mode are the documented part of the array; the refresh mode selects the refresh current and time.
-/

namespace DRAMPower
open Spec

/-- The banks of the groups are all banks if the groups divide the banks: DDR5, LPDDR4, LPDDR6, and LPDDR5 for the recognised
organisations. (DDR4 has no such field.) The property asks for every configuration. -/
theorem C44_groups_partial (std : Std) (hstd : std ≠ .ddr4) (c : Config) (d : Derived) (h : c.derive std = .ok d)
    (hdvd : c.bankGroups ∣ c.banks) (h5 : std = .lpddr5 → recognised c) :
    d.core.numberOfBanks = d.core.numberOfBankGroups * d.core.banksPerGroup ∧ d.core.numberOfBanks = c.banks ∧
    d.core.numberOfBankGroups = c.bankGroups := by
  obtain ⟨g, l, hg, -, -, rfl⟩ := Config.derive_ok h
  unfold Config.banksPerGroup at hg
  rw [if_neg hstd] at hg
  have ha : (c.archOf std).2 = (c.banks, c.bankGroups) := by
    cases std
    case lpddr5 =>
      have hr := h5 rfl
      simp only [recognised, List.mem_cons, Prod.mk.injEq, List.not_mem_nil, or_false] at hr
      show c.arch.2 = _
      unfold Config.arch
      rcases hr with ⟨h1, h2⟩ | ⟨h1, h2⟩ | ⟨h1, h2⟩ | ⟨h1, h2⟩ | ⟨h1, h2⟩ <;> rw [h1, h2] <;> rfl
    all_goals rfl
  have hb : (c.archOf std).2.1 = c.banks := congrArg Prod.fst ha
  have hG : (c.archOf std).2.2 = c.bankGroups := congrArg Prod.snd ha
  show (c.archOf std).2.1 = (c.archOf std).2.2 * g ∧ (c.archOf std).2.1 = c.banks ∧ (c.archOf std).2.2 = c.bankGroups
  rw [hb, hG]
  refine ⟨?_, rfl, rfl⟩
  by_cases h0 : c.bankGroups = 0
  · rw [if_pos h0] at hg; cases hg
  · rw [if_neg h0] at hg
    cases hg
    exact (Nat.mul_div_cancel' hdvd).symm

/-- The LPDDR5 mode, for every configuration: sixteen banks without groups, sixteen banks in four groups, eight banks without groups;
every other configuration is replaced by sixteen banks in one group. -/
theorem C44_mode (c : Config) (d : Derived) (h : c.derive .lpddr5 = .ok d) :
    (d.core.bankArch = .mbg ↔ c.banks = 16 ∧ c.bankGroups = 4) ∧ (d.core.bankArch = .m8b ↔ c.banks = 8 ∧ c.bankGroups ≤ 1) ∧
    d.core.numberOfBanks = (if d.core.bankArch = .m8b then 8 else 16) ∧
    (d.core.bankArch = .mbg → d.core.numberOfBankGroups = 4) ∧ (d.core.bankArch ≠ .mbg → d.core.numberOfBankGroups ≤ 1) ∧
    d.power.arch = d.core.bankArch ∧ d.power.banks = d.core.numberOfBanks := by
  obtain ⟨g, l, -, -, -, rfl⟩ := Config.derive_ok h
  show (c.arch.1 = .mbg ↔ _) ∧ (c.arch.1 = .m8b ↔ _) ∧ c.arch.2.1 = (if c.arch.1 = .m8b then 8 else 16) ∧
    (c.arch.1 = .mbg → c.arch.2.2 = 4) ∧ (c.arch.1 ≠ .mbg → c.arch.2.2 ≤ 1) ∧ c.arch.1 = c.arch.1 ∧ c.arch.2.1 = c.arch.2.1
  unfold Config.arch
  split
  · rename_i h16
    split
    · rename_i hg; simp [h16]; omega
    · split
      · rename_i hg hg4; simp [h16, hg4]
      · rename_i hg hg4; simp [h16, hg4]
  · rename_i h16
    split
    · rename_i h8
      split
      · rename_i hg; simp [h8]; omega
      · rename_i hg; simp [h8]; omega
    · rename_i h8
      simp [h16, h8]

/-- In a device of eight banks the banks refreshed in a PASR mode are the documented part of the array. The property asks for every number
of banks. -/
theorem C44_pasr_partial (c : Config) (d : Derived) (h : c.derive .lpddr4 = .ok d) (hf : c.flgPASR = true) (h8 : c.banks = 8) (b : Nat) :
    Config.isBankActiveInPasr d b = true ↔ inPart 8 c.pasrMode b := by
  obtain ⟨g, l, -, hl, -, rfl⟩ := Config.derive_ok h
  unfold Config.activeBanks at hl
  rw [if_pos ⟨rfl, hf⟩, h8] at hl
  show (l.contains b = true) ↔ _
  have key : ∀ k first : Nat, k ≤ 8 → (Config.pasrRange 8 k first = .ok l) → (l.contains b = true ↔ first ≤ b ∧ b < first + (8 - k)) := by
    intro k first hk h
    unfold Config.pasrRange at h
    rw [if_neg (by omega)] at h
    cases h
    rw [List.contains_iff_mem, List.mem_map]
    constructor
    · rintro ⟨a, ha, rfl⟩
      have := List.mem_range.1 ha
      omega
    · rintro ⟨h1, h2⟩
      exact ⟨b - first, List.mem_range.2 (by omega), by omega⟩
  rw [key _ _ (Nat.le_trans (Config.pasr_le _) (by decide)) hl]
  generalize c.pasrMode = m
  match m with
  | 0 | 1 | 2 | 3 | 4 | 5 | 6 | 7 | m + 8 => simp only [Config.pasrTable, inPart, pasrPart]; omega

/-- The refresh mode selects the refresh time and, in every domain, the refresh current: the second mode for DDR4 and DDR5, the fourth for
DDR4, the first otherwise. A missing precharge current is replaced by that of the activate-precharge cycle. -/
theorem C44_refresh (std : Std) (c : Config) (d : Derived) (h : c.derive std = .ok d) :
    (d.core.tRFC = d.power.tRFC) ∧
    ((std = .ddr4 ∨ std = .ddr5) ∧ c.refMode = .two → d.power.tRFC = c.rfc2 ∧ d.power.domains.map (·.i5x) = c.domains.map (·.i5f2)) ∧
    (std = .ddr4 ∧ c.refMode = .four → d.power.tRFC = c.rfc4 ∧ d.power.domains.map (·.i5x) = c.domains.map (·.i5f4)) ∧
    (¬ ((std = .ddr4 ∨ std = .ddr5) ∧ c.refMode = .two) → ¬ (std = .ddr4 ∧ c.refMode = .four) →
      d.power.tRFC = c.rfc1 ∧ d.power.domains.map (·.i5x) = c.domains.map (·.i5b)) ∧
    d.power.domains.map (·.iBeta) = c.domains.map fun r => r.iBeta.getD r.i0 := by
  obtain ⟨g, l, -, -, -, rfl⟩ := Config.derive_ok h
  have h2 : c.isMode2 std = true ↔ (std = .ddr4 ∨ std = .ddr5) ∧ c.refMode = .two := by simp [Config.isMode2]
  have h4 : c.isMode4 std = true ↔ std = .ddr4 ∧ c.refMode = .four := by simp [Config.isMode4]
  show (c.tRFC std = c.tRFC std) ∧ (_ → c.tRFC std = _ ∧ (c.domains.map (c.domain std)).map (·.i5x) = _) ∧
    (_ → c.tRFC std = _ ∧ (c.domains.map (c.domain std)).map (·.i5x) = _) ∧
    (_ → _ → c.tRFC std = _ ∧ (c.domains.map (c.domain std)).map (·.i5x) = _) ∧ (c.domains.map (c.domain std)).map (·.iBeta) = _
  simp only [List.map_map, ← h2, ← h4]
  unfold Config.tRFC
  refine ⟨trivial, fun h => ?_, fun h => ?_, fun h h' => ?_, rfl⟩
  · rw [if_pos h]
    exact ⟨rfl, List.map_congr_left fun r _ => if_pos h⟩
  · have hn : ¬ c.isMode2 std = true := by
      rw [h2]; rintro ⟨-, h3⟩; rw [(h4.1 h).2] at h3; cases h3
    rw [if_neg hn, if_pos h]
    exact ⟨rfl, List.map_congr_left fun r _ => by show (if _ then _ else _) = _; rw [if_neg hn, if_pos h]⟩
  · rw [if_neg h, if_neg h']
    exact ⟨rfl, List.map_congr_left fun r _ => by show (if _ then _ else _) = _; rw [if_neg h, if_neg h']⟩

/-- `exampleConfig` meets the hypotheses: LPDDR5, and LPDDR4 with eight banks and half of the array refreshed. -/
example : ((exampleConfig.derive .lpddr5).map fun d : Derived => (d.core.numberOfBanks, d.core.numberOfBankGroups, d.core.banksPerGroup)) =
    .ok (16, 4, 4) ∧ recognised exampleConfig ∧
    (({ exampleConfig with banks := 8, bankWise := some { hasPASR := some true, pasrMode := some (some 5) } }.derive .lpddr4).map
      fun d : Derived => d.activeBanks) = .ok [4, 5, 6, 7] := by
  refine ⟨by decide +kernel, by unfold recognised; decide, by decide +kernel⟩

/-- The property is violated. An LPDDR5 organisation that is not recognised (32 banks in 4 groups) is replaced by 16 banks in one group, the
banks per group stay 8. Half of an array of sixteen banks (LPDDR4) is twelve banks. A device of four banks cannot be constructed with
PASR. -/
theorem C44_violation :
    (({ exampleConfig with banks := 32 }.derive .lpddr5).map
      fun d : Derived => (d.core.numberOfBanks, d.core.numberOfBankGroups, d.core.banksPerGroup)) = .ok (16, 1, 8) ∧
    (({ exampleConfig with bankWise := some { hasPASR := some true, pasrMode := some (some 1) } }.derive .lpddr4).map
      fun d : Derived => Config.isBankActiveInPasr d 11) = .ok true ∧ ¬ inPart 16 1 11 ∧
    (({ exampleConfig with banks := 4, bankWise := some { hasPASR := some true, pasrMode := some (some 2) } }.derive .lpddr4).map
      fun d : Derived => d.tBurst) = .error (.exception "length_error") := by
  refine ⟨by decide +kernel, by decide +kernel, by decide, by decide +kernel⟩

/-- Two banks in four groups (DDR5): no bank per group, the refresh of the same bank of every group divides by zero. -/
theorem C44_violation_groups : ({ exampleConfig with banks := 2 }.derive .ddr5).bind (fun d : Derived =>
    ((Core.init d.core).run .ddr5 d.core [{ t := 0, type := .REFSB, rank := 0, bank := 0 }]).map fun c : Core => c.last) =
    .error (.ub "modulo zero") := by
  decide +kernel

end DRAMPower
