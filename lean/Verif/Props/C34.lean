import Verif.Model.Names

/-!
# C34: Command names round-trip

`COUNT` is the number of command types (command/CmdType.h 39), not a command.
-/

namespace DRAMPower

/-- Every command type except `END_OF_SIMULATION` is read back from its printed name. -/
theorem C34_partial (c : CmdType) (h : c ≠ .END_OF_SIMULATION) (h' : c ≠ .COUNT) : CmdType.fromString c.toStr = c := by
  cases c <;> first | exact absurd rfl h | exact absurd rfl h' | decide +kernel

example : CmdType.REFP2B ≠ .END_OF_SIMULATION ∧ CmdType.REFP2B ≠ .COUNT := by decide

/-- No two command types have the same printed name. -/
theorem C34_distinct (c c' : CmdType) (h : c ≠ .COUNT) (h' : c' ≠ .COUNT) (he : c.toStr = c'.toStr) : c = c' := by
  by_cases h1 : c = .END_OF_SIMULATION
  · subst h1
    cases c' <;> first | rfl | exact absurd rfl h' | exact absurd he (by decide +kernel)
  by_cases h2 : c' = .END_OF_SIMULATION
  · subst h2
    cases c <;> first | rfl | exact absurd rfl h | exact absurd he (by decide +kernel)
  rw [← C34_partial c h1 h, ← C34_partial c' h2 h', he]

theorem ite_cases {α : Type} {p : Prop} [Decidable p] {a b c : α} (h : (if p then a else b) = c) : p ∧ a = c ∨ ¬ p ∧ b = c := by
  by_cases hp : p
  · exact .inl ⟨hp, by rw [if_pos hp] at h; exact h⟩
  · exact .inr ⟨hp, by rw [if_neg hp] at h; exact h⟩

/-- A string is only read as a command other than `NOP` if it is that command's printed name, or `END`. -/
theorem C34_strings (s : String) (c : CmdType) (h : CmdType.fromString s = c) (hc : c ≠ .NOP) :
    s = c.toStr ∨ s = "END" ∧ c = .END_OF_SIMULATION := by
  unfold CmdType.fromString at h
  iterate 23
    rcases ite_cases h with ⟨he, h⟩ | ⟨-, h⟩
    · subst h; first | exact absurd rfl hc | exact .inl he | exact .inr ⟨he, rfl⟩
  exact absurd h.symm hc

/-- The commands that carry data are the reads and writes. -/
theorem C34_data (c : CmdType) : c.needsData = true ↔ c.toStr ∈ ["RD", "RDA", "WR", "WRA"] := by
  cases c <;> decide +kernel

/-- The printed name of `END_OF_SIMULATION` is read as `NOP`. -/
theorem C34_violation : CmdType.fromString CmdType.END_OF_SIMULATION.toStr = .NOP ∧
    ¬ ∀ c : CmdType, c ≠ .COUNT → CmdType.fromString c.toStr = c :=
  ⟨by decide +kernel, fun h => absurd (h .END_OF_SIMULATION (by decide)) (by decide +kernel)⟩

end DRAMPower
