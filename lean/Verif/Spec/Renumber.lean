import Verif.Spec.Timeline

/-!
# Renumbering the banks and ranks of a trace
-/

namespace DRAMPower.Spec

/-- The command when rank `i` is called `ρ i` and bank `b` of rank `i` is called `f i b`. -/
def renumber (ρ : Nat → Nat) (f : Nat → Nat → Nat) (c : Cmd) : Cmd :=
  { c with rank := ρ c.rank, bank := f c.rank c.bank, dbank := f c.rank c.dbank }

/-- `ρ` renumbers the ranks. -/
structure RankSymmetry (ms : MemSpec) (ρ : Nat → Nat) : Prop where
  range : ∀ i < ms.numberOfRanks, ρ i < ms.numberOfRanks
  inj : ∀ i < ms.numberOfRanks, ∀ j < ms.numberOfRanks, ρ i = ρ j → i = j

instance (ms : MemSpec) (ρ : Nat → Nat) : Decidable (RankSymmetry ms ρ) :=
  decidable_of_iff ((∀ i < ms.numberOfRanks, ρ i < ms.numberOfRanks) ∧
      ∀ i < ms.numberOfRanks, ∀ j < ms.numberOfRanks, ρ i = ρ j → i = j)
    ⟨fun ⟨a, b⟩ => ⟨a, b⟩, fun ⟨a, b⟩ => ⟨a, b⟩⟩

/-- `f` renumbers the banks of a rank and keeps together what the standard's commands treat together: for DDR5 the banks of equal number
in their groups, for LPDDR5 the pairs of the two-bank refresh. -/
structure BankSymmetry (std : Std) (ms : MemSpec) (f : Nat → Nat) : Prop where
  range : ∀ b < ms.numberOfBanks, f b < ms.numberOfBanks
  inj : ∀ a < ms.numberOfBanks, ∀ b < ms.numberOfBanks, f a = f b → a = b
  sameBank : std = .ddr5 → ∀ a < ms.numberOfBanks, ∀ b < ms.numberOfBanks,
    (f a % ms.banksPerGroup = f b % ms.banksPerGroup ↔ a % ms.banksPerGroup = b % ms.banksPerGroup)
  pairs : std = .lpddr5 → ∀ b < ms.numberOfBanks, (b + ms.perTwoBankOffset) % 16 < ms.numberOfBanks →
    f ((b + ms.perTwoBankOffset) % 16) = (f b + ms.perTwoBankOffset) % 16

instance (std : Std) (ms : MemSpec) (f : Nat → Nat) : Decidable (BankSymmetry std ms f) :=
  decidable_of_iff ((∀ b < ms.numberOfBanks, f b < ms.numberOfBanks) ∧
      (∀ a < ms.numberOfBanks, ∀ b < ms.numberOfBanks, f a = f b → a = b) ∧
      (std = .ddr5 → ∀ a < ms.numberOfBanks, ∀ b < ms.numberOfBanks,
        (f a % ms.banksPerGroup = f b % ms.banksPerGroup ↔ a % ms.banksPerGroup = b % ms.banksPerGroup)) ∧
      (std = .lpddr5 → ∀ b < ms.numberOfBanks, (b + ms.perTwoBankOffset) % 16 < ms.numberOfBanks →
        f ((b + ms.perTwoBankOffset) % 16) = (f b + ms.perTwoBankOffset) % 16))
    ⟨fun ⟨a, b, c, d⟩ => ⟨a, b, c, d⟩, fun ⟨a, b, c, d⟩ => ⟨a, b, c, d⟩⟩

end DRAMPower.Spec
