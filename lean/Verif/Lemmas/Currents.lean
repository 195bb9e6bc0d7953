import Verif.Lemmas.Energy
import Verif.Spec.Currents

/-! # The background currents -/

namespace DRAMPower
open Spec

namespace PowerSpec

theorem activeBase_eq (std : Std) (s : PowerSpec) (d : Domain) : s.I_rho std d = activeBase std s d := by
  cases std <;> simp only [I_rho, activeBase]
  case ddr4 => ring
  case ddr5 => ring
  all_goals congr 1 <;> ring

theorem tBurst_eq (std : Std) (s : PowerSpec) : s.tBurst std = dataClock std s := by
  cases std <;> simp [tBurst, dataClock]

theorem I_1_eq (std : Std) (s : PowerSpec) (d : Domain) (hB : (s.banks : Rat) ≠ 0) : s.I_1 std d = background std s d 1 := by
  cases std <;> simp only [I_1, background, activeBase_eq]
  case lpddr4 => push_cast; ring
  case lpddr5 => push_cast; ring
  case lpddr6 => push_cast; ring
  all_goals
    have : ((s.banks - 1 : Nat) : Rat) = (s.banks : Rat) - 1 := by
      rw [Nat.cast_sub (by have : s.banks ≠ 0 := by exact_mod_cast hB
                           omega)]
      push_cast; ring
    rw [this]
    field_simp
    push_cast
    ring

theorem background_lin (std : Std) (s : PowerSpec) (d : Domain) (hB : (s.banks : Rat) ≠ 0) (k : Nat) :
    background std s d k = s.I_rho std d + (k : Rat) * (s.I_1 std d - s.I_rho std d) := by
  rw [I_1_eq std s d hB, activeBase_eq]
  cases std <;> simp only [background] <;> push_cast <;> ring

theorem I_B_eq (std : Std) (s : PowerSpec) (d : Domain) (hB : (s.banks : Rat) ≠ 0) : s.I_B std d = background std s d s.banks := by
  cases std
  case ddr4 => simp only [I_B, background]; field_simp; ring
  case ddr5 => simp only [I_B, background]; field_simp; ring
  all_goals simp only [I_B]; rw [background_lin _ _ _ hB]

theorem I_2_eq (std : Std) (s : PowerSpec) (d : Domain) (hB : (s.banks : Rat) ≠ 0) : s.I_2 std d = background std s d 2 := by
  rw [background_lin _ _ _ hB]; unfold I_2; push_cast; ring

theorem I_BG_eq (std : Std) (s : PowerSpec) (d : Domain) (hB : (s.banks : Rat) ≠ 0) : s.I_BG std d = background std s d s.bankGroups := by
  rw [background_lin _ _ _ hB]; unfold I_BG; ring

theorem I_burst_eq (std : Std) (s : PowerSpec) (d : Domain) (hB : (s.banks : Rat) ≠ 0) :
    s.I_burst std d = background std s d (burstBanks std s) := by
  cases std <;> simp only [I_burst, burstBanks]
  case lpddr5 =>
    split
    · exact I_2_eq _ _ _ hB
    · exact I_1_eq _ _ _ hB
  case lpddr4 => exact I_1_eq _ _ _ hB
  case lpddr6 => exact I_2_eq _ _ _ hB
  all_goals exact I_B_eq _ _ _ hB

end PowerSpec

end DRAMPower
