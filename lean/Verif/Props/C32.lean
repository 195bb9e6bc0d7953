import Verif.Lemmas.Sums
import Verif.Lemmas.EnergyExample

/-!
# C32: Totals equal the sum of their parts

`E_pre_RDA` and `E_pre_WRA` are left out of the totals. They are parts of `E_pre`, whose counter includes the precharges that
end reads and writes with auto-precharge (`C09_pre_partial`).
-/

namespace DRAMPower
open Spec

/-- Every component is listed, once. -/
theorem C32_all : (∀ c : Component, c ∈ Component.all) ∧ Component.all.Nodup ∧
    (∀ c : SharedComponent, c ∈ SharedComponent.all) ∧ SharedComponent.all.Nodup :=
  ⟨fun c => by cases c <;> decide, by decide, fun c => by cases c <;> decide, by decide⟩

/-- The total is the sum over the banks of the counted components plus the shared components. The property asks for all
components of a bank (`C32_violation`). -/
theorem C32_partial (e : Energy) : e.total = (e.bank.map bankTotal).sum + sharedTotal e.shared :=
  e.total_eq

/-- Aggregation adds every component over the banks, and the shared background energy to that of the banks. -/
theorem C32_aggregated (e : Energy) (c : Component) :
    c.of e.aggregated = (e.bank.map fun x => c.of x).sum + if c = .bgAct then e.shared.bgActShared else 0 := by
  have h := foldl_of e.bank {} c
  rw [Component.of_zero, zero_add] at h
  cases c
  case bgAct =>
    rw [if_pos rfl]
    exact congrArg (· + e.shared.bgActShared) h
  all_goals rw [if_neg (by decide), add_zero]; exact h

/-- The total of the aggregated energy is the total without the energies of the power-down, self-refresh and deep sleep states. -/
theorem C32_aggregated_total (e : Energy) :
    e.aggregated.total + (e.shared.pdnA + e.shared.pdnP + e.shared.sref + e.shared.dsm + e.shared.refab) = e.total := by
  simp only [Energy.total, Energy.aggregated, EnergyInfo.total]
  ring

/-- They agree if these states are not entered. -/
theorem C32_aggregated_partial (e : Energy) (h1 : e.shared.pdnA = 0) (h2 : e.shared.pdnP = 0) (h3 : e.shared.sref = 0)
    (h4 : e.shared.dsm = 0) (h5 : e.shared.refab = 0) : e.aggregated.total = e.total := by
  rw [← C32_aggregated_total, h1, h2, h3, h4, h5]; ring

/-- An energy result of two banks without such states. -/
example : let e : Energy := { bank := [{ eAct := 1 }, { eRD := 2 }], shared := { bgActShared := 3 } }
    e.aggregated.total = 6 ∧ e.total = 6 := by decide +kernel

/-- The interface total is the sum of the dynamic and static parts of controller and DRAM; sums are componentwise. -/
theorem C32_interface (a b : InterfaceInfo) :
    a.total = (a.controller.dynamic + a.controller.static) + (a.dram.dynamic + a.dram.static) ∧
    (a.add b).total = a.total + b.total := by
  simp only [InterfaceInfo.total, InterfaceInfo.add, InterfaceEnergy.add]
  exact ⟨by ring, by ring⟩

/-- A read with auto-precharge and self-refresh on `exampleSpec`: the total is neither the sum of all components nor the total
of the aggregated energy. -/
theorem C32_violation : ∃ (s : PowerSpec) (stats : SimStats) (e : Energy), s.calcEnergy .ddr4 stats = .ok e ∧
    e.total ≠ (e.bank.map fun x => (Component.all.map fun c => c.of x).sum).sum + sharedTotal e.shared ∧
    e.aggregated.total ≠ e.total := by
  let stats : SimStats :=
    { bank := [{ counter := { act := 1, pre := 1, readAuto := 1 } }, {}], rankTotal := [{ cycles := { selfRefresh := 3 } }] }
  have h : (match exampleSpec.calcEnergy .ddr4 stats with
      | .ok e => decide (e.total ≠ (e.bank.map fun x => (Component.all.map fun c => c.of x).sum).sum + sharedTotal e.shared ∧
          e.aggregated.total ≠ e.total)
      | .error _ => false) = true := by decide +kernel
  refine ⟨exampleSpec, stats, ?_⟩
  cases hc : exampleSpec.calcEnergy .ddr4 stats with
  | error x => rw [hc] at h; cases h
  | ok e => rw [hc] at h; exact ⟨e, rfl, of_decide_eq_true h⟩

end DRAMPower
