import Verif.Lemmas.Energy
import Verif.Lemmas.Stats
import Verif.Lemmas.EnergyExample

/-! # C30: Energy is additive over statistics -/

namespace DRAMPower
open Spec

namespace PowerSpec

theorem eRead_add (std : Std) (s : PowerSpec) (d : Domain) (m n : Nat) : s.eRead std d (m + n) = s.eRead std d m + s.eRead std d n := by
  cases std <;> simp only [eRead, E_RD_ddr, E_burst] <;> push_cast <;> ring

theorem eWrite_add (std : Std) (s : PowerSpec) (d : Domain) (m n : Nat) :
    s.eWrite std d (m + n) = s.eWrite std d m + s.eWrite std d n := by
  simp only [eWrite, E_burst]; push_cast; ring

theorem bankEnergy_add (std : Std) (s : PowerSpec) (d : Domain) (a b ra rb : CycleStats) (c : Component) :
    c.of (s.bankEnergy std d (a.add b) (ra.add rb)) = c.of (s.bankEnergy std d a ra) + c.of (s.bankEnergy std d b rb) := by
  cases c <;> simp only [Component.of, bankEnergy, CycleStats.add, Counters.add, Cycles.add]
  case rd => exact eRead_add _ _ _ _ _
  case rda => exact eRead_add _ _ _ _ _
  case wr => exact eWrite_add _ _ _ _ _
  case wra => exact eWrite_add _ _ _ _ _
  case refPb => cases std <;> simp only [eRefPerBank, E_ref_pb] <;> push_cast <;> ring
  case refSb => cases std <;> simp only [eRefSame, E_ref_sb] <;> push_cast <;> ring
  case ref2b => cases std <;> simp only [eRefTwo, E_ref_half] <;> push_cast <;> ring
  case refDb => cases std <;> simp only [eRefDual, E_ref_half] <;> push_cast <;> ring
  all_goals simp only [E_act, E_pre, E_BG_act_star, E_BG_pre, E_ref_ab]; push_cast; ring

theorem rankEnergy_add (std : Std) (s : PowerSpec) (d : Domain) (a b : CycleStats) (c : SharedComponent) :
    c.of (s.rankEnergy std d (a.add b)) = c.of (s.rankEnergy std d a) + c.of (s.rankEnergy std d b) := by
  cases c <;> simp only [SharedComponent.of, rankEnergy, CycleStats.add, Cycles.add, E_BG_act_shared]
  case dsm => cases std <;> simp only [eDsm] <;> push_cast <;> ring
  all_goals push_cast; ring

end PowerSpec

/-- The energy of the sum is the sum of the energies, in every component of every bank and in every shared component. -/
theorem C30 (std : Std) (s : PowerSpec) (a b : SimStats) (ea eb : Energy) (ha : s.calcEnergy std a = .ok ea)
    (hb : s.calcEnergy std b = .ok eb) :
    ∃ e, s.calcEnergy std (a.add b) = .ok e ∧ e.bank.length = ea.bank.length ∧ e.bank.length = eb.bank.length ∧
      (∀ i c, entry e i c = entry ea i c + entry eb i c) ∧
      ∀ c : SharedComponent, c.of e.shared = c.of ea.shared + c.of eb.shared := by
  have hok : ∃ e, s.calcEnergy std (a.add b) = .ok e := by
    unfold PowerSpec.calcEnergy at ha ⊢
    have l1 : a.bank.length ≤ (a.add b).bank.length := by
      show _ ≤ (addCycles a.bank b.bank).length
      rw [addCycles_length]; omega
    have l2 : a.rankTotal.length ≤ (a.add b).rankTotal.length := by
      show _ ≤ (addCycles a.rankTotal b.rankTotal).length
      rw [addCycles_length]; omega
    split at ha
    · cases ha
    · next h1 =>
      split at ha
      · cases ha
      · next h2 => rw [if_neg h1, if_neg (by omega)]; exact ⟨_, rfl⟩
  obtain ⟨e, he⟩ := hok
  have ca := PowerSpec.calc_closed ha
  have cb := PowerSpec.calc_closed hb
  have ce := PowerSpec.calc_closed he
  refine ⟨e, he, by rw [ce.length, ca.length], by rw [ce.length, cb.length], fun i c => ?_, fun c => ?_⟩
  · by_cases hi : i < s.ranks * s.devices * s.banks
    · obtain ⟨r, d, k, hr, hd, hk, rfl⟩ := s.energyIndex_surj hi
      rw [ce.bank r d k hr hd hk, ca.bank r d k hr hd hk, cb.bank r d k hr hd hk, ← List.sum_map_add]
      congr 1
      refine List.map_congr_left fun dom _ => ?_
      unfold PowerSpec.contrib
      rw [← PowerSpec.bankEnergy_add, ← addCycles_getD, ← addCycles_getD]
      rfl
    · have hz : ∀ e : Energy, e.bank.length = s.ranks * s.devices * s.banks → entry e i c = 0 := fun e he => by
        unfold entry
        rw [List.getD_eq_getElem?_getD, List.getElem?_eq_none (by omega)]
        exact Component.of_zero c
      rw [hz e ce.length, hz ea ca.length, hz eb cb.length, add_zero]
  · rw [ce.shared, ca.shared, cb.shared, ← List.sum_map_add]
    congr 1
    refine List.map_congr_left fun dom _ => ?_
    rw [← List.sum_map_add]
    congr 1
    refine List.map_congr_left fun r _ => ?_
    rw [← PowerSpec.rankEnergy_add, ← addCycles_getD]
    rfl

/-- The energy of a window is the sum of the energies of its parts. -/
theorem C30_partition (std : Std) (s : PowerSpec) (a : SimStats) (ea : Energy) (ha : s.calcEnergy std a = .ok ea)
    (parts : List (SimStats × Energy)) (hp : ∀ p ∈ parts, s.calcEnergy std p.1 = .ok p.2) :
    ∃ e, s.calcEnergy std ((parts.map (·.1)).foldl SimStats.add a) = .ok e ∧
      (∀ i c, entry e i c = entry ea i c + (parts.map fun p => entry p.2 i c).sum) ∧
      ∀ c : SharedComponent, c.of e.shared = c.of ea.shared + (parts.map fun p => c.of p.2.shared).sum := by
  induction parts generalizing a ea with
  | nil => exact ⟨ea, ha, by simp, by simp⟩
  | cons p parts ih =>
    obtain ⟨e1, h1, -, -, h2, h3⟩ := C30 std s a p.1 ea p.2 ha (hp p (by simp))
    obtain ⟨e, h4, h5, h6⟩ := ih (a.add p.1) e1 h1 fun q hq => hp q (by simp [hq])
    refine ⟨e, h4, fun i c => ?_, fun c => ?_⟩
    · rw [h5, h2, List.map_cons, List.sum_cons, add_assoc]
    · rw [h6, h3, List.map_cons, List.sum_cons, add_assoc]

/-- Specifications whose divisors are not zero and statistics of the right size are accepted. -/
theorem C30_accepts (std : Std) (s : PowerSpec) (a : SimStats) (hB : s.banks ≠ 0) (hDR : s.dataRate ≠ 0) (hRAS : s.tRAS ≠ 0)
    (hCK : s.tCK ≠ 0) (hBG : std = .ddr5 → s.bankGroups ≠ 0)
    (hLP : std = .lpddr4 ∨ std = .lpddr5 ∨ std = .lpddr6 → s.tRFCpb ≠ 0 ∧ (s.banks : Rat) * s.rho + (1 - s.rho) ≠ 0)
    (h1 : a.bank.length = s.ranks * s.banks) (h2 : a.rankTotal.length = s.ranks) : ∃ e, s.calcEnergy std a = .ok e := by
  unfold PowerSpec.calcEnergy
  rw [if_neg, if_neg (by omega)]
  · exact ⟨_, rfl⟩
  · have hB' : (s.banks : Rat) ≠ 0 := by exact_mod_cast hB
    have hDR' : (s.dataRate : Rat) ≠ 0 := by exact_mod_cast hDR
    have hRAS' : (s.tRAS : Rat) ≠ 0 := by exact_mod_cast hRAS
    have hRAS'' : s.t_RAS ≠ 0 := mul_ne_zero hRAS' hCK
    unfold PowerSpec.divisors
    cases std
    case ddr4 =>
      simp only [List.mem_cons, List.not_mem_nil, or_false, not_or]
      exact ⟨hB'.symm, hDR'.symm, hRAS''.symm⟩
    case ddr5 =>
      have h5 : (s.bankGroups : Rat) ≠ 0 := by exact_mod_cast hBG rfl
      simp only [List.mem_cons, List.not_mem_nil, or_false, not_or]
      exact ⟨hB'.symm, hDR'.symm, hRAS''.symm, h5.symm⟩
    all_goals
      obtain ⟨h3, h4⟩ := hLP (by simp)
      have h3' : (s.tRFCpb : Rat) ≠ 0 := by exact_mod_cast h3
      have h3'' : s.t_RFCpb ≠ 0 := mul_ne_zero h3' hCK
      simp only [List.mem_cons, List.not_mem_nil, or_false, not_or]
      exact ⟨hB'.symm, hDR'.symm, hRAS''.symm, h3''.symm, h4.symm⟩

/-- The hypotheses of `C30`. -/
example : ((exampleSpec.calcEnergy .lpddr5 exampleStats).map fun e => (entry e 2 .act, e.shared.sref)) = .ok (560, 96) := by
  decide +kernel

end DRAMPower
