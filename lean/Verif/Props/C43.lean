import Verif.Lemmas.Total
import Verif.Lemmas.EnergyExample

/-!
# C43: The measurement loops of the data sheet need the currents of the data sheet

Statistics of one rank of any number of devices and banks. `loopStats banks k on off rank`: `k` banks with statistics `on`, the
others with `off`.
-/

namespace DRAMPower
open Spec

/-- Energy of current `i` of every domain over the time `t` on every device. -/
def Spec.loopEnergy (s : PowerSpec) (i : Domain → Rat) (t : Rat) : Rat :=
  (s.devices : Rat) * (s.domains.map fun d => d.v * i d * t).sum

theorem loopEnergy_eq (s : PowerSpec) (i : Domain → Rat) (t : Rat) (f : Domain → Rat)
    (h : ∀ d ∈ s.domains, f d = (s.devices : Rat) * (d.v * i d * t)) : (s.domains.map f).sum = loopEnergy s i t := by
  unfold loopEnergy
  rw [← sum_mul_left, List.map_congr_left h]

namespace PowerSpec

/-- What the spent background and commands of a domain amount to. -/
theorem bankTotal_bankEnergy (std : Std) (s : PowerSpec) (d : Domain) (bank rank : CycleStats) :
    bankTotal (s.bankEnergy std d bank rank) =
      E_act d.v (s.I_theta d) (s.I_1 std d) s.t_RAS bank.counter.act + E_pre d.v d.iBeta d.i2n s.t_RP bank.counter.pre +
      E_BG_act_star d.v (s.I_1 std d) (s.I_rho std d) ((bank.cycles.act : Rat) * s.tCK) +
      E_BG_pre s.banks d.v d.i2n ((rank.cycles.pre : Rat) * s.tCK) +
      s.eRead std d bank.counter.reads + s.eWrite std d bank.counter.writes + s.eRead std d bank.counter.readAuto +
      s.eWrite std d bank.counter.writeAuto + E_ref_ab s.banks d.v d.i5x (s.I_B std d) s.t_RFC bank.counter.refAllBank +
      s.eRefPerBank std d bank.counter.refPerBank + s.eRefSame std d bank.counter.refSameBank +
      s.eRefTwo std d bank.counter.refPerTwoBanks + s.eRefDual std d bank.counter.refDualBanks := by
  rw [← bankTotal_eq]; rfl

theorem sharedTotal_rankEnergy (std : Std) (s : PowerSpec) (d : Domain) (rank : CycleStats) :
    sharedTotal (s.rankEnergy std d rank) =
      E_BG_act_shared d.v (s.I_rho std d) ((rank.cycles.act : Rat) * s.tCK) * (s.devices : Rat) +
      d.v * d.i3p * (rank.cycles.powerDownAct : Rat) * s.tCK * (s.devices : Rat) +
      d.v * d.i2p * (rank.cycles.powerDownPre : Rat) * s.tCK * (s.devices : Rat) +
      d.v * d.i6n * (rank.cycles.selfRefresh : Rat) * s.tCK * (s.devices : Rat) + s.eDsm std d rank.cycles.deepSleepMode := by
  rw [sharedTotal_eq]; simp [rankEnergy]

theorem eRead_zero (std : Std) (s : PowerSpec) (d : Domain) : s.eRead std d 0 = 0 := by
  cases std <;> simp [eRead, E_RD_ddr, E_burst]
theorem eWrite_zero (std : Std) (s : PowerSpec) (d : Domain) : s.eWrite std d 0 = 0 := by simp [eWrite, E_burst]
theorem eRefPerBank_zero (std : Std) (s : PowerSpec) (d : Domain) : s.eRefPerBank std d 0 = 0 := by
  cases std <;> simp [eRefPerBank, E_ref_pb]
theorem eRefSame_zero (std : Std) (s : PowerSpec) (d : Domain) : s.eRefSame std d 0 = 0 := by
  cases std <;> simp [eRefSame, E_ref_sb]
theorem eRefTwo_zero (std : Std) (s : PowerSpec) (d : Domain) : s.eRefTwo std d 0 = 0 := by
  cases std <;> simp [eRefTwo, E_ref_half]
theorem eRefDual_zero (std : Std) (s : PowerSpec) (d : Domain) : s.eRefDual std d 0 = 0 := by
  cases std <;> simp [eRefDual, E_ref_half]
theorem eDsm_zero (std : Std) (s : PowerSpec) (d : Domain) : s.eDsm std d 0 = 0 := by cases std <;> simp [eDsm]
theorem E_act_zero (a b c d : Rat) : E_act a b c d 0 = 0 := by simp [E_act]
theorem E_pre_zero (a b c d : Rat) : E_pre a b c d 0 = 0 := by simp [E_pre]
theorem E_ref_ab_zero (B : Nat) (a b c d : Rat) : E_ref_ab B a b c d 0 = 0 := by simp [E_ref_ab]

/-- Energy of the commands of a bank. -/
def cmdEnergy (std : Std) (s : PowerSpec) (d : Domain) (c : Counters) : Rat :=
  E_act d.v (s.I_theta d) (s.I_1 std d) s.t_RAS c.act + E_pre d.v d.iBeta d.i2n s.t_RP c.pre +
  s.eRead std d c.reads + s.eWrite std d c.writes + s.eRead std d c.readAuto + s.eWrite std d c.writeAuto +
  E_ref_ab s.banks d.v d.i5x (s.I_B std d) s.t_RFC c.refAllBank + s.eRefPerBank std d c.refPerBank +
  s.eRefSame std d c.refSameBank + s.eRefTwo std d c.refPerTwoBanks + s.eRefDual std d c.refDualBanks

theorem cmdEnergy_zero (std : Std) (s : PowerSpec) (d : Domain) : s.cmdEnergy std d {} = 0 := by
  simp only [cmdEnergy, eRead_zero, eWrite_zero, eRefPerBank_zero, eRefSame_zero, eRefTwo_zero, eRefDual_zero, E_act_zero, E_pre_zero,
    E_ref_ab_zero, add_zero]

/-- A loop in which `k` banks execute commands and are active for `n` cycles, and the rank is precharged for `m` cycles. -/
theorem loop_energy (std : Std) (s : PowerSpec) (k n m : Nat) (cnt : Counters) (hR : s.ranks = 1) (hk : k ≤ s.banks)
    (hdiv : 0 ∉ s.divisors std) (i : Domain → Rat) (t : Rat)
    (h : ∀ d ∈ s.domains, (k : Rat) * s.cmdEnergy std d cnt + d.v * background std s d k * ((n : Rat) * s.tCK) +
      d.v * d.i2n * ((m : Rat) * s.tCK) = d.v * i d * t) :
    ∃ e, s.calcEnergy std (loopStats s.banks k { counter := cnt, cycles := { act := n } } {} { cycles := { act := n, pre := m } }) =
      .ok e ∧ e.total = loopEnergy s i t := by
  have hB : (s.banks : Rat) ≠ 0 := fun h => hdiv (by unfold divisors; rw [h]; simp)
  obtain ⟨e, he⟩ := loop_ok (std := std) { counter := cnt, cycles := { act := n } } {} { cycles := { act := n, pre := m } } hR hk hdiv
  refine ⟨e, he, ?_⟩
  rw [loop_total hR hk he]
  refine loopEnergy_eq _ _ _ _ fun d hd => ?_
  rw [← h d hd, bankTotal_bankEnergy, bankTotal_bankEnergy, sharedTotal_rankEnergy, background_lin std s d hB]
  simp only [eRead_zero, eWrite_zero, eRefPerBank_zero, eRefSame_zero, eRefTwo_zero, eRefDual_zero, eDsm_zero, E_act_zero, E_pre_zero,
    E_ref_ab_zero]
  unfold E_BG_act_star E_BG_pre E_BG_act_shared cmdEnergy
  field_simp
  push_cast
  ring

theorem banks_ne {std : Std} {s : PowerSpec} (hdiv : 0 ∉ s.divisors std) : (s.banks : Rat) ≠ 0 :=
  fun h => hdiv (by unfold divisors; rw [h]; simp)

theorem tRAS_ne {std : Std} {s : PowerSpec} (hdiv : 0 ∉ s.divisors std) : s.t_RAS ≠ 0 :=
  fun h => hdiv (by unfold divisors; rw [h]; simp)

theorem dataRate_ne {std : Std} {s : PowerSpec} (hdiv : 0 ∉ s.divisors std) : (s.dataRate : Rat) ≠ 0 :=
  fun h => hdiv (by unfold divisors; rw [h]; simp)

theorem cast_quot {a b : Nat} (h : b ∣ a) (hb : (b : Rat) ≠ 0) : ((a / b : Nat) : Rat) = (a : Rat) / (b : Rat) := by
  obtain ⟨c, rfl⟩ := h
  have hb' : 0 < b := Nat.pos_of_ne_zero (by exact_mod_cast hb)
  rw [Nat.mul_div_cancel_left c hb']
  push_cast
  field_simp

theorem one_le_banks {std : Std} {s : PowerSpec} (hdiv : 0 ∉ s.divisors std) : 1 ≤ s.banks :=
  Nat.one_le_iff_ne_zero.2 (by exact_mod_cast banks_ne hdiv)

theorem background_all_ddr {std : Std} (hstd : std = .ddr4 ∨ std = .ddr5) {s : PowerSpec} (d : Domain) (hB : (s.banks : Rat) ≠ 0) :
    background std s d s.banks = d.i3n := by
  rw [← I_B_eq std s d hB]; rcases hstd with rfl | rfl <;> rfl

theorem background_one_lp {std : Std} (hstd : std = .lpddr4 ∨ std = .lpddr5 ∨ std = .lpddr6) {s : PowerSpec} (d : Domain)
    (hB : (s.banks : Rat) ≠ 0) : background std s d 1 = d.i3n := by
  rw [← I_1_eq std s d hB]; rcases hstd with rfl | rfl | rfl <;> rfl

end PowerSpec

/-- One bank activated and precharged at the rate `tRAS + tRP`: `IDD0` (all standards). -/
theorem C43_idd0 (std : Std) (s : PowerSpec) (hR : s.ranks = 1) (hdiv : 0 ∉ s.divisors std) :
    ∃ e, s.calcEnergy std (loopStats s.banks 1 { counter := { act := 1, pre := 1 }, cycles := { act := s.tRAS } } {}
        { cycles := { act := s.tRAS, pre := s.tRP } }) = .ok e ∧
      e.total = loopEnergy s (·.i0) (((s.tRAS : Rat) + (s.tRP : Rat)) * s.tCK) := by
  refine PowerSpec.loop_energy std s 1 s.tRAS s.tRP _ hR (PowerSpec.one_le_banks hdiv) hdiv _ _ fun d _ => ?_
  have hRAS := PowerSpec.tRAS_ne hdiv
  rw [← PowerSpec.I_1_eq std s d (PowerSpec.banks_ne hdiv)]
  simp only [PowerSpec.cmdEnergy, PowerSpec.eRead_zero, PowerSpec.eWrite_zero, PowerSpec.eRefPerBank_zero, PowerSpec.eRefSame_zero,
      PowerSpec.eRefTwo_zero, PowerSpec.eRefDual_zero, PowerSpec.E_ref_ab_zero, add_zero]
  unfold E_act E_pre PowerSpec.I_theta
  have hr : (s.tRAS : Rat) * s.tCK = s.t_RAS := rfl
  have hp : (s.tRP : Rat) * s.tCK = s.t_RP := rfl
  rw [add_mul, hr, hp]
  field_simp
  push_cast
  ring

/-- All banks precharged: `IDD2N` (all standards). -/
theorem C43_idd2n (std : Std) (s : PowerSpec) (hR : s.ranks = 1) (hdiv : 0 ∉ s.divisors std) (n : Nat) :
    ∃ e, s.calcEnergy std (loopStats s.banks 0 {} {} { cycles := { pre := n } }) = .ok e ∧
      e.total = loopEnergy s (·.i2n) ((n : Rat) * s.tCK) := by
  refine PowerSpec.loop_energy std s 0 0 n {} hR (Nat.zero_le _) hdiv _ _ fun d _ => ?_
  push_cast
  ring

/-- All banks active (DDR4, DDR5), one bank active (LPDDR): `IDD3N`. -/
theorem C43_idd3n (std : Std) (s : PowerSpec) (hR : s.ranks = 1) (hdiv : 0 ∉ s.divisors std) (n k : Nat)
    (hk : k = if std = .ddr4 ∨ std = .ddr5 then s.banks else 1) :
    ∃ e, s.calcEnergy std (loopStats s.banks k { cycles := { act := n } } {} { cycles := { act := n } }) = .ok e ∧
      e.total = loopEnergy s (·.i3n) ((n : Rat) * s.tCK) := by
  have hB := PowerSpec.banks_ne hdiv
  have hkB : k ≤ s.banks := by rw [hk]; split; exacts [Nat.le_refl _, PowerSpec.one_le_banks hdiv]
  refine PowerSpec.loop_energy std s k n 0 {} hR hkB hdiv _ _ fun d _ => ?_
  have hb : background std s d k = d.i3n := by
    by_cases h : std = .ddr4 ∨ std = .ddr5
    · rw [hk, if_pos h]; exact PowerSpec.background_all_ddr h d hB
    · rw [hk, if_neg h]
      exact PowerSpec.background_one_lp (by cases std <;> simp_all) d hB
  rw [hb, PowerSpec.cmdEnergy_zero]
  push_cast
  ring

/-- A rank in which only the shared energies count. -/
theorem PowerSpec.idle_energy (std : Std) (s : PowerSpec) (hR : s.ranks = 1) (hdiv : 0 ∉ s.divisors std) (rank : CycleStats)
    (i : Domain → Rat) (t : Rat) (hp : rank.cycles.pre = 0)
    (h : ∀ d, sharedTotal (s.rankEnergy std d rank) = (s.devices : Rat) * (d.v * i d * t)) :
    ∃ e, s.calcEnergy std (loopStats s.banks 0 {} {} rank) = .ok e ∧ e.total = loopEnergy s i t := by
  obtain ⟨e, he⟩ := PowerSpec.loop_ok (std := std) {} {} rank hR (Nat.zero_le _) hdiv
  refine ⟨e, he, ?_⟩
  rw [PowerSpec.loop_total hR (Nat.zero_le _) he]
  refine loopEnergy_eq _ _ _ _ fun d _ => ?_
  rw [← h d, PowerSpec.bankTotal_bankEnergy, hp]
  simp only [PowerSpec.eRead_zero, PowerSpec.eWrite_zero, PowerSpec.eRefPerBank_zero, PowerSpec.eRefSame_zero,
    PowerSpec.eRefTwo_zero, PowerSpec.eRefDual_zero, PowerSpec.E_ref_ab_zero, PowerSpec.E_act_zero, PowerSpec.E_pre_zero]
  unfold E_BG_act_star E_BG_pre
  push_cast
  ring

/-- Power-down with active banks, precharge power-down and self-refresh: `IDD3P`, `IDD2P`, `IDD6`. -/
theorem C43_powerdown (std : Std) (s : PowerSpec) (hR : s.ranks = 1) (hdiv : 0 ∉ s.divisors std) (n : Nat) :
    (∃ e, s.calcEnergy std (loopStats s.banks 0 {} {} { cycles := { powerDownAct := n } }) = .ok e ∧
      e.total = loopEnergy s (·.i3p) ((n : Rat) * s.tCK)) ∧
    (∃ e, s.calcEnergy std (loopStats s.banks 0 {} {} { cycles := { powerDownPre := n } }) = .ok e ∧
      e.total = loopEnergy s (·.i2p) ((n : Rat) * s.tCK)) ∧
    ∃ e, s.calcEnergy std (loopStats s.banks 0 {} {} { cycles := { selfRefresh := n } }) = .ok e ∧
      e.total = loopEnergy s (·.i6n) ((n : Rat) * s.tCK) := by
  refine ⟨PowerSpec.idle_energy _ _ hR hdiv _ _ _ rfl fun d => ?_, PowerSpec.idle_energy _ _ hR hdiv _ _ _ rfl fun d => ?_,
    PowerSpec.idle_energy _ _ hR hdiv _ _ _ rfl fun d => ?_⟩
  all_goals
    rw [PowerSpec.sharedTotal_rankEnergy]
    simp only [PowerSpec.eDsm_zero]
    unfold E_BG_act_shared
    push_cast
    ring

/-- Deep sleep (LPDDR5, LPDDR6): `IDD6DS`. -/
theorem C43_idd6ds (std : Std) (hstd : std = .lpddr5 ∨ std = .lpddr6) (s : PowerSpec) (hR : s.ranks = 1)
    (hdiv : 0 ∉ s.divisors std) (n : Nat) :
    ∃ e, s.calcEnergy std (loopStats s.banks 0 {} {} { cycles := { deepSleepMode := n } }) = .ok e ∧
      e.total = loopEnergy s (·.i6ds) ((n : Rat) * s.tCK) := by
  refine PowerSpec.idle_energy _ _ hR hdiv _ _ _ rfl fun d => ?_
  rw [PowerSpec.sharedTotal_rankEnergy]
  have : s.eDsm std d n = d.v * d.i6ds * (n : Rat) * s.tCK * (s.devices : Rat) := by rcases hstd with rfl | rfl <;> rfl
  simp only [this]
  unfold E_BG_act_shared
  push_cast
  ring

/-- Reads back to back: `IDD4R`. The time `n` cycles is that of `r` bursts. -/
theorem C43_idd4r (std : Std) (s : PowerSpec) (hR : s.ranks = 1) (hdiv : 0 ∉ s.divisors std) (hB2 : burstBanks std s ≤ s.banks)
    (hDR : s.dataRate ∣ s.burstLength) (r n : Nat)
    (hn : (burstBanks std s : Rat) * (r : Rat) * ((s.burstLength : Rat) / (s.dataRate : Rat)) * dataClock std s = (n : Rat) * s.tCK) :
    ∃ e, s.calcEnergy std (loopStats s.banks (burstBanks std s) { counter := { reads := r }, cycles := { act := n } } {}
        { cycles := { act := n } }) = .ok e ∧
      e.total = loopEnergy s (·.i4r) ((n : Rat) * s.tCK) := by
  have hB := PowerSpec.banks_ne hdiv
  have hdr := PowerSpec.dataRate_ne hdiv
  refine PowerSpec.loop_energy std s _ n 0 _ hR hB2 hdiv _ _ fun d _ => ?_
  have hrd : s.eRead std d r = d.v * (d.i4r - background std s d (burstBanks std s)) *
      ((s.burstLength : Rat) / (s.dataRate : Rat)) * dataClock std s * (r : Rat) := by
    rw [← PowerSpec.I_burst_eq std s d hB]
    cases std <;> simp only [PowerSpec.eRead, E_RD_ddr, E_burst, PowerSpec.cast_quot hDR hdr, ← PowerSpec.tBurst_eq, PowerSpec.tBurst]
  simp only [PowerSpec.cmdEnergy, PowerSpec.eRead_zero, PowerSpec.eWrite_zero, PowerSpec.eRefPerBank_zero, PowerSpec.eRefSame_zero,
      PowerSpec.eRefTwo_zero, PowerSpec.eRefDual_zero, PowerSpec.E_ref_ab_zero, PowerSpec.E_act_zero, PowerSpec.E_pre_zero, hrd]
  rw [← hn]
  push_cast
  ring

/-- Writes back to back: `IDD4W`. -/
theorem C43_idd4w (std : Std) (s : PowerSpec) (hR : s.ranks = 1) (hdiv : 0 ∉ s.divisors std) (hB2 : burstBanks std s ≤ s.banks)
    (hDR : s.dataRate ∣ s.burstLength) (r n : Nat)
    (hn : (burstBanks std s : Rat) * (r : Rat) * ((s.burstLength : Rat) / (s.dataRate : Rat)) * dataClock std s = (n : Rat) * s.tCK) :
    ∃ e, s.calcEnergy std (loopStats s.banks (burstBanks std s) { counter := { writes := r }, cycles := { act := n } } {}
        { cycles := { act := n } }) = .ok e ∧
      e.total = loopEnergy s (·.i4w) ((n : Rat) * s.tCK) := by
  have hB := PowerSpec.banks_ne hdiv
  have hdr := PowerSpec.dataRate_ne hdiv
  refine PowerSpec.loop_energy std s _ n 0 _ hR hB2 hdiv _ _ fun d _ => ?_
  have hwr : s.eWrite std d r = d.v * (d.i4w - background std s d (burstBanks std s)) *
      ((s.burstLength : Rat) / (s.dataRate : Rat)) * dataClock std s * (r : Rat) := by
    rw [← PowerSpec.I_burst_eq std s d hB]
    simp only [PowerSpec.eWrite, E_burst, PowerSpec.cast_quot hDR hdr, PowerSpec.tBurst_eq]
  simp only [PowerSpec.cmdEnergy, PowerSpec.eRead_zero, PowerSpec.eWrite_zero, PowerSpec.eRefPerBank_zero, PowerSpec.eRefSame_zero,
      PowerSpec.eRefTwo_zero, PowerSpec.eRefDual_zero, PowerSpec.E_ref_ab_zero, PowerSpec.E_act_zero, PowerSpec.E_pre_zero, hwr]
  rw [← hn]
  push_cast
  ring

/-- Refresh of all banks: `IDD5`. -/
theorem C43_idd5 (std : Std) (s : PowerSpec) (hR : s.ranks = 1) (hdiv : 0 ∉ s.divisors std) :
    ∃ e, s.calcEnergy std (loopStats s.banks s.banks { counter := { refAllBank := 1 }, cycles := { act := s.tRFC } } {}
        { cycles := { act := s.tRFC } }) = .ok e ∧
      e.total = loopEnergy s (·.i5x) ((s.tRFC : Rat) * s.tCK) := by
  have hB := PowerSpec.banks_ne hdiv
  refine PowerSpec.loop_energy std s _ s.tRFC 0 _ hR (Nat.le_refl _) hdiv _ _ fun d _ => ?_
  simp only [PowerSpec.cmdEnergy, PowerSpec.eRead_zero, PowerSpec.eWrite_zero, PowerSpec.eRefPerBank_zero, PowerSpec.eRefSame_zero,
      PowerSpec.eRefTwo_zero, PowerSpec.eRefDual_zero, PowerSpec.E_act_zero, PowerSpec.E_pre_zero]
  rw [PowerSpec.I_B_eq std s d hB]
  unfold E_ref_ab PowerSpec.t_RFC
  field_simp
  push_cast
  ring

/-- Refresh of one bank of every bank group (DDR5): `IDD5C`. -/
theorem C43_idd5c (s : PowerSpec) (hR : s.ranks = 1) (hdiv : 0 ∉ s.divisors .ddr5) (hBG : s.bankGroups ≤ s.banks) :
    ∃ e, s.calcEnergy .ddr5 (loopStats s.banks s.bankGroups { counter := { refSameBank := 1 }, cycles := { act := s.tRFCpb } } {}
        { cycles := { act := s.tRFCpb } }) = .ok e ∧
      e.total = loopEnergy s (·.i5c) ((s.tRFCpb : Rat) * s.tCK) := by
  have hB := PowerSpec.banks_ne hdiv
  have hG : (s.bankGroups : Rat) ≠ 0 := fun h => hdiv (by unfold PowerSpec.divisors; rw [h]; simp)
  refine PowerSpec.loop_energy .ddr5 s _ s.tRFCpb 0 _ hR hBG hdiv _ _ fun d _ => ?_
  simp only [PowerSpec.cmdEnergy, PowerSpec.eRead_zero, PowerSpec.eWrite_zero, PowerSpec.eRefPerBank_zero, PowerSpec.eRefSame,
      PowerSpec.eRefTwo_zero, PowerSpec.eRefDual_zero, PowerSpec.E_act_zero, PowerSpec.E_pre_zero, PowerSpec.E_ref_ab_zero]
  rw [PowerSpec.I_BG_eq .ddr5 s d hB]
  unfold E_ref_sb PowerSpec.t_RFCpb
  field_simp
  push_cast
  ring

/-- Refresh of one bank (LPDDR4, LPDDR5) or of two banks (LPDDR5, LPDDR6) in every eighth of `tREFI`: `IDD5PB`. -/
theorem C43_idd5pb (std : Std) (s : PowerSpec) (hR : s.ranks = 1) (hdiv : 0 ∉ s.divisors std) (k n : Nat) (cnt : Counters)
    (hcase : (std = .lpddr4 ∨ std = .lpddr5) ∧ k = 1 ∧ cnt = { refPerBank := 1 } ∨
      std = .lpddr5 ∧ k = 2 ∧ cnt = { refPerTwoBanks := 1 } ∨ std = .lpddr6 ∧ k = 2 ∧ cnt = { refDualBanks := 1 })
    (hk : k ≤ s.banks) (hn : 8 * (n + s.tRFCpb) = s.tREFI) :
    ∃ e, s.calcEnergy std (loopStats s.banks k { counter := cnt, cycles := { act := s.tRFCpb } } {}
        { cycles := { act := s.tRFCpb, pre := n } }) = .ok e ∧
      e.total = loopEnergy s (·.i5pb) ((s.tREFI : Rat) * s.tCK / 8) := by
  have hB := PowerSpec.banks_ne hdiv
  have hpb : s.t_RFCpb ≠ 0 := fun h => hdiv (by
    unfold PowerSpec.divisors
    rcases hcase with ⟨rfl | rfl, -⟩ | ⟨rfl, -⟩ | ⟨rfl, -⟩ <;> rw [h] <;> simp)
  refine PowerSpec.loop_energy std s k s.tRFCpb n cnt hR hk hdiv _ _ fun d _ => ?_
  have hcmd : (k : Rat) * s.cmdEnergy std d cnt = d.v * (s.I5PB_B d - background std s d k) * s.t_RFCpb := by
    rcases hcase with ⟨h, rfl, rfl⟩ | ⟨rfl, rfl, rfl⟩ | ⟨rfl, rfl, rfl⟩
    · have : s.eRefPerBank std d 1 = E_ref_pb d.v (s.I5PB_B d) (s.I_1 std d) s.t_RFCpb 1 := by rcases h with rfl | rfl <;> rfl
      simp only [PowerSpec.cmdEnergy, PowerSpec.eRead_zero, PowerSpec.eWrite_zero, this, PowerSpec.eRefSame_zero,
        PowerSpec.eRefTwo_zero, PowerSpec.eRefDual_zero, PowerSpec.E_act_zero, PowerSpec.E_pre_zero, PowerSpec.E_ref_ab_zero]
      rw [PowerSpec.I_1_eq _ s d hB]
      unfold E_ref_pb
      push_cast
      ring
    · simp only [PowerSpec.cmdEnergy, PowerSpec.eRead_zero, PowerSpec.eWrite_zero, PowerSpec.eRefPerBank_zero, PowerSpec.eRefSame_zero,
        PowerSpec.eRefTwo, PowerSpec.eRefDual_zero, PowerSpec.E_act_zero, PowerSpec.E_pre_zero, PowerSpec.E_ref_ab_zero]
      rw [PowerSpec.I_2_eq _ s d hB]
      unfold E_ref_half
      push_cast
      ring
    · simp only [PowerSpec.cmdEnergy, PowerSpec.eRead_zero, PowerSpec.eWrite_zero, PowerSpec.eRefPerBank_zero, PowerSpec.eRefSame_zero,
        PowerSpec.eRefDual, PowerSpec.eRefTwo_zero, PowerSpec.E_act_zero, PowerSpec.E_pre_zero, PowerSpec.E_ref_ab_zero]
      rw [PowerSpec.I_2_eq _ s d hB]
      unfold E_ref_half
      push_cast
      ring
  rw [hcmd]
  have h8 : (s.tREFI : Rat) = 8 * ((n : Rat) + (s.tRFCpb : Rat)) := by rw [← hn]; push_cast; ring
  have hi : s.I5PB_B d * s.t_RFCpb = d.i5pb * (s.t_REFI / 8) - d.i2n * ((s.t_REFI / 8) - s.t_RFCpb) := by
    unfold PowerSpec.I5PB_B; field_simp
  have hr : (s.tRFCpb : Rat) * s.tCK = s.t_RFCpb := rfl
  have hf : s.t_REFI = (s.tREFI : Rat) * s.tCK := rfl
  have : d.v * (s.I5PB_B d - background std s d k) * s.t_RFCpb + d.v * background std s d k * ((s.tRFCpb : Rat) * s.tCK) =
      d.v * (s.I5PB_B d * s.t_RFCpb) := by rw [hr]; ring
  rw [this, hi, hf, h8, ← hr]
  ring

/-- `exampleSpec` has one rank and no vanishing divisor. -/
example (std : Std) : exampleSpec.ranks = 1 ∧ 0 ∉ exampleSpec.divisors std ∧ burstBanks std exampleSpec ≤ exampleSpec.banks ∧
    exampleSpec.dataRate ∣ exampleSpec.burstLength ∧ exampleSpec.bankGroups ≤ exampleSpec.banks ∧
    8 * (185 + exampleSpec.tRFCpb) = exampleSpec.tREFI := by
  cases std <;> decide +kernel

/-- One read on each of the two banks takes 16 cycles of DDR4. -/
example : (burstBanks .ddr4 exampleSpec : Rat) * ((1 : Nat) : Rat) *
    ((exampleSpec.burstLength : Rat) / (exampleSpec.dataRate : Rat)) * dataClock .ddr4 exampleSpec = ((16 : Nat) : Rat) * exampleSpec.tCK := by
  decide +kernel

end DRAMPower
