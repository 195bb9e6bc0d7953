import Verif.Spec.Scaling
import Verif.Props.C81
import Verif.Props.C32

/-!
# C82: how the core energies depend on voltages, currents, clock, devices and voltage domains
-/

namespace DRAMPower
open Spec

/-! ## One bank, one rank -/

namespace PowerSpec
variable {std : Std} {s : PowerSpec} {d d' : Domain} {k : Rat}

/-- The domain with `k` times the currents. -/
def _root_.DRAMPower.Domain.times (k : Rat) (d : Domain) : Domain :=
  { v := d.v, i0 := k * d.i0, i2n := k * d.i2n, i3n := k * d.i3n, i2p := k * d.i2p, i3p := k * d.i3p, i4r := k * d.i4r, i4w := k * d.i4w,
    i5x := k * d.i5x, i5c := k * d.i5c, i5pb := k * d.i5pb, i6n := k * d.i6n, i6ds := k * d.i6ds, iBeta := k * d.iBeta }

/-- The domain with `k` times the voltage. -/
def _root_.DRAMPower.Domain.volts (k : Rat) (d : Domain) : Domain := { d with v := k * d.v }

theorem bank_volt (bank rank : CycleStats) (m : Component) :
    m.of (s.bankEnergy std (d.volts k) bank rank) = k * m.of (s.bankEnergy std d bank rank) := by
  have h1 : s.I_1 std (d.volts k) = s.I_1 std d := by cases std <;> rfl
  have h2 : s.I_rho std (d.volts k) = s.I_rho std d := by cases std <;> rfl
  have h3 : s.I_burst std (d.volts k) = s.I_burst std d := by cases std <;> rfl
  have h4 : s.I_B std (d.volts k) = s.I_B std d := by cases std <;> rfl
  have h5 : s.I_2 std (d.volts k) = s.I_2 std d := by cases std <;> rfl
  have h6 : s.I_BG std (d.volts k) = s.I_BG std d := by cases std <;> rfl
  have h7 : s.I_theta (d.volts k) = s.I_theta d := rfl
  have h8 : s.I5PB_B (d.volts k) = s.I5PB_B d := rfl
  have e1 : (d.volts k).v = k * d.v := rfl
  have e2 : (d.volts k).iBeta = d.iBeta := rfl
  have e3 : (d.volts k).i2n = d.i2n := rfl
  have e4 : (d.volts k).i5x = d.i5x := rfl
  have e5 : (d.volts k).i4r = d.i4r := rfl
  have e6 : (d.volts k).i4w = d.i4w := rfl
  have e7 : (d.volts k).i5c = d.i5c := rfl
  cases m <;> simp only [Component.of, bankEnergy]
  case rd => cases std <;> simp only [eRead, E_RD_ddr, E_burst, h3, e1, e5] <;> ring
  case rda => cases std <;> simp only [eRead, E_RD_ddr, E_burst, h3, e1, e5] <;> ring
  case refPb => cases std <;> simp only [eRefPerBank, E_ref_pb, h8, h1, e1] <;> ring
  case refSb => cases std <;> simp only [eRefSame, E_ref_sb, h6, e1, e7] <;> ring
  case ref2b => cases std <;> simp only [eRefTwo, E_ref_half, h8, h5, e1] <;> ring
  case refDb => cases std <;> simp only [eRefDual, E_ref_half, h8, h5, e1] <;> ring
  all_goals
    simp only [E_act, E_pre, E_BG_act_star, E_BG_pre, eWrite, E_burst, E_ref_ab, h1, h2, h3, h4, h7, e1, e2, e3, e4, e6]
    ring

theorem rank_volt (rank : CycleStats) (m : SharedComponent) :
    m.of (s.rankEnergy std (d.volts k) rank) = k * m.of (s.rankEnergy std d rank) := by
  have h2 : s.I_rho std (d.volts k) = s.I_rho std d := by cases std <;> rfl
  cases m <;> simp only [SharedComponent.of, rankEnergy, E_BG_act_shared, h2]
  case dsm => cases std <;> simp only [eDsm, Domain.volts] <;> ring
  case refab => ring
  all_goals
    simp only [Domain.volts]
    ring

theorem times_rho : s.I_rho std (d.times k) = k * s.I_rho std d := by
  cases std <;> simp only [I_rho, Domain.times] <;> ring
theorem times_one : s.I_1 std (d.times k) = k * s.I_1 std d := by
  have := times_rho (std := std) (s := s) (d := d) (k := k)
  cases std <;> simp only [I_1, this] <;> simp only [Domain.times] <;> ring
theorem times_all : s.I_B std (d.times k) = k * s.I_B std d := by
  have h1 := times_rho (std := std) (s := s) (d := d) (k := k)
  have h2 := times_one (std := std) (s := s) (d := d) (k := k)
  cases std <;> simp only [I_B, h1, h2] <;> first | rfl | ring
theorem times_two : s.I_2 std (d.times k) = k * s.I_2 std d := by
  rw [I_2, times_one, times_rho, I_2]; ring
theorem times_group : s.I_BG std (d.times k) = k * s.I_BG std d := by
  rw [I_BG, times_one, times_rho, I_BG]; ring
theorem times_theta : s.I_theta (d.times k) = k * s.I_theta d := by
  simp only [I_theta, Domain.times]; ring
theorem times_part : s.I5PB_B (d.times k) = k * s.I5PB_B d := by
  simp only [I5PB_B, Domain.times]; ring
theorem times_burst : s.I_burst std (d.times k) = k * s.I_burst std d := by
  cases std <;> simp only [I_burst, times_all, times_one, times_two]
  split <;> rfl

theorem bank_times (bank rank : CycleStats) (m : Component) :
    m.of (s.bankEnergy std (d.times k) bank rank) = k * m.of (s.bankEnergy std d bank rank) := by
  have e1 : (d.times k).v = d.v := rfl
  have e2 : (d.times k).iBeta = k * d.iBeta := rfl
  have e3 : (d.times k).i2n = k * d.i2n := rfl
  have e4 : (d.times k).i5x = k * d.i5x := rfl
  have e5 : (d.times k).i4r = k * d.i4r := rfl
  have e6 : (d.times k).i4w = k * d.i4w := rfl
  have e7 : (d.times k).i5c = k * d.i5c := rfl
  cases m <;> simp only [Component.of, bankEnergy]
  case rd => cases std <;> simp only [eRead, E_RD_ddr, E_burst, times_burst, e1, e5] <;> ring
  case rda => cases std <;> simp only [eRead, E_RD_ddr, E_burst, times_burst, e1, e5] <;> ring
  case refPb => cases std <;> simp only [eRefPerBank, E_ref_pb, times_part, times_one, e1] <;> ring
  case refSb => cases std <;> simp only [eRefSame, E_ref_sb, times_group, e1, e7] <;> ring
  case ref2b => cases std <;> simp only [eRefTwo, E_ref_half, times_part, times_two, e1] <;> ring
  case refDb => cases std <;> simp only [eRefDual, E_ref_half, times_part, times_two, e1] <;> ring
  all_goals
    simp only [E_act, E_pre, E_BG_act_star, E_BG_pre, eWrite, E_burst, E_ref_ab, times_theta, times_one, times_rho, times_burst, times_all,
      e1, e2, e3, e4, e6]
    ring

theorem rank_times (rank : CycleStats) (m : SharedComponent) :
    m.of (s.rankEnergy std (d.times k) rank) = k * m.of (s.rankEnergy std d rank) := by
  cases m <;> simp only [SharedComponent.of, rankEnergy]
  case bgActShared =>
    simp only [E_BG_act_shared, times_rho]
    show d.v * _ * _ * _ = _
    ring
  case dsm => cases std <;> simp only [eDsm, Domain.times] <;> ring
  case refab => ring
  all_goals
    simp only [Domain.times]
    ring

/-- The specification with `k` times the clock periods. -/
def slower (k : Rat) (s : PowerSpec) : PowerSpec := { s with tCK := k * s.tCK, tWCK := k * s.tWCK }

theorem slower_theta (hk : k ≠ 0) : (s.slower k).I_theta d = s.I_theta d := by
  have e : ∀ a b : Rat, (k * a) * (1 / (k * b)) = a * (1 / b) := fun a b => by rw [mul_one_div, mul_one_div, mul_div_mul_left _ _ hk]
  show (d.i0 * ((s.tRP : Rat) * (k * s.tCK) + (s.tRAS : Rat) * (k * s.tCK)) - d.iBeta * ((s.tRP : Rat) * (k * s.tCK))) * (1 / ((s.tRAS : Rat) * (k * s.tCK))) =
    (d.i0 * ((s.tRP : Rat) * s.tCK + (s.tRAS : Rat) * s.tCK) - d.iBeta * ((s.tRP : Rat) * s.tCK)) * (1 / ((s.tRAS : Rat) * s.tCK))
  refine Eq.trans ?_ (e _ _)
  congr 1
  · ring
  · rw [show (s.tRAS : Rat) * (k * s.tCK) = k * ((s.tRAS : Rat) * s.tCK) by ring]

theorem slower_part (hk : k ≠ 0) : (s.slower k).I5PB_B d = s.I5PB_B d := by
  have e : ∀ a b : Rat, (k * a) * (1 / (k * b)) = a * (1 / b) := fun a b => by rw [mul_one_div, mul_one_div, mul_div_mul_left _ _ hk]
  show (d.i5pb * ((s.tREFI : Rat) * (k * s.tCK) / 8) - d.i2n * ((s.tREFI : Rat) * (k * s.tCK) / 8 - (s.tRFCpb : Rat) * (k * s.tCK))) *
      (1 / ((s.tRFCpb : Rat) * (k * s.tCK))) =
    (d.i5pb * ((s.tREFI : Rat) * s.tCK / 8) - d.i2n * ((s.tREFI : Rat) * s.tCK / 8 - (s.tRFCpb : Rat) * s.tCK)) * (1 / ((s.tRFCpb : Rat) * s.tCK))
  refine Eq.trans ?_ (e _ _)
  congr 1
  · ring
  · rw [show (s.tRFCpb : Rat) * (k * s.tCK) = k * ((s.tRFCpb : Rat) * s.tCK) by ring]

theorem slower_burst : (s.slower k).tBurst std = k * s.tBurst std := by cases std <;> rfl

theorem bank_slower (hk : k ≠ 0) (bank rank : CycleStats) (m : Component) :
    m.of ((s.slower k).bankEnergy std d bank rank) = k * m.of (s.bankEnergy std d bank rank) := by
  have e1 : (s.slower k).I_1 std d = s.I_1 std d := by cases std <;> rfl
  have e2 : (s.slower k).I_rho std d = s.I_rho std d := by cases std <;> rfl
  have e3 : (s.slower k).I_burst std d = s.I_burst std d := by cases std <;> rfl
  have e4 : (s.slower k).I_B std d = s.I_B std d := by cases std <;> rfl
  have e5 : (s.slower k).I_2 std d = s.I_2 std d := by cases std <;> rfl
  have e6 : (s.slower k).I_BG std d = s.I_BG std d := by cases std <;> rfl
  have t1 : (s.slower k).t_RAS = k * s.t_RAS := by show (s.tRAS : Rat) * (k * s.tCK) = k * ((s.tRAS : Rat) * s.tCK); ring
  have t2 : (s.slower k).t_RP = k * s.t_RP := by show (s.tRP : Rat) * (k * s.tCK) = k * ((s.tRP : Rat) * s.tCK); ring
  have t3 : (s.slower k).t_RFC = k * s.t_RFC := by show (s.tRFC : Rat) * (k * s.tCK) = k * ((s.tRFC : Rat) * s.tCK); ring
  have t4 : (s.slower k).t_RFCpb = k * s.t_RFCpb := by show (s.tRFCpb : Rat) * (k * s.tCK) = k * ((s.tRFCpb : Rat) * s.tCK); ring
  have t5 : (s.slower k).tCK = k * s.tCK := rfl
  have f1 : (s.slower k).burstLength = s.burstLength := rfl
  have f2 : (s.slower k).dataRate = s.dataRate := rfl
  have f3 : (s.slower k).banks = s.banks := rfl
  have f4 : (s.slower k).bankGroups = s.bankGroups := rfl
  cases m <;> simp only [Component.of, bankEnergy]
  case rd =>
    have hb := slower_burst (std := std) (s := s) (k := k)
    cases std <;> simp only [eRead, E_RD_ddr, E_burst, hb, e3, t5, f1, f2] <;> ring
  case rda =>
    have hb := slower_burst (std := std) (s := s) (k := k)
    cases std <;> simp only [eRead, E_RD_ddr, E_burst, hb, e3, t5, f1, f2] <;> ring
  case refPb => cases std <;> simp only [eRefPerBank, E_ref_pb, slower_part hk, e1, t4] <;> ring
  case refSb => cases std <;> simp only [eRefSame, E_ref_sb, e6, t4, f4] <;> ring
  case ref2b => cases std <;> simp only [eRefTwo, E_ref_half, slower_part hk, e5, t4] <;> ring
  case refDb => cases std <;> simp only [eRefDual, E_ref_half, slower_part hk, e5, t4] <;> ring
  all_goals
    simp only [E_act, E_pre, E_BG_act_star, E_BG_pre, eWrite, E_burst, E_ref_ab, slower_theta hk, slower_burst, e1, e2, e3, e4, t1, t2, t3, t5,
      f1, f2, f3]
    ring

theorem rank_slower (rank : CycleStats) (m : SharedComponent) :
    m.of ((s.slower k).rankEnergy std d rank) = k * m.of (s.rankEnergy std d rank) := by
  have e2 : (s.slower k).I_rho std d = s.I_rho std d := by cases std <;> rfl
  have t5 : (s.slower k).tCK = k * s.tCK := rfl
  have f1 : (s.slower k).devices = s.devices := rfl
  cases m <;> simp only [SharedComponent.of, rankEnergy, E_BG_act_shared, e2, t5, f1]
  case dsm => cases std <;> simp only [eDsm, t5, f1] <;> ring
  all_goals ring

end PowerSpec

/-! ## Whole results -/

theorem bankTotal_times {k : Rat} {a a' : EnergyInfo} (h : ∀ m : Component, m.of a' = k * m.of a) : bankTotal a' = k * bankTotal a := by
  unfold bankTotal
  rw [← sum_mul_left]
  congr 1
  exact List.map_congr_left fun m _ => h m

theorem sharedTotal_times {k : Rat} {a a' : SharedEnergy} (h : ∀ m : SharedComponent, m.of a' = k * m.of a) :
    sharedTotal a' = k * sharedTotal a := by
  unfold sharedTotal
  rw [← sum_mul_left]
  congr 1
  exact List.map_congr_left fun m _ => h m

/-- If each bank and each rank has `k` times the energy, the result has. -/
theorem times_of {std : Std} {s s' : PowerSpec} {stats : SimStats} {e e' : Energy} {k : Rat} (f : Domain → Domain)
    (he : s.calcEnergy std stats = .ok e) (he' : s'.calcEnergy std stats = .ok e')
    (hr : s'.ranks = s.ranks) (hd : s'.devices = s.devices) (hb : s'.banks = s.banks) (hf : s'.domains = s.domains.map f)
    (h1 : ∀ dom bank rank m, Component.of (s'.bankEnergy std (f dom) bank rank) m = k * Component.of (s.bankEnergy std dom bank rank) m)
    (h2 : ∀ dom rank m, SharedComponent.of (s'.rankEnergy std (f dom) rank) m = k * SharedComponent.of (s.rankEnergy std dom rank) m) :
    TimesEnergy k e e' := by
  have ce := PowerSpec.calc_closed he
  have ce' := PowerSpec.calc_closed he'
  have hlen : e'.bank.length = e.bank.length := by rw [ce.length, ce'.length, hr, hd, hb]
  have hstat : ∀ r b, s'.statsIndex r b = s.statsIndex r b := fun r b => by unfold PowerSpec.statsIndex; rw [hb]
  have hcon : ∀ r b dom m, Component.of (s'.contrib std stats r b (f dom)) m = k * Component.of (s.contrib std stats r b dom) m :=
    fun r b dom m => by unfold PowerSpec.contrib; rw [hstat]; exact h1 _ _ _ _
  refine ⟨hlen, fun i m => ?_, fun m => ?_, ?_⟩
  · by_cases hi : i < s.ranks * s.devices * s.banks
    · obtain ⟨r, d, b, hr', hd', hb', rfl⟩ := s.energyIndex_surj hi
      have g := ce'.bank r d b (by rw [hr]; exact hr') (by rw [hd]; exact hd') (by rw [hb]; exact hb') m
      rw [show s'.energyIndex r d b = s.energyIndex r d b by unfold PowerSpec.energyIndex; rw [hd, hb]] at g
      rw [g, ce.bank r d b hr' hd' hb', hf, List.map_map, ← sum_mul_left]
      congr 1
      exact List.map_congr_left fun dom _ => hcon r b dom m
    · have hz : ∀ e : Energy, e.bank.length = s.ranks * s.devices * s.banks → entry e i m = 0 := fun e he => by
        unfold entry
        rw [List.getD_eq_getElem?_getD, List.getElem?_eq_none (by omega)]
        exact Component.of_zero m
      rw [hz e ce.length, hz e' (hlen.trans ce.length), mul_zero]
  · rw [ce'.shared, ce.shared, hf, List.map_map, ← sum_mul_left]
    congr 1
    refine List.map_congr_left fun dom _ => ?_
    show (List.map _ (List.range s'.ranks)).sum = _
    rw [hr, ← sum_mul_left]
    congr 1
    exact List.map_congr_left fun r _ => h2 _ _ _
  · rw [PowerSpec.total_closed he', PowerSpec.total_closed he, hf, List.map_map, ← sum_mul_left]
    congr 1
    refine List.map_congr_left fun dom _ => ?_
    show (List.map _ (List.range s'.ranks)).sum = _
    rw [hr, ← sum_mul_left]
    congr 1
    refine List.map_congr_left fun r _ => ?_
    show s'.rankSum std stats r (f dom) = k * s.rankSum std stats r dom
    unfold PowerSpec.rankSum
    rw [sharedTotal_times (fun m => h2 _ _ m), hd, hb,
      show (List.map (fun b => bankTotal (s'.contrib std stats r b (f dom))) (List.range s.banks)).sum =
        k * (List.map (fun b => bankTotal (s.contrib std stats r b dom)) (List.range s.banks)).sum by
        rw [← sum_mul_left]
        congr 1
        exact List.map_congr_left fun b _ => bankTotal_times fun m => hcon r b dom m]
    ring

/-- The constructors accept a configuration whose currents, voltages, clock or number of devices are changed. -/
theorem derive_alike {std : Std} {c c' : Config} {d : Derived} (h : c.derive std = .ok d) (h1 : c'.banksPerGroup std = c.banksPerGroup std)
    (h2 : c'.activeBanks std = c.activeBanks std) (h3 : c'.beatDivisor std = c.beatDivisor std) (h4 : ∀ g, c'.coreSpec std g = c.coreSpec std g) :
    ∃ d', c'.derive std = .ok d' ∧ d'.core = d.core ∧ d'.power = c'.powerSpec std ∧ d.power = c.powerSpec std := by
  obtain ⟨g, l, k1, k2, k3, rfl⟩ := Config.derive_ok h
  refine ⟨{ core := c'.coreSpec std g, power := c'.powerSpec std, tBurst := c'.tBurst std, activeBanks := l }, ?_, h4 g, rfl, rfl⟩
  unfold Config.derive
  simp only [h1, h2, k1, k2, bind, Except.bind]
  rw [if_neg (by rw [h3]; exact k3)]

/-- All supply voltages times `k`: all energies times `k`. -/
theorem C82_voltages (std : Std) (k : Rat) (c : Config) (d : Derived) (stats : SimStats) (e : Energy) (h : c.derive std = .ok d)
    (he : d.power.calcEnergy std stats = .ok e) :
    ∃ d' e', (scaleVoltages k c).derive std = .ok d' ∧ d'.core = d.core ∧ d'.power.calcEnergy std stats = .ok e' ∧ TimesEnergy k e e' := by
  obtain ⟨d', h1, h2, h3, h4⟩ := derive_alike (c' := scaleVoltages k c) h rfl rfl rfl (fun _ => rfl)
  rw [h4] at he
  obtain ⟨e', he'⟩ := calc_alike (s' := (scaleVoltages k c).powerSpec std) he
    (by rw [show ((scaleVoltages k c).powerSpec std).divisors std = (c.powerSpec std).divisors std by cases std <;> rfl]; exact calc_divisors he) rfl rfl
  refine ⟨d', e', h1, h2, by rw [h3]; exact he', times_of (Domain.volts k) he he' rfl rfl rfl ?_ ?_ ?_⟩
  · show (c.domains.map _).map _ = (c.domains.map _).map _
    rw [List.map_map, List.map_map]
    rfl
  · intro dom bank rank m
    exact PowerSpec.bank_volt (s := c.powerSpec std) bank rank m
  · intro dom rank m
    exact PowerSpec.rank_volt (s := c.powerSpec std) rank m

/-- All currents times `k`: all energies times `k`. -/
theorem C82_currents (std : Std) (k : Rat) (c : Config) (d : Derived) (stats : SimStats) (e : Energy) (h : c.derive std = .ok d)
    (he : d.power.calcEnergy std stats = .ok e) :
    ∃ d' e', (scaleCurrents k c).derive std = .ok d' ∧ d'.core = d.core ∧ d'.power.calcEnergy std stats = .ok e' ∧ TimesEnergy k e e' := by
  obtain ⟨d', h1, h2, h3, h4⟩ := derive_alike (c' := scaleCurrents k c) h rfl rfl rfl (fun _ => rfl)
  rw [h4] at he
  obtain ⟨e', he'⟩ := calc_alike (s' := (scaleCurrents k c).powerSpec std) he
    (by rw [show ((scaleCurrents k c).powerSpec std).divisors std = (c.powerSpec std).divisors std by cases std <;> rfl]; exact calc_divisors he) rfl rfl
  refine ⟨d', e', h1, h2, by rw [h3]; exact he', times_of (Domain.times k) he he' rfl rfl rfl ?_ ?_ ?_⟩
  · show (c.domains.map _).map _ = (c.domains.map _).map _
    rw [List.map_map, List.map_map]
    refine List.map_congr_left fun v _ => ?_
    have e1 : (v.iBeta.map (k * ·)).getD (k * v.i0) = k * v.iBeta.getD v.i0 := by cases v.iBeta <;> rfl
    have e2 : ∀ w : RawDomain, w.i5b = k * v.i5b → w.i5f2 = k * v.i5f2 → w.i5f4 = k * v.i5f4 → c.i5 std w = k * c.i5 std v := by
      intro w w1 w2 w3
      unfold Config.i5
      rw [w1, w2, w3]
      split
      · rfl
      · split <;> rfl
    simp only [Function.comp, Config.domain, Domain.times, Domain.mk.injEq, true_and]
    exact ⟨e2 _ rfl rfl rfl, e1⟩
  · intro dom bank rank m
    exact PowerSpec.bank_times (s := c.powerSpec std) bank rank m
  · intro dom rank m
    exact PowerSpec.rank_times (s := c.powerSpec std) rank m

/-- The clock period times `k`: all energies times `k`. -/
theorem C82_clock (std : Std) (k : Rat) (hk : k ≠ 0) (c : Config) (d : Derived) (stats : SimStats) (e : Energy) (h : c.derive std = .ok d)
    (he : d.power.calcEnergy std stats = .ok e) :
    ∃ d' e', (scaleClock k c).derive std = .ok d' ∧ d'.core = d.core ∧ d'.power.calcEnergy std stats = .ok e' ∧ TimesEnergy k e e' := by
  obtain ⟨d', h1, h2, h3, h4⟩ := derive_alike (c' := scaleClock k c) h rfl rfl rfl (fun _ => rfl)
  rw [h4] at he
  have hs : (scaleClock k c).powerSpec std = (c.powerSpec std).slower k := by
    have : (scaleClock k c).tWCK std = k * c.tWCK std := by
      cases std <;> simp only [Config.tWCK, scaleClock] <;> ring
    unfold Config.powerSpec PowerSpec.slower
    rw [this]
    rfl
  rw [hs] at h3
  have hdiv : 0 ∉ ((c.powerSpec std).slower k).divisors std := by
    intro h0
    apply calc_divisors he
    have z : ∀ n : Nat, 0 = (n : Rat) * (k * c.tCK) → 0 = (n : Rat) * c.tCK := fun n hn => by
      have : (n : Rat) * (k * c.tCK) = k * ((n : Rat) * c.tCK) := by ring
      rw [this] at hn
      rcases mul_eq_zero.1 hn.symm with h | h
      · exact absurd h hk
      · exact h.symm
    have p : 0 = (((c.powerSpec std).slower k).t_RAS) → 0 = (c.powerSpec std).t_RAS := z _
    have q : 0 = (((c.powerSpec std).slower k).t_RFCpb) → 0 = (c.powerSpec std).t_RFCpb := z _
    have b1 : ((c.powerSpec std).slower k).banks = (c.powerSpec std).banks := rfl
    have b2 : ((c.powerSpec std).slower k).dataRate = (c.powerSpec std).dataRate := rfl
    have b3 : ((c.powerSpec std).slower k).bankGroups = (c.powerSpec std).bankGroups := rfl
    have b4 : ((c.powerSpec std).slower k).rho = (c.powerSpec std).rho := rfl
    cases std <;> simp only [PowerSpec.divisors, List.mem_cons, List.not_mem_nil, or_false, b1, b2, b3, b4] at h0 ⊢ <;> tauto
  obtain ⟨e', he'⟩ := calc_alike (s' := (c.powerSpec std).slower k) he hdiv rfl rfl
  refine ⟨d', e', h1, h2, by rw [h3]; exact he', times_of id he he' rfl rfl rfl (by rw [List.map_id]; rfl) ?_ ?_⟩
  · intro dom bank rank m
    exact PowerSpec.bank_slower hk bank rank m
  · intro dom rank m
    exact PowerSpec.rank_slower rank m

/-- What may be left out of a configuration has the documented value. -/
theorem C82_defaults (std : Std) (c : Config) : (completed c).derive std = c.derive std := by
  have hp : (completed c).powerSpec std = c.powerSpec std := by
    have h1 : (completed c).rho = c.rho := by
      unfold completed Config.rho
      cases c.bankWise <;> rfl
    have h2 : (completed c).devices' = c.devices' := by
      unfold Config.devices' completed
      by_cases h0 : c.devices = 0 <;> simp [h0]
      omega
    have h3 : (completed c).domains.map ((completed c).domain std) = c.domains.map (c.domain std) := by
      show (c.domains.map _).map (c.domain std) = _
      rw [List.map_map]
      refine List.map_congr_left fun v _ => ?_
      rfl
    unfold Config.powerSpec
    rw [h1, h2, h3]
    rfl
  have ha : (completed c).activeBanks std = c.activeBanks std := by
    have h1 : (completed c).flgPASR = c.flgPASR := by
      unfold completed Config.flgPASR
      cases c.bankWise <;> rfl
    have h2 : (completed c).pasrMode = c.pasrMode := by
      unfold completed Config.pasrMode
      cases c.bankWise <;> rfl
    unfold Config.activeBanks
    rw [h1, h2]
    rfl
  unfold Config.derive
  rw [hp, ha]
  rfl

/-- `n` devices of which each is used alike: each has the energies of a single one. -/
theorem C82_devices (std : Std) (n : Nat) (hn : 1 ≤ n) (c : Config) (d : Derived) (stats : SimStats) (e : Energy)
    (h : ({ c with devices := 1 } : Config).derive std = .ok d) (he : d.power.calcEnergy std stats = .ok e) :
    ∃ d' e', ({ c with devices := n } : Config).derive std = .ok d' ∧ d'.core = d.core ∧ d'.power.calcEnergy std stats = .ok e' ∧
      ManyDevices n d.power.banks e e' := by
  obtain ⟨d', h1, h2, h3, h4⟩ := derive_alike (c' := { c with devices := n }) h rfl rfl rfl (fun _ => rfl)
  rw [h4] at he ⊢
  obtain ⟨e', he'⟩ := calc_alike (s' := ({ c with devices := n } : Config).powerSpec std) he
    (by rw [show (({ c with devices := n } : Config).powerSpec std).divisors std = (({ c with devices := 1 } : Config).powerSpec std).divisors std by
          cases std <;> rfl]
        exact calc_divisors he) rfl rfl
  refine ⟨d', e', h1, h2, by rw [h3]; exact he', ?_⟩
  clear h1 h2 h3 h4 h
  have hd : (({ c with devices := n } : Config).powerSpec std).devices = n := by
    show (if n < 1 then 1 else n) = n
    rw [if_neg (by omega)]
  have hd1 : (({ c with devices := 1 } : Config).powerSpec std).devices = 1 := rfl
  have hrank : ∀ dom rank m, SharedComponent.of ((({ c with devices := n } : Config).powerSpec std).rankEnergy std dom rank) m =
      n * SharedComponent.of ((({ c with devices := 1 } : Config).powerSpec std).rankEnergy std dom rank) m := by
    intro dom rank m
    cases std <;> cases m <;> simp only [SharedComponent.of, PowerSpec.rankEnergy, PowerSpec.eDsm, hd, hd1] <;>
      first
      | (push_cast; ring1)
      | (refine Eq.trans (mul_comm _ _) ?_
         rw [Nat.cast_one, mul_one]
         rfl)
  have hbank : ∀ dom bank rank, (({ c with devices := n } : Config).powerSpec std).bankEnergy std dom bank rank =
      (({ c with devices := 1 } : Config).powerSpec std).bankEnergy std dom bank rank := by
    intro dom bank rank
    cases std <;> rfl
  generalize hs1 : ({ c with devices := 1 } : Config).powerSpec std = s at *
  generalize hs2 : ({ c with devices := n } : Config).powerSpec std = s' at *
  have e1 : s'.ranks = s.ranks := by subst hs1 hs2; rfl
  have e2 : s'.banks = s.banks := by subst hs1 hs2; rfl
  have e3 : s'.domains = s.domains := by subst hs1 hs2; rfl
  have ce := PowerSpec.calc_closed he
  have ce' := PowerSpec.calc_closed he'
  have hcon : ∀ r b dom, s'.contrib std stats r b dom = s.contrib std stats r b dom := fun r b dom => by
    unfold PowerSpec.contrib PowerSpec.statsIndex
    rw [hbank, e2]
  refine ⟨?_, ?_, ?_, ?_⟩
  · rw [ce.length, ce'.length, e1, e2, hd, hd1]; ring
  · intro r i b m hi hb hrb
    have hr : r < s.ranks := by
      rw [ce.length, hd1, mul_one] at hrb
      by_contra hge
      have := Nat.mul_le_mul_right s.banks (show s.ranks ≤ r by omega)
      omega
    have g := ce'.bank r i b (by rw [e1]; exact hr) (by rw [hd]; exact hi) (by rw [e2]; exact hb) m
    have g1 := ce.bank r 0 b hr (by rw [hd1]; exact Nat.one_pos) hb m
    rw [PowerSpec.energyIndex_eq, hd, e2, e3] at g
    rw [PowerSpec.energyIndex_eq, hd1, mul_one, add_zero] at g1
    rw [g, g1]
    congr 1
    exact List.map_congr_left fun dom _ => by rw [hcon]
  · intro m
    rw [ce'.shared, ce.shared, e3, ← sum_mul_left]
    congr 1
    refine List.map_congr_left fun dom _ => ?_
    rw [e1, ← sum_mul_left]
    congr 1
    exact List.map_congr_left fun r _ => hrank _ _ _
  · rw [PowerSpec.total_closed he', PowerSpec.total_closed he, e3, ← sum_mul_left]
    congr 1
    refine List.map_congr_left fun dom _ => ?_
    rw [e1, ← sum_mul_left]
    congr 1
    refine List.map_congr_left fun r _ => ?_
    unfold PowerSpec.rankSum
    rw [sharedTotal_times (fun m => hrank dom _ m), hd, hd1, e2]
    simp only [hcon]
    push_cast
    ring

/-- The energies of several voltage domains are the sums of those of the domains alone. -/
theorem C82_domains (std : Std) (c : Config) (l1 l2 : List RawDomain) (d : Derived) (stats : SimStats) (e : Energy)
    (h : ({ c with domains := l1 ++ l2 } : Config).derive std = .ok d) (he : d.power.calcEnergy std stats = .ok e) :
    ∃ d1 d2 e1 e2, ({ c with domains := l1 } : Config).derive std = .ok d1 ∧ ({ c with domains := l2 } : Config).derive std = .ok d2 ∧
      d1.core = d.core ∧ d2.core = d.core ∧ d1.power.calcEnergy std stats = .ok e1 ∧ d2.power.calcEnergy std stats = .ok e2 ∧ SumEnergy e1 e2 e := by
  obtain ⟨d1, h1, h2, h3, h4⟩ := derive_alike (c' := { c with domains := l1 }) h rfl rfl rfl (fun _ => rfl)
  obtain ⟨d2, k1, k2, k3, k4⟩ := derive_alike (c' := { c with domains := l2 }) h rfl rfl rfl (fun _ => rfl)
  rw [h4] at he
  obtain ⟨e1, he1⟩ := calc_alike (s' := ({ c with domains := l1 } : Config).powerSpec std) he
    (by rw [show (({ c with domains := l1 } : Config).powerSpec std).divisors std = (({ c with domains := l1 ++ l2 } : Config).powerSpec std).divisors std by
          cases std <;> rfl]
        exact calc_divisors he) rfl rfl
  obtain ⟨e2, he2⟩ := calc_alike (s' := ({ c with domains := l2 } : Config).powerSpec std) he
    (by rw [show (({ c with domains := l2 } : Config).powerSpec std).divisors std = (({ c with domains := l1 ++ l2 } : Config).powerSpec std).divisors std by
          cases std <;> rfl]
        exact calc_divisors he) rfl rfl
  refine ⟨d1, d2, e1, e2, h1, k1, h2, k2, by rw [h3]; exact he1, by rw [k3]; exact he2, ?_⟩
  have ce := PowerSpec.calc_closed he
  have ce1 := PowerSpec.calc_closed he1
  have ce2 := PowerSpec.calc_closed he2
  have hdom : (({ c with domains := l1 ++ l2 } : Config).powerSpec std).domains =
      (({ c with domains := l1 } : Config).powerSpec std).domains ++ (({ c with domains := l2 } : Config).powerSpec std).domains :=
    List.map_append
  refine ⟨⟨ce.length.trans ce1.length.symm, ce.length.trans ce2.length.symm⟩, fun i m => ?_, fun m => ?_, ?_⟩
  · by_cases hi : i < (({ c with domains := l1 ++ l2 } : Config).powerSpec std).ranks * (({ c with domains := l1 ++ l2 } : Config).powerSpec std).devices *
        (({ c with domains := l1 ++ l2 } : Config).powerSpec std).banks
    · obtain ⟨r, q, b, hr, hq, hb, rfl⟩ := PowerSpec.energyIndex_surj _ hi
      rw [ce.bank r q b hr hq hb, hdom, List.map_append, List.sum_append]
      refine congrArg₂ (· + ·) ?_ ?_
      · refine Eq.trans ?_ (ce1.bank r q b hr hq hb m).symm
        cases std <;> rfl
      · refine Eq.trans ?_ (ce2.bank r q b hr hq hb m).symm
        cases std <;> rfl
    · have hz : ∀ x : Energy, x.bank.length = e.bank.length → entry x i m = 0 := fun x hx => by
        unfold entry
        rw [List.getD_eq_getElem?_getD, List.getElem?_eq_none (by rw [hx, ce.length]; omega)]
        exact Component.of_zero m
      rw [hz e rfl, hz e1 (ce1.length.trans ce.length.symm), hz e2 (ce2.length.trans ce.length.symm), add_zero]
  · rw [ce.shared, ce1.shared, ce2.shared, hdom, List.map_append, List.sum_append]
    cases std <;> rfl
  · rw [PowerSpec.total_closed he, PowerSpec.total_closed he1, PowerSpec.total_closed he2, hdom, List.map_append, List.sum_append]
    cases std <;> rfl

/-! ## The hypotheses can be met -/

/-- Total energy and the energy of bank 1 for reads, after the statistics of C81. -/
def c82Figures (std : Std) (c : Config) : Option (Rat × Rat) :=
  match c.derive std with
  | .ok d => match d.power.calcEnergy std c81Stats with
    | .ok e => some (e.total, entry e 1 .rd)
    | .error _ => none
  | .error _ => none

/-- Two devices; three times the voltage, the currents, the period; one device; the voltage domain twice; no bank-wise parameters. -/
example : [c81Config, scaleVoltages 3 c81Config, scaleCurrents 3 c81Config, scaleClock 3 c81Config, { c81Config with devices := 1 },
      { c81Config with domains := c81Config.domains ++ c81Config.domains }, completed c81Config].map (c82Figures .lpddr5) =
    [some (2780, 1320), some (8340, 3960), some (8340, 3960), some (8340, 3960), some (1390, 1320), some (5560, 2640), some (2780, 1320)] := by
  decide +kernel

end DRAMPower
