import Verif.Lemmas.Energy
import Verif.Lemmas.Stats
import Verif.Spec.Currents
import Verif.Lemmas.Currents
import Verif.Lemmas.EnergyExample

/-! # C31: Energy is non-negative and monotone -/

namespace DRAMPower
open Spec

/-- The number a component is proportional to. -/
def counted (bank rank : CycleStats) : Component → Nat
  | .act => bank.counter.act
  | .pre => bank.counter.pre
  | .bgAct => bank.cycles.act
  | .bgPre => rank.cycles.pre
  | .rd => bank.counter.reads
  | .wr => bank.counter.writes
  | .rda => bank.counter.readAuto
  | .wra => bank.counter.writeAuto
  | .preRda => bank.counter.readAuto
  | .preWra => bank.counter.writeAuto
  | .refAb => bank.counter.refAllBank
  | .refPb => bank.counter.refPerBank
  | .refSb => bank.counter.refSameBank
  | .ref2b => bank.counter.refPerTwoBanks
  | .refDb => bank.counter.refDualBanks

/-- The number a shared component is proportional to. -/
def sharedCounted (rank : CycleStats) : SharedComponent → Nat
  | .bgActShared => rank.cycles.act
  | .pdnA => rank.cycles.powerDownAct
  | .pdnP => rank.cycles.powerDownPre
  | .sref => rank.cycles.selfRefresh
  | .dsm => rank.cycles.deepSleepMode
  | .refab => 0

/-- Statistics with every number one. -/
def unitStats : CycleStats where
  counter := ⟨1, 1, 1, 1, 1, 1, 1, 1, 1, 1, 1⟩
  cycles := ⟨1, 1, 1, 1, 1, 1⟩

namespace PowerSpec

theorem bankEnergy_prop (std : Std) (s : PowerSpec) (d : Domain) (bank rank : CycleStats) (c : Component) :
    c.of (s.bankEnergy std d bank rank) = c.of (s.bankEnergy std d unitStats unitStats) * (counted bank rank c : Rat) := by
  cases c <;> simp only [Component.of, bankEnergy, counted, unitStats]
  case rd => cases std <;> simp only [eRead, E_RD_ddr, E_burst] <;> push_cast <;> ring
  case rda => cases std <;> simp only [eRead, E_RD_ddr, E_burst] <;> push_cast <;> ring
  case wr => simp only [eWrite, E_burst]; push_cast; ring
  case wra => simp only [eWrite, E_burst]; push_cast; ring
  case refPb => cases std <;> simp only [eRefPerBank, E_ref_pb] <;> push_cast <;> ring
  case refSb => cases std <;> simp only [eRefSame, E_ref_sb] <;> push_cast <;> ring
  case ref2b => cases std <;> simp only [eRefTwo, E_ref_half] <;> push_cast <;> ring
  case refDb => cases std <;> simp only [eRefDual, E_ref_half] <;> push_cast <;> ring
  all_goals simp only [E_act, E_pre, E_BG_act_star, E_BG_pre, E_ref_ab]; push_cast; ring

theorem rankEnergy_prop (std : Std) (s : PowerSpec) (d : Domain) (rank : CycleStats) (c : SharedComponent) :
    c.of (s.rankEnergy std d rank) = c.of (s.rankEnergy std d unitStats) * (sharedCounted rank c : Rat) := by
  cases c <;> simp only [SharedComponent.of, rankEnergy, sharedCounted, unitStats, E_BG_act_shared]
  case dsm => cases std <;> simp only [eDsm] <;> push_cast <;> ring
  all_goals push_cast; ring

/-- The denominator of the LPDDR base current is positive. -/
theorem denom_pos {s : PowerSpec} (h0 : 0 ≤ s.rho) (h1 : s.rho ≤ 1) (hB : s.banks ≠ 0) : 0 < (1 - s.rho) + s.rho * (s.banks : Rat) := by
  have hB' : (1 : Rat) ≤ (s.banks : Rat) := by exact_mod_cast Nat.one_le_iff_ne_zero.2 hB
  nlinarith

theorem activeBase_bounds {std : Std} {s : PowerSpec} {d : Domain} (h0 : 0 ≤ s.rho) (h1 : s.rho ≤ 1) (hB : s.banks ≠ 0)
    (h : d.i2n ≤ d.i3n) : d.i2n ≤ activeBase std s d ∧ activeBase std s d ≤ d.i3n := by
  have hp := denom_pos h0 h1 hB
  have hB' : (0 : Rat) ≤ (s.banks : Rat) := by positivity
  have ddr : d.i2n ≤ (1 - s.rho) * d.i2n + s.rho * d.i3n ∧ (1 - s.rho) * d.i2n + s.rho * d.i3n ≤ d.i3n :=
    ⟨by nlinarith, by nlinarith⟩
  have lp : d.i2n ≤ ((1 - s.rho) * d.i2n + s.rho * s.banks * d.i3n) / ((1 - s.rho) + s.rho * s.banks) ∧
      ((1 - s.rho) * d.i2n + s.rho * s.banks * d.i3n) / ((1 - s.rho) + s.rho * s.banks) ≤ d.i3n := by
    have hr : 0 ≤ s.rho * (s.banks : Rat) := mul_nonneg h0 hB'
    constructor
    · rw [le_div_iff₀ hp]; nlinarith
    · rw [div_le_iff₀ hp]; nlinarith
  cases std <;> first | exact ddr | exact lp

/-- Every coefficient is non-negative. -/
theorem coef_nonneg {std : Std} {s : PowerSpec} (hs : Sane std s) (hdiv : 0 ∉ s.divisors std) {d : Domain} (hd : d ∈ s.domains)
    (c : Component) : 0 ≤ c.of (s.bankEnergy std d unitStats unitStats) := by
  have sd := hs.domains d hd
  have hB : (s.banks : Rat) ≠ 0 := fun h => hdiv (by unfold divisors; rw [h]; simp)
  have hRAS : s.t_RAS ≠ 0 := fun h => hdiv (by unfold divisors; rw [h]; simp)
  have hBn : s.banks ≠ 0 := by exact_mod_cast hB
  have hv := sd.v
  have hck := hs.tCK.le
  have hwck := hs.tWCK
  have hrp : 0 ≤ s.t_RP := by unfold t_RP; positivity
  have hras : 0 < s.t_RAS := lt_of_le_of_ne (by unfold t_RAS; positivity) hRAS.symm
  have hrfc : 0 ≤ s.t_RFC := by unfold t_RFC; positivity
  have hrfcpb : 0 ≤ s.t_RFCpb := by unfold t_RFCpb; positivity
  have hinv : 0 ≤ 1 / (s.banks : Rat) := by positivity
  obtain ⟨-, hb2⟩ := activeBase_bounds (std := std) hs.rho0 hs.rho1 hBn sd.i3n
  have hpre : 0 ≤ E_pre d.v d.iBeta d.i2n s.t_RP 1 := by
    have := sub_nonneg.2 sd.pre
    unfold E_pre; positivity
  have hburst : ∀ (I : Rat), background std s d (burstBanks std s) ≤ I → 0 ≤ I - s.I_burst std d := fun I h => by
    rw [I_burst_eq std s d hB]; exact sub_nonneg.2 h
  have hrd : 0 ≤ s.eRead std d 1 := by
    have := hburst _ sd.rd
    cases std <;> simp only [eRead, E_RD_ddr, E_burst, tBurst] <;> positivity
  have hwr : 0 ≤ s.eWrite std d 1 := by
    have := hburst _ sd.wr
    cases std <;> simp only [eWrite, E_burst, tBurst] <;> positivity
  have hpb : ∀ k, background std s d k * ((s.tRFCpb : Rat) * s.tCK) ≤ bankRefreshCharge s d → s.t_RFCpb ≠ 0 →
      0 ≤ s.I5PB_B d - background std s d k := fun k h h0 => by
    have hp : 0 < s.t_RFCpb := lt_of_le_of_ne hrfcpb h0.symm
    rw [sub_nonneg]
    unfold I5PB_B
    rw [← mul_le_mul_iff_left₀ hp, mul_assoc, one_div, inv_mul_cancel₀ h0, mul_one]
    refine le_trans h (le_of_eq ?_)
    unfold bankRefreshCharge t_RFCpb t_REFI
    ring
  cases c <;> simp only [Component.of, bankEnergy, unitStats]
  case act =>
    have h : 0 ≤ (s.I_theta d - s.I_1 std d) * s.t_RAS := by
      rw [I_1_eq std s d hB, sub_mul]
      unfold I_theta
      rw [mul_assoc, one_div, inv_mul_cancel₀ hRAS, mul_one]
      have := mul_le_mul_of_nonneg_right sd.act hck
      unfold t_RP t_RAS
      linarith
    unfold E_act
    rw [mul_assoc d.v]
    positivity
  case pre => exact hpre
  case preRda => exact hpre
  case preWra => exact hpre
  case bgAct =>
    have h : 0 ≤ s.I_1 std d - s.I_rho std d := by
      rw [I_1_eq std s d hB, activeBase_eq, sub_nonneg]
      have h3 : 0 ≤ d.i3n - activeBase std s d := sub_nonneg.2 hb2
      cases std <;> simp only [background] <;> exact le_add_of_nonneg_right (by positivity)
    unfold E_BG_act_star
    positivity
  case bgPre => have := sd.i2n; unfold E_BG_pre; positivity
  case rd => exact hrd
  case rda => exact hrd
  case wr => exact hwr
  case wra => exact hwr
  case refAb =>
    have := sub_nonneg.2 sd.ref
    rw [← I_B_eq std s d hB] at this
    unfold E_ref_ab
    positivity
  case refPb =>
    cases std <;> simp only [eRefPerBank, le_refl]
    all_goals
      have := hpb 1 (sd.refBank (by simp)) (fun h => hdiv (by unfold divisors; rw [h]; simp))
      rw [← I_1_eq _ s d hB] at this
      unfold E_ref_pb
      positivity
  case refSb =>
    cases std <;> simp only [eRefSame, le_refl]
    have := sub_nonneg.2 (sd.refSame rfl)
    rw [← I_BG_eq _ s d hB] at this
    unfold E_ref_sb
    positivity
  case ref2b =>
    cases std <;> simp only [eRefTwo, le_refl]
    have := hpb 2 (sd.refPair (by simp)) (fun h => hdiv (by unfold divisors; rw [h]; simp))
    rw [← I_2_eq _ s d hB] at this
    unfold E_ref_half
    positivity
  case refDb =>
    cases std <;> simp only [eRefDual, le_refl]
    have := hpb 2 (sd.refPair (by simp)) (fun h => hdiv (by unfold divisors; rw [h]; simp))
    rw [← I_2_eq _ s d hB] at this
    unfold E_ref_half
    positivity

theorem sharedCoef_nonneg {std : Std} {s : PowerSpec} (hs : Sane std s) (hdiv : 0 ∉ s.divisors std) {d : Domain}
    (hd : d ∈ s.domains) (c : SharedComponent) : 0 ≤ c.of (s.rankEnergy std d unitStats) := by
  have sd := hs.domains d hd
  have hB : (s.banks : Rat) ≠ 0 := fun h => hdiv (by unfold divisors; rw [h]; simp)
  have hBn : s.banks ≠ 0 := by exact_mod_cast hB
  obtain ⟨hb1, -⟩ := activeBase_bounds (std := std) hs.rho0 hs.rho1 hBn sd.i3n
  have hrho : 0 ≤ s.I_rho std d := by rw [activeBase_eq]; exact le_trans sd.i2n hb1
  have hv := sd.v
  have hck := hs.tCK.le
  have h1 := sd.i2p
  have h2 := sd.i3p
  have h3 := sd.i6n
  have h4 := sd.i6ds
  cases c <;> simp only [SharedComponent.of, rankEnergy, unitStats, E_BG_act_shared]
  case dsm => cases std <;> simp only [eDsm] <;> positivity
  all_goals positivity

theorem divisors_of_ok {std : Std} {s : PowerSpec} {a : SimStats} {e : Energy} (h : s.calcEnergy std a = .ok e) :
    0 ∉ s.divisors std := by
  unfold calcEnergy at h
  split at h
  · cases h
  · assumption

end PowerSpec

theorem sum_le_of_le {α : Type} {L : List α} {f g : α → Rat} (h : ∀ x ∈ L, f x ≤ g x) : (L.map f).sum ≤ (L.map g).sum := by
  induction L with
  | nil => simp
  | cons x L ih =>
    simp only [List.map_cons, List.sum_cons]
    exact add_le_add (h x (by simp)) (ih fun y hy => h y (by simp [hy]))

/-- More commands and cycles never need less energy, in any component. -/
theorem C31_monotone (std : Std) (s : PowerSpec) (hs : Sane std s) (a b : SimStats) (ea eb : Energy)
    (ha : s.calcEnergy std a = .ok ea) (hb : s.calcEnergy std b = .ok eb)
    (h1 : ∀ i c, coreAt a.bank i c ≤ coreAt b.bank i c) (h2 : ∀ i c, coreAt a.rankTotal i c ≤ coreAt b.rankTotal i c) :
    (∀ i c, entry ea i c ≤ entry eb i c) ∧ ∀ c : SharedComponent, c.of ea.shared ≤ c.of eb.shared := by
  have ca := PowerSpec.calc_closed ha
  have cb := PowerSpec.calc_closed hb
  have hdiv := PowerSpec.divisors_of_ok ha
  refine ⟨fun i c => ?_, fun c => ?_⟩
  · by_cases hi : i < s.ranks * s.devices * s.banks
    · obtain ⟨r, d, k, hr, hd, hk, rfl⟩ := s.energyIndex_surj hi
      rw [ca.bank r d k hr hd hk, cb.bank r d k hr hd hk]
      refine sum_le_of_le fun dom hdom => ?_
      unfold PowerSpec.contrib
      rw [PowerSpec.bankEnergy_prop, PowerSpec.bankEnergy_prop std s dom (b.bank.getD _ _)]
      refine mul_le_mul_of_nonneg_left ?_ (PowerSpec.coef_nonneg hs hdiv hdom c)
      have hc : counted (a.bank.getD (s.statsIndex r k) {}) (a.rankTotal.getD r {}) c ≤
          counted (b.bank.getD (s.statsIndex r k) {}) (b.rankTotal.getD r {}) c := by
        cases c
        case act => exact h1 _ .act
        case pre => exact h1 _ .pre
        case bgAct => exact h1 _ .cyclesAct
        case bgPre => exact h2 _ .cyclesPre
        case rd => exact h1 _ .reads
        case wr => exact h1 _ .writes
        case rda => exact h1 _ .readAuto
        case wra => exact h1 _ .writeAuto
        case preRda => exact h1 _ .readAuto
        case preWra => exact h1 _ .writeAuto
        case refAb => exact h1 _ .refAllBank
        case refPb => exact h1 _ .refPerBank
        case refSb => exact h1 _ .refSameBank
        case ref2b => exact h1 _ .refPerTwoBanks
        case refDb => exact h1 _ .refDualBanks
      exact_mod_cast hc
    · have hz : ∀ e : Energy, e.bank.length = s.ranks * s.devices * s.banks → entry e i c = 0 := fun e he => by
        unfold entry
        rw [List.getD_eq_getElem?_getD, List.getElem?_eq_none (by omega)]
        exact Component.of_zero c
      rw [hz ea ca.length, hz eb cb.length]
  · rw [ca.shared, cb.shared]
    refine sum_le_of_le fun dom hdom => sum_le_of_le fun r _ => ?_
    rw [PowerSpec.rankEnergy_prop, PowerSpec.rankEnergy_prop std s dom (b.rankTotal.getD r {})]
    refine mul_le_mul_of_nonneg_left ?_ (PowerSpec.sharedCoef_nonneg hs hdiv hdom c)
    have hc : sharedCounted (a.rankTotal.getD r {}) c ≤ sharedCounted (b.rankTotal.getD r {}) c := by
      cases c
      case bgActShared => exact h2 _ .cyclesAct
      case pdnA => exact h2 _ .powerDownAct
      case pdnP => exact h2 _ .powerDownPre
      case sref => exact h2 _ .selfRefresh
      case dsm => exact h2 _ .deepSleepMode
      case refab => exact Nat.le_refl _
    exact_mod_cast hc

/-- Every component is non-negative. -/
theorem C31_nonneg (std : Std) (s : PowerSpec) (hs : Sane std s) (a : SimStats) (e : Energy) (h : s.calcEnergy std a = .ok e) :
    (∀ i c, 0 ≤ entry e i c) ∧ ∀ c : SharedComponent, 0 ≤ c.of e.shared := by
  have hc := PowerSpec.calc_closed h
  have hdiv := PowerSpec.divisors_of_ok h
  have hsum : ∀ {α : Type} (L : List α) (f : α → Rat), (∀ x ∈ L, 0 ≤ f x) → 0 ≤ (L.map f).sum := by
    intro α L f hf
    induction L with
    | nil => simp
    | cons x L ih =>
      simp only [List.map_cons, List.sum_cons]
      exact add_nonneg (hf x (by simp)) (ih fun y hy => hf y (by simp [hy]))
  refine ⟨fun i c => ?_, fun c => ?_⟩
  · by_cases hi : i < s.ranks * s.devices * s.banks
    · obtain ⟨r, d, k, hr, hd, hk, rfl⟩ := s.energyIndex_surj hi
      rw [hc.bank r d k hr hd hk]
      refine hsum _ _ fun dom hdom => ?_
      unfold PowerSpec.contrib
      rw [PowerSpec.bankEnergy_prop]
      exact mul_nonneg (PowerSpec.coef_nonneg hs hdiv hdom c) (by positivity)
    · unfold entry
      rw [List.getD_eq_getElem?_getD, List.getElem?_eq_none (by rw [hc.length]; omega)]
      exact (Component.of_zero c).ge
  · rw [hc.shared]
    refine hsum _ _ fun dom hdom => hsum _ _ fun r _ => ?_
    rw [PowerSpec.rankEnergy_prop]
    exact mul_nonneg (PowerSpec.sharedCoef_nonneg hs hdiv hdom c) (by positivity)

/-- For DDR4 and DDR5 it suffices to compare the currents of the data sheet directly, if the precharge current is at most the
activate-precharge current. -/
theorem C31_ddr (std : Std) (hstd : std = .ddr4 ∨ std = .ddr5) (s : PowerSpec) (hck : 0 < s.tCK) (hwck : 0 ≤ s.tWCK)
    (h0 : 0 ≤ s.rho) (h1 : s.rho ≤ 1) (hB : s.banks ≠ 0) (hBG : s.bankGroups ≤ s.banks)
    (hd : ∀ d ∈ s.domains, PlausibleDomain d ∧ d.iBeta ≤ d.i0) : Sane std s := by
  refine ⟨hck, hwck, h0, h1, fun d hdm => ?_⟩
  obtain ⟨hp, hi⟩ := hd d hdm
  have hBp : (0 : Rat) < (s.banks : Rat) := by exact_mod_cast Nat.pos_of_ne_zero hB
  have hb := (PowerSpec.activeBase_bounds (std := std) h0 h1 hB hp.i3n).2
  have hbg : ∀ k, k ≤ s.banks → background std s d k ≤ d.i3n := fun k hk => by
    have e : background std s d k = activeBase std s d + (k : Rat) / (s.banks : Rat) * (d.i3n - activeBase std s d) := by
      rcases hstd with rfl | rfl <;> rfl
    have hk' : (k : Rat) / (s.banks : Rat) ≤ 1 := by
      rw [div_le_one hBp]; exact_mod_cast hk
    rw [e]
    nlinarith [mul_le_mul_of_nonneg_right hk' (sub_nonneg.2 hb)]
  have hbb : burstBanks std s = s.banks := by rcases hstd with rfl | rfl <;> rfl
  refine ⟨hp.v, hp.i2n, hp.i3n, hp.i2p, hp.i3p, hp.i6n, hp.i6ds, le_trans hp.i3n hp.pre, ?_, ?_, ?_, ?_, ?_, ?_, ?_⟩
  · have hb1 := hbg 1 (Nat.one_le_iff_ne_zero.2 hB)
    have hras : (0 : Rat) ≤ (s.tRAS : Rat) := by positivity
    have hrp : (0 : Rat) ≤ (s.tRP : Rat) := by positivity
    have a1 := mul_le_mul_of_nonneg_right (le_trans hb1 hp.act) hras
    have a2 := mul_le_mul_of_nonneg_right hi hrp
    linarith
  · rw [hbb]; exact le_trans (hbg _ (Nat.le_refl _)) hp.rd
  · rw [hbb]; exact le_trans (hbg _ (Nat.le_refl _)) hp.wr
  · exact le_trans (hbg _ (Nat.le_refl _)) hp.ref
  · intro _; exact le_trans (hbg _ hBG) hp.refSame
  · intro h; rcases hstd with rfl | rfl <;> simp at h
  · intro h; rcases hstd with rfl | rfl <;> simp at h

/-- `exampleSpec` is sane for every standard. -/
example (std : Std) : Sane std exampleSpec := by
  refine ⟨by decide +kernel, by decide +kernel, by decide +kernel, by decide +kernel, fun d hd => ?_⟩
  simp only [exampleSpec, List.mem_cons, List.not_mem_nil, or_false] at hd
  subst hd
  constructor <;> cases std <;> decide +kernel

/-- The domain used below: the currents of the data sheet are in the expected order. -/
def plausibleDomain : Domain :=
  { v := 1, i0 := 40, i2n := 8, i3n := 32, i2p := 6, i3p := 32, i4r := 72, i4w := 96, i5x := 40, i5c := 40, i5pb := 40, i6n := 16,
    i6ds := 4, iBeta := 60 }

/-- Comparing the currents of the data sheet directly is not enough: with a precharge current above the activate-precharge
current the activate energy is negative; the refresh energy of the LPDDR standards is negative if the refresh current is below
the background current of all banks. -/
theorem C31_violation : PlausibleDomain plausibleDomain ∧
    (match { exampleSpec with domains := [plausibleDomain] }.calcEnergy .ddr4 exampleStats with
      | .ok e => decide (entry e 0 .act < 0) | .error _ => false) = true ∧
    (match { exampleSpec with domains := [plausibleDomain] }.calcEnergy .lpddr4 exampleStats with
      | .ok e => decide (entry e 0 .refAb < 0) | .error _ => false) = true := by
  refine ⟨by constructor <;> decide +kernel, by decide +kernel, by decide +kernel⟩

end DRAMPower
