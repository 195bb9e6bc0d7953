import Verif.Spec.CurrentTimes
import Verif.Lemmas.Total
import Verif.Props.C38

/-!
# C81: every current is charged for the time it flows

The energies are linear in each current of the data sheet; the coefficient is the supply voltage times the time `Spec.bankCycles`,
`Spec.rankCycles`.
-/

namespace DRAMPower
open Spec

/-- What an energy result gains. -/
structure C81_gain (std : Std) (c : Config) (d : Derived) (stats : SimStats) (k : Current) (x : Rat) (e e' : Energy) : Prop where
  length : e'.bank.length = e.bank.length
  bank : ∀ r i b, r < d.core.numberOfRanks → i < max 1 c.devices → b < d.core.numberOfBanks → ∀ m : Component,
    let n := (r * max 1 c.devices + i) * d.core.numberOfBanks + b
    entry e' n m = entry e n m + (c.domains.map fun v => v.v * x *
      (bankCycles std c d.core.numberOfBanks d.core.numberOfBankGroups d.core.tRFC k
        (stats.bank.getD (r * d.core.numberOfBanks + b) {}).counter m * c.tCK)).sum
  shared : ∀ m : SharedComponent, m.of e'.shared = m.of e.shared + (c.domains.map fun v => ((List.range d.core.numberOfRanks).map fun r =>
    v.v * x * ((max 1 c.devices : Nat) * rankCycles std k (stats.rankTotal.getD r {}).cycles m * c.tCK)).sum).sum

theorem Config.domain_raise (std : Std) (c : Config) (k : Current) (x : Rat) : (raiseAll k x c).domain std = c.domain std := rfl

theorem burst_seconds {std : Std} {c : Config} (hdvd : c.dataRate ∣ c.burstLength) (hr : (c.powerSpec std).dataRate ≠ 0) :
    (((c.powerSpec std).burstLength / (c.powerSpec std).dataRate : Nat) : Rat) * (c.powerSpec std).tBurst std = burstCycles std c * c.tCK := by
  show ((c.burstLength / c.dataRate : Nat) : Rat) * _ = _
  have h0 : c.dataRate ≠ 0 := hr
  rw [Config.cast_floor hdvd h0]
  unfold burstCycles beatsPerCycle PowerSpec.tBurst
  cases std <;> simp only [Config.powerSpec, Config.tWCK] <;> push_cast <;> simp <;> ring

section
variable {std : Std} {c : Config} {k : Current} {x : Rat} {v : RawDomain}

theorem raise_v : (c.domain std (raise k x v)).v = v.v := by cases k <;> rfl
theorem raise_i2n : (c.domain std (raise k x v)).i2n = v.i2n := by cases k <;> rfl
theorem raise_rho : (c.powerSpec std).I_rho std (c.domain std (raise k x v)) = (c.powerSpec std).I_rho std (c.domain std v) := by
  cases k <;> rfl
theorem raise_one : (c.powerSpec std).I_1 std (c.domain std (raise k x v)) = (c.powerSpec std).I_1 std (c.domain std v) := by
  cases k <;> rfl
theorem raise_all : (c.powerSpec std).I_B std (c.domain std (raise k x v)) = (c.powerSpec std).I_B std (c.domain std v) := by
  cases k <;> rfl
theorem raise_two : (c.powerSpec std).I_2 std (c.domain std (raise k x v)) = (c.powerSpec std).I_2 std (c.domain std v) := by
  cases k <;> rfl
theorem raise_group : (c.powerSpec std).I_BG std (c.domain std (raise k x v)) = (c.powerSpec std).I_BG std (c.domain std v) := by
  cases k <;> rfl
theorem raise_burst : (c.powerSpec std).I_burst std (c.domain std (raise k x v)) = (c.powerSpec std).I_burst std (c.domain std v) := by
  cases k <;> rfl

theorem raise_beta (hb : k = .precharge ∨ k = .activate → v.iBeta.isSome) :
    (c.domain std (raise k x v)).iBeta = (c.domain std v).iBeta + if k = .precharge then x else 0 := by
  show (raise k x v).iBeta.getD (raise k x v).i0 = v.iBeta.getD v.i0 + _
  cases k
  case precharge =>
    obtain ⟨y, hy⟩ := Option.isSome_iff_exists.1 (hb (.inl rfl))
    simp [raise, hy]
  case activate =>
    obtain ⟨y, hy⟩ := Option.isSome_iff_exists.1 (hb (.inr rfl))
    simp [raise, hy]
  all_goals simp [raise]

theorem raise_i0 : (c.domain std (raise k x v)).i0 = v.i0 + if k = .activate then x else 0 := by
  show (raise k x v).i0 = _
  cases k <;> simp [raise]
theorem raise_i4r : (c.domain std (raise k x v)).i4r = v.i4r + if k = .read then x else 0 := by
  show (raise k x v).i4r = _
  cases k <;> simp [raise]
theorem raise_i4w : (c.domain std (raise k x v)).i4w = v.i4w + if k = .write then x else 0 := by
  show (raise k x v).i4w = _
  cases k <;> simp [raise]
theorem raise_i5 : (c.domain std (raise k x v)).i5x = (c.domain std v).i5x + if k = .refresh then x else 0 := by
  show c.i5 std (raise k x v) = c.i5 std v + _
  unfold Config.i5
  cases k <;> simp [raise]; all_goals (split <;> [rfl; (split <;> rfl)])
theorem raise_i5c : (c.domain std (raise k x v)).i5c = v.i5c + if k = .refreshSame then x else 0 := by
  show (raise k x v).i5c = _
  cases k <;> simp [raise]
theorem raise_i5pb : (c.domain std (raise k x v)).i5pb = v.i5pb + if k = .refreshPart then x else 0 := by
  show (raise k x v).i5pb = _
  cases k <;> simp [raise]
theorem raise_i6n : (c.domain std (raise k x v)).i6n = v.i6n + if k = .selfRefresh then x else 0 := by
  show (raise k x v).i6n = _
  cases k <;> simp [raise]
theorem raise_i2p : (c.domain std (raise k x v)).i2p = v.i2p + if k = .idleDown then x else 0 := by
  show (raise k x v).i2p = _
  cases k <;> simp [raise]
theorem raise_i3p : (c.domain std (raise k x v)).i3p = v.i3p + if k = .activeDown then x else 0 := by
  show (raise k x v).i3p = _
  cases k <;> simp [raise]
theorem raise_i6ds : (c.domain std (raise k x v)).i6ds = v.i6ds + if k = .deepSleep then x else 0 := by
  show (raise k x v).i6ds = _
  cases k <;> simp [raise]

theorem read_raise (n : Nat) (hdvd : c.dataRate ∣ c.burstLength) (hr : c.dataRate ≠ 0) :
    (c.powerSpec std).eRead std (c.domain std (raise k x v)) n = (c.powerSpec std).eRead std (c.domain std v) n +
      v.v * x * ((if k = .read then (n : Rat) * burstCycles std c else 0) * c.tCK) := by
  have hs := burst_seconds (std := std) hdvd hr
  have hc := Config.cast_floor hdvd hr
  have key : ∀ T : Rat, T = burstCycles std c * c.tCK →
      v.v * (v.i4r + (if k = .read then x else 0) - (c.powerSpec std).I_burst std (c.domain std v)) * T * (n : Rat) =
      v.v * (v.i4r - (c.powerSpec std).I_burst std (c.domain std v)) * T * (n : Rat) +
      v.v * x * ((if k = .read then (n : Rat) * burstCycles std c else 0) * c.tCK) := by
    intro T hT
    rw [hT]
    split <;> ring
  have hd : std = .ddr4 ∨ std = .ddr5 → ((c.burstLength : Rat) / (c.dataRate : Rat)) * c.tCK = burstCycles std c * c.tCK := fun h => by
    rw [← hc, ← hs]
    rcases h with rfl | rfl <;> rfl
  cases std
  case ddr4 =>
    have := key _ (hd (.inl rfl))
    simp only [PowerSpec.eRead, E_RD_ddr, raise_burst, raise_i4r, raise_v]
    simp only [← mul_assoc] at this ⊢
    exact this
  case ddr5 =>
    have := key _ (hd (.inr rfl))
    simp only [PowerSpec.eRead, E_RD_ddr, raise_burst, raise_i4r, raise_v]
    simp only [← mul_assoc] at this ⊢
    exact this
  all_goals
    have := key _ hs
    simp only [PowerSpec.eRead, E_burst, raise_burst, raise_i4r, raise_v]
    simp only [← mul_assoc] at this ⊢
    exact this

theorem write_raise (n : Nat) (hdvd : c.dataRate ∣ c.burstLength) (hr : c.dataRate ≠ 0) :
    (c.powerSpec std).eWrite std (c.domain std (raise k x v)) n = (c.powerSpec std).eWrite std (c.domain std v) n +
      v.v * x * ((if k = .write then (n : Rat) * burstCycles std c else 0) * c.tCK) := by
  have hs := burst_seconds (std := std) hdvd hr
  have key : ∀ T : Rat, T = burstCycles std c * c.tCK →
      v.v * (v.i4w + (if k = .write then x else 0) - (c.powerSpec std).I_burst std (c.domain std v)) * T * (n : Rat) =
      v.v * (v.i4w - (c.powerSpec std).I_burst std (c.domain std v)) * T * (n : Rat) +
      v.v * x * ((if k = .write then (n : Rat) * burstCycles std c else 0) * c.tCK) := by
    intro T hT
    rw [hT]
    split <;> ring
  have := key _ hs
  simp only [PowerSpec.eWrite, E_burst, raise_burst, raise_i4w, raise_v]
  simp only [← mul_assoc] at this ⊢
  exact this

theorem part_raise (h : (c.powerSpec std).t_RFCpb ≠ 0) :
    ((c.powerSpec std).I5PB_B (c.domain std (raise k x v)) - (c.powerSpec std).I5PB_B (c.domain std v)) * (c.powerSpec std).t_RFCpb =
      (if k = .refreshPart then x else 0) * ((c.refi : Rat) * c.tCK / 8) := by
  unfold PowerSpec.I5PB_B
  rw [raise_i5pb, raise_i2n]
  have e1 : (c.domain std v).i5pb = v.i5pb := rfl
  have e2 : (c.domain std v).i2n = v.i2n := rfl
  have e3 : (c.powerSpec std).t_REFI = (c.refi : Rat) * c.tCK := rfl
  rw [e1, e2, e3]
  generalize (c.powerSpec std).t_RFCpb = T at h
  generalize (if k = .refreshPart then x else 0) = y
  field_simp
  ring

theorem act_raise (n : Nat) (hb : k = .precharge ∨ k = .activate → v.iBeta.isSome) (h : (c.powerSpec std).t_RAS ≠ 0) :
    E_act v.v ((c.powerSpec std).I_theta (c.domain std (raise k x v))) ((c.powerSpec std).I_1 std (c.domain std v)) (c.powerSpec std).t_RAS n =
    E_act v.v ((c.powerSpec std).I_theta (c.domain std v)) ((c.powerSpec std).I_1 std (c.domain std v)) (c.powerSpec std).t_RAS n +
      v.v * x * (((if k = .activate then (n : Rat) * (c.ras + c.rp) else if k = .precharge then - ((n : Rat) * c.rp) else 0)) * c.tCK) := by
  unfold PowerSpec.I_theta E_act
  rw [raise_i0, raise_beta hb]
  have e1 : (c.domain std v).i0 = v.i0 := rfl
  have e2 : (c.powerSpec std).t_RP = (c.rp : Rat) * c.tCK := rfl
  have e3 : (c.powerSpec std).t_RAS = (c.ras : Rat) * c.tCK := rfl
  rw [e1, e2]
  generalize (c.powerSpec std).I_1 std (c.domain std v) = i
  generalize (c.domain std v).iBeta = beta
  generalize (c.powerSpec std).t_RAS = T at h e3
  have e4 : ∀ a b : Rat, (a * (1 / T) - b) * T = a - b * T := fun a b => by field_simp
  have e5 : ∀ a b V m : Rat, V * (a * (1 / T) - b) * T * m = V * (a - b * T) * m := fun a b V m => by rw [← e4]; ring
  rw [e5, e5]
  by_cases h1 : k = .activate
  · have h2 : k ≠ .precharge := by rw [h1]; simp
    simp only [h1, if_true, if_neg (show Current.activate ≠ .precharge by simp)]
    rw [e3]; ring
  · by_cases h2 : k = .precharge
    · simp only [h2, if_true, if_neg (show Current.precharge ≠ .activate by simp)]
      ring
    · simp only [h1, h2, if_false]
      ring

/-- One bank and one domain. -/
theorem bank_raise {bank rank : CycleStats} (m : Component)
    (hb : k = .precharge ∨ k = .activate → v.iBeta.isSome) (hdvd : c.dataRate ∣ c.burstLength)
    (hdiv : 0 ∉ (c.powerSpec std).divisors std) :
    m.of ((c.powerSpec std).bankEnergy std (c.domain std (raise k x v)) bank rank) =
      m.of ((c.powerSpec std).bankEnergy std (c.domain std v) bank rank) + v.v * x *
        (bankCycles std c (c.archOf std).2.1 (c.archOf std).2.2 (c.tRFC std) k bank.counter m * c.tCK) := by
  have hB : ((c.archOf std).2.1 : Rat) ≠ 0 := fun h => hdiv (by rw [← h]; exact List.mem_cons_self)
  have hR : c.dataRate ≠ 0 := fun h => hdiv (by
    have : ((c.powerSpec std).dataRate : Rat) = 0 := by show ((c.dataRate : Nat) : Rat) = 0; rw [h]; rfl
    rw [← this]; exact List.mem_cons_of_mem _ List.mem_cons_self)
  have hRAS : (c.powerSpec std).t_RAS ≠ 0 := fun h => hdiv (by
    rw [← h]; exact List.mem_cons_of_mem _ (List.mem_cons_of_mem _ List.mem_cons_self))
  have hP : std = .lpddr4 ∨ std = .lpddr5 ∨ std = .lpddr6 → (c.powerSpec std).t_RFCpb ≠ 0 := fun hs h => hdiv (by
    rw [← h]
    refine List.mem_cons_of_mem _ (List.mem_cons_of_mem _ (List.mem_cons_of_mem _ ?_))
    rcases hs with rfl | rfl | rfl <;> exact List.mem_cons_self)
  have pre : ∀ n : Nat, E_pre v.v (c.domain std (raise k x v)).iBeta v.i2n (c.powerSpec std).t_RP n =
      E_pre v.v (c.domain std v).iBeta v.i2n (c.powerSpec std).t_RP n +
        v.v * x * ((if k = .precharge then (n : Rat) * c.rp else 0) * c.tCK) := fun n => by
    rw [raise_beta hb]
    show v.v * (_ - _) * ((c.rp : Rat) * c.tCK) * _ = v.v * _ * ((c.rp : Rat) * c.tCK) * _ + _
    split <;> ring
  have half : ∀ (i : Rat) (n : Nat), (c.powerSpec std).t_RFCpb ≠ 0 →
      E_ref_half v.v ((c.powerSpec std).I5PB_B (c.domain std (raise k x v))) i (c.powerSpec std).t_RFCpb n =
      E_ref_half v.v ((c.powerSpec std).I5PB_B (c.domain std v)) i (c.powerSpec std).t_RFCpb n +
        v.v * x * ((if k = .refreshPart then (n : Rat) * c.refi / 16 else 0) * c.tCK) := fun i n h => by
    have := part_raise (k := k) (x := x) (v := v) h
    unfold E_ref_half
    have e : (1 / 2 : Rat) * v.v * ((c.powerSpec std).I5PB_B (c.domain std (raise k x v)) - i) * (c.powerSpec std).t_RFCpb * (n : Rat) =
        (1 / 2 : Rat) * v.v * ((c.powerSpec std).I5PB_B (c.domain std v) - i) * (c.powerSpec std).t_RFCpb * (n : Rat) +
        (1 / 2 : Rat) * v.v * (((c.powerSpec std).I5PB_B (c.domain std (raise k x v)) - (c.powerSpec std).I5PB_B (c.domain std v)) *
          (c.powerSpec std).t_RFCpb) * (n : Rat) := by ring
    rw [e, this]
    split <;> ring
  cases m
  case act =>
    show E_act (c.domain std (raise k x v)).v _ ((c.powerSpec std).I_1 std (c.domain std (raise k x v))) _ _ = _
    rw [raise_v, raise_one, act_raise _ hb hRAS]
    show _ = E_act v.v _ _ _ _ + _
    congr 1
    cases k <;> simp [bankCycles]
  case pre =>
    show E_pre (c.domain std (raise k x v)).v _ (c.domain std (raise k x v)).i2n _ _ = _
    rw [raise_v, raise_i2n, pre]; rfl
  case preRda =>
    show E_pre (c.domain std (raise k x v)).v _ (c.domain std (raise k x v)).i2n _ _ = _
    rw [raise_v, raise_i2n, pre]; rfl
  case preWra =>
    show E_pre (c.domain std (raise k x v)).v _ (c.domain std (raise k x v)).i2n _ _ = _
    rw [raise_v, raise_i2n, pre]; rfl
  case bgAct =>
    show E_BG_act_star (c.domain std (raise k x v)).v _ _ _ = _
    rw [raise_v, raise_one, raise_rho]
    simp only [bankCycles, zero_mul, mul_zero, add_zero]; rfl
  case bgPre =>
    show E_BG_pre _ (c.domain std (raise k x v)).v (c.domain std (raise k x v)).i2n _ = _
    rw [raise_v, raise_i2n]
    simp only [bankCycles, zero_mul, mul_zero, add_zero]; rfl
  case rd => exact read_raise _ hdvd hR
  case rda => exact read_raise _ hdvd hR
  case wr => exact write_raise _ hdvd hR
  case wra => exact write_raise _ hdvd hR
  case refAb =>
    show E_ref_ab _ (c.domain std (raise k x v)).v (c.domain std (raise k x v)).i5x _ _ _ = _
    rw [raise_v, raise_i5, raise_all]
    show (1 / ((c.archOf std).2.1 : Rat)) * v.v * _ * ((c.tRFC std : Rat) * c.tCK) * _ =
      (1 / ((c.archOf std).2.1 : Rat)) * v.v * _ * ((c.tRFC std : Rat) * c.tCK) * _ + _
    simp only [bankCycles]
    split <;> ring
  case refSb =>
    cases std
    case ddr5 =>
      show E_ref_sb (c.domain _ (raise k x v)).v (c.domain _ (raise k x v)).i5c _ _ _ _ = _
      rw [raise_v, raise_i5c, raise_group]
      show v.v * _ * ((c.rfcPart : Rat) * c.tCK) * _ * (1 / ((c.archOf .ddr5).2.2 : Rat)) =
        v.v * _ * ((c.rfcPart : Rat) * c.tCK) * _ * (1 / ((c.archOf .ddr5).2.2 : Rat)) + _
      simp only [bankCycles, and_true]
      have : (c.domain .ddr5 v).i5c = v.i5c := rfl
      rw [this]
      split <;> ring
    all_goals
      show (0 : Rat) = 0 + _
      simp [bankCycles]
  case refPb =>
    have key : (c.powerSpec std).t_RFCpb ≠ 0 →
      E_ref_pb v.v ((c.powerSpec std).I5PB_B (c.domain std (raise k x v))) ((c.powerSpec std).I_1 std (c.domain std v)) (c.powerSpec std).t_RFCpb
        bank.counter.refPerBank =
      E_ref_pb v.v ((c.powerSpec std).I5PB_B (c.domain std v)) ((c.powerSpec std).I_1 std (c.domain std v)) (c.powerSpec std).t_RFCpb
        bank.counter.refPerBank + v.v * x * ((if k = .refreshPart then (bank.counter.refPerBank : Rat) * c.refi / 8 else 0) * c.tCK) := fun h => by
      have := part_raise (k := k) (x := x) (v := v) h
      unfold E_ref_pb
      generalize (c.powerSpec std).I_1 std (c.domain std v) = i
      have e : v.v * ((c.powerSpec std).I5PB_B (c.domain std (raise k x v)) - i) * (c.powerSpec std).t_RFCpb * (bank.counter.refPerBank : Rat) =
          v.v * ((c.powerSpec std).I5PB_B (c.domain std v) - i) * (c.powerSpec std).t_RFCpb * (bank.counter.refPerBank : Rat) +
          v.v * (((c.powerSpec std).I5PB_B (c.domain std (raise k x v)) - (c.powerSpec std).I5PB_B (c.domain std v)) *
            (c.powerSpec std).t_RFCpb) * (bank.counter.refPerBank : Rat) := by ring
      rw [e, this]
      split <;> ring
    cases std
    case lpddr4 =>
      show E_ref_pb (c.domain _ (raise k x v)).v _ ((c.powerSpec _).I_1 _ (c.domain _ (raise k x v))) _ _ = _
      rw [raise_v, raise_one, key (hP (by simp))]
      simp only [bankCycles, true_or, and_true]; rfl
    case lpddr5 =>
      show E_ref_pb (c.domain _ (raise k x v)).v _ ((c.powerSpec _).I_1 _ (c.domain _ (raise k x v))) _ _ = _
      rw [raise_v, raise_one, key (hP (by simp))]
      simp only [bankCycles, or_true, and_true]; rfl
    all_goals
      show (0 : Rat) = 0 + _
      simp [bankCycles]
  case ref2b =>
    cases std
    case lpddr5 =>
      show E_ref_half (c.domain _ (raise k x v)).v _ ((c.powerSpec _).I_2 _ (c.domain _ (raise k x v))) _ _ = _
      rw [raise_v, raise_two, half _ _ (hP (by simp))]
      simp only [bankCycles, and_true]; rfl
    all_goals
      show (0 : Rat) = 0 + _
      simp [bankCycles]
  case refDb =>
    cases std
    case lpddr6 =>
      show E_ref_half (c.domain _ (raise k x v)).v _ ((c.powerSpec _).I_2 _ (c.domain _ (raise k x v))) _ _ = _
      rw [raise_v, raise_two, half _ _ (hP (by simp))]
      simp only [bankCycles, and_true]; rfl
    all_goals
      show (0 : Rat) = 0 + _
      simp [bankCycles]

/-- One rank and one domain. -/
theorem rank_raise {rank : CycleStats} (m : SharedComponent) :
    m.of ((c.powerSpec std).rankEnergy std (c.domain std (raise k x v)) rank) =
      m.of ((c.powerSpec std).rankEnergy std (c.domain std v) rank) + v.v * x *
        ((c.devices' : Rat) * rankCycles std k rank.cycles m * c.tCK) := by
  cases m
  case bgActShared =>
    show E_BG_act_shared (c.domain std (raise k x v)).v _ _ * _ = _
    rw [raise_v, raise_rho]
    simp only [rankCycles, zero_mul, mul_zero, add_zero]; rfl
  case refab =>
    show (0 : Rat) = 0 + _
    simp [rankCycles]
  case sref =>
    show (c.domain std (raise k x v)).v * (c.domain std (raise k x v)).i6n * _ * c.tCK * (c.devices' : Rat) =
      v.v * v.i6n * _ * c.tCK * (c.devices' : Rat) + _
    rw [raise_v, raise_i6n]
    simp only [rankCycles]
    split <;> ring
  case pdnP =>
    show (c.domain std (raise k x v)).v * (c.domain std (raise k x v)).i2p * _ * c.tCK * (c.devices' : Rat) =
      v.v * v.i2p * _ * c.tCK * (c.devices' : Rat) + _
    rw [raise_v, raise_i2p]
    simp only [rankCycles]
    split <;> ring
  case pdnA =>
    show (c.domain std (raise k x v)).v * (c.domain std (raise k x v)).i3p * _ * c.tCK * (c.devices' : Rat) =
      v.v * v.i3p * _ * c.tCK * (c.devices' : Rat) + _
    rw [raise_v, raise_i3p]
    simp only [rankCycles]
    split <;> ring
  case dsm =>
    have key : (c.domain std (raise k x v)).v * (c.domain std (raise k x v)).i6ds * (rank.cycles.deepSleepMode : Rat) * c.tCK * (c.devices' : Rat) =
      v.v * v.i6ds * (rank.cycles.deepSleepMode : Rat) * c.tCK * (c.devices' : Rat) + v.v * x *
        ((c.devices' : Rat) * (if k = .deepSleep then (rank.cycles.deepSleepMode : Rat) else 0) * c.tCK) := by
      rw [raise_v, raise_i6ds]
      split <;> ring
    cases std
    case lpddr5 =>
      refine Eq.trans key ?_
      simp only [rankCycles, true_or, and_true]; rfl
    case lpddr6 =>
      refine Eq.trans key ?_
      simp only [rankCycles, or_true, and_true]; rfl
    all_goals
      show (0 : Rat) = 0 + _
      simp [rankCycles]

end

theorem devices_eq (c : Config) : c.devices' = max 1 c.devices := by
  unfold Config.devices'
  split <;> omega

theorem calc_divisors {std : Std} {s : PowerSpec} {stats : SimStats} {e : Energy} (h : s.calcEnergy std stats = .ok e) : 0 ∉ s.divisors std := by
  unfold PowerSpec.calcEnergy at h
  split at h
  · cases h
  · assumption

theorem calc_alike {std : Std} {s s' : PowerSpec} {stats : SimStats} {e : Energy} (h : s.calcEnergy std stats = .ok e)
    (hd : 0 ∉ s'.divisors std) (hr : s'.ranks = s.ranks) (hb : s'.banks = s.banks) : ∃ e', s'.calcEnergy std stats = .ok e' := by
  unfold PowerSpec.calcEnergy at h ⊢
  rw [if_neg hd, hr, hb]
  split at h
  · cases h
  · split at h
    · cases h
    · rename_i hy
      rw [if_neg hy]
      exact ⟨_, rfl⟩

/-- A current that is greater by `x` in every voltage domain: the simulation does not change, and the energies grow by voltage times `x`
times the time for which the current is charged, in exactly the components it is charged to. A burst must fill whole cycles of the data
clock; the current while precharging must be configured where it or IDD0 (its substitute) is changed. -/
theorem C81 (std : Std) (c : Config) (d : Derived) (stats : SimStats) (e : Energy) (k : Current) (x : Rat) (h : c.derive std = .ok d)
    (he : d.power.calcEnergy std stats = .ok e) (hdvd : c.dataRate ∣ c.burstLength)
    (hb : k = .precharge ∨ k = .activate → ∀ v ∈ c.domains, v.iBeta.isSome) :
    ∃ d' e', (raiseAll k x c).derive std = .ok d' ∧ d'.core = d.core ∧ d'.tBurst = d.tBurst ∧
      d'.power.calcEnergy std stats = .ok e' ∧ C81_gain std c d stats k x e e' := by
  obtain ⟨g, l, h1, h2, h3, rfl⟩ := Config.derive_ok h
  have hd' : (raiseAll k x c).derive std = .ok { core := c.coreSpec std g, power := (raiseAll k x c).powerSpec std, tBurst := c.tBurst std, activeBanks := l } := by
    have e1 : (raiseAll k x c).banksPerGroup std = c.banksPerGroup std := rfl
    have e2 : (raiseAll k x c).activeBanks std = c.activeBanks std := rfl
    unfold Config.derive
    simp only [e1, e2, h1, h2, bind, Except.bind]
    rw [if_neg (show (raiseAll k x c).beatDivisor std ≠ 0 from h3)]
    rfl
  have hcalc : ∃ e', ((raiseAll k x c).powerSpec std).calcEnergy std stats = .ok e' :=
    calc_alike he (by rw [show ((raiseAll k x c).powerSpec std).divisors std = (c.powerSpec std).divisors std by cases std <;> rfl]; exact calc_divisors he)
      rfl rfl
  obtain ⟨e', he'⟩ := hcalc
  have hdiv := calc_divisors he
  have ce := PowerSpec.calc_closed he
  have ce' := PowerSpec.calc_closed he'
  have hdom : ((raiseAll k x c).powerSpec std).domains = (c.domains.map (raise k x)).map (c.domain std) := rfl
  have hdom0 : (c.powerSpec std).domains = c.domains.map (c.domain std) := rfl
  refine ⟨_, e', hd', rfl, rfl, he', ?_, ?_, ?_⟩
  · exact ce'.length.trans ce.length.symm
  · intro r i b hr hi hbk m
    rw [← devices_eq] at hi ⊢
    have g1 := ce.bank r i b hr hi hbk m
    have g2 := ce'.bank r i b hr hi hbk m
    rw [PowerSpec.energyIndex_eq] at g1 g2
    show entry e' ((r * c.devices' + i) * (c.archOf std).2.1 + b) m = entry e ((r * c.devices' + i) * (c.archOf std).2.1 + b) m + _
    refine g2.trans ?_
    refine Eq.trans ?_ (congrArg (· + _) g1.symm)
    rw [hdom, hdom0, List.map_map, List.map_map, List.map_map, ← List.sum_map_add]
    congr 1
    refine List.map_congr_left fun v hv => ?_
    exact bank_raise m (fun hk => hb hk v hv) hdvd hdiv
  · intro m
    rw [ce'.shared, ce.shared, hdom, hdom0, List.map_map, List.map_map, List.map_map, ← List.sum_map_add, ← devices_eq]
    congr 1
    refine List.map_congr_left fun v hv => ?_
    show ((List.range c.ranks).map _).sum = ((List.range c.ranks).map _).sum + ((List.range c.ranks).map _).sum
    rw [← List.sum_map_add]
    congr 1
    refine List.map_congr_left fun r _ => ?_
    exact rank_raise m

/-! ## The hypotheses can be met -/

/-- The configuration of C38 with a voltage domain; two devices. -/
def c81Config : Config := { exampleConfig with
  devices := 2, refi := 100, rfcPart := 50
  domains := [{ v := 2, i0 := 60, i2n := 30, i3n := 40, i2p := 10, i3p := 20, i4r := 150, i4w := 160, i5b := 200, i5pb := 90, i6n := 5, i6ds := 1,
                iBeta := some 35 }] }

/-- Three reads on bank 1, seven cycles of self-refresh. -/
def c81Stats : SimStats where
  bank := {} :: { counter := { reads := 3 } } :: List.replicate 14 {}
  rankTotal := [{ cycles := { selfRefresh := 7 } }]

/-- The energies of bank 1 of the second device for reads and of the rank for self-refresh. -/
def c81Figures (std : Std) (c : Config) : Option (Rat × Rat) :=
  match c.derive std with
  | .ok d => match d.power.calcEnergy std c81Stats with
    | .ok e => some (entry e 17 .rd, e.shared.sref)
    | .error _ => none
  | .error _ => none

/-- A read takes two cycles (16 beats, four periods of the data clock per cycle, two beats each): the read current is charged for six
cycles, IDD6N for seven cycles in two devices; both at two volts. -/
example : (c81Figures .lpddr5 c81Config, c81Figures .lpddr5 (raiseAll .read 1 c81Config), c81Figures .lpddr5 (raiseAll .selfRefresh 1 c81Config)) =
    (some (1320, 140), some (1332, 140), some (1320, 168)) ∧
    c81Config.dataRate ∣ c81Config.burstLength ∧ ∀ v ∈ c81Config.domains, v.iBeta.isSome := by
  refine ⟨by decide +kernel, by decide, by decide⟩

end DRAMPower
