import Verif.Spec.Power
import Verif.Props.C02
import Verif.Props.C09
import Verif.Props.C43

/-! # Energy of the timeline -/

namespace DRAMPower
open Spec

variable {std : Std} {ms : MemSpec} {s : PowerSpec} {d : Domain}

namespace PowerSpec

theorem cmdEnergy_plus (a b : Counters) : s.cmdEnergy std d (a.plus b) = s.cmdEnergy std d a + s.cmdEnergy std d b := by
  cases std <;>
    simp only [cmdEnergy, Counters.plus, E_act, E_pre, eRead, eWrite, E_RD_ddr, E_burst, E_ref_ab, eRefPerBank, E_ref_pb, eRefSame, E_ref_sb,
      eRefTwo, eRefDual, E_ref_half] <;> push_cast <;> ring

/-- A precharge costs the same however it comes about. -/
theorem cmdEnergy_pre (c : Counters) (n : Nat) (h : c.pre = n) :
    s.cmdEnergy std d c = s.cmdEnergy std d c.noPre + E_pre d.v d.iBeta d.i2n s.t_RP n := by
  subst h
  unfold cmdEnergy Counters.noPre
  rw [E_pre_zero]
  ring

/-- Energy of a command at one of the banks it targets. -/
def share (std : Std) (s : PowerSpec) (d : Domain) : CmdType → Rat
  | .ACT => s.cmdEnergy std d { act := 1 }
  | .RD => s.cmdEnergy std d { reads := 1 }
  | .RDA => s.cmdEnergy std d { readAuto := 1 }
  | .WR => s.cmdEnergy std d { writes := 1 }
  | .WRA => s.cmdEnergy std d { writeAuto := 1 }
  | .REFA | .SREFEN => s.cmdEnergy std d { refAllBank := 1 }
  | .REFB => s.cmdEnergy std d { refPerBank := 1 }
  | .REFP2B => s.cmdEnergy std d { refPerTwoBanks := 1 }
  | .REFDB => s.cmdEnergy std d { refDualBanks := 1 }
  | .REFSB => s.cmdEnergy std d { refSameBank := 1 }
  | _ => 0

theorem cmdEnergy_one (c : Cmd) (b : Nat) : s.cmdEnergy std d (tally ms [c] b) = if targets ms c b = true then s.share std d c.type else 0 := by
  by_cases ht : targets ms c b = true
  · rw [if_pos ht]
    cases hc : c.type <;> simp [tally, hits, hc, ht, share] <;> exact cmdEnergy_zero ..
  · rw [if_neg ht]
    simp [tally, hits, ht]
    exact cmdEnergy_zero ..

theorem cmdEnergy_tally (h : List Cmd) (b : Nat) :
    s.cmdEnergy std d (tally ms h b) = (h.map fun c => if targets ms c b = true then s.share std d c.type else 0).sum := by
  induction h with
  | nil => simp [tally, hits]; exact cmdEnergy_zero ..
  | cons c h ih => rw [tally_cons, cmdEnergy_plus, ih, List.map_cons, List.sum_cons, cmdEnergy_one]

end PowerSpec

theorem sum_ite (L : List Nat) (p : Nat → Bool) (x : Rat) : (L.map fun b => if p b = true then x else 0).sum = (L.countP p : Rat) * x := by
  induction L with
  | nil => simp
  | cons a L ih =>
    rw [List.map_cons, List.sum_cons, ih, List.countP_cons]
    split
    · push_cast; ring
    · push_cast; ring

theorem countP_eq (n k : Nat) : (List.range n).countP (fun b => b == k) = if k < n then 1 else 0 := by
  induction n with
  | zero => simp
  | succ n ih =>
    rw [List.range_succ, List.countP_append, ih, List.countP_singleton]
    by_cases h : n = k
    · subst h; simp
    · have : (n == k) = false := by simpa using h
      rw [this]
      by_cases hk : k < n
      · simp [hk]; omega
      · simp [hk]; omega

theorem countP_two (n j k : Nat) (h : j ≠ k) :
    (List.range n).countP (fun b => b == j || b == k) = (if j < n then 1 else 0) + if k < n then 1 else 0 := by
  rw [← countP_eq n j, ← countP_eq n k]
  induction (List.range n) with
  | nil => rfl
  | cons a L ih =>
    simp only [List.countP_cons, ih]
    by_cases h1 : a = j
    · subst h1
      have : (a == k) = false := by simpa using h
      simp [this]; omega
    · have h1' : (a == j) = false := by simpa using h1
      rw [h1']; simp; omega

theorem countP_mod (g p r : Nat) (hr : r < p) : (List.range (g * p)).countP (fun b => b % p == r) = g := by
  induction g with
  | zero => simp
  | succ g ih =>
    rw [Nat.succ_mul, List.range_add, List.countP_append, ih, List.countP_map]
    have : (List.range p).countP ((fun b => b % p == r) ∘ fun x => g * p + x) = (List.range p).countP (fun b => b == r) := by
      refine List.countP_congr fun x hx => ?_
      have hx := List.mem_range.1 hx
      simp only [Function.comp_apply, beq_iff_eq]
      rw [Nat.mul_comm g p, Nat.mul_add_mod, Nat.mod_eq_of_lt hx]
    rw [this, countP_eq, if_pos hr]

namespace PowerSpec

/-- Only one counter differs from zero. -/
local macro "one_counter" : tactic => `(tactic|
  simp only [share, cmdEnergy, eRead_zero, eWrite_zero, eRefPerBank_zero, eRefSame_zero, eRefTwo_zero, eRefDual_zero, E_act_zero, E_pre_zero,
    E_ref_ab_zero, add_zero, zero_add])

theorem share_act (hdiv : 0 ∉ s.divisors std) : s.share std d .ACT = d.v * commandCharge std s d .ACT := by
  have hB := banks_ne hdiv
  have hRAS := tRAS_ne hdiv
  one_counter
  unfold E_act I_theta commandCharge
  have hr : (s.tRAS : Rat) * s.tCK = s.t_RAS := rfl
  have hp : (s.tRP : Rat) * s.tCK = s.t_RP := rfl
  rw [I_1_eq std s d hB, show (d.i0 * ((s.tRAS : Rat) + s.tRP) - d.iBeta * s.tRP - background std s d 1 * s.tRAS) * s.tCK =
    d.i0 * (s.tRAS * s.tCK + s.tRP * s.tCK) - d.iBeta * (s.tRP * s.tCK) - background std s d 1 * (s.tRAS * s.tCK) by ring, hr, hp]
  field_simp
  push_cast
  ring

theorem eRead_one (hdiv : 0 ∉ s.divisors std) (hbl : s.dataRate ∣ s.burstLength) : s.eRead std d 1 = d.v * commandCharge std s d .RD := by
  have hB := banks_ne hdiv
  have hq := cast_quot hbl (dataRate_ne hdiv)
  unfold commandCharge burstTime
  rw [← I_burst_eq std s d hB]
  cases std <;> simp only [eRead, E_RD_ddr, E_burst, hq, ← tBurst_eq, tBurst] <;> push_cast <;> ring

theorem eWrite_one (hdiv : 0 ∉ s.divisors std) (hbl : s.dataRate ∣ s.burstLength) : s.eWrite std d 1 = d.v * commandCharge std s d .WR := by
  have hB := banks_ne hdiv
  have hq := cast_quot hbl (dataRate_ne hdiv)
  unfold commandCharge burstTime
  rw [← I_burst_eq std s d hB]
  simp only [eWrite, E_burst, hq, tBurst_eq]
  push_cast
  ring

theorem share_all (hdiv : 0 ∉ s.divisors std) : (s.banks : Rat) * s.share std d .REFA = d.v * commandCharge std s d .REFA := by
  have hB := banks_ne hdiv
  one_counter
  unfold E_ref_ab commandCharge t_RFC
  rw [I_B_eq std s d hB]
  field_simp
  push_cast
  ring

theorem share_same (hdiv : 0 ∉ s.divisors .ddr5) : (s.bankGroups : Rat) * s.share .ddr5 d .REFSB = d.v * commandCharge .ddr5 s d .REFSB := by
  have hB := banks_ne hdiv
  have hG : (s.bankGroups : Rat) ≠ 0 := fun h => hdiv (by unfold PowerSpec.divisors; rw [h]; simp)
  one_counter
  unfold eRefSame E_ref_sb commandCharge t_RFCpb
  rw [I_BG_eq .ddr5 s d hB]
  field_simp
  push_cast
  ring

theorem bankRefresh_eq (h : s.t_RFCpb ≠ 0) : s.I5PB_B d * s.t_RFCpb = bankRefreshCharge s d := by
  unfold I5PB_B bankRefreshCharge
  rw [mul_assoc, one_div_mul_cancel h, mul_one, show (s.tREFI : Rat) * s.tCK = s.t_REFI from rfl, show (s.tRFCpb : Rat) * s.tCK = s.t_RFCpb from rfl]
  ring

theorem share_bank (hstd : std = .lpddr4 ∨ std = .lpddr5) (hdiv : 0 ∉ s.divisors std) :
    s.share std d .REFB = d.v * commandCharge std s d .REFB := by
  have hB := banks_ne hdiv
  have hpb : s.t_RFCpb ≠ 0 := fun h => hdiv (by unfold PowerSpec.divisors; rcases hstd with rfl | rfl <;> rw [h] <;> simp)
  have he : s.eRefPerBank std d 1 = E_ref_pb d.v (s.I5PB_B d) (s.I_1 std d) s.t_RFCpb 1 := by rcases hstd with rfl | rfl <;> rfl
  one_counter
  unfold commandCharge
  rw [he, ← bankRefresh_eq hpb, I_1_eq std s d hB, show (s.tRFCpb : Rat) * s.tCK = s.t_RFCpb from rfl]
  unfold E_ref_pb
  push_cast
  ring

theorem share_two (hdiv : 0 ∉ s.divisors .lpddr5) : (2 : Rat) * s.share .lpddr5 d .REFP2B = d.v * commandCharge .lpddr5 s d .REFP2B := by
  have hB := banks_ne hdiv
  have hpb : s.t_RFCpb ≠ 0 := fun h => hdiv (by unfold PowerSpec.divisors; rw [h]; simp)
  one_counter
  unfold commandCharge eRefTwo
  rw [← bankRefresh_eq hpb, ← I_2_eq .lpddr5 s d hB, show (s.tRFCpb : Rat) * s.tCK = s.t_RFCpb from rfl]
  unfold E_ref_half
  push_cast
  ring

theorem share_dual (hdiv : 0 ∉ s.divisors .lpddr6) : (2 : Rat) * s.share .lpddr6 d .REFDB = d.v * commandCharge .lpddr6 s d .REFDB := by
  have hB := banks_ne hdiv
  have hpb : s.t_RFCpb ≠ 0 := fun h => hdiv (by unfold PowerSpec.divisors; rw [h]; simp)
  one_counter
  unfold commandCharge eRefDual
  rw [← bankRefresh_eq hpb, ← I_2_eq .lpddr6 s d hB, show (s.tRFCpb : Rat) * s.tCK = s.t_RFCpb from rfl]
  unfold E_ref_half
  push_cast
  ring

theorem share_rw (hdiv : 0 ∉ s.divisors std) (hbl : s.dataRate ∣ s.burstLength) :
    s.share std d .RD = d.v * commandCharge std s d .RD ∧ s.share std d .RDA = d.v * commandCharge std s d .RD ∧
    s.share std d .WR = d.v * commandCharge std s d .WR ∧ s.share std d .WRA = d.v * commandCharge std s d .WR := by
  refine ⟨?_, ?_, ?_, ?_⟩ <;> one_counter
  · exact eRead_one hdiv hbl
  · exact eRead_one hdiv hbl
  · exact eWrite_one hdiv hbl
  · exact eWrite_one hdiv hbl

end PowerSpec

/-- All banks a command targets together move its charge. -/
theorem share_sum (hf : Fits std ms s) (hv : ValidSpec std ms) (hdiv : 0 ∉ s.divisors std) {c : Cmd} (hs : supports std c.type = true)
    (hin : inRange ms c) :
    ((List.range ms.numberOfBanks).map fun b => if targets ms c b = true then s.share std d c.type else 0).sum =
      d.v * commandCharge std s d c.type := by
  rw [sum_ite]
  obtain ⟨r1, r2, w1, w2⟩ := PowerSpec.share_rw (d := d) hdiv hf.burst
  have one : c.bank < ms.numberOfBanks → (targets ms c = fun b => b == c.bank) →
      ((List.range ms.numberOfBanks).countP (targets ms c) : Rat) = 1 := by
    intro h1 h2
    rw [h2, countP_eq, if_pos h1, Nat.cast_one]
  have all : (targets ms c = fun _ => true) → ((List.range ms.numberOfBanks).countP (targets ms c) : Rat) = s.banks := by
    intro h
    rw [h, hf.banks]
    simp
  cases hc : c.type
  case ACT => rw [one (by simpa [inRange, hc] using hin) (by funext b; simp [targets, hc]), one_mul, PowerSpec.share_act hdiv]
  case RD => rw [one (by simpa [inRange, hc] using hin) (by funext b; simp [targets, hc]), one_mul, r1]
  case RDA => rw [one (by simpa [inRange, hc] using hin) (by funext b; simp [targets, hc]), one_mul, r2]; rfl
  case WR => rw [one (by simpa [inRange, hc] using hin) (by funext b; simp [targets, hc]), one_mul, w1]
  case WRA => rw [one (by simpa [inRange, hc] using hin) (by funext b; simp [targets, hc]), one_mul, w2]; rfl
  case REFA => rw [all (by funext b; simp [targets, hc]), PowerSpec.share_all hdiv]
  case SREFEN => rw [all (by funext b; simp [targets, hc]), show s.share std d .SREFEN = s.share std d .REFA from rfl, PowerSpec.share_all hdiv]; rfl
  case REFB =>
    rw [one (by simpa [inRange, hc] using hin) (by funext b; simp [targets, hc]), one_mul, PowerSpec.share_bank _ hdiv]
    simpa [supports, hc] using hs
  case REFSB =>
    have h5 : std = .ddr5 := by simpa [supports, hc] using hs
    subst h5
    have hp : 0 < ms.banksPerGroup := Nat.pos_of_ne_zero fun h => by
      have := hv.groups rfl; rw [h, Nat.mul_zero] at this; have := hv.banks; omega
    rw [show targets ms c = fun b => b % ms.banksPerGroup == c.bank % ms.banksPerGroup by funext b; simp [targets, hc], hv.groups rfl,
      countP_mod _ _ _ (Nat.mod_lt _ hp), ← hf.groups rfl, PowerSpec.share_same hdiv]
  case REFP2B =>
    have h5 : std = .lpddr5 := by simpa [supports, hc] using hs
    subst h5
    obtain ⟨i1, i2, i3, _⟩ : c.bank < ms.numberOfBanks ∧ (c.bank + ms.perTwoBankOffset) % 16 < ms.numberOfBanks ∧
      (c.bank + ms.perTwoBankOffset) % 16 ≠ c.bank ∧ ms.bankArch ≠ .m8b := by simpa [inRange, hc] using hin
    rw [show targets ms c = fun b => b == c.bank || b == (c.bank + ms.perTwoBankOffset) % 16 by funext b; simp [targets, hc],
      countP_two _ _ _ (Ne.symm i3), if_pos i1, if_pos i2]
    exact_mod_cast PowerSpec.share_two hdiv
  case REFDB =>
    have h6 : std = .lpddr6 := by simpa [supports, hc] using hs
    subst h6
    obtain ⟨i1, i2, i3⟩ : c.bank < ms.numberOfBanks ∧ c.dbank < ms.numberOfBanks ∧ c.dbank ≠ c.bank := by simpa [inRange, hc] using hin
    rw [show targets ms c = fun b => b == c.bank || b == c.dbank by funext b; simp [targets, hc],
      countP_two _ _ _ (Ne.symm i3), if_pos i1, if_pos i2]
    exact_mod_cast PowerSpec.share_dual hdiv
  all_goals simp only [PowerSpec.share, commandCharge, mul_zero]

/-- The commands of a rank. -/
theorem commands_sum (hf : Fits std ms s) (hv : ValidSpec std ms) (hdiv : 0 ∉ s.divisors std) (h : List Cmd)
    (hs : ∀ c ∈ h, supports std c.type = true ∧ inRange ms c) :
    ((List.range ms.numberOfBanks).map fun b => s.cmdEnergy std d (tally ms h b)).sum =
      d.v * (h.map fun c => commandCharge std s d c.type).sum := by
  simp only [PowerSpec.cmdEnergy_tally]
  rw [sum_comm, ← sum_mul_left]
  congr 1
  refine List.map_congr_left fun c hc => ?_
  exact share_sum hf hv hdiv (hs c hc).1 (hs c hc).2

/-- Every command of a legal sequence exists. -/
theorem legal_supports {h : List Cmd} : ∀ {σ now}, TameFrom std ms σ now h → ∀ c ∈ h, supports std c.type = true ∧ inRange ms c := by
  induction h with
  | nil => intro σ now _ c hc; cases hc
  | cons a h ih =>
    rintro σ now ⟨_, ⟨⟨h1, h2, _⟩, _⟩, h4⟩ c hc
    rcases List.mem_cons.1 hc with rfl | hc
    · exact ⟨h1, h2⟩
    · exact ih h4 c hc

/-- Deep sleep is entered by command. -/
theorem apply_dsm {σ : State} {c : Cmd} (h : σ.mode ≠ .dsm) (hc : c.type ≠ .DSMEN) : (apply std ms σ c).mode ≠ .dsm := by
  have hs : (σ.settle c.t).mode ≠ .dsm := by
    show σ.mode.settle c.t ≠ _
    unfold Mode.settle
    split
    · split <;> simp
    · exact h
  unfold apply
  cases ht : c.type <;> simp only [State.onBanks] <;> first | exact absurd ht hc | exact hs | skip
  all_goals first | simp; done | (split <;> first | simp; done | exact hs)

theorem foldl_dsm {h : List Cmd} (hn : ∀ c ∈ h, c.type ≠ .DSMEN) : ∀ {σ : State}, σ.mode ≠ .dsm → (h.foldl (apply std ms) σ).mode ≠ .dsm := by
  induction h with
  | nil => intro σ hσ; exact hσ
  | cons a h ih =>
    intro σ hσ
    exact ih (fun c hc => hn c (by simp [hc])) (apply_dsm hσ (hn a (by simp)))

theorem rankCategory_dsm {h : List Cmd} (hn : ∀ c ∈ h, c.type ≠ .DSMEN) (τ : Nat) : rankCategory std ms h τ ≠ .dsm := by
  have := foldl_dsm (std := std) (ms := ms) (h := h.filter (·.t ≤ τ)) (fun c hc => hn c (List.mem_filter.1 hc).1) (σ := {}) (by simp)
  unfold rankCategory rankCat stateAt
  generalize (h.filter (·.t ≤ τ)).foldl (apply std ms) {} = σ at this
  unfold Mode.low
  cases hm : σ.mode with
  | normal => simp only [Option.getD_none]; split <;> simp
  | pd a e x => simp only; split <;> [(cases a <;> simp); (simp only [Option.getD_none]; split <;> simp)]
  | sref a => simp only; split <;> [simp; (simp only [Option.getD_none]; split <;> simp)]
  | dsm => exact absurd hm this

theorem active_zero {h : List Cmd} {τ : Nat} (hk : rankCategory std ms h τ ≠ .act) : activeCount std ms h τ = 0 := by
  unfold activeCount
  rw [List.countP_eq_zero]
  intro b hb
  have := mt (C02_timeline_union std ms h τ).2 hk
  simp only [decide_eq_true_eq]
  exact fun e => this ⟨b, List.mem_range.1 hb, e⟩

theorem bankTime_succ (h : List Cmd) (b : Nat) (k : Cat) (t : Nat) :
    bankTime std ms h b k (t + 1) = bankTime std ms h b k t + if category std ms h b t = k then 1 else 0 := by
  unfold bankTime
  rw [List.range_succ, List.countP_append, List.countP_singleton]
  simp

theorem rankTime_succ (h : List Cmd) (k : Cat) (t : Nat) :
    rankTime std ms h k (t + 1) = rankTime std ms h k t + if rankCategory std ms h t = k then 1 else 0 := by
  unfold rankTime
  rw [List.range_succ, List.countP_append, List.countP_singleton]
  simp

/-- Time spent by all banks in the active state. -/
theorem activeTime_succ (h : List Cmd) (t : Nat) :
    ((List.range ms.numberOfBanks).map fun b => (bankTime std ms h b .act (t + 1) : Rat)).sum =
      ((List.range ms.numberOfBanks).map fun b => (bankTime std ms h b .act t : Rat)).sum + (activeCount std ms h t : Rat) := by
  unfold activeCount
  induction (List.range ms.numberOfBanks) with
  | nil => simp
  | cons a L ih =>
    rw [List.map_cons, List.map_cons, List.sum_cons, List.sum_cons, ih, List.countP_cons, bankTime_succ]
    by_cases hc : category std ms h a t = .act
    · simp [hc]; ring
    · simp [hc]; ring

/-- The background of a rank. -/
theorem background_sum (hB : (s.banks : Rat) ≠ 0) (h : List Cmd) (t : Nat) :
    backgroundCharge std ms s d h 0 t =
      (d.i2n * (rankTime std ms h .pre t : Rat) + s.I_rho std d * (rankTime std ms h .act t : Rat) +
        (s.I_1 std d - s.I_rho std d) * ((List.range ms.numberOfBanks).map fun b => (bankTime std ms h b .act t : Rat)).sum +
        d.i3p * (rankTime std ms h .pda t : Rat) + d.i2p * (rankTime std ms h .pdp t : Rat) +
        d.i6n * (rankTime std ms h .sref t : Rat) + d.i6ds * (rankTime std ms h .dsm t : Rat)) * s.tCK := by
  unfold backgroundCharge
  rw [Nat.sub_zero, ← List.range_eq_range']
  induction t with
  | zero => simp [rankTime, bankTime]
  | succ t ih =>
    rw [List.range_succ, List.map_append, List.sum_append, ih, activeTime_succ]
    simp only [rankTime_succ, List.map_singleton, List.sum_singleton]
    by_cases ha : rankCategory std ms h t = .act
    · simp only [ha, stateCurrent]
      rw [PowerSpec.background_lin std s d hB]
      simp; ring
    · rw [active_zero ha]
      cases hk : rankCategory std ms h t
      · exact absurd hk ha
      all_goals simp [stateCurrent]; ring

end DRAMPower
