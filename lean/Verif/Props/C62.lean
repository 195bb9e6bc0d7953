import Verif.Props.C31
import Verif.Props.C61

/-! # C62: Non-negative and monotone with `double`

Full statement: with sane currents every part of the energy computed with `double` is not negative, and more commands and cycles never
decrease it. It fails for the background of active banks (`C62_violation`), and it is proved for the parts computed from the currents of the
specification directly and for all shared parts (`C62_partial`). For the others `C61_bank` bounds how far below zero they can be.
-/

namespace DRAMPower
open Spec

/-- `0 ≤ a ≤ b`. -/
def Inc (a b : Rat) : Prop := 0 ≤ a ∧ a ≤ b

namespace Inc

variable {fl : Rat → Rat} {a a' b b' : Rat}

theorem refl (h : 0 ≤ a) : Inc a a := ⟨h, le_refl a⟩

theorem round (hf : Rounds fl) (hm : ∀ x y, x ≤ y → fl x ≤ fl y) (h : Inc a b) : Inc (fl a) (fl b) := by
  refine ⟨?_, hm _ _ h.2⟩
  have h1 := hf a
  have h0 := h.1
  rw [abs_of_nonneg h0, abs_le] at h1
  have : a / 2 ^ 53 ≤ a := by
    rw [div_le_iff₀ (by norm_num)]
    nlinarith
  linarith [h1.1]

theorem mul (hf : Rounds fl) (hm : ∀ x y, x ≤ y → fl x ≤ fl y) (h : Inc a b) (h' : Inc a' b') : Inc (fl (a * a')) (fl (b * b')) :=
  round hf hm ⟨mul_nonneg h.1 h'.1, mul_le_mul h.2 h'.2 h'.1 (le_trans h.1 h.2)⟩

theorem add (hf : Rounds fl) (hm : ∀ x y, x ≤ y → fl x ≤ fl y) (h : Inc a b) (h' : Inc a' b') : Inc (fl (a + a')) (fl (b + b')) :=
  round hf hm ⟨add_nonneg h.1 h'.1, add_le_add h.2 h'.2⟩

theorem nat (hf : Rounds fl) (hm : ∀ x y, x ≤ y → fl x ≤ fl y) {m n : Nat} (h : m ≤ n) : Inc (fl m) (fl n) :=
  round hf hm ⟨Nat.cast_nonneg m, Nat.cast_le.2 h⟩

theorem div (hf : Rounds fl) (hm : ∀ x y, x ≤ y → fl x ≤ fl y) (ha : 0 ≤ a) (hb : 0 ≤ b) : Inc (fl (a / b)) (fl (a / b)) :=
  round hf hm (refl (div_nonneg ha hb))

theorem foldl {α : Type} (hf : Rounds fl) (hm : ∀ x y, x ≤ y → fl x ≤ fl y) {f g : α → Rat} : ∀ (L : List α) {a b : Rat},
    (∀ x ∈ L, Inc (f x) (g x)) → Inc a b → Inc (L.foldl (fun x p => fl (x + f p)) a) (L.foldl (fun x p => fl (x + g p)) b)
  | [], _, _, _, h => h
  | x :: L, _, _, hL, h => foldl hf hm L (fun y hy => hL y (by simp [hy])) (h.add hf hm (hL x (by simp)))

end Inc

section

variable {fl : Rat → Rat} {std : Std} {s : PowerSpec} {d : Domain}

theorem inc_direct (hf : Rounds fl) (hm : ∀ x y, x ≤ y → fl x ≤ fl y) (hs : Sane std s) (hB : s.banks ≠ 0) (hd : d ∈ s.domains)
    {bank bank' rank rank' : CycleStats} {c : Component} (hc : Direct std s c) (h : counted bank rank c ≤ counted bank' rank' c) :
    Inc (c.of ((Arith.rounded fl).bankEnergy std s d bank rank)) (c.of ((Arith.rounded fl).bankEnergy std s d bank' rank')) := by
  have sd := hs.domains d hd
  have hB' : (s.banks : Rat) ≠ 0 := Nat.cast_ne_zero.2 hB
  have v := Inc.refl sd.v
  have ck := Inc.refl hs.tCK.le
  have dur : ∀ n : Nat, Inc ((Arith.rounded fl).duration s n) ((Arith.rounded fl).duration s n) := fun n => (Inc.nat hf hm (Nat.le_refl n)).mul hf hm ck
  have num : ∀ n : Nat, 0 ≤ fl n := fun n => (Inc.nat hf hm (Nat.le_refl n)).1
  have diff : ∀ {i j : Rat}, i ≤ j → Inc (fl (j - i)) (fl (j - i)) := fun h => (Inc.refl (sub_nonneg.2 h)).round hf hm
  have pre : ∀ {m n : Nat}, m ≤ n → Inc ((Arith.rounded fl).E_pre d.v d.iBeta d.i2n ((Arith.rounded fl).duration s s.tRP) m)
      ((Arith.rounded fl).E_pre d.v d.iBeta d.i2n ((Arith.rounded fl).duration s s.tRP) n) := fun h =>
    ((v.mul hf hm (diff sd.pre)).mul hf hm (dur _)).mul hf hm (Inc.nat hf hm h)
  have iburst : std ≠ .lpddr6 ∧ ¬ (std = .lpddr5 ∧ s.arch = .mbg) → (Arith.rounded fl).I_burst std s d = d.i3n ∧ s.I_burst std d = d.i3n := by
    rintro ⟨h1, h2⟩
    cases std
    · exact ⟨rfl, rfl⟩
    · exact ⟨rfl, rfl⟩
    · exact ⟨rfl, rfl⟩
    · have h2 : ¬ s.arch = .mbg := fun h => h2 ⟨rfl, h⟩
      simp only [Arith.I_burst, PowerSpec.I_burst, if_neg h2]
      exact ⟨rfl, rfl⟩
    · exact absurd rfl h1
  have rdi := fun h => (PowerSpec.I_burst_eq std s d hB' ▸ (iburst h).2 : background std s d (burstBanks std s) = d.i3n) ▸ sd.rd
  have wri := fun h => (PowerSpec.I_burst_eq std s d hB' ▸ (iburst h).2 : background std s d (burstBanks std s) = d.i3n) ▸ sd.wr
  have burst : ∀ {i t : Rat} {m n : Nat}, d.i3n ≤ i → 0 ≤ t → m ≤ n →
      Inc ((Arith.rounded fl).E_burst d.v i d.i3n t s.burstLength s.dataRate m)
        ((Arith.rounded fl).E_burst d.v i d.i3n t s.burstLength s.dataRate n) := fun h1 h2 h =>
    (((v.mul hf hm (diff h1)).mul hf hm (Inc.nat hf hm (Nat.le_refl _))).mul hf hm (Inc.refl h2)).mul hf hm (Inc.nat hf hm h)
  have ddr : ∀ {m n : Nat}, d.i3n ≤ d.i4r → m ≤ n →
      Inc ((Arith.rounded fl).E_RD_ddr d.v d.i4r d.i3n s.tCK s.burstLength s.dataRate m)
        ((Arith.rounded fl).E_RD_ddr d.v d.i4r d.i3n s.tCK s.burstLength s.dataRate n) := fun h1 h =>
    (((v.mul hf hm (diff h1)).mul hf hm (Inc.div hf hm (num _) (num _))).mul hf hm ck).mul hf hm (Inc.nat hf hm h)
  have tb : 0 ≤ s.tBurst std := by cases std <;> first | exact hs.tCK.le | exact hs.tWCK
  have rd : std ≠ .lpddr6 ∧ ¬ (std = .lpddr5 ∧ s.arch = .mbg) → ∀ {m n : Nat}, m ≤ n →
      Inc ((Arith.rounded fl).eRead std s d m) ((Arith.rounded fl).eRead std s d n) := fun h0 m n h => by
    have hr := rdi h0
    unfold Arith.eRead
    rw [(iburst h0).1]
    cases std
    · exact ddr hr h
    · exact ddr hr h
    · exact burst hr tb h
    · exact burst hr tb h
    · exact burst hr tb h
  have wr : std ≠ .lpddr6 ∧ ¬ (std = .lpddr5 ∧ s.arch = .mbg) → ∀ {m n : Nat}, m ≤ n →
      Inc ((Arith.rounded fl).eWrite std s d m) ((Arith.rounded fl).eWrite std s d n) := fun h0 m n h => by
    unfold Arith.eWrite
    rw [(iburst h0).1]
    exact burst (wri h0) tb h
  have zero : Inc 0 0 := Inc.refl (le_refl 0)
  cases c
  case act => exact hc.elim
  case bgAct => exact hc.elim
  case pre => exact pre h
  case preRda => exact pre h
  case preWra => exact pre h
  case bgPre =>
    exact (((Inc.div hf hm zero_le_one (num _)).mul hf hm v).mul hf hm (Inc.refl sd.i2n)).mul hf hm ((Inc.nat hf hm h).mul hf hm ck)
  case rd => exact rd hc h
  case rda => exact rd hc h
  case wr => exact wr hc h
  case wra => exact wr hc h
  case refAb =>
    have hi := sd.ref
    rw [← PowerSpec.I_B_eq std s d hB'] at hi
    rcases hc with rfl | rfl <;>
    exact ((((Inc.div hf hm zero_le_one (num _)).mul hf hm v).mul hf hm (diff hi)).mul hf hm (dur _)).mul hf hm (Inc.nat hf hm h)
  case refPb => cases std <;> first | exact zero | exact absurd rfl hc.1 | exact absurd rfl hc.2
  case refSb => cases std <;> first | exact zero | exact absurd rfl hc
  case ref2b => cases std <;> first | exact zero | exact absurd rfl hc
  case refDb => cases std <;> first | exact zero | exact absurd rfl hc

theorem inc_shared (hf : Rounds fl) (hm : ∀ x y, x ≤ y → fl x ≤ fl y) (hs : Sane std s) (hd : d ∈ s.domains)
    {rank rank' : CycleStats} {c : SharedComponent} (h : sharedCounted rank c ≤ sharedCounted rank' c) :
    Inc (c.of ((Arith.rounded fl).rankEnergy std s d rank)) (c.of ((Arith.rounded fl).rankEnergy std s d rank')) := by
  have sd := hs.domains d hd
  have v := Inc.refl sd.v
  have ck := Inc.refl hs.tCK.le
  have dev := Inc.nat hf hm (Nat.le_refl s.devices)
  have i3n : 0 ≤ d.i3n := le_trans sd.i2n sd.i3n
  have state : ∀ {i : Rat} {m n : Nat}, 0 ≤ i → m ≤ n → Inc ((Arith.rounded fl).eState s d.v i m) ((Arith.rounded fl).eState s d.v i n) :=
    fun hi h => (((v.mul hf hm (Inc.refl hi)).mul hf hm (Inc.nat hf hm h)).mul hf hm ck).mul hf hm dev
  have t1 : Inc ((Arith.rounded fl).t1 s) ((Arith.rounded fl).t1 s) := (Inc.nat hf hm (Nat.le_refl _)).mul hf hm (Inc.refl hs.rho0)
  have t2 : Inc ((Arith.rounded fl).t2 s) ((Arith.rounded fl).t2 s) :=
    Inc.round (fl := fl) hf hm (Inc.refl (sub_nonneg.2 hs.rho1))
  have rho : 0 ≤ (Arith.rounded fl).I_rho std s d := by
    have ddr := (((Inc.refl hs.rho0).mul hf hm ((Inc.refl (sub_nonneg.2 sd.i3n)).round hf hm)).add hf hm (Inc.refl sd.i2n)).1
    have lp := (Inc.div hf hm ((t1.mul hf hm (Inc.refl i3n)).add hf hm (t2.mul hf hm (Inc.refl sd.i2n))).1 (t1.add hf hm t2).1).1
    cases std
    · exact ddr
    · exact ddr
    · exact lp
    · exact lp
    · exact lp
  have zero : Inc 0 0 := Inc.refl (le_refl 0)
  cases c
  case bgActShared => exact ((v.mul hf hm (Inc.refl rho)).mul hf hm ((Inc.nat hf hm h).mul hf hm ck)).mul hf hm dev
  case pdnA => exact state sd.i3p h
  case pdnP => exact state sd.i2p h
  case sref => exact state sd.i6n h
  case dsm => cases std <;> first | exact zero | exact state sd.i6ds h
  case refab => exact zero

end

/-- The parts computed from the currents of the specification directly, and all shared parts, are not negative, and more commands and cycles
do not decrease them, for every rounding that keeps the order. Missing: the activation energy, the background of active banks, and bursts and
refreshes whose background is computed from several currents. -/
theorem C62_partial (fl : Rat → Rat) (hf : Rounds fl) (hm : ∀ x y, x ≤ y → fl x ≤ fl y) (std : Std) (s : PowerSpec) (hs : Sane std s)
    (a b : SimStats) (ea eb : Energy) (ha : (Arith.rounded fl).calcEnergy std s a = .ok ea) (hb : (Arith.rounded fl).calcEnergy std s b = .ok eb)
    (h1 : ∀ i c, coreAt a.bank i c ≤ coreAt b.bank i c) (h2 : ∀ i c, coreAt a.rankTotal i c ≤ coreAt b.rankTotal i c) :
    (∀ i c, Direct std s c → 0 ≤ entry ea i c ∧ entry ea i c ≤ entry eb i c) ∧
      ∀ c : SharedComponent, 0 ≤ c.of ea.shared ∧ c.of ea.shared ≤ c.of eb.shared := by
  have ca := (Arith.rounded fl).calc_closed ha
  have cb := (Arith.rounded fl).calc_closed hb
  have hcount : ∀ r k c, counted (a.bank.getD (s.statsIndex r k) {}) (a.rankTotal.getD r {}) c ≤
      counted (b.bank.getD (s.statsIndex r k) {}) (b.rankTotal.getD r {}) c := by
    intro r k c
    cases c
    case act => exact h1 _ .act
    case pre => exact h1 _ .pre
    case bgAct => exact h1 _ .cyclesAct
    case bgPre => exact h2 _ .cyclesPre
    case rd => exact h1 _ .reads
    case wr => exact h1 _ .writes
    case rda => exact h1 _ .readAuto
    case wra => exact h1 _ .writeAuto
    case preRda => exact h1 _ .readAuto
    case preWra => exact h1 _ .writeAuto
    case refAb => exact h1 _ .refAllBank
    case refPb => exact h1 _ .refPerBank
    case refSb => exact h1 _ .refSameBank
    case ref2b => exact h1 _ .refPerTwoBanks
    case refDb => exact h1 _ .refDualBanks
  have hshared : ∀ r c, sharedCounted (a.rankTotal.getD r {}) c ≤ sharedCounted (b.rankTotal.getD r {}) c := by
    intro r c
    cases c
    case bgActShared => exact h2 _ .cyclesAct
    case pdnA => exact h2 _ .powerDownAct
    case pdnP => exact h2 _ .powerDownPre
    case sref => exact h2 _ .selfRefresh
    case dsm => exact h2 _ .deepSleepMode
    case refab => exact Nat.le_refl _
  refine ⟨fun i c hc => ?_, fun c => ?_⟩
  · by_cases hi : i < s.ranks * s.devices * s.banks
    · obtain ⟨r, d, k, hr, hd, hk, rfl⟩ := s.energyIndex_surj hi
      rw [ca.bank r d k hr hd hk, cb.bank r d k hr hd hk]
      exact Inc.foldl hf hm s.domains (fun dom hdom => inc_direct hf hm hs (by omega) hdom hc (hcount r k c)) (Inc.refl (le_refl 0))
    · have hz : ∀ e : Energy, e.bank.length = s.ranks * s.devices * s.banks → entry e i c = 0 := fun e he => by
        unfold entry
        rw [List.getD_eq_getElem?_getD, List.getElem?_eq_none (by omega)]
        exact Component.of_zero c
      rw [hz ea ca.length, hz eb cb.length]
      exact ⟨le_refl 0, le_refl 0⟩
  · rw [ca.shared, cb.shared]
    refine Inc.foldl hf hm _ (fun p hp => inc_shared hf hm hs ?_ (hshared p.2 c)) (Inc.refl (le_refl 0))
    unfold Arith.visits at hp
    obtain ⟨d, hd, hp⟩ := List.mem_flatMap.1 hp
    obtain ⟨r, -, rfl⟩ := List.mem_map.1 hp
    exact hd

/-- `decimalSpec` is sane. -/
theorem decimal_sane : Sane .ddr4 decimalSpec := by
  have h : ∀ d ∈ decimalSpec.domains, SaneDomain .ddr4 decimalSpec d := by
    intro d hd
    unfold decimalSpec at hd
    simp only [List.mem_cons, List.not_mem_nil, or_false] at hd
    rcases hd with rfl | rfl <;> constructor <;> decide +kernel
  exact ⟨by decide +kernel, by decide +kernel, by decide +kernel, by decide +kernel, h⟩

/-- Its calculation succeeds, longer and shorter. -/
example : (∀ x y, x ≤ y → Arith.double x ≤ Arith.double y) ∧
    (match (Arith.rounded Arith.double).calcEnergy .ddr4 decimalSpec (decimalStats 1000) with
      | .ok e => decide (0 < entry e 0 .rd ∧ 0 < SharedComponent.of e.shared .bgActShared)
      | .error _ => false) = true ∧ Direct .ddr4 decimalSpec .rd :=
  ⟨C61_double.2.2.2, by decide +kernel, by decide, by decide⟩

/-- The background of an active bank: the exact energy is zero, the reported one is negative, and it decreases the longer the bank is active,
though the currents and voltages of the specification are sane and representable. -/
theorem C62_violation : Sane .ddr4 decimalSpec ∧
    (∀ d ∈ decimalSpec.domains, ∀ i ∈ d.v :: currents d, Arith.double i = i) ∧
    (match decimalSpec.calcEnergy .ddr4 (decimalStats 1000) with
      | .ok e => decide (entry e 0 .bgAct = 0)
      | .error _ => false) = true ∧
    (match (Arith.rounded Arith.double).calcEnergy .ddr4 decimalSpec (decimalStats 1000),
        (Arith.rounded Arith.double).calcEnergy .ddr4 decimalSpec (decimalStats 2000) with
      | .ok e, .ok e' => decide (entry e 0 .bgAct < 0 ∧ entry e' 0 .bgAct < entry e 0 .bgAct)
      | _, _ => false) = true :=
  ⟨decimal_sane, by decide +kernel, by decide +kernel, by decide +kernel⟩

end DRAMPower
