import Verif.Spec.Leakage
import Verif.Props.C67
import Verif.Props.C75
import Verif.Props.C82

/-!
# C83: a current that always flows costs voltage times current times elapsed time

* `C83_statistics`: for all statistics the energies of commands stay the same, and the total grows by voltage times current times the
  times reported for the ranks.
* `C83_partial`: of a simulation, for traces without the power-down situations of `benignCmd`: voltage times current times window, for
  every device of every rank. Full statement `C83_statement`: for every legal trace, refuted by `C83_violation` (not DDR4).
* `C83_ddr4`, `C83_noActivePowerDown`: the full statement.
-/

namespace DRAMPower
open Spec

/-! ## One bank, one rank -/

namespace PowerSpec
variable {std : Std} {s : PowerSpec} {d : Domain} {x : Rat}

/-- The domain with the additional current. -/
def _root_.DRAMPower.Domain.leak (x : Rat) (d : Domain) : Domain :=
  { v := d.v, i0 := d.i0 + x, i2n := d.i2n + x, i3n := d.i3n + x, i2p := d.i2p + x, i3p := d.i3p + x, i4r := d.i4r + x, i4w := d.i4w + x,
    i5x := d.i5x + x, i5c := d.i5c + x, i5pb := d.i5pb + x, i6n := d.i6n + x, i6ds := d.i6ds + x, iBeta := d.iBeta + x }

section
variable (hd : 0 ∉ s.divisors std)
include hd

theorem leak_banks : (s.banks : Rat) ≠ 0 := fun h => hd (by unfold divisors; rw [h]; exact List.mem_cons_self)
theorem leak_ras : s.t_RAS ≠ 0 := fun h => hd (by
  unfold divisors; rw [h]; exact List.mem_cons_of_mem _ (List.mem_cons_of_mem _ List.mem_cons_self))

theorem leak_rho : s.I_rho std (d.leak x) = s.I_rho std d + x := by
  cases std
  case ddr4 => simp only [I_rho, Domain.leak]; ring
  case ddr5 => simp only [I_rho, Domain.leak]; ring
  all_goals
    have h : (s.banks : Rat) * s.rho + (1 - s.rho) ≠ 0 := fun h => hd (by simp [divisors, h])
    simp only [I_rho, Domain.leak]
    rw [div_add' _ _ _ h]
    congr 1
    ring

theorem leak_one : s.I_1 std (d.leak x) = s.I_1 std d + x := by
  have h1 := leak_rho (d := d) (x := x) hd
  have hb := leak_banks hd
  have hc : ((s.banks - 1 : Nat) : Rat) = s.banks - 1 := by
    have : 1 ≤ s.banks := Nat.one_le_iff_ne_zero.2 fun h => hb (by rw [h]; rfl)
    push_cast [this]
    ring
  cases std
  case ddr4 => simp only [I_1, h1, hc]; simp only [Domain.leak]; field_simp; ring
  case ddr5 => simp only [I_1, h1, hc]; simp only [Domain.leak]; field_simp; ring
  all_goals rfl

theorem leak_all : s.I_B std (d.leak x) = s.I_B std d + x := by
  cases std <;> simp only [I_B, leak_rho hd, leak_one hd] <;> first | rfl | ring
theorem leak_two : s.I_2 std (d.leak x) = s.I_2 std d + x := by
  rw [I_2, leak_one hd, leak_rho hd, I_2]; ring
theorem leak_group : s.I_BG std (d.leak x) = s.I_BG std d + x := by
  rw [I_BG, leak_one hd, leak_rho hd, I_BG]; ring
theorem leak_theta : s.I_theta (d.leak x) = s.I_theta d + x := by
  have := leak_ras hd
  simp only [I_theta, Domain.leak]; field_simp; ring
theorem leak_part (h : std = .lpddr4 ∨ std = .lpddr5 ∨ std = .lpddr6) : s.I5PB_B (d.leak x) = s.I5PB_B d + x := by
  have h0 : s.t_RFCpb ≠ 0 := fun h0 => hd (by rcases h with rfl | rfl | rfl <;> simp [divisors, h0])
  simp only [I5PB_B, Domain.leak]; field_simp; ring
theorem leak_burst : s.I_burst std (d.leak x) = s.I_burst std d + x := by
  cases std <;> simp only [I_burst, leak_all hd, leak_one hd, leak_two hd]
  split <;> rfl

/-- The components of a bank: only the background of the precharged rank. -/
theorem bank_leak (bank rank : CycleStats) (m : Component) :
    m.of (s.bankEnergy std (d.leak x) bank rank) =
      m.of (s.bankEnergy std d bank rank) + if m = .bgPre then (1 / (s.banks : Rat)) * d.v * x * ((rank.cycles.pre : Rat) * s.tCK) else 0 := by
  have e1 : (d.leak x).v = d.v := rfl
  have e2 : (d.leak x).iBeta = d.iBeta + x := rfl
  have e3 : (d.leak x).i2n = d.i2n + x := rfl
  have e4 : (d.leak x).i5x = d.i5x + x := rfl
  have e5 : (d.leak x).i4r = d.i4r + x := rfl
  have e6 : (d.leak x).i4w = d.i4w + x := rfl
  have e7 : (d.leak x).i5c = d.i5c + x := rfl
  cases m <;> simp only [Component.of, bankEnergy, reduceCtorEq, if_false, if_true]
  case rd => cases std <;> simp only [eRead, E_RD_ddr, E_burst, leak_burst hd, e1, e5] <;> ring
  case rda => cases std <;> simp only [eRead, E_RD_ddr, E_burst, leak_burst hd, e1, e5] <;> ring
  case refPb =>
    cases std
    case lpddr4 => simp only [eRefPerBank, E_ref_pb, leak_part hd (.inl rfl), leak_one hd, e1]; ring
    case lpddr5 => simp only [eRefPerBank, E_ref_pb, leak_part hd (.inr (.inl rfl)), leak_one hd, e1]; ring
    all_goals simp only [eRefPerBank]; ring
  case refSb => cases std <;> simp only [eRefSame, E_ref_sb, leak_group hd, e1, e7] <;> ring
  case ref2b =>
    cases std
    case lpddr5 => simp only [eRefTwo, E_ref_half, leak_part hd (.inr (.inl rfl)), leak_two hd, e1]; ring
    all_goals simp only [eRefTwo]; ring
  case refDb =>
    cases std
    case lpddr6 => simp only [eRefDual, E_ref_half, leak_part hd (.inr (.inr rfl)), leak_two hd, e1]; ring
    all_goals simp only [eRefDual]; ring
  all_goals
    simp only [E_act, E_pre, E_BG_act_star, E_BG_pre, eWrite, E_burst, E_ref_ab, leak_theta hd, leak_one hd, leak_rho hd, leak_burst hd,
      leak_all hd, e1, e2, e3, e4, e6]
    ring

/-- The shared components together. -/
theorem rank_leak (rank : CycleStats) : sharedTotal (s.rankEnergy std (d.leak x) rank) =
    sharedTotal (s.rankEnergy std d rank) + (s.devices : Rat) * (d.v * x * (((rank.cycles.act + rank.cycles.powerDownAct + rank.cycles.powerDownPre +
      rank.cycles.selfRefresh + if std = .lpddr5 ∨ std = .lpddr6 then rank.cycles.deepSleepMode else 0 : Nat) : Rat) * s.tCK)) := by
  have h := leak_rho (d := d) (x := x) hd
  cases std <;>
    simp only [sharedTotal, SharedComponent.all, SharedComponent.of, List.map_cons, List.map_nil, List.sum_cons, List.sum_nil, rankEnergy, eDsm,
      E_BG_act_shared, h, reduceCtorEq, or_false, or_true, if_true, if_false] <;>
    simp only [Domain.leak] <;> push_cast <;> ring

/-- A rank and a voltage domain. -/
theorem rankSum_leak (stats : SimStats) (r : Nat) : s.rankSum std stats r (d.leak x) =
    s.rankSum std stats r d + (s.devices : Rat) * (d.v * x * ((chargedCycles std (stats.rankTotal.getD r {}).cycles : Rat) * s.tCK)) := by
  have hb := leak_banks hd
  have hk : ∀ b, bankTotal (s.contrib std stats r b (d.leak x)) =
      bankTotal (s.contrib std stats r b d) + (1 / (s.banks : Rat)) * d.v * x * (((stats.rankTotal.getD r {}).cycles.pre : Rat) * s.tCK) := by
    intro b
    unfold contrib bankTotal
    have : ∀ m ∈ Component.all.filter Component.counted, m.of (s.bankEnergy std (d.leak x) (stats.bank.getD (s.statsIndex r b) {}) (stats.rankTotal.getD r {})) =
        m.of (s.bankEnergy std d (stats.bank.getD (s.statsIndex r b) {}) (stats.rankTotal.getD r {})) +
          if m = .bgPre then (1 / (s.banks : Rat)) * d.v * x * (((stats.rankTotal.getD r {}).cycles.pre : Rat) * s.tCK) else 0 :=
      fun m _ => bank_leak hd _ _ m
    rw [List.map_congr_left this, List.sum_map_add]
    congr 1
    generalize (1 / (s.banks : Rat)) * d.v * x * (((stats.rankTotal.getD r {}).cycles.pre : Rat) * s.tCK) = y
    rw [show Component.all.filter Component.counted =
      [.act, .pre, .bgAct, .bgPre, .rd, .wr, .rda, .wra, .refAb, .refPb, .refSb, .ref2b, .refDb] by decide]
    simp
  unfold rankSum
  rw [rank_leak hd]
  simp only [hk]
  rw [List.sum_map_add, sum_const, List.length_range]
  unfold chargedCycles
  push_cast
  field_simp
  ring

end
end PowerSpec

/-! ## Whole results -/

theorem leak_domain (std : Std) (c : Config) (x : Rat) : ((leak x c).powerSpec std).domains = (c.powerSpec std).domains.map (Domain.leak x) := by
  show (c.domains.map _).map _ = (c.domains.map _).map _
  rw [List.map_map, List.map_map]
  refine List.map_congr_left fun v _ => ?_
  have e1 : (v.iBeta.map (· + x)).getD (v.i0 + x) = v.iBeta.getD v.i0 + x := by cases v.iBeta <;> rfl
  have e2 : ∀ w : RawDomain, w.i5b = v.i5b + x → w.i5f2 = v.i5f2 + x → w.i5f4 = v.i5f4 + x → c.i5 std w = c.i5 std v + x := by
    intro w w1 w2 w3
    unfold Config.i5
    rw [w1, w2, w3]
    split
    · rfl
    · split <;> rfl
  simp only [Function.comp, Config.domain, Domain.leak, Domain.mk.injEq, true_and]
  exact ⟨e2 _ rfl rfl rfl, e1⟩

/-- All statistics: the commands cost the same, the total grows by the current for the times reported for the ranks. -/
theorem C83_statistics (std : Std) (x : Rat) (c : Config) (d : Derived) (stats : SimStats) (e : Energy) (h : c.derive std = .ok d)
    (he : d.power.calcEnergy std stats = .ok e) :
    ∃ d' e', (leak x c).derive std = .ok d' ∧ d'.core = d.core ∧ d'.power.calcEnergy std stats = .ok e' ∧
      (∀ i m, m ≠ .bgPre → entry e' i m = entry e i m) ∧
      e'.total = e.total + voltage c * x * (max 1 c.devices : Nat) *
        (((List.range c.ranks).map fun r => (chargedCycles std (stats.rankTotal.getD r {}).cycles : Rat)).sum * c.tCK) := by
  obtain ⟨d', h1, h2, h3, h4⟩ := derive_alike (c' := leak x c) h rfl rfl rfl (fun _ => rfl)
  rw [h4] at he
  have hdiv := calc_divisors he
  obtain ⟨e', he'⟩ := calc_alike (s' := (leak x c).powerSpec std) he
    (by rw [show ((leak x c).powerSpec std).divisors std = (c.powerSpec std).divisors std by cases std <;> rfl]; exact hdiv) rfl rfl
  refine ⟨d', e', h1, h2, by rw [h3]; exact he', fun i m hm => ?_, ?_⟩
  · have ce := PowerSpec.calc_closed he
    have ce' := PowerSpec.calc_closed he'
    by_cases hi : i < (c.powerSpec std).ranks * (c.powerSpec std).devices * (c.powerSpec std).banks
    · obtain ⟨r, q, b, hr, hq, hb, rfl⟩ := PowerSpec.energyIndex_surj _ hi
      refine Eq.trans (ce'.bank r q b hr hq hb m) ?_
      rw [ce.bank r q b hr hq hb, leak_domain, List.map_map]
      congr 1
      refine List.map_congr_left fun dom _ => ?_
      have hl := PowerSpec.bank_leak (d := dom) (x := x) hdiv (stats.bank.getD ((c.powerSpec std).statsIndex r b) {}) (stats.rankTotal.getD r {}) m
      rw [if_neg hm, add_zero] at hl
      refine Eq.trans ?_ hl
      cases std <;> rfl
    · have hz : ∀ y : Energy, y.bank.length = e.bank.length → entry y i m = 0 := fun y hy => by
        unfold entry
        rw [List.getD_eq_getElem?_getD, List.getElem?_eq_none (by rw [hy, ce.length]; omega)]
        exact Component.of_zero m
      rw [hz e rfl, hz e' (ce'.length.trans ce.length.symm)]
  · rw [PowerSpec.total_closed he', PowerSpec.total_closed he, leak_domain, List.map_map]
    have hk : ∀ dom ∈ (c.powerSpec std).domains, ((List.range ((leak x c).powerSpec std).ranks).map fun r =>
          ((leak x c).powerSpec std).rankSum std stats r (dom.leak x)).sum =
        ((List.range (c.powerSpec std).ranks).map fun r => (c.powerSpec std).rankSum std stats r dom).sum +
          dom.v * (x * (c.devices' : Rat) * (((List.range c.ranks).map fun r => (chargedCycles std (stats.rankTotal.getD r {}).cycles : Rat)).sum * c.tCK)) := by
      intro dom _
      have h1 : ∀ r ∈ List.range c.ranks, ((leak x c).powerSpec std).rankSum std stats r (dom.leak x) =
          (c.powerSpec std).rankSum std stats r dom +
            (c.devices' : Rat) * dom.v * x * c.tCK * (chargedCycles std (stats.rankTotal.getD r {}).cycles : Rat) := by
        intro r _
        refine Eq.trans (b := (c.powerSpec std).rankSum std stats r (dom.leak x)) (by cases std <;> rfl) ?_
        rw [PowerSpec.rankSum_leak hdiv]
        show _ + (c.devices' : Rat) * (dom.v * x * (_ * c.tCK)) = _
        ring
      show ((List.range c.ranks).map _).sum = ((List.range c.ranks).map _).sum + _
      rw [List.map_congr_left h1, List.sum_map_add, sum_mul_left]
      ring
    show ((c.powerSpec std).domains.map fun dom => ((List.range ((leak x c).powerSpec std).ranks).map fun r =>
          ((leak x c).powerSpec std).rankSum std stats r (dom.leak x)).sum).sum = _
    rw [List.map_congr_left hk, List.sum_map_add, ← devices_eq]
    congr 1
    have hv : voltage c = ((c.powerSpec std).domains.map fun dom => dom.v).sum := by
      unfold voltage
      show _ = ((c.domains.map _).map _).sum
      rw [List.map_map]
      rfl
    rw [show voltage c * x * (c.devices' : Rat) * (((List.range c.ranks).map fun r => (chargedCycles std (stats.rankTotal.getD r {}).cycles : Rat)).sum * c.tCK) =
      voltage c * (x * (c.devices' : Rat) * (((List.range c.ranks).map fun r => (chargedCycles std (stats.rankTotal.getD r {}).cycles : Rat)).sum * c.tCK)) by ring]
    rw [hv, sum_mul_right]

/-! ## A simulation -/

/-- Full statement: for every device of every rank, voltage times current times the whole window. -/
def C83_statement (std : Std) : Prop :=
  ∀ (N : Nat) (x : Rat) (c : Config) (d d' : Derived) (sp : IfSpec) (cs : List ICmd) (s0 s s1 : Simulator std N) (t : Nat) (e : Energy),
    c.derive std = .ok d → (leak x c).derive std = .ok d' → ValidSpec std d.core → LegalTrace std d.core (cs.map ICmd.core) →
    Simulator.init std N d.core sp = .ok s0 → s0.run d.core sp cs = .done s → (∀ c ∈ cs, c.t ≤ t) →
    s.calcCoreEnergy d.core sp d.power t = .ok (s1, e) →
    ∃ e', s.calcCoreEnergy d'.core sp d'.power t = .ok (s1, e') ∧
      e'.total = e.total + voltage c * x * (t * c.tCK) * ((max 1 c.devices : Nat) * c.ranks)

/-- Missing from the full statement: the active power-down situations excluded by `benignCmd` (not DDR4), for which it is false
(`C83_violation`). -/
theorem C83_partial {std : Std} {N : Nat} {x : Rat} {c : Config} {d d' : Derived} {sp : IfSpec} {cs : List ICmd} {s0 s s1 : Simulator std N} {t : Nat}
    {e : Energy} (h : c.derive std = .ok d) (h' : (leak x c).derive std = .ok d') (hv : ValidSpec std d.core)
    (ht : TameTrace std d.core (cs.map ICmd.core)) (hi : Simulator.init std N d.core sp = .ok s0) (hr : s0.run d.core sp cs = .done s)
    (hT : ∀ c ∈ cs, c.t ≤ t) (he : s.calcCoreEnergy d.core sp d.power t = .ok (s1, e)) :
    ∃ e', s.calcCoreEnergy d'.core sp d'.power t = .ok (s1, e') ∧
      e'.total = e.total + voltage c * x * (t * c.tCK) * ((max 1 c.devices : Nat) * c.ranks) := by
  obtain ⟨hc, _⟩ := simulator_init hi
  obtain ⟨hr, _⟩ := run_halves cs hr
  rw [hc] at hr
  unfold Simulator.calcCoreEnergy at he
  obtain ⟨⟨a, st⟩, ha, he⟩ := bind_ok he
  obtain ⟨ea, hea, he⟩ := bind_ok he
  cases pure_ok he
  obtain ⟨bx, rx⟩ := window_lists (simulator_stats ha)
  have hlen := ranks_of_ok hea
  obtain ⟨d2, e', k1, k2, k3, _, k5⟩ := C83_statistics std x c d st e h hea
  cases h'.symm.trans k1
  refine ⟨e', ?_, ?_⟩
  · unfold Simulator.calcCoreEnergy
    rw [k2, ha]
    show (do let e ← d'.power.calcEnergy std st; pure (s1, e)) = _
    rw [k3]
    rfl
  · rw [k5]
    obtain ⟨g, l, _, _, _, rfl⟩ := Config.derive_ok h
    have hk : ∀ i ∈ List.range c.ranks, (chargedCycles std (st.rankTotal.getD i {}).cycles : Rat) = t := by
      intro i hi
      have hi : i < (c.coreSpec std g).numberOfRanks := List.mem_range.1 hi
      have hT' : NotBefore (cs.map ICmd.core) t := fun c hc => by
        obtain ⟨k, hk, rfl⟩ := List.mem_map.1 hc
        exact hT k hk
      have hcyc : (st.rankTotal.getD i {}).cycles = cycles fun k => rankTime std (c.coreSpec std g) (forRank std i (cs.map ICmd.core)) k t := by
        have h2 := C02_partial std _ _ hv ht _ hr t hT' i hi
        have h3 : ((s.core.getWindowStats std (c.coreSpec std g) t).2.toSim.rankTotal.getD i {}).cycles =
            cycles fun k => rankTime std (c.coreSpec std g) (forRank std i (cs.map ICmd.core)) k t := by
          rw [List.getD_eq_getElem?_getD]
          simp only [CoreStats.toSim, List.getElem?_map]
          rw [h2]
          rfl
        rw [← h3, rx]
        split
        · unfold Interface.rankTotals
          rw [List.getD_eq_getElem?_getD, List.getD_eq_getElem?_getD, List.getElem?_mapIdx]
          have hl : i < s.interface.ranks.length := by
            rw [rx] at hlen
            split at hlen
            · simp only [Interface.rankTotals, List.length_mapIdx] at hlen
              exact Nat.lt_of_lt_of_le hi hlen
            · contradiction
          rw [List.getElem?_eq_getElem hl, List.getD_eq_getElem?_getD]
          rfl
        · rfl
      have hsum := count_partition (rankCategory std (c.coreSpec std g) (forRank std i (cs.map ICmd.core))) t
      have hs := legal_supports (ht.tame i hi)
      rw [hcyc]
      have hch : chargedCycles std (cycles fun k => rankTime std (c.coreSpec std g) (forRank std i (cs.map ICmd.core)) k t) =
          (cycles fun k => rankTime std (c.coreSpec std g) (forRank std i (cs.map ICmd.core)) k t).sum := by
        unfold chargedCycles
        by_cases hd : std = .lpddr5 ∨ std = .lpddr6
        · rw [if_pos hd]
          rfl
        · rw [if_neg hd]
          have h0 : rankTime std (c.coreSpec std g) (forRank std i (cs.map ICmd.core)) .dsm t = 0 := by
            unfold rankTime
            rw [List.countP_eq_zero]
            intro τ _
            simp only [decide_eq_true_eq]
            refine rankCategory_dsm (fun c hc => ?_) τ
            have := (hs c hc).1
            intro hdd
            rw [hdd] at this
            simp [supports] at this
            exact hd (.inl this)
          simp only [Cycles.sum, cycles, h0]
      rw [hch]
      exact congrArg Nat.cast hsum
    rw [List.map_congr_left hk, sum_const, List.length_range]
    ring

theorem C83_ddr4 : C83_statement .ddr4 := fun _ _ _ _ _ _ _ _ _ _ _ _ h h' hv hl hi hr hT he =>
  C83_partial h h' hv (legal_tame_ddr4 hl) hi hr hT he

/-- All standards: every legal trace without active power-down. -/
theorem C83_noActivePowerDown {std : Std} {N : Nat} {x : Rat} {c : Config} {d d' : Derived} {sp : IfSpec} {cs : List ICmd}
    {s0 s s1 : Simulator std N} {t : Nat} {e : Energy} (h : c.derive std = .ok d) (h' : (leak x c).derive std = .ok d')
    (hv : ValidSpec std d.core) (hl : LegalTrace std d.core (cs.map ICmd.core)) (hn : ∀ c ∈ cs, c.type ≠ .PDEA)
    (hi : Simulator.init std N d.core sp = .ok s0) (hr : s0.run d.core sp cs = .done s)
    (hT : ∀ c ∈ cs, c.t ≤ t) (he : s.calcCoreEnergy d.core sp d.power t = .ok (s1, e)) :
    ∃ e', s.calcCoreEnergy d'.core sp d'.power t = .ok (s1, e') ∧
      e'.total = e.total + voltage c * x * (t * c.tCK) * ((max 1 c.devices : Nat) * c.ranks) :=
  C83_partial h h' hv (legal_tame_noPda hl fun c hc => by obtain ⟨d, hd, rfl⟩ := List.mem_map.1 hc; exact hn d hd) hi hr hT he

/-! ## Counterexample -/

/-- The configuration of C81 with short timings. -/
def c83Config : Config := { c81Config with ras := 6, rp := 3, rfc1 := 8, rfcPart := 4, rcd := 3, rcdR := 3, rcdW := 3 }

def c83If : IfSpec := { dataRate := 2, burstLength := 16, bitWidth := 8, devices := 1, ranks := 1 }

/-- The reported core energy of a trace at `t`, without and with the additional current 1. -/
def c83Totals (std : Std) (cs : List ICmd) (t : Nat) : Option (Rat × Rat) :=
  match c83Config.derive std, (leak 1 c83Config).derive std with
  | .ok d, .ok d' => match Simulator.init std 64 d.core c83If with
    | .error _ => none
    | .ok s => match s.run d.core c83If cs with
      | .done s => match s.calcCoreEnergy d.core c83If d.power t, s.calcCoreEnergy d'.core c83If d'.power t with
        | .ok (_, e), .ok (_, e') => some (e.total, e'.total)
        | _, _ => none
      | _ => none
  | _, _ => none

/-- The trace of `C03_violation`. -/
def c83Trace : List ICmd := c03Trace.map fun (c : Cmd) => { t := c.t, type := c.type, co := { bank := c.bank } }

theorem c83Totals_ok {std : Std} {cs : List ICmd} {t : Nat} {x y : Rat} (h : c83Totals std cs t = some (x, y)) :
    ∃ d d' s0 s s1 s2 e e', c83Config.derive std = .ok d ∧ (leak 1 c83Config).derive std = .ok d' ∧ Simulator.init std 64 d.core c83If = .ok s0 ∧
      s0.run d.core c83If cs = .done s ∧ s.calcCoreEnergy d.core c83If d.power t = .ok (s1, e) ∧
      s.calcCoreEnergy d'.core c83If d'.power t = .ok (s2, e') ∧ e.total = x ∧ e'.total = y := by
  unfold c83Totals at h
  cases h1 : c83Config.derive std with
  | error e => simp only [h1] at h; cases h
  | ok d =>
    cases h2 : (leak 1 c83Config).derive std with
    | error e => simp only [h1, h2] at h; cases h
    | ok d' =>
      simp only [h1, h2] at h
      cases h3 : Simulator.init std 64 d.core c83If with
      | error e => simp only [h3] at h; cases h
      | ok s0 =>
        simp only [h3] at h
        cases h4 : s0.run d.core c83If cs with
        | refused e => simp only [h4] at h; cases h
        | halfway c e => simp only [h4] at h; cases h
        | done s =>
          simp only [h4] at h
          cases h5 : s.calcCoreEnergy d.core c83If d.power t with
          | error e => simp only [h5] at h; cases h
          | ok a =>
            cases h6 : s.calcCoreEnergy d'.core c83If d'.power t with
            | error e => simp only [h5, h6] at h; cases h
            | ok b =>
              simp only [h5, h6] at h
              cases h
              exact ⟨d, d', s0, s, a.1, b.1, a.2, b.2, rfl, rfl, h3, h4, h5, h6, rfl, rfl⟩

/-- The hypotheses about the trace. -/
def c83Legal (std : Std) (cs : List ICmd) : Bool :=
  match c83Config.derive std with
  | .ok d => decide (ValidSpec std d.core) && decide (LegalTrace std d.core (cs.map ICmd.core))
  | .error _ => false

/-- DDR5, LPDDR4, LPDDR5, LPDDR6: an active power-down during a refresh, later a precharge power-down. The additional ampere for 200 cycles
at two volts in two devices costs not 800 but about 7·10^19 units of energy. -/
theorem C83_violation (std : Std) (hs : std ≠ .ddr4) : ¬ C83_statement std := by
  intro h
  have hw : c83Totals std c83Trace 200 = some (2213609288845146218520, 2287396265139984425784) := by
    cases std
    · exact absurd rfl hs
    all_goals decide +kernel
  have hl : c83Legal std c83Trace = true := by cases std <;> decide +kernel
  obtain ⟨d, d', s0, s, s1, s2, e, e', k1, k2, k3, k4, k5, k6, k7, k8⟩ := c83Totals_ok hw
  unfold c83Legal at hl
  simp only [k1, Bool.and_eq_true, decide_eq_true_eq] at hl
  obtain ⟨e2, j1, j2⟩ := h 64 1 c83Config d d' c83If c83Trace s0 s s1 200 e k1 k2 hl.1 hl.2 k3 k4 (by decide) k5
  rw [k6] at j1
  cases j1
  rw [k7, k8] at j2
  revert j2
  decide +kernel

/-! ## The hypotheses can be met -/

/-- A row is opened and closed, the rank is refreshed, then the memory sleeps. -/
def c83Example : List ICmd :=
  [{ t := 0, type := .ACT }, { t := 24, type := .PRE }, { t := 32, type := .REFA }, { t := 48, type := .PDEP }]

example (std : Std) : c83Legal std c83Example = true ∧ (∀ c ∈ c83Example, c.type ≠ .PDEA) ∧ (∀ c ∈ c83Example, c.t ≤ 200) := by
  refine ⟨?_, by decide, by decide⟩
  cases std <;> decide +kernel

/-- Two volts, one ampere more, 200 cycles, two devices, one rank: 800 units more. -/
example (std : Std) : (c83Totals std c83Example 200).map (fun p => p.2 - p.1) = some 800 := by
  cases std <;> decide +kernel

/-- The hypotheses of `C83_statistics`. -/
example : (c82Figures .lpddr5 c81Config, c82Figures .lpddr5 (leak 1 c81Config)) = (some (2780, 1320), some (2808, 1320)) := by decide +kernel

end DRAMPower
