import Verif.Props.C98

/-!
# C99: an auto-precharge costs as much core energy as the access and an explicit precharge
-/

namespace DRAMPower
open Spec

variable {std : Std} {ms : MemSpec} {N : Nat} {sp : IfSpec} {ps : PowerSpec}

/-- The full statement. The two command lists may differ in everything the core does not see (payloads, rows, columns). -/
def C99_statement (std : Std) : Prop :=
  ∀ (N : Nat) ms sp ps l0 l1 l2 l3 o A (cs cs' : List ICmd), ValidSpec std ms → AutoPreTrace ms l1 l2 l3 o A →
  cs.map ICmd.core = l0 ++ o :: (l1 ++ A :: (l2 ++ l3)) →
  cs'.map ICmd.core = l0 ++ o :: (l1 ++ plainAccess A :: (l2 ++ preOf (prechargeTime ms o.t A) A :: l3)) →
  LegalTrace std ms (cs.map ICmd.core) → LegalTrace std ms (cs'.map ICmd.core) →
  ps.ranks = ms.numberOfRanks → ps.banks = ms.numberOfBanks →
  ∀ (s0 s s' q q' : Simulator std N) t e e', Simulator.init std N ms sp = .ok s0 → s0.run ms sp cs = .done s → s0.run ms sp cs' = .done s' →
  NotBefore (cs'.map ICmd.core) t → s.calcCoreEnergy ms sp ps t = .ok (q, e) → s'.calcCoreEnergy ms sp ps t = .ok (q', e') →
  e.total = e'.total

/-- The energy depends on the sums of plain and auto-precharging accesses only. -/
theorem bankTotal_split (d : Domain) {w : Bool} {n : Nat} {x y r r' : CycleStats} (hc : sameButSplit w n x.counter y.counter)
    (ha : x.cycles.act = y.cycles.act) (hr : r.cycles = r'.cycles) :
    bankTotal (ps.bankEnergy std d x r) = bankTotal (ps.bankEnergy std d y r') := by
  obtain ⟨h1, h2, h3, h4, h5, h6, h7, h8⟩ := hc
  rw [PowerSpec.bankTotal_bankEnergy, PowerSpec.bankTotal_bankEnergy, h1, h2, h3, h4, h5, h6, h7, ha, hr]
  cases w
  · simp only [Bool.false_eq_true, if_false] at h8
    rw [h8.1, h8.2.1, h8.2.2.1, ← h8.2.2.2, PowerSpec.eRead_more, PowerSpec.eRead_more]
    ring
  · simp only [if_true] at h8
    rw [h8.1, h8.2.1, h8.2.2.1, ← h8.2.2.2, PowerSpec.eWrite_more, PowerSpec.eWrite_more]
    ring

/-- Missing from the full statement: traces with the active power-down situations of C03 (`TameTrace`), and traces in which the rank
leaves an active power-down between the activation and the precharge. -/
theorem C99_partial {l0 l1 l2 l3 : List Cmd} {o A : Cmd} {cs cs' : List ICmd} (hv : ValidSpec std ms) (h : AutoPreTrace ms l1 l2 l3 o A)
    (hpd : ∀ x ∈ l1 ++ l2, x.rank = A.rank → x.type ≠ .PDXA)
    (hc : cs.map ICmd.core = l0 ++ o :: (l1 ++ A :: (l2 ++ l3)))
    (hc' : cs'.map ICmd.core = l0 ++ o :: (l1 ++ plainAccess A :: (l2 ++ preOf (prechargeTime ms o.t A) A :: l3)))
    (ht : TameTrace std ms (cs.map ICmd.core)) (ht' : TameTrace std ms (cs'.map ICmd.core))
    (hk : ps.ranks = ms.numberOfRanks) (hb : ps.banks = ms.numberOfBanks)
    {s0 s s' q q' : Simulator std N} {t : Nat} {e e' : Energy} (hi : Simulator.init std N ms sp = .ok s0)
    (hr : s0.run ms sp cs = .done s) (hr' : s0.run ms sp cs' = .done s') (hT : NotBefore (cs'.map ICmd.core) t)
    (he : s.calcCoreEnergy ms sp ps t = .ok (q, e)) (he' : s'.calcCoreEnergy ms sp ps t = .ok (q', e')) :
    e.total = e'.total := by
  obtain ⟨hc0, _⟩ := simulator_init hi
  obtain ⟨hr, _⟩ := run_halves _ hr
  obtain ⟨hr', _⟩ := run_halves _ hr'
  rw [hc0] at hr hr'
  have hst := C04_partial std ms l0 l1 l2 l3 o A hv h hpd _ _ hc hc' ht ht' _ _ hr hr' t hT
  obtain ⟨x, hx, bx, rx⟩ := rank_figures hk he
  obtain ⟨y, hy, by', ry⟩ := rank_figures hk he'
  rw [PowerSpec.total_closed hx, PowerSpec.total_closed hy]
  congr 1
  refine List.map_congr_left fun d _ => ?_
  congr 1
  refine List.map_congr_left fun i hi => ?_
  have hi : i < ms.numberOfRanks := by rw [← hk]; exact List.mem_range.1 hi
  obtain ⟨hrk, hbk⟩ := hst i hi
  have hcyc : (x.rankTotal.getD i {}).cycles = (y.rankTotal.getD i {}).cycles := by rw [rx i hi, ry i hi, hrk]
  unfold PowerSpec.rankSum PowerSpec.contrib PowerSpec.statsIndex
  congr 1
  · congr 2
    refine List.map_congr_left fun b hbb => ?_
    have hbb : b < ms.numberOfBanks := by rw [← hb]; exact List.mem_range.1 hbb
    obtain ⟨f, g, hf, hg, hcy, hcnt⟩ := hbk b hbb
    rw [hb]
    have hxf : x.bank.getD (i * ms.numberOfBanks + b) {} = f.toCycle := by
      rw [bx, List.getD_eq_getElem?_getD]
      simp only [CoreStats.toSim, List.getElem?_map, hf]
      rfl
    have hyg : y.bank.getD (i * ms.numberOfBanks + b) {} = g.toCycle := by
      rw [by', List.getD_eq_getElem?_getD]
      simp only [CoreStats.toSim, List.getElem?_map, hg]
      rfl
    rw [hxf, hyg]
    exact bankTotal_split d hcnt (congrArg Cycles.act hcy) hcyc
  · rw [PowerSpec.sharedTotal_rankEnergy, PowerSpec.sharedTotal_rankEnergy, hcyc]

/-! ## The full statement is false -/

/-- Two ranks, payloads of 16 bytes (LPDDR6: 32 bytes). -/
def c99If (std : Std) : IfSpec := { c16Spec std with ranks := 2 }

def c99Burst (std : Std) (t : Nat) (ty : CmdType) (dbank : Nat) : ICmd :=
  { t, type := ty, dbank, nBits := if std = .lpddr6 then 256 else 128, data := some (List.replicate (if std = .lpddr6 then 32 else 16) 0x5a) }

/-- A command to bank 0 without payload. -/
def c99Cmd (t : Nat) (ty : CmdType) : ICmd := { t, type := ty }

/-- The witness of `C04_violation` on the whole simulator. -/
def c99Auto (std : Std) : List ICmd := [c99Cmd 0 .ACT, c99Cmd 20 .PDEA, c99Cmd 40 .PDXA, c99Burst std 50 .RDA 8]
def c99Plain (std : Std) : List ICmd := [c99Cmd 0 .ACT, c99Cmd 20 .PDEA, c99Cmd 40 .PDXA, c99Burst std 50 .RD 8, c99Cmd 54 .PRE]

/-- The core energy after a run. -/
def c99Total (std : Std) (ms : MemSpec) (cs : List ICmd) (t : Nat) : Option Rat :=
  match Simulator.init std 64 ms (c99If std) with
  | .error _ => none
  | .ok s => match s.run ms (c99If std) cs with
    | .done s => match s.calcCoreEnergy ms (c99If std) c53Power t with
      | .ok (_, e) => some e.total
      | _ => none
    | _ => none

theorem c99Total_ok {cs : List ICmd} {t : Nat} {x : Rat} {s0 : Simulator std 64} (hi : Simulator.init std 64 ms (c99If std) = .ok s0)
    (h : c99Total std ms cs t = some x) : ∃ s q e, s0.run ms (c99If std) cs = .done s ∧ s.calcCoreEnergy ms (c99If std) c53Power t = .ok (q, e) ∧ e.total = x := by
  unfold c99Total at h
  rw [hi] at h
  simp only at h
  split at h
  · rename_i s hs
    split at h
    · rename_i q e he
      exact ⟨s, q, e, hs, he, Option.some.inj h⟩
    · cases h
  · cases h

/-- All standards: the auto-precharge comes 16 cycles late, which are charged as active standby. -/
theorem C99_violation (std : Std) : ¬ C99_statement std := by
  intro h
  have hw : (match c99Total std c04Ms (c99Auto std) 100, c99Total std c04Ms (c99Plain std) 100 with
    | some x, some y => decide (x ≠ y)
    | _, _ => false) = true := by cases std <;> decide +kernel
  cases h0 : Simulator.init std 64 c04Ms (c99If std) with
  | error e => unfold c99Total at hw; simp [h0] at hw
  | ok s0 =>
    cases k1 : c99Total std c04Ms (c99Auto std) 100 with
    | none => rw [k1] at hw; cases hw
    | some x =>
      cases k2 : c99Total std c04Ms (c99Plain std) 100 with
      | none => rw [k1, k2] at hw; cases hw
      | some y =>
        rw [k1, k2] at hw
        obtain ⟨s, q, e, r1, e1, rfl⟩ := c99Total_ok h0 k1
        obtain ⟨s', q', e', r2, e2, rfl⟩ := c99Total_ok h0 k2
        refine absurd (h 64 c04Ms (c99If std) c53Power [] [(c99Cmd 20 .PDEA).core, (c99Cmd 40 .PDXA).core] [] [] (c99Cmd 0 .ACT).core (c99Burst std 50 .RDA 8).core (c99Auto std) (c99Plain std)
          ?_ ⟨?_, ?_, ?_, ?_, ?_⟩ ?_ ?_ ?_ ?_ rfl rfl s0 s s' q q' 100 e e' h0 r1 r2 ?_ e1 e2) (of_decide_eq_true hw) <;>
          clear hw h h0 k1 k2 r1 e1 r2 e2 <;> cases std <;> decide +kernel

/-! ## The hypotheses can be met -/

/-- A write with auto-precharge on bank 0 after a read of bank 1, while rank 1 is powered down. -/
def c99L0 : List ICmd := [{ t := 0, type := .ACT, co := { rank := 1 }, dbank := 0 }, { t := 8, type := .ACT, co := { bank := 1 }, dbank := 0 }]
def c99O : ICmd := c99Cmd 16 .ACT
def c99L1 (std : Std) : List ICmd := [{ c99Burst std 24 .RD 0 with co := { bank := 1 } }, { t := 32, type := .PDEA, co := { rank := 1 }, dbank := 0 }]
def c99L2 : List ICmd := []
def c99L3 : List ICmd := [{ t := 80, type := .PRE, co := { bank := 1 }, dbank := 0 }, { t := 100, type := .REFA, dbank := 0 }]

example (std : Std) :
    let A := c99Burst std 60 .WRA 8
    let cs := c99L0 ++ c99O :: (c99L1 std ++ A :: (c99L2 ++ c99L3))
    let cs' := c99L0 ++ c99O :: (c99L1 std ++ c99Burst std 60 .WR 8 :: (c99L2 ++ c99Cmd (prechargeTime Ex.ms 16 A.core) .PRE :: c99L3))
    cs.map ICmd.core = c99L0.map ICmd.core ++ c99O.core :: ((c99L1 std).map ICmd.core ++ A.core :: (c99L2.map ICmd.core ++ c99L3.map ICmd.core)) ∧
    cs'.map ICmd.core = c99L0.map ICmd.core ++ c99O.core :: ((c99L1 std).map ICmd.core ++ plainAccess A.core ::
      (c99L2.map ICmd.core ++ preOf (prechargeTime Ex.ms 16 A.core) A.core :: c99L3.map ICmd.core)) ∧
    AutoPreTrace Ex.ms ((c99L1 std).map ICmd.core) (c99L2.map ICmd.core) (c99L3.map ICmd.core) c99O.core A.core ∧
    (∀ x ∈ (c99L1 std).map ICmd.core ++ c99L2.map ICmd.core, x.rank = A.core.rank → x.type ≠ .PDXA) ∧ ValidSpec std Ex.ms ∧
    TameTrace std Ex.ms (cs.map ICmd.core) ∧ TameTrace std Ex.ms (cs'.map ICmd.core) ∧ NotBefore (cs'.map ICmd.core) 120 ∧
    (c99Total std Ex.ms cs 120).isSome = true ∧ (c99Total std Ex.ms cs' 120).isSome = true := by
  refine ⟨?_, ?_, ⟨?_, ?_, ?_, ?_, ?_⟩, ?_, ?_, ?_, ?_, ?_, ?_, ?_⟩ <;> cases std <;> decide +kernel

end DRAMPower
