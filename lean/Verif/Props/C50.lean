import Verif.Spec.TimeBase
import Verif.Lemmas.TimeBase
import Mathlib.Tactic.FieldSimp
import Mathlib.Tactic.Ring
import Mathlib.Tactic.Linarith
import Mathlib.Algebra.Order.Ring.Rat

/-!
# C50: one time base

The time that is charged for a wire is the time that has passed.
-/

namespace DRAMPower
open Spec

/-- The property for the standards, specifications and groups `p` admits. -/
def C50_statement (p : Std → IfSpec → Group → Prop) : Prop :=
  ∀ (std : Std) (N : Nat) (sp : IfSpec) (ws : WireSpec) (ops : List IfOp) (i i' : Interface std N) (t : Nat) (s' : SimStats) (g : Group),
    SameMemory std sp ws → sp.bitWidth * sp.devices ≤ N →
    Interface.init std N sp = .ok i → i.run sp ops = .ok i' → i'.getWindowStats sp t {} = .ok s' →
    g ∈ groups std → g.steady sp ops → p std sp g → g.charged std ws s' = g.wires std sp * (t * ws.tCK)

section
variable {std : Std} {N : Nat} {sp : IfSpec} {ws : WireSpec} {i i' : Interface std N} {t : Nat} {s' : SimStats} {ops : List IfOp}

theorem charge_cancel {n w r t : Nat} {T : Rat} (hr : 0 < r) (h : n = w * (t * r)) : (n : Rat) * (T / r) = w * (t * T) := by
  have : (r : Rat) ≠ 0 := by exact_mod_cast Nat.pos_iff_ne_zero.1 hr
  subst h
  push_cast
  field_simp

/-- The clock and the data clock of an interface that is never switched off. -/
theorem steady_clocks (hi : Interface.init std N sp = .ok i) (hr : i.run sp ops = .ok i') (h : sp.enabled = true ∧ ∀ t, .disable t ∉ ops) :
    i'.clock = Clock.init 2 false ∧ (mobile std → sp.wckAlwaysOn = true → i'.wck = Clock.init sp.wckRate false) := by
  obtain ⟨_, _, _, _, _, _, ew, ec, ee, _⟩ := init_parts hi
  have k := run_clocks ops (init_shaped hi) hr
  have k1 := k.clock
  rw [ee, h.1, gateCalls_none h.2] at k1
  have k2 := k.wckOn
  rw [ee, h.1, gateCalls_none h.2] at k2
  refine ⟨?_, fun hm ho => ?_⟩
  · rw [← Except.ok.inj k1, ec, h.1]; cases std <;> rfl
  · rw [← Except.ok.inj (k2 hm ho), ew, h.1, ho]; cases std <;> rfl

theorem clock_levels (hi : Interface.init std N sp = .ok i) (hr : i.run sp ops = .ok i') (hq : i'.getWindowStats sp t {} = .ok s')
    (h : sp.enabled = true ∧ ∀ t, .disable t ∉ ops) : s'.clockStats.ones + s'.clockStats.zeroes = 2 * (t * 2) := by
  obtain ⟨_, _, _, _, q, _⟩ := windowStats_ok hq
  have k := clock_full (t := t) 2
  rw [q, (steady_clocks hi hr h).1]
  simp only [BusStats.mul_ones, BusStats.mul_zeroes]
  omega

theorem dataClock_levels (hi : Interface.init std N sp = .ok i) (hr : i.run sp ops = .ok i') (hq : i'.getWindowStats sp t {} = .ok s')
    (h : sp.enabled = true ∧ ∀ t, .disable t ∉ ops) (hm : mobile std) (ho : sp.wckAlwaysOn = true) :
    s'.wClockStats.ones + s'.wClockStats.zeroes = 2 * (2 * (t * (sp.dataRate / sp.wckToCk) / 2)) := by
  obtain ⟨_, _, _, _, _, q, _⟩ := windowStats_ok hq
  have k := clock_full (t := t) sp.wckRate
  unfold IfSpec.wckRate at k
  rw [q hm, (steady_clocks hi hr h).2 hm ho]
  simp only [BusStats.mul_ones, BusStats.mul_zeroes, IfSpec.wckRate]
  omega

theorem inv_pins {g : Group} (hg : g ∈ groups std) (h : g = .readInv ∨ g = .writeInv) : hasPins std = true := by
  revert hg
  rcases h with rfl | rfl <;> cases std <;> decide

theorem dataClock_mobile (hg : Group.dataClock ∈ groups std) : mobile std := by
  revert hg
  cases std <;> decide

end

/-- Every accepted trace, query and steady group of wires: the charged time is the elapsed time on every wire. Exceptions: the
data clock, unless `dataRate / WCK2CK` is two per cycle of it (`C50_violation_dataClock`), and inversion pins, unless the data rate
is two (`C50_violation_inversion`). -/
theorem C50_partial : C50_statement fun _ sp g => (g = .dataClock → sp.dataRate / sp.wckToCk = 2 * sp.wckToCk) ∧
    (g = .readInv ∨ g = .writeInv → sp.dataRate = 2) := by
  intro std N sp ws ops i i' t s' g hsame hN hi hr hq hg hst hp
  have hd := (init_parts hi).1
  cases g with
  | clock =>
    exact charge_cancel (r := 2) (w := 2) (by decide) (clock_levels hi hr hq hst)
  | dataClock =>
    have hm := dataClock_mobile hg
    have k := dataClock_levels hi hr hq hst.1 hm hst.2
    rw [hp.1 rfl] at k
    have k' : s'.wClockStats.ones + s'.wClockStats.zeroes = 2 * (t * sp.wckToCk * 2) := by
      rw [k, show t * (2 * sp.wckToCk) = 2 * (t * sp.wckToCk) by ring, Nat.mul_div_cancel_left _ (by decide)]
      ring
    refine (charge_cancel (r := 2) (w := 2) (t := t * sp.wckToCk) (T := ws.tWCK) (by decide) k').trans ?_
    rw [hsame.wck hm]
    push_cast
    show (2 : Rat) * _ = 2 * _
    ring
  | command =>
    have k := command_full hi hr hq
    have e : (Group.rate std ws .command) = commandRate std := by cases std <;> rfl
    unfold Group.charged
    rw [e]
    exact charge_cancel (by cases std <;> decide) k
  | readData =>
    refine charge_cancel (r := ws.dataRate) (by rw [hsame.data]; exact hd) ?_
    rw [hsame.data]
    exact (data_full hst hN hi hr hq).1.trans (Nat.zero_add _)
  | writeData =>
    refine charge_cancel (r := ws.dataRate) (by rw [hsame.data]; exact hd) ?_
    rw [hsame.data]
    exact (data_full hst hN hi hr hq).2.trans (Nat.zero_add _)
  | readInv =>
    refine charge_cancel (r := ws.dataRate) (by rw [hsame.data]; exact hd) ?_
    rw [hsame.data, hp.2 (.inl rfl)]
    exact (inversion_full hi hr hq (inv_pins hg (.inl rfl))).1.trans (Nat.zero_add _)
  | writeInv =>
    refine charge_cancel (r := ws.dataRate) (by rw [hsame.data]; exact hd) ?_
    rw [hsame.data, hp.2 (.inr rfl)]
    exact (inversion_full hi hr hq (inv_pins hg (.inr rfl))).2.trans (Nat.zero_add _)
  | _ => exact hst.elim

section
variable {std : Std} {N : Nat} {sp : IfSpec} {ws : WireSpec} {i i' : Interface std N} {t : Nat} {s' : SimStats} {ops : List IfOp}

/-- The exclusion of the data clock is exact: after an even number of cycles its charged time is the elapsed time only if
`dataRate / WCK2CK` is two per cycle of it. -/
theorem C50_dataClock_exact (hsame : SameMemory std sp ws) (hi : Interface.init std N sp = .ok i) (hr : i.run sp ops = .ok i')
    (hq : i'.getWindowStats sp t {} = .ok s') (hg : Group.dataClock ∈ groups std) (hst : Group.dataClock.steady sp ops)
    (ht : t ≠ 0) (heven : t % 2 = 0) (htck : ws.tCK ≠ 0) :
    Group.dataClock.charged std ws s' = Group.dataClock.wires std sp * (t * ws.tCK) ↔ sp.dataRate / sp.wckToCk = 2 * sp.wckToCk := by
  have k := dataClock_levels hi hr hq hst.1 (dataClock_mobile hg) hst.2
  have e : 2 * (t * (sp.dataRate / sp.wckToCk) / 2) = t * (sp.dataRate / sp.wckToCk) :=
    Nat.mul_div_cancel' (Nat.dvd_trans (Nat.dvd_of_mod_eq_zero heven) (Nat.dvd_mul_right _ _))
  rw [e] at k
  have hw : ws.tWCK ≠ 0 := fun h => htck (by rw [hsame.wck (dataClock_mobile hg), h, mul_zero])
  have ht' : (t : Rat) ≠ 0 := by exact_mod_cast ht
  show (((s'.wClockStats.ones + s'.wClockStats.zeroes : Nat)) : Rat) * (ws.tWCK / (2 : Nat)) = (2 : Nat) * (t * ws.tCK) ↔ _
  rw [k, hsame.wck (dataClock_mobile hg)]
  push_cast
  constructor
  · intro h
    have h2 : (t * ws.tWCK : Rat) * ((sp.dataRate / sp.wckToCk : Nat) : Rat) = t * ws.tWCK * (2 * sp.wckToCk) := by linarith
    have h3 := mul_left_cancel₀ (mul_ne_zero ht' hw) h2
    exact_mod_cast h3
  · intro h
    rw [h]
    push_cast
    ring

/-- The charged time of the inversion pins is off by the ratio of the data rate to two. -/
theorem C50_inversion_exact (hsame : SameMemory std sp ws) (hi : Interface.init std N sp = .ok i) (hr : i.run sp ops = .ok i')
    (hq : i'.getWindowStats sp t {} = .ok s') {g : Group} (hg : g ∈ groups std) (hinv : g = .readInv ∨ g = .writeInv) :
    g.charged std ws s' * sp.dataRate = 2 * (g.wires std sp * (t * ws.tCK)) := by
  have hd := (init_parts hi).1
  have hd' : (sp.dataRate : Rat) ≠ 0 := by exact_mod_cast Nat.pos_iff_ne_zero.1 hd
  have k := inversion_full hi hr hq (inv_pins hg hinv)
  have go : ∀ n : Nat, n = 0 + sp.devices * sp.bitWidth / 8 * (t * 2) →
      (n : Rat) * (ws.tCK / ws.dataRate) * sp.dataRate = 2 * ((sp.devices * sp.bitWidth / 8 : Nat) * (t * ws.tCK)) := by
    intro n hn
    rw [hn, hsame.data, Nat.zero_add]
    push_cast
    field_simp
  rcases hinv with rfl | rfl
  · exact go _ k.1
  · exact go _ k.2

/-- Toggling-rate mode: the charged time falls short of the elapsed time by at most one beat on every wire (figures are truncated). -/
theorem C50_rate (hsame : SameMemory std sp ws) (hi : Interface.init std N sp = .ok i) (hr : i.run sp ops = .ok i')
    (hq : i'.getWindowStats sp t {} = .ok s') (ht : sp.toggling.isSome = true) (hpos : 0 ≤ ws.tCK) {g : Group}
    (hg : g = .readRate ∨ g = .writeRate) :
    g.charged std ws s' ≤ g.wires std sp * (t * ws.tCK) ∧
      g.wires std sp * (t * ws.tCK) ≤ g.charged std ws s' + g.wires std sp * (ws.tCK / sp.dataRate) := by
  obtain ⟨rates, ht⟩ := Option.isSome_iff_exists.1 ht
  have hd := (init_parts hi).1
  have hd' : (sp.dataRate : Rat) ≠ 0 := by exact_mod_cast Nat.pos_iff_ne_zero.1 hd
  have hpos' : 0 ≤ ws.tCK / sp.dataRate := div_nonneg hpos (Nat.cast_nonneg _)
  obtain ⟨q1, q2, _⟩ := C49_toggling hi hr hq ht
  have go : ∀ {r d : Rate} {high : Bool} {l : List (Nat × Nat)} {x : BusStats},
      x = {} + toggleStats (sp.bitWidth * sp.devices) r d high ((busy sp.dataRate l).beats (some true) (t * sp.dataRate))
        ((busy sp.dataRate l).beats (some false) (t * sp.dataRate)) →
      ((x.ones + x.zeroes : Nat) : Rat) * (ws.tCK / ws.dataRate) ≤ (sp.bitWidth * sp.devices : Nat) * (t * ws.tCK) ∧
        ((sp.bitWidth * sp.devices : Nat) : Rat) * (t * ws.tCK) ≤ ((x.ones + x.zeroes : Nat) : Rat) * (ws.tCK / ws.dataRate)
          + (sp.bitWidth * sp.devices : Nat) * (ws.tCK / sp.dataRate) := by
    intro r d high l x hx
    have k := toggleStats_full (w := sp.bitWidth * sp.devices) (r := r) (d := d) (high := high)
      (n := (busy sp.dataRate l).beats (some true) (t * sp.dataRate)) (i := (busy sp.dataRate l).beats (some false) (t * sp.dataRate))
    rw [busy_full, ← BusStats.zero_add (toggleStats _ _ _ _ _ _), ← hx] at k
    generalize x.ones + x.zeroes = n at *
    generalize sp.bitWidth * sp.devices = w at *
    have k1 : (w : Rat) * (t * sp.dataRate) ≤ n + w := by exact_mod_cast k.1
    have k2 : (n : Rat) ≤ w * (t * sp.dataRate) := by exact_mod_cast k.2
    have e : (w : Rat) * (t * ws.tCK) = w * (t * sp.dataRate) * (ws.tCK / sp.dataRate) := by field_simp
    rw [hsame.data, e, ← add_mul]
    exact ⟨mul_le_mul_of_nonneg_right k2 hpos', mul_le_mul_of_nonneg_right k1 hpos'⟩
  rcases hg with rfl | rfl
  · exact go q1
  · exact go q2

theorem strobe_full {dr t : Nat} : ∀ {l : List (Nat × Nat)}, (∀ b ∈ l, b.1 * dr + b.2 ≤ t * dr) →
    (Spec.strobe dr l t).ones + (Spec.strobe dr l t).zeroes = (l.map Prod.snd).sum
  | [], _ => rfl
  | b :: l, h => by
    have ih := strobe_full (dr := dr) (t := t) (l := l) fun x hx => h x (by simp [hx])
    have hb := h b (by simp)
    have hm : min b.2 ((t - b.1) * dr) = b.2 := Nat.min_eq_left (by rw [Nat.sub_mul]; omega)
    have hc := halfCycles_full b.2
    rw [Spec.strobe, hm]
    simp only [BusStats.add_ones, BusStats.add_zeroes, List.map_cons, List.sum_cons]
    omega

/-- Strobes, under the conditions of `C47_partial`: the charged time is that of the transferred beats. -/
theorem C50_strobe_partial (hsame : SameMemory std sp ws) (hi : Interface.init std N sp = .ok i) (hr : i.run sp ops = .ok i')
    (hq : i'.getWindowStats sp t {} = .ok s') (heven : sp.dataRate % 2 = 0) (hrate : std = .ddr5 → sp.dqsRate = sp.dataRate)
    (read : Bool) {g : Group} (he : g = if read then .readStrobe else .writeStrobe) (hg : g ∈ groups std)
    (hdiv : ∀ b ∈ bursts std sp read ops, sp.dataRate ∣ b.2)
    (ht : ∀ b ∈ bursts std sp read ops, b.1 * sp.dataRate + b.2 ≤ t * sp.dataRate) :
    g.charged std ws s' = g.wires std sp * (((bursts std sp read ops).map Prod.snd).sum / sp.dataRate * ws.tCK) := by
  have hw : read = false → std ≠ .lpddr5 ∧ std ≠ .lpddr6 := by
    intro hf
    subst hf
    subst he
    revert hg
    cases std <;> decide
  have k := C47_partial hi hr heven hrate t {} s' hq read hw hdiv ht
  have hrt : g.rate std ws = sp.dataRate := by
    cases read <;> subst he <;> cases std <;> first | exact hsame.data | exact (hsame.strobe rfl).trans (hrate rfl)
  have f := strobe_full ht
  unfold Group.charged
  rw [hrt]
  have hfig : g.figures s' = Spec.strobeWires std sp.bitWidth * Spec.strobe sp.dataRate (bursts std sp read ops) t := by
    rw [← k]; cases read <;> subst he <;> rfl
  have hper : g.period ws = ws.tCK := by cases read <;> subst he <;> rfl
  have hwires : g.wires std sp = Spec.strobeWires std sp.bitWidth := by cases read <;> subst he <;> rfl
  rw [hfig, hper, hwires]
  simp only [BusStats.mul_ones, BusStats.mul_zeroes]
  rw [← Nat.add_mul, f]
  push_cast
  ring

theorem clock_bursts {rate dr t : Nat} : ∀ (l : List (Nat × Nat)),
    (Spec.clock rate none (l.flatMap (strobeCalls dr)) t).ones + (Spec.clock rate none (l.flatMap (strobeCalls dr)) t).zeroes
      = (l.map fun b => b.2 / dr).sum * rate
  | [] => by simp [Spec.clock]
  | b :: l => by
    have ih := clock_bursts (rate := rate) (dr := dr) (t := t) l
    have h := halfCycles_full ((b.1 + b.2 / dr - b.1) * rate)
    show (halfCycles ((b.1 + b.2 / dr - b.1) * rate) + Spec.clock rate none (l.flatMap (strobeCalls dr)) t).ones
      + (halfCycles ((b.1 + b.2 / dr - b.1) * rate) + Spec.clock rate none (l.flatMap (strobeCalls dr)) t).zeroes = _
    rw [List.map_cons, List.sum_cons, Nat.add_mul]
    rw [Nat.add_sub_cancel_left] at h ⊢
    simp only [BusStats.add_ones, BusStats.add_zeroes]
    omega

/-- A data clock that runs only during transfers, of both directions: the charged time is that of the clock cycles the transfers take,
with the same exclusion as for a data clock that is always on. -/
theorem C50_dataClock_bursts_partial (hsame : SameMemory std sp ws) (hi : Interface.init std N sp = .ok i) (hr : i.run sp ops = .ok i')
    (hq : i'.getWindowStats sp t {} = .ok s') (hg : Group.dataClock ∈ groups std) (hoff : sp.wckAlwaysOn = false)
    (hrate : sp.dataRate / sp.wckToCk = 2 * sp.wckToCk)
    (ht : ∀ b ∈ anyBursts std sp ops, b.1 * sp.dataRate + b.2 ≤ t * sp.dataRate) :
    Group.dataClock.charged std ws s' = 2 * (((anyBursts std sp ops).map fun b => b.2 / sp.dataRate).sum * ws.tCK) := by
  have hd := (init_parts hi).1
  have hm := dataClock_mobile hg
  obtain ⟨_, _, _, _, _, _, ew, _⟩ := init_parts hi
  have k := (run_clocks ops (init_shaped hi) hr).wckBurst hm hoff
  rw [ew, hoff] at k
  simp only [Bool.not_false, Bool.or_true] at k
  have hrt : sp.wckRate = 2 * sp.wckToCk := hrate
  rw [hrt] at k
  have c := C21_partial _ _ (by show 2 * sp.wckToCk % 2 = 0; omega) _ k t (by intro s hs; cases hs) (strobes_before hd ht)
  have f := clock_bursts (rate := 2 * sp.wckToCk) (dr := sp.dataRate) (t := t) (anyBursts std sp ops)
  obtain ⟨_, _, _, _, _, q, _⟩ := windowStats_ok hq
  show (((s'.wClockStats.ones + s'.wClockStats.zeroes : Nat)) : Rat) * (ws.tWCK / (2 : Nat)) = _
  rw [q hm, c]
  have e : (({} : BusStats) + Spec.clock (2 * sp.wckToCk) none ((anyBursts std sp ops).flatMap (strobeCalls sp.dataRate)) t)
      = Spec.clock (2 * sp.wckToCk) none ((anyBursts std sp ops).flatMap (strobeCalls sp.dataRate)) t := BusStats.zero_add _
  have e' : ((2 * ((Clock.init (2 * sp.wckToCk) true).stats + Spec.clock (Clock.init (2 * sp.wckToCk) true).dataRate
      (Clock.init (2 * sp.wckToCk) true).lastStart ((anyBursts std sp ops).flatMap (strobeCalls sp.dataRate)) t) : BusStats))
      = 2 * Spec.clock (2 * sp.wckToCk) none ((anyBursts std sp ops).flatMap (strobeCalls sp.dataRate)) t := congrArg (fun x : BusStats => 2 * x) e
  rw [e']
  simp only [BusStats.mul_ones, BusStats.mul_zeroes]
  rw [← Nat.add_mul, f, hsame.wck hm]
  push_cast
  ring

end

/-! ## Examples and refutations -/

/-- Figures of a trace. -/
def c50Run (std : Std) (sp : IfSpec) (ops : List IfOp) (t : Nat) : Except Err SimStats := do
  let i ← Interface.init std 16 sp
  let i ← i.run sp ops
  i.getWindowStats sp t {}

/-- Charged times of a trace. -/
def c50Charged (std : Std) (sp : IfSpec) (ws : WireSpec) (ops : List IfOp) (t : Nat) (gs : List Group) : Except Err (List Rat) :=
  (c50Run std sp ops t).map fun s => gs.map fun g => g.charged std ws s

theorem c50_refutes {std : Std} {sp : IfSpec} {ws : WireSpec} {ops : List IfOp} {t : Nat} {g : Group} {p : Std → IfSpec → Group → Prop} {x : Rat}
    (h : c50Charged std sp ws ops t [g] = .ok [x]) (hsame : SameMemory std sp ws) (hN : sp.bitWidth * sp.devices ≤ 16) (hg : g ∈ groups std)
    (hst : g.steady sp ops) (hp : p std sp g) (hx : x ≠ g.wires std sp * (t * ws.tCK)) : ¬ C50_statement p := by
  intro hc
  unfold c50Charged at h
  cases hr : c50Run std sp ops t with
  | error e => rw [hr] at h; cases h
  | ok s =>
    rw [hr] at h
    have e : g.charged std ws s = x := by
      have := Except.ok.inj h
      simpa using this
    unfold c50Run at hr
    obtain ⟨i, h1, hr⟩ := bind_ok hr
    obtain ⟨i', h2, h3⟩ := bind_ok hr
    exact hx (e ▸ hc std 16 sp ws ops i i' t s g hsame hN h1 h2 h3 hg hst hp)

/-- Rates of the shipped LPDDR5 and LPDDR6 specifications: two levels per clock, two data clocks per clock, always on. -/
def c50Spec (dataRate wckToCk : Nat) : IfSpec := { dataRate, wckToCk, burstLength := 8, bitWidth := 8, devices := 1, wckAlwaysOn := true }

/-- A clock of 8 ns. -/
def c50Wires (dataRate wckToCk : Nat) : WireSpec := { tCK := 8, tWCK := 8 / wckToCk, vddq := 1, dataRate, imp := {} }

/-- The data clock runs for 40 cycles of 8 ns, on two wires; only a quarter of the time is charged. -/
theorem C50_violation_dataClock : ¬ C50_statement fun _ sp g => g = .dataClock ∧ sp.dataRate = 2 ∧ sp.wckToCk = 2 :=
  c50_refutes (std := .lpddr5) (sp := c50Spec 2 2) (ws := c50Wires 2 2) (ops := []) (t := 40) (g := .dataClock) (x := 160)
    (by decide +kernel) ⟨rfl, nofun, fun _ => by decide +kernel⟩ (by decide) (by decide)
    ⟨⟨rfl, by simp⟩, rfl⟩ ⟨rfl, rfl, rfl⟩ (by decide +kernel)

/-- With four data clocks per clock it is not counted at all. -/
theorem C50_violation_stopped : ¬ C50_statement fun std sp g => std = .lpddr6 ∧ g = .dataClock ∧ sp.dataRate = 2 ∧ sp.wckToCk = 4 :=
  c50_refutes (std := .lpddr6) (sp := { c50Spec 2 4 with burstLength := 24, bitWidth := 12 }) (ws := c50Wires 2 4) (ops := []) (t := 40)
    (g := .dataClock) (x := 0) (by decide +kernel) ⟨rfl, nofun, fun _ => by decide +kernel⟩ (by decide) (by decide)
    ⟨⟨rfl, by simp⟩, rfl⟩ ⟨rfl, rfl, rfl, rfl⟩ (by decide +kernel)

/-- At data rate 4 the one inversion pin of eight wires is charged for half of the 40 cycles of 8 ns. -/
theorem C50_violation_inversion : ¬ C50_statement fun _ _ g => g = .readInv :=
  c50_refutes (std := .lpddr5) (sp := c50Spec 4 1) (ws := c50Wires 4 1) (ops := []) (t := 40) (g := .readInv) (x := 160)
    (by decide +kernel) ⟨rfl, nofun, fun _ => by decide +kernel⟩ (by decide) (by decide) trivial rfl (by decide +kernel)

/-- A write and a read of 8 beats with data bus inversion. -/
def c50Trace : List IfOp :=
  [.cmd { t := 1, type := .ACT, co := { bank := 1, row := 0x155 } }, .dbi true,
   .cmd { t := 10, type := .WR, co := { bank := 1, column := 0x2a7 }, nBits := 64, data := some [1, 2, 3, 4, 255, 6, 0, 8] },
   .cmd { t := 20, type := .RD, co := { bank := 1, column := 0x2a7 }, nBits := 64, data := some [1, 254, 3, 0, 5, 6, 0x7f, 8] }]

/-- `C50_partial` for LPDDR5 with one data clock per clock and for DDR4: all steady groups are charged 40 * 8 ns per wire. -/
example : SameMemory .lpddr5 (c50Spec 2 1) (c50Wires 2 1) ∧ SameMemory .ddr4 (c50Spec 2 1) (c50Wires 2 1) ∧
    (c50Spec 2 1).dataRate / (c50Spec 2 1).wckToCk = 2 * (c50Spec 2 1).wckToCk ∧
    c50Charged .lpddr5 (c50Spec 2 1) (c50Wires 2 1) c50Trace 40 [.clock, .dataClock, .command, .readData, .writeData, .readInv, .writeInv]
      = .ok [2 * 320, 2 * 320, 7 * 320, 8 * 320, 8 * 320, 320, 320] ∧
    c50Charged .ddr4 (c50Spec 2 1) (c50Wires 2 1) c50Trace 40 [.clock, .command, .readData, .writeData, .readInv, .writeInv]
      = .ok [2 * 320, 27 * 320, 8 * 320, 8 * 320, 320, 320] :=
  ⟨⟨rfl, nofun, fun _ => by decide +kernel⟩, ⟨rfl, nofun, fun _ => by decide +kernel⟩, rfl, by decide +kernel,
    by decide +kernel⟩

/-- `C50_dataClock_exact` and `C50_inversion_exact` are about traces like this one: data rate 8, two data clocks per clock, the charged
time of the data clock is right, that of the inversion pins is a quarter. -/
example : SameMemory .lpddr5 (c50Spec 8 2) (c50Wires 8 2) ∧ Group.dataClock.steady (c50Spec 8 2) [] ∧
    c50Charged .lpddr5 (c50Spec 8 2) (c50Wires 8 2) [] 40 [.dataClock, .readInv] = .ok [2 * 320, 80] :=
  ⟨⟨rfl, nofun, fun _ => by decide +kernel⟩, ⟨⟨rfl, by simp⟩, rfl⟩, by decide +kernel⟩

/-- `C50_rate` for two transfers without bytes: one beat of 4 ns of each read wire is lost to truncation. -/
example : SameMemory .ddr4 (c50Spec 2 1) (c50Wires 2 1) ∧
    c50Charged .ddr4 { c50Spec 2 1 with toggling := some c49Rates } (c50Wires 2 1)
      [.cmd { t := 10, type := .WR }, .cmd { t := 20, type := .RD }] 21 [.readRate, .writeRate] = .ok [8 * 21 * 8 - 8 * 4, 8 * 21 * 8] :=
  ⟨⟨rfl, nofun, fun _ => by decide +kernel⟩, by decide +kernel⟩

/-- `C50_strobe_partial`: two strobe wires, one burst of 8 beats in each direction. -/
example : (∀ b ∈ bursts .ddr4 (c50Spec 2 1) true c50Trace, 2 ∣ b.2 ∧ b.1 * 2 + b.2 ≤ 40 * 2) ∧ Group.readStrobe ∈ groups .ddr4 ∧
    c50Charged .ddr4 (c50Spec 2 1) (c50Wires 2 1) c50Trace 40 [.readStrobe, .writeStrobe] = .ok [2 * 4 * 8, 2 * 4 * 8] := by
  decide +kernel

/-- `C50_dataClock_bursts_partial`: a write and a read of 8 beats at data rate 2, one data clock per clock. -/
example : (∀ b ∈ anyBursts .lpddr5 (c50Spec 2 1) c50Trace, b.1 * 2 + b.2 ≤ 40 * 2) ∧
    c50Charged .lpddr5 { c50Spec 2 1 with wckAlwaysOn := false } (c50Wires 2 1) c50Trace 40 [.dataClock] = .ok [2 * ((4 + 4) * 8)] := by
  decide +kernel

end DRAMPower
