import Verif.Model.RoundedTotal
import Verif.Props.C61
import Verif.Props.C65
import Verif.Props.C70

/-!
# C72: The total energy in floating point

The total energy a simulator object returns is computed in `double`. It is the sum of the core and the interface energy, each of them a
long sum of products. `C72`: it differs from the exact value of the formulas by at most a tiny fraction of the energy that the largest currents
would take in the charged times (`fullTotal`), and of the exact energies themselves. `C72_outcome`: it fails exactly when the exact calculation
fails. `C72_physical_partial`: hence it is that close to the energy of the trace, the power of the core over time (C67) and the energy
of the waveforms (C70). For every rounding with half a unit in the last place, in particular that of `double` (`C61_double`).
-/

namespace DRAMPower

open Spec

variable {std : Std} {N : Nat} {ms : MemSpec} {sp : IfSpec} {ps : PowerSpec} {ws : WireSpec} {fl : Rat → Rat}

/-- Adding two numbers with errors. -/
theorem sum_error (hf : Rounds fl) {a b a' b' x y : Rat} (hb : 0 ≤ b) (ha : |a' - a| ≤ x) (hb' : |b' - b| ≤ y) (hx : 0 ≤ x) (hy : 0 ≤ y) :
    |fl (a' + b') - (a + b)| ≤ (1 + 1 / 2 ^ 53) * (x + y) + 1 / 2 ^ 53 * (|a| + b) := by
  have h1 := hf (a' + b')
  have h2 : |a' + b' - (a + b)| ≤ x + y := by
    calc |a' + b' - (a + b)| = |(a' - a) + (b' - b)| := by ring_nf
      _ ≤ |a' - a| + |b' - b| := abs_add_le _ _
      _ ≤ x + y := add_le_add ha hb'
  have h3 : |a' + b'| ≤ x + y + (|a| + b) := by
    calc |a' + b'| = |(a' + b' - (a + b)) + (a + b)| := by ring_nf
      _ ≤ |a' + b' - (a + b)| + |a + b| := abs_add_le _ _
      _ ≤ (x + y) + (|a| + |b|) := add_le_add h2 (abs_add_le _ _)
      _ = _ := by rw [abs_of_nonneg hb]
  calc |fl (a' + b') - (a + b)| = |(fl (a' + b') - (a' + b')) + (a' + b' - (a + b))| := by ring_nf
    _ ≤ |fl (a' + b') - (a' + b')| + |a' + b' - (a + b)| := abs_add_le _ _
    _ ≤ |a' + b'| / 2 ^ 53 + (x + y) := add_le_add h1 h2
    _ ≤ (x + y + (|a| + b)) / 2 ^ 53 + (x + y) := by gcongr
    _ = _ := by ring

/-- The core energy in any state. -/
theorem core_close (hf : Rounds fl) (hp : NonNegative ps) (hD : ps.domains.length ≤ 3) (hR : ps.ranks ≤ 10 ^ 12)
    (hN : ps.ranks * ps.devices * ps.banks ≤ 10 ^ 12) {s s1 : Simulator std N} {t : Nat} {st : SimStats} {e : Energy}
    (hst : s.getWindowStats ms sp t = .ok (s1, st)) (h : s.calcCoreEnergy ms sp ps t = .ok (s1, e)) :
    ∃ e', (Arith.rounded fl).calcCoreEnergy ms sp ps s t = .ok (s1, e') ∧ |(Arith.rounded fl).total e' - e.total| ≤
      (46 + 3 * ps.ranks + ps.ranks * ps.devices * ps.banks : Nat) * (5 / 10 ^ 15) * fullTotal std ps st := by
  unfold Simulator.calcCoreEnergy at h
  rw [hst] at h
  have h : (PowerSpec.calcEnergy std ps st >>= fun e => pure (s1, e)) = .ok (s1, e) := h
  obtain ⟨x, hx, h⟩ := bind_ok h
  cases pure_ok h
  obtain ⟨e', h', hc⟩ := C61_total fl hf std ps hp hD hR hN st _ hx
  refine ⟨e', ?_, hc⟩
  unfold Arith.calcCoreEnergy
  rw [hst]
  show (Arith.calcEnergy _ std ps st >>= fun e => pure (s1, e)) = _
  rw [h']
  rfl

/-- The interface energy in any state. -/
theorem interface_close (hf : Rounds fl) (hw : Physical ws) {s s2 : Simulator std N} {t : Nat} {e : InterfaceInfo}
    (h : s.calcInterfaceEnergy ms sp ws t = .ok (s2, e)) :
    ∃ e', (Arith.rounded fl).calcInterfaceEnergy ms sp ws s t = .ok (s2, e') ∧
      |(Arith.rounded fl).interfaceTotal e' - e.total| ≤ 1 / 10 ^ 14 * e.total := by
  unfold Simulator.calcInterfaceEnergy at h
  obtain ⟨⟨s3, st⟩, hst, h⟩ := bind_ok h
  obtain ⟨x, hx, h⟩ := bind_ok h
  cases pure_ok h
  obtain ⟨e', h', _, _, _, _, hc⟩ := C65_close fl hf std ws hw st _ hx
  refine ⟨e', ?_, hc⟩
  unfold Arith.calcInterfaceEnergy
  rw [hst]
  show (Arith.calculateEnergy _ std ws st >>= fun e => pure (s2, e)) = _
  rw [h']
  rfl

/-- In every state of a simulator: whenever the exact total energy `a.total + b.total` exists, the reported one exists and is this close. -/
theorem C72 (hf : Rounds fl) (hp : NonNegative ps) (hD : ps.domains.length ≤ 3) (hR : ps.ranks ≤ 10 ^ 12)
    (hN : ps.ranks * ps.devices * ps.banks ≤ 10 ^ 12) (hw : Physical ws) (s s1 s2 : Simulator std N) (t : Nat) (st : SimStats) (a : Energy)
    (b : InterfaceInfo) (hst : s.getWindowStats ms sp t = .ok (s1, st)) (ha : s.calcCoreEnergy ms sp ps t = .ok (s1, a))
    (hb : s1.calcInterfaceEnergy ms sp ws t = .ok (s2, b)) :
    ∃ e', (Arith.rounded fl).getTotalEnergy ms sp ps ws s t = .ok (s2, e') ∧ |e' - (a.total + b.total)| ≤
      (46 + 3 * ps.ranks + ps.ranks * ps.devices * ps.banks : Nat) * (6 / 10 ^ 15) * fullTotal std ps st + 2 / 10 ^ 14 * (|a.total| + b.total) := by
  obtain ⟨a', ha', ca⟩ := core_close hf hp hD hR hN hst ha
  obtain ⟨b', hb', cb⟩ := interface_close hf hw hb
  refine ⟨fl ((Arith.rounded fl).total a' + (Arith.rounded fl).interfaceTotal b'), ?_, ?_⟩
  · unfold Arith.getTotalEnergy
    rw [ha']
    show ((Arith.rounded fl).calcInterfaceEnergy ms sp ws s1 t >>= _) = _
    rw [hb']
    rfl
  · have hW : 0 ≤ b.total := by
      have := (abs_nonneg _).trans cb
      by_contra hn
      push Not at hn
      linarith
    have hA := (abs_nonneg _).trans ca
    have hW' := (abs_nonneg _).trans cb
    have hab := abs_nonneg a.total
    refine (sum_error hf hW ca cb hA hW').trans ?_
    generalize ((46 + 3 * ps.ranks + ps.ranks * ps.devices * ps.banks : Nat) : Rat) = K at *
    generalize fullTotal std ps st = F at *
    have hP : 0 ≤ K * F := by
      have : K * (5 / 10 ^ 15) * F = 5 / 10 ^ 15 * (K * F) := by ring
      rw [this] at hA
      exact nonneg_of_mul_nonneg_right hA (by norm_num)
    rw [show K * (5 / 10 ^ 15) * F = 5 / 10 ^ 15 * (K * F) by ring, show K * (6 / 10 ^ 15) * F = 6 / 10 ^ 15 * (K * F) by ring]
    norm_num
    linarith

/-- Both fail with the same error, or both succeed and leave the same simulator. -/
def SameOutcome {α β : Type} (x : Except Err (Simulator std N × α)) (y : Except Err (Simulator std N × β)) : Prop :=
  x.map (·.1) = y.map (·.1)

theorem SameOutcome.bind {α β γ δ : Type} {x : Except Err (Simulator std N × α)} {y : Except Err (Simulator std N × β)}
    {f : Simulator std N × α → Except Err (Simulator std N × γ)} {g : Simulator std N × β → Except Err (Simulator std N × δ)}
    (h : SameOutcome x y) (hfg : ∀ s a b, SameOutcome (f (s, a)) (g (s, b))) : SameOutcome (x >>= f) (y >>= g) := by
  cases x with
  | error e => cases y with
    | error e' => injection h with h; subst h; rfl
    | ok v => cases h
  | ok u => cases y with
    | error e' => cases h
    | ok v =>
      obtain ⟨s, a⟩ := u
      obtain ⟨s', b⟩ := v
      have h : (Except.ok s : Except Err _) = .ok s' := h
      injection h with h
      subst h
      exact hfg s a b

theorem SameOutcome.bind_same {α γ δ : Type} (x : Except Err α) {f : α → Except Err (Simulator std N × γ)}
    {g : α → Except Err (Simulator std N × δ)} (hfg : ∀ a, SameOutcome (f a) (g a)) : SameOutcome (x >>= f) (x >>= g) := by
  cases x with
  | error e => rfl
  | ok a => exact hfg a

theorem SameOutcome.of {α : Type} {x y : Except Err α} (s : Simulator std N) (h : ∀ e, x = .error e ↔ y = .error e) :
    SameOutcome (x >>= fun a => pure (s, a)) (y >>= fun a => pure (s, a)) := by
  cases x with
  | error e => rw [(h e).1 rfl]; rfl
  | ok u => cases y with
    | error e => cases (h e).2 rfl
    | ok v => rfl

/-- The reported total energy exists exactly if the exact one does, with the same error otherwise; the simulator is left in the same state. -/
theorem C72_outcome (hf : Rounds fl) (hp : NonNegative ps) (hw : Physical ws) (s : Simulator std N) (t : Nat) :
    SameOutcome ((Arith.rounded fl).getTotalEnergy ms sp ps ws s t) (s.getTotalEnergy ms sp ps ws t) := by
  refine SameOutcome.bind (SameOutcome.bind_same (s.getWindowStats ms sp t) fun v => ?_) fun s1 a a' =>
    SameOutcome.bind (SameOutcome.bind_same (s1.getWindowStats ms sp t) fun v => ?_) fun s2 b b' => rfl
  · exact SameOutcome.of v.1 fun e => C61_outcome fl hf std ps hp v.2 e
  · exact SameOutcome.of v.1 fun e => C65_outcome fl hf std ws hw v.2 e

/-- Without rounding it is the calculation of the other properties. -/
theorem C72_exact (s : Simulator std N) (t : Nat) : Arith.exact.getTotalEnergy ms sp ps ws s t = s.getTotalEnergy ms sp ps ws t := by
  unfold Arith.getTotalEnergy Simulator.getTotalEnergy Arith.calcCoreEnergy Simulator.calcCoreEnergy Arith.calcInterfaceEnergy
    Simulator.calcInterfaceEnergy
  simp only [(C61_exact std ps _ ⟨[], {}⟩).1, (C65_exact std ws _ {}).1]
  rfl

/-- Hence the reported total energy of a trace is close to the power of its core over time and the energy of its waveforms. Restrictions as for
`C67_partial` and `C70_partial`. -/
theorem C72_physical_partial {cs : List ICmd} {s0 s s1 s2 : Simulator std N} {t : Nat} {st : SimStats} {e : Rat} (hf : Rounds fl)
    (hp : NonNegative ps) (hD : ps.domains.length ≤ 3) (hR : ps.ranks ≤ 10 ^ 12) (hN : ps.ranks * ps.devices * ps.banks ≤ 10 ^ 12)
    (hw : Physical ws) (hi : Simulator.init std N ms sp = .ok s0) (hr : s0.run ms sp cs = .done s)
    (hst : s.getWindowStats ms sp t = .ok (s1, st)) (hq : (Arith.rounded fl).getTotalEnergy ms sp ps ws s t = .ok (s2, e))
    (hv : ValidSpec std ms) (hfit : Fits std ms ps) (ht : TameTrace std ms (cs.map ICmd.core)) (hT : ∀ c ∈ cs, c.t ≤ t)
    (hon : sp.enabled = true) (hd : EnergyDefined std ws) (hB : sp.bitWidth * sp.devices ≤ N) (hb : BurstsOver std sp (cs.map .cmd) t)
    (hs : ws.dataRate = sp.dataRate) (hff : WiresFaithful std sp ws (cs.map .cmd)) :
    let core := coreEnergy std ms ps (cs.map ICmd.core) t
    let wires := (interfaceEnergy std ws (expectedStats std sp (sp.dataRate / sp.wckToCk) (cs.map .cmd) t)).total
    |e - (core + wires)| ≤
      (46 + 3 * ps.ranks + ps.ranks * ps.devices * ps.banks : Nat) * (6 / 10 ^ 15) * fullTotal std ps st + 2 / 10 ^ 14 * (|core| + wires) := by
  have ho := C72_outcome (ms := ms) (sp := sp) hf hp hw s t
  rw [hq] at ho
  cases hx : s.getTotalEnergy ms sp ps ws t with
  | error x => rw [hx] at ho; cases ho
  | ok v =>
    obtain ⟨s3, e0⟩ := v
    rw [hx] at ho
    have ho : (Except.ok s2 : Except Err _) = .ok s3 := ho
    injection ho with ho
    subst ho
    have hx0 := hx
    unfold Simulator.getTotalEnergy at hx
    obtain ⟨⟨s4, a⟩, h1, hx⟩ := bind_ok hx
    obtain ⟨⟨s5, b⟩, h2, hx⟩ := bind_ok hx
    have ee := pure_ok hx
    injection ee with e1 e2
    subst e1 e2
    have h41 : s4 = s1 := by
      unfold Simulator.calcCoreEnergy at h1
      rw [hst] at h1
      have h1 : (PowerSpec.calcEnergy std ps st >>= fun e => pure (s1, e)) = .ok (s4, a) := h1
      obtain ⟨x, hx, h⟩ := bind_ok h1
      cases pure_ok h
      rfl
    subst h41
    obtain ⟨e', he', hc⟩ := C72 hf hp hD hR hN hw s s4 s5 t st a b hst h1 h2
    rw [hq] at he'
    injection he' with he'
    injection he' with _ he'
    subst he'
    have hT' := C70_total_partial hi hr hx0 hv hfit ht hT hon hd hB hb hs hff
    have hC := C67_partial hv hfit ht hi hr hT h1
    rw [hC] at hT' hc
    have hb' := add_left_cancel hT'
    rw [hb'] at hc
    exact hc

/-! ## The hypotheses can be met -/

/-- Decimal numbers, rounded to `double`. -/
def c72Power : PowerSpec :=
  { c53Power with domains := c53Power.domains.map fun d => { d with v := Arith.double (11 / 10), i3n := Arith.double (31 / 10) } }

/-- The total energy of a trace with an arithmetic. -/
def c72Total (A : Arith) (std : Std) (cs : List ICmd) (t : Nat) : Option Rat :=
  match Simulator.init std 64 Ex.ms c53If with
  | .error _ => none
  | .ok s => match s.run Ex.ms c53If cs with
    | .done s => match A.getTotalEnergy Ex.ms c53If c72Power c53Wires s t with
      | .ok (_, e) => some e
      | _ => none
    | _ => none

/-- Rounding to `double` changes the total energy of a trace. -/
example (std : Std) : NonNegative c72Power ∧ c72Power.domains.length ≤ 3 ∧ c72Power.ranks ≤ 10 ^ 12 ∧
    c72Power.ranks * c72Power.devices * c72Power.banks ≤ 10 ^ 12 ∧ Physical c53Wires ∧ Rounds Arith.double ∧
    (c72Total (Arith.rounded Arith.double) std (c53Example std) 40).isSome = true ∧
    c72Total (Arith.rounded Arith.double) std (c53Example std) 40 ≠ c72Total Arith.exact std (c53Example std) 40 := by
  refine ⟨⟨by decide +kernel, by decide +kernel, by decide +kernel, ?_, ?_⟩, by decide, by decide, by decide, c53Physical, C61_double.1, ?_, ?_⟩
  · decide +kernel
  · decide +kernel
  · cases std <;> decide +kernel
  · cases std <;> decide +kernel

/-- The further hypotheses of `C72_physical_partial` for the same trace. -/
example (std : Std) : Fits std Ex.ms c72Power ∧ ValidSpec std Ex.ms ∧ TameTrace std Ex.ms ((c53Example std).map ICmd.core) ∧
    (∀ c ∈ c53Example std, c.t ≤ 40) ∧ EnergyDefined std c53Wires ∧ BurstsOver std c53If ((c53Example std).map .cmd) 40 ∧
    WiresFaithful std c53If c53Wires ((c53Example std).map .cmd) := by
  have hf := c67Fits std
  refine ⟨⟨hf.banks, hf.ranks, hf.groups, hf.burst⟩, ?_, ?_, ?_, ?_, ?_, c70Faithful std⟩ <;> cases std <;> decide +kernel

end DRAMPower
