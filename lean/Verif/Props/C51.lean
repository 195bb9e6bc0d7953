import Verif.Props.C50
import Verif.Model.Energy
import Mathlib.Data.Nat.Cast.Field

/-!
# C51: core and interface agree on the duration of a burst

The core charges a current for the time a burst takes, the interface lets the strobes toggle for the time a burst takes.
-/

namespace DRAMPower
open Spec

namespace Spec

/-- The core calculates with the timing and the rates of the interface. -/
structure SameTiming (sp : IfSpec) (ws : WireSpec) (ps : PowerSpec) : Prop where
  tCK : ps.tCK = ws.tCK
  tWCK : ps.tWCK = ws.tWCK
  length : ps.burstLength = sp.burstLength
  data : ps.dataRate = sp.dataRate

/-- The strobes of a direction. -/
def strobeOf (read : Bool) : Group := if read then .readStrobe else .writeStrobe

/-- The time for which each strobe wire of a direction is charged. -/
def strobeTime (std : Std) (sp : IfSpec) (ws : WireSpec) (st : SimStats) (read : Bool) : Rat :=
  (strobeOf read).charged std ws st / (strobeOf read).wires std sp

/-- Power a transfer takes in addition to the background: the voltage times the difference of the currents. -/
def burstPower (ps : PowerSpec) (std : Std) (d : Domain) (read : Bool) : Rat :=
  d.v * ((if read then d.i4r else d.i4w) - ps.I_burst std d)

/-- Traces of full bursts that start and end with clocks and are over at time `t`. -/
structure FullBursts (std : Std) (sp : IfSpec) (read : Bool) (ops : List IfOp) (t : Nat) : Prop where
  length : ∀ b ∈ bursts std sp read ops, b.2 = sp.burstLength
  clocks : sp.dataRate ∣ sp.burstLength
  over : ∀ b ∈ bursts std sp read ops, b.1 * sp.dataRate + b.2 ≤ t * sp.dataRate

end Spec

/-- The property for the standards and specifications `p` admits: the burst energy of the core is the power times the time of the
strobes, in every voltage domain. -/
def C51_statement (p : Std → IfSpec → Prop) : Prop :=
  ∀ (std : Std) (N : Nat) (sp : IfSpec) (ws : WireSpec) (ps : PowerSpec) (ops : List IfOp) (i i' : Interface std N) (t : Nat) (s' : SimStats)
    (read : Bool) (d : Domain),
    SameMemory std sp ws → SameTiming sp ws ps → sp.dataRate % 2 = 0 → (std = .ddr5 → sp.dqsRate = sp.dataRate) →
    Interface.init std N sp = .ok i → i.run sp ops = .ok i' → i'.getWindowStats sp t {} = .ok s' →
    strobeOf read ∈ groups std → FullBursts std sp read ops t → p std sp →
    (if read then ps.eRead std d (bursts std sp read ops).length else ps.eWrite std d (bursts std sp read ops).length)
      = burstPower ps std d read * strobeTime std sp ws s' read

theorem full_sum {n : Nat} : ∀ {l : List (Nat × Nat)}, (∀ b ∈ l, b.2 = n) → (l.map Prod.snd).sum = l.length * n
  | [], _ => by simp
  | b :: l, h => by
    rw [List.map_cons, List.sum_cons, full_sum (l := l) fun x hx => h x (by simp [hx]), h b (by simp), List.length_cons]
    ring

/-- How the two durations are related: the interface takes `WCK2CK` times as long as the core of LPDDR5 and LPDDR6. -/
theorem C51_ratio {std : Std} {N : Nat} {sp : IfSpec} {ws : WireSpec} {ps : PowerSpec} {ops : List IfOp} {i i' : Interface std N} {t : Nat}
    {s' : SimStats} {read : Bool} {d : Domain} (hsame : SameMemory std sp ws) (htime : SameTiming sp ws ps) (heven : sp.dataRate % 2 = 0)
    (hrate : std = .ddr5 → sp.dqsRate = sp.dataRate) (hi : Interface.init std N sp = .ok i) (hr : i.run sp ops = .ok i')
    (hq : i'.getWindowStats sp t {} = .ok s') (hg : strobeOf read ∈ groups std) (hf : FullBursts std sp read ops t) :
    (if read then ps.eRead std d (bursts std sp read ops).length else ps.eWrite std d (bursts std sp read ops).length)
      * (if std = .lpddr5 ∨ std = .lpddr6 then sp.wckToCk else 1 : Nat) = burstPower ps std d read * strobeTime std sp ws s' read := by
  have hd := (init_parts hi).1
  have hd' : (sp.dataRate : Rat) ≠ 0 := by exact_mod_cast Nat.pos_iff_ne_zero.1 hd
  have k := C50_strobe_partial hsame hi hr hq heven hrate read (g := strobeOf read) (by cases read <;> rfl) hg
    (fun b hb => by rw [hf.length b hb]; exact hf.clocks) hf.over
  rw [full_sum hf.length] at k
  have hw : ((strobeOf read).wires std sp : Rat) ≠ 0 := by
    have : (strobeOf read).wires std sp ≠ 0 := by
      cases read <;> cases std <;> simp [strobeOf, Group.wires, Spec.strobeWires] <;> split <;> decide
    exact_mod_cast this
  have ks : strobeTime std sp ws s' read = ((bursts std sp read ops).length * (sp.burstLength / sp.dataRate : Nat) : Rat) * ws.tCK := by
    unfold strobeTime
    rw [k, mul_div_cancel_left₀ _ hw]
    rw [Nat.cast_div hf.clocks hd']
    push_cast
    ring
  rw [ks]
  have e1 : ((ps.burstLength : Rat) / (ps.dataRate : Rat)) = ((sp.burstLength / sp.dataRate : Nat) : Rat) := by
    rw [htime.length, htime.data, Nat.cast_div hf.clocks hd']
  have e2 : (ps.burstLength / ps.dataRate : Nat) = sp.burstLength / sp.dataRate := by rw [htime.length, htime.data]
  have hwck : std = .lpddr5 ∨ std = .lpddr6 → ps.tWCK * sp.wckToCk = ws.tCK := fun hm => by rw [htime.tWCK, hsame.wck hm]; ring
  have hck := htime.tCK
  cases read <;> cases std <;>
    simp only [PowerSpec.eRead, PowerSpec.eWrite, E_burst, E_RD_ddr, PowerSpec.tBurst, burstPower, e1, e2, hck, if_true, if_false, Bool.false_eq_true,
      reduceCtorEq, or_false, or_true, Nat.cast_one, mul_one] <;>
    first
    | ring1
    | (rw [← hwck (by decide)]; ring1)

/-- Every accepted trace of full bursts, all standards: LPDDR5 and LPDDR6 only with equal clocks (`C51_violation`). -/
theorem C51_partial : C51_statement fun std sp => std = .lpddr5 ∨ std = .lpddr6 → sp.wckToCk = 1 := by
  intro std N sp ws ps ops i i' t s' read d hsame htime heven hrate hi hr hq hg hf hp
  rw [← C51_ratio hsame htime heven hrate hi hr hq hg hf]
  have : (if std = .lpddr5 ∨ std = .lpddr6 then sp.wckToCk else 1 : Nat) = 1 := by
    split
    · exact hp ‹_›
    · rfl
  rw [this, Nat.cast_one, mul_one]

/-- Timing and currents: a clock of 8 ns, `n` data clocks in it. -/
def c51Power (n : Nat) : PowerSpec :=
  { tCK := 8, tWCK := 8 / n, tRAS := 10, tRP := 10, tRFC := 20, tRFCpb := 20, tREFI := 100, rho := 1, burstLength := 8, dataRate := 2, banks := 16
    bankGroups := 4, ranks := 1, devices := 1, arch := .mbg, domains := [] }

/-- One voltage domain. -/
def c51Domain : Domain :=
  { v := 1, i0 := 20, i2n := 5, i3n := 9, i2p := 1, i3p := 2, i4r := 50, i4w := 60, i5x := 70, i5c := 0, i5pb := 0, i6n := 1, i6ds := 0, iBeta := 20 }

/-- Two reads. -/
def c51Trace : List IfOp :=
  [.cmd { t := 10, type := .RD, nBits := 64, data := some [1, 2, 3, 4, 255, 6, 0, 8] },
   .cmd { t := 20, type := .RD, nBits := 64, data := some [1, 254, 3, 0, 5, 6, 0x7f, 8] }]

/-- Burst energy of the core, power times the time of the strobes. -/
def c51Run (std : Std) (n : Nat) : Except Err (Rat × Rat) :=
  (c50Run std (c50Spec 2 n) c51Trace 40).map fun s =>
    ((c51Power n).eRead std c51Domain 2, burstPower (c51Power n) std c51Domain true * strobeTime std (c50Spec 2 n) (c50Wires 2 n) s true)

/-- With the rates of the shipped LPDDR5 and LPDDR6 specifications a burst lasts twice as long for the strobes as for the core. -/
theorem C51_violation : ¬ C51_statement fun std sp => std = .lpddr5 ∧ sp.dataRate = 2 ∧ sp.wckToCk = 2 := by
  intro hc
  have key : ∃ x, c51Run .lpddr5 2 = .ok x ∧ x.1 ≠ x.2 := ⟨(1312, 2624), by decide +kernel, by decide +kernel⟩
  obtain ⟨x, h, hx⟩ := key
  unfold c51Run at h
  cases hr : c50Run .lpddr5 (c50Spec 2 2) c51Trace 40 with
  | error e => rw [hr] at h; cases h
  | ok s =>
    rw [hr] at h
    have e := Except.ok.inj h
    unfold c50Run at hr
    obtain ⟨i, h1, hr⟩ := bind_ok hr
    obtain ⟨i', h2, h3⟩ := bind_ok hr
    have := hc .lpddr5 16 (c50Spec 2 2) (c50Wires 2 2) (c51Power 2) c51Trace i i' 40 s true c51Domain
      ⟨rfl, nofun, fun _ => by decide +kernel⟩ ⟨rfl, rfl, rfl, rfl⟩ rfl nofun h1 h2 h3 (by decide)
      ⟨by decide, by decide, by decide⟩ ⟨rfl, rfl, rfl⟩
    rw [← e] at hx
    exact hx this

/-- `C51_partial` and `C51_ratio` for four standards; with equal clocks the energies are equal and not zero. -/
example : FullBursts .ddr4 (c50Spec 2 1) true c51Trace 40 ∧ FullBursts .lpddr5 (c50Spec 2 1) true c51Trace 40 ∧
    SameTiming (c50Spec 2 1) (c50Wires 2 1) (c51Power 1) ∧
    (c51Run .ddr4 1).map (fun x => x.1 == x.2 && x.1 != 0) = .ok true ∧ (c51Run .ddr5 1).map (fun x => x.1 == x.2 && x.1 != 0) = .ok true ∧
    (c51Run .lpddr4 1).map (fun x => x.1 == x.2 && x.1 != 0) = .ok true ∧ (c51Run .lpddr5 1).map (fun x => x.1 == x.2 && x.1 != 0) = .ok true :=
  ⟨⟨by decide, by decide, by decide⟩, ⟨by decide, by decide, by decide⟩, ⟨rfl, rfl, rfl, rfl⟩, by decide +kernel, by decide +kernel, by decide +kernel,
    by decide +kernel⟩

end DRAMPower
