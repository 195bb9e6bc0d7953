import Verif.Lemmas.InversionTrace
import Verif.Props.C49

/-!
# C52: the inversion pins carry the inversion flags

`Spec.markLine` is the waveform of an inversion pin, read off the list of calls: during a transfer with inversion, beat `k` of pin
`p` tells whether byte `p` of that beat is inverted; the pin is at its idle level otherwise. `Spec.markStats` are the
figures of all pins of a direction.
-/

namespace DRAMPower
open Spec

/-- The property for specifications and traces `p` admits; `beats` is the time base of the query. -/
def C52_statement (p : Std → IfSpec → List IfOp → Prop) (beats : IfSpec → Nat → Nat) : Prop :=
  ∀ (std : Std) (N : Nat) (sp : IfSpec) (ops : List IfOp) (i i' : Interface std N) (t : Nat) (s s' : SimStats),
    Interface.init std N sp = .ok i → i.run sp ops = .ok i' → i'.getWindowStats sp t s = .ok s' → WholeBeats sp ops → Ends ops → p std sp ops →
    s'.readDBI = markStats std sp (marked std sp true {} ops) (beats sp t) s.readDBI ∧
    s'.writeDBI = markStats std sp (marked std sp false {} ops) (beats sp t) s.writeDBI

/-- No transfer with inversion ends with an inverted byte when a gap follows before the next one of its direction. -/
def SettlingBoth (std : Std) (sp : IfSpec) (ops : List IfOp) : Prop :=
  ∀ read, Settling (inversionPins std sp) (marked std sp read {} ops)

section
variable {std : Std} {N : Nat} {sp : IfSpec} {i i' : Interface std N} {t : Nat} {s s' : SimStats} {ops : List IfOp}

theorem init_bytes (h5 : std ≠ .ddr5) (h6 : std ≠ .lpddr6) (hi : Interface.init std N sp = .ok i) :
    8 * bytesOf sp = sp.devices * sp.bitWidth ∧ 0 < bytesOf sp ∧ ∀ r, (i.dbi.last r).init = false := by
  obtain ⟨_, hw, _, _, _, _, _, _, _, _, _, _, _, _, _, hd⟩ := init_parts hi
  obtain ⟨hcs, _, _, hwd⟩ := dbi_chunks (std := std) (sp := sp) h6
  unfold Interface.initDbi at hd
  rw [if_neg h5] at hd
  unfold Dbi.init at hd
  rw [hwd, hcs] at hd
  dsimp only at hd
  split at hd
  · rename_i h8
    rw [Nat.mul_comm] at hw
    unfold bytesOf
    refine ⟨by omega, by omega, fun r => ?_⟩
    rw [← Except.ok.inj hd]
    cases r <;> rfl
  · cases hd

theorem init_track (h5 : std ≠ .ddr5) (h6 : std ≠ .lpddr6) (hi : Interface.init std N sp = .ok i) (r : Bool) : Track sp r [] false i := by
  obtain ⟨_, _, k3⟩ := init_bytes h5 h6 hi
  obtain ⟨_, _, _, hb, _, _, _, _, _, _, _, _, p1, p2, _, _⟩ := init_parts hi
  obtain ⟨ok, hm, ir, iw, c1, c2, b1, b2, t1, t2⟩ := data_init hb
  have hbus : (i.dataBus.bus (dirOf r)).datarate = sp.dataRate ∧ (i.dataBus.bus (dirOf r)).width = sp.bitWidth * sp.devices := by
    have bi : ∀ {b : Bus N} {w dr : Nat} {pat : IdlePattern} {en : Bool}, Bus.init N w dr pat en = .ok b → b.datarate = dr ∧ b.width = w := by
      intro b w dr pat en h
      unfold Bus.init at h
      split at h
      · cases h
      · rw [← Except.ok.inj h]; exact ⟨rfl, rfl⟩
    cases r
    · exact bi b2
    · exact bi b1
  have hpins : i.pinsOf r = List.replicate (bytesOf sp) (Pin.init (pinSize std) (plainLevel std) (plainLevel std)) := by
    have : sp.pins std = List.replicate (bytesOf sp) (Pin.init (pinSize std) (plainLevel std) (plainLevel std)) := by
      unfold IfSpec.pins
      rw [plain_eq]
      exact if_pos (by cases std <;> first | rfl | contradiction)
    cases r
    · exact p2.trans this
    · exact p1.trans this
  refine ⟨ok, hbus.1, hbus.2, ?_, fun p hp => ?_, fun _ => k3 r, fun L' b e => absurd e (by simp), nofun, nofun⟩
  · rw [hpins, List.length_replicate]
  · refine ⟨_, [], by rw [hpins, List.getElem?_replicate, if_pos hp], rfl, trivial, Or.inl rfl⟩

theorem no_pins (h : std = .ddr5 ∨ std = .lpddr6) (hi : Interface.init std N sp = .ok i) (hr : i.run sp ops = .ok i') : i'.pinsRead = [] ∧ i'.pinsWrite = [] := by
  have k := run_full ops (init_full hi) hr
  have e : sp.pins std = [] := by
    unfold IfSpec.pins
    exact if_neg (by rcases h with h | h <;> (subst h; nofun))
  rw [e] at k
  exact ⟨List.eq_nil_of_length_eq_zero k.reads, List.eq_nil_of_length_eq_zero k.writes⟩

/-- Every accepted trace in which no transfer with an inverted last beat is followed by a gap and another transfer, and every
later query: the figures are those of the waveforms for twice as many beats as clock cycles.
Missing from the property: transfers after a gap (`C52_violation`, `C52_violation_ddr4`) and other data rates than 2
(`C52_violation_rate`). -/
theorem C52_partial : C52_statement SettlingBoth fun _ t => t * 2 := by
  intro std N sp ops i i' t s s' hi hr hq hwh hends hset
  obtain ⟨_, _, q1, q2, _⟩ := windowStats_ok hq
  by_cases h : std = .ddr5 ∨ std = .lpddr6
  · obtain ⟨e1, e2⟩ := no_pins h hi hr
    rw [e1] at q1
    rw [e2] at q2
    have hn : inversionPins std sp = 0 := if_pos h
    unfold markStats
    rw [hn]
    exact ⟨(pure_ok q1).symm, (pure_ok q2).symm⟩
  · obtain ⟨h5, h6⟩ := not_or.1 h
    obtain ⟨hw, hn, _⟩ := init_bytes h5 h6 hi
    have hpins : inversionPins std sp = bytesOf sp := if_neg h
    have go : ∀ r, ∃ ended, Track sp r (marked std sp r {} ops) ended i' := by
      intro r
      have := hset r
      rw [hpins] at this
      exact run_track h5 h6 hw hn r ops (init_shaped hi) (init_set hi) (init_track h5 h6 hi r) this hwh hends nofun hr
    obtain ⟨_, k1⟩ := go true
    obtain ⟨_, k2⟩ := go false
    exact ⟨k1.pins.stats h5 h6 q1, k2.pins.stats h5 h6 q2⟩

/-- With data rate 2 the time base is right. -/
theorem C52_double_partial : C52_statement (fun std sp ops => SettlingBoth std sp ops ∧ sp.dataRate = 2) fun sp t => t * sp.dataRate := by
  intro std N sp ops i i' t s s' hi hr hq hwh hends hset
  dsimp only
  rw [hset.2]
  exact C52_partial std N sp ops i i' t s s' hi hr hq hwh hends hset.1

/-- Without inversion the pins are idle all the time. -/
theorem C52_off {r : Bool} : ∀ {ops : List IfOp} {m : Setting}, m.inverting = false → .dbi true ∉ ops → marked std sp r m ops = []
  | [], _, _, _ => rfl
  | op :: ops, m, hm, h => by
    have h1 : markedOf std sp r m op = none := by
      cases op with
      | cmd c =>
        cases hx : c.data with
        | none => simp only [markedOf, hx]
        | some x =>
          simp only [markedOf, hx]
          exact if_neg fun k => by rw [hm] at k; exact absurd k.2.1 (by simp)
      | _ => rfl
    have h2 : (m.after op).inverting = false := by
      cases op with
      | dbi e =>
        cases e with
        | false => rfl
        | true => exact absurd (by simp) h
      | _ => exact hm
    rw [marked, h1, C52_off h2 fun k => h (List.mem_cons_of_mem _ k)]
    rfl

end

/-! ## Examples and witnesses -/

/-- The figures of the inversion pins. -/
def c52Run (std : Std) (sp : IfSpec) (ops : List IfOp) (t : Nat) : Except Err (BusStats × BusStats) := do
  let i ← Interface.init std 32 sp
  let i ← i.run sp ops
  let s ← i.getWindowStats sp t {}
  pure (s.readDBI, s.writeDBI)

/-- The figures of the waveforms. -/
def c52Lines (std : Std) (sp : IfSpec) (ops : List IfOp) (t : Nat) : BusStats × BusStats :=
  (markStats std sp (marked std sp true {} ops) (t * sp.dataRate) {}, markStats std sp (marked std sp false {} ops) (t * sp.dataRate) {})

/-- Sixteen data wires. -/
def c52Spec : IfSpec := { dataRate := 2, burstLength := 8, bitWidth := 16, devices := 1 }

/-- Bytes of the low and high wires. -/
def c52Data (a b : List UInt8) : List UInt8 := (a.zip b).flatMap fun x => [x.1, x.2]

/-- Three writes with inversion: a gap after the first, none after the second. The last byte of the first two is inverted
by LPDDR4 and LPDDR5. -/
def c52Gap (inverting : Bool) : List IfOp :=
  [.dbi inverting,
   .cmd { t := 10, type := .WR, nBits := 128, data := some (c52Data [1, 2, 3, 4, 5, 6, 7, 8] [1, 2, 3, 4, 5, 6, 7, 255]) },
   .cmd { t := 20, type := .WR, nBits := 128, data := some (c52Data [1, 2, 3, 4, 5, 6, 7, 8] [1, 2, 3, 4, 5, 6, 7, 255]) },
   .cmd { t := 24, type := .WR, nBits := 128, data := some (c52Data [1, 2, 3, 4, 5, 6, 7, 8] [1, 2, 3, 4, 5, 6, 7, 8]) }]

theorem c52_refute {p : Std → IfSpec → List IfOp → Prop} {std : Std} {sp : IfSpec} {ops : List IfOp} {t : Nat} {x : BusStats × BusStats}
    (h : c52Run std sp ops t = .ok x) (hw : WholeBeats sp ops) (he : Ends ops) (hp : p std sp ops) (hne : x ≠ c52Lines std sp ops t) :
    ¬ C52_statement p fun sp t => t * sp.dataRate := by
  intro hc
  unfold c52Run at h
  obtain ⟨i, h1, h⟩ := bind_ok h
  obtain ⟨i', h2, h⟩ := bind_ok h
  obtain ⟨s, h3, h⟩ := bind_ok h
  have e := pure_ok h
  obtain ⟨k1, k2⟩ := hc _ 32 sp _ i i' t {} s h1 h2 h3 hw he hp
  refine hne ?_
  rw [← e, k1, k2]
  rfl

/-- Two beats are flagged; the pins carry one flag: the flags of the second write come one beat late, the last one is overwritten by
the third write. -/
theorem C52_violation : ¬ C52_statement (fun _ sp _ => sp.dataRate = 2) fun sp t => t * sp.dataRate := by
  refine c52_refute (std := .lpddr4) (sp := c52Spec) (ops := c52Gap true) (t := 40)
    (x := ({ ones := 0, zeroes := 160, bitChanges := 0, onesToZeroes := 0, zeroesToOnes := 0 },
      { ones := 1, zeroes := 159, bitChanges := 2, onesToZeroes := 1, zeroesToOnes := 1 })) ?_ ?_ ?_ rfl ?_
  · decide +kernel
  · intro c hc
    simp only [c52Gap, List.mem_cons, List.not_mem_nil, or_false, reduceCtorEq, false_or, IfOp.cmd.injEq] at hc
    rcases hc with e | e | e <;> (subst e; rfl)
  · unfold Ends c52Gap
    simp
  · decide +kernel

/-- The flags of the waveform and of the pins. -/
example : (c52Lines .lpddr4 c52Spec (c52Gap true) 40).2.ones = 2 ∧ (c52Run .lpddr5 c52Spec (c52Gap true) 40).map (·.2.ones) = .ok 1 := by decide +kernel

/-- Two writes with inversion and a gap of six clock cycles; the last byte of the first is inverted by DDR4. -/
def c52Refused (inverting : Bool) : List IfOp :=
  [.dbi inverting, .cmd { t := 10, type := .WR, nBits := 128, data := some (List.replicate 15 255 ++ [0]) },
   .cmd { t := 20, type := .WR, nBits := 128, data := some (List.replicate 16 255) }]

/-- DDR4: the pin has room for the eight beats of a burst, but the idle level before the second one makes nine, and the trace is refused.
Without inversion it is accepted. -/
theorem C52_violation_ddr4 : (∃ x, c52Run .ddr4 c52Spec (c52Refused false) 40 = .ok x) ∧
    c52Run .ddr4 c52Spec (c52Refused true) 40 = .error (.assertion "bitset_size not enough") :=
  ⟨⟨({ ones := 160, zeroes := 0, bitChanges := 0, onesToZeroes := 0, zeroesToOnes := 0 },
    { ones := 160, zeroes := 0, bitChanges := 0, onesToZeroes := 0, zeroesToOnes := 0 }), by decide +kernel⟩, by decide +kernel⟩

/-- A write, two reads without a gap, a read after a gap, and the end of the simulation; both pins flag beats, the last beat before the gap is not
flagged, the last beat of all is. -/
def c52Trace : List IfOp :=
  [.dbi true, .cmd { t := 2, type := .ACT },
   .cmd { t := 10, type := .WR, nBits := 128, data := some (c52Data [0, 255, 3, 254, 0, 6, 255, 8] [1, 0, 255, 4, 0, 127, 7, 255]) },
   .cmd { t := 20, type := .RD, nBits := 128, data := some (c52Data [0, 255, 3, 254, 0, 6, 255, 0] [1, 0, 255, 4, 0, 127, 7, 255]) },
   .cmd { t := 24, type := .RD, nBits := 128, data := some (c52Data [255, 0, 3, 254, 0, 6, 255, 0x0f] [255, 255, 255, 4, 0, 127, 7, 0x0f]) },
   .cmd { t := 30, type := .RD, nBits := 128, data := some (c52Data [0, 255, 3, 254, 0, 6, 255, 0] [1, 0, 255, 4, 0, 127, 7, 255]) },
   .cmd { t := 70, type := .END_OF_SIMULATION }]

def settlingDec (n : Nat) : (l : List Marked) → Decidable (Settling n l)
  | [] => .isTrue trivial
  | [_] => .isTrue trivial
  | a :: b :: l => @instDecidableAnd _ _ (inferInstanceAs (Decidable (b.start ≤ a.stop ∨ ∀ p < n, a.flag (a.beats - 1) p = false))) (settlingDec n (b :: l))

instance (n : Nat) (l : List Marked) : Decidable (Settling n l) := settlingDec n l

/-- It meets the hypotheses of `C52_partial` and `C52_double_partial` for three standards. -/
example : (∀ std ∈ [Std.ddr4, .lpddr4, .lpddr5], SettlingBoth std c52Spec c52Trace) ∧ WholeBeats c52Spec c52Trace ∧ Ends c52Trace ∧
    (∀ std ∈ [Std.ddr4, .lpddr4, .lpddr5], c52Run std c52Spec c52Trace 80 = .ok (c52Lines std c52Spec c52Trace 80)) ∧
    (c52Run .ddr4 c52Spec c52Trace 80).map (fun s => (s.1.zeroes, s.1.bitChanges, s.2.zeroes, s.2.bitChanges)) = .ok (27, 36, 10, 14) ∧
    (c52Run .lpddr4 c52Spec c52Trace 80).map (fun s => (s.1.ones, s.1.bitChanges, s.2.ones, s.2.bitChanges)) = .ok (19, 32, 6, 12) := by
  refine ⟨?_, ?_, ?_, ?_⟩
  · intro std hstd read
    revert std
    cases read <;> decide +kernel
  · intro c hc
    simp only [c52Trace, List.mem_cons, List.not_mem_nil, or_false, reduceCtorEq, false_or, IfOp.cmd.injEq] at hc
    rcases hc with e | e | e | e | e | e <;> (subst e; rfl)
  · unfold Ends c52Trace
    simp
  · decide +kernel

/-- A read with inversion at a data rate of 8. -/
def c52Fast : List IfOp := [.dbi true, .cmd { t := 1, type := .RD, nBits := 128, data := some (List.replicate 16 255) }]

/-- Data rate 8: twenty of the eighty beats of either pin are counted. -/
theorem C52_violation_rate : ¬ C52_statement SettlingBoth fun sp t => t * sp.dataRate := by
  refine c52_refute (std := .lpddr5) (sp := { c52Spec with dataRate := 8 }) (ops := c52Fast) (t := 10) (x := ({ ones := 16, zeroes := 24, bitChanges := 4, onesToZeroes := 2, zeroesToOnes := 2 },
      { ones := 0, zeroes := 40, bitChanges := 0, onesToZeroes := 0, zeroesToOnes := 0 })) ?_ ?_ ?_ ?_ ?_
  · decide +kernel
  · intro c hc
    simp only [c52Fast, List.mem_cons, List.not_mem_nil, or_false, reduceCtorEq, false_or, IfOp.cmd.injEq] at hc
    subst hc; rfl
  · unfold Ends c52Fast
    simp
  · intro read
    cases read <;> decide +kernel
  · decide +kernel

end DRAMPower
