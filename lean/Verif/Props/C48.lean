import Verif.Lemmas.CommandTrace

/-!
# C48: the command bus carries the commands

`Spec.caLine` is the waveform of the command bus, read off the list of calls: every command sent puts the levels of its own
pattern on the wires, the bus is idle otherwise. Nothing in it depends on earlier commands, on the encoder's settings or on
its last word.
-/

namespace DRAMPower
open Spec

/-- The property for the commands `p` admits. -/
def C48_statement (p : Std → ICmd → Prop) : Prop :=
  ∀ (std : Std) (N : Nat) (sp : IfSpec) (ops : List IfOp) (i i' : Interface std N) (t : Nat) (s s' : SimStats),
    Interface.init std N sp = .ok i → i.run sp ops = .ok i' → i'.getWindowStats sp t s = .ok s' →
    (∀ c, .cmd c ∈ ops → p std c) →
    s'.commandBus = Line.stats (commandWires std) (caIdleLevels std) (caLine std sp ops) (t * commandRate std)

theorem caIdle_eq (std : Std) : (fun _ => caIdle std == .H : Levels) = caIdleLevels std := by
  cases std <;> rfl

/-- Every accepted trace and every accepted query: the figures of the command bus are those of the waveform. The one exception:
row bit 18 of LPDDR4 is not transmitted (`C48_violation`). -/
theorem C48_partial : C48_statement fun std c => std = .lpddr4 → c.type = .ACT → c.co.row.testBit 18 = false := by
  intro std N sp ops i i' t s s' hi hr hs hp
  obtain ⟨_, _, hb, _, _, _, _, _, _, hca, hca6, _⟩ := init_parts hi
  have inv : CaInv sp i := ⟨⟨[], by rw [hca]; rfl⟩, by rw [hca6]⟩
  obtain ⟨calls, r1, r2, _, r4⟩ := run_command ops (init_shaped hi) inv hp hr
  have hq := (windowStats_ok hs).1
  have hd : 0 < caRate std := by cases std <;> decide
  rw [accepted_stats (caWidth_pos std) (Nat.le_refl _) hd hb r1 r2 hq, commandWires_eq, commandRate_eq]
  refine (LinesAgree.stats ?_ ?_ _).symm
  · unfold caLine Line.after
    rw [List.foldl_map]
    refine r4 _ _ _ fun k => ⟨_, _, rfl, if_pos rfl, fun j _ => ?_⟩
    rw [← caIdle_eq]
  · intro j _
    rw [← caIdle_eq]

/-- Consequence: in each beat every wire of the bus is counted once, at one of the levels. -/
theorem C48_beats {p : Std → ICmd → Prop} (h : C48_statement p) {std : Std} {N : Nat} {sp : IfSpec} {ops : List IfOp} {i i' : Interface std N}
    {t : Nat} {s s' : SimStats} (hi : Interface.init std N sp = .ok i) (hr : i.run sp ops = .ok i') (hs : i'.getWindowStats sp t s = .ok s')
    (hp : ∀ c, .cmd c ∈ ops → p std c) : s'.commandBus.ones + s'.commandBus.zeroes = commandWires std * (t * commandRate std) := by
  rw [h std N sp ops i i' t s s' hi hr hs hp]
  have hon : ∀ k, (caLine std sp ops k).isSome = true := by
    unfold caLine
    have : ∀ (ops : List IfOp) (l : Line), (∀ k, (l k).isSome = true) → ∀ k, (ops.foldl (caDrive std sp) l k).isSome = true := by
      intro ops
      induction ops with
      | nil => intro l h; exact h
      | cons op ops ih =>
        intro l h
        refine ih _ fun k => ?_
        cases op <;> unfold caDrive <;> try exact h k
        dsimp only
        split
        · rfl
        · exact h k
    exact this ops _ fun _ => rfl
  generalize t * commandRate std = T
  induction T with
  | zero => rfl
  | succ T ih =>
    obtain ⟨a, e⟩ := Option.isSome_iff_exists.1 (hon T)
    rw [Line.stats, Line.at, e]
    have : ∀ w (b a : Levels), (beat w b a).ones + (beat w b a).zeroes = w := by
      intro w b a
      simp only [beat, wires]
      have := List.length_eq_countP_add_countP (l := List.range w) fun j => a j
      simp only [List.length_range] at this
      have e : (List.range w).countP (fun j => !a j) = (List.range w).countP fun j => decide ¬a j = true :=
        List.countP_congr fun j _ => by cases a j <;> simp
      rw [e]
      exact this.symm
    have := this (commandWires std) ((caLine std sp ops).before (caIdleLevels std) T) a
    simp only [BusStats.add_ones, BusStats.add_zeroes]
    rw [Nat.mul_succ, ← ih]
    omega

/-- Eight data wires. -/
def c48Spec : IfSpec := { dataRate := 2, burstLength := 8, bitWidth := 8, devices := 1 }

/-- Twelve data wires. -/
def c48Spec6 : IfSpec := { dataRate := 2, burstLength := 24, bitWidth := 12, devices := 1 }

/-- The command bus figures of a trace. -/
def c48Run (std : Std) (ops : List IfOp) (t : Nat) (sp : IfSpec := c48Spec) : Except Err BusStats := do
  let i ← Interface.init std 16 sp
  let i ← i.run sp ops
  let s ← i.getWindowStats sp t {}
  pure s.commandBus

/-- An LPDDR4 activate of row `2^18`. -/
theorem C48_violation : ¬ C48_statement fun _ _ => True := by
  intro hc
  have key : ∃ x, c48Run .lpddr4 [.cmd { t := 3, type := .ACT, co := { row := 2 ^ 18 } }] 20 = .ok x ∧
      x ≠ Line.stats (commandWires .lpddr4) (caIdleLevels .lpddr4)
        (caLine .lpddr4 c48Spec [.cmd { t := 3, type := .ACT, co := { row := 2 ^ 18 } }]) (20 * commandRate .lpddr4) := by
    refine ⟨{ ones := 1, zeroes := 119, bitChanges := 2, onesToZeroes := 1, zeroesToOnes := 1 }, ?_, ?_⟩ <;> decide +kernel
  obtain ⟨x, h, hx⟩ := key
  unfold c48Run at h
  obtain ⟨i, h1, h⟩ := bind_ok h
  obtain ⟨i', h2, h⟩ := bind_ok h
  obtain ⟨s, h3, h⟩ := bind_ok h
  exact hx ((pure_ok h).symm.trans (hc _ 16 c48Spec _ i i' 20 {} s h1 h2 h3 fun _ _ => trivial))

/-- A trace with an activate, a write of 8 beats, a read of 8 beats and a precharge. -/
def c48Trace : List IfOp :=
  [.cmd { t := 1, type := .ACT, co := { bank := 1, row := 0x155 } },
   .cmd { t := 10, type := .WR, co := { bank := 1, column := 0x2a7 }, nBits := 64, data := some [1, 2, 3, 4, 5, 6, 7, 8] },
   .cmd { t := 20, type := .RD, co := { bank := 1, column := 0x2a7 }, nBits := 64, data := some [1, 2, 3, 4, 5, 6, 7, 8] },
   .cmd { t := 30, type := .PRE, co := { bank := 1 } }]

/-- It meets the hypotheses of `C48_partial` for four standards, and the figures are not trivial. -/
example : (∀ std ∈ [Std.ddr4, .ddr5, .lpddr4, .lpddr5], c48Run std c48Trace 40
      = .ok (Line.stats (commandWires std) (caIdleLevels std) (caLine std c48Spec c48Trace) (40 * commandRate std))) ∧
    (c48Run .lpddr5 c48Trace 40).map (fun s => (s.ones, s.bitChanges)) = .ok (29, 48) := by
  decide +kernel

/-- An activate and a read of 24 beats. -/
def c48Trace6 : List IfOp :=
  [.cmd { t := 1, type := .ACT, co := { bank := 1, row := 0x155 }, dbank := 8 },
   .cmd { t := 10, type := .RD, co := { bank := 1, column := 0x27 }, dbank := 8, nBits := 256, data := some (List.replicate 32 0x5a) }]

/-- The same for LPDDR6. -/
example : c48Run .lpddr6 c48Trace6 40 c48Spec6
      = .ok (Line.stats (commandWires .lpddr6) (caIdleLevels .lpddr6) (caLine .lpddr6 c48Spec6 c48Trace6) (40 * commandRate .lpddr6)) ∧
    (c48Run .lpddr6 c48Trace6 40 c48Spec6).map (fun s => (s.ones, s.bitChanges)) = .ok (20, 22) := by
  decide +kernel

end DRAMPower
