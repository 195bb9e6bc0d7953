import Verif.Lemmas.PinCost
import Verif.Props.C49
import Verif.Props.C52
import Verif.Props.C89

/-!
# C92: data bus inversion never makes the levels of the data wires more expensive

The same commands, once with and once without inversion, payloads simulated bit by bit.
-/

namespace DRAMPower
open Spec

variable {std : Std} {N : Nat} {sp : IfSpec}

/-- Costly levels on the data wires and inversion lines of a direction: low for a pull-up, high for a pull-down. -/
def costlyLevels (std : Std) (read : Bool) (s : SimStats) : Nat :=
  if read then Group.lossy std s.readBus + Group.lossy std s.readDBI else Group.lossy std s.writeBus + Group.lossy std s.writeDBI

/-- The claim, for the sessions with inversion and query times a restriction allows: the second session makes the same commands and never switches
inversion on. -/
def C92_claim (std : Std) (restriction : IfSpec → List IfOp → Nat → Prop) : Prop :=
  ∀ (N : Nat) (sp : IfSpec) (ops plain : List IfOp) (i a b : Interface std N) (t : Nat) (x y : SimStats), sp.toggling = none →
    sp.bitWidth * sp.devices ≤ N →
    Interface.init std N sp = .ok i → i.run sp ops = .ok a → i.run sp plain = .ok b → commandsOf plain = commandsOf ops → .dbi true ∉ plain →
    a.getWindowStats sp t {} = .ok x → b.getWindowStats sp t {} = .ok y → restriction sp ops t →
    ∀ read, costlyLevels std read x ≤ costlyLevels std read y

/-- The full claim. -/
def C92_statement (std : Std) : Prop := C92_claim std fun _ _ _ => True

/-- No transfer is going on. -/
def TransfersOver (std : Std) (sp : IfSpec) (ops : List IfOp) (t : Nat) : Prop :=
  ∀ c ∈ commandsOf ops, direction c.type ≠ none → c.t * sp.dataRate + dataBeats std sp c ≤ t * sp.dataRate

theorem slots_same (read : Bool) (ops : List IfOp) : ops.filterMap (slotOf std sp read) = (commandsOf ops).filterMap (burstSlot std sp read) := by
  induction ops with
  | nil => rfl
  | cons op ops ih =>
    unfold commandsOf at *
    cases op with
    | cmd c => simp only [List.filterMap_cons, slotOf]; rw [← ih]
    | _ => simpa only [List.filterMap_cons, slotOf] using ih

/-- Between transfers, inversion never costs anything: all standards but LPDDR6. -/
theorem C92_partial (h6 : std ≠ .lpddr6) : C92_claim std fun sp ops t => TransfersOver std sp ops t ∧ WholeBeats sp ops := by
  intro N sp ops plain i a b t x y ht hN hi ha hb hsame hp hx hy ⟨hover, hw⟩ read
  obtain ⟨a1, a2, _, _⟩ := C49_partial std N sp ops i a t {} x ht hN hi ha hx (fun h => absurd h h6)
  obtain ⟨b1, b2, _, _⟩ := C49_partial std N sp plain i b t {} y ht hN hi hb hy (fun h => absurd h h6)
  have hP : std ≠ .ddr5 → 8 * inversionPins std sp = dataWidth sp := by
    intro h5
    have := (init_bytes h5 h6 hi).1
    unfold inversionPins dataWidth
    rw [if_neg (by rintro (h | h); exacts [h5 h, h6 h]), Nat.mul_comm sp.bitWidth]
    exact this
  have hA : ∀ r, Group.lossy std (Line.stats (sp.bitWidth * sp.devices) (caIdleLevels std) (dataLine std sp r ops) (t * sp.dataRate)) ≤
      runCost std sp r {} ops := by
    intro r
    have h := run_cost_le (std := std) (sp := sp) (read := r) ops {} (fun _ => some (caIdleLevels std)) (t * sp.dataRate)
    have h0 : upTo (t * sp.dataRate) (fun k => beatCost std sp ((fun _ : Nat => some (caIdleLevels std)) k)) = 0 :=
      Eq.trans (upTo_congr (g := fun _ => 0) fun k _ => idle_cost k) (upTo_zero _)
    rw [h0, Nat.zero_add] at h
    exact Nat.le_trans (Nat.le_of_eq (lossy_line (sp := sp) _ _ _)) h
  have hB : ∀ r, runCost std sp r {} plain ≤
      Group.lossy std (Line.stats (sp.bitWidth * sp.devices) (caIdleLevels std) (dataLine std sp r plain) (t * sp.dataRate)) := by
    intro r
    have hs := (C89_slots hi hb).2 r
    rw [← slots_same] at hs
    have h := run_cost_ge (std := std) (sp := sp) (read := r) ht (T := t * sp.dataRate) plain {} (fun _ => some (caIdleLevels std)) 0
      (fun k _ => idle_cost k) hs (fun z hz => by
        rw [slots_same] at hz
        obtain ⟨c, hc, hz⟩ := List.mem_filterMap.1 hz
        unfold burstSlot at hz
        split at hz
        · rename_i hd
          cases hz
          exact ⟨Nat.zero_le _, hover c (hsame ▸ hc) (by rw [hd.1]; exact fun h => by cases h)⟩
        · cases hz)
    refine Nat.le_trans (Nat.le_trans (Nat.le_add_left _ _) h) (Nat.le_of_eq (lossy_line (sp := sp) _ _ _).symm)
  have hC : ∀ r, runCost std sp r {} ops + upTo (inversionPins std sp) (marksOf (marked std sp r {} ops)) ≤ runCost std sp r {} plain := by
    intro r
    rw [plain_cost rfl hp h6, hsame]
    exact run_saves h6 hP ops {}
  have hM : Group.lossy std x.readDBI ≤ upTo (inversionPins std sp) (marksOf (marked std sp true {} ops)) ∧
      Group.lossy std x.writeDBI ≤ upTo (inversionPins std sp) (marksOf (marked std sp false {} ops)) := by
    by_cases h5 : std = .ddr5
    · obtain ⟨_, _, q1, q2, _⟩ := windowStats_ok hx
      obtain ⟨e1, e2⟩ := no_pins (.inl h5) hi ha
      rw [e1] at q1
      rw [e2] at q2
      rw [← pure_ok q1, ← pure_ok q2]
      cases std <;> exact ⟨Nat.zero_le _, Nat.zero_le _⟩
    · obtain ⟨l1, l2⟩ := lines_cost h5 h6 hi (init_set hi) ha hx
      exact ⟨Nat.le_trans l1 (flags_marks h6 (hP h5) true ops {} hw), Nat.le_trans l2 (flags_marks h6 (hP h5) false ops {} hw)⟩
  have z : ∀ s : BusStats, Group.lossy std (({} : BusStats) + s) = Group.lossy std s := by
    intro s
    rw [lossy_add]
    cases std <;> exact Nat.zero_add _
  unfold costlyLevels
  cases read with
  | true =>
    have h1 := hA true; have h2 := hB true; have h3 := hC true; have h4 := hM.1
    rw [if_pos rfl, if_pos rfl, a1, b1]
    show Group.lossy std (({} : BusStats) + _) + _ ≤ Group.lossy std (({} : BusStats) + _) + _
    rw [z, z]
    omega
  | false =>
    have h1 := hA false; have h2 := hB false; have h3 := hC false; have h4 := hM.2
    rw [if_neg (by decide), if_neg (by decide), a2, b2]
    show Group.lossy std (({} : BusStats) + _) + _ ≤ Group.lossy std (({} : BusStats) + _) + _
    rw [z, z]
    omega

/-! ## DDR5: inversion changes nothing -/

theorem line_same (read : Bool) : ∀ (ops : List IfOp) (m m' : Setting) (line : Line),
    dataLineFrom .ddr5 sp read m line ops = dataLineFrom .ddr5 sp read m' line ((commandsOf ops).map .cmd)
  | [], _, _, _ => rfl
  | op :: ops, m, m', line => by
    cases op with
    | cmd c =>
      have h : dataDrive .ddr5 sp read m line (.cmd c) = dataDrive .ddr5 sp read m' line (.cmd c) := by
        have hw : ∀ d b, dataWires .ddr5 sp m c d b = dataWires .ddr5 sp m' c d b := by
          intro d b
          funext j
          simp [dataWires, dataBit, invertedBit, flagged]
        simp only [dataDrive, hw]
      show dataLineFrom .ddr5 sp read (m.after (.cmd c)) _ ops = dataLineFrom .ddr5 sp read (m'.after (.cmd c)) _ ((commandsOf ops).map .cmd)
      rw [h]
      exact line_same read ops _ _ _
    | _ => exact line_same read ops _ _ _

/-- DDR5 has no inversion lines, and its bus is never inverted. -/
theorem C92_ddr5 : C92_statement .ddr5 := by
  intro N sp ops plain i a b t x y ht hN hi ha hb hsame hp hx hy _ read
  obtain ⟨a1, a2, _, _⟩ := C49_partial .ddr5 N sp ops i a t {} x ht hN hi ha hx (fun h => by cases h)
  obtain ⟨b1, b2, _, _⟩ := C49_partial .ddr5 N sp plain i b t {} y ht hN hi hb hy (fun h => by cases h)
  have hl : ∀ r, dataLine .ddr5 sp r ops = dataLine .ddr5 sp r plain := fun r => by
    unfold dataLine
    rw [line_same r ops {} {} _, line_same r plain {} {} _, hsame]
  have e : ∀ {ops : List IfOp} {a : Interface .ddr5 N} {x : SimStats}, i.run sp ops = .ok a → a.getWindowStats sp t {} = .ok x →
      x.readDBI = {} ∧ x.writeDBI = {} := by
    intro ops a x hr hq
    obtain ⟨_, _, q1, q2, _⟩ := windowStats_ok hq
    obtain ⟨e1, e2⟩ := no_pins (.inl rfl) hi hr
    rw [e1] at q1
    rw [e2] at q2
    exact ⟨(pure_ok q1).symm, (pure_ok q2).symm⟩
  unfold costlyLevels
  rw [a1, a2, b1, b2, hl, hl, (e ha hx).1, (e ha hx).2, (e hb hy).1, (e hb hy).2]

/-! ## Examples and witnesses -/

/-- Costly levels of the read and write side at a query. -/
def c92Run (std : Std) (sp : IfSpec) (ops : List IfOp) (t : Nat) : Except Err (Nat × Nat) := do
  let i ← Interface.init std 32 sp
  let i ← i.run sp ops
  let s ← i.getWindowStats sp t {}
  pure (costlyLevels std true s, costlyLevels std false s)

theorem c92_refute {std : Std} {sp : IfSpec} {ops plain : List IfOp} {t : Nat} {x y : Nat × Nat} {restriction : IfSpec → List IfOp → Nat → Prop}
    (hx : c92Run std sp ops t = .ok x) (hy : c92Run std sp plain t = .ok y) (ht : sp.toggling = none) (hN : sp.bitWidth * sp.devices ≤ 32)
    (hs : commandsOf plain = commandsOf ops) (hp : .dbi true ∉ plain) (hr : restriction sp ops t) (hlt : y.1 < x.1) : ¬ C92_claim std restriction := by
  intro hc
  unfold c92Run at hx hy
  obtain ⟨i, h1, hx⟩ := bind_ok hx
  obtain ⟨a, h2, hx⟩ := bind_ok hx
  obtain ⟨s, h3, hx⟩ := bind_ok hx
  obtain ⟨i', k1, hy⟩ := bind_ok hy
  obtain ⟨b, k2, hy⟩ := bind_ok hy
  obtain ⟨s', k3, hy⟩ := bind_ok hy
  have e1 := pure_ok hx
  have e2 := pure_ok hy
  obtain rfl := ok_inj (h1.symm.trans k1)
  have h := hc 32 sp ops plain i a b t s s' ht hN h1 h2 k2 hs hp h3 k3 hr true
  rw [← e1, ← e2] at hlt
  exact absurd hlt (Nat.not_lt.2 h)

/-- Eight data wires. -/
def c92Spec : IfSpec := { dataRate := 2, burstLength := 4, bitWidth := 8, devices := 1 }

/-- A read of four bytes. -/
def c92Burst (d : List UInt8) : List IfOp := [.cmd { t := 2, type := .RD, nBits := 32, data := some d }]

/-- Two of the four bytes are inverted. A clock cycle after the beginning of the read the flags of the first two bytes have been on the inversion line,
together with the last two bytes. -/
theorem C92_violation : ∀ std ∈ [Std.ddr4, .lpddr4, .lpddr5], ¬ C92_statement std := by
  have h4 : ¬ C92_statement .ddr4 :=
    c92_refute (std := .ddr4) (sp := c92Spec) (ops := .dbi true :: c92Burst [0, 0, 15, 15]) (plain := c92Burst [0, 0, 15, 15]) (t := 3)
      (x := (10, 0)) (y := (8, 0)) (by decide +kernel) (by decide +kernel) rfl (by decide) rfl (by simp [c92Burst]) trivial (by decide)
  have l4 : ¬ C92_statement .lpddr4 :=
    c92_refute (std := .lpddr4) (sp := c92Spec) (ops := .dbi true :: c92Burst [255, 255, 15, 15]) (plain := c92Burst [255, 255, 15, 15]) (t := 3)
      (x := (10, 0)) (y := (8, 0)) (by decide +kernel) (by decide +kernel) rfl (by decide) rfl (by simp [c92Burst]) trivial (by decide)
  have l5 : ¬ C92_statement .lpddr5 :=
    c92_refute (std := .lpddr5) (sp := c92Spec) (ops := .dbi true :: c92Burst [255, 255, 15, 15]) (plain := c92Burst [255, 255, 15, 15]) (t := 3)
      (x := (10, 0)) (y := (8, 0)) (by decide +kernel) (by decide +kernel) rfl (by decide) rfl (by simp [c92Burst]) trivial (by decide)
  intro std h
  simp only [List.mem_cons, List.not_mem_nil, or_false] at h
  rcases h with rfl | rfl | rfl
  exacts [h4, l4, l5]

/-- Sixteen data wires. -/
def c92Wide : IfSpec := { dataRate := 2, burstLength := 4, bitWidth := 16, devices := 1 }

/-- A read of two beats and a half. -/
def c92Half (d : List UInt8) : List IfOp := [.cmd { t := 2, type := .RD, nBits := 40, data := some d }]

/-- A byte that does not fill a beat is never on the data wires, but its flag is on an inversion line: `C92_partial` needs whole beats. -/
theorem C92_violation_beats : ∀ std ∈ [Std.ddr4, .lpddr4, .lpddr5], ¬ C92_claim std (TransfersOver std) := by
  have over : ∀ std ∈ [Std.ddr4, .lpddr4, .lpddr5], ∀ y, TransfersOver std c92Wide (.dbi true :: c92Half [15, 15, 15, 15, y]) 20 := by
    intro std h y c hc _
    obtain rfl : c = { t := 2, type := .RD, nBits := 40, data := some [15, 15, 15, 15, y] } := by
      simpa [commandsOf, c92Half] using hc
    simp only [List.mem_cons, List.not_mem_nil, or_false] at h
    rcases h with rfl | rfl | rfl <;> simp [dataBeats, burstBeats, c92Wide]
  have h4 : ¬ C92_claim .ddr4 (TransfersOver .ddr4) :=
    c92_refute (std := .ddr4) (sp := c92Wide) (ops := .dbi true :: c92Half [15, 15, 15, 15, 0]) (plain := c92Half [15, 15, 15, 15, 0]) (t := 20)
      (x := (17, 0)) (y := (16, 0)) (by decide +kernel) (by decide +kernel) rfl (by decide) rfl (by simp [c92Half]) (over _ (by simp) _) (by decide)
  have l4 : ¬ C92_claim .lpddr4 (TransfersOver .lpddr4) :=
    c92_refute (std := .lpddr4) (sp := c92Wide) (ops := .dbi true :: c92Half [15, 15, 15, 15, 255]) (plain := c92Half [15, 15, 15, 15, 255]) (t := 20)
      (x := (17, 0)) (y := (16, 0)) (by decide +kernel) (by decide +kernel) rfl (by decide) rfl (by simp [c92Half]) (over _ (by simp) _) (by decide)
  have l5 : ¬ C92_claim .lpddr5 (TransfersOver .lpddr5) :=
    c92_refute (std := .lpddr5) (sp := c92Wide) (ops := .dbi true :: c92Half [15, 15, 15, 15, 255]) (plain := c92Half [15, 15, 15, 15, 255]) (t := 20)
      (x := (17, 0)) (y := (16, 0)) (by decide +kernel) (by decide +kernel) rfl (by decide) rfl (by simp [c92Half]) (over _ (by simp) _) (by decide)
  intro std h
  simp only [List.mem_cons, List.not_mem_nil, or_false] at h
  rcases h with rfl | rfl | rfl
  exacts [h4, l4, l5]

/-- Twelve data wires. -/
def c92Spec6 : IfSpec := { dataRate := 2, burstLength := 24, bitWidth := 12, devices := 1 }

/-- An LPDDR6 read of bytes that are all ones and all zeroes in turn. -/
def c92Read6 : List IfOp := [.cmd { t := 5, type := .RD, dbank := 8, nBits := 256, data := some (List.replicate 16 [255, 0]).flatten }]

/-- LPDDR6: more ones with inversion than without, after the read. -/
theorem C92_violation_lpddr6 : ¬ C92_claim .lpddr6 (TransfersOver .lpddr6) := by
  refine c92_refute (std := .lpddr6) (sp := c92Spec6) (ops := .dbi true :: c92Read6) (plain := c92Read6) (t := 40)
    (x := (144, 0)) (y := (128, 0)) (by decide +kernel) (by decide +kernel) rfl (by decide) rfl (by simp [c92Read6]) ?_ (by decide)
  unfold TransfersOver
  decide

/-- The trace of C52 meets the hypotheses of `C92_partial` for three standards, and inversion saves levels in both directions; DDR5 saves none. -/
example : (∀ std ∈ [Std.ddr4, .lpddr4, .lpddr5], TransfersOver std c52Spec c52Trace 80) ∧
    WholeBeats c52Spec c52Trace ∧ commandsOf (c52Trace.drop 1) = commandsOf c52Trace ∧ .dbi true ∉ c52Trace.drop 1 ∧
    c92Run .ddr4 c52Spec c52Trace 80 = .ok (67, 22) ∧ c92Run .ddr4 c52Spec (c52Trace.drop 1) 80 = .ok (204, 72) ∧
    c92Run .lpddr4 c52Spec c52Trace 80 = .ok (59, 18) ∧ c92Run .lpddr4 c52Spec (c52Trace.drop 1) 80 = .ok (180, 56) ∧
    c92Run .ddr5 c52Spec c52Trace 80 = .ok (204, 72) ∧ c92Run .ddr5 c52Spec (c52Trace.drop 1) 80 = .ok (204, 72) := by
  refine ⟨?_, ?_, rfl, ?_, ?_⟩
  · unfold TransfersOver
    decide +kernel
  · intro c hc
    simp only [c52Trace, List.mem_cons, List.not_mem_nil, or_false, reduceCtorEq, false_or, IfOp.cmd.injEq] at hc
    rcases hc with e | e | e | e | e | e <;> (subst e; rfl)
  · simp [c52Trace]
  · decide +kernel

/-- The hypotheses are also met by the trace of `C52_violation`, whose inversion lines do not show the flags as they should. -/
example : TransfersOver .lpddr4 c52Spec (c52Gap true) 40 ∧ commandsOf (c52Gap false) = commandsOf (c52Gap true) ∧
    c92Run .lpddr4 c52Spec (c52Gap true) 40 = .ok (0, 77) ∧ c92Run .lpddr4 c52Spec (c52Gap false) 40 = .ok (0, 92) := by
  refine ⟨?_, rfl, ?_⟩
  · unfold TransfersOver
    decide +kernel
  · decide +kernel

end DRAMPower
