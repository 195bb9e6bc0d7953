import Verif.Props.C92

/-!
# C94: with inversion on, at most half of the transferred bits are expensive
-/

namespace DRAMPower
open Spec

variable {std : Std} {N : Nat} {sp : IfSpec}

/-- Bits of the transfers of a direction that have begun; LPDDR6 sends 32 more with every 256. -/
def sentBits (std : Std) (read : Bool) (ops : List IfOp) : Nat :=
  ((commandsOf ops).map fun c => if direction c.type = some read then dataBits std c else 0).sum

/-- The full claim: inversion is switched on before the first command and stays on. -/
def C94_statement (std : Std) : Prop :=
  ∀ (N : Nat) (sp : IfSpec) (ops : List IfOp) (i a : Interface std N) (t : Nat) (x : SimStats), sp.toggling = none → sp.bitWidth * sp.devices ≤ N →
    Interface.init std N sp = .ok i → i.run sp (.dbi true :: ops) = .ok a → .dbi false ∉ ops → a.getWindowStats sp t {} = .ok x →
    ∀ read, 2 * costlyLevels std read x ≤ sentBits std read ops

theorem half_byte (h5 : std ≠ .ddr5) (h6 : std ≠ .lpddr6) {m : Setting} (hm : m.inverting = true) (data : List UInt8) (c : Nat) :
    (wires 8 fun j => invertedBit std m data (c * 8 + j) == costlyLevel std) + bit (flagged std m data c) ≤ 4 := by
  have hc : chunkBits std = 8 := if_neg h6
  have hb : ∀ j < 8, invertedBit std m data (c * 8 + j) = (bitOf data (c * 8 + j) != flagged std m data c) := by
    intro j hj
    unfold invertedBit
    rw [hc, show (c * 8 + j) / 8 = c by omega]
  have hfl : flagged std m data c = decide (8 < 2 * wires 8 fun j => bitOf data (c * 8 + j) == costlyLevel std) := by
    unfold flagged
    have e5 : (std != .ddr5) = true := by simpa using h5
    have e : (std != .ddr4) = costlyLevel std := by cases std <;> first | rfl | exact absurd rfl h5
    rw [hm, e5, hc, e]
    rfl
  cases hf : flagged std m data c with
  | false =>
    rw [hf] at hfl
    have h2 := of_decide_eq_false hfl.symm
    have h1 : (wires 8 fun j => invertedBit std m data (c * 8 + j) == costlyLevel std) = wires 8 fun j => bitOf data (c * 8 + j) == costlyLevel std := by
      refine wires_ext fun j hj => ?_
      rw [hb j hj, hf]
      cases bitOf data (c * 8 + j) <;> rfl
    rw [h1]
    show _ + 0 ≤ 4
    omega
  | true =>
    rw [hf] at hfl
    have h2 := of_decide_eq_true hfl.symm
    have h1 : (wires 8 fun j => invertedBit std m data (c * 8 + j) == costlyLevel std) =
        8 - wires 8 fun j => bitOf data (c * 8 + j) == costlyLevel std := by
      rw [← wires_not]
      refine wires_ext fun j hj => ?_
      rw [hb j hj, hf]
      cases bitOf data (c * 8 + j) <;> cases costlyLevel std <;> rfl
    rw [h1]
    show _ + 1 ≤ 4
    omega

theorem upTo_const (n k : Nat) : upTo n (fun _ => k) = n * k := by
  induction n with
  | zero => exact (Nat.zero_mul k).symm
  | succ n ih => rw [Nat.succ_mul, ← ih]; rfl

theorem call_half (h5 : std ≠ .ddr5) (h6 : std ≠ .lpddr6) (ht : sp.toggling = none) (hP : 8 * inversionPins std sp = dataWidth sp) {m : Setting}
    (hm : m.inverting = true) (read : Bool) (op : IfOp) :
    2 * (callCost std sp read m op + callFlags std sp read m op) ≤ sentBits std read [op] := by
  cases op with
  | cmd c =>
    have hs : sentBits std read [.cmd c] = if direction c.type = some read then c.nBits else 0 := by
      have hb : dataBits std c = c.nBits := if_neg h6
      unfold sentBits
      simp [commandsOf, hb]
    rw [hs]
    unfold callCost callFlags
    dsimp only
    cases c.data with
    | none => exact Nat.zero_le _
    | some data =>
      dsimp only
      by_cases hd : direction c.type = some read
      · rw [if_pos hd, if_pos hd]
        have hbeats : dataBeats std sp c * dataWidth sp ≤ c.nBits := by
          unfold dataBeats burstBeats
          rw [if_neg fun h => h6 h.1, ht]
          split
          · rename_i h0; rw [h0]; simp
          · exact Nat.div_mul_le_self _ _
        have hw : ∀ b, dataWires std sp m c data b = fun j => invertedBit std m data ((dataBeats std sp c - 1 - b) * dataWidth sp + j) := by
          intro b
          funext j
          unfold dataWires dataBit
          rw [if_neg h6]
          rfl
        simp only [beatCost, hw]
        rw [beats_bytes (sp := sp) (dataBeats std sp c) (fun i => invertedBit std m data i == costlyLevel std) hP]
        have hle : dataBeats std sp c * inversionPins std sp ≤ c.nBits / 8 := by
          rw [Nat.le_div_iff_mul_le (by decide), Nat.mul_assoc, Nat.mul_comm _ 8, hP]
          exact hbeats
        have hfl : (if direction c.type = some read ∧ m.inverting = true ∧ sp.toggling = none ∧ c.nBits ≠ 0 then
            upTo (c.nBits / 8) fun q => bit (flagged std m data q) else 0) ≤ upTo (c.nBits / 8) fun q => bit (flagged std m data q) := by
          split
          · exact Nat.le_refl _
          · exact Nat.zero_le _
        have hsum : (upTo (dataBeats std sp c * inversionPins std sp) fun q => wires 8 fun j => invertedBit std m data (q * 8 + j) == costlyLevel std) +
            (upTo (c.nBits / 8) fun q => bit (flagged std m data q)) ≤ c.nBits / 8 * 4 := by
          refine Nat.le_trans (Nat.add_le_add_right (upTo_min_le hle _) _) ?_
          rw [← upTo_add, ← upTo_const]
          exact upTo_le fun q _ => half_byte h5 h6 hm data q
        omega
      · rw [if_neg hd, if_neg hd, if_neg (fun h => hd h.1)]
  | _ => exact Nat.zero_le _

theorem sent_cons (read : Bool) (op : IfOp) (ops : List IfOp) : sentBits std read (op :: ops) = sentBits std read [op] + sentBits std read ops := by
  cases op with
  | cmd c => exact congrArg (· + sentBits std read ops) (Nat.add_zero _).symm
  | _ => exact (Nat.zero_add _).symm

theorem run_half (h5 : std ≠ .ddr5) (h6 : std ≠ .lpddr6) (ht : sp.toggling = none) (hP : 8 * inversionPins std sp = dataWidth sp) (read : Bool) :
    ∀ (ops : List IfOp) {m : Setting}, m.inverting = true → .dbi false ∉ ops →
      2 * (runCost std sp read m ops + runFlags std sp read m ops) ≤ sentBits std read ops
  | [], _, _, _ => Nat.zero_le _
  | op :: ops, m, hm, ho => by
    have hm' : (m.after op).inverting = true := by
      cases op with
      | dbi e =>
        cases e with
        | true => rfl
        | false => exact absurd (by simp) ho
      | _ => exact hm
    have ih := run_half h5 h6 ht hP read ops hm' fun h => ho (List.mem_cons_of_mem _ h)
    have h1 := call_half h5 h6 ht hP hm read op
    rw [sent_cons]
    unfold runCost runFlags
    omega

/-- DDR4, LPDDR4 and LPDDR5: the full claim, at any time, also during a transfer. -/
theorem C94_partial (h5 : std ≠ .ddr5) (h6 : std ≠ .lpddr6) : C94_statement std := by
  intro N sp ops i a t x ht hN hi ha hoff hx read
  obtain ⟨a1, a2, _, _⟩ := C49_partial std N sp _ i a t {} x ht hN hi ha hx (fun h => absurd h h6)
  obtain ⟨l1, l2⟩ := lines_cost h5 h6 hi (init_set hi) ha hx
  have hP : 8 * inversionPins std sp = dataWidth sp := by
    have := (init_bytes h5 h6 hi).1
    unfold inversionPins dataWidth
    rw [if_neg (by rintro (h | h); exacts [h5 h, h6 h]), Nat.mul_comm sp.bitWidth]
    exact this
  have hA : ∀ r, Group.lossy std (Line.stats (sp.bitWidth * sp.devices) (caIdleLevels std) (dataLine std sp r (.dbi true :: ops)) (t * sp.dataRate)) ≤
      runCost std sp r {} (.dbi true :: ops) := by
    intro r
    have h := run_cost_le (std := std) (sp := sp) (read := r) (.dbi true :: ops) {} (fun _ => some (caIdleLevels std)) (t * sp.dataRate)
    have h0 : upTo (t * sp.dataRate) (fun k => beatCost std sp ((fun _ : Nat => some (caIdleLevels std)) k)) = 0 :=
      Eq.trans (upTo_congr (g := fun _ => 0) fun k _ => idle_cost k) (upTo_zero _)
    rw [h0, Nat.zero_add] at h
    exact Nat.le_trans (Nat.le_of_eq (lossy_line (sp := sp) _ _ _)) h
  have hC : ∀ r, 2 * (runCost std sp r {} (.dbi true :: ops) + runFlags std sp r {} (.dbi true :: ops)) ≤ sentBits std r ops := by
    intro r
    have h := run_half h5 h6 ht hP r ops (m := ({} : Setting).after (.dbi true)) rfl hoff
    have e1 : runCost std sp r {} (.dbi true :: ops) = runCost std sp r (({} : Setting).after (.dbi true)) ops := Nat.zero_add _
    have e2 : runFlags std sp r {} (.dbi true :: ops) = runFlags std sp r (({} : Setting).after (.dbi true)) ops := Nat.zero_add _
    rw [e1, e2]
    exact h
  have z : ∀ s : BusStats, Group.lossy std (({} : BusStats) + s) = Group.lossy std s := by
    intro s
    rw [lossy_add]
    cases std <;> exact Nat.zero_add _
  unfold costlyLevels
  cases read with
  | true =>
    have h1 := hA true; have h3 := hC true
    rw [if_pos rfl, a1]
    show 2 * (Group.lossy std (({} : BusStats) + _) + _) ≤ _
    rw [z]
    omega
  | false =>
    have h1 := hA false; have h3 := hC false
    rw [if_neg (by decide), a2]
    show 2 * (Group.lossy std (({} : BusStats) + _) + _) ≤ _
    rw [z]
    omega

/-! ## Examples and witnesses -/

/-- An LPDDR6 read: in every second byte five ones, none in the others. -/
def c94Read6 : List IfOp := [.cmd { t := 5, type := .RD, dbank := 8, nBits := 256, data := some (List.replicate 16 [31, 0]).flatten }]

/-- LPDDR6: 80 ones without inversion, 192 of 288 bits with it. -/
theorem C94_violation_lpddr6 : ¬ C94_statement .lpddr6 := by
  intro hc
  have h : c92Run .lpddr6 c92Spec6 (.dbi true :: c94Read6) 40 = .ok (192, 0) := by decide +kernel
  unfold c92Run at h
  obtain ⟨i, h1, h⟩ := bind_ok h
  obtain ⟨a, h2, h⟩ := bind_ok h
  obtain ⟨s, h3, h⟩ := bind_ok h
  have e := congrArg Prod.fst (pure_ok h)
  dsimp only at e
  have k := hc 32 c92Spec6 c94Read6 i a 40 s rfl (by decide) h1 h2 (by simp [c94Read6]) h3 true
  rw [e] at k
  revert k
  decide

example : c92Run .lpddr6 c92Spec6 c94Read6 40 = .ok (80, 0) := by decide +kernel

/-- The trace of C52 meets the hypotheses of `C94_partial`; without inversion the bound does not hold. -/
example : c52Trace.head? = some (.dbi true) ∧ .dbi false ∉ c52Trace.tail ∧
    (∀ std ∈ [Std.ddr4, .lpddr4, .lpddr5], sentBits std true c52Trace.tail = 384 ∧ sentBits std false c52Trace.tail = 128) ∧
    c92Run .ddr4 c52Spec c52Trace 80 = .ok (67, 22) ∧ c92Run .ddr4 c52Spec c52Trace.tail 80 = .ok (204, 72) ∧
    c92Run .lpddr5 c52Spec c52Trace 80 = .ok (59, 18) := by
  refine ⟨rfl, by simp [c52Trace], ?_, ?_⟩ <;> decide +kernel

/-- The bound is met exactly by bytes with four ones, and also holds during the transfer (two of four beats). -/
example : (∀ std ∈ [Std.ddr4, .lpddr4, .lpddr5], c92Run std c92Spec (.dbi true :: c92Burst [15, 15, 15, 15]) 4 = .ok (16, 0) ∧
      c92Run std c92Spec (.dbi true :: c92Burst [15, 15, 15, 15]) 3 = .ok (8, 0) ∧ sentBits std true (c92Burst [15, 15, 15, 15]) = 32) := by
  decide +kernel

end DRAMPower
