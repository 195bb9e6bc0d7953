import Verif.Lemmas.InversionPins
import Verif.Lemmas.BusTrace
import Verif.Lemmas.Pin
import Verif.Lemmas.Dbi
import Verif.Spec.Trace
import Verif.Spec.Slots
import Verif.Spec.Signals

/-!
# The costly levels of the data wires and the inversion lines, counted
-/

namespace DRAMPower
open Spec

/-! ## Sums -/

/-- Sum of the first `n` values. -/
def upTo (n : Nat) (f : Nat → Nat) : Nat :=
  match n with
  | 0 => 0
  | n + 1 => upTo n f + f n

/-- A flag as a number. -/
def bit (b : Bool) : Nat := if b then 1 else 0

theorem upTo_le {n : Nat} {f g : Nat → Nat} (h : ∀ k < n, f k ≤ g k) : upTo n f ≤ upTo n g := by
  induction n with
  | zero => exact Nat.le_refl _
  | succ n ih => exact Nat.add_le_add (ih fun k hk => h k (by omega)) (h n (by omega))

theorem upTo_congr {n : Nat} {f g : Nat → Nat} (h : ∀ k < n, f k = g k) : upTo n f = upTo n g :=
  Nat.le_antisymm (upTo_le fun k hk => Nat.le_of_eq (h k hk)) (upTo_le fun k hk => Nat.le_of_eq (h k hk).symm)

theorem upTo_add (n : Nat) (f g : Nat → Nat) : upTo n (fun k => f k + g k) = upTo n f + upTo n g := by
  induction n with
  | zero => rfl
  | succ n ih => simp only [upTo, ih]; omega

theorem upTo_zero (n : Nat) : upTo n (fun _ => 0) = 0 := by
  induction n with
  | zero => rfl
  | succ n ih => simp only [upTo, ih]

theorem upTo_append (n m : Nat) (f : Nat → Nat) : upTo (n + m) f = upTo n f + upTo m (fun k => f (n + k)) := by
  induction m with
  | zero => rfl
  | succ m ih => rw [← Nat.add_assoc]; simp only [upTo, ih]; omega

theorem upTo_reverse (n : Nat) (f : Nat → Nat) : upTo n (fun k => f (n - 1 - k)) = upTo n f := by
  induction n generalizing f with
  | zero => rfl
  | succ n ih =>
    have h := upTo_append 1 n f
    rw [Nat.add_comm] at h
    rw [h]
    have h1 := ih fun k => f (1 + k)
    rw [← h1]
    show upTo n (fun k => f (n + 1 - 1 - k)) + f (n + 1 - 1 - n) = upTo 1 f + _
    rw [show upTo 1 f = f 0 by simp [upTo], show n + 1 - 1 - n = 0 by omega, Nat.add_comm]
    congr 1
    exact upTo_congr fun k hk => by rw [show n + 1 - 1 - k = 1 + (n - 1 - k) by omega]

theorem upTo_mul (n m : Nat) (f : Nat → Nat) : upTo n (fun k => upTo m fun p => f (k * m + p)) = upTo (n * m) f := by
  induction n with
  | zero => rw [Nat.zero_mul]; rfl
  | succ n ih =>
    rw [Nat.succ_mul, upTo_append (n * m) m, ← ih]
    rfl

theorem upTo_swap (n m : Nat) (f : Nat → Nat → Nat) : upTo n (fun a => upTo m (f a)) = upTo m fun b => upTo n fun a => f a b := by
  induction n with
  | zero => exact (upTo_zero m).symm
  | succ n ih => simp only [upTo, ih]; rw [upTo_add]

theorem entry_le_sum {x : Nat} : ∀ {l : List Nat}, x ∈ l → x ≤ l.sum
  | [], h => by cases h
  | y :: l, h => by
    rw [List.sum_cons]
    rcases List.mem_cons.1 h with rfl | h
    · exact Nat.le_add_right _ _
    · exact Nat.le_trans (entry_le_sum h) (Nat.le_add_left _ _)

theorem wires_upTo (n : Nat) (p : Nat → Bool) : wires n p = upTo n fun j => bit (p j) := by
  induction n with
  | zero => rfl
  | succ n ih => rw [wires_succ, ih]; rfl

/-- Values in a window, at most as many as the window has. -/
theorem upTo_window_le (s n : Nat) (w : Nat → Nat) : ∀ T, upTo T (fun k => if s ≤ k ∧ k < s + n then w (k - s) else 0) ≤ upTo (min n (T - s)) w
  | 0 => Nat.zero_le _
  | T + 1 => by
    have ih := upTo_window_le s n w T
    show upTo T _ + _ ≤ _
    dsimp only
    by_cases h : s ≤ T ∧ T < s + n
    · rw [if_pos h, show min n (T + 1 - s) = T - s + 1 by omega]
      rw [show min n (T - s) = T - s by omega] at ih
      exact Nat.add_le_add_right ih _
    · rw [if_neg h]
      rcases (by omega : T < s ∨ s + n ≤ T) with h1 | h1
      · rw [show min n (T + 1 - s) = min n (T - s) by omega]; exact ih
      · rw [show min n (T + 1 - s) = min n (T - s) by omega]; exact ih

theorem upTo_min_le {n m : Nat} (h : m ≤ n) (w : Nat → Nat) : upTo m w ≤ upTo n w := by
  obtain ⟨d, rfl⟩ := Nat.exists_eq_add_of_le h
  rw [upTo_append]
  exact Nat.le_add_right _ _

theorem upTo_window (s n : Nat) (w : Nat → Nat) (T : Nat) : upTo T (fun k => if s ≤ k ∧ k < s + n then w (k - s) else 0) ≤ upTo n w :=
  Nat.le_trans (upTo_window_le s n w T) (upTo_min_le (Nat.min_le_left _ _) w)

/-- All values of a window that is over. -/
theorem upTo_window_eq {s n T : Nat} (w : Nat → Nat) (h : s + n ≤ T) : upTo T (fun k => if s ≤ k ∧ k < s + n then w (k - s) else 0) = upTo n w := by
  obtain ⟨d, rfl⟩ := Nat.exists_eq_add_of_le h
  rw [upTo_append, upTo_append]
  have h1 : upTo s (fun k => if s ≤ k ∧ k < s + n then w (k - s) else 0) = 0 := by
    refine Eq.trans (upTo_congr (g := fun _ => 0) fun k hk => ?_) (upTo_zero s)
    rw [if_neg (by omega)]
  have h3 : upTo d (fun k => if s ≤ s + n + k ∧ s + n + k < s + n then w (s + n + k - s) else 0) = 0 := by
    refine Eq.trans (upTo_congr (g := fun _ => 0) fun k hk => ?_) (upTo_zero d)
    rw [if_neg (by omega)]
  rw [h1, h3, Nat.zero_add, Nat.add_zero]
  exact upTo_congr fun k hk => by rw [if_pos (by omega), Nat.add_sub_cancel_left]

/-! ## Levels -/

variable {std : Std} {sp : IfSpec} {read : Bool}

/-- The costly level: high for the LPDDR standards. -/
def costlyLevel (std : Std) : Bool := !(std == .ddr4 || std == .ddr5)

/-- Wires of the data bus. -/
def dataWidth (sp : IfSpec) : Nat := sp.bitWidth * sp.devices

/-- Costly levels of a beat. -/
def beatCost (std : Std) (sp : IfSpec) (l : Option Levels) : Nat :=
  match l with
  | none => 0
  | some l => wires (dataWidth sp) fun j => l j == costlyLevel std

theorem lossy_add (a b : BusStats) : Group.lossy std (a + b) = Group.lossy std a + Group.lossy std b := by cases std <;> rfl

theorem lossy_beat (before now : Levels) : Group.lossy std (beat (dataWidth sp) before now) = beatCost std sp (some now) := by
  cases std <;> simp only [Group.lossy, beat, beatCost, costlyLevel] <;> refine wires_ext fun j _ => ?_ <;> cases now j <;> rfl

theorem lossy_line (idle : Levels) (line : Line) : ∀ T, Group.lossy std (Line.stats (dataWidth sp) idle line T) = upTo T fun k => beatCost std sp (line k)
  | 0 => by cases std <;> rfl
  | T + 1 => by
    show Group.lossy std (_ + _) = upTo T _ + _
    rw [lossy_add, lossy_line idle line T]
    congr 1
    unfold Line.at
    dsimp only
    cases line T with
    | none => cases std <;> rfl
    | some l => exact lossy_beat _ _

theorem idle_cost (k : Nat) : beatCost std sp ((fun _ : Nat => some (caIdleLevels std)) k) = 0 := by
  show wires _ _ = 0
  rw [wires_upTo, ← upTo_zero (dataWidth sp)]
  refine upTo_congr fun j _ => ?_
  cases std <;> rfl

/-- Costly levels of the payload of a call. -/
def callCost (std : Std) (sp : IfSpec) (read : Bool) (m : Setting) : IfOp → Nat
  | .cmd c => match c.data with
    | some data => if direction c.type = some read then upTo (dataBeats std sp c) fun b => beatCost std sp (some (dataWires std sp m c data b)) else 0
    | none => 0
  | _ => 0

/-- The same for a session. -/
def runCost (std : Std) (sp : IfSpec) (read : Bool) : Setting → List IfOp → Nat
  | _, [] => 0
  | m, op :: ops => callCost std sp read m op + runCost std sp read (m.after op) ops

theorem drive_cost_le (m : Setting) (line : Line) (op : IfOp) (T : Nat) :
    upTo T (fun k => beatCost std sp (dataDrive std sp read m line op k)) ≤ upTo T (fun k => beatCost std sp (line k)) + callCost std sp read m op := by
  cases op with
  | cmd c =>
    unfold dataDrive callCost
    dsimp only
    cases c.data with
    | none => exact Nat.le_refl _
    | some data =>
      dsimp only
      by_cases hd : direction c.type = some read
      · rw [if_pos hd, if_pos hd]
        refine Nat.le_trans ?_ (Nat.add_le_add_left (upTo_window (c.t * sp.dataRate) (dataBeats std sp c)
          (fun b => beatCost std sp (some (dataWires std sp m c data b))) T) _)
        rw [← upTo_add]
        refine upTo_le fun k _ => ?_
        by_cases hk : c.t * sp.dataRate ≤ k ∧ k < c.t * sp.dataRate + dataBeats std sp c
        · rw [if_pos hk, if_pos hk]; exact Nat.le_add_left _ _
        · rw [if_neg hk, if_neg hk]; exact Nat.le_add_right _ _
      · rw [if_neg hd, if_neg hd]; exact Nat.le_refl _
  | _ => exact Nat.le_add_right _ _

/-- A bus carries at most the costly levels of the payloads. -/
theorem run_cost_le : ∀ (ops : List IfOp) (m : Setting) (line : Line) (T : Nat),
    upTo T (fun k => beatCost std sp (dataLineFrom std sp read m line ops k)) ≤ upTo T (fun k => beatCost std sp (line k)) + runCost std sp read m ops
  | [], _, _, _ => Nat.le_refl _
  | op :: ops, m, line, T => by
    have h1 := run_cost_le ops (m.after op) (dataDrive std sp read m line op) T
    have h2 := drive_cost_le (std := std) (sp := sp) (read := read) m line op T
    show upTo T (fun k => beatCost std sp (dataLineFrom std sp read (m.after op) _ ops k)) ≤ _
    unfold runCost
    omega

/-- Slots of the calls of a direction. -/
def slotOf (std : Std) (sp : IfSpec) (read : Bool) : IfOp → Option (Nat × Nat)
  | .cmd c => burstSlot std sp read c
  | _ => none

/-- Bursts one after another, all over: the bus carries all costly levels of the payloads. -/
theorem run_cost_ge (ht : sp.toggling = none) {T : Nat} : ∀ (ops : List IfOp) (m : Setting) (line : Line) (lo : Nat),
    (∀ k, lo ≤ k → beatCost std sp (line k) = 0) → OneAfterAnother (ops.filterMap (slotOf std sp read)) →
    (∀ x ∈ ops.filterMap (slotOf std sp read), lo ≤ x.1 ∧ x.2 ≤ T) →
    upTo T (fun k => beatCost std sp (line k)) + runCost std sp read m ops ≤ upTo T fun k => beatCost std sp (dataLineFrom std sp read m line ops k)
  | [], _, _, _, _, _, _ => Nat.le_refl _
  | op :: ops, m, line, lo, hl, ho, hx => by
    by_cases hz : callCost std sp read m op = 0 ∧ dataDrive std sp read m line op = line
    · have h1 := run_cost_ge ht ops (m.after op) line lo hl
        (by
          rw [List.filterMap_cons] at ho
          split at ho
          · exact ho
          · exact ho.tail)
        (fun x hm => hx x (by
          rw [List.filterMap_cons]
          split
          · exact hm
          · exact List.mem_cons_of_mem _ hm))
      show _ ≤ upTo T fun k => beatCost std sp (dataLineFrom std sp read (m.after op) (dataDrive std sp read m line op) ops k)
      rw [hz.2]
      unfold runCost
      rw [hz.1]
      omega
    · cases op with
      | cmd c =>
        unfold dataDrive callCost at hz
        dsimp only at hz
        cases hc : c.data with
        | none => rw [hc] at hz; exact absurd ⟨rfl, rfl⟩ hz
        | some data =>
          simp only [hc] at hz
          by_cases hd : direction c.type = some read
          · rw [if_pos hd, if_pos hd] at hz
            by_cases hn : c.nBits = 0
            · exfalso
              have h0 : dataBeats std sp c = 0 := by
                unfold dataBeats burstBeats
                rw [hn, ht]
                simp
              rw [h0] at hz
              refine hz ⟨rfl, ?_⟩
              funext k
              exact if_neg (by omega)
            · have hs : slotOf std sp read (.cmd c) = some (c.t * sp.dataRate, c.t * sp.dataRate + dataBeats std sp c) := by
                show burstSlot std sp read c = _
                unfold burstSlot
                rw [if_pos ⟨hd, .inr ⟨hn, by rw [hc]; rfl⟩⟩]
              rw [List.filterMap_cons_some hs] at ho hx
              obtain ⟨g1, g2⟩ := hx _ List.mem_cons_self
              dsimp only at g1 g2
              have e : dataDrive std sp read m line (.cmd c) = fun k =>
                  if c.t * sp.dataRate ≤ k ∧ k < c.t * sp.dataRate + dataBeats std sp c then some (dataWires std sp m c data (k - c.t * sp.dataRate)) else line k := by
                unfold dataDrive
                simp only [hc, if_pos hd]
              have e2 : callCost std sp read m (.cmd c) = upTo (dataBeats std sp c) fun b => beatCost std sp (some (dataWires std sp m c data b)) := by
                unfold callCost
                simp only [hc, if_pos hd]
              have h1 := run_cost_ge ht ops (m.after (.cmd c)) (dataDrive std sp read m line (.cmd c)) (c.t * sp.dataRate + dataBeats std sp c)
                (fun k hk => by rw [e]; dsimp only; rw [if_neg (by omega)]; exact hl k (by omega)) (List.Pairwise.of_cons ho)
                (fun x hm => ⟨(List.pairwise_cons.1 ho).1 x hm, (hx x (List.mem_cons_of_mem _ hm)).2⟩)
              have h2 : upTo T (fun k => beatCost std sp (dataDrive std sp read m line (.cmd c) k)) =
                  upTo T (fun k => beatCost std sp (line k)) + callCost std sp read m (.cmd c) := by
                rw [e2, ← upTo_window_eq (fun b => beatCost std sp (some (dataWires std sp m c data b))) g2, ← upTo_add, e]
                refine upTo_congr fun k _ => ?_
                by_cases hk : c.t * sp.dataRate ≤ k ∧ k < c.t * sp.dataRate + dataBeats std sp c
                · simp only [if_pos hk, hl k (by omega), Nat.zero_add]
                · simp only [if_neg hk, Nat.add_zero]
              show _ ≤ upTo T fun k => beatCost std sp (dataLineFrom std sp read (m.after (.cmd c)) (dataDrive std sp read m line (.cmd c)) ops k)
              unfold runCost
              omega
          · rw [if_neg hd, if_neg hd] at hz
            exact absurd ⟨rfl, rfl⟩ hz
      | _ => exact absurd ⟨rfl, rfl⟩ hz

/-! ## The inversion lines -/

theorem lossy_pin (h5 : std ≠ .ddr5) (line : PinLine) (initial : PinState) : ∀ T,
    Group.lossy std (line.stats initial T) = upTo T fun k => bit (decide (line k = markLevel std))
  | 0 => by cases std <;> rfl
  | T + 1 => by
    show Group.lossy std (_ + _) = upTo T _ + _
    rw [lossy_add, lossy_pin h5 line initial T]
    congr 1
    dsimp only
    cases std <;> first | exact absurd rfl h5 | (cases line T <;> rfl)

/-- Marks of a list of transfers on a pin. -/
def marksOf (l : List Marked) (p : Nat) : Nat := (l.map fun b => upTo b.beats fun k => bit (b.flag k p)).sum

theorem line_marks (l : List Marked) (p T : Nat) : upTo T (fun k => bit (decide (markLine std l p k = markLevel std))) ≤ marksOf l p := by
  have h : ∀ k, bit (decide (markLine std l p k = markLevel std)) ≤
      (l.map fun b => if b.start ≤ k ∧ k < b.start + b.beats then bit (b.flag (k - b.start) p) else 0).sum := by
    intro k
    unfold markLine
    by_cases ha : (l.any fun b => decide (b.start ≤ k) && decide (k < b.stop) && b.flag (k - b.start) p) = true
    · rw [if_pos ha]
      obtain ⟨b, hb, hf⟩ := List.any_eq_true.1 ha
      rw [Bool.and_eq_true, Bool.and_eq_true, decide_eq_true_iff, decide_eq_true_iff] at hf
      have : 1 ≤ if b.start ≤ k ∧ k < b.start + b.beats then bit (b.flag (k - b.start) p) else 0 := by
        rw [if_pos ⟨hf.1.1, hf.1.2⟩, hf.2]
        exact Nat.le_refl 1
      refine Nat.le_trans ?_ (Nat.le_trans this (entry_le_sum (List.mem_map.2 ⟨b, hb, rfl⟩)))
      unfold bit
      split <;> omega
    · rw [if_neg ha, decide_eq_false (by cases std <;> decide)]
      exact Nat.zero_le _
  refine Nat.le_trans (upTo_le fun k _ => h k) ?_
  clear h
  unfold marksOf
  induction l with
  | nil => exact Nat.le_of_eq (upTo_zero T)
  | cons b l ih =>
    simp only [List.map_cons, List.sum_cons]
    rw [upTo_add]
    exact Nat.add_le_add (upTo_window b.start b.beats (fun k => bit (b.flag k p)) T) ih

theorem lossy_marks (h5 : std ≠ .ddr5) (l : List Marked) (T : Nat) (s : BusStats) :
    Group.lossy std (markStats std sp l T s) ≤ Group.lossy std s + upTo (inversionPins std sp) (marksOf l) := by
  have h : ∀ n s, Group.lossy std ((List.range n).foldl (fun s p => s + (markLine std l p).stats (plainLevel std) T) s) ≤
      Group.lossy std s + upTo n (marksOf l) := by
    intro n s
    induction n with
    | zero => exact Nat.le_refl _
    | succ n ih =>
      rw [List.range_succ, List.foldl_append]
      simp only [List.foldl_cons, List.foldl_nil]
      rw [lossy_add, lossy_pin h5]
      have := line_marks (std := std) l n T
      show _ ≤ _ + (upTo n _ + _)
      omega
  exact h _ _

/-! ## A call, with and without inversion -/

/-- Marks of a call on all pins. -/
def callMarks (std : Std) (sp : IfSpec) (read : Bool) (m : Setting) (op : IfOp) : Nat :=
  upTo (inversionPins std sp) (marksOf (markedOf std sp read m op).toList)

theorem inverted_byte (h6 : std ≠ .lpddr6) (m : Setting) (data : List UInt8) (c : Nat) :
    (wires 8 fun j => invertedBit std m data (c * 8 + j) == costlyLevel std) + bit (flagged std m data c) ≤
      wires 8 fun j => bitOf data (c * 8 + j) == costlyLevel std := by
  have hc : chunkBits std = 8 := if_neg h6
  have hb : ∀ j < 8, invertedBit std m data (c * 8 + j) = (bitOf data (c * 8 + j) != flagged std m data c) := by
    intro j hj
    unfold invertedBit
    rw [hc, show (c * 8 + j) / 8 = c by omega]
  cases hf : flagged std m data c with
  | false =>
    refine Nat.le_of_eq ?_
    show _ + 0 = _
    rw [Nat.add_zero]
    refine wires_ext fun j hj => ?_
    rw [hb j hj, hf]
    cases bitOf data (c * 8 + j) <;> rfl
  | true =>
    have h1 : (wires 8 fun j => invertedBit std m data (c * 8 + j) == costlyLevel std) =
        8 - wires 8 fun j => bitOf data (c * 8 + j) == costlyLevel std := by
      rw [← wires_not]
      refine wires_ext fun j hj => ?_
      rw [hb j hj, hf]
      cases bitOf data (c * 8 + j) <;> cases costlyLevel std <;> rfl
    have h2 : 8 < 2 * wires 8 fun j => bitOf data (c * 8 + j) == costlyLevel std := by
      unfold flagged at hf
      rw [hc] at hf
      simp only [Bool.and_eq_true, decide_eq_true_iff] at hf
      have h5 : std ≠ .ddr5 := by simpa using hf.1.2
      have e : (std != .ddr4) = costlyLevel std := by cases std <;> first | rfl | exact absurd rfl h5
      rw [e] at hf
      exact hf.2
    have h3 := wires_le 8 fun j => bitOf data (c * 8 + j) == costlyLevel std
    rw [h1]
    show _ + 1 ≤ _
    omega

theorem wires_mul (n m : Nat) (f : Nat → Bool) : upTo n (fun k => wires m fun j => f (k * m + j)) = wires (n * m) f := by
  rw [wires_upTo, ← upTo_mul]
  exact upTo_congr fun k _ => wires_upTo _ _

/-- Beats in either order, and the bytes of them. -/
theorem beats_bytes {P : Nat} (n : Nat) (f : Nat → Bool) (hP : 8 * P = dataWidth sp) :
    (upTo n fun b => wires (dataWidth sp) fun j => f ((n - 1 - b) * dataWidth sp + j)) = upTo (n * P) fun c => wires 8 fun j => f (c * 8 + j) := by
  rw [upTo_reverse n fun b => wires (dataWidth sp) fun j => f (b * dataWidth sp + j), wires_mul, wires_mul, ← hP]
  congr 1
  rw [Nat.mul_assoc, Nat.mul_comm 8 P]

theorem call_saves (h6 : std ≠ .lpddr6) (hP : std ≠ .ddr5 → 8 * inversionPins std sp = dataWidth sp) (m m' : Setting) (hm : m'.inverting = false)
    (op : IfOp) : callCost std sp read m op + callMarks std sp read m op ≤ callCost std sp read m' op := by
  cases op with
  | cmd c =>
    unfold callCost callMarks markedOf
    dsimp only
    cases c.data with
    | none =>
      show 0 + upTo _ (fun _ => 0) ≤ 0
      exact Nat.le_of_eq (by rw [upTo_zero])
    | some data =>
      dsimp only
      by_cases hd : direction c.type = some read
      · rw [if_pos hd, if_pos hd]
        have hw : ∀ m : Setting, ∀ b, dataWires std sp m c data b = fun j => invertedBit std m data ((dataBeats std sp c - 1 - b) * dataWidth sp + j) := by
          intro m b
          funext j
          unfold dataWires dataBit
          rw [if_neg h6]
          rfl
        have hoff : ∀ i, invertedBit std m' data i = bitOf data i := by
          intro i
          unfold invertedBit flagged
          rw [hm]
          cases bitOf data i <;> rfl
        simp only [beatCost, hw]
        by_cases h5 : std = .ddr5
        · have : ∀ i, invertedBit std m data i = bitOf data i := by
            intro i
            unfold invertedBit flagged
            rw [h5]
            cases bitOf data i <;> cases m.inverting <;> rfl
          have hz : inversionPins std sp = 0 := by unfold inversionPins; rw [if_pos (.inl h5)]
          rw [hz]
          simp only [this, hoff]
          exact Nat.le_refl _
        · rw [beats_bytes (sp := sp) (dataBeats std sp c) (fun i => invertedBit std m data i == costlyLevel std) (hP h5),
            beats_bytes (sp := sp) (dataBeats std sp c) (fun i => invertedBit std m' data i == costlyLevel std) (hP h5)]
          simp only [hoff]
          have hmk : upTo (inversionPins std sp) (marksOf (if direction c.type = some read ∧ m.inverting = true ∧ sp.toggling = none ∧ c.nBits ≠ 0 then
              some (⟨c.t * sp.dataRate, dataBeats std sp c, fun k p => flagged std m data (k * inversionPins std sp + p)⟩ : Marked) else none).toList) ≤
              upTo (dataBeats std sp c * inversionPins std sp) fun q => bit (flagged std m data q) := by
            split
            · rw [← upTo_mul, upTo_swap]
              refine upTo_le fun p _ => ?_
              simp [marksOf]
            · show upTo _ (fun _ => 0) ≤ _
              rw [upTo_zero]
              exact Nat.zero_le _
          refine Nat.le_trans (Nat.add_le_add_left hmk _) ?_
          rw [← upTo_add]
          exact upTo_le fun q _ => inverted_byte h6 m data q
      · rw [if_neg hd, if_neg hd, if_neg (fun h => hd h.1)]
        show 0 + upTo _ (fun _ => 0) ≤ 0
        exact Nat.le_of_eq (by rw [upTo_zero])
  | _ =>
    show 0 + upTo _ (fun _ => 0) ≤ 0
    exact Nat.le_of_eq (by rw [upTo_zero])

/-! ## A session, with and without inversion -/

theorem marks_append (a b : List Marked) (p : Nat) : marksOf (a ++ b) p = marksOf a p + marksOf b p := by
  unfold marksOf
  rw [List.map_append, List.sum_append]

/-- The setting of a session that never switches inversion on. -/
theorem plain_after {m : Setting} {op : IfOp} (h : m.inverting = false) (ho : op ≠ .dbi true) : (m.after op).inverting = false := by
  cases op with
  | dbi e => cases e with
    | true => exact absurd rfl ho
    | false => rfl
  | _ => exact h

/-- Costly levels of the payloads of a session without inversion: those of its commands. -/
theorem plain_cost {ops : List IfOp} : ∀ {m : Setting}, m.inverting = false → .dbi true ∉ ops → std ≠ .lpddr6 →
    runCost std sp read m ops = ((commandsOf ops).map fun c => callCost std sp read {} (.cmd c)).sum := by
  induction ops with
  | nil => intros; rfl
  | cons op ops ih =>
    intro m hm hd h6
    have h1 := ih (plain_after (op := op) hm fun e => hd (e ▸ List.mem_cons_self)) (fun h => hd (List.mem_cons_of_mem _ h)) h6
    unfold runCost
    rw [h1]
    cases op with
    | cmd c =>
      show _ = ((c :: commandsOf ops).map fun c => callCost std sp read {} (.cmd c)).sum
      rw [List.map_cons, List.sum_cons]
      congr 1
      unfold callCost
      dsimp only
      cases c.data with
      | none => rfl
      | some data =>
        dsimp only
        split
        · refine upTo_congr fun b _ => ?_
          congr 2
          funext j
          unfold dataWires dataBit
          rw [if_neg h6, if_neg h6]
          unfold invertedBit flagged
          rw [hm]
        · rfl
    | _ => exact Nat.zero_add _

/-- With inversion, the payloads and the marks of a session cost no more than its commands without. -/
theorem run_saves (h6 : std ≠ .lpddr6) (hP : std ≠ .ddr5 → 8 * inversionPins std sp = dataWidth sp) (ops : List IfOp) : ∀ m : Setting,
    runCost std sp read m ops + upTo (inversionPins std sp) (marksOf (marked std sp read m ops)) ≤
      ((commandsOf ops).map fun c => callCost std sp read {} (.cmd c)).sum := by
  induction ops with
  | nil =>
    intro m
    show 0 + upTo _ (fun _ => 0) ≤ 0
    exact Nat.le_of_eq (by rw [upTo_zero])
  | cons op ops ih =>
    intro m
    have h1 := ih (m.after op)
    have h2 := call_saves (read := read) h6 hP m {} rfl op
    have h3 : upTo (inversionPins std sp) (marksOf (marked std sp read m (op :: ops))) =
        callMarks std sp read m op + upTo (inversionPins std sp) (marksOf (marked std sp read (m.after op) ops)) := by
      unfold callMarks
      rw [← upTo_add]
      exact upTo_congr fun p _ => marks_append _ _ p
    rw [h3]
    unfold runCost
    have h4 : ((commandsOf (op :: ops)).map fun c => callCost std sp read {} (.cmd c)).sum =
        callCost std sp read {} op + ((commandsOf ops).map fun c => callCost std sp read {} (.cmd c)).sum := by
      cases op with
      | cmd c => show ((c :: commandsOf ops).map fun c => callCost std sp read {} (.cmd c)).sum = _; rw [List.map_cons, List.sum_cons]
      | _ => exact (Nat.zero_add _).symm
    rw [h4]
    omega

end DRAMPower
