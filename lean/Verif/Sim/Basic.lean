import Verif.Spec.Timeline
import Verif.Lemmas.Locality

/-!
# Building blocks of the simulation proof: intervals, settling, counting
-/

namespace DRAMPower

open Spec

/-! ## Intervals -/

/-- At time `T` interval `I` has accumulated `k` cycles and is open exactly if `o`. -/
structure Tr (I : Interval) (T k : Nat) (o : Bool) : Prop where
  openEq : I.isOpen = o
  start_le : o = true → I.getStart ≤ T
  count : I.countAt T = k

theorem Tr.cast {I : Interval} {T k : Nat} {o o' : Bool} (h : Tr I T k o) (e : o = o') : Tr I T k o' := e ▸ h

theorem Interval.countAt_closed {I : Interval} (h : I.isOpen = false) (t : Nat) : I.countAt t = I.count := by
  simp [Interval.countAt, h]

theorem Interval.countAt_open {I : Interval} (h : I.isOpen = true) {t : Nat} (ht : I.getStart ≤ t) :
    I.countAt t = I.count + (t - I.getStart) := by
  simp only [Interval.countAt, h, Bool.true_and, decide_eq_true_eq]
  split <;> omega

theorem Interval.isOpen_startAt (I : Interval) (t : Nat) : (I.startAt t).isOpen = true := by
  simp [Interval.startAt, Interval.isOpen]

theorem Interval.getStart_startAt (I : Interval) (t : Nat) : (I.startAt t).getStart = t := by
  simp [Interval.startAt, Interval.getStart]

theorem Interval.isOpen_close (I : Interval) (t : Nat) : (I.close t).isOpen = false := by
  unfold Interval.close
  split
  · simp [Interval.isOpen]
  · rename_i h; simpa using h

theorem Interval.getStart_close (I : Interval) (t : Nat) : (I.close t).getStart = I.getStart := by
  unfold Interval.close; split <;> rfl

theorem Interval.getEnd_close_open {I : Interval} (h : I.isOpen = true) (t : Nat) : (I.close t).getEnd = t := by
  simp [Interval.close, h, Interval.getEnd]

theorem Interval.close_closed {I : Interval} (h : I.isOpen = false) (t : Nat) : I.close t = I := by
  simp [Interval.close, h]

theorem Tr.adv {I : Interval} {T k : Nat} {o : Bool} (h : Tr I T k o) {T' : Nat} (hT : T ≤ T') :
    Tr I T' (k + if o then T' - T else 0) o := by
  cases o with
  | false =>
    have := h.count
    rw [Interval.countAt_closed h.openEq] at this
    exact ⟨h.openEq, by simp, by rw [Interval.countAt_closed h.openEq]; simp [this]⟩
  | true =>
    have h1 := h.start_le rfl
    have := h.count
    rw [Interval.countAt_open h.openEq h1] at this
    refine ⟨h.openEq, fun _ => by omega, ?_⟩
    rw [Interval.countAt_open h.openEq (by omega)]
    simp only [if_true]; omega

theorem Tr.startAt {I : Interval} {T k : Nat} (h : Tr I T k false) : Tr (I.startAt T) T k true := by
  have hc := h.count
  rw [Interval.countAt_closed h.openEq] at hc
  refine ⟨I.isOpen_startAt T, fun _ => by rw [I.getStart_startAt]; exact Nat.le_refl _, ?_⟩
  rw [Interval.countAt_open (I.isOpen_startAt T) (by rw [I.getStart_startAt]; exact Nat.le_refl _),
    I.getStart_startAt]
  simp [Interval.startAt, hc]

theorem Tr.startIfNotRunning {I : Interval} {T k : Nat} {o : Bool} (h : Tr I T k o) :
    Tr (I.startIfNotRunning T) T k true := by
  unfold Interval.startIfNotRunning
  have ho := h.openEq
  cases o with
  | false => simp only [ho]; exact h.startAt
  | true => simp only [ho]; exact h

theorem Tr.close {I : Interval} {T k : Nat} {o : Bool} (h : Tr I T k o) : Tr (I.close T) T k false := by
  refine ⟨I.isOpen_close T, by simp, ?_⟩
  rw [Interval.countAt_closed (I.isOpen_close T)]
  cases o with
  | false =>
    rw [Interval.close_closed h.openEq, ← Interval.countAt_closed h.openEq T]; exact h.count
  | true =>
    have h1 := h.start_le rfl
    have hc := h.count
    rw [Interval.countAt_open h.openEq h1] at hc
    unfold Interval.close
    rw [if_pos h.openEq]
    simp only [usub]
    rw [if_pos (by omega)]; omega

/-! ## Settling -/

theorem Spec.BankS.settle_settle {t t' : Nat} (h : t ≤ t') (b : BankS) :
    (b.settle t).settle t' = b.settle t' := by
  obtain ⟨st, _, _, _, _, _⟩ := b
  cases st with
  | idle => rfl
  | opened p =>
    cases p with
    | none => rfl
    | some p =>
      simp only [BankS.settle]
      by_cases hp : p ≤ t
      · have : p ≤ t' := by omega
        simp [hp, this]
      · simp [hp]
  | refreshing u =>
    simp only [BankS.settle]
    by_cases hp : u ≤ t
    · have : u ≤ t' := by omega
      simp [hp, this]
    · simp [hp]

theorem Spec.Mode.settle_settle {t t' : Nat} (h : t ≤ t') (m : Mode) :
    (m.settle t).settle t' = m.settle t' := by
  cases m with
  | normal | sref | dsm => rfl
  | pd a e x =>
    cases x with
    | none => rfl
    | some x =>
      simp only [Mode.settle]
      by_cases hp : x ≤ t
      · have : x ≤ t' := by omega
        simp [hp, this]
      · simp [hp]

theorem Spec.State.settle_settle {t t' : Nat} (h : t ≤ t') (s : State) :
    (s.settle t).settle t' = s.settle t' := by
  simp only [State.settle, Mode.settle_settle h, BankS.settle_settle h]

theorem Spec.BankS.isOpen_settle {t τ : Nat} (h : t ≤ τ) (b : BankS) : (b.settle t).isOpen τ = b.isOpen τ := by
  obtain ⟨st, _, _, _, _, _⟩ := b
  cases st with
  | idle => rfl
  | opened p =>
    cases p with
    | none => rfl
    | some p =>
      simp only [BankS.settle]
      by_cases hp : p ≤ t
      · simp [hp, BankS.isOpen]; omega
      · simp [hp]
  | refreshing u =>
    simp only [BankS.settle]
    by_cases hp : u ≤ t
    · simp [hp, BankS.isOpen]; omega
    · simp [hp]

theorem Spec.Mode.low_settle {t τ : Nat} (h : t ≤ τ) (m : Mode) : (m.settle t).low τ = m.low τ := by
  cases m with
  | normal | sref | dsm => rfl
  | pd a e x =>
    cases x with
    | none => rfl
    | some x =>
      simp only [Mode.settle]
      by_cases hp : x ≤ t
      · have : ¬ τ < x := by omega
        simp [hp, Mode.low, this]
      · simp [hp]

/-! ## Counting cycles -/

theorem countP_range_add {p : Nat → Bool} {T T' : Nat} (hT : T ≤ T') {c : Bool}
    (h : ∀ τ, T ≤ τ → τ < T' → p τ = c) :
    (List.range T').countP p = (List.range T).countP p + if c then T' - T else 0 := by
  obtain ⟨d, rfl⟩ := Nat.exists_eq_add_of_le hT
  clear hT
  induction d with
  | zero => simp
  | succ d ih =>
    have h1 := ih (fun τ h1 h2 => h τ h1 (by omega))
    have h2 := h (T + d) (by omega) (by omega)
    rw [Nat.add_succ, List.range_succ, List.countP_append, h1]
    simp only [List.countP_cons, List.countP_nil, h2]
    cases c <;> simp <;> omega

end DRAMPower
