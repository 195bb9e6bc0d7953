import Verif.Spec.Stats

/-! # Lemmas on statistics -/

namespace DRAMPower
open Spec

theorem CoreCount.of_add (c : CoreCount) (a b : CycleStats) : c.of (a.add b) = c.of a + c.of b := by cases c <;> rfl

theorem CycleStats.ext_count {a b : CycleStats} (h : ∀ c : CoreCount, c.of a = c.of b) : a = b := by
  obtain ⟨⟨_, _, _, _, _, _, _, _, _, _, _⟩, ⟨_, _, _, _, _, _⟩, ⟨_, _, _, _, _, _⟩⟩ := a
  obtain ⟨⟨_, _, _, _, _, _, _, _, _, _, _⟩, ⟨_, _, _, _, _, _⟩, ⟨_, _, _, _, _, _⟩⟩ := b
  simp only [CycleStats.mk.injEq, Counters.mk.injEq, Cycles.mk.injEq, Prepos.mk.injEq]
  exact ⟨⟨h .act, h .pre, h .reads, h .writes, h .refAllBank, h .refPerBank, h .refPerTwoBanks, h .refDualBanks, h .refSameBank,
    h .readAuto, h .writeAuto⟩, ⟨h .cyclesAct, h .cyclesPre, h .powerDownAct, h .powerDownPre, h .selfRefresh, h .deepSleepMode⟩,
    ⟨h .readMerged, h .readMergedTime, h .writeMerged, h .writeMergedTime, h .readSeamless, h .writeSeamless⟩⟩

theorem CycleStats.add_comm (a b : CycleStats) : a.add b = b.add a :=
  CycleStats.ext_count fun c => by rw [CoreCount.of_add, CoreCount.of_add, Nat.add_comm]

theorem CycleStats.add_assoc (a b c : CycleStats) : (a.add b).add c = a.add (b.add c) :=
  CycleStats.ext_count fun k => by simp only [CoreCount.of_add, Nat.add_assoc]

theorem CycleStats.add_zero (a : CycleStats) : a.add {} = a :=
  CycleStats.ext_count fun c => by rw [CoreCount.of_add]; cases c <;> rfl

theorem CycleStats.zero_add (a : CycleStats) : CycleStats.add {} a = a := by rw [CycleStats.add_comm, CycleStats.add_zero]

/-- The loop over the common part. -/
theorem addLoop_get (b a : List CycleStats) (m j : Nat) :
    ((List.range m).foldl (fun l i => l.modify i fun x => x.add (b.getD i {})) a)[j]? =
      if j < m then a[j]?.map fun x => x.add (b.getD j {}) else a[j]? := by
  induction m with
  | zero => rfl
  | succ m ih =>
    rw [List.range_succ, List.foldl_append, List.foldl_cons, List.foldl_nil]
    by_cases h : m = j
    · subst h
      rw [List.getElem?_modify_eq, ih, if_neg (Nat.lt_irrefl m), if_pos (Nat.lt_succ_self m)]; rfl
    · rw [List.getElem?_modify_ne _ _ h, ih]
      by_cases h' : j < m
      · rw [if_pos h', if_pos (by omega)]
      · rw [if_neg h', if_neg (by omega)]

theorem addLoop_length (b a : List CycleStats) (m : Nat) :
    ((List.range m).foldl (fun l i => l.modify i fun x => x.add (b.getD i {})) a).length = a.length := by
  induction m with
  | zero => rfl
  | succ m ih => rw [List.range_succ, List.foldl_append, List.foldl_cons, List.foldl_nil, List.length_modify, ih]

theorem addCycles_get (a b : List CycleStats) (j : Nat) :
    (addCycles a b)[j]? = if j < max a.length b.length then some ((a.getD j {}).add (b.getD j {})) else none := by
  have hl := addLoop_length b a (min a.length b.length)
  have hg := addLoop_get b a (min a.length b.length) j
  unfold addCycles
  simp only []
  generalize (List.range (min a.length b.length)).foldl (fun l i => l.modify i fun x => x.add (b.getD i {})) a = S at hl hg ⊢
  by_cases ha : j < a.length
  · have e1 : (if a.length < b.length then S ++ b.drop (min a.length b.length) else S)[j]? = S[j]? := by
      split
      · rw [List.getElem?_append_left (by omega)]
      · rfl
    rw [e1, hg, if_pos (show j < max a.length b.length by omega)]
    have ea : a.getD j {} = a[j] := by rw [List.getD_eq_getElem?_getD, List.getElem?_eq_getElem ha]; rfl
    rw [ea, List.getElem?_eq_getElem ha]
    split
    · rfl
    · have eb : b.getD j {} = {} := by rw [List.getD_eq_getElem?_getD, List.getElem?_eq_none (by omega)]; rfl
      rw [eb, CycleStats.add_zero]
  · have ea : a.getD j {} = {} := by rw [List.getD_eq_getElem?_getD, List.getElem?_eq_none (by omega)]; rfl
    rw [ea, CycleStats.zero_add]
    by_cases hab : a.length < b.length
    · rw [if_pos hab, List.getElem?_append_right (by omega), List.getElem?_drop, hl]
      have e : min a.length b.length + (j - a.length) = j := by omega
      rw [e]
      by_cases hb : j < b.length
      · rw [if_pos (by omega), List.getD_eq_getElem?_getD, List.getElem?_eq_getElem hb]; rfl
      · rw [if_neg (by omega), List.getElem?_eq_none (by omega)]
    · rw [if_neg hab, if_neg (by omega), List.getElem?_eq_none (by omega)]

theorem addCycles_length (a b : List CycleStats) : (addCycles a b).length = max a.length b.length := by
  have hl := addLoop_length b a (min a.length b.length)
  unfold addCycles
  simp only []
  split
  · rw [List.length_append, hl, List.length_drop]; omega
  · rw [hl]; omega

theorem addCycles_getD (a b : List CycleStats) (j : Nat) :
    (addCycles a b).getD j {} = (a.getD j {}).add (b.getD j {}) := by
  rw [List.getD_eq_getElem?_getD, addCycles_get]
  split
  · rfl
  · rw [List.getD_eq_getElem?_getD, List.getD_eq_getElem?_getD, List.getElem?_eq_none (by omega), List.getElem?_eq_none (by omega)]
    rfl

theorem addCycles_ext {a b : List CycleStats} (hl : a.length = b.length) (h : ∀ j, a.getD j {} = b.getD j {}) : a = b := by
  apply List.ext_getElem? fun j => ?_
  have := h j
  rw [List.getD_eq_getElem?_getD, List.getD_eq_getElem?_getD] at this
  by_cases hj : j < a.length
  · rw [List.getElem?_eq_getElem hj, List.getElem?_eq_getElem (show j < b.length by omega)] at this ⊢
    simpa using this
  · rw [List.getElem?_eq_none (by omega), List.getElem?_eq_none (by omega)]

theorem addCycles_comm (a b : List CycleStats) : addCycles a b = addCycles b a :=
  addCycles_ext (by rw [addCycles_length, addCycles_length]; omega)
    fun j => by rw [addCycles_getD, addCycles_getD, CycleStats.add_comm]

theorem addCycles_assoc (a b c : List CycleStats) : addCycles (addCycles a b) c = addCycles a (addCycles b c) :=
  addCycles_ext (by simp only [addCycles_length]; omega)
    fun j => by simp only [addCycles_getD, CycleStats.add_assoc]

theorem addCycles_nil (a : List CycleStats) : addCycles a [] = a :=
  addCycles_ext (by rw [addCycles_length]; simp)
    fun j => by rw [addCycles_getD]; exact CycleStats.add_zero _

theorem Counters.eq_iff (a b : Counters) : a.eq b = true ↔ a = b := by
  obtain ⟨_, _, _, _, _, _, _, _, _, _, _⟩ := a
  obtain ⟨_, _, _, _, _, _, _, _, _, _, _⟩ := b
  simp only [Counters.eq, Bool.and_eq_true, beq_iff_eq, Counters.mk.injEq, and_assoc]

theorem Cycles.eq_iff (a b : Cycles) : a.eq b = true ↔ a = b := by
  obtain ⟨_, _, _, _, _, _⟩ := a
  obtain ⟨_, _, _, _, _, _⟩ := b
  simp only [Cycles.eq, Bool.and_eq_true, beq_iff_eq, Cycles.mk.injEq, and_assoc]

theorem Prepos.eq_iff (a b : Prepos) : a.eq b = true ↔ a = b := by
  obtain ⟨_, _, _, _, _, _⟩ := a
  obtain ⟨_, _, _, _, _, _⟩ := b
  simp only [Prepos.eq, Bool.and_eq_true, beq_iff_eq, Prepos.mk.injEq, and_assoc]

theorem CycleStats.eq_iff (a b : CycleStats) : a.eq b = true ↔ a = b := by
  obtain ⟨_, _, _⟩ := a
  obtain ⟨_, _, _⟩ := b
  simp only [CycleStats.eq, Bool.and_eq_true, Counters.eq_iff, Cycles.eq_iff, Prepos.eq_iff, CycleStats.mk.injEq, and_assoc]

theorem BusStats.eq_iff (a b : BusStats) : a.eq b = true ↔ a = b := by
  obtain ⟨_, _, _, _, _⟩ := a
  obtain ⟨_, _, _, _, _⟩ := b
  simp only [BusStats.eq, Bool.and_eq_true, beq_iff_eq, BusStats.mk.injEq, and_assoc]

theorem eqCycles_iff (a b : List CycleStats) : eqCycles a b = true ↔ a = b := by
  unfold eqCycles
  split
  · next h => exact ⟨fun h' => (by cases h'), fun h' => absurd (by rw [h']) h⟩
  · next h =>
    have h : a.length = b.length := by omega
    rw [List.all_eq_true]
    constructor
    · intro h'
      refine addCycles_ext h fun j => ?_
      by_cases hj : j < a.length
      · exact (CycleStats.eq_iff _ _).1 (h' j (List.mem_range.2 hj))
      · rw [List.getD_eq_getElem?_getD, List.getD_eq_getElem?_getD, List.getElem?_eq_none (by omega), List.getElem?_eq_none (by omega)]
    · rintro rfl j -
      exact (CycleStats.eq_iff _ _).2 rfl

end DRAMPower
