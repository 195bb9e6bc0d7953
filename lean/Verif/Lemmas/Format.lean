import Verif.Model.Format
import Verif.Spec.Burst
import Verif.Lemmas.BusStats

/-! # Lemmas about the LPDDR6 burst formatter -/

namespace DRAMPower
open Spec

/-- Number of payload places before place `i`. -/
def dataIdx (i : Nat) : Nat := (List.range i).countP fun k => isData (k / 12) (k % 12)

theorem dataIdx_succ (i : Nat) : dataIdx (i + 1) = dataIdx i + (isData (i / 12) (i % 12)).toNat := by
  simp only [dataIdx, List.range_succ, List.countP_append, List.countP_cons, List.countP_nil, Nat.zero_add]
  cases isData (i / 12) (i % 12) <;> simp

/-- The source of place `i`, as the code computes it. -/
def sourceAt (i : Nat) : Source :=
  if isDbi (i / 12) (i % 12) then .inversion (Fin.ofNat 16 (bitOffset (i / 12) (i % 12)))
  else if isMeta (i / 12) (i % 12) then .metadata (Fin.ofNat 16 (bitOffset (i / 12) (i % 12)))
  else .payload (Fin.ofNat 256 (dataBitMapping.getD (dataIdx i) 0))

theorem format_table : ∀ i < 288, (sourceAt i).place = i ∧ dataBitMapping.getD (dataIdx i) 0 < 256 ∧
    bitOffset (i / 12) (i % 12) < 32 ∧
    (isDbi (i / 12) (i % 12) = true → bitOffset (i / 12) (i % 12) < 16) ∧
    (isMeta (i / 12) (i % 12) = true → isDbi (i / 12) (i % 12) = false ∧ bitOffset (i / 12) (i % 12) < 16) := by
  decide +kernel

theorem sourceAt_place : ∀ s : Source, sourceAt s.place = s ∧ s.place < 288 := by
  have h1 : ∀ j : Fin 256, sourceAt (Source.payload j).place = .payload j ∧ (Source.payload j).place < 288 := by decide +kernel
  have h2 : ∀ j : Fin 16, sourceAt (Source.metadata j).place = .metadata j ∧ (Source.metadata j).place < 288 := by
    decide +kernel
  have h3 : ∀ j : Fin 16, sourceAt (Source.inversion j).place = .inversion j ∧ (Source.inversion j).place < 288 := by
    decide +kernel
  intro s
  cases s with
  | payload j => exact h1 j
  | metadata j => exact h2 j
  | inversion j => exact h3 j

theorem one_testBit {k : Nat} (h : k ≠ 0) : (1 : Nat).testBit k = false := by
  cases k with
  | zero => exact absurd rfl h
  | succ k => rw [Nat.testBit_succ]; simp

theorem orBit_length (bytes : List UInt8) (k : Nat) (v : Bool) : (orBit bytes k v).length = bytes.length := by
  simp [orBit]

theorem payloadBit_orBit (bytes : List UInt8) (k : Nat) (v : Bool) (h : k < 8 * bytes.length) (o : Nat) :
    payloadBit (orBit bytes k v) o = (payloadBit bytes o || (decide (k = o) && v)) := by
  have h7 : k &&& 7 = k % 8 := Nat.and_two_pow_sub_one_eq_mod k 3
  have h3 : k >>> 3 = k / 8 := Nat.shiftRight_eq_div_pow k 3
  unfold payloadBit orBit
  rw [h7, h3]
  simp only [List.getD_eq_getElem?_getD, List.getElem?_modify]
  by_cases hb : k / 8 = o / 8
  · have hlt : o / 8 < bytes.length := by omega
    rw [List.getElem?_eq_getElem hlt]
    simp only [hb, if_pos, Option.map_eq_map, Option.map_some, Option.getD_some]
    rw [UInt8.toNat_ofNat', Nat.testBit_mod_two_pow, Nat.testBit_or]
    have : o % 8 < 8 := Nat.mod_lt _ (by decide)
    simp only [this, decide_true, Bool.true_and]
    congr 1
    cases v
    · simp
    · by_cases hk : k = o
      · subst hk; simp [Nat.testBit_shiftLeft]
      · have : k % 8 ≠ o % 8 := by omega
        simp only [hk, decide_false, Bool.false_and, Bool.toNat_true, Nat.testBit_shiftLeft]
        by_cases hle : k % 8 ≤ o % 8
        · have h0 : o % 8 - k % 8 ≠ 0 := by omega
          simp [one_testBit h0]
        · simp [hle]
  · have hk : k ≠ o := by rintro rfl; exact hb rfl
    simp [hb, hk]

theorem dbival_bit (flags : List Bool) (k : Nat) (hk : k < 32) : (dbival (some flags)).getLsbD k = flags.getD k false := by
  have key : ∀ n ≤ 32, ∀ k < 32, ((List.range n).foldl (fun (v : BitVec 32) i => v ||| BitVec.ofNat 32 ((flags.getD i false).toNat <<< i)) 0).getLsbD k =
      (decide (k < n) && flags.getD k false) := by
    intro n
    induction n with
    | zero => intro _ k _; simp
    | succ n ih =>
      intro hn k hk
      rw [List.range_succ, List.foldl_append]
      simp only [List.foldl_cons, List.foldl_nil, BitVec.getLsbD_or, ih (by omega) k hk, BitVec.getLsbD_ofNat, hk, decide_true,
        Bool.true_and, Nat.testBit_shiftLeft]
      by_cases h : k = n
      · subst h; cases flags.getD k false <;> simp
      · by_cases h2 : k < n
        · have : ¬ k ≥ n := by omega
          simp [h2, this, Nat.lt_succ_of_lt h2]
        · have h3 : ¬ k < n + 1 := by omega
          have h4 : k - n ≠ 0 := by omega
          cases flags.getD n false <;> simp [h2, h3, one_testBit h4]
  unfold dbival
  rw [key _ (by omega) k hk]
  by_cases h : k < flags.length
  · have : k < min flags.length 32 := by omega
    simp [this]
  · simp [List.getD_eq_getElem?_getD, List.getElem?_eq_none (Nat.not_lt.1 h)]

theorem dbival_none (k : Nat) : (dbival none).getLsbD k = false := by simp [dbival]

/-- The DBI flags that are available. -/
theorem dbival_getD (inversion : Option (List Bool)) (k : Nat) (hk : k < 32) :
    (dbival inversion).getLsbD k = (inversion.getD []).getD k false := by
  cases inversion with
  | none => simp [dbival_none]
  | some f => exact dbival_bit f k hk

/-- One pass through the loop body at place `i`. -/
theorem formatStep_eq (shift : Option (Nat → Bool)) (data : List UInt8) (f : Formatter) (inversion : Option (List Bool))
    (nb b i : Nat) (hb : b < nb) (hnb : nb ≤ 2) (hi : i < 288) (hd : 32 * nb ≤ data.length)
    (hs : 16 * b + bitOffset (i / 12) (i % 12) < 32 ∨ shift.isSome = true) (r : List UInt8) :
    formatStep shift data (f.metaOf b) (dbival inversion) nb b ⟨r, dataIdx i, i / 12, i % 12⟩ i =
      .ok ⟨orBit r (nb * 288 - 1 - (b * 288 + i)) ((sourceAt i).value data f.metaOf (inversion.getD []) b),
        dataIdx (i + 1), (i + 1) / 12, (i + 1) % 12⟩ := by
  obtain ⟨-, hm, ho, hdbi, hmeta⟩ := format_table i hi
  have h7 : ∀ k, k &&& 7 = k % 8 := fun k => Nat.and_two_pow_sub_one_eq_mod k 3
  have h3 : ∀ k, k >>> 3 = k / 8 := fun k => Nat.shiftRight_eq_div_pow k 3
  have hr : ¬ data.length ≤ (256 * b + dataBitMapping.getD (dataIdx i) 0) / 8 := by omega
  obtain ⟨x, hx, hx'⟩ : ∃ x, dbiShift shift (dbival inversion) (16 * b + bitOffset (i / 12) (i % 12)) = .ok x ∧
      (isDbi (i / 12) (i % 12) = true → x = (inversion.getD []).getD (16 * b + bitOffset (i / 12) (i % 12)) false) := by
    unfold dbiShift
    split
    · next h => exact ⟨_, rfl, fun _ => dbival_getD _ _ h⟩
    · next h =>
      cases shift with
      | none =>
        rcases hs with hs | hs
        · exact absurd hs h
        · cases hs
      | some g => exact ⟨_, rfl, fun hh => by have := hdbi hh; omega⟩
  have hq : (if i % 12 + 1 = 12 then i / 12 + 1 else i / 12) = (i + 1) / 12 := by split <;> omega
  have hq' : (if i % 12 + 1 = 12 then 0 else i % 12 + 1) = (i + 1) % 12 := by split <;> omega
  unfold formatStep
  simp only [h7, h3, if_neg hr, hx, hq, hq', ← dataIdx_succ]
  congr 3
  unfold sourceAt
  cases h1 : isDbi (i / 12) (i % 12) with
  | true =>
    have : isMeta (i / 12) (i % 12) = false := by
      cases h2 : isMeta (i / 12) (i % 12) with
      | true => rw [(hmeta h2).1] at h1; cases h1
      | false => rfl
    have hlt := hdbi h1
    simp [isData, this, h1, Source.value, hx' h1, Nat.mod_eq_of_lt hlt]
  | false =>
    cases h2 : isMeta (i / 12) (i % 12) with
    | true =>
      have hlt := (hmeta h2).2
      simp [isData, h1, h2, Source.value, Nat.mod_eq_of_lt hlt]
    | false =>
      simp only [isData, h1, h2, Source.value, Fin.ofNat, Nat.mod_eq_of_lt hm, ← payloadBit_eq, payloadBit]
      simp

/-- The bits written so far: all places before place `i` of burst `b`. -/
structure Written (data : List UInt8) (f : Formatter) (flags : List Bool) (nb upto : Nat) (len : Nat) (r : List UInt8) : Prop where
  length : r.length = len
  bits : ∀ p < nb * 288, payloadBit r (nb * 288 - 1 - p) =
    (decide (p < upto) && (sourceAt (p % 288)).value data f.metaOf flags (p / 288))

theorem Written.step {data : List UInt8} {f : Formatter} {flags : List Bool} {nb b i len : Nat} {r : List UInt8}
    (h : Written data f flags nb (b * 288 + i) len r) (hb : b < nb) (hi : i < 288) (hl : nb * 36 ≤ len) :
    Written data f flags nb (b * 288 + (i + 1)) len
      (orBit r (nb * 288 - 1 - (b * 288 + i)) ((sourceAt i).value data f.metaOf flags b)) := by
  have hlt : b * 288 + i < nb * 288 := by omega
  refine ⟨(orBit_length _ _ _).trans h.length, fun p hp => ?_⟩
  rw [payloadBit_orBit _ _ _ (by rw [h.length]; omega), h.bits p hp]
  by_cases he : p = b * 288 + i
  · subst he
    have h1 : (b * 288 + i) % 288 = i := by omega
    have h2 : (b * 288 + i) / 288 = b := by omega
    have h3 : b * 288 + i < b * 288 + (i + 1) := Nat.add_lt_add_left (Nat.lt_succ_self i) _
    simp only [h1, h2, h3, Nat.lt_irrefl, decide_true, decide_false, Bool.false_and, Bool.false_or, Bool.true_and]
  · have h1 : ¬ (nb * 288 - 1 - (b * 288 + i) = nb * 288 - 1 - p) := by omega
    have h2 : p < b * 288 + (i + 1) ↔ p < b * 288 + i := by omega
    simp only [h1, h2, decide_false, Bool.false_and, Bool.or_false]

theorem formatBurst_ok (shift : Option (Nat → Bool)) (data : List UInt8) (f : Formatter) (inversion : Option (List Bool))
    (nb b : Nat) (hb : b < nb) (hnb : nb ≤ 2) (hd : 32 * nb ≤ data.length) (hs : b = 0 ∨ shift.isSome = true)
    (len : Nat) (hl : nb * 36 ≤ len) (r : List UInt8) (h : Written data f (inversion.getD []) nb (b * 288) len r) :
    ∃ r', formatBurst shift data f (dbival inversion) nb r b = .ok r' ∧
      Written data f (inversion.getD []) nb ((b + 1) * 288) len r' := by
  have key : ∀ i ≤ 288, ∃ r', (List.range i).foldlM (formatStep shift data (f.metaOf b) (dbival inversion) nb b) { result := r } =
      .ok ⟨r', dataIdx i, i / 12, i % 12⟩ ∧ Written data f (inversion.getD []) nb (b * 288 + i) len r' := by
    intro i
    induction i with
    | zero => intro _; exact ⟨r, rfl, by rw [Nat.add_zero]; exact h⟩
    | succ i ih =>
      intro hi
      obtain ⟨r', h1, h2⟩ := ih (by omega)
      refine ⟨_, ?_, h2.step hb (by omega) hl⟩
      rw [List.range_succ, List.foldlM_append, h1]
      simp only [bind, Except.bind, List.foldlM_cons, List.foldlM_nil, pure, Except.pure,
        formatStep_eq shift data f inversion nb b i hb hnb (by omega) hd (hs.imp_left fun h0 => by subst h0; have := (format_table i (by omega)).2.2.1; omega) r']
  obtain ⟨r', h1, h2⟩ := key 288 (Nat.le_refl _)
  refine ⟨r', ?_, ?_⟩
  · unfold formatBurst; rw [h1]
  · have : (b + 1) * 288 = b * 288 + 288 := by omega
    rw [this]; exact h2

theorem written_cleared (data : List UInt8) (f : Formatter) (flags : List Bool) (nb : Nat) (rest : List UInt8) :
    Written data f flags nb 0 (nb * 36 + rest.length) (List.replicate (nb * 36) 0 ++ rest) := by
  refine ⟨by simp, fun p hp => ?_⟩
  have hlt : (nb * 288 - 1 - p) / 8 < nb * 36 := by omega
  unfold payloadBit
  rw [List.getD_eq_getElem?_getD, List.getElem?_append_left (by simpa using hlt), List.getElem?_replicate, if_pos hlt]
  simp

theorem formatAll_ok (shift : Option (Nat → Bool)) (data : List UInt8) (f : Formatter) (inversion : Option (List Bool))
    (nb : Nat) (hnb : nb ≤ 2) (hd : 32 * nb ≤ data.length) (hs : nb = 1 ∨ shift.isSome = true) (rest : List UInt8) :
    ∃ r', (List.range nb).foldlM (formatBurst shift data f (dbival inversion) nb) (List.replicate (nb * 36) 0 ++ rest) = .ok r' ∧
      Written data f (inversion.getD []) nb (nb * 288) (nb * 36 + rest.length) r' := by
  have key : ∀ n ≤ nb, ∃ r', (List.range n).foldlM (formatBurst shift data f (dbival inversion) nb) (List.replicate (nb * 36) 0 ++ rest) = .ok r' ∧
      Written data f (inversion.getD []) nb (n * 288) (nb * 36 + rest.length) r' := by
    intro n
    induction n with
    | zero => intro _; exact ⟨_, rfl, by rw [Nat.zero_mul]; exact written_cleared ..⟩
    | succ n ih =>
      intro hn
      obtain ⟨r', h1, h2⟩ := ih (by omega)
      obtain ⟨r'', h3, h4⟩ := formatBurst_ok shift data f inversion nb n (by omega) hnb hd (hs.imp_left fun h => by omega)
        _ (Nat.le_add_right _ _) r' h2
      refine ⟨r'', ?_, h4⟩
      rw [List.range_succ, List.foldlM_append, h1]
      simp only [bind, Except.bind, List.foldlM_cons, List.foldlM_nil, pure, Except.pure, h3]
  exact key nb (Nat.le_refl _)

theorem shift_table : (∀ i < 59, bitOffset (i / 12) (i % 12) < 16) ∧ bitOffset (59 / 12) (59 % 12) = 16 := by decide +kernel

/-- The second burst shifts the DBI value by 32 places at its 60th place. -/
theorem formatBurst_ub (data : List UInt8) (f : Formatter) (inversion : Option (List Bool)) (hd : 64 ≤ data.length)
    (r : List UInt8) : formatBurst none data f (dbival inversion) 2 r 1 = .error (.ub "dbival >> 32") := by
  have key : ∀ i ≤ 59, ∃ r', (List.range i).foldlM (formatStep none data (f.metaOf 1) (dbival inversion) 2 1) { result := r } =
      .ok ⟨r', dataIdx i, i / 12, i % 12⟩ := by
    intro i
    induction i with
    | zero => intro _; exact ⟨r, rfl⟩
    | succ i ih =>
      intro hi
      obtain ⟨r', h1⟩ := ih (by omega)
      have he := formatStep_eq none data f inversion 2 1 i (by omega) (by omega) (by omega) (by omega)
        (.inl (by have := shift_table.1 i (by omega); omega)) r'
      refine ⟨orBit r' (2 * 288 - 1 - (1 * 288 + i)) ((sourceAt i).value data f.metaOf (inversion.getD []) 1), ?_⟩
      rw [List.range_succ, List.foldlM_append, h1]
      simp only [bind, Except.bind, List.foldlM_cons, List.foldlM_nil, pure, Except.pure, he]
  obtain ⟨r', h1⟩ := key 59 (Nat.le_refl _)
  have hsplit : List.range 288 = List.range 59 ++ 59 :: (List.range 228).map (60 + ·) := by decide +kernel
  have hbad : formatStep none data (f.metaOf 1) (dbival inversion) 2 1 ⟨r', dataIdx 59, 59 / 12, 59 % 12⟩ 59 =
      .error (.ub "dbival >> 32") := by
    have hm := (format_table 59 (by omega)).2.1
    have hr : ¬ data.length ≤ (256 * 1 + dataBitMapping.getD (dataIdx 59) 0) >>> 3 := by
      rw [Nat.shiftRight_eq_div_pow]; omega
    unfold formatStep
    simp only [if_neg hr, shift_table.2, dbiShift]
    rfl
  unfold formatBurst
  rw [hsplit, List.foldlM_append, h1]
  simp only [bind, Except.bind, List.foldlM_cons, hbad]

end DRAMPower
