import Verif.Lemmas.Project
import Verif.Props.C24
import Verif.Props.C29

/-!
# What a transfer puts on the data bus
-/

namespace DRAMPower
open Spec

/-! ## LPDDR6 bursts -/

theorem carried_source : ∀ p : Fin 288, sources.find? (fun s => s.place == p.val) = some (sourceAt p) := by
  decide +kernel

/-- The last bit of a burst is read, so the payload is complete. -/
theorem last_bit : dataBitMapping.getD (dataIdx 285) 0 = 255 := by decide +kernel

theorem formatStep_length {shift : Option (Nat → Bool)} {data : List UInt8} {md : BitVec 16} {dbi : BitVec 32} {nb b i : Nat} {r : List UInt8}
    {s : FormatState} (h : formatStep shift data md dbi nb b ⟨r, dataIdx i, i / 12, i % 12⟩ i = .ok s) :
    (∃ r', s = ⟨r', dataIdx (i + 1), (i + 1) / 12, (i + 1) % 12⟩) ∧ (256 * b + dataBitMapping.getD (dataIdx i) 0) / 8 < data.length := by
  unfold formatStep at h
  have h3 : ∀ k, k >>> 3 = k / 8 := fun k => Nat.shiftRight_eq_div_pow k 3
  simp only [h3] at h
  split at h
  · cases h
  split at h
  · cases h
  have hq : (if i % 12 + 1 = 12 then i / 12 + 1 else i / 12) = (i + 1) / 12 := by split <;> omega
  have hq' : (if i % 12 + 1 = 12 then 0 else i % 12 + 1) = (i + 1) % 12 := by split <;> omega
  rw [hq, hq', ← dataIdx_succ] at h
  exact ⟨⟨_, (Except.ok.inj h).symm⟩, by omega⟩

theorem formatBurst_length {shift : Option (Nat → Bool)} {data r r' : List UInt8} {f : Formatter} {dbi : BitVec 32} {nb b : Nat}
    (h : formatBurst shift data f dbi nb r b = .ok r') : 32 * (b + 1) ≤ data.length := by
  unfold formatBurst at h
  split at h
  · cases h
  rename_i s hs
  have := foldlM_range_inv (P := fun i s => (∃ r', s = (⟨r', dataIdx i, i / 12, i % 12⟩ : FormatState)) ∧
    ∀ k < i, (256 * b + dataBitMapping.getD (dataIdx k) 0) / 8 < data.length) ⟨⟨r, rfl⟩, by intro k hk; omega⟩ ?_ hs
  · have := this.2 285 (by omega)
    rw [last_bit] at this
    omega
  · rintro i a b' hi ⟨⟨r1, rfl⟩, hk⟩ hstep
    obtain ⟨h1, h2⟩ := formatStep_length hstep
    refine ⟨h1, fun k hk' => ?_⟩
    rcases Nat.lt_or_ge k i with h | h
    · exact hk k h
    · rw [show k = i by omega]; exact h2

theorem formatData_length {shift : Option (Nat → Bool)} {f f' : Formatter} {data : List UInt8} {n n' : Nat} {inv : Option (List Bool)}
    {out : Option (List UInt8)} (h : f.formatData shift (some data) n inv = .ok (f', out, n')) : 32 * (n / 256) ≤ data.length := by
  have hn := (formatData_size h).2
  unfold Formatter.formatData at h
  split at h
  · cases h
  dsimp only at h
  split at h
  · cases h
  rename_i o ho
  have hb : (if 2 * (288 - 32) = n then 2 else 1) = n / 256 := by
    rcases hn with e | e <;> subst e <;> rfl
  rw [hb] at ho
  have hr : List.range (n / 256) = List.range (n / 256 - 1) ++ [n / 256 - 1] := by
    rw [← List.range_succ]; congr 1; rcases hn with e | e <;> subst e <;> rfl
  generalize hx : List.replicate (n / 256 * 36) (0 : UInt8) ++ f.result.drop (n / 256 * 36) = x at ho
  rw [hr, List.foldlM_append] at ho
  obtain ⟨y, _, ho⟩ := bind_ok ho
  rw [List.foldlM_cons] at ho
  obtain ⟨z, hz, _⟩ := bind_ok ho
  have := formatBurst_length hz
  rcases hn with e | e <;> subst e <;> exact this

/-- Without inversion: the formatted payload. -/
theorem formatted_bits {shift : Option (Nat → Bool)} {f f' : Formatter} {data : List UInt8} {n n' : Nat}
    {out : Option (List UInt8)} {m : Setting} (hm : m.inverting = false) (hf : f.metaData = (m.first, m.second))
    (h : f.formatData shift (some data) n none = .ok (f', out, n')) :
    f'.metaData = f.metaData ∧ n' = n + n / 256 * 32 ∧ ∃ bytes, out = some bytes ∧
    ∀ i < n', bitOf bytes i = carriedAt m data ((n' - 1 - i) / 288) ((n' - 1 - i) % 288) := by
  obtain ⟨hs, hn⟩ := formatData_size h
  have hl := formatData_length h
  have hset : f.setMetaData m.first m.second = f := by
    unfold Formatter.setMetaData; rw [← hf]
  have hb : n = 256 * (n / 256) := by rcases hn with e | e <;> subst e <;> rfl
  have hnb : n / 256 = 1 ∨ n / 256 = 2 := by rcases hn with e | e <;> subst e <;> simp
  have hsh : n / 256 = 1 ∨ n / 256 = 2 ∧ shift.isSome = true := by
    rcases hnb with e | e
    · exact .inl e
    · refine .inr ⟨e, ?_⟩
      cases hsv : shift with
      | some g => rfl
      | none =>
        rw [hsv, hb, e, C29_violation_shift f data none (by omega)] at h
        cases h
  obtain ⟨f2, o, e, e2, _, hv⟩ := C29_partial shift f m.first m.second (n / 256) data none hsh hl
  rw [hset, ← hb, h] at e
  cases e
  refine ⟨e2.trans hf.symm, by omega, o, rfl, fun i hi => ?_⟩
  generalize hnbv : n / 256 = nb at *
  have hlt : 288 * nb - 1 - i < 288 * nb := by omega
  have hpl : (288 * nb - 1 - i) % 288 < 288 := Nat.mod_lt _ (by decide)
  have hbl : (288 * nb - 1 - i) / 288 < nb := by omega
  have key := hv _ hbl (sourceAt ((288 * nb - 1 - i) % 288))
  rw [(format_table _ hpl).1] at key
  have hidx : 288 * nb - 1 - (288 * ((288 * nb - 1 - i) / 288) + (288 * nb - 1 - i) % 288) = i := by omega
  unfold placeBit at key
  rw [hidx] at key
  rw [key]
  unfold carriedAt
  rw [carried_source ⟨_, hpl⟩]
  dsimp only
  have hfl : ∀ c, flagged .lpddr6 m data c = false := by intro c; unfold flagged; rw [hm]; rfl
  cases sourceAt ((288 * nb - 1 - i) % 288) with
  | payload j => simp only [Source.value, invertedBit, hfl]; simp
  | metadata k => rfl
  | inversion k => simp [Source.value, hfl]

/-! ## Inversion -/

theorem testBit_quot (x k : Nat) : (x / 2 ^ k % 2 == 1) = x.testBit k := (Nat.testBit_eq_decide_div_mod_eq).symm ▸ rfl

theorem bitOf_ofWords (l : List (BitVec 8)) (i : Nat) : bitOf (Interface.ofWords l) i = (l.getD (i / 8) 0).getLsbD (i % 8) := by
  have e : (Interface.ofWords l).getD (i / 8) 0 = UInt8.ofBitVec (l.getD (i / 8) 0) := by
    unfold Interface.ofWords
    rw [List.getD_eq_getElem?_getD, List.getD_eq_getElem?_getD, List.getElem?_map]
    cases l[i / 8]? <;> rfl
  unfold bitOf
  rw [e]
  exact testBit_quot _ _

theorem bitOf_toWords (data : List UInt8) (i : Nat) : bitOf data i = ((Interface.toWords data).getD (i / 8) 0).getLsbD (i % 8) := by
  have e : (Interface.toWords data).getD (i / 8) 0 = (data.getD (i / 8) 0).toBitVec := by
    unfold Interface.toWords
    rw [List.getD_eq_getElem?_getD, List.getD_eq_getElem?_getD, List.getElem?_map]
    cases data[i / 8]? <;> rfl
  rw [e]
  unfold bitOf
  exact testBit_quot _ _

/-- The inverted payload of the standards with one flag per byte. -/
theorem inverted_bits {std : Std} {sp : IfSpec} {m : Setting} (hm : m.inverting = true) (h5 : std ≠ .ddr5) (h6 : std ≠ .lpddr6) {d d' : Dbi 8}
    {t nBits : Nat} {data : List UInt8} {out : List (BitVec 8)} {read : Bool} {ev : List DbiEvent}
    (h : d.update (sp.dbi std) t nBits (some (Interface.toWords data)) read = .ok (d', some out, ev)) :
    ∀ i < nBits, bitOf (Interface.ofWords out) i = invertedBit std m data i := by
  intro i hi
  obtain ⟨b⟩ := Dbi.update_ok h
  have hsub : (sp.dbi std).sub = 1 := if_neg h6
  have hlen : ((Interface.toWords data).take (nBits / 8)).length = nBits / 8 := by rw [List.length_take, Nat.min_eq_left b.enough]
  have hw := b.words
  have hc : i / 8 < nBits / 8 := by omega
  have hfl := static_flags hsub rfl b.idle b.comp (i / 8) (by omega)
  have hinv := compute_inv (by omega) (Or.inl rfl) b.comp
  have hd := hinv.dat (i / 8) (by omega)
  rw [hsub, Nat.div_one, Nat.mul_one, hlen] at hd
  simp only [hc, true_and] at hd
  have htk : ((Interface.toWords data).take (nBits / 8)).getD (i / 8) 0 = (Interface.toWords data).getD (i / 8) 0 := by
    simp [List.getD_eq_getElem?_getD, hc]
  rw [htk] at hd hfl
  have hcb : chunkBits std = 8 := if_neg h6
  have hcost : costly (sp.dbi std) = (std != .ddr4) := by
    unfold costly IfSpec.dbi
    cases std <;> rfl
  have hflag : flagged std m data (i / 8) = b.s.flags.getD (i / 8) false := by
    rw [hfl]
    unfold flagged
    rw [hm, hcb, hcost]
    have e5 : (std != .ddr5) = true := by simpa using h5
    rw [e5, Bool.true_and, Bool.true_and]
    have hwires : (wires 8 fun j => bitOf data (i / 8 * 8 + j) == (std != .ddr4)) =
        levels (std != .ddr4) [(Interface.toWords data).getD (i / 8) 0] := by
      rw [levels_one]
      refine wires_congr fun j hj => ?_
      rw [bitOf_toWords, show (i / 8 * 8 + j) / 8 = i / 8 by omega, show (i / 8 * 8 + j) % 8 = j by omega]
    rw [hwires]
    have := level_sum ((Interface.toWords data).getD (i / 8) 0)
    simp only [levels_one]
    cases (std != .ddr4) <;> simp only [Bool.not_true, Bool.not_false] <;> congr 1 <;> apply propext <;> omega
  have ho : out = b.s.data := b.hout
  rw [bitOf_ofWords, ho, hd, invertedBit, hcb, hflag, bitOf_toWords]
  have h8 : i % 8 < 8 := Nat.mod_lt _ (by decide)
  cases b.s.flags.getD (i / 8) false with
  | false => simp
  | true => simp [h8]

end DRAMPower
