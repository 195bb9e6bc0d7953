import Verif.Lemmas.Format
import Verif.Props.C18

/-!
# C29: LPDDR6 burst formatting is a bijection

`Spec/Burst` says where each bit belongs. `C29_places` shows that this layout uses each of the 288 places of a burst
exactly once, `C29_partial` that the formatter produces it, `C29_recover` that nothing is lost. With two bursts the
formatter relies on a shift with undefined result (`C29_violation_shift`); the other theorems hold for every value that
shift may have.
-/

namespace DRAMPower
open Spec

/-- Each place of a burst carries exactly one payload, metadata or DBI bit, and each such bit has one place. -/
theorem C29_places : (∀ s : Source, s.place < 288) ∧ ∀ p < 288, ∃ s : Source, s.place = p ∧ ∀ s' : Source, s'.place = p → s' = s := by
  refine ⟨fun s => (sourceAt_place s).2, fun p hp => ⟨sourceAt p, (format_table p hp).1, fun s' h => ?_⟩⟩
  rw [← h]; exact (sourceAt_place s').1.symm

/-- The metadata and the DBI flags sit on the reserved lines 4, 5, 10 and 11, in beats 8 to 11 and 20 to 23; no payload bit
does. -/
theorem C29_reserved (s : Source) :
    (s.place % 12 ∈ [4, 5, 10, 11] ∧ 8 ≤ s.place / 12 ∧ s.place / 12 < 12 ↔ ∃ k, s = .metadata k) ∧
    (s.place % 12 ∈ [4, 5, 10, 11] ∧ 20 ≤ s.place / 12 ∧ s.place / 12 < 24 ↔ ∃ k, s = .inversion k) := by
  have h1 : ∀ j : Fin 256, ¬ ((Source.payload j).place % 12 ∈ [4, 5, 10, 11] ∧ 8 ≤ (Source.payload j).place / 12 ∧ (Source.payload j).place / 12 < 12) ∧
      ¬ ((Source.payload j).place % 12 ∈ [4, 5, 10, 11] ∧ 20 ≤ (Source.payload j).place / 12 ∧ (Source.payload j).place / 12 < 24) := by
    decide +kernel
  have h2 : ∀ j : Fin 16, ((Source.metadata j).place % 12 ∈ [4, 5, 10, 11] ∧ 8 ≤ (Source.metadata j).place / 12 ∧ (Source.metadata j).place / 12 < 12) ∧
      ¬ ((Source.metadata j).place % 12 ∈ [4, 5, 10, 11] ∧ 20 ≤ (Source.metadata j).place / 12 ∧ (Source.metadata j).place / 12 < 24) := by
    decide +kernel
  have h3 : ∀ j : Fin 16, ¬ ((Source.inversion j).place % 12 ∈ [4, 5, 10, 11] ∧ 8 ≤ (Source.inversion j).place / 12 ∧ (Source.inversion j).place / 12 < 12) ∧
      ((Source.inversion j).place % 12 ∈ [4, 5, 10, 11] ∧ 20 ≤ (Source.inversion j).place / 12 ∧ (Source.inversion j).place / 12 < 24) := by
    decide +kernel
  cases s with
  | payload j =>
    refine ⟨⟨fun h => absurd h (h1 j).1, fun ⟨k, h⟩ => by cases h⟩, ⟨fun h => absurd h (h1 j).2, fun ⟨k, h⟩ => by cases h⟩⟩
  | metadata j =>
    refine ⟨⟨fun _ => ⟨j, rfl⟩, fun _ => (h2 j).1⟩, ⟨fun h => absurd h (h2 j).2, fun ⟨k, h⟩ => by cases h⟩⟩
  | inversion j =>
    refine ⟨⟨fun h => absurd h (h3 j).1, fun ⟨k, h⟩ => by cases h⟩, ⟨fun _ => ⟨j, rfl⟩, fun _ => (h3 j).2⟩⟩

/-- For one or two bursts, every payload, metadata and DBI value and whatever was formatted before: the result has 288 bits
per burst and carries at the place of each payload, metadata and DBI bit of each burst the value of that bit. Without DBI
the flags are low. Partial: two bursts need `shift` to have a value (`C29_violation_shift`). -/
theorem C29_partial (shift : Option (Nat → Bool)) (f : Formatter) (m1 m2 : BitVec 16) (nbursts : Nat) (data : List UInt8)
    (inversion : Option (List Bool)) (hn : nbursts = 1 ∨ nbursts = 2 ∧ shift.isSome = true) (hd : 32 * nbursts ≤ data.length) :
    ∃ f' out, (f.setMetaData m1 m2).formatData shift (some data) (256 * nbursts) inversion = .ok (f', some out, 288 * nbursts) ∧
      f'.getMetaData = (m1, m2) ∧ 288 * nbursts ≤ 8 * out.length ∧
      ∀ burst < nbursts, ∀ s : Source, placeBit out nbursts burst s.place =
        s.value data (fun b => if b = 0 then m1 else m2) (inversion.getD []) burst := by
  have hle : nbursts ≤ 2 := by omega
  obtain ⟨out, h1, h2⟩ := formatAll_ok shift data (f.setMetaData m1 m2) inversion nbursts hle hd
    (hn.imp_right And.right) ((f.setMetaData m1 m2).result.drop (nbursts * 36))
  refine ⟨{ (f.setMetaData m1 m2) with result := out }, out, ?_, rfl, ?_, fun b hb s => ?_⟩
  · have hnb : (if 2 * (288 - 32) = 256 * nbursts then 2 else 1) = nbursts := by split <;> omega
    unfold Formatter.formatData
    rw [if_neg (by omega), hnb]
    simp only [h1, Nat.mul_comm]
  · rw [h2.length]; omega
  · have hp := (sourceAt_place s).2
    have hi : 288 * nbursts - 1 - (288 * b + s.place) = nbursts * 288 - 1 - (b * 288 + s.place) := by omega
    have hlt : b * 288 + s.place < nbursts * 288 := by omega
    unfold placeBit
    rw [← payloadBit_eq, hi, h2.bits _ hlt]
    have e1 : (b * 288 + s.place) % 288 = s.place := by omega
    have e2 : (b * 288 + s.place) / 288 = b := by omega
    rw [e1, e2, (sourceAt_place s).1, decide_eq_true hlt, Bool.true_and]
    rfl

/-- The hypotheses are met by a read of two bursts with metadata and DBI. -/
example : ∃ (data : List UInt8) (shift : Option (Nat → Bool)), 32 * 2 ≤ data.length ∧ shift.isSome = true :=
  ⟨List.replicate 64 0xA5, some fun _ => true, by decide, rfl⟩

/-- Payload, metadata and DBI flags can be recovered: two transfers that look alike were given the same ones. -/
theorem C29_recover (shift shift' : Option (Nat → Bool)) (f g f' g' : Formatter) (m1 m2 n1 n2 : BitVec 16) (nbursts : Nat)
    (data data' : List UInt8) (inversion inversion' : Option (List Bool)) (out out' : List UInt8) (len len' : Nat)
    (hn : nbursts = 1 ∨ nbursts = 2 ∧ shift.isSome = true ∧ shift'.isSome = true)
    (hd : 32 * nbursts ≤ data.length) (hd' : 32 * nbursts ≤ data'.length)
    (h : (f.setMetaData m1 m2).formatData shift (some data) (256 * nbursts) inversion = .ok (f', some out, len))
    (h' : (g.setMetaData n1 n2).formatData shift' (some data') (256 * nbursts) inversion' = .ok (g', some out', len'))
    (heq : ∀ i < 288 * nbursts, bitOf out i = bitOf out' i) :
    (∀ i < 256 * nbursts, bitOf data i = bitOf data' i) ∧ m1 = n1 ∧ (nbursts = 2 → m2 = n2) ∧
      ∀ i < 16 * nbursts, (inversion.getD []).getD i false = (inversion'.getD []).getD i false := by
  obtain ⟨_, o, e, -, -, hb⟩ := C29_partial shift f m1 m2 nbursts data inversion (hn.imp_right fun h => ⟨h.1, h.2.1⟩) hd
  obtain ⟨_, o', e', -, -, hb'⟩ := C29_partial shift' g n1 n2 nbursts data' inversion' (hn.imp_right fun h => ⟨h.1, h.2.2⟩) hd'
  rw [h] at e; rw [h'] at e'
  cases e; cases e'
  have key : ∀ burst < nbursts, ∀ s : Source, s.value data (fun b => if b = 0 then m1 else m2) (inversion.getD []) burst =
      s.value data' (fun b => if b = 0 then n1 else n2) (inversion'.getD []) burst := by
    intro b hlt s
    have hp := (sourceAt_place s).2
    rw [← hb b hlt s, ← hb' b hlt s]
    exact heq _ (by omega)
  refine ⟨fun i hi => ?_, ?_, fun h2 => ?_, fun i hi => ?_⟩
  · have := key (i / 256) (by omega) (.payload ⟨i % 256, Nat.mod_lt _ (by decide)⟩)
    simp only [Source.value] at this
    rwa [Nat.div_add_mod] at this
  · refine BitVec.eq_of_getLsbD_eq fun k hk => ?_
    exact key 0 (by omega) (.metadata ⟨k, hk⟩)
  · refine BitVec.eq_of_getLsbD_eq fun k hk => ?_
    exact key 1 (by omega) (.metadata ⟨k, hk⟩)
  · have := key (i / 16) (by omega) (.inversion ⟨i % 16, Nat.mod_lt _ (by decide)⟩)
    simp only [Source.value] at this
    rwa [Nat.div_add_mod] at this

/-- On the twelve data lines the places follow in order: beat `k` of the transfer carries the places `12*k … 12*k+11`, the
first burst first, line `dq` on wire `11 - dq`. -/
theorem C29_wires (shift : Option (Nat → Bool)) (f : Formatter) (m1 m2 : BitVec 16) (nbursts : Nat) (data : List UInt8)
    (inversion : Option (List Bool)) (hn : nbursts = 1 ∨ nbursts = 2 ∧ shift.isSome = true) (hd : 32 * nbursts ≤ data.length)
    (f' : Formatter) (out : List UInt8) (len : Nat)
    (hf : (f.setMetaData m1 m2).formatData shift (some data) (256 * nbursts) inversion = .ok (f', some out, len))
    (N datarate : Nat) (pat : IdlePattern) (enabled : Bool) (hN : 12 ≤ N) (hdr : 0 < datarate) (start b b' : Bus N)
    (before : List BusOp) (hs : Bus.init N 12 datarate pat enabled = .ok start) (hrun : start.run before = .ok b)
    (hp : ∀ op ∈ before, op.Proper 12) (ht : BusTimed datarate 0 before) (hen : b.enabled = true) (t : Nat)
    (hl : b.load t out len = .ok b') (burst : Nat) (hb : burst < nbursts) (s : Source) :
    ∃ w, b'.at? (t * datarate + (24 * burst + s.place / 12)) = .ok w ∧
      w.getLsbD (11 - s.place % 12) = s.value data (fun b => if b = 0 then m1 else m2) (inversion.getD []) burst := by
  obtain ⟨_, o, e, -, -, hv⟩ := C29_partial shift f m1 m2 nbursts data inversion hn hd
  rw [hf] at e; cases e
  have hpl := (sourceAt_place s).2
  have hdiv : 288 * nbursts / 12 = 24 * nbursts := by omega
  obtain ⟨hw, -⟩ := C18_partial N 12 datarate pat enabled (by decide) hN hdr start b b' before hs hrun hp ht hen t (288 * nbursts) out
    (by omega) hl
  rw [hdiv] at hw
  obtain ⟨w, h1, h2, -⟩ := hw (24 * burst + s.place / 12) (by omega)
  refine ⟨w, h1, ?_⟩
  rw [h2 _ (by omega), ← hv burst hb s]
  unfold placeBit
  congr 1
  omega

/-- A fresh data bus of twelve lines meets the hypotheses. -/
example : ∃ start : Bus 12, Bus.init 12 12 2 .L true = .ok start ∧ start.run [] = .ok start ∧ start.enabled = true ∧
    BusTimed 2 0 [] := ⟨_, rfl, rfl, rfl, by simp [BusTimed]⟩

/-- Only transfers of 256 or 512 bits are formatted. -/
theorem C29_sizes (shift : Option (Nat → Bool)) (f : Formatter) (data : Option (List UInt8)) (nBits : Nat) (inversion : Option (List Bool))
    (h1 : nBits ≠ 256) (h2 : nBits ≠ 512) : f.formatData shift data nBits inversion = .error (.assertion "Invalid burst") := by
  unfold Formatter.formatData
  rw [if_pos (by omega)]

/-- Every transfer of two bursts shifts the 32-bit DBI value by 32 places or more, whose result is undefined. -/
theorem C29_violation_shift (f : Formatter) (data : List UInt8) (inversion : Option (List Bool)) (hd : 64 ≤ data.length) :
    f.formatData none (some data) 512 inversion = .error (.ub "dbival >> 32") := by
  obtain ⟨r, h1, -⟩ := formatBurst_ok none data f inversion 2 0 (by decide) (by decide) (by omega) (.inl rfl)
    (2 * 36 + (f.result.drop (2 * 36)).length) (Nat.le_add_right _ _) _ (by rw [Nat.zero_mul]; exact written_cleared ..)
  have h2 := formatBurst_ub data f inversion hd r
  unfold Formatter.formatData
  rw [if_neg (by omega), if_pos (by decide)]
  have hr : List.range 2 = [0, 1] := by decide
  simp only [hr, List.foldlM_cons, bind, Except.bind, h1, h2]

/-- Concrete case: two bursts of payload. -/
example : ({} : Formatter).formatData none (some (List.replicate 64 0xA5)) 512 none = .error (.ub "dbival >> 32") :=
  C29_violation_shift _ _ _ (by decide)

end DRAMPower
