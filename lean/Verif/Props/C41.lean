import Verif.Lemmas.Bitset

/-!
# C41: bit-set arithmetic

Every way to make and change a bit set (`Spec.BitExpr`) is run on the model of `dynamic_bitset` and `sub_bitset` and compared with the
same operations on a list of bits (`BitExpr.bits`).

The full claim: for every length the operations, `count` and `==` agree with the list of bits. `sub_bitset` satisfies it. For
`dynamic_bitset` everything but `==` between two sets of the same block size does (`C41_dynamic`, `C41_equal_mixed`); that `==` also compares the
unused bits of the last block, which `set()`, `flip()` and `~` change. `C41_equal_partial` is the claim for sets on which these were only used at
a multiple of the block size; `C41_violation` shows that the restriction is needed. Indices beyond the end of a `dynamic_bitset` are not always
rejected (`C41_violation_range`).
-/

namespace DRAMPower
open Spec

/-- The operations on `dynamic_bitset`. -/
def DynBitset.run (b : Nat) : BitExpr → Except Err (DynBitset b)
  | .empty => .ok {}
  | .zeros n => .ok (new b n)
  | .value n v => .ok (ofValue b n v)
  | .push e v => do let d ← run b e; pure (d.push v)
  | .set e i v => do let d ← run b e; d.set i v
  | .setAll e => do let d ← run b e; pure d.setAll
  | .reset e => do let d ← run b e; pure d.reset
  | .flip e => do let d ← run b e; pure d.flip
  | .flipAt e i => do let d ← run b e; d.flipAt i
  | .clear e => do let d ← run b e; pure d.clear
  | .xor e f => do let d ← run b e; let d' ← run b f; d.zip (· ^^^ ·) d'
  | .and e f => do let d ← run b e; let d' ← run b f; d.zip (· &&& ·) d'
  | .or e f => do let d ← run b e; let d' ← run b f; d.zip (· ||| ·) d'

/-- The operations on `sub_bitset`; it has no `push_back` and no `clear`. -/
def SubBitset.run (w : Nat) : BitExpr → Except Err (SubBitset w)
  | .empty => .ok {}
  | .zeros n => new w n
  | .value n v => ofValue w n v
  | .push _ _ | .clear _ => .error (.exception "no such operation")
  | .set e i v => do let d ← run w e; d.set i v
  | .setAll e => do let d ← run w e; pure d.setAll
  | .reset e => do let d ← run w e; pure d.reset
  | .flip e => do let d ← run w e; pure d.flip
  | .flipAt e i => do let d ← run w e; d.flipAt i
  | .xor e f => do let d ← run w e; let d' ← run w f; zipMasked (· ^^^ ·) d d'
  | .and e f => do let d ← run w e; let d' ← run w f; d.and d'
  | .or e f => do let d ← run w e; let d' ← run w f; zipMasked (· ||| ·) d d'

theorem BitExpr.both_some {f : Bool → Bool → Bool} {l m : Option (List Bool)} {k : List Bool} (h : BitExpr.both f l m = some k) :
    ∃ l' m', l = some l' ∧ m = some m' ∧ l'.length = m'.length ∧ k = List.zipWith f l' m' := by
  unfold BitExpr.both at h
  split at h
  · rename_i l' m'
    split at h
    · rename_i hlen; exact ⟨l', m', rfl, rfl, hlen, (Option.some.inj h).symm⟩
    · cases h
  · cases h

theorem BitExpr.inRange_some {l : Option (List Bool)} {i : Nat} {f : List Bool → List Bool} {k : List Bool}
    (h : BitExpr.inRange l i f = some k) : ∃ l', l = some l' ∧ i < l'.length ∧ k = f l' := by
  unfold BitExpr.inRange at h
  split at h
  · rename_i l'
    split at h
    · rename_i hi; exact ⟨l', rfl, hi, (Option.some.inj h).symm⟩
    · cases h
  · cases h

theorem DynBitset.run_holds {b : Nat} (hb : 0 < b) (e : BitExpr) {l : List Bool} (h : e.bits = some l) :
    ∃ d, run b e = .ok d ∧ d.Holds l ∧ (e.aligned b → d.Clean) := by
  have bin : ∀ (e f : BitExpr) (op : BitVec b → BitVec b → BitVec b) (g : Bool → Bool → Bool),
      (∀ x y j, (op x y).getLsbD j = g (x.getLsbD j) (y.getLsbD j)) → g false false = false →
      (∀ {l}, e.bits = some l → ∃ d, run b e = .ok d ∧ d.Holds l ∧ (e.aligned b → d.Clean)) →
      (∀ {l}, f.bits = some l → ∃ d, run b f = .ok d ∧ d.Holds l ∧ (f.aligned b → d.Clean)) →
      ∀ {l}, BitExpr.both g e.bits f.bits = some l →
      ∃ d, (do let d ← run b e; let d' ← run b f; d.zip op d') = .ok d ∧ d.Holds l ∧ (e.aligned b ∧ f.aligned b → d.Clean) := by
    intro e f op g hop hg he hf l h
    obtain ⟨l1, l2, h1, h2, hlen, rfl⟩ := BitExpr.both_some h
    obtain ⟨d1, hd1, hh1, hc1⟩ := he h1
    obtain ⟨d2, hd2, hh2, hc2⟩ := hf h2
    obtain ⟨d, hd, hh, hc⟩ := holds_zip hb hh1 hh2 hlen op g hop hg
    refine ⟨d, ?_, hh, fun ha => hc (hc1 ha.1) (hc2 ha.2)⟩
    rw [hd1, hd2]; exact hd
  induction e generalizing l with
  | empty => cases h; exact ⟨_, rfl, holds_empty.1, fun _ => holds_empty.2⟩
  | zeros n => cases h; exact ⟨_, rfl, (holds_new b n).1, fun _ => (holds_new b n).2⟩
  | value n v => cases h; exact ⟨_, rfl, (holds_ofValue hb n v).1, fun _ => (holds_ofValue hb n v).2⟩
  | push e v ih =>
    obtain ⟨l', h1, rfl⟩ := Option.map_eq_some_iff.1 h
    obtain ⟨d, hd, hh, hc⟩ := ih h1
    refine ⟨d.push v, by rw [run, hd]; rfl, (holds_push hb hh v).1, fun ha => (holds_push hb hh v).2 (hc ha)⟩
  | set e i v ih =>
    obtain ⟨l', h1, hi, rfl⟩ := BitExpr.inRange_some h
    obtain ⟨d, hd, hh, hc⟩ := ih h1
    obtain ⟨d', hd', hh', hc'⟩ := holds_set hb hh v hi
    exact ⟨d', by rw [run, hd]; exact hd', hh', fun ha => hc' (hc ha)⟩
  | flipAt e i ih =>
    obtain ⟨l', h1, hi, rfl⟩ := BitExpr.inRange_some h
    obtain ⟨d, hd, hh, hc⟩ := ih h1
    obtain ⟨d', hd', hh', hc'⟩ := holds_flipAt hb hh hi
    exact ⟨d', by rw [run, hd]; exact hd', hh', fun ha => hc' (hc ha)⟩
  | setAll e ih =>
    obtain ⟨l', h1, rfl⟩ := Option.map_eq_some_iff.1 h
    obtain ⟨d, hd, hh, hc⟩ := ih h1
    obtain ⟨hh', hc'⟩ := holds_all hb hh (fun _ => BitVec.allOnes b) (fun _ => true) fun _ j hj => by simp [hj]
    exact ⟨d.setAll, by rw [run, hd]; rfl, hh', fun ha => hc' (Or.inl (ha.2 l' h1)) (hc ha.1)⟩
  | reset e ih =>
    obtain ⟨l', h1, rfl⟩ := Option.map_eq_some_iff.1 h
    obtain ⟨d, hd, hh, hc⟩ := ih h1
    obtain ⟨hh', hc'⟩ := holds_all hb hh (fun _ => 0) (fun _ => false) fun _ j _ => by simp
    exact ⟨d.reset, by rw [run, hd]; rfl, hh', fun ha => hc' (Or.inr rfl) (hc ha)⟩
  | flip e ih =>
    obtain ⟨l', h1, rfl⟩ := Option.map_eq_some_iff.1 h
    obtain ⟨d, hd, hh, hc⟩ := ih h1
    obtain ⟨hh', hc'⟩ := holds_all hb hh (fun x => ~~~ x) not fun _ j hj => by simp [hj]
    exact ⟨d.flip, by rw [run, hd]; rfl, hh', fun ha => hc' (Or.inl (ha.2 l' h1)) (hc ha.1)⟩
  | clear e ih =>
    obtain ⟨l', h1, rfl⟩ := Option.map_eq_some_iff.1 h
    obtain ⟨d, hd, hh, hc⟩ := ih h1
    exact ⟨d.clear, by rw [run, hd]; rfl, (holds_clear d).1, fun _ => (holds_clear d).2⟩
  | xor e f ihe ihf => exact bin e f (· ^^^ ·) Bool.xor (fun x y j => BitVec.getLsbD_xor) rfl ihe ihf h
  | and e f ihe ihf => exact bin e f (· &&& ·) Bool.and (fun x y j => BitVec.getLsbD_and) rfl ihe ihf h
  | or e f ihe ihf => exact bin e f (· ||| ·) Bool.or (fun x y j => BitVec.getLsbD_or) rfl ihe ihf h

/-- Size, number of ones and every bit of a `dynamic_bitset` are those of the sequence of bits, for every block size. -/
theorem C41_dynamic {b : Nat} (hb : 0 < b) (e : BitExpr) {l : List Bool} (h : e.bits = some l) :
    ∃ d, DynBitset.run b e = .ok d ∧ d.numBits = l.length ∧ d.count = l.count true ∧
      ∀ i (hi : i < l.length), d.get i = .ok l[i] := by
  obtain ⟨d, hd, hh, -⟩ := DynBitset.run_holds hb e h
  refine ⟨d, hd, hh.size, DynBitset.count_eq hb hh, fun i hi => ?_⟩
  rw [DynBitset.get_ok hb hh hi, List.getD_eq_getElem?_getD, List.getElem?_eq_getElem hi]
  rfl

/-- Six bits made by complement, flip and exclusive or in blocks of four. -/
def exampleBits : BitExpr := .xor (.flip (.push (.value 5 0b01101) true)) (.flipAt (.zeros 6) 2)

example : exampleBits.bits = some [false, true, true, false, true, false] ∧
    (DynBitset.run 4 exampleBits).map (fun d => (d.numBits, d.count, d.buffer)) = .ok (6, 3, [0b0110, 0b1101]) := by
  decide +kernel

/-- The operators of two sets of different sizes stop at the assertion. -/
theorem C41_sizes {b : Nat} (hb : 0 < b) (e f : BitExpr) {l m : List Bool} (he : e.bits = some l) (hf : f.bits = some m) (hlm : l.length ≠ m.length) :
    DynBitset.run b (.xor e f) = .error (.assertion "size() == rhs.size()") ∧
    DynBitset.run b (.and e f) = .error (.assertion "size() == rhs.size()") ∧
    DynBitset.run b (.or e f) = .error (.assertion "size() == rhs.size()") := by
  obtain ⟨d1, hd1, hh1, -⟩ := DynBitset.run_holds hb e he
  obtain ⟨d2, hd2, hh2, -⟩ := DynBitset.run_holds hb f hf
  have hn : d1.numBits ≠ d2.numBits := by rw [hh1.size, hh2.size]; exact hlm
  refine ⟨?_, ?_, ?_⟩ <;>
  · rw [DynBitset.run, hd1, hd2]
    exact DynBitset.zip_size _ hn

example : (BitExpr.zeros 3).bits = some [false, false, false] ∧ (BitExpr.empty).bits = some [] := by decide

/-- `==` of two sets of the same block size holds only for equal sequences; it does so for all equal sequences if no operation on all bits was
applied with a partly filled block. -/
theorem C41_equal_partial {b : Nat} (hb : 0 < b) (e f : BitExpr) {l m : List Bool} (he : e.bits = some l) (hf : f.bits = some m) :
    ∃ d d', DynBitset.run b e = .ok d ∧ DynBitset.run b f = .ok d' ∧ (d.eq d' = true → l = m) ∧
      (e.aligned b → f.aligned b → (d.eq d' = true ↔ l = m)) := by
  obtain ⟨d1, hd1, hh1, hc1⟩ := DynBitset.run_holds hb e he
  obtain ⟨d2, hd2, hh2, hc2⟩ := DynBitset.run_holds hb f hf
  obtain ⟨h1, h2⟩ := DynBitset.eq_bits hb hh1 hh2
  exact ⟨d1, d2, hd1, hd2, h1, fun ha hb => ⟨h1, h2 (hc1 ha) (hc2 hb)⟩⟩

example : (BitExpr.xor (.value 5 0b10011) (.push (.flip (.value 4 0b0110)) true)).bits = some [false, true, false, true, false] ∧
    (BitExpr.xor (.value 5 0b10011) (.push (.flip (.value 4 0b0110)) true)).aligned 4 ∧ (BitExpr.value 5 0b01010).aligned 4 :=
  ⟨by decide, ⟨trivial, trivial, fun l h => by cases h; decide⟩, trivial⟩

/-- The comparison with a number, likewise. -/
theorem C41_value_partial {b : Nat} (hb : 0 < b) (e : BitExpr) {l : List Bool} (he : e.bits = some l) (v : BitVec 64) :
    ∃ d, DynBitset.run b e = .ok d ∧ (d.eqValue v = true → ∀ i (hi : i < l.length), l[i] = v.getLsbD i) ∧
      (e.aligned b → (d.eqValue v = true ↔ ∀ i (hi : i < l.length), l[i] = v.getLsbD i)) := by
  obtain ⟨d, hd, hh, hc⟩ := DynBitset.run_holds hb e he
  obtain ⟨hv, hvc⟩ := DynBitset.holds_ofValue hb d.numBits v
  have key : l = ((List.range d.numBits).map fun i => v.getLsbD i) ↔ ∀ i (hi : i < l.length), l[i] = v.getLsbD i := by
    rw [hh.size]
    constructor
    · intro h i hi
      have := List.getElem_of_eq h hi
      simpa using this
    · intro h
      exact List.ext_getElem (by simp) fun i h1 h2 => by simpa using h i h1
  obtain ⟨h1, h2⟩ := DynBitset.eq_bits hb hh hv
  exact ⟨d, hd, fun h => key.1 (h1 h), fun ha => ⟨fun h => key.1 (h1 h), fun h => h2 (hc ha) hvc (key.2 h)⟩⟩

example : (BitExpr.flipAt (.zeros 5) 3).bits = some [false, false, false, true, false] ∧ (BitExpr.flipAt (.zeros 5) 3).aligned 4 :=
  ⟨by decide, trivial⟩

/-- `==` of two sets of different block sizes is equality of the sequences. -/
theorem C41_equal_mixed {b b' : Nat} (hb : 0 < b) (hb' : 0 < b') (e f : BitExpr) {l m : List Bool} (he : e.bits = some l) (hf : f.bits = some m) :
    ∃ d d', DynBitset.run b e = .ok d ∧ DynBitset.run b' f = .ok d' ∧ d.eqMixed d' = .ok (decide (l = m)) := by
  obtain ⟨d1, hd1, hh1, -⟩ := DynBitset.run_holds hb e he
  obtain ⟨d2, hd2, hh2, -⟩ := DynBitset.run_holds hb' f hf
  exact ⟨d1, d2, hd1, hd2, DynBitset.eqMixed_bits hb hb' hh1 hh2⟩

example : (BitExpr.flip (.zeros 3)).bits = (BitExpr.value 3 0b111).bits ∧ (BitExpr.flip (.zeros 3)).bits = some [true, true, true] := by decide

/-- The complement of three zeros in blocks of four is not equal to three ones, nor to the number 7. -/
theorem C41_violation :
    (BitExpr.flip (.zeros 3)).bits = (BitExpr.value 3 0b111).bits ∧
    (do let d ← DynBitset.run 4 (.flip (.zeros 3)); let d' ← DynBitset.run 4 (.value 3 0b111); pure (d.eq d', d.eqValue 0b111)) =
      (.ok (false, false) : Except Err (Bool × Bool)) ∧
    (do let d ← DynBitset.run 4 (.setAll (.zeros 3)); let d' ← DynBitset.run 4 (.value 3 0b111); pure (d.eq d')) =
      (.ok false : Except Err Bool) := by
  decide +kernel

/-- Index 3 of three bits is written and read without an exception; index 4 throws. -/
theorem C41_violation_range :
    (BitExpr.set (.zeros 3) 3 true).bits = none ∧
    (do let d ← DynBitset.run 4 (.set (.zeros 3) 3 true); d.get 3) = (.ok true : Except Err Bool) ∧
    (do let d ← DynBitset.run 4 (.zeros 3); d.get 4) = (.error (.exception "vector::at") : Except Err Bool) := by
  decide +kernel

theorem SubBitset.run_holds {w : Nat} (e : BitExpr) (hf : e.fixed w) :
    match e.bits with
    | some l => ∃ d, run w e = .ok d ∧ d.Holds l
    | none => ∃ s, run w e = .error (.assertion s) := by
  have bin : ∀ (e f : BitExpr) (op : SubBitset w → SubBitset w → Except Err (SubBitset w)) (g : Bool → Bool → Bool),
      (∀ {d1 d2 l1 l2}, d1.Holds l1 → d2.Holds l2 → l1.length = l2.length → ∃ d, op d1 d2 = .ok d ∧ d.Holds (List.zipWith g l1 l2)) →
      (∀ d1 d2, d1.width ≠ d2.width → op d1 d2 = .error (.assertion "size() == rhs.size()")) →
      (match e.bits with
        | some l => ∃ d, run w e = .ok d ∧ d.Holds l
        | none => ∃ s, run w e = .error (.assertion s)) →
      (match f.bits with
        | some l => ∃ d, run w f = .ok d ∧ d.Holds l
        | none => ∃ s, run w f = .error (.assertion s)) →
      match BitExpr.both g e.bits f.bits with
      | some l => ∃ d, (do let d ← run w e; let d' ← run w f; op d d') = .ok d ∧ d.Holds l
      | none => ∃ s, (do let d ← run w e; let d' ← run w f; op d d') = .error (.assertion s) := by
    intro e f op g hop hne he hf
    cases h1 : e.bits with
    | none =>
      rw [h1] at he
      obtain ⟨s, he⟩ := he
      exact ⟨s, by rw [he]; rfl⟩
    | some l1 =>
      rw [h1] at he
      obtain ⟨d1, he, hh1⟩ := he
      cases h2 : f.bits with
      | none =>
        rw [h2] at hf
        obtain ⟨s, hf⟩ := hf
        exact ⟨s, by rw [he, hf]; rfl⟩
      | some l2 =>
        rw [h2] at hf
        obtain ⟨d2, hf, hh2⟩ := hf
        by_cases hlen : l1.length = l2.length
        · simp only [BitExpr.both, if_pos hlen]
          rw [he, hf]
          exact hop hh1 hh2 hlen
        · simp only [BitExpr.both, if_neg hlen]
          rw [he, hf]
          exact ⟨_, hne _ _ (by rw [hh1.size, hh2.size]; exact hlen)⟩
  have un : ∀ (e : BitExpr) (op : SubBitset w → SubBitset w) (g : List Bool → List Bool),
      (∀ {d l}, d.Holds l → (op d).Holds (g l)) →
      (match e.bits with
        | some l => ∃ d, run w e = .ok d ∧ d.Holds l
        | none => ∃ s, run w e = .error (.assertion s)) →
      match e.bits.map g with
      | some l => ∃ d, (do let d ← run w e; pure (op d)) = .ok d ∧ d.Holds l
      | none => ∃ s, (do let d ← run w e; pure (op d)) = .error (.assertion s) := by
    intro e op g hop he
    cases h1 : e.bits with
    | none =>
      rw [h1] at he
      obtain ⟨s, he⟩ := he
      exact ⟨s, by rw [he]; rfl⟩
    | some l1 =>
      rw [h1] at he
      obtain ⟨d1, he, hh1⟩ := he
      exact ⟨_, by rw [he]; rfl, hop hh1⟩
  have ix : ∀ (e : BitExpr) (i : Nat) (op : SubBitset w → Except Err (SubBitset w)) (g : List Bool → List Bool),
      (∀ {d l}, d.Holds l → i < l.length → ∃ d', op d = .ok d' ∧ d'.Holds (g l)) →
      (∀ d, ¬ i < d.width → op d = .error (.assertion "n < width")) →
      (match e.bits with
        | some l => ∃ d, run w e = .ok d ∧ d.Holds l
        | none => ∃ s, run w e = .error (.assertion s)) →
      match BitExpr.inRange e.bits i g with
      | some l => ∃ d, (do let d ← run w e; op d) = .ok d ∧ d.Holds l
      | none => ∃ s, (do let d ← run w e; op d) = .error (.assertion s) := by
    intro e i op g hop hne he
    cases h1 : e.bits with
    | none =>
      rw [h1] at he
      obtain ⟨s, he⟩ := he
      exact ⟨s, by rw [he]; rfl⟩
    | some l1 =>
      rw [h1] at he
      obtain ⟨d1, he, hh1⟩ := he
      by_cases hi : i < l1.length
      · simp only [BitExpr.inRange, if_pos hi]
        rw [he]
        exact hop hh1 hi
      · simp only [BitExpr.inRange, if_neg hi]
        rw [he]
        exact ⟨_, hne _ (by rw [hh1.size]; exact hi)⟩
  induction e with
  | empty => exact ⟨_, rfl, holds_empty⟩
  | zeros n => exact holds_new hf
  | value n v => exact holds_ofValue hf v
  | push e v ih => exact hf.elim
  | clear e ih => exact hf.elim
  | set e i v ih => exact ix e i (fun d => d.set i v) (·.set i v) (fun h hi => holds_set h v hi) (fun d h => if_neg h) (ih hf)
  | flipAt e i ih => exact ix e i (fun d => d.flipAt i) (·.modify i not) (fun h hi => holds_flipAt h hi) (fun d h => if_neg h) (ih hf)
  | setAll e ih => exact un e setAll _ (fun h => holds_all h (fun _ => BitVec.allOnes w) (fun _ => true) fun j hj => by simp [hj]) (ih hf)
  | reset e ih => exact un e reset _ (fun h => holds_reset h) (ih hf)
  | flip e ih => exact un e flip _ (fun h => holds_all h (fun x => ~~~ x) not fun j hj => by simp [hj]) (ih hf)
  | xor e f ihe ihf =>
    exact bin e f (zipMasked (· ^^^ ·)) Bool.xor (fun h1 h2 hl => holds_zipMasked h1 h2 hl _ _ (fun x y j => BitVec.getLsbD_xor) rfl)
      (fun d1 d2 h => if_pos h) (ihe hf.1) (ihf hf.2)
  | and e f ihe ihf =>
    exact bin e f SubBitset.and Bool.and (fun h1 h2 hl => holds_and h1 h2 hl) (fun d1 d2 h => if_pos h) (ihe hf.1) (ihf hf.2)
  | or e f ihe ihf =>
    exact bin e f (zipMasked (· ||| ·)) Bool.or (fun h1 h2 hl => holds_zipMasked h1 h2 hl _ _ (fun x y j => BitVec.getLsbD_or) rfl)
      (fun d1 d2 h => if_pos h) (ihe hf.1) (ihf hf.2)

/-- Size, number of ones and every bit of a `sub_bitset` are those of the sequence of bits; indices out of range and different sizes stop at an
assertion. -/
theorem C41_sub {w : Nat} (e : BitExpr) (hf : e.fixed w) :
    (∀ l, e.bits = some l → ∃ d, SubBitset.run w e = .ok d ∧ d.width = l.length ∧ d.count = l.count true ∧
      (∀ i (hi : i < l.length), d.get i = .ok l[i]) ∧ ∀ i, l.length ≤ i → d.get i = .error (.assertion "n < width")) ∧
    (e.bits = none → ∃ s, SubBitset.run w e = .error (.assertion s)) := by
  have key := SubBitset.run_holds e hf
  refine ⟨fun l h => ?_, fun h => ?_⟩
  · rw [h] at key
    obtain ⟨d, hd, hh⟩ := key
    refine ⟨d, hd, hh.size, SubBitset.count_eq hh, fun i hi => ?_, fun i hi => ?_⟩
    · unfold SubBitset.get
      rw [if_pos (by rw [hh.size]; exact hi), hh.bit, List.getD_eq_getElem?_getD, List.getElem?_eq_getElem hi]
      rfl
    · exact if_neg (by rw [hh.size]; omega)
  · rw [h] at key
    exact key

example : (BitExpr.or (.flip (.value 3 0b001)) (.set (.zeros 3) 0 true)).fixed 4 ∧
    (BitExpr.or (.flip (.value 3 0b001)) (.set (.zeros 3) 0 true)).bits = some [true, true, true] ∧
    (BitExpr.set (.zeros 3) 3 true).fixed 4 ∧ (BitExpr.set (.zeros 3) 3 true).bits = none := by
  refine ⟨?_, by decide, ?_, by decide⟩ <;> simp [BitExpr.fixed]

/-- `==` of two `sub_bitset`s is equality of the sequences. -/
theorem C41_sub_equal {w : Nat} (e f : BitExpr) (he : e.fixed w) (hf : f.fixed w) {l m : List Bool} (hl : e.bits = some l) (hm : f.bits = some m) :
    ∃ d d', SubBitset.run w e = .ok d ∧ SubBitset.run w f = .ok d' ∧ (d.eq d' = true ↔ l = m) := by
  have h1 := SubBitset.run_holds e he
  have h2 := SubBitset.run_holds f hf
  rw [hl] at h1
  rw [hm] at h2
  obtain ⟨d, hd, hh⟩ := h1
  obtain ⟨d', hd', hh'⟩ := h2
  exact ⟨d, d', hd, hd', SubBitset.eq_bits hh hh'⟩

example : (BitExpr.flip (.zeros 3)).fixed 4 ∧ (BitExpr.value 3 0b111).fixed 4 ∧ (BitExpr.flip (.zeros 3)).bits = (BitExpr.value 3 0b111).bits := by
  refine ⟨?_, ?_, by decide⟩ <;> simp [BitExpr.fixed]

end DRAMPower
