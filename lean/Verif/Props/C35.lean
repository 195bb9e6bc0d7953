import Verif.Lemmas.Cli
import Verif.Model.BusStats

/-! # C35: CLI payload parsing -/

namespace DRAMPower
open Spec

theorem spells_decode {s : List Char} {l : List UInt8} (h : Spells s l) : decodePairs s = .ok l ∧ s.length % 2 = 0 := by
  induction h with
  | nil => exact ⟨rfl, rfl⟩
  | @byte a b x y s l ha hb _ ih =>
    have h1 := (hexDigit_iff a x).2 ha
    have h2 := (hexDigit_iff b y).2 hb
    have e : pairValue a b = some ((16 * x + y : Nat) : Int) := by unfold pairValue; rw [h1]; simp only [h2]
    have hx := (digit_facts _ ha).2.2.2
    have hy := (digit_facts _ hb).2.2.2
    simp only [] at hx hy
    have em : (((16 * x + y : Nat) : Int) % 256).toNat = 16 * x + y := by omega
    refine ⟨?_, by simp only [List.length_cons]; omega⟩
    rw [decodePairs, stoi16_pair, e]
    simp only [ih.1, bind, Except.bind, pure, Except.pure, em]

theorem not_digit_x (y : Nat) : ('x', y) ∉ digits ∧ ('X', y) ∉ digits := by
  constructor
  · intro h; have := (hexDigit_iff _ _).2 h; revert this; simp [show hexDigit 'x' = none by decide]
  · intro h; have := (hexDigit_iff _ _).2 h; revert this; simp [show hexDigit 'X' = none by decide]

theorem spells_prefix {s : List Char} {l : List UInt8} (h : Spells s l) : hasPrefix s = false := by
  cases h with
  | nil => rfl
  | @byte a b x y s l ha hb _ =>
    unfold hasPrefix
    split
    · next heq => simp only [List.cons.injEq] at heq; rw [heq.2.1] at hb; exact absurd hb (not_digit_x y).1
    · next heq => simp only [List.cons.injEq] at heq; rw [heq.2.1] at hb; exact absurd hb (not_digit_x y).2
    · rfl

/-- An even number of digits is decoded to the bytes it spells, with or without prefix. -/
theorem C35_decode (s : List Char) (l : List UInt8) (h : Payload s l) : hexStringToUint8Array s = .ok l := by
  rcases h with h | ⟨p, hp, s', rfl, h⟩
  · obtain ⟨h1, h2⟩ := spells_decode h
    rw [hexString_eq s h2, spells_prefix h]; exact h1
  · obtain ⟨h1, h2⟩ := spells_decode h
    have hpre : hasPrefix ('0' :: p :: s') = true := by rcases hp with rfl | rfl <;> rfl
    rw [hexString_eq _ (by simp only [List.length_cons]; omega), hpre]; exact h1

/-- Concrete payload: `0x1aF0`. -/
example : Payload ['0', 'x', '1', 'a', 'F', '0'] [0x1A, 0xF0] :=
  .inr ⟨'x', .inl rfl, _, rfl, .byte (x := 1) (y := 10) (by decide) (by decide) (.byte (x := 15) (y := 0) (by decide) (by decide) .nil)⟩

/-- Strings of odd length are rejected. -/
theorem C35_odd (s : List Char) (h : s.length % 2 = 1) : hexStringToUint8Array s = .error (.exception "Invalid hex string length") := by
  unfold hexStringToUint8Array; rw [if_pos (by omega)]

/-- A pair the tool decodes: it begins with a digit, or with white space or a sign followed by a digit. -/
def Tolerated (a b : Char) : Prop :=
  (∃ x, (a, x) ∈ digits) ∨ (∃ y, (b, y) ∈ digits) ∧ a ∈ [' ', '\t', '\n', '\x0b', '\x0c', '\x0d', '+', '-']

theorem pairValue_some (a b : Char) : (∃ v, pairValue a b = some v) ↔ Tolerated a b := by
  unfold pairValue Tolerated
  cases ha : hexDigit a with
  | some x =>
    refine ⟨fun _ => .inl ⟨x, (hexDigit_iff a x).1 ha⟩, fun _ => ?_⟩
    cases hexDigit b <;> exact ⟨_, rfl⟩
  | none =>
    have hna : ¬ ∃ x, (a, x) ∈ digits := fun ⟨x, h⟩ => by rw [(hexDigit_iff a x).2 h] at ha; cases ha
    cases hb : hexDigit b with
    | none =>
      have hnb : ¬ ∃ x, (b, x) ∈ digits := fun ⟨x, h⟩ => by rw [(hexDigit_iff b x).2 h] at hb; cases hb
      simp [hna, hnb]
    | some y =>
      have hyb : ∃ x, (b, x) ∈ digits := ⟨y, (hexDigit_iff b y).1 hb⟩
      have hsp : isSpace a = true ↔ a = ' ' ∨ a = '\t' ∨ a = '\n' ∨ a = '\x0b' ∨ a = '\x0c' ∨ a = '\x0d' := by
        unfold isSpace; simp [or_assoc]
      simp only [hna, hyb, false_or, true_and, List.mem_cons, List.not_mem_nil, or_false]
      by_cases h1 : isSpace a = true
      · have := hsp.1 h1
        rw [if_pos (.inl h1)]
        refine ⟨fun _ => ?_, fun _ => ⟨_, rfl⟩⟩
        rcases this with h | h | h | h | h | h <;> simp [h]
      · have h1' := fun h => h1 (hsp.2 h)
        by_cases h2 : a = '+'
        · rw [if_pos (.inr h2)]
          exact ⟨fun _ => by simp [h2], fun _ => ⟨_, rfl⟩⟩
        · rw [if_neg (by simp [h1, h2])]
          by_cases h3 : a = '-'
          · rw [if_pos h3]
            exact ⟨fun _ => by simp [h3], fun _ => ⟨_, rfl⟩⟩
          · rw [if_neg h3]
            refine ⟨fun ⟨v, h⟩ => (by cases h), fun h => ?_⟩
            rcases h with h | h | h | h | h | h | h | h
            · exact absurd (.inl h) h1'
            · exact absurd (.inr (.inl h)) h1'
            · exact absurd (.inr (.inr (.inl h))) h1'
            · exact absurd (.inr (.inr (.inr (.inl h)))) h1'
            · exact absurd (.inr (.inr (.inr (.inr (.inl h))))) h1'
            · exact absurd (.inr (.inr (.inr (.inr (.inr h))))) h1'
            · exact absurd h h2
            · exact absurd h h3

/-- The string without its prefix. -/
def withoutPrefix : List Char → List Char
  | '0' :: 'x' :: s => s
  | '0' :: 'X' :: s => s
  | s => s

theorem decodePairs_some (s : List Char) : (∃ l, decodePairs s = .ok l) ↔
    ∀ i a b, s[2 * i]? = some a → s[2 * i + 1]? = some b → Tolerated a b := by
  match s with
  | [] => simp [decodePairs]
  | [c] => simp [decodePairs]
  | c :: d :: s =>
    have ih := decodePairs_some s
    rw [decodePairs, stoi16_pair]
    constructor
    · rintro ⟨l, h⟩
      cases hv : pairValue c d with
      | none => rw [hv] at h; simp only [bind, Except.bind] at h; cases h
      | some v =>
        rw [hv] at h
        cases hd : decodePairs s with
        | error e => rw [hd] at h; simp only [bind, Except.bind] at h; cases h
        | ok l' =>
          intro i a b h1 h2
          match i with
          | 0 =>
            simp at h1 h2
            subst h1 h2
            exact (pairValue_some _ _).1 ⟨v, hv⟩
          | i + 1 =>
            have e : 2 * (i + 1) = 2 * i + 1 + 1 := by omega
            rw [e] at h1 h2
            simp only [List.getElem?_cons_succ] at h1 h2
            exact ih.1 ⟨l', hd⟩ i a b h1 h2
    · intro h
      obtain ⟨v, hv⟩ := (pairValue_some c d).2 (h 0 c d (by simp) (by simp))
      obtain ⟨l, hl⟩ := ih.2 fun i a b h1 h2 => h (i + 1) a b
        (by have e : 2 * (i + 1) = 2 * i + 1 + 1 := by omega
            rw [e]; simpa using h1)
        (by have e : 2 * (i + 1) = 2 * i + 1 + 1 := by omega
            rw [e]; simpa using h2)
      exact ⟨_, by rw [hv, hl]; rfl⟩

/-- Exactly the strings of even length whose pairs (after the prefix) are tolerated are accepted. The property demands
pairs of digits instead (`C35_violation`). -/
theorem C35_partial (s : List Char) : (∃ l, hexStringToUint8Array s = .ok l) ↔
    s.length % 2 = 0 ∧ ∀ i a b, (withoutPrefix s)[2 * i]? = some a → (withoutPrefix s)[2 * i + 1]? = some b → Tolerated a b := by
  have hw : (if hasPrefix s then s.drop 2 else s) = withoutPrefix s := by
    unfold hasPrefix withoutPrefix
    split <;> simp
  by_cases he : s.length % 2 = 0
  · rw [hexString_eq s he, hw, decodePairs_some]; simp [he]
  · have := C35_odd s (by omega)
    rw [this]
    constructor
    · rintro ⟨l, h⟩; cases h
    · rintro ⟨h, -⟩; exact absurd h he

/-- Strings that are not an even number of digits are accepted: a digit followed by a letter, a sign, a second prefix. -/
theorem C35_violation :
    hexStringToUint8Array ['1', 'g'] = .ok [1] ∧ hexStringToUint8Array ['-', '1'] = .ok [255] ∧
    hexStringToUint8Array ['0', 'x', '0', 'x'] = .ok [0] ∧
    (∀ l, ¬ Payload ['1', 'g'] l) ∧ (∀ l, ¬ Payload ['-', '1'] l) ∧ ∀ l, ¬ Payload ['0', 'x', '0', 'x'] l := by
  refine ⟨by decide +kernel, by decide +kernel, by decide +kernel, fun l h => ?_, fun l h => ?_, fun l h => ?_⟩
  · rcases h with h | ⟨p, hp, s', h, -⟩
    · cases h with | byte _ hb _ => simp [digits] at hb
    · simp at h
  · rcases h with h | ⟨p, hp, s', h, -⟩
    · cases h with | byte ha _ _ => simp [digits] at ha
    · simp at h
  · rcases h with h | ⟨p, hp, s', h, h'⟩
    · cases h with | byte _ hb _ => simp [digits] at hb
    · simp at h
      rw [← h.2] at h'
      cases h' with | byte _ hb _ => simp [digits] at hb

end DRAMPower
