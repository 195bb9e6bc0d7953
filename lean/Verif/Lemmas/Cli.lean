import Verif.Model.Cli
import Verif.Spec.Payload

/-! # Lemmas about the command line tool -/

namespace DRAMPower
open Spec

theorem char_cases (c : Char) (lo n : Nat) (h1 : lo ≤ c.toNat) (h2 : c.toNat < lo + n) :
    ∃ k < n, c = Char.ofNat (lo + k) :=
  ⟨c.toNat - lo, by omega, by rw [Nat.add_sub_cancel' h1, Char.ofNat_toNat]⟩

theorem char_le (a b : Char) : a ≤ b ↔ a.toNat ≤ b.toNat := Iff.rfl

theorem hexDigit_iff (c : Char) (x : Nat) : hexDigit c = some x ↔ (c, x) ∈ digits := by
  constructor
  · intro h
    unfold hexDigit at h
    split at h
    · next hc =>
      obtain ⟨k, hk, rfl⟩ := char_cases c 48 10 hc.1 (Nat.lt_succ_of_le hc.2)
      have key : ∀ k < 10, (Char.ofNat (48 + k), (Char.ofNat (48 + k)).toNat - '0'.toNat) ∈ digits := by decide
      cases h; exact key k hk
    split at h
    · next hc =>
      obtain ⟨k, hk, rfl⟩ := char_cases c 97 6 hc.1 (Nat.lt_succ_of_le hc.2)
      have key : ∀ k < 6, (Char.ofNat (97 + k), (Char.ofNat (97 + k)).toNat - 'a'.toNat + 10) ∈ digits := by decide
      cases h; exact key k hk
    split at h
    · next hc =>
      obtain ⟨k, hk, rfl⟩ := char_cases c 65 6 hc.1 (Nat.lt_succ_of_le hc.2)
      have key : ∀ k < 6, (Char.ofNat (65 + k), (Char.ofNat (65 + k)).toNat - 'A'.toNat + 10) ∈ digits := by decide
      cases h; exact key k hk
    · cases h
  · intro h
    have key : ∀ p ∈ digits, hexDigit p.1 = some p.2 := by decide
    exact key _ h

theorem digit_facts : ∀ p ∈ digits, isSpace p.1 = false ∧ p.1 ≠ '-' ∧ p.1 ≠ '+' ∧ p.2 < 16 := by decide

/-- What the conversion makes of a pair of characters. -/
def pairValue (a b : Char) : Option Int :=
  match hexDigit a with
  | some x => match hexDigit b with
    | some y => some (16 * x + y : Nat)
    | none => some (x : Int)
  | none =>
    match hexDigit b with
    | none => none
    | some y => if isSpace a = true ∨ a = '+' then some (y : Int) else if a = '-' then some (-(y : Int)) else none

theorem skipPrefix_short (s : List Char) (h : s.length ≤ 2) : skipPrefix s = s := by
  match s with
  | [] => rfl
  | [a] => unfold skipPrefix; split <;> simp_all
  | [a, b] => unfold skipPrefix; split <;> simp_all
  | a :: b :: c :: s => simp at h

theorem stoi_digits (neg : Bool) (s : List Char) (h : s.length ≤ 2) (n : Nat)
    (hn : (leadingDigits s).foldl (fun v d => 16 * v + d) 0 = n) (hb : n ≤ 255) :
    (let digits := leadingDigits (skipPrefix s)
     if digits.isEmpty then (.error (.exception "stoi: invalid_argument") : Except Err Int)
     else
      let m : Nat := digits.foldl (fun v d => 16 * v + d) 0
      let v : Int := if neg then -(m : Int) else m
      if v < -2147483648 ∨ 2147483647 < v then .error (.exception "stoi: out_of_range") else .ok v) =
    if (leadingDigits s).isEmpty then .error (.exception "stoi: invalid_argument") else .ok (if neg then -(n : Int) else n) := by
  simp only [skipPrefix_short s h, hn]
  split
  · rfl
  · rw [if_neg]
    cases neg
    · simp only [Bool.false_eq_true, if_false]; omega
    · simp only [if_true]; omega

theorem takeSign_other (a : Char) (s : List Char) (h1 : a ≠ '-') (h2 : a ≠ '+') : takeSign (a :: s) = (false, a :: s) := by
  unfold takeSign; split <;> simp_all

theorem stoi16_pair (a b : Char) :
    stoi16 [a, b] = match pairValue a b with
      | some v => .ok v
      | none => .error (.exception "stoi: invalid_argument") := by
  have dig : ∀ c x, hexDigit c = some x → isSpace c = false ∧ c ≠ '-' ∧ c ≠ '+' ∧ x < 16 := fun c x h =>
    digit_facts _ ((hexDigit_iff c x).1 h)
  have spaces : ∀ c, isSpace c = true → c ≠ '-' ∧ c ≠ '+' := by
    intro c h
    constructor <;> rintro rfl <;> exact absurd h (by decide)
  unfold stoi16
  by_cases hs : isSpace a = true
  · have ha : hexDigit a = none := by
      cases h : hexDigit a with
      | none => rfl
      | some x => rw [(dig a x h).1] at hs; cases hs
    rw [List.dropWhile_cons_of_pos hs]
    cases hb : hexDigit b with
    | some y =>
      obtain ⟨h1, h2, h3, h4⟩ := dig b y hb
      rw [List.dropWhile_cons_of_neg (by simp [h1]), takeSign_other _ _ h2 h3]
      have := stoi_digits false [b] (by simp) y (by simp [leadingDigits, hb]) (by omega)
      simp only [] at this ⊢
      rw [this]
      simp [leadingDigits, hb, pairValue, ha, hs]
    | none =>
      have e : ([b].dropWhile isSpace = [b] ∨ [b].dropWhile isSpace = []) := by
        cases h : isSpace b
        · exact .inl (List.dropWhile_cons_of_neg (by simp [h]))
        · exact .inr (by rw [List.dropWhile_cons_of_pos h]; rfl)
      have hno : ∃ neg s', takeSign ([b].dropWhile isSpace) = (neg, s') ∧ s'.length ≤ 2 ∧ leadingDigits s' = [] := by
        rcases e with e | e <;> rw [e]
        · by_cases h1 : b = '-'
          · subst h1; exact ⟨true, [], rfl, by simp, rfl⟩
          · by_cases h2 : b = '+'
            · subst h2; exact ⟨false, [], rfl, by simp, rfl⟩
            · exact ⟨false, [b], takeSign_other _ _ h1 h2, by simp, by simp [leadingDigits, hb]⟩
        · exact ⟨false, [], rfl, by simp, rfl⟩
      obtain ⟨neg, s', e1, e2, e3⟩ := hno
      rw [e1]
      have := stoi_digits neg s' e2 0 (by simp [e3]) (by omega)
      simp only [] at this ⊢
      rw [this]
      simp [e3, pairValue, ha, hb]
  · rw [List.dropWhile_cons_of_neg hs]
    have hs' : isSpace a = false := by simpa using hs
    by_cases h1 : a = '-'
    · subst h1
      have ha : hexDigit '-' = none := by decide
      have e : takeSign ['-', b] = (true, [b]) := rfl
      rw [e]
      cases hb : hexDigit b with
      | some y =>
        obtain ⟨-, -, -, h4⟩ := dig b y hb
        have := stoi_digits true [b] (by simp) y (by simp [leadingDigits, hb]) (by omega)
        simp only [] at this ⊢
        rw [this]
        simp [leadingDigits, hb, pairValue, ha, hs']
      | none =>
        have := stoi_digits true [b] (by simp) 0 (by simp [leadingDigits, hb]) (by omega)
        simp only [] at this ⊢
        rw [this]
        simp [leadingDigits, hb, pairValue, ha]
    · by_cases h2 : a = '+'
      · subst h2
        have ha : hexDigit '+' = none := by decide
        have e : takeSign ['+', b] = (false, [b]) := rfl
        rw [e]
        cases hb : hexDigit b with
        | some y =>
          obtain ⟨-, -, -, h4⟩ := dig b y hb
          have := stoi_digits false [b] (by simp) y (by simp [leadingDigits, hb]) (by omega)
          simp only [] at this ⊢
          rw [this]
          simp [leadingDigits, hb, pairValue, ha]
        | none =>
          have := stoi_digits false [b] (by simp) 0 (by simp [leadingDigits, hb]) (by omega)
          simp only [] at this ⊢
          rw [this]
          simp [leadingDigits, hb, pairValue, ha]
      · rw [takeSign_other _ _ h1 h2]
        cases ha : hexDigit a with
        | none =>
          have := stoi_digits false [a, b] (by simp) 0 (by simp [leadingDigits, ha]) (by omega)
          simp only [] at this ⊢
          rw [this]
          cases hb : hexDigit b <;> simp [leadingDigits, pairValue, ha, hb, hs', h1, h2]
        | some x =>
          obtain ⟨-, -, -, h4⟩ := dig a x ha
          cases hb : hexDigit b with
          | none =>
            have := stoi_digits false [a, b] (by simp) x (by simp [leadingDigits, ha, hb]) (by omega)
            simp only [] at this ⊢
            rw [this]
            simp [leadingDigits, pairValue, ha, hb]
          | some y =>
            obtain ⟨-, -, -, h5⟩ := dig b y hb
            have := stoi_digits false [a, b] (by simp) (16 * x + y) (by simp [leadingDigits, ha, hb]) (by omega)
            simp only [] at this ⊢
            rw [this]
            simp [leadingDigits, pairValue, ha, hb]

/-- The loop, pair by pair. -/
def decodePairs : List Char → Except Err (List UInt8)
  | a :: b :: s => stoi16 [a, b] >>= fun v => decodePairs s >>= fun l => pure (UInt8.ofNat (v % 256).toNat :: l)
  | _ => .ok []

theorem mapM_range_succ {α : Type} (n : Nat) (f : Nat → Except Err α) :
    (List.range (n + 1)).mapM f =
      f 0 >>= fun x => (List.range n).mapM (fun i => f (i + 1)) >>= fun l => pure (x :: l) := by
  rw [List.range_succ_eq_map, List.mapM_cons, List.mapM_map]
  rfl

theorem mapM_pairs (s : List Char) :
    (List.range (s.length / 2)).mapM (fun i => do
      let v ← stoi16 ((s.drop (i * 2)).take 2)
      (pure (UInt8.ofNat (v % 256).toNat) : Except Err UInt8)) = decodePairs s := by
  match s with
  | [] => rfl
  | [a] => simp [decodePairs]; rfl
  | a :: b :: s =>
    have e : (a :: b :: s).length / 2 = s.length / 2 + 1 := by simp only [List.length_cons]; omega
    rw [e, mapM_range_succ, decodePairs]
    have ih := mapM_pairs s
    have e2 : ∀ i, ((a :: b :: s).drop ((i + 1) * 2)).take 2 = (s.drop (i * 2)).take 2 := by
      intro i
      have : (i + 1) * 2 = i * 2 + 1 + 1 := by omega
      rw [this, List.drop_succ_cons, List.drop_succ_cons]
    simp only [e2, ih, Nat.zero_mul, List.drop_zero, List.take_succ_cons, List.take_zero]
    cases stoi16 [a, b] <;> rfl

theorem hexString_eq (s : List Char) (h : s.length % 2 = 0) :
    hexStringToUint8Array s = decodePairs (if hasPrefix s then s.drop 2 else s) := by
  unfold hexStringToUint8Array
  rw [if_neg (by omega)]
  cases hp : hasPrefix s with
  | false => exact mapM_pairs s
  | true =>
    have e : s.length / 2 - 1 = (s.drop 2).length / 2 := by rw [List.length_drop]; omega
    simp only [if_true, e]
    exact mapM_pairs (s.drop 2)

end DRAMPower
