import Verif.Spec.TraceWriting
import Mathlib.Data.List.Basic
import Mathlib.Data.List.Forall2

/-!
# Lines of a trace file

A written line describes its command and is no longer than a chunk.
-/

namespace DRAMPower.Spec

theorem decimal_digit : ∀ d < 10, (Nat.digitChar d, d) ∈ decimals := by decide

theorem decimal_numeral (n : Nat) : Numeral (Nat.toDigits 10 n) n := by
  induction n using Nat.strongRecOn with
  | _ n ih =>
    by_cases h : n < 10
    · rw [Nat.toDigits_of_lt_base h]
      exact .one (decimal_digit n h)
    · rw [Nat.toDigits_of_base_le (by decide) (by omega)]
      have := Numeral.more (ih (n / 10) (by omega)) (decimal_digit (n % 10) (Nat.mod_lt _ (by decide)))
      rwa [show 10 * (n / 10) + n % 10 = n by omega] at this

theorem hex_digit : ∀ d < 16, (Nat.digitChar d, d) ∈ digits := by decide

theorem hex_spells : ∀ l : List UInt8, Spells (l.flatMap hexByte) l
  | [] => .nil
  | b :: l => by
    have hb : b.toNat < 256 := b.toNat_lt
    have := Spells.byte (hex_digit (b.toNat / 16) (by omega)) (hex_digit (b.toNat % 16) (by omega)) (hex_spells l)
    rw [show 16 * (b.toNat / 16) + b.toNat % 16 = b.toNat by omega, UInt8.ofNat_toNat] at this
    exact this

theorem name_mem : ∀ t ∈ traceNames.map (·.2), (String.ofList (traceName t), t) ∈ traceNames := by decide +kernel

/-- The line describes the command. -/
theorem traceRow_describes {c : ICmd} (h : Writable c) : Describes (traceRow c) c := by
  refine ⟨_, _, _, _, _, _, _, _, rfl, decimal_numeral _, name_mem _ h.name, decimal_numeral _, decimal_numeral _, decimal_numeral _,
    decimal_numeral _, decimal_numeral _, ?_, h.dbank, h.subChannel⟩
  unfold PayloadOf
  have hd := h.data
  have hb := h.bits
  cases hc : c.data with
  | none =>
    rw [hc] at hd hb
    rw [if_neg (by simp [hd])]
    exact ⟨rfl, by simpa using hb⟩
  | some l =>
    rw [hc] at hd hb
    rw [if_pos (by simp [hd])]
    exact ⟨_, l, [], rfl, .inl (hex_spells l), rfl, hb⟩

/-! ## The line -/

/-- A character of a number, a name or a payload. -/
def wordChar (c : Char) : Bool := c.isAlphanum

theorem plain_of_word {v : List Char} (h : ∀ c ∈ v, wordChar c = true) : Plain v := by
  have key : ∀ c, wordChar c = true → c ∉ [',', '"', '\n', '\r'] ∧ c ∉ blanks := by
    intro c hc
    constructor
    · intro hm
      simp only [List.mem_cons, List.not_mem_nil, or_false] at hm
      rcases hm with rfl | rfl | rfl | rfl <;> revert hc <;> decide
    · intro hm
      simp only [blanks, List.mem_cons, List.not_mem_nil, or_false] at hm
      rcases hm with rfl | rfl <;> revert hc <;> decide
  exact ⟨fun c hc => (key c (h c hc)).1, fun c hc => (key c (h c (List.mem_of_head? hc))).2,
    fun c hc => (key c (h c (List.mem_of_getLast? hc))).2⟩

theorem decimal_word {n : Nat} : ∀ c ∈ Nat.toDigits 10 n, wordChar c = true := by
  intro c hc
  have := Nat.isDigit_of_mem_toDigits (by decide) (by decide) hc
  simp [wordChar, Char.isAlphanum, this]

theorem hex_char : ∀ d < 16, wordChar (Nat.digitChar d) = true := by decide

theorem hex_word (l : List UInt8) : ∀ c ∈ l.flatMap hexByte, wordChar c = true := by
  intro c hc
  obtain ⟨b, _, hb⟩ := List.mem_flatMap.1 hc
  have : b.toNat < 256 := b.toNat_lt
  simp only [hexByte, List.mem_cons, List.not_mem_nil, or_false] at hb
  rcases hb with rfl | rfl
  · exact hex_char _ (by omega)
  · exact hex_char _ (by omega)

theorem hex_length (l : List UInt8) : (l.flatMap hexByte).length = 2 * l.length := by
  induction l with
  | nil => rfl
  | cons b l ih => rw [List.flatMap_cons, List.length_append, ih]; simp [hexByte]; omega

theorem name_word (t : CmdType) : (∀ c ∈ traceName t, wordChar c = true) ∧ (traceName t).length ≤ 6 := by
  cases t <;> decide +kernel

theorem row_word (c : ICmd) : ∀ v ∈ traceRow c, ∀ x ∈ v, wordChar x = true := by
  intro v hv
  unfold traceRow at hv
  rcases List.mem_append.1 hv with hv | hv
  · simp only [List.mem_cons, List.not_mem_nil, or_false] at hv
    rcases hv with rfl | rfl | rfl | rfl | rfl | rfl | rfl
    all_goals first | exact decimal_word | exact (name_word _).1
  · cases hc : c.data with
    | none => simp [hc] at hv
    | some l =>
      simp only [hc, List.mem_cons, List.not_mem_nil, or_false] at hv
      subst hv
      exact hex_word l

theorem plain_field {v : List Char} (h : Plain v) : WritesField v v := by
  simpa using WritesField.mk [] v [] (by simp) h (by simp)

theorem intercalate_row : ∀ {vs : List (List Char)}, vs ≠ [] → (∀ v ∈ vs, ∀ x ∈ v, wordChar x = true) → WritesRow vs ([','].intercalate vs)
  | [v], _, h => by
    have := WritesRow.one (plain_field (plain_of_word (h v (by simp))))
    simpa [List.intercalate] using this
  | v :: w :: vs, _, h => by
    have := WritesRow.more (plain_field (plain_of_word (h v (by simp)))) (intercalate_row (vs := w :: vs) (by simp) fun x hx => h x (by simp [hx]))
    simpa [List.intercalate, List.intersperse] using this

theorem intercalate_length : ∀ {vs : List (List Char)}, ([','].intercalate vs).length ≤ (vs.map fun v => v.length + 1).sum
  | [] => by simp [List.intercalate]
  | [v] => by simp [List.intercalate]
  | v :: w :: vs => by
    have := intercalate_length (vs := w :: vs)
    simp only [List.intercalate, List.intersperse, List.flatten_cons, List.length_append, List.map_cons, List.sum_cons, List.length_cons,
      List.length_nil] at this ⊢
    omega

theorem decimal_length {n : Nat} (h : n < 2 ^ 63) : (Nat.toDigits 10 n).length ≤ 19 :=
  (Nat.length_toDigits_le_iff (by decide) (by decide)).2 (by omega)

theorem line_length {c : ICmd} (h : Writable c) : ([','].intercalate (traceRow c)).length + 1 ≤ 10000000 := by
  have hn := h.numbers
  simp only [numbersOf, List.mem_cons, List.not_mem_nil, or_false, forall_eq_or_imp, forall_eq] at hn
  obtain ⟨n1, n2, n3, n4, n5, n6⟩ := hn
  have l1 := decimal_length n1
  have l2 := decimal_length n2
  have l3 := decimal_length n3
  have l4 := decimal_length n4
  have l5 := decimal_length n5
  have l6 := decimal_length n6
  have l7 := (name_word c.type).2
  have hs := h.size
  have := intercalate_length (vs := traceRow c)
  unfold traceRow at this ⊢
  cases hc : c.data with
  | none =>
    simp only [hc, List.map_append, List.map_cons, List.map_nil, List.sum_append, List.sum_cons, List.sum_nil] at this ⊢
    omega
  | some l =>
    rw [hc] at hs
    simp only [hc, List.map_append, List.map_cons, List.map_nil, List.sum_append, List.sum_cons, List.sum_nil, hex_length] at this ⊢
    simp only [Option.getD_some] at hs
    omega

theorem row_ne (c : ICmd) : traceRow c ≠ [] := by simp [traceRow]

theorem intercalate_mem {vs : List (List Char)} {x : Char} (h : x ∈ [','].intercalate vs) : x = ',' ∨ ∃ v ∈ vs, x ∈ v := by
  simp only [List.intercalate, List.mem_flatten] at h
  obtain ⟨v, hv, hx⟩ := h
  have key : ∀ (l : List (List Char)), v ∈ l.intersperse [','] → v = [','] ∨ v ∈ l := by
    intro l
    induction l with
    | nil => intro h; cases h
    | cons a l ih =>
      cases l with
      | nil => intro h; exact .inr h
      | cons b l =>
        intro h
        simp only [List.intersperse, List.mem_cons] at h ih ⊢
        rcases h with h | h | h
        · exact .inr (.inl h)
        · exact .inl h
        · rcases ih h with h | h
          · exact .inl h
          · exact .inr (.inr h)
  rcases key vs hv with rfl | hm
  · exact .inl (by simpa using hx)
  · exact .inr ⟨v, hm, hx⟩

/-- The file writes the lines, and every line fits in a chunk. -/
theorem text_lines : ∀ {cs : List ICmd}, (∀ c ∈ cs, Writable c) → ShortLines 10000000 (cs.map traceRow) (traceText cs)
  | [], _ => .done
  | c :: cs, h => by
    have hw := intercalate_row (row_ne c) (row_word c)
    refine .line hw ?_ (line_length (h c (by simp))) (text_lines fun x hx => h x (by simp [hx]))
    intro h0
    have : ([','].intercalate (traceRow c)).length = 0 := by rw [h0]; rfl
    unfold traceRow at this
    simp [List.intercalate, List.intersperse] at this

theorem text_plain {cs : List ICmd} : Char.ofNat 0xEF ∉ traceText cs := by
  intro h
  obtain ⟨c, _, hc⟩ := List.mem_flatMap.1 h
  rcases List.mem_append.1 hc with hc | hc
  · rcases intercalate_mem hc with hx | ⟨v, hv, hx⟩
    · revert hx; decide
    · have := row_word c v hv _ hx
      revert this
      decide
  · revert hc; decide

theorem text_ne {cs : List ICmd} (h : cs ≠ []) : traceText cs ≠ [] := by
  cases cs with
  | nil => exact absurd rfl h
  | cons c cs => simp [traceText]

theorem rows_describe {cs : List ICmd} (h : ∀ c ∈ cs, Writable c) : List.Forall₂ Describes (cs.map traceRow) cs := by
  induction cs with
  | nil => exact .nil
  | cons c cs ih => exact .cons (traceRow_describes (h c (by simp))) (ih fun x hx => h x (by simp [hx]))

end DRAMPower.Spec
