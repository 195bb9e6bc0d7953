import Verif.Model.CliRun
import Verif.Spec.TraceFile
import Verif.Lemmas.Interface

/-! Lemmas on the numbers of a trace file. -/

namespace DRAMPower
open Spec

theorem decDigit_iff (c : Char) (x : Nat) : decDigit c = some x ↔ (c, x) ∈ decimals := by
  constructor
  · intro h
    unfold decDigit at h
    split at h
    · rename_i hc
      have h1 : 48 ≤ c.toNat := hc.1
      have h2 : c.toNat ≤ 57 := hc.2
      have h3 : c = Char.ofNat c.toNat := (Char.ofNat_toNat c).symm
      have hx : x = c.toNat - 48 := (Option.some.inj h).symm
      rw [h3, hx]
      have key : ∀ n ∈ [48, 49, 50, 51, 52, 53, 54, 55, 56, 57], (Char.ofNat n, n - 48) ∈ decimals := by decide
      exact key _ (by simp; omega)
    · cases h
  · intro h
    have : ∀ p ∈ decimals, decDigit p.1 = some p.2 := by decide
    exact this _ h

/-- Facts on a digit. -/
theorem decimal_facts {c : Char} {x : Nat} (h : (c, x) ∈ decimals) :
    c ≠ ' ' ∧ c ≠ '-' ∧ c ≠ '.' ∧ ¬ (c = 'e' ∨ c = 'E') ∧ x ≤ 9 ∧ (x = 0 → c = '0') := by
  have : ∀ p ∈ decimals, p.1 ≠ ' ' ∧ p.1 ≠ '-' ∧ p.1 ≠ '.' ∧ ¬ (p.1 = 'e' ∨ p.1 = 'E') ∧ p.2 ≤ 9 ∧ (p.2 = 0 → p.1 = '0') := by decide
  exact this _ h

/-- The state inside a number. -/
def CsvState.inside (n : Nat) (p : Char) : CsvState := { wsAllowed := false, hasDigit := true, integral := n, prev := p }

/-- A digit. -/
theorem csvLoop_digit {s : CsvState} {c : Char} {x : Nat} {cs : List Char} (h : (c, x) ∈ decimals) (hd : s.digitAllowed = true)
    (hp : s.probFloat = false) :
    csvLoop s (c :: cs) = csvLoop { s with hasDigit := true, wsAllowed := false, prev := c, integral := 10 * s.integral + x } cs := by
  obtain ⟨h1, h2, h3, h4, -⟩ := decimal_facts h
  rw [csvLoop.eq_def]
  simp only [if_neg h1, if_neg h2, if_neg h3, if_neg h4, (decDigit_iff c x).2 h, hd, hp, if_true, Bool.false_eq_true, if_false]

theorem csvLoop_numeral {m : List Char} {n : Nat} (h : Numeral m n) :
    ∃ p, (decDigit p).isSome ∧ ∀ cs, csvLoop {} (m ++ cs) = csvLoop (.inside n p) cs := by
  induction h with
  | @one c x h =>
    refine ⟨c, by rw [(decDigit_iff c x).2 h]; rfl, fun cs => ?_⟩
    rw [List.singleton_append, csvLoop_digit h rfl rfl]
    show csvLoop { CsvState.inside (10 * 0 + x) c with } cs = _
    rw [Nat.mul_zero, Nat.zero_add]
  | @more s n c x _ h ih =>
    obtain ⟨p, _, ih⟩ := ih
    refine ⟨c, by rw [(decDigit_iff c x).2 h]; rfl, fun cs => ?_⟩
    rw [List.append_assoc, List.singleton_append, ih, csvLoop_digit h rfl rfl]
    rfl

/-- A sequence of digits is read as its number. -/
theorem csvUnsigned_numeral {m : List Char} {n : Nat} (h : Numeral m n) (hn : n < 2 ^ 63) : csvUnsigned m = .ok n := by
  obtain ⟨p, _, hl⟩ := csvLoop_numeral h
  have := hl []
  rw [List.append_nil] at this
  have hle : n ≤ 9223372036854775807 := by omega
  have e : csvData m = .ok (.int, (n : Int)) := by
    unfold csvData
    rw [this, csvLoop]
    simp only [CsvState.finish, CsvState.inside, hle, if_true, Bool.false_eq_true, if_false]
  unfold csvUnsigned
  rw [e]
  simp only [bind, Except.bind]
  rw [if_neg (by omega)]
  rfl

/-- A sequence of digits for a number from 2^63 on is refused. -/
theorem csvUnsigned_large {m : List Char} {n : Nat} (h : Numeral m n) (hn : 2 ^ 63 ≤ n) :
    csvUnsigned m = .error (.exception "Attempted to convert a floating point value to an integral type.") := by
  obtain ⟨p, _, hl⟩ := csvLoop_numeral h
  have := hl []
  rw [List.append_nil] at this
  have hle : ¬ n ≤ 9223372036854775807 := by omega
  have e : csvData m = .ok (.double, (n : Int)) := by
    unfold csvData
    rw [this, csvLoop]
    simp only [CsvState.finish, CsvState.inside, hle, if_true, Bool.false_eq_true, if_false]
  unfold csvUnsigned
  rw [e]
  rfl

theorem csvExponent_map {r : Except Err (CsvType × Int)} {v : Int} (h : r.map csvExponent = .ok (.int, v)) : False := by
  cases r with
  | error e => cases h
  | ok x =>
    have h : csvExponent x = (.int, v) := ok_inj h
    unfold csvExponent at h
    split at h <;> cases h

/-- What a step towards an integer can be. -/
theorem csvLoop_step {s : CsvState} {c : Char} {cs : List Char} {v : Int} (h : csvLoop s (c :: cs) = .ok (.int, v)) :
    (c = ' ' ∧ s.wsAllowed = true ∧ csvLoop { s with prev := c } cs = .ok (.int, v)) ∨
    (c = ' ' ∧ s.wsAllowed = false ∧ (decDigit s.prev).isSome ∧
      csvLoop { s with digitAllowed := false, wsAllowed := true, prev := c } cs = .ok (.int, v)) ∨
    (c = '-' ∧ s.negAllowed = true ∧ csvLoop { s with negAllowed := false, prev := c } cs = .ok (.int, v)) ∨
    (c = '.' ∧ csvLoop { s with dotAllowed := false, probFloat := true, prev := c } cs = .ok (.int, v)) ∨
    (∃ x, (c, x) ∈ decimals ∧ s.digitAllowed = true ∧
      csvLoop { s with hasDigit := true, wsAllowed := false, prev := c
                       integral := if s.probFloat then s.integral else 10 * s.integral + x } cs = .ok (.int, v)) := by
  rw [csvLoop.eq_def] at h
  dsimp only at h
  split at h
  · rename_i hc
    cases hw : s.wsAllowed with
    | true => rw [hw] at h; exact .inl ⟨hc, rfl, h⟩
    | false =>
      rw [hw] at h
      simp only [Bool.false_eq_true, if_false] at h
      split at h
      · rename_i hp; exact .inr (.inl ⟨hc, rfl, hp, h⟩)
      · cases h
  split at h
  · rename_i hc
    split at h
    · rename_i hn; exact .inr (.inr (.inl ⟨hc, hn, h⟩))
    · cases h
  split at h
  · rename_i hc
    split at h
    · exact .inr (.inr (.inr (.inl ⟨hc, h⟩)))
    · cases h
  split at h
  · split at h
    · split at h
      · cases h
      · split at h <;> exact (csvExponent_map h).elim
    · cases h
  split at h
  · cases h
  · rename_i x hx
    split at h
    · rename_i hd; exact .inr (.inr (.inr (.inr ⟨x, (decDigit_iff c x).1 hx, hd, h⟩)))
    · cases h

theorem csvLoop_float {cs : List Char} : ∀ {s : CsvState} {v : Int}, s.probFloat = true → csvLoop s cs ≠ .ok (.int, v) := by
  induction cs with
  | nil =>
    intro s v hp h
    rw [csvLoop] at h
    have h := ok_inj h
    unfold CsvState.finish at h
    rw [hp] at h
    split at h <;> cases h
  | cons c cs ih =>
    intro s v hp h
    rcases csvLoop_step h with ⟨_, _, h⟩ | ⟨_, _, _, h⟩ | ⟨_, _, h⟩ | ⟨_, h⟩ | ⟨x, _, _, h⟩ <;> exact ih (by first | exact hp | rfl) h

/-- The end of an integer. -/
theorem finish_int {s : CsvState} {v : Int} (h : s.finish = (.int, v)) :
    s.hasDigit = true ∧ s.integral ≤ 9223372036854775807 ∧ v = if s.negAllowed then (s.integral : Int) else -(s.integral : Int) := by
  unfold CsvState.finish at h
  split at h
  · rename_i hd
    injection h with h1 h2
    split at h1
    · cases h1
    · split at h1
      · rename_i hle; exact ⟨hd, hle, h2.symm⟩
      · cases h1
  · cases h

/-- With a sign only zero is accepted. -/
theorem csvLoop_sign {cs : List Char} : ∀ {s : CsvState} {v : Int}, s.probFloat = false → csvLoop s cs = .ok (.int, v) → 0 ≤ v →
    (s.negAllowed = false ∨ '-' ∈ cs) → s.integral = 0 ∧ v = 0 ∧ ∀ c ∈ cs, c ∈ ['0', '-', ' '] := by
  induction cs with
  | nil =>
    intro s v hp h hv hn
    rw [csvLoop] at h
    obtain ⟨_, _, e⟩ := finish_int (ok_inj h)
    have hn : s.negAllowed = false := by simpa using hn
    rw [hn] at e
    simp only [Bool.false_eq_true, if_false] at e
    exact ⟨by omega, by omega, by simp⟩
  | cons c cs ih =>
    intro s v hp h hv hn
    rcases csvLoop_step h with ⟨e, _, h⟩ | ⟨e, _, _, h⟩ | ⟨e, _, h⟩ | ⟨_, h⟩ | ⟨x, e, _, h⟩
    · subst e
      obtain ⟨a, b, d⟩ := ih (s := { s with prev := ' ' }) hp h hv (by simpa using hn)
      exact ⟨a, b, by simpa using d⟩
    · subst e
      obtain ⟨a, b, d⟩ := ih (s := { s with digitAllowed := false, wsAllowed := true, prev := ' ' }) hp h hv (by simpa using hn)
      exact ⟨a, b, by simpa using d⟩
    · subst e
      obtain ⟨a, b, d⟩ := ih (s := { s with negAllowed := false, prev := '-' }) hp h hv (.inl rfl)
      exact ⟨a, b, by simpa using d⟩
    · exact absurd h (csvLoop_float rfl)
    · rw [hp] at h
      simp only [Bool.false_eq_true, if_false] at h
      obtain ⟨f1, f2, _, _, _, f6⟩ := decimal_facts e
      obtain ⟨a, b, d⟩ := ih (s := { s with hasDigit := true, wsAllowed := false, prev := c, probFloat := false, integral := 10 * s.integral + x }) rfl h hv
        (hn.imp id (fun hm => by
          rcases List.mem_cons.1 hm with hm | hm
          · exact absurd hm.symm f2
          · exact hm))
      simp only at a
      have hx : x = 0 := by omega
      refine ⟨by omega, b, fun y hy => ?_⟩
      rcases List.mem_cons.1 hy with rfl | hy
      · rw [f6 hx]; simp
      · exact d y hy

/-- Only blanks. -/
def Blank (s : List Char) : Prop := ∀ c ∈ s, c = ' '

theorem csvLoop_after {cs : List Char} : ∀ {s : CsvState} {v : Int}, s.probFloat = false → s.negAllowed = true → '-' ∉ cs →
    s.digitAllowed = false → s.wsAllowed = true → csvLoop s cs = .ok (.int, v) →
    Blank cs ∧ v = s.integral ∧ s.integral ≤ 9223372036854775807 := by
  induction cs with
  | nil =>
    intro s v _ hn _ _ _ h
    rw [csvLoop] at h
    obtain ⟨_, b, e⟩ := finish_int (ok_inj h)
    rw [hn] at e
    exact ⟨fun _ h => by simp at h, e, b⟩
  | cons c cs ih =>
    intro s v hp hn hm hd hw h
    have hm' : '-' ∉ cs := fun h => hm (by simp [h])
    rcases csvLoop_step h with ⟨e, _, h⟩ | ⟨_, e, _⟩ | ⟨e, _⟩ | ⟨_, h⟩ | ⟨x, _, e, _⟩
    · obtain ⟨a, b, d⟩ := ih (s := { s with prev := c }) hp hn hm' hd hw h
      refine ⟨fun y hy => ?_, b, d⟩
      rcases List.mem_cons.1 hy with rfl | hy
      · exact e
      · exact a y hy
    · rw [hw] at e; cases e
    · exact absurd (by simp [e]) hm
    · exact absurd h (csvLoop_float rfl)
    · rw [hd] at e; cases e

theorem csvLoop_inside {cs : List Char} : ∀ {s : CsvState} {v : Int} {m : List Char}, s.probFloat = false → s.negAllowed = true →
    '-' ∉ cs → s.digitAllowed = true → s.wsAllowed = false → Numeral m s.integral → csvLoop s cs = .ok (.int, v) →
    ∃ ds b n, cs = ds ++ b ∧ Blank b ∧ Numeral (m ++ ds) n ∧ v = (n : Nat) ∧ n ≤ 9223372036854775807 := by
  induction cs with
  | nil =>
    intro s v m _ hn _ _ _ hnum h
    rw [csvLoop] at h
    obtain ⟨_, b, e⟩ := finish_int (ok_inj h)
    rw [hn] at e
    exact ⟨[], [], _, rfl, fun _ h => by simp at h, by simpa using hnum, e, b⟩
  | cons c cs ih =>
    intro s v m hp hn hm hd hw hnum h
    have hm' : '-' ∉ cs := fun h => hm (by simp [h])
    rcases csvLoop_step h with ⟨_, e, _⟩ | ⟨e, _, _, h⟩ | ⟨e, _⟩ | ⟨_, h⟩ | ⟨x, e, _, h⟩
    · rw [hw] at e; cases e
    · obtain ⟨a, b, d⟩ := csvLoop_after (s := { s with digitAllowed := false, wsAllowed := true, prev := c }) hp hn hm' rfl rfl h
      refine ⟨[], c :: cs, s.integral, rfl, fun y hy => ?_, by simpa using hnum, b, d⟩
      rcases List.mem_cons.1 hy with rfl | hy
      · exact e
      · exact a y hy
    · exact absurd (by simp [e]) hm
    · exact absurd h (csvLoop_float rfl)
    · rw [hp] at h
      simp only [Bool.false_eq_true, if_false] at h
      obtain ⟨ds, b, n, h1, h2, h3, h4, h5⟩ := ih (m := m ++ [c])
        (s := { s with hasDigit := true, wsAllowed := false, prev := c, probFloat := false, integral := 10 * s.integral + x }) rfl hn hm' hd rfl
        (.more hnum e) h
      exact ⟨c :: ds, b, n, by rw [h1]; rfl, h2, by simpa using h3, h4, h5⟩

theorem csvLoop_before {cs : List Char} : ∀ {s : CsvState} {v : Int}, s.probFloat = false → s.negAllowed = true → '-' ∉ cs →
    s.digitAllowed = true → s.wsAllowed = true → s.hasDigit = false → s.integral = 0 → csvLoop s cs = .ok (.int, v) →
    ∃ a m b n, cs = a ++ m ++ b ∧ Blank a ∧ Blank b ∧ Numeral m n ∧ v = (n : Nat) ∧ n ≤ 9223372036854775807 := by
  induction cs with
  | nil =>
    intro s v _ _ _ _ _ hz _ h
    rw [csvLoop] at h
    obtain ⟨e, _⟩ := finish_int (ok_inj h)
    rw [hz] at e
    cases e
  | cons c cs ih =>
    intro s v hp hn hm hd hw hz hi h
    have hm' : '-' ∉ cs := fun h => hm (by simp [h])
    rcases csvLoop_step h with ⟨e, _, h⟩ | ⟨_, e, _⟩ | ⟨e, _⟩ | ⟨_, h⟩ | ⟨x, e, _, h⟩
    · obtain ⟨a, m, b, n, h1, h2, h3⟩ := ih (s := { s with prev := c }) hp hn hm' hd hw hz hi h
      refine ⟨c :: a, m, b, n, by rw [h1]; rfl, fun y hy => ?_, h3⟩
      rcases List.mem_cons.1 hy with rfl | hy
      · exact e
      · exact h2 y hy
    · rw [hw] at e; cases e
    · exact absurd (by simp [e]) hm
    · exact absurd h (csvLoop_float rfl)
    · rw [hp, hi] at h
      simp only [Bool.false_eq_true, if_false, Nat.mul_zero, Nat.zero_add] at h
      obtain ⟨ds, b, n, h1, h2, h3, h4, h5⟩ := csvLoop_inside (m := [c])
        (s := { s with hasDigit := true, wsAllowed := false, prev := c, probFloat := false, integral := x }) rfl hn hm' hd rfl (.one e) h
      exact ⟨[], c :: ds, b, n, by rw [h1]; rfl, fun _ h => by simp at h, h2, h3, h4, h5⟩

/-- What is read as a number. -/
theorem csvUnsigned_some {s : List Char} {n : Nat} (h : csvUnsigned s = .ok n) :
    n < 2 ^ 63 ∧ ((∃ a m b, s = a ++ m ++ b ∧ Blank a ∧ Blank b ∧ Numeral m n) ∨ n = 0 ∧ '-' ∈ s ∧ ∀ c ∈ s, c ∈ ['0', '-', ' ']) := by
  unfold csvUnsigned at h
  obtain ⟨⟨ty, v⟩, hd, h⟩ := bind_ok h
  cases ty with
  | null => cases h
  | string => cases h
  | double => cases h
  | int =>
    dsimp only at h
    split at h
    · cases h
    have e := ok_inj h
    have hv : 0 ≤ v := by omega
    by_cases hm : '-' ∈ s
    · obtain ⟨_, b, d⟩ := csvLoop_sign (s := {}) rfl hd hv (.inr hm)
      have : n = 0 := by omega
      exact ⟨by omega, .inr ⟨this, hm, d⟩⟩
    · obtain ⟨a, m, b, k, h1, h2, h3, h4, h5, h6⟩ := csvLoop_before (s := {}) rfl rfl hm rfl rfl rfl rfl hd
      have : n = k := by omega
      subst this
      exact ⟨by omega, .inl ⟨a, m, b, h1, h2, h3, h4⟩⟩

end DRAMPower
