import Verif.Lemmas.CliRun
import Verif.Props.C34
import Verif.Props.C35
import Mathlib.Data.List.Forall2

/-!
# C54: the command line tool reads a trace file as written

`Spec.Describes row c`: the row of a trace file describes the command `c`.
-/

namespace DRAMPower
open Spec

/-- The property: the trace is read as the commands its rows describe; if a row does not describe a command, reading reports failure. -/
def C54_statement : Prop := ∀ rows : List (List (List Char)),
  (∀ cs, List.Forall₂ Describes rows cs → parseCommandList rows = .ok (some cs)) ∧
  ((¬ ∃ cs, List.Forall₂ Describes rows cs) → parseCommandList rows = .ok none)

/-- The numbers of a command can be read. -/
def Fits63 (c : ICmd) : Prop := ∀ n ∈ numbersOf c, n < 2 ^ 63

instance (c : ICmd) : Decidable (Fits63 c) := by unfold Fits63; infer_instance

theorem fromString_names : ∀ x ∈ traceNames, CmdType.fromString x.1 = x.2 := by decide +kernel

theorem needsData_iff (c : CmdType) : c.needsData = true ↔ c ∈ carriesData := by cases c <;> decide

/-- The command is what the fields say. -/
theorem icmd_eq {c : ICmd} (h1 : c.dbank = (c.co.bank + 8) % 16) (h2 : c.subChannel = 0) :
    c = { t := c.t, type := c.type, co := { bank := c.co.bank, bankGroup := c.co.bankGroup, rank := c.co.rank, row := c.co.row
                                            column := c.co.column }
          nBits := c.nBits, data := c.data } := by
  cases c
  simp only at h1 h2
  subst h1 h2
  rfl

theorem parseRow_describes {row : List (List Char)} {c : ICmd} (h : Describes row c) (hr : Fits63 c) : parseRow row = .ok (some c) := by
  obtain ⟨time, name, rank, group, bank, r, col, rest, rfl, h1, h2, h3, h4, h5, h6, h7, h8, h9, h10⟩ := h
  simp only [Fits63, numbersOf, List.mem_cons, List.not_mem_nil, or_false, forall_eq_or_imp, forall_eq] at hr
  obtain ⟨r1, r2, r3, r4, r5, r6⟩ := hr
  have hty : CmdType.fromString (String.ofList name) = c.type := fromString_names _ h2
  unfold parseRow
  rw [if_neg (by simp only [List.length_cons]; omega)]
  simp only [List.getD_cons_zero, List.getD_cons_succ, csvUnsigned_numeral h1 r1, csvUnsigned_numeral h3 r2, csvUnsigned_numeral h4 r3,
    csvUnsigned_numeral h5 r4, csvUnsigned_numeral h6 r5, csvUnsigned_numeral h7 r6, hty, pure, Except.pure, bind, Except.bind]
  unfold PayloadOf at h8
  by_cases hd : c.type ∈ carriesData
  · rw [if_pos hd] at h8
    obtain ⟨p, l, rest', rfl, g1, g2, g3⟩ := h8
    rw [if_pos ((needsData_iff _).2 hd), if_neg (by simp only [List.length_cons]; omega)]
    simp only [List.getD_cons_zero, C35_decode p l g1]
    congr 2
    rw [icmd_eq h9 h10, g2, g3, Nat.mul_comm]
  · rw [if_neg hd] at h8
    rw [if_neg (fun h => hd ((needsData_iff _).1 h))]
    congr 2
    rw [icmd_eq h9 h10, h8.1, h8.2]

/-- Rows that describe commands with numbers below 2^63 are read as these commands. -/
theorem C54_read (rows : List (List (List Char))) (cs : List ICmd) (h : List.Forall₂ Describes rows cs) (hr : ∀ c ∈ cs, Fits63 c) :
    parseCommandList rows = .ok (some cs) := by
  induction h with
  | nil => rfl
  | @cons row c rows cs h _ ih =>
    rw [parseCommandList, parseRow_describes h (hr c (by simp))]
    simp only [bind, Except.bind, ih fun c hc => hr c (by simp [hc])]
    rfl

theorem decodePairs_error : ∀ (s : List Char) (e : Err), decodePairs s = .error e → ∃ m, e = .exception m
  | [], e, h => by cases h
  | [_], e, h => by cases h
  | a :: b :: s, e, h => by
    rw [decodePairs, stoi16_pair] at h
    cases hv : pairValue a b with
    | none =>
      rw [hv] at h
      simp only [bind, Except.bind] at h
      cases h
      exact ⟨_, rfl⟩
    | some v =>
      rw [hv] at h
      cases hd : decodePairs s with
      | error e' =>
        rw [hd] at h
        simp only [bind, Except.bind] at h
        cases h
        exact decodePairs_error s _ hd
      | ok l =>
        rw [hd] at h
        cases h

/-- Reading a payload fails with an exception only. -/
theorem payload_error {q : List Char} {e : Err} (h : hexStringToUint8Array q = .error e) : ∃ m, e = .exception m := by
  by_cases he : q.length % 2 = 0
  · rw [hexString_eq q he] at h
    exact decodePairs_error _ _ h
  · rw [C35_odd q (by omega)] at h
    cases h
    exact ⟨_, rfl⟩

theorem parse_append {pre : List (List (List Char))} {cs : List ICmd} (h : parseCommandList pre = .ok (some cs))
    (rows : List (List (List Char))) :
    parseCommandList (pre ++ rows) = (parseCommandList rows).map (Option.map (cs ++ ·)) := by
  induction pre generalizing cs with
  | nil =>
    cases ok_inj h
    rw [List.nil_append]
    cases parseCommandList rows with
    | error e => rfl
    | ok o => cases o <;> rfl
  | cons row pre ih =>
    rw [parseCommandList] at h
    obtain ⟨o, ho, h⟩ := bind_ok h
    cases o with
    | none => cases h
    | some c =>
      dsimp only at h
      obtain ⟨o', ho', h⟩ := bind_ok h
      cases o' with
      | none => cases h
      | some cs' =>
        cases pure_ok h
        rw [List.cons_append, parseCommandList, ho, ih ho']
        simp only [bind, Except.bind]
        cases parseCommandList rows with
        | error e => rfl
        | ok o => cases o <;> rfl

/-- A number field as the tool accepts it: digits, possibly between blanks, or zeros with a minus sign. -/
def ReadAs (s : List Char) (n : Nat) : Prop :=
  n < 2 ^ 63 ∧ ((∃ a m b, s = a ++ m ++ b ∧ (∀ c ∈ a, c = ' ') ∧ (∀ c ∈ b, c = ' ') ∧ Numeral m n) ∨
    n = 0 ∧ '-' ∈ s ∧ ∀ c ∈ s, c ∈ ['0', '-', ' '])

/-- A row as the tool accepts it: `Describes` with `ReadAs` instead of `Numeral`, unknown names for `NOP`, and any payload that is decoded
(`C35_partial`). -/
def AcceptedAs (row : List (List Char)) (c : ICmd) : Prop :=
  ∃ time name rank group bank r col rest, row = time :: name :: rank :: group :: bank :: r :: col :: rest ∧
    ReadAs time c.t ∧
    ((String.ofList name, c.type) ∈ traceNames ∨ c.type = .NOP ∧ String.ofList name ∉ traceNames.map (·.1)) ∧
    ReadAs rank c.co.rank ∧ ReadAs group c.co.bankGroup ∧ ReadAs bank c.co.bank ∧ ReadAs r c.co.row ∧ ReadAs col c.co.column ∧
    (if c.type ∈ carriesData then ∃ p l rest', rest = p :: rest' ∧ hexStringToUint8Array p = .ok l ∧ c.data = some l ∧
        c.nBits = 8 * l.length
      else c.data = none ∧ c.nBits = 0) ∧
    c.dbank = (c.co.bank + 8) % 16 ∧ c.subChannel = 0

theorem fromString_cases (s : String) : (s, CmdType.fromString s) ∈ traceNames ∨
    CmdType.fromString s = .NOP ∧ s ∉ traceNames.map (·.1) := by
  by_cases h : s ∈ traceNames.map (·.1)
  · obtain ⟨x, hx, rfl⟩ := List.mem_map.1 h
    rw [fromString_names x hx]
    exact .inl hx
  · refine .inr ⟨?_, h⟩
    simp only [traceNames, List.map_cons, List.map_nil, List.mem_cons, List.not_mem_nil, or_false, not_or] at h
    simp only [CmdType.fromString, h, if_false]

theorem ne_of_length {row : List (List Char)} (h : ¬ row.length < 7) :
    ∃ time name rank group bank r col rest, row = time :: name :: rank :: group :: bank :: r :: col :: rest := by
  match row, h with
  | time :: name :: rank :: group :: bank :: r :: col :: rest, _ => exact ⟨_, _, _, _, _, _, _, _, rfl⟩
  | [], h | [_], h | [_, _], h | [_, _, _], h | [_, _, _, _], h | [_, _, _, _, _], h | [_, _, _, _, _, _], h =>
    exact absurd (by simp) h

theorem parseRow_some {row : List (List Char)} {c : ICmd} (h : parseRow row = .ok (some c)) : AcceptedAs row c := by
  unfold parseRow at h
  split at h
  · cases h
  rename_i hl
  obtain ⟨time, name, rank, group, bank, r, col, rest, rfl⟩ := ne_of_length hl
  simp only [List.getD_cons_zero, List.getD_cons_succ] at h
  obtain ⟨t, ht, h⟩ := bind_ok h
  obtain ⟨rk, hrk, h⟩ := bind_ok h
  obtain ⟨bg, hbg, h⟩ := bind_ok h
  obtain ⟨bk, hbk, h⟩ := bind_ok h
  obtain ⟨rw', hrw, h⟩ := bind_ok h
  obtain ⟨cl, hcl, h⟩ := bind_ok h
  have key : ∀ {s : List Char} {n : Nat}, csvUnsigned s = .ok n → ReadAs s n := fun h => csvUnsigned_some h
  refine ⟨time, name, rank, group, bank, r, col, rest, rfl, ?_⟩
  split at h
  · rename_i hd
    split at h
    · cases h
    rename_i hlen
    cases rest with
    | nil => exact absurd (by simp) hlen
    | cons p rest' =>
      simp only [List.getD_cons_zero] at h
      split at h
      · cases h
      · cases h
      · rename_i arr harr
        have e := Option.some.inj (pure_ok h)
        subst e
        refine ⟨key ht, fromString_cases _, key hrk, key hbg, key hbk, key hrw, key hcl, ?_, rfl, rfl⟩
        rw [if_pos ((needsData_iff _).1 hd)]
        exact ⟨p, arr, rest', rfl, harr, rfl, Nat.mul_comm _ _⟩
  · rename_i hd
    have e := Option.some.inj (pure_ok h)
    subst e
    refine ⟨key ht, fromString_cases _, key hrk, key hbg, key hbk, key hrw, key hcl, ?_, rfl, rfl⟩
    rw [if_neg (fun h => hd ((needsData_iff _).2 h))]
    exact ⟨rfl, rfl⟩

/-- Whatever is read: one command for each row, in this order, with the numbers, the name and the payload of the row. Missing from the
property: the tool is more tolerant than `Describes` (`C54_violation_names`, `C54_violation_sign`). -/
theorem C54_partial (rows : List (List (List Char))) (cs : List ICmd) (h : parseCommandList rows = .ok (some cs)) :
    List.Forall₂ AcceptedAs rows cs := by
  induction rows generalizing cs with
  | nil => cases ok_inj h; exact .nil
  | cons row rows ih =>
    rw [parseCommandList] at h
    obtain ⟨o, ho, h⟩ := bind_ok h
    cases o with
    | none => cases h
    | some c =>
      dsimp only at h
      obtain ⟨o', ho', h⟩ := bind_ok h
      cases o' with
      | none => cases h
      | some cs' =>
        cases pure_ok h
        exact .cons (parseRow_some ho) (ih cs' ho')

/-- A field trimmed of blanks and without sign is read as a number only if it is a numeral, and then as its number. -/
theorem C54_number (s : List Char) (n : Nat) (hs : '-' ∉ s) (ht : s.head? ≠ some ' ' ∧ s.getLast? ≠ some ' ') :
    csvUnsigned s = .ok n ↔ Numeral s n ∧ n < 2 ^ 63 := by
  constructor
  · intro h
    obtain ⟨h1, h2⟩ := csvUnsigned_some h
    refine ⟨?_, h1⟩
    rcases h2 with ⟨a, m, b, e, ha, hb, hm⟩ | ⟨_, h2, _⟩
    · have ha' : a = [] := by
        cases a with
        | nil => rfl
        | cons c a =>
          rw [ha c (by simp)] at e
          exact absurd (by rw [e]; rfl) ht.1
      have hb' : b = [] := by
        rcases List.eq_nil_or_concat b with hb' | ⟨b', c, hb'⟩
        · exact hb'
        · exfalso
          rw [hb'] at e hb
          rw [hb c (by simp)] at e
          exact ht.2 (by rw [e]; simp)
      subst ha' hb'
      rw [List.nil_append, List.append_nil] at e
      rw [e]; exact hm
    · exact absurd h2 hs
  · intro h
    exact csvUnsigned_numeral h.1 h.2

/-- A row of too few fields is reported as a failure, whatever follows. -/
theorem C54_short (pre : List (List (List Char))) (cs : List ICmd) (h : List.Forall₂ Describes pre cs) (hr : ∀ c ∈ cs, Fits63 c)
    (row : List (List Char)) (hl : row.length < 7) (rest : List (List (List Char))) :
    parseCommandList (pre ++ row :: rest) = .ok none := by
  rw [parse_append (C54_read pre cs h hr), parseCommandList]
  unfold parseRow
  rw [if_pos hl]
  rfl

/-- A row for a command that carries data is reported as a failure if the payload is missing, has an odd number of characters or contains
a pair of characters that does not begin with a digit (or a blank or sign before a digit). -/
theorem C54_payload (pre : List (List (List Char))) (cs : List ICmd) (h : List.Forall₂ Describes pre cs) (hr : ∀ c ∈ cs, Fits63 c)
    (row : List (List Char)) (c : ICmd) (p : List Char) (more : List (List Char)) (hrow : Describes (row ++ p :: more) c) (hc : Fits63 c)
    (hl : row.length = 7) (hd : c.type ∈ carriesData) (rest : List (List (List Char))) :
    parseCommandList (pre ++ row :: rest) = .ok none ∧
    ∀ q, (q.length % 2 = 1 ∨ ∃ i a b, (withoutPrefix q)[2 * i]? = some a ∧ (withoutPrefix q)[2 * i + 1]? = some b ∧ ¬ Tolerated a b) →
      parseCommandList (pre ++ (row ++ q :: more) :: rest) = .ok none := by
  obtain ⟨time, name, rank, group, bank, r, col, rest', e, h1, h2, h3, h4, h5, h6, h7, -⟩ := hrow
  have hrow : row = [time, name, rank, group, bank, r, col] := by
    have := congrArg (List.take 7) e
    rw [List.take_append_of_le_length (by omega), List.take_of_length_le (by omega)] at this
    simpa using this
  simp only [Fits63, numbersOf, List.mem_cons, List.not_mem_nil, or_false, forall_eq_or_imp, forall_eq] at hc
  obtain ⟨r1, r2, r3, r4, r5, r6⟩ := hc
  have hty : CmdType.fromString (String.ofList name) = c.type := fromString_names _ h2
  have hnd := (needsData_iff _).2 hd
  constructor
  · rw [parse_append (C54_read pre cs h hr), parseCommandList]
    have : parseRow row = .ok none := by
      rw [hrow]
      unfold parseRow
      rw [if_neg (by simp)]
      simp only [List.getD_cons_zero, List.getD_cons_succ, csvUnsigned_numeral h1 r1, csvUnsigned_numeral h3 r2, csvUnsigned_numeral h4 r3,
        csvUnsigned_numeral h5 r4, csvUnsigned_numeral h6 r5, csvUnsigned_numeral h7 r6, hty, pure, Except.pure, bind, Except.bind, hnd, if_true]
      rw [if_pos (by simp)]
    rw [this]
    rfl
  · intro q hq
    have hbad : ∃ m, hexStringToUint8Array q = .error (.exception m) := by
      cases hh : hexStringToUint8Array q with
      | ok l =>
        obtain ⟨g1, g2⟩ := (C35_partial q).1 ⟨l, hh⟩
        rcases hq with hq | ⟨i, a, b, q1, q2, q3⟩
        · omega
        · exact absurd (g2 i a b q1 q2) q3
      | error e =>
        obtain ⟨m, rfl⟩ := payload_error hh
        exact ⟨m, rfl⟩
    obtain ⟨m, hbad⟩ := hbad
    rw [parse_append (C54_read pre cs h hr), parseCommandList]
    have : parseRow (row ++ q :: more) = .ok none := by
      rw [hrow]
      unfold parseRow
      rw [if_neg (by simp)]
      simp only [List.cons_append, List.nil_append, List.getD_cons_zero, List.getD_cons_succ, csvUnsigned_numeral h1 r1,
        csvUnsigned_numeral h3 r2, csvUnsigned_numeral h4 r3,
        csvUnsigned_numeral h5 r4, csvUnsigned_numeral h6 r5, csvUnsigned_numeral h7 r6, hty, pure, Except.pure, bind, Except.bind, hnd, if_true]
      rw [if_neg (by simp), hbad]
    rw [this]
    rfl

theorem numeral_digits {s : List Char} {n : Nat} (h : Numeral s n) : ∀ c ∈ s, ∃ x, (c, x) ∈ decimals := by
  induction h with
  | @one c x h =>
    intro y hy
    rw [List.mem_singleton.1 hy]
    exact ⟨x, h⟩
  | @more s n c x _ h ih =>
    intro y hy
    rcases List.mem_append.1 hy with hy | hy
    · exact ih y hy
    · rw [List.mem_singleton.1 hy]
      exact ⟨x, h⟩

/-- All numerals of numbers from 2^63 on are refused with an exception, though time stamps and coordinates are 64 bit numbers without
sign. -/
theorem C54_violation_large (s : List Char) (n : Nat) (h : Numeral s n) (hn : 2 ^ 63 ≤ n) (row : List (List Char))
    (rest : List (List (List Char))) (hl : 7 ≤ (s :: row).length) :
    parseCommandList ((s :: row) :: rest) =
      .error (.exception "Attempted to convert a floating point value to an integral type.") := by
  rw [parseCommandList]
  unfold parseRow
  rw [if_neg (by omega)]
  simp only [List.getD_cons_zero, csvUnsigned_large h hn]
  rfl

/-! ## Where the property fails -/

/-- A row. -/
def c54Row (time name rank : String) (payload : List String) : List (List Char) :=
  ([time, name, rank, "0", "3", "17", "5"] ++ payload).map String.toList

/-- A field that is not a number: reading does not report failure, an exception leaves the function (and nothing in `main` catches
it). -/
theorem C54_violation : ¬ C54_statement ∧
    parseCommandList [c54Row "x" "ACT" "0" []] = .error (.exception "Not a number.") ∧
    parseCommandList [c54Row "10" "ACT" "-1" []] =
      .error (.exception "Tried to convert a negative number to an unsigned type.") ∧
    parseCommandList [c54Row "1e3" "ACT" "0" []] =
      .error (.exception "Attempted to convert a floating point value to an integral type.") := by
  refine ⟨fun hs => ?_, by decide +kernel, by decide +kernel, by decide +kernel⟩
  have h := (hs [c54Row "x" "ACT" "0" []]).2 (fun ⟨cs, h⟩ => by
    cases h with
    | cons h _ =>
      obtain ⟨time, name, rank, group, bank, r, col, rest, e, h1, -⟩ := h
      have e1 : time = ['x'] := by
        have := congrArg List.head? e
        simpa [c54Row] using this.symm
      subst e1
      exact absurd (numeral_digits h1 'x' (by simp)) (by simp [decimals]))
  revert h
  decide +kernel

/-- Unknown names are read as `NOP`, among them the printed name of the end of the simulation and names in lower case. -/
theorem C54_violation_names :
    (∀ s : String, s ∉ traceNames.map (·.1) → CmdType.fromString s = .NOP) ∧
    parseCommandList [c54Row "10" "act" "0" [], c54Row "20" "END_OF_SIMULATION" "0" []] =
      .ok (some [{ t := 10, type := .NOP, co := { bank := 3, row := 17, column := 5 } },
        { t := 20, type := .NOP, co := { bank := 3, row := 17, column := 5 } }]) := by
  refine ⟨fun s h => ?_, by decide +kernel⟩
  rcases fromString_cases s with h' | h'
  · exact absurd (List.mem_map.2 ⟨_, h', rfl⟩) h
  · exact h'.1

/-- Zeros with a minus sign anywhere are accepted. -/
theorem C54_violation_sign :
    parseCommandList [c54Row "0-0" "ACT" "-0" []] = .ok (some [{ t := 0, type := .ACT, co := { bank := 3, row := 17, column := 5 } }]) ∧
    ¬ ∃ n, Numeral "0-0".toList n :=
  ⟨by decide +kernel, fun ⟨n, h⟩ => absurd (numeral_digits h '-' (by decide)) (by simp [decimals])⟩

/-! ## The hypotheses can be met -/

/-- The numeral 120. -/
example : Numeral "120".toList 120 :=
  .more (s := ['1', '2']) (.more (s := ['1']) (.one (x := 1) (by decide)) (by decide : ('2', 2) ∈ decimals)) (by decide : ('0', 0) ∈ decimals)

/-- A row with a payload, and the command it describes. -/
def c54Cmd : ICmd := { t := 10, type := .WR, co := { bank := 3, row := 17, column := 5 }, data := some [0x1A, 0xF0], nBits := 16 }

theorem c54_describes : Describes (c54Row "10" "WR" "0" ["0x1aF0"]) c54Cmd := by
  have d : ∀ {c x}, (c, x) ∈ decimals → Numeral [c] x := fun h => .one h
  refine ⟨['1', '0'], ['W', 'R'], ['0'], ['0'], ['3'], ['1', '7'], ['5'], [['0', 'x', '1', 'a', 'F', '0']], by decide +kernel,
    .more (s := ['1']) (n := 1) (x := 0) (d (by decide)) (by decide), by decide +kernel, d (by decide), d (by decide), d (by decide),
    .more (s := ['1']) (n := 1) (x := 7) (d (by decide)) (by decide), d (by decide), ?_, rfl, rfl⟩
  unfold PayloadOf
  rw [if_pos (by decide)]
  exact ⟨_, _, [], rfl, .inr ⟨'x', .inl rfl, _, rfl, .byte (x := 1) (y := 10) (by decide) (by decide)
    (.byte (x := 15) (y := 0) (by decide) (by decide) .nil)⟩, rfl, rfl⟩

example : Fits63 c54Cmd ∧ parseCommandList [c54Row "10" "WR" "0" ["0x1aF0"]] = .ok (some [c54Cmd]) ∧
    parseCommandList [c54Row "10" "WR" "0" []] = .ok none ∧ parseCommandList [c54Row "10" "WR" "0" ["0x1g2", "1"]] = .ok none := by
  decide +kernel

/-- `C54_payload` with this row. -/
example : (c54Row "10" "WR" "0" []).length = 7 ∧ c54Row "10" "WR" "0" ["0x1aF0"] = c54Row "10" "WR" "0" [] ++ "0x1aF0".toList :: [] ∧
    c54Cmd.type ∈ carriesData ∧ ¬ Tolerated 'g' '1' := by
  refine ⟨by decide, by decide +kernel, by decide, ?_⟩
  simp [Tolerated, digits]

/-- `C54_violation_large`: 2^63. -/
example : csvUnsigned "9223372036854775808".toList =
    .error (.exception "Attempted to convert a floating point value to an integral type.") ∧
    csvUnsigned "9223372036854775807".toList = .ok 9223372036854775807 := by decide +kernel

end DRAMPower
