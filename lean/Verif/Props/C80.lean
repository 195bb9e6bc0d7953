import Verif.Lemmas.CsvQuoted
import Verif.Props.C59

/-!
# C80: values in quotation marks are read as written

`Spec.TextOf WritesValue lineEnds rows text`: the text writes the rows, each value as it is or in quotation marks, with blanks around it.
-/

namespace DRAMPower
open Spec CsvParser

/-- The property: a file that fits in a chunk of `n` characters is read as the rows it writes. -/
def C80_statement (n : Nat) : Prop :=
  ∀ rows text, TextOf WritesValue lineEnds rows text → text.length ≤ n → Char.ofNat 0xEF ∉ text → csvRead n text = some rows

/-- Values in quotation marks may contain commas, line ends and (doubled) quotation marks; they are found as written, and the rows are
those of the text. Missing from the property: blanks before an opening or behind a closing quotation mark, values in which nothing but
quotation marks follows a blank (`Quotable`), and an empty last value of a file without a line end at its end. -/
theorem C80_partial (n : Nat) (rows : List (List (List Char))) (text : List Char) (h : TightText separators rows text)
    (hn : text.length ≤ n) (hb : Char.ofNat 0xEF ∉ text) : csvRead n text = some rows :=
  read_tight separators_one h (hasBom_false hb) hn

/-- Files of any size with Unix line ends, no row longer than a chunk: a chunk may end anywhere, also within a value in quotation marks or
between two quotation marks. -/
theorem C80_chunks_partial (n : Nat) (rows : List (List (List Char))) (text : List Char) (h : ShortTight n rows text)
    (hb : Char.ofNat 0xEF ∉ text) : csvRead n text = some rows :=
  read_tight_chunks (text.length + 1) rows text h (Nat.lt_succ_self _) {} hb

/-- The rows with all values in quotation marks. -/
def quotedRow : List (List Char) → List Char
  | [] => []
  | [v] => quoted v
  | v :: vs => quoted v ++ ',' :: quotedRow vs

def quotedText (rows : List (List (List Char))) : List Char := rows.flatMap fun row => quotedRow row ++ ['\n']

theorem quotedRow_writes : ∀ {row : List (List Char)}, row ≠ [] → (∀ v ∈ row, Quotable v) →
    RowOf WritesTight row (quotedRow row) ∧ quotedRow row ≠ []
  | [], h, _ => absurd rfl h
  | [v], _, h => ⟨.one (.quoted (h v (by simp))), by simp [quotedRow, quoted]⟩
  | v :: w :: vs, _, h => ⟨.more (.quoted (h v (by simp))) (quotedRow_writes (by simp) (fun x hx => h x (by simp [hx]))).1,
      by simp [quotedRow]⟩

/-- Whatever the values are (`Quotable`), they come back if all are written in quotation marks. -/
theorem C80_roundtrip (n : Nat) (rows : List (List (List Char))) (h : ∀ row ∈ rows, row ≠ [] ∧ ∀ v ∈ row, Quotable v)
    (hn : (quotedText rows).length ≤ n) : csvRead n (quotedText rows) = some rows := by
  have hw : TightText separators rows (quotedText rows) := by
    clear hn
    induction rows with
    | nil => exact .done
    | cons row rows ih =>
      obtain ⟨h1, h2⟩ := quotedRow_writes (h row (by simp)).1 (h row (by simp)).2
      exact .line h1 h2 (by decide) (ih fun r hr => h r (by simp [hr]))
  refine read_tight separators_one hw ?_ hn
  cases rows with
  | nil => rfl
  | cons row rows =>
    obtain ⟨v, vs, hv⟩ := List.exists_cons_of_ne_nil (h row (by simp)).1
    have : ∃ r, quotedText (row :: rows) = '"' :: r := by
      rw [hv]
      cases vs with
      | nil => exact ⟨_, rfl⟩
      | cons w vs => exact ⟨_, rfl⟩
    obtain ⟨r, hr⟩ := this
    rw [hr]
    unfold hasBom
    rw [beq_eq_false_iff_ne]
    intro hh
    simp only [List.take_succ_cons, List.cons.injEq] at hh
    exact absurd hh.1 (by decide)

/-- From the text to the commands (C54). -/
theorem C80_commands_partial (rows : List (List (List Char))) (cs : List ICmd) (hd : List.Forall₂ Describes rows cs) (hr : ∀ c ∈ cs, Fits63 c)
    (text : List Char) (h0 : text ≠ []) (h : TightText separators rows text) (hn : text.length ≤ 10000000)
    (hb : Char.ofNat 0xEF ∉ text) :
    parseTraceFile text = some (.ok (some cs)) := by
  rw [parseTraceFile, if_neg h0, show csvChunkSize = 10000000 from rfl, C80_partial _ rows text h hn hb, Option.map_some, C54_read rows cs hd hr]

/-- The same for larger files. -/
theorem C80_commands_chunks_partial (rows : List (List (List Char))) (cs : List ICmd) (hd : List.Forall₂ Describes rows cs)
    (hr : ∀ c ∈ cs, Fits63 c) (text : List Char) (h0 : text ≠ []) (h : ShortTight 10000000 rows text) (hb : Char.ofNat 0xEF ∉ text) :
    parseTraceFile text = some (.ok (some cs)) := by
  rw [parseTraceFile, if_neg h0, show csvChunkSize = 10000000 from rfl, C80_chunks_partial _ rows text h hb, Option.map_some, C54_read rows cs hd hr]

/-! ## Where the property fails -/

theorem isBlank : ∀ c ∈ [' '], c ∈ blanks := by decide

/-- The second row of the witness. -/
def c80Row : List (List Char) := ["15", "PRE", "0", "0", "3", "17", "5"].map String.toList

theorem c80_plain {vs : List (List Char)} {t : List Char} (h : WritesRow vs t) : RowOf WritesValue vs t := by
  induction h with
  | one h => exact .one (.plain h)
  | more h _ ih => exact .more (.plain h) ih

theorem c80_row : WritesRow c80Row "15,PRE,0,0,3,17,5".toList :=
  .more (plainField ['1', '5'] (by decide)) (.more (plainField ['P', 'R', 'E'] (by decide)) (.more (plainField ['0'] (by decide))
    (.more (plainField ['0'] (by decide)) (.more (plainField ['3'] (by decide)) (.more (plainField ['1', '7'] (by decide))
      (.one (plainField ['5'] (by decide))))))))

/-- The row of C59 with a note in a further column, a blank behind the closing quotation mark. -/
theorem c80_note (b : List Char) (hb : ∀ c ∈ b, c ∈ blanks) :
    RowOf WritesValue (c59Row ++ ["note".toList]) ("0,ACT,0,0,3,17,5,\"note\"".toList ++ b) := by
  have p : ∀ v, Plain v → WritesValue v v := fun v h => .plain (plainField v h)
  have := RowOf.more (p ['0'] (by decide)) (.more (p ['A', 'C', 'T'] (by decide)) (.more (p ['0'] (by decide))
    (.more (p ['0'] (by decide)) (.more (p ['3'] (by decide)) (.more (p ['1', '7'] (by decide)) (.more (p ['5'] (by decide))
      (.one (WritesValue.quoted [] "note".toList b (by simp) (by decide) hb))))))))
  exact this

/-- A row of 0 and a value in quotation marks. -/
theorem c80_two (a v b : List Char) (ha : ∀ c ∈ a, c ∈ blanks) (hv : Trimmed v) (hb : ∀ c ∈ b, c ∈ blanks) :
    RowOf WritesValue [['0'], v] ('0' :: ',' :: (a ++ quoted v ++ b)) :=
  RowOf.more (t := ['0']) (WritesValue.plain (plainField ['0'] (by decide))) (RowOf.one (WritesValue.quoted a v b ha hv hb))

/-- What the tool reads from a file: the number of commands. -/
def commandsRead (text : List Char) : Option Nat :=
  match parseTraceFile text with
  | some (.ok (some cs)) => some cs.length
  | _ => none

/-- A blank behind a closing quotation mark: the rest of the file becomes a part of the value. Here the value is in a column that the tool
ignores, and the second command is lost without a message. -/
theorem C80_violation : ¬ C80_statement csvChunkSize ∧
    TextOf WritesValue lineEnds [c59Row ++ ["note".toList], c80Row] "0,ACT,0,0,3,17,5,\"note\" \n15,PRE,0,0,3,17,5\n".toList ∧
    csvRead csvChunkSize "0,ACT,0,0,3,17,5,\"note\" \n15,PRE,0,0,3,17,5\n".toList =
      some [c59Row ++ ["note\" \n15,PRE,0,0,3,17,5\n".toList]] ∧
    commandsRead "0,ACT,0,0,3,17,5,\"note\" \n15,PRE,0,0,3,17,5\n".toList = some 1 ∧
    commandsRead "0,ACT,0,0,3,17,5,\"note\"\n15,PRE,0,0,3,17,5\n".toList = some 2 := by
  have w : TextOf WritesValue lineEnds [c59Row ++ ["note".toList], c80Row] "0,ACT,0,0,3,17,5,\"note\" \n15,PRE,0,0,3,17,5\n".toList :=
    .line (e := ['\n']) (c80_note [' '] isBlank) (by decide) (by decide) (.line (e := ['\n']) (c80_plain c80_row) (by decide) (by decide) .done)
  have r : csvRead csvChunkSize "0,ACT,0,0,3,17,5,\"note\" \n15,PRE,0,0,3,17,5\n".toList =
      some [c59Row ++ ["note\" \n15,PRE,0,0,3,17,5\n".toList]] := by decide +kernel
  refine ⟨fun h => ?_, w, r, by decide +kernel, by decide +kernel⟩
  have := h _ _ w (by decide) (by decide)
  rw [r] at this
  revert this
  decide

/-- A blank before an opening quotation mark: the mark becomes a part of the value. -/
theorem C80_violation_open : TextOf WritesValue lineEnds [[['0'], ['a', ',', 'b']]] "0, \"a,b\"\n".toList ∧
    csvRead csvChunkSize "0, \"a,b\"\n".toList = some [[['0'], ['"', 'a', ',', 'b']]] :=
  ⟨.line (e := ['\n']) (c80_two [' '] ['a', ',', 'b'] [] isBlank (by decide) (by simp)) (by simp) (by decide) .done, by decide +kernel⟩

/-- An empty value in quotation marks at the end of a file is lost. -/
theorem C80_violation_last : TextOf WritesValue lineEnds [[['0'], []]] "0,\"\"".toList ∧ csvRead csvChunkSize "0,\"\"".toList = some [[['0']]] :=
  ⟨.last (c80_two [] [] [] (by simp) (by decide) (by simp)) (by simp), by decide +kernel⟩

/-- A value that ends with two blanks and a quotation mark loses the mark. -/
theorem C80_violation_mark : TextOf WritesValue lineEnds [[['0'], ['a', ' ', ' ', '"']]] "0,\"a  \"\"\"\n".toList ∧
    csvRead csvChunkSize "0,\"a  \"\"\"\n".toList = some [[['0'], ['a', ' ', ' ']]] :=
  ⟨.line (e := ['\n']) (c80_two [] ['a', ' ', ' ', '"'] [] (by simp) (by decide) (by simp)) (by simp) (by decide) .done, by decide +kernel⟩

/-! ## The hypotheses can be met -/

/-- A value with a comma, both line ends and quotation marks. -/
example : Quotable "x\ny,\"z\" \r\n".toList ∧ csvRead 1000 (quotedText [["x\ny,\"z\" \r\n".toList, []], [[',']]]) =
    some [["x\ny,\"z\" \r\n".toList, []], [[',']]] := ⟨by decide, by decide +kernel⟩

/-- A trace whose values are partly in quotation marks. -/
example : TightText separators [["0", "ACT", "a,b"].map String.toList, ["1", "PRE"].map String.toList] "0 ,\"ACT\",\"a,b\"\r\n1,\"PRE\"".toList :=
  have h1 : RowOf WritesTight (["0", "ACT", "a,b"].map String.toList) "0 ,\"ACT\",\"a,b\"".toList :=
    RowOf.more (t := ['0', ' ']) (WritesTight.plain (WritesField.mk [] ['0'] [' '] (by simp) (by decide) isBlank))
      (RowOf.more (WritesTight.quoted (v := "ACT".toList) (by decide)) (RowOf.one (WritesTight.quoted (v := "a,b".toList) (by decide))))
  have h2 : RowOf WritesTight (["1", "PRE"].map String.toList) "1,\"PRE\"".toList :=
    RowOf.more (t := ['1']) (WritesTight.plain (plainField ['1'] (by decide))) (RowOf.one (WritesTight.quoted (v := "PRE".toList) (by decide)))
  .line (e := ['\r', '\n']) h1 (by decide) (by decide) (.last h2 (by decide) (by simp))

/-- Chunks of 11 characters: the first one ends between the quotation marks of the second row. -/
example : ShortTight 11 [["a,b", "1"].map String.toList, ["\"", "x\ny"].map String.toList] "\"a,b\",1\n\"\"\"\",\"x\ny\"\n".toList ∧
    ("\"a,b\",1\n\"\"\"\",\"x\ny\"\n".toList.take 11) = "\"a,b\",1\n\"\"\"".toList ∧
    csvRead 11 "\"a,b\",1\n\"\"\"\",\"x\ny\"\n".toList = some [["a,b", "1"].map String.toList, ["\"", "x\ny"].map String.toList] :=
  have h1 : RowOf WritesTight (["a,b", "1"].map String.toList) "\"a,b\",1".toList :=
    RowOf.more (WritesTight.quoted (v := "a,b".toList) (by decide)) (RowOf.one (WritesTight.plain (plainField ['1'] (by decide))))
  have h2 : RowOf WritesTight (["\"", "x\ny"].map String.toList) "\"\"\"\",\"x\ny\"".toList :=
    RowOf.more (WritesTight.quoted (v := "\"".toList) (by decide)) (RowOf.one (WritesTight.quoted (v := "x\ny".toList) (by decide)))
  ⟨.line h1 (by decide) (by decide) (.line h2 (by decide) (by decide) .done), by decide +kernel, by decide +kernel⟩

/-- `C80_commands_partial` for a command with a note. -/
example : commandsRead "\"0\",\"ACT\",0,0,3,\"17\",5,\"say \"\"hi\"\", twice\n\"\n15,PRE,0,0,3,17,5\n".toList = some 2 := by decide +kernel

end DRAMPower
