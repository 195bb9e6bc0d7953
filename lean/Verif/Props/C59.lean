import Verif.Lemmas.CsvText
import Verif.Props.C54

/-!
# C59: the text of a trace file is split into its rows and fields

`Spec.WritesText rows text`: the text writes the rows, with line ends of Unix or Windows, blanks around the values and empty lines.
-/

namespace DRAMPower
open Spec CsvParser

/-- The property, for a reader that takes `n` characters at a time: it finds the rows that the text writes. -/
def C59_statement (n : Nat) : Prop := ∀ rows text, WritesText rows text → csvRead n text = some rows

/-- Line ends, and a line end with one empty line of Unix after it. -/
def separators : List (List Char) := [['\n'], ['\r', '\n'], ['\n', '\n']]

theorem separators_one : ∀ e ∈ separators, oneLineEnd e := by
  intro e he
  simp only [separators, List.mem_cons, List.not_mem_nil, or_false] at he
  rcases he with rfl | rfl | rfl
  · exact .inl ⟨_, rfl, by decide⟩
  · exact .inr ⟨_, _, rfl, by decide, by decide⟩
  · exact .inr ⟨_, _, rfl, by decide, by decide⟩

/-- A file that is read at once: all rows are found, in this order, with the values as written. Missing from the property: more than one
empty line in sequence, empty lines before the first row or with line ends of Windows, files that are larger than a chunk, and an empty
last value of a file that ends with blanks instead of a line end (`LastKept`). -/
theorem C59_partial (n : Nat) (rows : List (List (List Char))) (text : List Char) (h : Lines separators rows text)
    (hn : text.length ≤ n) (hb : Char.ofNat 0xEF ∉ text) : csvRead n text = some rows :=
  read_whole separators_one h rfl (hasBom_false hb) hn

/-- A file of any size, read `n` characters at a time, with line ends of Unix and without empty lines: where it is cut makes no
difference as long as every row fits in a chunk. -/
theorem C59_chunks_partial (n : Nat) (rows : List (List (List Char))) (text : List Char) (h : ShortLines n rows text)
    (hb : Char.ofNat 0xEF ∉ text) : csvRead n text = some rows :=
  read_chunks _ rows text h (Nat.lt_succ_self _) {} rfl hb

/-- The byte order mark that some editors write at the beginning is no part of the first value. -/
theorem C59_mark (n : Nat) (rows : List (List (List Char))) (text : List Char) (h : Lines separators rows text) (hn : text.length + 3 ≤ n) :
    csvRead n (Char.ofNat 0xEF :: Char.ofNat 0xBB :: Char.ofNat 0xBF :: text) = some rows := by
  rw [csvRead, csvChunks]
  simp only [List.length_cons]
  rw [List.take_of_length_le (by simp only [List.length_cons]; omega), if_pos (by omega)]
  have hp : ∀ t : List Char, CsvParser.parse (Char.ofNat 0xEF :: Char.ofNat 0xBB :: Char.ofNat 0xBF :: t) {} =
      loop (Char.ofNat 0xEF :: Char.ofNat 0xBB :: Char.ofNat 0xBF :: t) (t.length + 3) { pos := 3, bomScan := true } := by
    intro t
    unfold CsvParser.parse
    have h1 : hasBom (Char.ofNat 0xEF :: Char.ofNat 0xBB :: Char.ofNat 0xBF :: t) = true := by
      simp [hasBom]
    simp only [h1, List.length_cons, true_and, if_true]
    rw [if_pos (by omega)]
  rw [hp]
  obtain ⟨s', h1, h2, h3⟩ := lines_reach separators_one h [Char.ofNat 0xEF, Char.ofNat 0xBB, Char.ofNat 0xBF] (by decide)
    { pos := 3, bomScan := true }
    { q := rfl, d := rfl, f := rfl, l := rfl, fs := rfl, pos := rfl, start := Nat.zero_le _ }
  simp only [List.cons_append, List.nil_append] at h1 h2 h3
  rw [loop_reach h1 h2 _ (by simp), h3]

/-- From the text to the commands: a file below the size of a chunk whose rows describe commands (`Spec.Describes`, C54) is read as these
commands. -/
theorem C59_commands (rows : List (List (List Char))) (cs : List ICmd) (hd : List.Forall₂ Describes rows cs) (hr : ∀ c ∈ cs, Fits63 c)
    (text : List Char) (h0 : text ≠ []) (h : Lines separators rows text) (hn : text.length ≤ 10000000)
    (hb : Char.ofNat 0xEF ∉ text) :
    parseTraceFile text = some (.ok (some cs)) := by
  rw [parseTraceFile, if_neg h0, show csvChunkSize = 10000000 from rfl, C59_partial _ rows text h hn hb, Option.map_some, C54_read rows cs hd hr]

/-- The same for larger files. -/
theorem C59_commands_chunks (rows : List (List (List Char))) (cs : List ICmd) (hd : List.Forall₂ Describes rows cs)
    (hr : ∀ c ∈ cs, Fits63 c) (text : List Char) (h0 : text ≠ []) (h : ShortLines 10000000 rows text) (hb : Char.ofNat 0xEF ∉ text) :
    parseTraceFile text = some (.ok (some cs)) := by
  rw [parseTraceFile, if_neg h0, show csvChunkSize = 10000000 from rfl, C59_chunks_partial _ rows text h hb, Option.map_some, C54_read rows cs hd hr]

/-! ## Where the property fails -/

theorem plainField (v : List Char) (h : Plain v) : WritesField v v := by
  simpa using WritesField.mk [] v [] (by simp) h (by simp)

/-- The row 0, ACT, 0, 0, 3, 17, 5. -/
def c59Row : List (List Char) := ["0", "ACT", "0", "0", "3", "17", "5"].map String.toList

/-- The same row, the last value followed by blanks. -/
theorem c59_writes (m : Nat) : WritesRow c59Row ("0,ACT,0,0,3,17,5".toList ++ List.replicate m ' ') := by
  have hl : WritesField ['5'] (['5'] ++ List.replicate m ' ') := by
    simpa using WritesField.mk [] ['5'] (List.replicate m ' ') (by simp) (by decide)
      (fun c hc => by rw [List.eq_of_mem_replicate hc]; decide)
  have := WritesRow.more (plainField ['0'] (by decide)) (.more (plainField ['A', 'C', 'T'] (by decide)) (.more (plainField ['0'] (by decide))
    (.more (plainField ['0'] (by decide)) (.more (plainField ['3'] (by decide)) (.more (plainField ['1', '7'] (by decide)) (.one hl))))))
  exact this

theorem c59_writes0 : WritesRow c59Row "0,ACT,0,0,3,17,5".toList := by simpa using c59_writes 0

/-- Two empty lines between rows, an empty line with the line end of Windows, an empty line before the first row: each yields a row with
one empty value, and the tool refuses the trace. -/
theorem C59_violation : ¬ C59_statement csvChunkSize ∧
    (∀ text ∈ ["0,ACT,0,0,3,17,5\n\n\n0,ACT,0,0,3,17,5\n", "0,ACT,0,0,3,17,5\r\n\r\n0,ACT,0,0,3,17,5\r\n"].map String.toList,
      WritesText [c59Row, c59Row] text ∧ csvRead csvChunkSize text = some [c59Row, [[]], c59Row] ∧
      parseTraceFile text = some (.ok none)) ∧
    (∀ text ∈ ["\n0,ACT,0,0,3,17,5\n"].map String.toList,
      WritesText [c59Row] text ∧ csvRead csvChunkSize text = some [[[]], c59Row] ∧ parseTraceFile text = some (.ok none)) := by
  have nl : ['\n'] ∈ lineEnds := by decide
  have crlf : ['\r', '\n'] ∈ lineEnds := by decide
  have w1 : WritesText [c59Row, c59Row] "0,ACT,0,0,3,17,5\n\n\n0,ACT,0,0,3,17,5\n".toList :=
    .line (e := ['\n']) c59_writes0 (by decide) nl (.empty (e := ['\n']) nl (.empty (e := ['\n']) nl
      (.line (e := ['\n']) c59_writes0 (by decide) nl .done)))
  have w2 : WritesText [c59Row, c59Row] "0,ACT,0,0,3,17,5\r\n\r\n0,ACT,0,0,3,17,5\r\n".toList :=
    .line (e := ['\r', '\n']) c59_writes0 (by decide) crlf (.empty (e := ['\r', '\n']) crlf
      (.line (e := ['\r', '\n']) c59_writes0 (by decide) crlf .done))
  have w3 : WritesText [c59Row] "\n0,ACT,0,0,3,17,5\n".toList :=
    .empty (e := ['\n']) nl (.line (e := ['\n']) c59_writes0 (by decide) nl .done)
  have r1 : csvRead csvChunkSize "0,ACT,0,0,3,17,5\n\n\n0,ACT,0,0,3,17,5\n".toList = some [c59Row, [[]], c59Row] := by decide +kernel
  refine ⟨fun h => ?_, ?_, ?_⟩
  · have := h _ _ w1
    rw [r1] at this
    revert this
    decide
  · intro text ht
    simp only [List.map_cons, List.map_nil, List.mem_cons, List.not_mem_nil, or_false] at ht
    rcases ht with rfl | rfl
    · exact ⟨w1, r1, by decide +kernel⟩
    · exact ⟨w2, by decide +kernel, by decide +kernel⟩
  · intro text ht
    simp only [List.map_cons, List.map_nil, List.mem_cons, List.not_mem_nil, or_false] at ht
    subst ht
    exact ⟨w3, by decide +kernel, by decide +kernel⟩

/-- A chunk that ends within the line end of Windows: the second half is taken for an empty line. -/
theorem chunk_cut {row : List (List Char)} {t : List Char} (h : WritesRow row t) (hb : Char.ofNat 0xEF ∉ t) :
    csvRead (t.length + 1) (t ++ ['\r', '\n']) = some [row, [[]]] := by
  rw [csvRead, csvChunks]
  have ht : (t ++ ['\r', '\n']).take (t.length + 1) = t ++ ['\r'] := by
    rw [List.take_append, List.take_of_length_le (by omega)]
    simp
  simp only [ht]
  rw [if_neg (by simp)]
  have hb' : Char.ofNat 0xEF ∉ t ++ ['\r'] := by
    simp only [List.mem_append, not_or]
    exact ⟨hb, by decide⟩
  obtain ⟨b, hp⟩ := parse_start (s := {}) (hasBom_false hb')
  rw [hp]
  obtain ⟨s', h1, h2, h3, h4, h5⟩ := line_reach h [] [] (.inl ⟨'\r', rfl, by decide, by simp⟩) { bomScan := b }
    { q := rfl, d := rfl, f := rfl, l := rfl, fs := rfl, pos := rfl, start := Nat.le_refl _ }
  simp only [List.nil_append, List.append_nil] at h1 h2 h3 h4
  rw [loop_reach h1 (step_end h2.pos) _ (by simp), if_neg (by rw [h3]; simp), h3, h4]
  have hdrop : (t ++ ['\r', '\n']).drop (t ++ ['\r']).length = ['\n'] := by
    rw [show t ++ ['\r', '\n'] = (t ++ ['\r']) ++ ['\n'] by simp, List.drop_left]
  rw [hdrop, show (t ++ ['\r', '\n']).length = (t.length + 1) + 1 by simp, csvChunks]
  simp only [List.take_of_length_le (show ['\n'].length ≤ t.length + 1 by simp)]
  rw [if_pos (by simp), h2.d]
  cases s'.bomScan <;> rfl

/-- With the chunks of the tool: a file of 10000001 bytes, one row and the line end of Windows. The row describes a command, the tool
refuses the trace. -/
theorem C59_violation_chunk : ∃ text c, text.length = 10000001 ∧ WritesText [c59Row] text ∧ Describes c59Row c ∧
    csvRead csvChunkSize text = some [c59Row, [[]]] ∧ parseTraceFile text = some (.ok none) := by
  have hlen : ("0,ACT,0,0,3,17,5".toList ++ List.replicate (csvChunkSize - 17) ' ').length + 1 = csvChunkSize := by
    rw [List.length_append, List.length_replicate, show "0,ACT,0,0,3,17,5".toList.length = 16 by decide]
    rfl
  have h := chunk_cut (c59_writes (csvChunkSize - 17)) (by
    simp only [List.mem_append, not_or]
    exact ⟨by decide, fun hh => absurd (List.eq_of_mem_replicate hh) (by decide)⟩)
  rw [hlen] at h
  have d : ∀ {c x}, (c, x) ∈ decimals → Numeral [c] x := fun h => .one h
  refine ⟨_, { t := 0, type := .ACT, co := { bank := 3, row := 17, column := 5 } },
    ?_, ?_, ⟨['0'], ['A', 'C', 'T'], ['0'], ['0'], ['3'], ['1', '7'], ['5'], [], rfl, d (by decide), by decide +kernel, d (by decide), d (by decide),
      d (by decide), .more (s := ['1']) (n := 1) (x := 7) (d (by decide)) (by decide), d (by decide), ?_, rfl, rfl⟩, h, ?_⟩
  · rw [List.length_append, ← Nat.add_right_cancel_iff (n := 0), show ['\r', '\n'].length = 1 + 1 from rfl, ← Nat.add_assoc, hlen]
    rfl
  · have := WritesText.line (e := ['\r', '\n']) (c59_writes (csvChunkSize - 17)) (by simp) (by decide) .done
    simpa using this
  · unfold PayloadOf
    rw [if_neg (by decide)]
    exact ⟨rfl, rfl⟩
  · rw [parseTraceFile, if_neg (by simp), h]
    decide +kernel

/-- An empty last value is lost if the file ends with blanks behind the last comma. -/
theorem C59_violation_last : WritesText [[['7'], []]] ['7', ',', ' '] ∧ csvRead csvChunkSize ['7', ',', ' '] = some [[['7']]] ∧
    csvRead csvChunkSize ['7', ',', ' ', '\n'] = some [[['7'], []]] :=
  ⟨.last (.more (plainField ['7'] (by decide)) (.one (by simpa using WritesField.mk [' '] [] [] (by decide) (by decide) (by simp)))) (by simp),
    by decide +kernel, by decide +kernel⟩

/-- An empty trace is not read as no commands: an exception leaves `parse_command_list`. -/
theorem C59_violation_empty : WritesText [] [] ∧ parseTraceFile [] = some (.error (.exception "Cannot open file")) := ⟨.done, rfl⟩

/-- A row that does not fit in a chunk: the reader never comes to an end. -/
theorem C59_violation_long (n : Nat) (text : List Char) (hn : n < text.length) (hb : Char.ofNat 0xEF ∉ text)
    (h : ∀ c ∈ text.take n, c ∉ ['"', '\n', '\r']) : csvRead n text = none ∧ (n = csvChunkSize → parseTraceFile text = none) := by
  suffices hr : csvRead n text = none from ⟨hr, fun e => by
    rw [parseTraceFile, if_neg (by rintro rfl; simp at hn), ← e, hr, Option.map_none]⟩
  rw [csvRead, csvChunks]
  rw [if_neg (by omega)]
  obtain ⟨b, hp⟩ := parse_start (s := {}) (hasBom_false (fun hh => hb (List.mem_of_mem_take hh) : Char.ofNat 0xEF ∉ text.take n))
  simp only [hp]
  have hin := loop_inside (inp := text.take n) (text.take n).length { bomScan := b } rfl rfl (by
    intro c hc
    have := h c (by simpa using hc)
    simp only [List.mem_cons, List.not_mem_nil, or_false, not_or] at this
    unfold csvFlag
    split
    · simp
    · simp [this])
  rw [if_pos hin.2.1]

/-! ## The hypotheses can be met -/

/-- Three rows with blanks, an empty line and both line ends. -/
example : csvRead csvChunkSize "0, ACT ,0\n\n1,\tPRE,2\r\n3,x,".toList =
    some ([["0", "ACT", "0"], ["1", "PRE", "2"], ["3", "x", ""]].map (·.map String.toList)) := by decide +kernel

example : Lines separators [c59Row, c59Row] "0,ACT,0,0,3,17,5\n\n0,ACT,0,0,3,17,5".toList :=
  .line (e := ['\n', '\n']) c59_writes0 (by decide) (by decide) (.last c59_writes0 (by decide) (.inl ⟨['5'], rfl, by simp⟩))

/-- Chunks of 20 characters: the second row is cut. -/
example : ShortLines 20 [c59Row, c59Row] "0,ACT,0,0,3,17,5\n0,ACT,0,0,3,17,5\n".toList ∧
    csvRead 20 "0,ACT,0,0,3,17,5\n0,ACT,0,0,3,17,5\n".toList = some [c59Row, c59Row] :=
  ⟨.line c59_writes0 (by decide) (by decide) (.line c59_writes0 (by decide) (by decide) .done), by decide +kernel⟩

/-- `C59_violation_long` with the chunks of the tool. -/
example : csvChunkSize < (List.replicate 10000001 '7').length ∧ Char.ofNat 0xEF ∉ List.replicate 10000001 '7' ∧
    ∀ c ∈ (List.replicate 10000001 '7').take csvChunkSize, c ∉ ['"', '\n', '\r'] :=
  ⟨by rw [List.length_replicate]; decide, fun hh => absurd (List.eq_of_mem_replicate hh) (by decide),
    fun c hc => by rw [List.eq_of_mem_replicate (List.mem_of_mem_take hc)]; decide⟩

end DRAMPower
