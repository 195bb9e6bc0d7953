import Verif.Model.CliRun

/-!
# From the text of a trace file to its rows

`csv.hpp` is `/repo/src/cli/lib/DRAMPower/cli/csv.hpp`. The parser is the one `parse_command_list` creates (`run.cpp` 102-106 in the
same directory): comma, double quote, no header, blanks and tabulators trimmed, rows of any length kept.

Simplifications: a character is one byte; a field is resolved (`CSVRow::get_field`, csv.hpp 7680-7717) when it is pushed, its text does
not change later; the threads of the reader are not modelled, a chunk is read completely before its rows are used (csv.hpp 6419-6422,
7520-7536); positions within a row are numbers without bound.
-/

namespace DRAMPower

/-- `ParseFlags` (csv.hpp 4807-4813). -/
inductive CsvFlag | quoteEscapeQuote | quote | notSpecial | delimiter | newline
deriving DecidableEq, Repr

/-- `make_parse_flags(',', '"')` (csv.hpp 5854-5879), read by `parse_flag` (csv.hpp 6037-6039). -/
def csvFlag (c : Char) : CsvFlag :=
  if c = ',' then .delimiter else if c = '\r' ∨ c = '\n' then .newline else if c = '"' then .quote else .notSpecial

/-- `make_ws_flags` (csv.hpp 5885-5900) for `{' ', '\t'}` (run.cpp 104), read by `ws_flag` (csv.hpp 6101-6103). -/
def csvBlank (c : Char) : Bool := c = ' ' || c = '\t'

/-- The current state of `IBasicCSVParser` (csv.hpp 6050-6098). `fields`: the fields of the current row; `rows`: what was pushed to
`_records`; `rowStart`: `current_row.data_start`; `fieldStart`: none is `UNINITIALIZED_FIELD`. -/
structure CsvParser where
  quoteEscape : Bool := false
  pos : Nat := 0
  rowStart : Nat := 0
  fieldStart : Option Nat := none
  fieldLength : Nat := 0
  doubleQuote : Bool := false
  bomScan : Bool := false
  fields : List (List Char) := []
  rows : List (List (List Char)) := []
deriving DecidableEq, Repr

namespace CsvParser

/-- `compound_parse_flag` (csv.hpp 6041-6043) with `quote_escape_flag` (csv.hpp 4817-4819). -/
def compoundFlag (s : CsvParser) (c : Char) : CsvFlag :=
  if s.quoteEscape then if csvFlag c = .quote then .quoteEscapeQuote else .notSpecial else csvFlag c

/-- The loop of `CSVRow::get_field` over a field with double quotes (csv.hpp 7695-7710). -/
def collapse (prevQuote : Bool) : List Char → List Char
  | [] => []
  | c :: cs =>
    if csvFlag c = .quote then if prevQuote then collapse false cs else c :: collapse true cs
    else c :: collapse prevQuote cs

/-- `CSVRow::get_field` (csv.hpp 7680-7717) for the field that `push_field` describes. -/
def getField (inp : List Char) (s : CsvParser) : List Char :=
  let str := (inp.drop (s.rowStart + s.fieldStart.getD 0)).take s.fieldLength
  if s.doubleQuote then collapse false str else str

/-- `push_field` (csv.hpp 6956-6980). -/
def pushField (inp : List Char) (s : CsvParser) : CsvParser :=
  { s with fields := s.fields ++ [getField inp s], doubleQuote := false, fieldStart := none, fieldLength := 0 }

/-- `push_row` (csv.hpp 7063-7066). -/
def pushRow (s : CsvParser) : CsvParser := { s with rows := s.rows ++ [s.fields] }

/-- The position behind the characters from `p` on that satisfy `f` (csv.hpp 6936-6937, 6945-6946). -/
def skip (inp : List Char) (f : Char → Bool) (p : Nat) : Nat := p + ((inp.drop p).takeWhile f).length

/-- Trailing blanks (csv.hpp 6952-6953): the field length after the loop that begins at `j`. -/
def trimEnd (inp : List Char) : Nat → Nat → Nat
  | _, 0 => 0
  | j, len + 1 => if csvBlank (inp.getD j 'x') then trimEnd inp (j - 1) len else len + 1

/-- `parse_field` (csv.hpp 6931-6954). -/
def parseField (inp : List Char) (s : CsvParser) : CsvParser :=
  let p1 := skip inp csvBlank s.pos
  let start := s.fieldStart.getD (p1 - s.rowStart)
  let p2 := skip inp (fun c => decide (s.compoundFlag c = .notSpecial)) p1
  { s with pos := p2, fieldStart := some start, fieldLength := trimEnd inp (p2 - 1) (p2 - (start + s.rowStart)) }

/-- The position behind a line end at `p` (csv.hpp 7001-7005). -/
def afterNewline (inp : List Char) (p : Nat) : Nat :=
  match inp[p + 1]? with
  | some d => if csvFlag d = .newline then p + 2 else p + 1
  | none => p + 1

/-- One iteration of the loop of `parse` (csv.hpp 6993-7058); none: the loop ends (or the function returns, csv.hpp 7020). -/
def step (inp : List Char) (s : CsvParser) : Option CsvParser :=
  match inp[s.pos]? with
  | none => none
  | some c => match s.compoundFlag c with
    | .delimiter => some { pushField inp s with pos := s.pos + 1 }
    | .newline =>
      some { pushRow (pushField inp s) with pos := afterNewline inp s.pos, rowStart := afterNewline inp s.pos, fields := [] }
    | .notSpecial => some (parseField inp s)
    | .quoteEscapeQuote => match inp[s.pos + 1]? with
      | none => none
      | some d => match csvFlag d with
        | .delimiter | .newline => some { s with quoteEscape := false, pos := s.pos + 1 }
        | .quote => some { s with pos := s.pos + 2, fieldLength := s.fieldLength + 2, doubleQuote := true }
        -- `next_ch >= DELIMITER` is false for NOT_SPECIAL
        | _ => some { s with pos := s.pos + 1, fieldLength := s.fieldLength + 1 }
    | .quote =>
      if s.fieldLength = 0 then
        some { s with quoteEscape := true, pos := s.pos + 1
                      fieldStart := match s.fieldStart, inp[s.pos + 1]? with
                        | none, some d => if csvBlank d then none else some (s.pos + 1 - s.rowStart)
                        | f, _ => f }
      else some { s with pos := s.pos + 1, fieldLength := s.fieldLength + 1 }

/-- The loop of `parse` (csv.hpp 6992-7059). Every iteration advances the position (`step_lt` in `Lemmas/CsvText`), hence the bound. -/
def loop (inp : List Char) : Nat → CsvParser → CsvParser
  | 0, s => s
  | n + 1, s => match step inp s with
    | none => s
    | some s => loop inp n s

/-- Whether the data begin with the byte order mark of UTF-8 (csv.hpp 7078-7079). -/
def hasBom (inp : List Char) : Bool := inp.take 3 == [Char.ofNat 0xEF, Char.ofNat 0xBB, Char.ofNat 0xBF]

/-- `parse` (csv.hpp 6983-7061) with `trim_utf8_bom` (csv.hpp 7075-7086). The result of the function is `rowStart`. -/
def parse (inp : List Char) (s : CsvParser) : CsvParser :=
  let s := { s with quoteEscape := false, pos := 0, rowStart := 0 }
  let s := if s.bomScan = false ∧ 3 ≤ inp.length then { s with pos := if hasBom inp then 3 else 0, bomScan := true } else s
  loop inp inp.length s

/-- `empty_last_field` (csv.hpp 6916-6919). -/
def emptyLast (inp : List Char) : Bool :=
  match inp.getLast? with
  | some c => csvFlag c = .delimiter
  | none => false

/-- `end_feed` (csv.hpp 6913-6929). -/
def endFeed (inp : List Char) (s : CsvParser) : CsvParser :=
  let s := if 0 < s.fieldLength ∨ emptyLast inp = true then pushField inp s else s
  if 0 < s.fields.length then pushRow s else s

end CsvParser

/-- `MmapParser::next` (csv.hpp 7094-7122) until the end of the file, `n` is `ITERATION_CHUNK_SIZE`, `s` what the parser keeps between the
chunks, `text` what is left of the file. The rows; none: the reader never comes to an end, because a chunk without a complete row is
read again and again. The first argument bounds the number of chunks; each chunk but such a one consumes characters. -/
def csvChunks (n : Nat) : Nat → CsvParser → List Char → Option (List (List (List Char)))
  | 0, _, _ => none
  | k + 1, s, text =>
    let chunk := text.take n
    let s := CsvParser.parse chunk { doubleQuote := s.doubleQuote, bomScan := s.bomScan }
    if text.length ≤ n then some (CsvParser.endFeed chunk s).rows
    else if s.rowStart = 0 then none
    else (csvChunks n k s (text.drop s.rowStart)).map (s.rows ++ ·)

/-- `CSVReader` for a file with this content (csv.hpp 7399-7418), all its rows (`read_row`, csv.hpp 7520-7550, policy `KEEP`). -/
def csvRead (n : Nat) (text : List Char) : Option (List (List (List Char))) := csvChunks n (text.length + 1) {} text

/-- `ITERATION_CHUNK_SIZE` (csv.hpp 4792). -/
def csvChunkSize : Nat := 10000000

/-- `parse_command_list` (run.cpp 99-163) for a file with this content: none if it does not return, else what `parseCommandList`
describes. An empty file cannot be mapped: `::mmap` refuses the length 0 and `get_csv_head` throws (csv.hpp 981-992, 6880-6887, 7402). -/
def parseTraceFile (text : List Char) : Option (Except Err (Option (List ICmd))) :=
  if text = [] then some (.error (.exception "Cannot open file"))
  else (csvRead csvChunkSize text).map parseCommandList

end DRAMPower
