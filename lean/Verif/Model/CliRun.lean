import Verif.Model.Cli
import Verif.Model.Names
import Verif.Model.SimulatorStats

/-!
# Command line tool, from the trace file to the exit status

Paths in comments are relative to `/repo/src/cli/`; `csv.hpp` and `run.cpp` are in `lib/DRAMPower/cli/`.

Simplifications: a row is the list of its fields as the CSV library splits and trims them (modelled in `Model/CsvText`); a character is one byte. The value of a numeric field is an integer instead of a
`long double`: it is exact below 2^64, and whatever is at least 2^63 is treated alike. The value of a field in scientific notation
(and the time its computation takes) is not modelled, only its type. Reading and checking the configuration and the memory
specification is not modelled: whether they succeed is an argument. What is printed is the two energy objects, their total and the
labels, not its format.
-/

namespace DRAMPower

/-- `DataType` (csv.hpp 5080-5089); the integer types are one. -/
inductive CsvType | null | string | int | double
deriving DecidableEq, Repr

/-- Local variables of `data_type` (csv.hpp 5303-5312), and the character before the current one. -/
structure CsvState where
  wsAllowed : Bool := true
  negAllowed : Bool := true
  dotAllowed : Bool := true
  digitAllowed : Bool := true
  hasDigit : Bool := false
  probFloat : Bool := false
  integral : Nat := 0
  prev : Char := ' '

/-- `isdigit` in the C locale, and the digit (csv.hpp 5368-5369). -/
def decDigit (c : Char) : Option Nat := if '0' ≤ c ∧ c ≤ '9' then some (c.toNat - '0'.toNat) else none

/-- `_process_potential_exponential` (csv.hpp 5250-5264) with the type of the exponent. -/
def csvExponent (exponent : CsvType × Int) : CsvType × Int :=
  if exponent.1 = .int then (.double, 0) else (.string, 0)

/-- What `data_type` does after its loop (csv.hpp 5390-5401) with `_determine_integral_type` (csv.hpp 5270-5284). -/
def CsvState.finish (s : CsvState) : CsvType × Int :=
  if s.hasDigit then
    (if s.probFloat then .double else if s.integral ≤ 9223372036854775807 then .int else .double,
      if s.negAllowed then (s.integral : Int) else -(s.integral : Int))
  else (.null, 0)

/-- The loop of `data_type` (csv.hpp 5314-5388). `in[i + 1]` behind the end is undefined; `i` is never zero where a character before
is needed. The value is that of `*out`, zero where it is not written or not read. -/
def csvLoop (s : CsvState) : List Char → Except Err (CsvType × Int)
  | [] => .ok s.finish
  | c :: cs =>
    if c = ' ' then
      if s.wsAllowed then csvLoop { s with prev := c } cs
      else if (decDigit s.prev).isSome then csvLoop { s with digitAllowed := false, wsAllowed := true, prev := c } cs
      else .ok (.string, 0)
    else if c = '-' then
      if s.negAllowed then csvLoop { s with negAllowed := false, prev := c } cs else .ok (.string, 0)
    else if c = '.' then
      if s.dotAllowed then csvLoop { s with dotAllowed := false, probFloat := true, prev := c } cs else .ok (.string, 0)
    else if c = 'e' ∨ c = 'E' then
      if s.probFloat = true ∨ cs ≠ [] ∧ (decDigit s.prev).isSome then
        match cs with
        | [] => .error (.ub "in[i + 1]")
        | d :: ds => if d = '+' then (csvLoop {} ds).map csvExponent else (csvLoop {} (d :: ds)).map csvExponent
      else .ok (.string, 0)
    else match decDigit c with
      | none => .ok (.string, 0)
      | some d =>
        if s.digitAllowed then
          csvLoop { s with hasDigit := true, wsAllowed := false, prev := c
                           integral := if s.probFloat then s.integral else 10 * s.integral + d } cs
        else .ok (.string, 0)

/-- `data_type` (csv.hpp 5298-5402). The empty string is `CSV_NULL` as well if the loop is not executed. -/
def csvData (field : List Char) : Except Err (CsvType × Int) := csvLoop {} field

/-- `CSVField::get` for `std::size_t` and `timestamp_t` (csv.hpp 5566-5600). -/
def csvUnsigned (field : List Char) : Except Err Nat := do
  let (ty, v) ← csvData field
  match ty with
  | .null | .string => .error (.exception "Not a number.")
  | .double => .error (.exception "Attempted to convert a floating point value to an integral type.")
  | .int =>
    if v < 0 then .error (.exception "Tried to convert a negative number to an unsigned type.") else .ok v.toNat

/-- Body of the loop of `parse_command_list` (run.cpp 119-160): none is `return false`. -/
def parseRow (row : List (List Char)) : Except Err (Option ICmd) := do
  if row.length < 7 then return none
  let t ← csvUnsigned (row.getD 0 [])
  let name := row.getD 1 []
  let rank ← csvUnsigned (row.getD 2 [])
  let bankGroup ← csvUnsigned (row.getD 3 [])
  let bank ← csvUnsigned (row.getD 4 [])
  let r ← csvUnsigned (row.getD 5 [])
  let column ← csvUnsigned (row.getD 6 [])
  let type := CmdType.fromString (String.ofList name)
  let co : Coord := { bank, bankGroup, rank, row := r, column }
  if type.needsData then
    if row.length < 8 then return none
    match hexStringToUint8Array (row.getD 7 []) with
    | .error (.exception _) => return none
    | .error e => .error e
    | .ok arr => return some { t, type, co, data := some arr, nBits := arr.length * 8 }
  else return some { t, type, co }

/-- `parse_command_list` (run.cpp 99-163): none is `return false`. -/
def parseCommandList : List (List (List Char)) → Except Err (Option (List ICmd))
  | [] => .ok (some [])
  | row :: rows => do
    match ← parseRow row with
    | none => return none
    | some c => match ← parseCommandList rows with
      | none => return none
      | some cs => return some (c :: cs)

variable {std : Std} {N : Nat}

/-- `runCommands` (run.cpp 280-290): none is `return false`; only exceptions are caught. -/
def runCommands (ms : MemSpec) (sp : IfSpec) (s : Simulator std N) (cs : List ICmd) : Except Err (Option (Simulator std N)) :=
  match s.run ms sp cs with
  | .done s => .ok (some s)
  | .refused (.exception _) => .ok none
  | .halfway _ (.exception _) => .ok none
  | .refused e => .error e
  | .halfway _ e => .error e

/-- What the tool reports: the printed total, and with which rank, device and bank each entry of the bank energies is printed. -/
structure Report where
  total : Rat
  core : Energy
  interface : InterfaceInfo
  labels : List (Option (Nat × Nat × Nat))

/-- Where the result goes: to the standard output, or to a file that can be opened or not. -/
inductive Sink | stdout | file (opened : Bool)
deriving DecidableEq

/-- `jsonFileResult` (run.cpp 165-211): none is `return false`. -/
def jsonFileResult (opened : Bool) (ps : PowerSpec) (core : Energy) (interface : InterfaceInfo) : Except Err (Option Report) :=
  if opened then
    if core.bank.length ≠ ps.ranks * ps.banks * ps.devices then .error (.assertion "false")
    else do
      let labels ← cliLabels ps.ranks ps.devices ps.banks (core.bank.map fun _ => none)
      pure (some { total := core.total + interface.total, core, interface, labels })
  else .ok none

/-- `stdoutResult` (run.cpp 213-242): an entry behind the end of the bank energies is undefined. -/
def stdoutResult (ps : PowerSpec) (core : Energy) (interface : InterfaceInfo) : Except Err (Option Report) :=
  match cliLabels ps.ranks ps.devices ps.banks (core.bank.map fun _ => none) with
  | .error _ => .error (.ub "bank_energy[energy_offset + b]")
  | .ok labels => .ok (some { total := core.total + interface.total, core, interface, labels })

/-- `makeResult` (run.cpp 266-278). -/
def makeResult (ms : MemSpec) (sp : IfSpec) (ps : PowerSpec) (ws : WireSpec) (sink : Sink) (s : Simulator std N) :
    Except Err (Option Report) := do
  let (s, core) ← s.calcCoreEnergy ms sp ps s.lastCommandTime
  let (_, interface) ← s.calcInterfaceEnergy ms sp ws s.lastCommandTime
  match sink with
  | .file opened => jsonFileResult opened ps core interface
  | .stdout => stdoutResult ps core interface

/-- How the process ends: `main` returns, or it is terminated by an exception or an assertion (or its behaviour is undefined). -/
inductive CliEnd
  | exit (status : Nat) (report : Option Report)
  | died (e : Err)

/-- What `parseArgs` (main/main.cpp 21-50) returns: `app.exit(e)` is zero if help was asked for. -/
inductive Args | given | help | wrong (status : Nat)
deriving DecidableEq

/-- The value of `res` (main/main.cpp 59). -/
def Args.result : Args → Nat
  | given | help => 0
  | wrong n => n

/-- `getMemory` (run.cpp 51-97): exceptions of the constructor are caught; none is the null pointer. -/
def getMemory (ms : MemSpec) (sp : IfSpec) (memspecOk : Bool) : Except Err (Option (Simulator std N)) :=
  if memspecOk then
    match Simulator.init std N ms sp with
    | .ok s => .ok (some s)
    | .error (.exception _) => .ok none
    | .error e => .error e
  else .ok none

/-- `main` (main/main.cpp 52-104). `configOk`: what `getConfig` (run.cpp 244-264) returns; it is false if no file was named. -/
def cliMain (std : Std) (N : Nat) (ms : MemSpec) (sp : IfSpec) (ps : PowerSpec) (ws : WireSpec) (args : Args) (configOk memspecOk : Bool)
    (rows : List (List (List Char))) (sink : Sink) : CliEnd :=
  if args.result ≠ 0 then .exit args.result none
  else if configOk = false then .exit 1 none
  else match parseCommandList rows with
    | .error e => .died e
    | .ok none => .exit 1 none
    | .ok (some cs) => match getMemory (std := std) (N := N) ms sp memspecOk with
      | .error e => .died e
      | .ok none => .exit 1 none
      | .ok (some s) => match runCommands ms sp s cs with
        | .error e => .died e
        | .ok none => .exit 1 none
        | .ok (some s) => match makeResult ms sp ps ws sink s with
          | .error e => .died e
          | .ok none => .exit 1 none
          | .ok (some r) => .exit 0 (some r)

end DRAMPower
