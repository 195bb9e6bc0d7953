import Verif.Model.CliRun
import Verif.Model.CsvText
import Verif.Model.Report

/-!
# Command line tool, from the text of the trace file to the output file

Paths in comments are relative to `/repo/src/cli/`. The simplifications are those of `Model/CliRun`, `Model/CsvText` and `Model/Report`.
-/

namespace DRAMPower

/-- `main` (main/main.cpp 52-104) for a trace file with the content `text`: none if it does not end (`Model/CsvText`). -/
def cliFile (std : Std) (N : Nat) (ms : MemSpec) (sp : IfSpec) (ps : PowerSpec) (ws : WireSpec) (args : Args) (configOk memspecOk : Bool)
    (text : List Char) (sink : Sink) : Option CliEnd :=
  if args.result ≠ 0 then some (.exit args.result none)
  else if configOk = false then some (.exit 1 none)
  else if text = [] then some (.died (.exception "Cannot open file"))
  else (csvRead csvChunkSize text).map fun rows => cliMain std N ms sp ps ws args configOk memspecOk rows sink

/-- What has been written to the output file when the tool has ended (lib/DRAMPower/cli/run.cpp 165-211). -/
def CliEnd.document (ps : PowerSpec) : CliEnd → Option Json
  | .exit 0 (some r) => (jsonDocument ps r.core r.interface).toOption
  | _ => none

end DRAMPower
