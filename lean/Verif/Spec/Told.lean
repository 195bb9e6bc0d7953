import Verif.Spec.SimSession
import Verif.Spec.Trace
import Verif.Spec.InversionPins

/-!
# What the extensions report, and what follows for the data bus

Everything here is read off the list of calls.
-/

namespace DRAMPower.Spec

/-- What the DBI extension should report after a session: nothing for DDR5, never "on" for a device that refuses, otherwise the last value. -/
def reportedDBI (std : Std) (sp : IfSpec) (us : List SimCall) : Option Bool :=
  if std = .ddr5 then none else some (inverts std sp && lastDBI us)

/-- What the metadata extension should report after a session: only LPDDR6 has it. -/
def reportedMeta (std : Std) (us : List SimCall) : Option (BitVec 16 × BitVec 16) := if std = .lpddr6 then some (lastMetaData us) else none

/-- The setting a user concludes from the reports. -/
def told (b : Option Bool) (m : Option (BitVec 16 × BitVec 16)) : Setting where
  inverting := b == some true
  first := (m.getD (0, 0)).1
  second := (m.getD (0, 0)).2

/-- The setting according to the reports after a session. -/
def toldAfter (std : Std) (sp : IfSpec) (us : List SimCall) : Setting := told (reportedDBI std sp us) (reportedMeta std us)

/-- The call as one that might transfer data. -/
def transferCall : SimCall → Option IfOp
  | .command c => some (.cmd c)
  | .iface op => some op
  | _ => none

/-- The data bus of a direction during the rest of a session: every transfer is made as the extensions report when it begins. -/
def toldLine (std : Std) (sp : IfSpec) (read : Bool) : List SimCall → Line → List SimCall → Line
  | _, line, [] => line
  | before, line, u :: us => toldLine std sp read (before ++ [u])
    (match transferCall u with | some op => dataDrive std sp read (toldAfter std sp before) line op | none => line) us

/-- The transfers with inversion of the rest of a session: those that begin while the extension reports "on". -/
def toldMarks (std : Std) (sp : IfSpec) (read : Bool) : List SimCall → List SimCall → List Marked
  | _, [] => []
  | before, u :: us =>
    (match transferCall u with | some op => (markedOf std sp read (toldAfter std sp before) op).toList | none => []) ++
      toldMarks std sp read (before ++ [u]) us

end DRAMPower.Spec
