import Verif.Model.Report
import Verif.Spec.Energy

/-!
# Reading a report

How a reader of the document or of the standard output finds the energies, and what they add up to.
-/

namespace DRAMPower.Spec

/-- The member of that name. -/
def member (k : String) : Json → Option Json
  | .obj l => (l.find? fun e => e.1 = k).map (·.2)
  | _ => none

/-- The member reached by these names. -/
def reach (j : Json) : List String → Option Json
  | [] => some j
  | k :: ks => (member k j).bind fun j => reach j ks

/-- The number reached by these names. -/
def number (j : Json) (path : List String) : Option Rat :=
  match reach j path with
  | some (.num v) => some v
  | _ => none

/-- The array reached by these names. -/
def array (j : Json) (path : List String) : List Json :=
  match reach j path with
  | some (.arr l) => l
  | _ => []

/-- The names of the components of a bank. -/
def Component.label : Component → String
  | .act => "ACT"
  | .pre => "PRE"
  | .bgAct => "BG_ACT"
  | .bgPre => "BG_PRE"
  | .rd => "RD"
  | .wr => "WR"
  | .rda => "RDA"
  | .wra => "WRA"
  | .preRda => "PRE_RDA"
  | .preWra => "PRE_WRA"
  | .refAb => "REF_AB"
  | .refPb => "REF_PB"
  | .refSb => "REF_SB"
  | .ref2b => "REF_2B"
  | .refDb => "REF_DB"

/-- The names of the shared components. -/
def SharedComponent.label : SharedComponent → String
  | .bgActShared => "E_bg_act_shared"
  | .pdnA => "E_PDNA"
  | .pdnP => "E_PDNP"
  | .sref => "E_sref"
  | .dsm => "E_dsm"
  | .refab => "E_refab"

/-- The components of the interface energy. -/
inductive InterfaceComponent | controllerDynamic | controllerStatic | dramDynamic | dramStatic
deriving DecidableEq, Repr

/-- All of them. -/
def InterfaceComponent.all : List InterfaceComponent := [.controllerDynamic, .controllerStatic, .dramDynamic, .dramStatic]

/-- The value. -/
def InterfaceComponent.of (e : InterfaceInfo) : InterfaceComponent → Rat
  | .controllerDynamic => e.controller.dynamic
  | .controllerStatic => e.controller.static
  | .dramDynamic => e.dram.dynamic
  | .dramStatic => e.dram.static

/-- Where it is in the document. -/
def InterfaceComponent.path : InterfaceComponent → List String
  | .controllerDynamic => ["controller", "dynamicEnergy"]
  | .controllerStatic => ["controller", "staticEnergy"]
  | .dramDynamic => ["dram", "dynamicEnergy"]
  | .dramStatic => ["dram", "staticEnergy"]

/-- Its name in the standard output. -/
def InterfaceComponent.label : InterfaceComponent → String
  | .controllerDynamic => "Controller: dynamicEnergy"
  | .controllerStatic => "Controller: staticEnergy"
  | .dramDynamic => "DRAM: dynamicEnergy"
  | .dramStatic => "DRAM: staticEnergy"

/-- The entry is labelled with this rank, device and bank. -/
def labelled (r d b : Nat) (e : Json) : Prop := number e ["Rank"] = some (r : Rat) ∧ number e ["Device"] = some (d : Rat) ∧ number e ["Bank"] = some (b : Rat)

/-- What the energies in a document add up to. -/
def documentSum (j : Json) : Rat :=
  ((array j ["CoreEnergy", "BankEnergy"]).map fun e =>
    ((Component.all.filter Component.counted).map fun c => (number e [c.label]).getD 0).sum).sum +
  (SharedComponent.all.map fun c => (number j ["CoreEnergy", c.label]).getD 0).sum +
  (InterfaceComponent.all.map fun c => (number j ("InterfaceEnergy" :: c.path)).getD 0).sum

/-- The value printed behind this name. -/
def printed (l : List (String × Rat)) (name : String) : Option Rat := (l.find? fun e => e.1 = name).map (·.2)

/-- What the printed energies add up to. -/
def printedSum (p : Printout) : Rat :=
  (p.banks.map fun e => ((Component.all.filter Component.counted).map fun c => (printed e.2 c.label).getD 0).sum).sum +
  (SharedComponent.all.map fun c => (printed p.shared c.label).getD 0).sum +
  (InterfaceComponent.all.map fun c => (printed p.interface c.label).getD 0).sum

end DRAMPower.Spec
