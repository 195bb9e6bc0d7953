import Verif.Model.CliRun

/-!
# What the command line tool writes

`run.cpp` and `util.hpp` are in `/repo/src/cli/lib/DRAMPower/cli/`, `energy.cpp` is in `/repo/src/DRAMPower/DRAMPower/data/`.

Simplifications: the document is a value, not its text (`j.dump(4)`, run.cpp 208; the names are printed sorted, the numbers as decimals
that are read back as the same `double`); energies are rational numbers. `j["CoreEnergy"]["BankEnergy"]` is taken out of the document
while the labels are written into it. The lines of the standard output are lists of names and numbers (the text in front of the names
is left out).
-/

namespace DRAMPower

/-- `json_t`, as far as it is used. -/
inductive Json
  | null
  | num (v : Rat)
  | obj (l : List (String × Json))
  | arr (l : List Json)

namespace Json

/-- The assignment `j[k] = v` in an object. -/
def insert (k : String) (v : Json) : List (String × Json) → List (String × Json)
  | [] => [(k, v)]
  | e :: l => if e.1 = k then (k, v) :: l else e :: insert k v l

/-- `j[k] = v`: null becomes an object, other values throw. -/
def set (j : Json) (k : String) (v : Json) : Except Err Json :=
  match j with
  | null => .ok (obj [(k, v)])
  | obj l => .ok (obj (insert k v l))
  | _ => .error (.exception "type_error.305")

end Json

/-- `energy_info_t::to_json` (energy.cpp 28-48). -/
def EnergyInfo.toJson (e : EnergyInfo) : Json := .obj
  [("ACT", .num e.eAct), ("PRE", .num e.ePre), ("BG_ACT", .num e.eBgAct), ("BG_PRE", .num e.eBgPre), ("RD", .num e.eRD), ("WR", .num e.eWR),
   ("RDA", .num e.eRDA), ("WRA", .num e.eWRA), ("PRE_RDA", .num e.ePreRDA), ("PRE_WRA", .num e.ePreWRA), ("REF_AB", .num e.eRefAB),
   ("REF_PB", .num e.eRefPB), ("REF_SB", .num e.eRefSB), ("REF_2B", .num e.eRef2B), ("REF_DB", .num e.eRefDB)]

/-- `energy_t::to_json` (energy.cpp 95-114) with this array of bank energies. -/
def Energy.toJson (e : Energy) (banks : List Json) : Json := .obj
  [("E_bg_act_shared", .num e.shared.bgActShared), ("E_PDNA", .num e.shared.pdnA), ("E_PDNP", .num e.shared.pdnP), ("E_sref", .num e.shared.sref),
   ("E_dsm", .num e.shared.dsm), ("E_refab", .num e.shared.refab), ("BankEnergy", .arr banks)]

/-- The array of bank energies (energy.cpp 106-112). -/
def Energy.bankJson (e : Energy) : List Json := e.bank.map EnergyInfo.toJson

/-- `interface_energy_info_t::to_json` (energy.cpp 86-93). -/
def InterfaceInfo.toJson (e : InterfaceInfo) : Json := .obj
  [("controller", .obj [("dynamicEnergy", .num e.controller.dynamic), ("staticEnergy", .num e.controller.static)]),
   ("dram", .obj [("dynamicEnergy", .num e.dram.dynamic), ("staticEnergy", .num e.dram.static)])]

/-- The three assignments of run.cpp 201-203 to an entry. -/
def labelEntry (r d b : Nat) (j : Json) : Except Err Json := do
  let j ← j.set "Rank" (.num r)
  let j ← j.set "Device" (.num d)
  j.set "Bank" (.num b)

/-- The loops of `jsonFileResult` (run.cpp 196-206). An index beyond the end makes `at` throw. -/
def labelEntries (rankcount devicecount bankcount : Nat) (entries : List Json) : Except Err (List Json) :=
  (List.range rankcount).foldlM (fun l r => (List.range devicecount).foldlM (fun l d => (List.range bankcount).foldlM (fun l b =>
    let i := cliOffset bankcount devicecount r d b
    match l[i]? with
    | some j => (labelEntry r d b j).map (l.set i)
    | none => .error (.exception "at")) l) l) entries

/-- The document `jsonFileResult` writes (run.cpp 172-208). -/
def jsonDocument (ps : PowerSpec) (core : Energy) (interface : InterfaceInfo) : Except Err Json :=
  if core.bankJson.length ≠ ps.ranks * ps.banks * ps.devices then .error (.assertion "false")
  else do
    let entries ← labelEntries ps.ranks ps.devices ps.banks core.bankJson
    pure (.obj [("RankCount", .num ps.ranks), ("DeviceCount", .num ps.devices), ("BankCount", .num ps.banks),
      ("TotalEnergy", .num (core.total + interface.total)), ("CoreEnergy", core.toJson entries), ("InterfaceEnergy", interface.toJson)])

/-! ## Standard output -/

/-- `fmt::formatter<DRAMPower::energy_info_t>` (util.hpp 63-100). -/
def EnergyInfo.print (e : EnergyInfo) : List (String × Rat) :=
  [("ACT", e.eAct), ("PRE", e.ePre), ("BG_ACT", e.eBgAct), ("BG_PRE", e.eBgPre), ("RD", e.eRD), ("WR", e.eWR), ("RDA", e.eRDA), ("WRA", e.eWRA),
   ("PRE_RDA", e.ePreRDA), ("PRE_WRA", e.ePreWRA), ("REF_AB", e.eRefAB), ("REF_PB", e.eRefPB), ("REF_SB", e.eRefSB), ("REF_2B", e.eRef2B)]

/-- `fmt::formatter<DRAMPower::energy_t>` (util.hpp 19-40). -/
def Energy.print (e : Energy) : List (String × Rat) :=
  [("E_bg_act_shared", e.shared.bgActShared), ("E_PDNA", e.shared.pdnA), ("E_PDNP", e.shared.pdnP), ("E_sref", e.shared.sref),
   ("E_dsm", e.shared.dsm), ("E_refab", e.shared.refab)]

/-- `fmt::formatter<DRAMPower::interface_energy_info_t>` (util.hpp 42-61). -/
def InterfaceInfo.print (e : InterfaceInfo) : List (String × Rat) :=
  [("Controller: dynamicEnergy", e.controller.dynamic), ("Controller: staticEnergy", e.controller.static),
   ("DRAM: dynamicEnergy", e.dram.dynamic), ("DRAM: staticEnergy", e.dram.static), ("Total", e.total)]

/-- The lines of the standard output (run.cpp 224-240). -/
structure Printout where
  /-- "{},{},{} -> {}" -/
  banks : List ((Nat × Nat × Nat) × List (String × Rat))
  /-- "Cumulated bank energy with bg_act_shared" -/
  cumulated : List (String × Rat)
  /-- "Shared energy" -/
  shared : List (String × Rat)
  /-- "Interface Energy" -/
  interface : List (String × Rat)
  /-- "Total Energy" -/
  total : Rat
deriving DecidableEq, Repr

/-- The loops over ranks, devices and banks (run.cpp 225-236). -/
def printBanks (ps : PowerSpec) (core : Energy) : Except Err (List ((Nat × Nat × Nat) × List (String × Rat))) :=
  (List.range ps.ranks).foldlM (fun l r => (List.range ps.devices).foldlM (fun l d => (List.range ps.banks).foldlM (fun l b =>
    match core.bank[cliOffset ps.banks ps.devices r d b]? with
    | some e => .ok (l ++ [((r, d, b), e.print)])
    | none => .error (.ub "bank_energy[energy_offset + b]")) l) l) []

/-- What `stdoutResult` prints (run.cpp 213-242). -/
def printout (ps : PowerSpec) (core : Energy) (interface : InterfaceInfo) : Except Err Printout := do
  let banks ← printBanks ps core
  pure { banks, cumulated := core.aggregated.print, shared := core.print, interface := interface.print, total := core.total + interface.total }

end DRAMPower
