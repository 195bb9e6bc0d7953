import Verif.Model.Interface
import Verif.Spec.Payload

/-!
What a row of a trace file describes: `timestamp, command, rank, bank group, bank, row, column, [data]`, written without the functions
that read it.
-/

namespace DRAMPower.Spec

/-- The decimal digits with their values. -/
def decimals : List (Char × Nat) :=
  [('0', 0), ('1', 1), ('2', 2), ('3', 3), ('4', 4), ('5', 5), ('6', 6), ('7', 7), ('8', 8), ('9', 9)]

/-- `s` is a sequence of digits, at least one, for the number `n`. -/
inductive Numeral : List Char → Nat → Prop
  | one {c : Char} {x : Nat} (h : (c, x) ∈ decimals) : Numeral [c] x
  | more {s : List Char} {n : Nat} {c : Char} {x : Nat} (hs : Numeral s n) (h : (c, x) ∈ decimals) : Numeral (s ++ [c]) (10 * n + x)

/-- The names of the commands in a trace file. -/
def traceNames : List (String × CmdType) :=
  [("NOP", .NOP), ("ACT", .ACT), ("PRE", .PRE), ("PREA", .PREA), ("PRESB", .PRESB), ("REFA", .REFA), ("REFB", .REFB),
   ("REFSB", .REFSB), ("REFP2B", .REFP2B), ("REFDB", .REFDB), ("RD", .RD), ("RDA", .RDA), ("WR", .WR), ("WRA", .WRA),
   ("PDEA", .PDEA), ("PDEP", .PDEP), ("PDXA", .PDXA), ("PDXP", .PDXP), ("SREFEN", .SREFEN), ("SREFEX", .SREFEX),
   ("DSMEN", .DSMEN), ("DSMEX", .DSMEX), ("END", .END_OF_SIMULATION)]

/-- The commands that carry data. -/
def carriesData : List CmdType := [.RD, .RDA, .WR, .WRA]

/-- The six numbers of a command. -/
def numbersOf (c : ICmd) : List Nat := [c.t, c.co.rank, c.co.bankGroup, c.co.bank, c.co.row, c.co.column]

/-- The payload of a command: the eighth field, for the commands that carry data. -/
def PayloadOf (rest : List (List Char)) (c : ICmd) : Prop :=
  if c.type ∈ carriesData then ∃ p l rest', rest = p :: rest' ∧ Payload p l ∧ c.data = some l ∧ c.nBits = 8 * l.length
  else c.data = none ∧ c.nBits = 0

/-- The row describes the command. Whatever follows the described fields is ignored. The two fields of LPDDR6 a trace cannot give have
their default values. -/
def Describes (row : List (List Char)) (c : ICmd) : Prop :=
  ∃ time name rank group bank r col rest, row = time :: name :: rank :: group :: bank :: r :: col :: rest ∧
    Numeral time c.t ∧ (String.ofList name, c.type) ∈ traceNames ∧ Numeral rank c.co.rank ∧ Numeral group c.co.bankGroup ∧
    Numeral bank c.co.bank ∧ Numeral r c.co.row ∧ Numeral col c.co.column ∧ PayloadOf rest c ∧
    c.dbank = (c.co.bank + 8) % 16 ∧ c.subChannel = 0

end DRAMPower.Spec
