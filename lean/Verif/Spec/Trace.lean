import Verif.Spec.Admissible
import Verif.Spec.Activity
import Verif.Spec.Burst
import Verif.Spec.Encoding
import Verif.Spec.Waveform

/-!
# What the wires of the interface carry during a trace

Read off the list of calls: which bursts are transferred, which levels a command puts on the command bus, which payloads
appear on the data bus.
-/

namespace DRAMPower.Spec

/-! ## Bursts -/

/-- The burst of a command in one direction: its time and its number of beats. -/
def burstOf (std : Std) (sp : IfSpec) (read : Bool) : IfOp → Option (Nat × Nat)
  | .cmd c => if direction c.type = some read then some (c.t, dataBeats std sp c) else none
  | _ => none

/-- All bursts of one direction. -/
def bursts (std : Std) (sp : IfSpec) (read : Bool) (ops : List IfOp) : List (Nat × Nat) := ops.filterMap (burstOf std sp read)

/-- The burst of a command in any direction. -/
def anyBurstOf (std : Std) (sp : IfSpec) : IfOp → Option (Nat × Nat)
  | .cmd c => if direction c.type ≠ none then some (c.t, dataBeats std sp c) else none
  | _ => none

/-- All bursts of both directions. -/
def anyBursts (std : Std) (sp : IfSpec) (ops : List IfOp) : List (Nat × Nat) := ops.filterMap (anyBurstOf std sp)

/-! ## The command bus -/

/-- The level a data command of `n` beats gives to the descriptors that select the place within a burst and the burst length:
reads start at the lowest column, writes mask it; longer bursts of DDR5, LPDDR4 and LPDDR5 cover one more column bit. -/
def forced (std : Std) (n : Nat) (read : Bool) (d : Desc) : Option Bool :=
  match std, d with
  | .ddr4, .C i => if i.val ≤ 1 then some (!read) else if i.val = 2 then some (!read && n != 4) else none
  | .ddr5, .C i => if i.val ≤ 1 then some true else if i.val = 2 then some (!read) else if i.val = 3 then some (!read && n != 8)
      else if i.val = 10 ∧ n = 32 then some false else none
  | .lpddr4, .C i => if i.val ≤ 3 then some false else if i.val = 4 ∧ n = 32 then some false else none
  | .lpddr4, .BL => some (n == 32)
  | .lpddr5, .C i => if i.val = 0 ∧ n = 32 then some false else none
  | _, _ => none

/-- The level of descriptors without a coordinate: wires that do not matter stay at the idle level of the bus. -/
def fixedLevel (std : Std) : Desc → Bool
  | .H | .BL | .CID _ => true
  | .V | .X => std = .ddr4 ∨ std = .ddr5
  | _ => false

/-- The level a command puts on a position of its pattern. -/
def sentLevel (std : Std) (sp : IfSpec) (c : ICmd) (d : Desc) : Bool :=
  match (direction c.type).bind fun read => forced std (dataBeats std sp c) read d with
  | some v => v
  | none => (named c.co d).getD (fixedLevel std d)

/-- The coordinates a command names, field by field. -/
def target6 (c : ICmd) : Coord6 where
  bank := c.co.bank
  dbank := c.dbank
  bankGroup := c.co.bankGroup
  rank := c.co.rank
  row := c.co.row
  column := c.co.column
  subChannel := c.subChannel

/-- The same for LPDDR6: bursts of 24 beats set `BL` and select one of two columns; no parity is sent. -/
def sentLevel6 (sp : IfSpec) (c : ICmd) (d : Desc6) : Bool :=
  match d with
  | .H => true
  | .BL => dataBeats .lpddr6 sp c == 24
  | .C i => c.co.column.testBit i && (i.val != 0 || dataBeats .lpddr6 sp c == 24)
  | d => (named6 sp.bankGroups (target6 c) d).getD false

/-- Wires of the command bus. -/
def commandWires : Std → Nat
  | .ddr4 => 27 | .ddr5 => 14 | .lpddr4 => 6 | .lpddr5 => 7 | .lpddr6 => 4

/-- Beats of the command bus per clock: LPDDR5 and LPDDR6 use both edges. -/
def commandRate : Std → Nat
  | .ddr4 | .ddr5 | .lpddr4 => 1
  | .lpddr5 | .lpddr6 => 2

/-- Levels of the command bus in beat `b` of a command: as many positions of the pattern as it has wires, in order, the first one
on the last wire. -/
def caWires (std : Std) (sp : IfSpec) (c : ICmd) (b : Nat) : Levels := fun j =>
  let k := b * commandWires std + (commandWires std - 1 - j)
  if std = .lpddr6 then ((lpddr6Patterns c.type)[k]?.map (sentLevel6 sp c)).getD false
  else ((patterns sp.arch std c.type)[k]?.map (sentLevel std sp c)).getD false

/-- The idle command bus. -/
def caIdleLevels (std : Std) : Levels := fun _ => std = .ddr4 ∨ std = .ddr5

/-- Effect of a call on the command bus. -/
def caDrive (std : Std) (sp : IfSpec) (line : Line) : IfOp → Line
  | .cmd c => fun k =>
    if c.t * commandRate std ≤ k ∧ k < c.t * commandRate std + caBeats std c.type then some (caWires std sp c (k - c.t * commandRate std)) else line k
  | _ => line

/-- The command bus during a trace. -/
def caLine (std : Std) (sp : IfSpec) (ops : List IfOp) : Line := ops.foldl (caDrive std sp) fun _ => some (caIdleLevels std)

/-! ## The data bus -/

/-- What has been set for the transfers to come: inversion, and the LPDDR6 metadata words of the first and the second burst. -/
structure Setting where
  inverting : Bool := false
  first : BitVec 16 := 0
  second : BitVec 16 := 0

/-- Effect of a call on the setting. -/
def Setting.after (m : Setting) : IfOp → Setting
  | .dbi e => { m with inverting := e }
  | .metaData a b => { m with first := a, second := b }
  | _ => m

/-- Bits that share an inversion flag. -/
def chunkBits (std : Std) : Nat := if std = .lpddr6 then 16 else 8

/-- Whether a chunk of a payload is inverted: inversion is on (DDR5 has none), and more than half of the chunk is at the level the
bus does not idle at. -/
def flagged (std : Std) (m : Setting) (data : List UInt8) (c : Nat) : Bool :=
  m.inverting && std != .ddr5 &&
    decide (chunkBits std < 2 * wires (chunkBits std) fun j => bitOf data (c * chunkBits std + j) == (std != .ddr4))

/-- Bit `i` of a payload after inversion. -/
def invertedBit (std : Std) (m : Setting) (data : List UInt8) (i : Nat) : Bool := bitOf data i != flagged std m data (i / chunkBits std)

/-- Everything an LPDDR6 burst carries. -/
def sources : List Source := (List.finRange 256).map .payload ++ (List.finRange 16).map .metadata ++ (List.finRange 16).map .inversion

/-- What is carried at a place of an LPDDR6 burst. -/
def carriedAt (m : Setting) (data : List UInt8) (burst place : Nat) : Bool :=
  match sources.find? fun s => s.place == place with
  | some (.payload j) => invertedBit .lpddr6 m data (256 * burst + j)
  | some (.metadata k) => (if burst = 0 then m.first else m.second).getLsbD k
  | some (.inversion k) => flagged .lpddr6 m data (16 * burst + k)
  | none => false

/-- Bits a payload occupies on the data bus. -/
def dataBits (std : Std) (c : ICmd) : Nat := if std = .lpddr6 then c.nBits + c.nBits / 256 * 32 else c.nBits

/-- Bit `i` of what is transferred: the payload, for LPDDR6 the places of the bursts, the last one first. -/
def dataBit (std : Std) (m : Setting) (c : ICmd) (data : List UInt8) (i : Nat) : Bool :=
  if std = .lpddr6 then carriedAt m data ((dataBits std c - 1 - i) / 288) ((dataBits std c - 1 - i) % 288) else invertedBit std m data i

/-- Levels of the data bus in beat `b` of a transfer: the last word goes first. -/
def dataWires (std : Std) (sp : IfSpec) (m : Setting) (c : ICmd) (data : List UInt8) (b : Nat) : Levels := fun j =>
  dataBit std m c data ((dataBeats std sp c - 1 - b) * (sp.bitWidth * sp.devices) + j)

/-- Effect of a call on the data bus of a direction: a transfer whose bytes are known is seen on the bus. -/
def dataDrive (std : Std) (sp : IfSpec) (read : Bool) (m : Setting) (line : Line) : IfOp → Line
  | .cmd c => match c.data with
    | some data => if direction c.type = some read then fun k =>
        if c.t * sp.dataRate ≤ k ∧ k < c.t * sp.dataRate + dataBeats std sp c then some (dataWires std sp m c data (k - c.t * sp.dataRate)) else line k
      else line
    | none => line
  | _ => line

/-- The data bus of a direction during a trace that begins with a setting. -/
def dataLineFrom (std : Std) (sp : IfSpec) (read : Bool) : Setting → Line → List IfOp → Line
  | _, line, [] => line
  | m, line, op :: ops => dataLineFrom std sp read (m.after op) (dataDrive std sp read m line op) ops

/-- The data bus of a direction during a trace; it idles at the level of the command bus. -/
def dataLine (std : Std) (sp : IfSpec) (read : Bool) (ops : List IfOp) : Line :=
  dataLineFrom std sp read {} (fun _ => some (caIdleLevels std)) ops

/-- Activity of a bus with given bursts: it transfers data during a burst and is idle otherwise. -/
def busy (rate : Nat) (bs : List (Nat × Nat)) : Activity := fun k =>
  some (bs.any fun b => decide (b.1 * rate ≤ k) && decide (k < b.1 * rate + b.2))

end DRAMPower.Spec
