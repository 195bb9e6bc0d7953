import Verif.Spec.PinWave
import Verif.Spec.Trace

/-!
# The inversion pins during a trace

One pin per byte of the data bus and direction. The waveform of a pin is read off the calls.
-/

namespace DRAMPower.Spec

/-- Inversion pins of a direction: DDR5 and LPDDR6 have none. -/
def inversionPins (std : Std) (sp : IfSpec) : Nat := if std = .ddr5 ∨ std = .lpddr6 then 0 else sp.devices * sp.bitWidth / 8

/-- Level of a pin while nothing is inverted, and between transfers: the pin of DDR4 is active low. -/
def plainLevel (std : Std) : PinState := if std = .ddr4 then .H else .L

/-- Level of a pin while its byte is inverted. -/
def markLevel (std : Std) : PinState := if std = .ddr4 then .L else .H

/-- A transfer during which the pins tell what is inverted: first beat, number of beats, and the flag of a beat and pin. -/
structure Marked where
  start : Nat
  beats : Nat
  flag : Nat → Nat → Bool

/-- The beat after the last one. -/
def Marked.stop (b : Marked) : Nat := b.start + b.beats

/-- A call that transfers known bytes in the direction while inversion is on and the bus is simulated bit by bit. -/
def markedOf (std : Std) (sp : IfSpec) (read : Bool) (m : Setting) : IfOp → Option Marked
  | .cmd c => match c.data with
    | some data => if direction c.type = some read ∧ m.inverting = true ∧ sp.toggling = none ∧ c.nBits ≠ 0 then
        some ⟨c.t * sp.dataRate, dataBeats std sp c, fun k p => flagged std m data (k * inversionPins std sp + p)⟩
      else none
    | none => none
  | _ => none

/-- All such calls of a trace that begins with a setting. -/
def marked (std : Std) (sp : IfSpec) (read : Bool) : Setting → List IfOp → List Marked
  | _, [] => []
  | m, op :: ops => (markedOf std sp read m op).toList ++ marked std sp read (m.after op) ops

/-- Waveform of a pin with given transfers. -/
def markLine (std : Std) (l : List Marked) (p : Nat) : PinLine := fun k =>
  if l.any fun b => decide (b.start ≤ k) && decide (k < b.stop) && b.flag (k - b.start) p then markLevel std else plainLevel std

/-- Figures of all pins of a direction for the first `beats` beats, added to `s`. -/
def markStats (std : Std) (sp : IfSpec) (l : List Marked) (beats : Nat) (s : BusStats) : BusStats :=
  (List.range (inversionPins std sp)).foldl (fun s p => s + (markLine std l p).stats (plainLevel std) beats) s

/-- Each transfer either follows its predecessor without a gap, or the predecessor ends with a beat of which nothing is inverted. -/
def Settling (n : Nat) : List Marked → Prop
  | a :: b :: l => (b.start ≤ a.stop ∨ ∀ p < n, a.flag (a.beats - 1) p = false) ∧ Settling n (b :: l)
  | _ => True

/-- No data is transferred after the end of the simulation. -/
def Ends (ops : List IfOp) : Prop :=
  ops.Pairwise fun a b => (∃ c, a = .cmd c ∧ c.type = .END_OF_SIMULATION) → ∀ c, b = .cmd c → direction c.type = none

/-- All payloads fill whole beats. -/
def WholeBeats (sp : IfSpec) (ops : List IfOp) : Prop := ∀ c, .cmd c ∈ ops → c.nBits % (sp.bitWidth * sp.devices) = 0

end DRAMPower.Spec
