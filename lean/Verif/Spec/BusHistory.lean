import Verif.Model.Bus
import Verif.Spec.Waveform

/-! # Histories of calls on a bus -/

namespace DRAMPower

/-- The call as seen by the reference waveform. -/
def BusOp.drive : BusOp → Spec.Drive
  | .load t data n => .send t data n
  | .disable t => .off t
  | .enable t => .on t

/-- Clock of a call. -/
def BusOp.time : BusOp → Nat
  | .load t _ _ => t
  | .disable t => t
  | .enable t => t

/-- Calls in non-decreasing order of time, none before the last one of the past. -/
def BusTimed (datarate lo : Nat) : List BusOp → Prop
  | [] => True
  | op :: ops => lo ≤ op.time * datarate ∧ BusTimed datarate (op.time * datarate) ops

/-- Beats at which a disabled bus is enabled, summed up. -/
def reEnabled (datarate : Nat) : Bool → List BusOp → Nat
  | _, [] => 0
  | false, .enable t :: ops => t * datarate + reEnabled datarate true ops
  | true, .disable _ :: ops => reEnabled datarate false ops
  | on, _ :: ops => reEnabled datarate on ops

/-- Bursts of at least one word, no switching off at time 0. -/
def BusOp.Proper (width : Nat) : BusOp → Prop
  | .load _ _ nBits => width ≤ nBits
  | .disable t => 0 < t
  | .enable _ => True

/-- Bursts only, each of at least one whole word, none starting before the beat `free` at which its predecessor has
ended, and every payload holding the bits it announces. -/
def NonOverlapping (width datarate : Nat) : Nat → List BusOp → Prop
  | _, [] => True
  | free, .load t data nBits :: ops =>
    free ≤ t * datarate ∧ width ≤ nBits ∧ nBits / width * width ≤ 8 * data.length ∧
      NonOverlapping width datarate (t * datarate + nBits / width) ops
  | _, _ => False

end DRAMPower
