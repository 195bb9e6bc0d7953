import Verif.Model.DataBus
import Verif.Spec.BusHistory
import Verif.Spec.Activity

/-!
# Which model accounts for which payload

The history of calls on the data bus is split, per direction, into what concerns the bit-accurate bus and what
concerns the toggling-rate model.
-/

namespace DRAMPower.Spec

/-- Direction of a transfer. -/
inductive Dir | read | write
deriving DecidableEq

/-- A transfer: time, number of bits, bytes if given. -/
structure Transfer where
  time : Nat
  nBits : Nat
  data : Option (List UInt8)
deriving DecidableEq, Repr

/-- The transfer a call makes in a direction. -/
def transferOf : Dir → DataOp → Option Transfer
  | .read, .read t n x => some ⟨t, n, x⟩
  | .write, .write t n x => some ⟨t, n, x⟩
  | _, _ => none

/-- The mode a call selects. -/
def switchOf : DataOp → Option DataBusMode
  | .toBus _ => some .bus
  | .toToggling _ => some .toggling
  | _ => none

/-- The mode after a history: that of the last switch. -/
def modeAfter (m : DataBusMode) (ops : List DataOp) : DataBusMode := (ops.reverse.findSome? switchOf).getD m

/-- All transfers in a direction. -/
def transfers (dir : Dir) (ops : List DataOp) : List Transfer := ops.filterMap (transferOf dir)

/-- The transfers in a direction made in mode `which`: those whose last earlier switch selected it. -/
def transfersIn (dir : Dir) (which m : DataBusMode) : List DataOp → List Transfer
  | [] => []
  | op :: ops =>
    match transferOf dir op with
    | some x => if m = which then x :: transfersIn dir which m ops else transfersIn dir which m ops
    | none => transfersIn dir which ((switchOf op).getD m) ops

/-- What the bus of a direction sees of a call: payloads in bus mode, and the switches. -/
def busCall (dir : Dir) (m : DataBusMode) (op : DataOp) : List BusOp :=
  match op, transferOf dir op with
  | .toBus t, _ => [.enable t]
  | .toToggling t, _ => [.disable t]
  | _, some ⟨t, n, some bytes⟩ => if m = .bus ∧ n ≠ 0 then [.load t bytes n] else []
  | _, _ => []

/-- What the bus of a direction sees of a history. -/
def busShare (dir : Dir) (m : DataBusMode) : List DataOp → List BusOp
  | [] => []
  | op :: ops => busCall dir m op ++ busShare dir ((switchOf op).getD m) ops

/-- What the toggling-rate model of a direction sees of a call: transfers in toggling-rate mode, the switches and rate
changes. -/
def toggleCall (dir : Dir) (m : DataBusMode) (op : DataOp) : List ToggleOp :=
  match op, transferOf dir op with
  | .toBus t, _ => [.disable t]
  | .toToggling t, _ => [.enable t]
  | .rates r w, _ => match dir with
    | .read => [.rates r.togglingRate r.dutyCycle r.idle]
    | .write => [.rates w.togglingRate w.dutyCycle w.idle]
  | _, some ⟨t, n, _⟩ => if m = .toggling then [.transfer t n] else []
  | _, _ => []

/-- What the toggling-rate model of a direction sees of a history. -/
def toggleShare (dir : Dir) (m : DataBusMode) : List DataOp → List ToggleOp
  | [] => []
  | op :: ops => toggleCall dir m op ++ toggleShare dir ((switchOf op).getD m) ops

/-- The payload of a bus call. -/
def loadOf : BusOp → Option Transfer
  | .load t bytes n => some ⟨t, n, some bytes⟩
  | _ => none

/-- The transfer of a toggling-rate call. -/
def bitsOf : ToggleOp → Option (Nat × Nat)
  | .transfer t n => some (t, n)
  | _ => none

/-- A transfer with bytes. -/
def Transfer.hasData (x : Transfer) : Bool := x.data.isSome && x.nBits != 0

/-- Clock of a call, if it has one. -/
def timeOf : DataOp → Option Nat
  | .read t _ _ => some t
  | .write t _ _ => some t
  | .toBus t => some t
  | .toToggling t => some t
  | .rates .. => none

/-- Calls in non-decreasing order of time. -/
def DataTimed : Nat → List DataOp → Prop
  | _, [] => True
  | lo, op :: ops => match timeOf op with
    | some t => lo ≤ t ∧ DataTimed t ops
    | none => DataTimed lo ops

end DRAMPower.Spec
