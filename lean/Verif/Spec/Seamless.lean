import Verif.Model.Interface

/-!
# Which data transfers follow each other without a gap

The specification reads the list of calls only. A transfer occupies the data bus from its command for as many clock
cycles as its beats take.
-/

namespace DRAMPower.Spec

/-- Start and end of a transfer in clock cycles. -/
structure Span where
  start : Nat
  stop : Nat
deriving DecidableEq, Repr

/-- Whether a command transfers data, and in which direction (`true` for reads). -/
def direction : CmdType → Option Bool
  | .RD | .RDA => some true
  | .WR | .WRA => some false
  | _ => none

/-- Beats of a data command: its payload, or a burst of the standard length when only toggling rates are used; without
payload nothing is transferred on a bit-accurate bus. -/
def burstBeats (sp : IfSpec) (c : ICmd) : Nat :=
  if c.nBits = 0 then (if sp.toggling.isSome then sp.burstLength else 0) else c.nBits / (sp.bitWidth * sp.devices)

/-- The transfer of a command in one direction on one rank. -/
def spanOf (sp : IfSpec) (read : Bool) (rank : Nat) : IfOp → Option Span
  | .cmd c => if direction c.type = some read ∧ c.co.rank = rank then
      some { start := c.t, stop := c.t + burstBeats sp c / sp.dataRate } else none
  | _ => none

/-- All transfers in one direction on one rank, in order. -/
def spans (sp : IfSpec) (read : Bool) (rank : Nat) (ops : List IfOp) : List Span := ops.filterMap (spanOf sp read rank)

/-- Number of neighbours with property `p`. -/
def neighbours (p : Span → Span → Bool) : List Span → Nat
  | a :: b :: l => (if p a b then 1 else 0) + neighbours p (b :: l)
  | _ => 0

/-- `b` starts when `a` ends. -/
def gapless (a b : Span) : Bool := b.start == a.stop

/-- `b` starts after `a` ends, but the gap is shorter than `minGap` (pre- and postamble). -/
def shortGap (minGap : Nat) (a b : Span) : Bool := a.stop < b.start && b.start < a.stop + minGap

end DRAMPower.Spec
