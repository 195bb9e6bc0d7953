import Verif.Model.Energy

/-!
# Components of an energy result

A name for every component, so that statements can speak about each of them.
-/

namespace DRAMPower.Spec

/-- The components of the energy of a bank. -/
inductive Component
  | act | pre | bgAct | bgPre | rd | wr | rda | wra | preRda | preWra | refAb | refPb | refSb | ref2b | refDb
deriving DecidableEq, Repr

/-- All of them. -/
def Component.all : List Component :=
  [.act, .pre, .bgAct, .bgPre, .rd, .wr, .rda, .wra, .preRda, .preWra, .refAb, .refPb, .refSb, .ref2b, .refDb]

/-- The value of a component. -/
def Component.of (e : EnergyInfo) : Component → Rat
  | .act => e.eAct
  | .pre => e.ePre
  | .bgAct => e.eBgAct
  | .bgPre => e.eBgPre
  | .rd => e.eRD
  | .wr => e.eWR
  | .rda => e.eRDA
  | .wra => e.eWRA
  | .preRda => e.ePreRDA
  | .preWra => e.ePreWRA
  | .refAb => e.eRefAB
  | .refPb => e.eRefPB
  | .refSb => e.eRefSB
  | .ref2b => e.eRef2B
  | .refDb => e.eRefDB

/-- The shared components. -/
inductive SharedComponent
  | bgActShared | pdnA | pdnP | sref | dsm | refab
deriving DecidableEq, Repr

/-- All of them. -/
def SharedComponent.all : List SharedComponent := [.bgActShared, .pdnA, .pdnP, .sref, .dsm, .refab]

/-- The value of a shared component. -/
def SharedComponent.of (e : SharedEnergy) : SharedComponent → Rat
  | .bgActShared => e.bgActShared
  | .pdnA => e.pdnA
  | .pdnP => e.pdnP
  | .sref => e.sref
  | .dsm => e.dsm
  | .refab => e.refab

/-- Component `c` of bank entry `i` of an energy result (zero beyond the end). -/
def entry (e : Energy) (i : Nat) (c : Component) : Rat := c.of (e.bank.getD i {})

/-- The energies the total is made of: all but the two that repeat a part of `E_pre`. -/
def Component.counted (c : Component) : Bool := c != .preRda && c != .preWra

/-- Sum of the counted components of a bank. -/
def bankTotal (e : EnergyInfo) : Rat := ((Component.all.filter Component.counted).map fun c => c.of e).sum

/-- Sum of all shared components. -/
def sharedTotal (e : SharedEnergy) : Rat := (SharedComponent.all.map fun c => c.of e).sum

end DRAMPower.Spec
