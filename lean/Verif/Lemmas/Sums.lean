import Verif.Lemmas.Energy

/-! # Sums over the banks -/

namespace DRAMPower
open Spec

theorem bankTotal_eq (e : EnergyInfo) : e.total = bankTotal e := by
  show _ = List.sum [e.eAct, e.ePre, e.eBgAct, e.eBgPre, e.eRD, e.eWR, e.eRDA, e.eWRA, e.eRefAB, e.eRefPB, e.eRefSB, e.eRef2B, e.eRefDB]
  simp only [EnergyInfo.total, List.sum_cons, List.sum_nil]
  ring

theorem sharedTotal_eq (e : SharedEnergy) : sharedTotal e = e.bgActShared + e.pdnA + e.pdnP + e.sref + e.dsm + e.refab := by
  show List.sum [e.bgActShared, e.pdnA, e.pdnP, e.sref, e.dsm, e.refab] = _
  simp only [List.sum_cons, List.sum_nil]
  ring

theorem bankTotal_foldl (l : List EnergyInfo) (a : EnergyInfo) :
    (l.foldl EnergyInfo.add a).total = a.total + (l.map bankTotal).sum := by
  induction l generalizing a with
  | nil => simp
  | cons x l ih =>
    rw [List.foldl_cons, ih, List.map_cons, List.sum_cons, ← bankTotal_eq]
    simp only [EnergyInfo.total, EnergyInfo.add]
    ring

/-- Sum of every component over the banks. -/
theorem foldl_of (l : List EnergyInfo) (a : EnergyInfo) (c : Component) :
    c.of (l.foldl EnergyInfo.add a) = c.of a + (l.map fun x => c.of x).sum := by
  induction l generalizing a with
  | nil => simp
  | cons x l ih => rw [List.foldl_cons, ih, Component.of_add, List.map_cons, List.sum_cons, ← add_assoc]

theorem Energy.total_eq (e : Energy) : e.total = (e.bank.map bankTotal).sum + sharedTotal e.shared := by
  rw [sharedTotal_eq]
  unfold Energy.total Energy.bankSum
  rw [bankTotal_foldl]
  simp only [EnergyInfo.total]
  ring

end DRAMPower
