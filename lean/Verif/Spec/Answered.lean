import Verif.Model.SimObject
import Verif.Spec.Inverting

/-!
# When a query may expect an answer

The specification reads the calls of a session only.
-/

namespace DRAMPower.Spec

/-- The time given with a call. -/
def callTime : SimCall → Option Nat
  | .command c | .coreCommand c | .iface (.cmd c) => some c.t
  | .iface (.enable t) | .iface (.disable t) => some t
  | _ => none

/-- The query for time `t` is not about the past of the session. -/
def Covers (t : Nat) (us : List SimCall) : Prop := ∀ u ∈ us, ∀ x, callTime u = some x → x ≤ t

instance (t : Nat) (us : List SimCall) : Decidable (Covers t us) :=
  decidable_of_iff (us.all fun u => match callTime u with | some x => decide (x ≤ t) | none => true) (by
    rw [List.all_eq_true]
    unfold Covers
    constructor
    · intro h u hu x hx
      have := h u hu
      rw [hx] at this
      exact of_decide_eq_true this
    · intro h u hu
      cases hx : callTime u with
      | none => rfl
      | some x => exact decide_eq_true (h u hu x hx))

/-- The call switches the data bus inversion on. -/
def invertsData : SimCall → Prop
  | .setDBI true | .iface (.dbi true) => True
  | _ => False

instance (u : SimCall) : Decidable (invertsData u) := by unfold invertsData; split <;> infer_instance

/-- The inversion lines are driven at most twice in a clock cycle, or not at all: the standard has none, the data is not given bit by bit, or the
inversion stays off. -/
def SlowLines (std : Std) (sp : IfSpec) (us : List SimCall) : Prop :=
  sp.dataRate ≤ 2 ∨ lineRoom std = none ∨ sp.toggling ≠ none ∨ ∀ u ∈ us, ¬ invertsData u

/-- Every write to a memory whose data clock always runs fills at least one beat of the data bus. (Memories that start a strobe or a clock with every
transfer refuse shorter ones.) -/
def FillsBeats (std : Std) (sp : IfSpec) (us : List SimCall) : Prop :=
  (std = .lpddr5 ∨ std = .lpddr6) → sp.wckAlwaysOn = true → ∀ c, (.command c ∈ us ∨ .iface (.cmd c) ∈ us) → direction c.type = some false →
    c.nBits ≠ 0 → 0 < dataBeats std sp c

end DRAMPower.Spec
