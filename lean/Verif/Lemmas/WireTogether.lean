import Verif.Lemmas.Together
import Verif.Lemmas.InterfaceEnergy

/-!
# Two interface energies side by side
-/

namespace DRAMPower
open Spec

/-- A relation that holds for sums. -/
structure Additive (R : InterfaceEnergy → InterfaceEnergy → Prop) : Prop where
  zero : R {} {}
  add : ∀ {a b a' b' : InterfaceEnergy}, R a b → R a' b' → R (a.add a') (b.add b')

/-- The termination flag the calculation takes. -/
def Spec.Group.flag (std : Std) (w : Wiring) : Group → Bool
  | .readRate | .writeRate => WireSpec.togglingFlag std w
  | _ => w.termination

/-- The energy of a group of wires. -/
def Spec.Group.pair (std : Std) (s : WireSpec) (st : SimStats) (g : Group) : Except Err InterfaceEnergy :=
  s.pair std (g.wiring s.imp) (g.flag std (g.wiring s.imp)) (g.figures st) (g.period s) (g.rate std s)

section
variable {std : Std} {p : Prop} {RC RD : InterfaceEnergy → InterfaceEnergy → Prop} {s s' : WireSpec} {st st' : SimStats}

/-- Both sides. -/
def Sides (RC RD : InterfaceEnergy → InterfaceEnergy → Prop) (i j : InterfaceInfo) : Prop := RC i.controller j.controller ∧ RD i.dram j.dram

theorem Sides.add (hC : Additive RC) (hD : Additive RD) {a b a' b' : InterfaceInfo} (h : Sides RC RD a b) (h' : Sides RC RD a' b') :
    Sides RC RD (a.add a') (b.add b') := ⟨hC.add h.1 h'.1, hD.add h.2 h'.2⟩

/-- The calculation, if the energies of all groups (and of the ambles of DDR4) are related. -/
theorem energy_together (hC : Additive RC) (hD : Additive RD)
    (hc : ∀ g ∈ groups std, g.side = .controller → Together p RC (g.pair std s st) (g.pair std s' st'))
    (hd : ∀ g ∈ groups std, g.side = .dram → Together p RD (g.pair std s st) (g.pair std s' st'))
    (hw : std = .ddr4 → Together p RC (s.ambleEnergy st s.imp.wdqs false) (s'.ambleEnergy st' s'.imp.wdqs false))
    (hr : std = .ddr4 → Together p RD (s.ambleEnergy st s.imp.rdqs true) (s'.ambleEnergy st' s'.imp.rdqs true)) :
    Together p (Sides RC RD) (s.calculateEnergy std st) (s'.calculateEnergy std st') := by
  have clock : Together p (Sides RC RD) (s.clockEnergy std st) (s'.clockEnergy std st') := by
    unfold WireSpec.clockEnergy
    refine Together.bind (hc .clock (by cases std <;> decide) rfl) fun a b h => ?_
    split
    · rename_i e
      refine Together.bind (hc .dataClock (by rcases e with rfl | rfl <;> decide) rfl) fun a' b' h' => ?_
      exact Together.ok ⟨hC.add h h', hD.zero⟩
    · exact Together.ok ⟨h, hD.zero⟩
  have dqs : Together p (Sides RC RD) (s.dqsEnergy std st) (s'.dqsEnergy std st') := by
    have h1 := hd .readStrobe (by cases std <;> decide) rfl
    unfold WireSpec.dqsEnergy
    cases std
    case ddr4 =>
      refine Together.bind h1 fun a b h => ?_
      rw [if_neg (by decide), if_neg (by decide)]
      refine Together.bind (hc .writeStrobe (by decide) rfl) fun a' b' h' => ?_
      rw [if_pos rfl, if_pos rfl]
      refine Together.bind (hw rfl) fun x y hx => Together.bind (hr rfl) fun x' y' hx' => ?_
      exact Together.ok ⟨hC.add hx h', hD.add hx' h⟩
    case ddr5 | lpddr4 =>
      simp only [if_true, if_false, reduceCtorEq, or_self]
      refine Together.bind h1 fun a b h => ?_
      refine Together.bind (hc .writeStrobe (by decide) rfl) fun a' b' h' => ?_
      exact Together.ok ⟨h', h⟩
    all_goals
      refine Together.bind h1 fun a b h => ?_
      rw [if_pos (by decide), if_pos (by decide)]
      exact Together.ok ⟨hC.zero, h⟩
  have toggling : Together p (Sides RC RD) (s.togglingEnergy std st) (s'.togglingEnergy std st') := by
    unfold WireSpec.togglingEnergy
    refine Together.bind (hc .writeRate (by cases std <;> decide) rfl) fun a b h => ?_
    refine Together.bind (hd .readRate (by cases std <;> decide) rfl) fun a' b' h' => ?_
    exact Together.ok ⟨h, h'⟩
  have dq : Together p (Sides RC RD) (s.dqEnergy std st) (s'.dqEnergy std st') := by
    unfold WireSpec.dqEnergy
    refine Together.bind (hd .readData (by cases std <;> decide) rfl) fun a b h => ?_
    refine Together.bind (hc .writeData (by cases std <;> decide) rfl) fun a' b' h' => ?_
    exact Together.ok ⟨h', h⟩
  have ca : Together p (Sides RC RD) (s.caEnergy std st) (s'.caEnergy std st') := by
    have h1 := hc .command (by cases std <;> decide) rfl
    unfold WireSpec.caEnergy
    cases std <;> exact Together.bind h1 fun a b h => Together.ok ⟨h, hD.zero⟩
  unfold WireSpec.calculateEnergy
  have add := @Sides.add RC RD hC hD
  refine Together.bind clock fun a b h1 => Together.bind dqs fun a2 b2 h2 => Together.bind toggling fun a3 b3 h3 =>
    Together.bind dq fun a4 b4 h4 => Together.bind ca fun a5 b5 h5 => ?_
  have h6 := add (add (add (add (add (show Sides RC RD {} {} from ⟨hC.zero, hD.zero⟩) h1) h2) h3) h4) h5
  by_cases e : std = .ddr5 ∨ std = .lpddr6
  · rw [if_pos e, if_pos e]
    exact Together.ok h6
  · rw [if_neg e, if_neg e]
    refine Together.bind (R := Sides RC RD) ?_ fun a b h => Together.ok (add h6 h)
    unfold WireSpec.dbiEnergy
    refine Together.bind (hd .readInv (by cases std <;> first | decide | exact absurd e (by decide)) rfl) fun a b h => ?_
    refine Together.bind (hc .writeInv (by cases std <;> first | decide | exact absurd e (by decide)) rfl) fun a' b' h' => ?_
    exact Together.ok ⟨h', h⟩

end

end DRAMPower
