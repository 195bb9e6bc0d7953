import Verif.Lemmas.Places
import Verif.Props.C86

/-!
# C87: rows, columns and bank groups show up in the figures of the command wires, and nowhere else

Two sessions consist of the same calls; only the row, the column, the bank group and the subchannel of the commands differ
(`Spec.otherPlace`). Bank and rank are the same.
-/

namespace DRAMPower
open Spec
variable {std : Std} {N : Nat} {ms : MemSpec} {sp : IfSpec} {o : SimObject std N} {us us' : List SimCall}

/-- The sessions are accepted alike, and answered alike but for the figures of the command wires. -/
theorem C87 (hs : List.Forall₂ (sameCall otherPlace) us us') :
    (replies ms sp o us').1.map withoutCommandBus = (replies ms sp o us).1.map withoutCommandBus ∧ (replies ms sp o us').2 = (replies ms sp o us).2 := by
  obtain ⟨h1, h2⟩ := (replies_together (p := True) (Q := SimObject.Beside) (M := fun r r' => withoutCommandBus r' = withoutCommandBus r)
    (fun _ _ _ _ hq hc => SimObject.Beside.step hq hc) hs (o := o) ⟨rfl, rfl, .rfl' _⟩).2 trivial
  exact ⟨map_of_forall₂ (f := withoutCommandBus) (fun _ _ h => h) h1, h2⟩

/-- The energy of the banks is the same. -/
theorem C87_energy (hs : List.Forall₂ (sameCall otherPlace) us us') {k : Nat} {s s' : SimStats}
    (hr : (replies ms sp o us).1[k]? = some (.stats s)) (hr' : (replies ms sp o us').1[k]? = some (.stats s')) (ps : PowerSpec) :
    PowerSpec.calcEnergy std ps s' = PowerSpec.calcEnergy std ps s := by
  have h := congrArg (fun l => l[k]?) (C87 (ms := ms) (sp := sp) (o := o) hs).1
  simp only [List.getElem?_map, hr, hr', Option.map_some, Option.some.injEq, withoutCommandBus, SimReply.stats.injEq] at h
  have : ∀ x : SimStats, PowerSpec.calcEnergy std ps x = PowerSpec.calcEnergy std ps { x with commandBus := {} } := fun x => rfl
  rw [this s', h, ← this s]

/-! ## The hypotheses can be met -/

/-- An activation and a read; `x` is the row, the column and the bank group. -/
def c87Session (std : Std) (x : Nat) : List SimCall :=
  let n := if std = .lpddr6 then 256 else 64
  [.command { t := 0, type := .ACT, co := { row := x, bankGroup := x } },
   .command { t := 20, type := .RD, nBits := n, data := some (List.replicate (n / 8) 0x35), co := { column := x, bankGroup := x } }, .window 40, .lastTime]

theorem c87Session_same (std : Std) (x y : Nat) : List.Forall₂ (sameCall otherPlace) (c87Session std x) (c87Session std y) := by
  unfold c87Session
  exact .cons (.command rfl) (.cons (.command rfl) (.cons (.other _) (.cons (.other _) .nil)))

/-- Two sessions of each standard that are accepted and answered differently. -/
example : ∀ std ∈ [Std.ddr4, .ddr5, .lpddr4, .lpddr5, .lpddr6],
    (c86Replies std (c16Spec std) (c87Session std 0)).2 = none ∧
    (c86Replies std (c16Spec std) (c87Session std 0)).1 ≠ (c86Replies std (c16Spec std) (c87Session std 85)).1 := by
  decide +kernel

/-- The bank itself matters: this device has only one. -/
example : (c86Replies .ddr5 (c16Spec .ddr5) [.command { t := 0, type := .ACT, co := { bank := 1 } }]).2 ≠
    (c86Replies .ddr5 (c16Spec .ddr5) [.command { t := 0, type := .ACT }]).2 := by decide +kernel

end DRAMPower
