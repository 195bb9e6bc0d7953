import Verif.Lemmas.Copies
import Verif.Props.C56

/-!
# C58: simulators do not influence each other

`Spec.histories` lists the calls each simulator of a program has received, a copy also those of its source before it was copied (an assignment makes a
copy);
`Spec.replyAlone` is the reply of a new simulator after such calls.
-/

namespace DRAMPower
open Spec

/-- The property for the programs `p` admits: in every program (constructions, copies, assignments, destructions and calls, in any
order), the next call on
any existing simulator is answered as a simulator on its own would answer it after the same calls. -/
def C58_statement (std : Std) (p : List WorldOp → Prop) : Prop :=
  ∀ (N : Nat) (ms : MemSpec) (sp : IfSpec) (ops : List WorldOp) (w : World std N) (j : Nat) (h : List SimCall) (u : SimCall),
    World.run ms sp {} ops = .ok w → (histories ops)[j]? = some (some h) → (∀ k v, .call k v ∈ ops ++ [.call j u] → callable std v) →
    p (ops ++ [.call j u]) → (∀ m, replyAlone std N ms sp h u ≠ .error (.ub m)) →
    (w.step ms sp (.call j u)).map (·.2) = replyAlone std N ms sp h u

theorem c58_go {std : Std} {c : Bool} {p : List WorldOp → Prop} (hp : ∀ ops, p ops → (∀ k v, .call k v ∈ ops → callable std v) → ∀ op ∈ ops, Fits58 std c op) :
    C58_statement std p := by
  intro N ms sp ops w j h u hr hh hc ho _
  have hf := hp _ ho hc
  have x0 : Inv58 ms sp c [] ({} : World std N) := ⟨rfl, fun j _ => by simp [World.at?], fun j h hj => by simp at hj⟩
  have x := inv58_run x0 (fun op hop => hf op (List.mem_append_left _ hop)) hr
  obtain ⟨s, m, owner, h1, h2⟩ := x.live j h (by
    show ((histories ops)[j]?).join = _
    rw [hh]
    rfl)
  have hcall := h2.call h1 (hf _ (List.mem_append_right _ List.mem_cons_self))
  obtain ⟨o0, k1, k2⟩ := h2.alone
  rw [World.step, hcall]
  unfold replyAlone
  rw [k1]
  dsimp only
  rw [k2]
  dsimp only
  cases SimObject.step ms sp ⟨m, s.sim⟩ u <;> rfl

/-- Simulators constructed separately share nothing, whatever is called: there is no hidden common state. -/
theorem C58_separate_partial (std : Std) : C58_statement std noCopies :=
  c58_go (c := true) fun ops ho _ op hop => by
    cases op with
    | copy j => exact absurd hop (ho.1 j)
    | assign b j k => exact absurd hop (ho.2 b j k)
    | new => trivial
    | destroy j => trivial
    | call j u => exact nofun

/-- Copies are independent of their source, and survive it, if no call concerns inversion or metadata. -/
theorem C58_copies_partial (std : Std) : C58_statement std (plainProgram std) :=
  c58_go (c := false) fun ops ho _ op hop => by
    cases op with
    | copy j => rfl
    | assign b j k => rfl
    | new => trivial
    | destroy j => trivial
    | call j u => exact fun _ => ho j u hop

/-- DDR5, which has no extensions: the property holds for all programs. -/
theorem C58_ddr5 : C58_statement .ddr5 fun _ => True :=
  c58_go (c := false) fun ops _ hc op hop => by
    cases op with
    | copy j => rfl
    | assign b j k => rfl
    | new => trivial
    | destroy j => trivial
    | call j u =>
      intro _
      have := hc j u hop
      cases u with
      | iface op =>
        cases op with
        | dbi e => exact absurd rfl this
        | _ => trivial
      | setDBI e => rfl
      | setMetaData a b => exact nofun
      | getMetaData => exact nofun
      | _ => trivial

/-! ## Violations -/

/-- The last call of a program is answered differently than on its own. -/
def c58Differs (std : Std) (ms : MemSpec) (sp : IfSpec) (ops : List WorldOp) (j : Nat) (u : SimCall) : Bool :=
  match World.run (N := 16) (std := std) ms sp {} ops, (histories ops)[j]? with
  | .ok w, some (some h) =>
    (match replyAlone std 16 ms sp h u with | .error (.ub _) => false | _ => true) &&
      decide ((w.step ms sp (.call j u)).map (·.2) ≠ replyAlone std 16 ms sp h u) &&
      (ops ++ [WorldOp.call j u]).all fun op => match op with | .call _ v => decide (callable std v) | _ => true
  | _, _ => false

theorem c58_refute {std : Std} {ms : MemSpec} {sp : IfSpec} {ops : List WorldOp} {j : Nat} {u : SimCall}
    (h : c58Differs std ms sp ops j u = true) : ¬ C58_statement std fun _ => True := by
  intro hc
  unfold c58Differs at h
  split at h
  · rename_i w g h1 h2
    simp only [Bool.and_eq_true, decide_eq_true_eq, List.all_eq_true] at h
    refine h.1.2 (hc 16 ms sp ops w j g u h1 h2 (fun k v hv => by simpa using h.2 _ hv) trivial fun m hm => ?_)
    have := h.1.1
    rw [hm] at this
    cases this
  · cases h

/-- Turning inversion on in a copy: the source reports it as on (and it is on in the source, see the next theorem). -/
theorem C58_violation_source (std : Std) (h : std = .ddr4 ∨ std = .lpddr4 ∨ std = .lpddr5 ∨ std = .lpddr6) : ¬ C58_statement std fun _ => True := by
  rcases h with h | h | h | h <;> subst h
  · exact c58_refute (ms := c56Mem) (sp := c16Spec .ddr4) (ops := [.new, .copy 0, .call 1 (.setDBI true)]) (j := 0) (u := .isEnabled) (by decide +kernel)
  · exact c58_refute (ms := c56Mem) (sp := c16Spec .lpddr4) (ops := [.new, .copy 0, .call 1 (.setDBI true)]) (j := 0) (u := .isEnabled) (by decide +kernel)
  · exact c58_refute (ms := c56Mem) (sp := c16Spec .lpddr5) (ops := [.new, .copy 0, .call 1 (.setDBI true)]) (j := 0) (u := .isEnabled) (by decide +kernel)
  · exact c58_refute (ms := c56Mem) (sp := c16Spec .lpddr6) (ops := [.new, .copy 0, .call 1 (.setDBI true)]) (j := 0) (u := .isEnabled) (by decide +kernel)

/-- And the copy, which reports "on", transfers its burst plain. -/
theorem C58_violation_copy (std : Std) (h : std = .ddr4 ∨ std = .lpddr4 ∨ std = .lpddr5) : ¬ C58_statement std fun _ => True := by
  rcases h with h | h | h <;> subst h
  · exact c58_refute (ms := c56Mem) (sp := c16Spec .ddr4) (ops := [.new, .copy 0, .call 1 (.setDBI true), .call 1 (c56Data .ddr4 10 .WR 0)])
      (j := 1) (u := .window 40) (by decide +kernel)
  · exact c58_refute (ms := c56Mem) (sp := c16Spec .lpddr4) (ops := [.new, .copy 0, .call 1 (.setDBI true), .call 1 (c56Data .lpddr4 10 .WR 0xff)])
      (j := 1) (u := .window 40) (by decide +kernel)
  · exact c58_refute (ms := c56Mem) (sp := c16Spec .lpddr5) (ops := [.new, .copy 0, .call 1 (.setDBI true), .call 1 (c56Data .lpddr5 10 .WR 0xff)])
      (j := 1) (u := .window 40) (by decide +kernel)

/-- Inversion is turned on before copying: bursts of the copy show up on the inversion pins of the source. -/
theorem C58_violation_pins (std : Std) (h : std = .ddr4 ∨ std = .lpddr4 ∨ std = .lpddr5) : ¬ C58_statement std fun _ => True := by
  rcases h with h | h | h <;> subst h
  · exact c58_refute (ms := c56Mem) (sp := c16Spec .ddr4) (ops := [.new, .call 0 (.setDBI true), .copy 0, .call 1 (c56Data .ddr4 10 .WR 0)])
      (j := 0) (u := .window 40) (by decide +kernel)
  · exact c58_refute (ms := c56Mem) (sp := c16Spec .lpddr4) (ops := [.new, .call 0 (.setDBI true), .copy 0, .call 1 (c56Data .lpddr4 10 .WR 0xff)])
      (j := 0) (u := .window 40) (by decide +kernel)
  · exact c58_refute (ms := c56Mem) (sp := c16Spec .lpddr5) (ops := [.new, .call 0 (.setDBI true), .copy 0, .call 1 (c56Data .lpddr5 10 .WR 0xff)])
      (j := 0) (u := .window 40) (by decide +kernel)

/-- The same after an assignment: LPDDR6 by copying, the others by moving (turning inversion on then calls a function of the simulator moved
from). -/
theorem C58_violation_assign (std : Std) (h : std = .ddr4 ∨ std = .lpddr4 ∨ std = .lpddr5 ∨ std = .lpddr6) : ¬ C58_statement std fun _ => True := by
  rcases h with h | h | h | h <;> subst h
  · exact c58_refute (ms := c56Mem) (sp := c16Spec .ddr4) (ops := [.new, .new, .assign true 0 1]) (j := 0) (u := .setDBI true) (by decide +kernel)
  · exact c58_refute (ms := c56Mem) (sp := c16Spec .lpddr4) (ops := [.new, .new, .assign true 0 1]) (j := 0) (u := .setDBI true) (by decide +kernel)
  · exact c58_refute (ms := c56Mem) (sp := c16Spec .lpddr5) (ops := [.new, .new, .assign true 0 1]) (j := 0) (u := .setDBI true) (by decide +kernel)
  · exact c58_refute (ms := c56Mem) (sp := c16Spec .lpddr6) (ops := [.new, .new, .assign false 0 1, .call 0 (.setDBI true)]) (j := 1) (u := .isEnabled)
      (by decide +kernel)

/-- The outcome of a call at the end of a program. -/
def c58Outcome (std : Std) (ms : MemSpec) (sp : IfSpec) (ops : List WorldOp) (j : Nat) (u : SimCall) : Except Err SimReply := do
  let w ← World.run (N := 16) (std := std) ms sp {} ops
  (w.step ms sp (.call j u)).map (·.2)

/-- A simulator that has been copied or moved and whose source is gone (as in a growing `std::vector`): turning inversion on is undefined
behaviour; for LPDDR6 so is asking for the metadata. On its own it would be answered. -/
theorem C58_violation_destroyed :
    (∀ std ∈ [Std.ddr4, .lpddr4, .lpddr5, .lpddr6],
      c58Outcome std c56Mem (c16Spec std) [.new, .copy 0, .destroy 0] 1 (.setDBI true) =
        .error (.ub "the simulator of the extension has been destroyed") ∧
      replyAlone std 16 c56Mem (c16Spec std) [] (.setDBI true) = .ok (.flag (some true))) ∧
    c58Outcome .lpddr6 c56Mem (c16Spec .lpddr6) [.new, .copy 0, .destroy 0] 1 .getMetaData =
      .error (.ub "the simulator of the extension has been destroyed") ∧
    replyAlone .lpddr6 16 c56Mem (c16Spec .lpddr6) [] .getMetaData = .ok (.words (some (0, 0))) := by
  decide +kernel

/-! ## The hypotheses can be met -/

/-- Two simulators with different traffic, one of them with inversion; the first is destroyed. -/
def c58Two (std : Std) : List WorldOp :=
  [.new, .new, .call 0 (.command { t := 0, type := .ACT }), .call 1 (.setDBI true), .call 1 (c56Data std 10 .WR 0x0f), .destroy 0]

example (std : Std) : noCopies (c58Two std) := ⟨fun j => by simp [c58Two], fun b j k => by simp [c58Two]⟩

example : ∀ std ∈ [Std.ddr4, .ddr5, .lpddr4, .lpddr5],
    c58Outcome std c56Mem (c16Spec std) (c58Two std) 1 .lastTime = .ok (.time 10) ∧
    (histories (c58Two std)).map (·.map List.length) = [none, some 2] := by
  decide +kernel

/-- A simulator that is assigned to, by copying or moving, after traffic of its own. -/
def c58Assign (std : Std) (moved : Bool) : List WorldOp :=
  [.new, .new, .call 0 (.command { t := 7, type := .ACT }), .call 1 (.command { t := 0, type := .ACT }), .assign moved 0 1,
   .call 0 (c56Data std 10 .WR 0x0f)]

example (std : Std) (moved : Bool) : plainProgram std (c58Assign std moved) := by
  intro j u h
  simp only [c58Assign, c56Data, c16Data, List.mem_cons, List.not_mem_nil, or_false, false_or, reduceCtorEq, WorldOp.call.injEq] at h
  rcases h with ⟨_, rfl⟩ | ⟨_, rfl⟩ | ⟨_, rfl⟩ <;> trivial

example : (∀ std ∈ [Std.ddr4, .ddr5, .lpddr4, .lpddr5, .lpddr6],
    c58Outcome std c56Mem (c16Spec std) (c58Assign std true) 0 .lastTime = .ok (.time 10) ∧
    (histories (c58Assign std true)).map (·.map List.length) = [some 2, none]) ∧
    ∀ std ∈ [Std.ddr5, .lpddr6],
    c58Outcome std c56Mem (c16Spec std) (c58Assign std false) 1 .lastTime = .ok (.time 0) ∧
    (histories (c58Assign std false)).map (·.map List.length) = [some 2, some 1] := by
  decide +kernel

/-- A copy that goes its own way and survives its source. -/
def c58Copy (std : Std) : List WorldOp :=
  [.new, .call 0 (.command { t := 0, type := .ACT }), .copy 0, .call 0 (.command { t := 30, type := .PRE }), .call 1 (c56Data std 10 .WR 0x0f),
   .call 1 (.command { t := 50, type := .PRE }), .destroy 0]

example (std : Std) : plainProgram std (c58Copy std) := by
  intro j u h
  simp only [c58Copy, c56Data, c16Data, List.mem_cons, List.not_mem_nil, or_false, false_or, reduceCtorEq, WorldOp.call.injEq] at h
  rcases h with ⟨_, rfl⟩ | ⟨_, rfl⟩ | ⟨_, rfl⟩ | ⟨_, rfl⟩ <;> trivial

example : ∀ std ∈ [Std.ddr4, .ddr5, .lpddr4, .lpddr5, .lpddr6],
    c58Outcome std c56Mem (c16Spec std) (c58Copy std) 1 .lastTime = .ok (.time 50) ∧
    (histories (c58Copy std)).map (·.map List.length) = [none, some 3] := by
  decide +kernel

end DRAMPower
