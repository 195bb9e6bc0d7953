import Verif.Lemmas.ContentsRun
import Verif.Props.C56

/-!
# C86: what is transferred shows up in the figures of the wires that carry it, and nowhere else

Two sessions consist of the same calls; only the bytes of the payloads differ (`Spec.otherBytes`). `Spec.replies` is what the users see.
-/

namespace DRAMPower
open Spec
variable {std : Std} {N : Nat} {ms : MemSpec} {sp : IfSpec} {o : SimObject std N} {us us' : List SimCall}

/-- The full claim: both sessions are answered alike, but for the figures of the data wires and the inversion wires, and end alike. -/
def C86_statement (std : Std) : Prop :=
  ∀ (N : Nat) (ms : MemSpec) (sp : IfSpec) (o : SimObject std N) (us us' : List SimCall), SimObject.init std N ms sp = .ok o →
    List.Forall₂ (sameCall otherBytes) us us' →
    (replies ms sp o us').1.map withoutData = (replies ms sp o us).1.map withoutData ∧ (replies ms sp o us').2 = (replies ms sp o us).2

theorem withoutData_twin {p : Prop} {r r' : SimReply} (h : ReplyTwin p sp r r') : withoutData r' = withoutData r := by
  cases r <;> cases r' <;> first | (cases h; done) | (cases h; rfl) | exact congrArg SimReply.stats h.hidden

theorem withoutDataBus_twin {r r' : SimReply} (h : ReplyTwin True sp r r') : withoutDataBus r' = withoutDataBus r := by
  cases r with
  | stats a =>
    cases r' with
    | stats b =>
      obtain ⟨h1, h2, _⟩ := h
      obtain ⟨p1, p2⟩ := h2 trivial
      cases a
      cases b
      simp only [SimStats.mk.injEq] at h1 p1 p2
      simp only [withoutDataBus, SimReply.stats.injEq, SimStats.mk.injEq, p1, p2, h1, and_self]
    | _ => cases h
  | _ => cases r' <;> first | (cases h; done) | (cases h; rfl)

theorem map_of_forall₂ {α β : Type} {R : α → α → Prop} {f : α → β} (hf : ∀ a b, R a b → f b = f a) {l l' : List α} (h : List.Forall₂ R l l') :
    l'.map f = l.map f := by
  induction h with
  | nil => rfl
  | cons h _ ih => rw [List.map_cons, List.map_cons, hf _ _ h, ih]

/-- As long as both sessions go on, corresponding replies agree in everything but the figures of the data wires and the inversion wires. -/
theorem C86_figures (h0 : SimObject.init std N ms sp = .ok o) (hs : List.Forall₂ (sameCall otherBytes) us us') {k : Nat} {r r' : SimReply}
    (hr : (replies ms sp o us).1[k]? = some r) (hr' : (replies ms sp o us').1[k]? = some r') : withoutData r' = withoutData r :=
  withoutData_twin ((replies_together (p := False) (Q := SimObject.Twin False sp)
    (fun _ _ _ _ hq hc => SimObject.Twin.step hq hc fun hp => absurd hp (by simp)) hs (.init h0)).1 k r r' hr hr')

/-- The energy of the banks is computed from figures that do not depend on the payloads. -/
theorem C86_energy (h0 : SimObject.init std N ms sp = .ok o) (hs : List.Forall₂ (sameCall otherBytes) us us') {k : Nat} {s s' : SimStats}
    (hr : (replies ms sp o us).1[k]? = some (.stats s)) (hr' : (replies ms sp o us').1[k]? = some (.stats s')) (ps : PowerSpec) :
    PowerSpec.calcEnergy std ps s' = PowerSpec.calcEnergy std ps s := by
  have h := C86_figures h0 hs hr hr'
  simp only [withoutData, SimReply.stats.injEq] at h
  have : ∀ x : SimStats, PowerSpec.calcEnergy std ps x =
      PowerSpec.calcEnergy std ps { x with readBus := {}, writeBus := {}, readDBI := {}, writeDBI := {} } := fun x => rfl
  rw [this s', h, ← this s]

theorem strict_replies (h0 : SimObject.init std N ms sp = .ok o) (hs : List.Forall₂ (sameCall otherBytes) us us')
    (hq : std = .ddr5 ∨ std = .lpddr6 ∨ sp.toggling.isSome ∨ ∀ u ∈ us, turnsOn u = false) :
    List.Forall₂ (ReplyTwin True sp) (replies ms sp o us).1 (replies ms sp o us').1 ∧ (replies ms sp o us').2 = (replies ms sp o us).2 := by
  have hs' : List.Forall₂ (fun u u' => sameCall otherBytes u u' ∧ (turnsOn u = true → std = .lpddr6 ∨ std = .ddr5 ∨ sp.toggling.isSome)) us us' := by
    by_cases hc : std = .lpddr6 ∨ std = .ddr5 ∨ sp.toggling.isSome
    · exact hs.imp fun u u' h => ⟨h, fun _ => hc⟩
    · have hoff : ∀ u ∈ us, turnsOn u = false := by
        rcases hq with q | q | q | q
        · exact absurd (.inr (.inl q)) hc
        · exact absurd (.inl q) hc
        · exact absurd (.inr (.inr q)) hc
        · exact q
      clear hq h0
      induction hs with
      | nil => exact .nil
      | cons h _ ih =>
        refine .cons ⟨h, fun e => ?_⟩ (ih fun u hu => hoff u (by simp [hu]))
        rw [hoff _ (by simp)] at e
        exact absurd e (by simp)
  exact (replies_together (p := True) (Q := SimObject.Twin True sp) (fun _ _ _ _ hq hc => SimObject.Twin.step hq hc.1 fun _ => hc.2) hs' (.init h0)).2 trivial

/-- The whole claim for DDR5 and LPDDR6, with toggling rates, and as long as inversion is never switched on. Then only the figures of the data
wires may differ. The rest is missing because of `C86_violation` and
`C86_violation_long`. -/
theorem C86_accepted_partial (h0 : SimObject.init std N ms sp = .ok o) (hs : List.Forall₂ (sameCall otherBytes) us us')
    (hq : std = .ddr5 ∨ std = .lpddr6 ∨ sp.toggling.isSome ∨ ∀ u ∈ us, turnsOn u = false) :
    (replies ms sp o us').1.map withoutDataBus = (replies ms sp o us).1.map withoutDataBus ∧ (replies ms sp o us').2 = (replies ms sp o us).2 :=
  ⟨map_of_forall₂ (f := withoutDataBus) (fun _ _ h => withoutDataBus_twin h) (strict_replies h0 hs hq).1, (strict_replies h0 hs hq).2⟩

/-- With toggling rates the payloads are not seen at all. -/
theorem C86_toggling (h0 : SimObject.init std N ms sp = .ok o) (hs : List.Forall₂ (sameCall otherBytes) us us') (ht : sp.toggling.isSome) :
    replies ms sp o us' = replies ms sp o us := by
  obtain ⟨h1, h2⟩ := strict_replies h0 hs (.inr (.inr (.inl ht)))
  have := map_of_forall₂ (f := id) (fun r r' h => by
    cases r <;> cases r' <;> first | (cases h; done) | exact congrArg SimReply.stats (h.rates ht) | exact h) h1
  simp only [List.map_id] at this
  exact Prod.ext this h2

/-- DDR5 and LPDDR6 satisfy the full claim. -/
theorem C86_ddr5_lpddr6 (h : std = .ddr5 ∨ std = .lpddr6) : C86_statement std := by
  intro N ms sp o us us' h0 hs
  obtain ⟨h1, h2⟩ := strict_replies h0 hs (h.imp_right .inl)
  exact ⟨map_of_forall₂ (f := withoutData) (fun _ _ h => withoutData_twin h) h1, h2⟩

/-! ## DDR4 with inversion -/

/-- The replies of a device with one bank. -/
def c86Replies (std : Std) (sp : IfSpec) (us : List SimCall) : List SimReply × Option Err :=
  match SimObject.init std 16 c56Mem sp with
  | .ok o => replies c56Mem sp o us
  | .error e => ([], some e)

/-- Two writes with inversion and a gap in between; `x` is the last byte of the first. -/
def c86Gap (x : UInt8) : List SimCall :=
  [.setDBI true, .iface (.cmd { t := 10, type := .WR, nBits := 128, data := some (List.replicate 15 255 ++ [x]) }),
   .iface (.cmd { t := 20, type := .WR, nBits := 128, data := some (List.replicate 16 255) }), .window 40]

/-- A device of sixteen bits. -/
def c86Spec : IfSpec := { dataRate := 2, burstLength := 8, bitWidth := 16, devices := 1 }

theorem c86Gap_same (x y : UInt8) : List.Forall₂ (sameCall otherBytes) (c86Gap x) (c86Gap y) :=
  .cons (.other _) (.cons (.ifaceCommand ⟨rfl, rfl⟩) (.cons (.other _) (.cons (.other _) .nil)))

/-- DDR4 with inversion: whether a session is accepted depends on the bytes. -/
theorem C86_violation : ¬ C86_statement .ddr4 := by
  intro hs
  have key : ∀ x y, (c86Replies .ddr4 c86Spec (c86Gap x)).2 = (c86Replies .ddr4 c86Spec (c86Gap y)).2 := by
    intro x y
    unfold c86Replies
    cases h0 : SimObject.init .ddr4 16 c56Mem c86Spec with
    | error e => rfl
    | ok o => exact (hs _ _ _ o _ _ h0 (c86Gap_same y x)).2
  exact absurd (key 0 255) (by decide +kernel)

/-! ## LPDDR4 and LPDDR5 with inversion -/

/-- Two writes of 32 beats with inversion and a gap in between; `x` is what the second half of the first carries. -/
def c86Long (x : UInt8) : List SimCall :=
  [.setDBI true, .iface (.cmd { t := 10, type := .WR, nBits := 512, data := some (List.replicate 32 0 ++ List.replicate 31 x ++ [0]) }),
   .iface (.cmd { t := 30, type := .WR, nBits := 512, data := some (List.replicate 64 0) }), .window 60]

theorem c86Long_same (x y : UInt8) : List.Forall₂ (sameCall otherBytes) (c86Long x) (c86Long y) :=
  .cons (.other _) (.cons (.ifaceCommand ⟨rfl, rfl⟩) (.cons (.other _) (.cons (.other _) .nil)))

/-- Bursts of 32 beats with inversion: if the last beat of a wire is inverted, the return of its inversion wire to the idle level takes a place
the storage does not have. -/
theorem C86_violation_long (h : std = .lpddr4 ∨ std = .lpddr5) : ¬ C86_statement std := by
  intro hs
  have key : ∀ x y, (c86Replies std c86Spec (c86Long x)).2 = (c86Replies std c86Spec (c86Long y)).2 := by
    intro x y
    unfold c86Replies
    cases h0 : SimObject.init std 16 c56Mem c86Spec with
    | error e => rfl
    | ok o => exact (hs _ _ _ o _ _ h0 (c86Long_same y x)).2
  rcases h with rfl | rfl <;> exact absurd (key 0 255) (by decide +kernel)

/-! ## The hypotheses can be met -/

/-- Inversion, an activation, a read and a write through `doCommand`, and queries; `x` is the payload. -/
def c86Session (std : Std) (x : UInt8) : List SimCall :=
  let n := if std = .lpddr6 then 256 else 64
  [.setDBI (std != .ddr4), .command { t := 0, type := .ACT, co := { row := 5 } },
   .command { t := 20, type := .RD, nBits := n, data := some (List.replicate (n / 8) x) }, .window 40,
   .command { t := 60, type := .WR, nBits := n, data := some (List.replicate (n / 8) (x + 1)) }, .lastTime, .window 90]

theorem c86Session_same (std : Std) (x y : UInt8) : List.Forall₂ (sameCall otherBytes) (c86Session std x) (c86Session std y) := by
  unfold c86Session
  exact .cons (.other _) (.cons (.other _) (.cons (.command ⟨rfl, by simp⟩) (.cons (.other _) (.cons (.command ⟨rfl, by simp⟩)
    (.cons (.other _) (.cons (.other _) .nil))))))

/-- Two sessions of each standard that are accepted and answered differently. -/
example : ∀ std ∈ [Std.ddr4, .ddr5, .lpddr4, .lpddr5, .lpddr6],
    (c86Replies std (c16Spec std) (c86Session std 0)).2 = none ∧
    (c86Replies std (c16Spec std) (c86Session std 0)).1 ≠ (c86Replies std (c16Spec std) (c86Session std 0xfe)).1 := by
  decide +kernel

/-- LPDDR4 and LPDDR5: the inversion wires differ as well. -/
example : ∀ std ∈ [Std.lpddr4, .lpddr5],
    (c86Replies std (c16Spec std) (c86Session std 0)).1.map withoutDataBus ≠ (c86Replies std (c16Spec std) (c86Session std 0xfe)).1.map withoutDataBus := by
  decide +kernel

/-- With toggling rates. -/
example : (c86Replies .lpddr4 { c16Spec .lpddr4 with toggling := some (⟨⟨1, 2, by decide, by decide⟩, ⟨1, 2, by decide, by decide⟩, .L⟩,
    ⟨⟨1, 4, by decide, by decide⟩, ⟨1, 2, by decide, by decide⟩, .L⟩) } (c86Session .lpddr4 0)).2 = none := by
  decide +kernel

end DRAMPower
