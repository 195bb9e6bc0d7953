import Verif.Lemmas.Growth
import Verif.Lemmas.Steady
import Verif.Lemmas.SteadyCore
import Verif.Spec.Steady
import Verif.Lemmas.RestoreKept

/-!
# Interfaces left alone
-/

namespace DRAMPower
open Spec

variable {std : Std} {N : Nat} {sp : IfSpec}

theorem Clock.run_rate : ∀ {ops : List ClockOp} {c c' : Clock}, c.run ops = .ok c' → c'.dataRate = c.dataRate
  | [], c, c', h => by rw [← ok_inj h]
  | .start t :: ops, c, c', h => by
    obtain ⟨d, h1, h⟩ := bind_ok h
    rw [Clock.run_rate h, start_rate h1]
  | .stop t :: ops, c, c', h => by
    obtain ⟨d, h1, h⟩ := bind_ok h
    rw [Clock.run_rate h, stop_rate h1]

/-- Each group of wires has a function of time that grows steadily and tells its figures. -/
theorem group_steady {i i' : Interface std N} {ops : List IfOp} (hi : Interface.init std N sp = .ok i) (hr : i.run sp ops = .ok i')
    {k : Nat} (he : mobile std → sp.wckAlwaysOn = true → 2 ∣ k * sp.wckRate) (g : Group) :
    ∃ f : Nat → Except Err BusStats, (∃ t1, SteadyBy k f t1) ∧
      ∀ t s x, (∀ g : Group, g.figures s = {}) → i'.getWindowStats sp t s = .ok x → f t = .ok (g.figures x) := by
  obtain ⟨_, _, _, _, er, ew, ek, ec, ee, _⟩ := init_parts hi
  have K := run_clocks ops (init_shaped hi) hr
  have still : ∀ {c c' : Clock} {l : List (Nat × Nat)}, c.lastStart = none → c.run (l.flatMap (strobeCalls sp.dataRate)) = .ok c' → c'.lastStart = none :=
    fun hc hrun => stopped_run hc hrun
  have parts : ∀ {t : Nat} {d : DataBusStats}, i'.dataBus.getStats t = .ok d → i'.dataBus.busRead.getStats t = .ok d.busRead ∧
      i'.dataBus.busWrite.getStats t = .ok d.busWrite ∧ i'.dataBus.togglingRead.getStats t = .ok d.togglingRead ∧
      i'.dataBus.togglingWrite.getStats t = .ok d.togglingWrite := fun h => by
    unfold DataBus.getStats at h
    obtain ⟨a, h1, h⟩ := bind_ok h
    obtain ⟨b, h2, h⟩ := bind_ok h
    obtain ⟨c, h3, h⟩ := bind_ok h
    obtain ⟨e, h4, h⟩ := bind_ok h
    rw [← pure_ok h]
    exact ⟨h1, h2, h3, h4⟩
  cases g with
  | clock =>
    refine ⟨_, Clock.steadyBy i'.clock k 2 (.inr ?_), fun t s x _ hx => ?_⟩
    · rw [Clock.run_rate K.clock, ec]
      exact ⟨k, Nat.mul_comm ..⟩
    · show _ = Except.ok x.clockStats
      rw [(windowStats_ok hx).2.2.2.2.1]
  | dataClock =>
    by_cases hm : mobile std
    · refine ⟨_, Clock.steadyBy i'.wck k 2 ?_, fun t s x _ hx => ?_⟩
      · cases ho : sp.wckAlwaysOn with
        | true =>
          refine .inr ?_
          rw [Clock.run_rate (K.wckOn hm ho), ek]
          exact he hm ho
        | false =>
          refine .inl (still ?_ (K.wckBurst hm ho))
          rw [ek, ho]
          simp [Clock.init]
      · show _ = Except.ok x.wClockStats
        rw [(windowStats_ok hx).2.2.2.2.2.1 hm]
    · refine ⟨fun _ => .ok {}, Steady.by k ⟨0, .const (x0 := {}) fun n x hx => (Except.ok.inj hx).symm⟩, fun t s x hs hx => ?_⟩
      show _ = Except.ok x.wClockStats
      rw [unclocked hm hx, show s.wClockStats = {} from hs .dataClock]
  | command => exact ⟨_, Steady.by k (Bus.steady i'.cmdBus), fun t s x _ hx => (windowStats_ok hx).1⟩
  | readStrobe =>
    refine ⟨_, Clock.steadyBy i'.readDQS k (Interface.strobeWires std sp) (.inl (still (by rw [er]; rfl) K.read)), fun t s x _ hx => ?_⟩
    show _ = Except.ok x.readDQSStats
    rw [(windowStats_ok hx).2.2.2.2.2.2.1]
  | writeStrobe =>
    by_cases hm : mobile std
    · refine ⟨fun _ => .ok {}, Steady.by k ⟨0, .const (x0 := {}) fun n x hx => (Except.ok.inj hx).symm⟩, fun t s x hs hx => ?_⟩
      show _ = Except.ok x.writeDQSStats
      rw [unstrobed hm hx, show s.writeDQSStats = {} from hs .writeStrobe]
    · refine ⟨_, Clock.steadyBy i'.writeDQS k (Interface.strobeWires std sp) (.inl (still (by rw [ew]; rfl) (K.write hm))), fun t s x _ hx => ?_⟩
      show _ = Except.ok x.writeDQSStats
      rw [(windowStats_ok hx).2.2.2.2.2.2.2 hm]
  | readData =>
    refine ⟨_, Steady.by k (Bus.steady i'.dataBus.busRead), fun t s x hs hx => ?_⟩
    obtain ⟨d, h, e, _⟩ := (windowStats_ok hx).2.1
    show _ = Except.ok x.readBus
    rw [e, show s.readBus = {} from hs .readData, BusStats.zero_add, (parts h).1]
  | writeData =>
    refine ⟨_, Steady.by k (Bus.steady i'.dataBus.busWrite), fun t s x hs hx => ?_⟩
    obtain ⟨d, h, _, e, _⟩ := (windowStats_ok hx).2.1
    show _ = Except.ok x.writeBus
    rw [e, show s.writeBus = {} from hs .writeData, BusStats.zero_add, (parts h).2.1]
  | readRate =>
    refine ⟨_, Steady.by k (Toggling.steady i'.dataBus.togglingRead), fun t s x hs hx => ?_⟩
    obtain ⟨d, h, _, _, e, _⟩ := (windowStats_ok hx).2.1
    show _ = Except.ok x.togglingRead
    rw [e, show s.togglingRead = {} from hs .readRate, BusStats.zero_add, (parts h).2.2.1]
  | writeRate =>
    refine ⟨_, Steady.by k (Toggling.steady i'.dataBus.togglingWrite), fun t s x hs hx => ?_⟩
    obtain ⟨d, h, _, _, _, e⟩ := (windowStats_ok hx).2.1
    show _ = Except.ok x.togglingWrite
    rw [e, show s.togglingWrite = {} from hs .writeRate, BusStats.zero_add, (parts h).2.2.2]
  | readInv =>
    refine ⟨_, Steady.by k (pins_steady i'.pinsRead (fun _ => .ok {}) ⟨0, .const (x0 := {}) fun n x hx => (Except.ok.inj hx).symm⟩), fun t s x hs hx => ?_⟩
    have h := (windowStats_ok hx).2.2.1
    rw [show s.readDBI = {} from hs .readInv] at h
    exact h
  | writeInv =>
    refine ⟨_, Steady.by k (pins_steady i'.pinsWrite (fun _ => .ok {}) ⟨0, .const (x0 := {}) fun n x hx => (Except.ok.inj hx).symm⟩), fun t s x hs hx => ?_⟩
    have h := (windowStats_ok hx).2.2.2.1
    rw [show s.writeDBI = {} from hs .writeInv] at h
    exact h

/-- From some time on the figures of all groups grow by the same amounts in every period. -/
theorem wires_steady {i i' : Interface std N} {ops : List IfOp} (hi : Interface.init std N sp = .ok i) (hr : i.run sp ops = .ok i')
    {k : Nat} (he : mobile std → sp.wckAlwaysOn = true → 2 ∣ k * sp.wckRate) : ∃ T0, ∀ T, T0 ≤ T → ∃ B D : Group → BusStats, ∀ n s x, (∀ g : Group, g.figures s = {}) →
      i'.getWindowStats sp (T + k * n) s = .ok x → ∀ g : Group, g.figures x = B g + n * D g := by
  have h := fun g => group_steady hi hr he g
  let f := fun g => Classical.choose (h g)
  have hf := fun g => Classical.choose_spec (h g)
  let t1 := fun g => Classical.choose (hf g).1
  have ht := fun g => Classical.choose_spec (hf g).1
  obtain ⟨T0, hT0⟩ := list_bound t1 [.clock, .dataClock, .command, .readStrobe, .writeStrobe, .readData, .writeData, .readRate, .writeRate, .readInv, .writeInv]
  refine ⟨T0, fun T hT => ?_⟩
  have hs := fun g => ht g T (Nat.le_trans (hT0 g (by cases g <;> decide)) hT)
  refine ⟨fun g => Classical.choose (hs g), fun g => Classical.choose (Classical.choose_spec (hs g)), fun n s x h0 hx g => ?_⟩
  exact Classical.choose_spec (Classical.choose_spec (hs g)) n _ ((hf g).2 _ s x h0 hx)

end DRAMPower
