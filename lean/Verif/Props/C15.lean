import Verif.Lemmas.Tidy
import Verif.Props.Examples

/-!
# C15: saving and restoring the core is lossless

`Core.Fits`: every number stored in the core is below 2^64, as it always is in the code, where these are `uint64_t`
members; the model's numbers are unbounded. `pad` is the unspecified content of padding bytes.
-/

namespace DRAMPower

/-- A simulator brought into any state by any calls, saved while no implicit command is pending and loaded into a
freshly constructed simulator: exactly the bytes written are consumed, and the loaded simulator answers every later
session of commands and queries like the saved one. -/
theorem C15 (std : Std) (ms : MemSpec) (before : List Op) (c : Core) (answers : List CoreStats)
    (hs : (Core.init ms).session std ms before = .ok (c, answers)) (hq : c.isSerializable = true) (hf : c.Fits ms)
    (pad : Nat → UInt8) (out : Bytes) :
    ∃ written, c.serialize pad ms out = out ++ written ∧
      ∀ rest, ∃ c', (Core.init ms).deserialize ms (written ++ rest) = some (c', rest) ∧
        c'.lastCommandTime = c.lastCommandTime ∧ c'.isSerializable = true ∧
        ∀ later, (c'.session std ms later).map (·.2) = (c.session std ms later).map (·.2) := by
  have ht := session_tidy (init_tidy ms) hs
  have hqe : c.queue = [] := by simpa [Core.isSerializable] using hq
  obtain ⟨w, e, g⟩ := Core.rt (pad := pad) (u := Core.init ms) hf (by rw [hqe]; rfl)
    (fun i _ => (ht.ranks i).size.symm) (fun i _ b hb => ((ht.ranks i).tail b (by rw [← (ht.ranks i).size]; exact hb)).symm)
    (fun i hi => (ht.tail i hi).symm) out
  exact ⟨w, e, fun rest => ⟨c, g rest, rfl, hq, fun _ => rfl⟩⟩

/-- The stream does not depend on anything but the saved state (and the padding): in particular it can be
produced again from the restored simulator. -/
theorem C15_again (std : Std) (ms : MemSpec) (before : List Op) (c : Core) (answers : List CoreStats)
    (hs : (Core.init ms).session std ms before = .ok (c, answers)) (hq : c.isSerializable = true) (hf : c.Fits ms)
    (pad : Nat → UInt8) :
    ∃ c', (Core.init ms).deserialize ms (c.serialize pad ms []) = some (c', []) ∧ c'.serialize pad ms [] = c.serialize pad ms [] := by
  have ht := session_tidy (init_tidy ms) hs
  have hqe : c.queue = [] := by simpa [Core.isSerializable] using hq
  obtain ⟨w, e, g⟩ := Core.rt (pad := pad) (u := Core.init ms) hf (by rw [hqe]; rfl)
    (fun i _ => (ht.ranks i).size.symm) (fun i _ b hb => ((ht.ranks i).tail b (by rw [← (ht.ranks i).size]; exact hb)).symm)
    (fun i hi => (ht.tail i hi).symm) []
  refine ⟨c, ?_, rfl⟩
  rw [e, List.nil_append]
  simpa using g []

/-- The same claim without the condition that no implicit command is pending. -/
def C15_pending_statement (std : Std) : Prop :=
  ∀ ms cmds c, (Core.init ms).run std ms cmds = .ok c → c.Fits ms → ∀ pad c' rest,
    (Core.init ms).deserialize ms (c.serialize pad ms []) = some (c', rest) → ∀ t,
    (c'.getWindowStats std ms t).2 = (c.getWindowStats std ms t).2

/-- An activate and a read with auto-precharge, saved before the precharge is due and loaded again: the answers
to a query differ. -/
def c15Lost (std : Std) (ms : MemSpec) (cmds : List Cmd) (pad : Nat → UInt8) (t : Nat) : Bool :=
  match (Core.init ms).run std ms cmds with
  | .error _ => false
  | .ok c => decide (c.Fits ms) && match (Core.init ms).deserialize ms (c.serialize pad ms []) with
    | some (c', _) => decide ((c'.getWindowStats std ms t).2 ≠ (c.getWindowStats std ms t).2)
    | none => false

theorem c15Lost_spec {std ms cmds pad t} (h : c15Lost std ms cmds pad t = true) : ¬ C15_pending_statement std := by
  intro hs
  unfold c15Lost at h
  split at h
  · simp at h
  · rename_i c hc
    rw [Bool.and_eq_true] at h
    obtain ⟨hf, h⟩ := h
    split at h
    · rename_i c' rest hd
      exact of_decide_eq_true h (hs ms cmds c hc (of_decide_eq_true hf) _ c' rest hd t)
    · simp at h

/-- It is false: a pending auto-precharge is lost, and nothing in the stream tells. -/
theorem C15_pending_violation (std : Std) : ¬ C15_pending_statement std :=
  c15Lost_spec (ms := Ex.ms) (cmds := [{ t := 0, type := .ACT }, { t := 5, type := .RDA }]) (pad := fun _ => 0) (t := 50)
    (by cases std <;> decide +kernel)

/-! ## The hypotheses can be met -/

/-- Traffic on two ranks, then a query that flushes the pending commands. -/
example (std : Std) : ∃ c ans, (Core.init Ex.ms).session std Ex.ms (Ex.traffic.map .cmd ++ [.query 60]) = .ok (c, ans) ∧
    c.isSerializable = true ∧ c.Fits Ex.ms ∧ (c.ranks 0).act.count ≠ 0 ∧ (c.ranks 1).selfRefreshCounter ≠ 0 := by
  have : (match (Core.init Ex.ms).session std Ex.ms (Ex.traffic.map .cmd ++ [.query 60]) with
      | .ok (c, _) => c.isSerializable && decide (c.Fits Ex.ms) && decide ((c.ranks 0).act.count ≠ 0) &&
          decide ((c.ranks 1).selfRefreshCounter ≠ 0)
      | .error _ => false) = true := by cases std <;> decide +kernel
  split at this
  · rename_i c ans hc
    simp only [Bool.and_eq_true, decide_eq_true_eq] at this
    exact ⟨c, ans, hc, this.1.1.1, this.1.1.2, this.1.2, this.2⟩
  · simp at this

end DRAMPower
