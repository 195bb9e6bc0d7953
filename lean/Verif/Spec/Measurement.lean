import Verif.Spec.Power
import Verif.Spec.Sequence

/-!
# Measurement loops of the data sheet

The commands with which the currents of a data sheet are measured, and the energy these currents stand for.
-/

namespace DRAMPower.Spec

/-- The energy of `n` clock cycles during which the devices of rank `i` draw the current `current i` from every voltage domain. -/
def measuredEnergy (ms : MemSpec) (s : PowerSpec) (current : Nat → Domain → Rat) (n : Nat) : Rat :=
  (s.devices : Rat) * (s.domains.map fun d => d.v * (((List.range ms.numberOfRanks).map fun i => current i d).sum * ((n : Rat) * s.tCK))).sum

/-- The loops in which commands are repeated. -/
inductive Loop
  /-- A row is opened and closed. -/
  | idd0
  /-- All banks are refreshed. -/
  | idd5
  /-- One bank of every bank group is refreshed (DDR5). -/
  | idd5c
  /-- One bank is refreshed (LPDDR4, LPDDR5). -/
  | idd5pb
  /-- Two banks are refreshed (LPDDR5). -/
  | idd5pb2
  /-- Two banks are refreshed (LPDDR6). -/
  | idd5db
deriving DecidableEq, Repr

/-- The commands of a loop on rank `r`, bank `b` (and second bank `b2`). -/
def Loop.commands (s : PowerSpec) (r b b2 : Nat) : Loop → List Cmd
  | .idd0 => [{ t := 0, type := .ACT, rank := r, bank := b }, { t := s.tRAS, type := .PRE, rank := r, bank := b }]
  | .idd5 => [{ t := 0, type := .REFA, rank := r }]
  | .idd5c => [{ t := 0, type := .REFSB, rank := r, bank := b }]
  | .idd5pb => [{ t := 0, type := .REFB, rank := r, bank := b }]
  | .idd5pb2 => [{ t := 0, type := .REFP2B, rank := r, bank := b }]
  | .idd5db => [{ t := 0, type := .REFDB, rank := r, bank := b, dbank := b2 }]

/-- After how many cycles the loop begins again. -/
def Loop.period (s : PowerSpec) : Loop → Nat
  | .idd0 => s.tRAS + s.tRP
  | .idd5 => s.tRFC
  | .idd5c => s.tRFCpb
  | .idd5pb | .idd5pb2 | .idd5db => s.tREFI / 8

/-- The current measured. -/
def Loop.current : Loop → Domain → Rat
  | .idd0 => (·.i0)
  | .idd5 => (·.i5x)
  | .idd5c => (·.i5c)
  | .idd5pb | .idd5pb2 | .idd5db => (·.i5pb)

/-- The loop exists for the standard: the banks exist, and both views of the memory specification know the same duration of the refresh.
The refreshes of single banks are measured at an eighth of the refresh interval, which must be a whole number of cycles and long enough. -/
def Loop.Measurable (std : Std) (ms : MemSpec) (s : PowerSpec) (b b2 : Nat) : Loop → Prop
  | .idd0 => b < ms.numberOfBanks
  | .idd5 => ms.tRFC = s.tRFC
  | .idd5c => std = .ddr5 ∧ b < ms.numberOfBanks ∧ ms.tRFCsb = s.tRFCpb
  | .idd5pb => (std = .lpddr4 ∨ std = .lpddr5) ∧ b < ms.numberOfBanks ∧ ms.tRFCPB = s.tRFCpb ∧ 8 ∣ s.tREFI ∧ s.tRFCpb ≤ s.tREFI / 8
  | .idd5pb2 => std = .lpddr5 ∧ b < ms.numberOfBanks ∧ (b + ms.perTwoBankOffset) % 16 < ms.numberOfBanks ∧
      (b + ms.perTwoBankOffset) % 16 ≠ b ∧ ms.bankArch ≠ .m8b ∧ ms.tRFCPB = s.tRFCpb ∧ 8 ∣ s.tREFI ∧ s.tRFCpb ≤ s.tREFI / 8
  | .idd5db => std = .lpddr6 ∧ b < ms.numberOfBanks ∧ b2 < ms.numberOfBanks ∧ b2 ≠ b ∧ ms.tRFCDB = s.tRFCpb ∧ 8 ∣ s.tREFI ∧
      s.tRFCpb ≤ s.tREFI / 8

instance (std : Std) (ms : MemSpec) (s : PowerSpec) (b b2 : Nat) (l : Loop) : Decidable (l.Measurable std ms s b b2) := by
  cases l <;> unfold Loop.Measurable <;> infer_instance

/-- The low-power state is reached, for good. -/
def Mode.standing (m : Mode) (T : Nat) : Cat → Prop
  | .act | .pre => m = .normal
  | .pda => ∃ e ≤ T, m = .pd true e none
  | .pdp => ∃ e ≤ T, m = .pd false e none
  | .sref => ∃ s ≤ T, m = .sref s
  | .dsm => m = .dsm

/-- From `T` on, unless there are further commands, the rank is in state `k`; `a` banks have an open row. -/
structure Standing (std : Std) (ms : MemSpec) (h : List Cmd) (T : Nat) (k : Cat) (a : Nat) : Prop where
  sent : NotBefore h T
  mode : (((h.foldl (apply std ms) {}).settle T).mode).standing T k
  banks : ∀ b < ms.numberOfBanks, (((h.foldl (apply std ms) {}).settle T).bank b).prechargeable
  count : (List.range ms.numberOfBanks).countP (fun b => (((h.foldl (apply std ms) {}).settle T).bank b).status = .opened none) = a
  active : k = .act → 0 < a
  precharged : k = .pre → a = 0

/-- The current measured in the state `k`: `IDD2N`, `IDD3N`, `IDD3P`, `IDD2P`, `IDD6`, `IDD6DS`. -/
def standingCurrent (d : Domain) : Cat → Rat
  | .pre => d.i2n
  | .act => d.i3n
  | .pda => d.i3p
  | .pdp => d.i2p
  | .sref => d.i6n
  | .dsm => d.i6ds

/-- The number of open rows during the measurement of `IDD3N`: all banks for DDR4 and DDR5, one for the LPDDR standards. -/
def standbyBanks (std : Std) (s : PowerSpec) : Nat := if std = .ddr4 ∨ std = .ddr5 then s.banks else 1

instance (m : Mode) (T : Nat) (k : Cat) : Decidable (m.standing T k) :=
  match k, m with
  | .act, m => inferInstanceAs (Decidable (m = .normal))
  | .pre, m => inferInstanceAs (Decidable (m = .normal))
  | .pda, .pd true e none => decidable_of_iff (e ≤ T) ⟨fun h => ⟨e, h, rfl⟩, fun ⟨_, h, q⟩ => by cases q; exact h⟩
  | .pda, .normal => isFalse fun ⟨_, _, q⟩ => nomatch q
  | .pda, .pd false _ _ => isFalse fun ⟨_, _, q⟩ => nomatch q
  | .pda, .pd true _ (some _) => isFalse fun ⟨_, _, q⟩ => nomatch q
  | .pda, .sref _ => isFalse fun ⟨_, _, q⟩ => nomatch q
  | .pda, .dsm => isFalse fun ⟨_, _, q⟩ => nomatch q
  | .pdp, .pd false e none => decidable_of_iff (e ≤ T) ⟨fun h => ⟨e, h, rfl⟩, fun ⟨_, h, q⟩ => by cases q; exact h⟩
  | .pdp, .normal => isFalse fun ⟨_, _, q⟩ => nomatch q
  | .pdp, .pd true _ _ => isFalse fun ⟨_, _, q⟩ => nomatch q
  | .pdp, .pd false _ (some _) => isFalse fun ⟨_, _, q⟩ => nomatch q
  | .pdp, .sref _ => isFalse fun ⟨_, _, q⟩ => nomatch q
  | .pdp, .dsm => isFalse fun ⟨_, _, q⟩ => nomatch q
  | .sref, .sref s => decidable_of_iff (s ≤ T) ⟨fun h => ⟨s, h, rfl⟩, fun ⟨_, h, q⟩ => by cases q; exact h⟩
  | .sref, .normal => isFalse fun ⟨_, _, q⟩ => nomatch q
  | .sref, .pd _ _ _ => isFalse fun ⟨_, _, q⟩ => nomatch q
  | .sref, .dsm => isFalse fun ⟨_, _, q⟩ => nomatch q
  | .dsm, m => inferInstanceAs (Decidable (m = .dsm))

instance (std : Std) (ms : MemSpec) (h : List Cmd) (T : Nat) (k : Cat) (a : Nat) : Decidable (Standing std ms h T k a) :=
  decidable_of_iff (NotBefore h T ∧ (((h.foldl (apply std ms) {}).settle T).mode).standing T k ∧
      (∀ b < ms.numberOfBanks, (((h.foldl (apply std ms) {}).settle T).bank b).prechargeable) ∧
      (List.range ms.numberOfBanks).countP (fun b => (((h.foldl (apply std ms) {}).settle T).bank b).status = .opened none) = a ∧
      (k = .act → 0 < a) ∧ (k = .pre → a = 0))
    ⟨fun ⟨a, b, c, d, e, f⟩ => ⟨a, b, c, d, e, f⟩, fun ⟨a, b, c, d, e, f⟩ => ⟨a, b, c, d, e, f⟩⟩

end DRAMPower.Spec
