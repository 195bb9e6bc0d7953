import Verif.Lemmas.MovedRun
import Verif.Props.Examples

/-!
# C64: A trace that starts later is the same trace

`later d cmds` is the trace with `d` added to every time stamp, `StatsLater` what may differ in the statistics (Spec/Later.lean).
-/

namespace DRAMPower

theorem last_ge {std : Std} {ms : MemSpec} (cmds : List Cmd) : ∀ {c c' : Core}, cmds ≠ [] → c.run std ms cmds = .ok c' → ∃ x ∈ cmds, x.t ≤ c'.last := by
  induction cmds with
  | nil => intro c c' h; exact absurd rfl h
  | cons x cmds ih =>
    intro c c' _ h
    simp only [Core.run] at h
    split at h
    · rename_i c1 h1
      cases cmds with
      | nil =>
        simp only [Core.run] at h
        injection h with h; subst h
        refine ⟨x, by simp, ?_⟩
        simp only [Core.doCommand] at h1
        repeat' split at h1
        all_goals first | (injection h1 with h1; subst h1; exact Nat.le_max_left _ _) | cases h1
      | cons y l =>
        obtain ⟨z, hz, hle⟩ := ih (by simp) h
        exact ⟨z, List.mem_cons_of_mem _ hz, hle⟩
    · cases h

/-- For every standard, memory specification, delay and trace, legal or not, in which an auto-precharge command comes after an
activation of its bank: the trace and the trace `d` later are accepted or refused alike and for the same reason; the time of the last
command is `d` later; work is left in the queue after both or after neither; and the statistics at every time `t` and those of the
later run at `t + d` agree in all counters and all times of every bank and rank but the time in precharged standby, which is `d` longer. -/
theorem C64 (std : Std) (ms : MemSpec) (d : Nat) (cmds : List Cmd) (ho : OpensFirst cmds) (hz : NotAtZero std cmds) :
    match (Core.init ms).run std ms cmds, (Core.init ms).run std ms (later d cmds) with
    | .ok c, .ok c' => (cmds ≠ [] → c'.last = c.last + d) ∧ c'.isSerializable = c.isSerializable ∧
        ∀ t, StatsLater d t (c.getWindowStats std ms t).2 (c'.getWindowStats std ms (t + d)).2
    | .error e, .error e' => e' = e
    | _, _ => False := by
  have h := run_moved (std := std) (ms := ms) (d := d) (P := ∀ c ∈ cmds, 0 < c.t) cmds [] (init_moved (ms := ms)) (fun x hx hp => hp x hx)
    (fun x hx hty => by
      rcases hz with h | h | h
      · exact .inl h
      · exact absurd hty (h x hx)
      · exact .inr h) (by simp) (by simpa using ho)
  cases h1 : (Core.init ms).run std ms cmds with
  | error e =>
    rw [h1] at h
    generalize (Core.init ms).run std ms (later d cmds) = y at h ⊢
    cases h
    rfl
  | ok c =>
    rw [h1] at h
    cases h2 : (Core.init ms).run std ms (later d cmds) with
    | error e => rw [h2] at h; cases h
    | ok c' =>
      rw [h2] at h
      cases h with
      | ok _ _ h =>
        refine ⟨fun hne => ?_, ?_, fun t => stats_moved h t⟩
        · rcases h.last with e | ⟨e1, e2⟩
          · exact e
          · obtain ⟨x, hx, hle⟩ := last_ge (later d cmds) (by simpa [later] using hne) h2
            obtain ⟨y, -, rfl⟩ := List.mem_map.1 hx
            simp only at hle
            omega
        · simp [Core.isSerializable, h.queue]

/-- Without an activation before an auto-precharge command the claim is false: a read with auto-precharge of a bank that has never been
opened precharges it at the absolute time `tRAS` if it comes earlier than that. -/
theorem C64_needsActivation : ∃ (cmds : List Cmd) (c c' : Core) (x y : BankStats),
    (Core.init Ex.ms).run .ddr4 Ex.ms cmds = .ok c ∧ (Core.init Ex.ms).run .ddr4 Ex.ms (later 100 cmds) = .ok c' ∧ NotAtZero .ddr4 cmds ∧
    (c.getWindowStats .ddr4 Ex.ms 50).2.bank[0]? = some x ∧ (c'.getWindowStats .ddr4 Ex.ms 150).2.bank[0]? = some y ∧
    y.cycles.act ≠ x.cycles.act :=
  ⟨[{ t := 0, type := .RDA }, { t := 1, type := .ACT }], _, _, _, _, rfl, rfl, .inl rfl, rfl, rfl, by decide⟩

/-- With an active power-down at time 0 and an (illegal) activation during it the claim is false: "never closed" and "closed at 0" are
confused when the power-down is left. -/
theorem C64_needsNotAtZero : ∃ (cmds : List Cmd) (c c' : Core) (x y : BankStats),
    (Core.init Ex.ms).run .ddr5 Ex.ms cmds = .ok c ∧ (Core.init Ex.ms).run .ddr5 Ex.ms (later 100 cmds) = .ok c' ∧ OpensFirst cmds ∧
    (c.getWindowStats .ddr5 Ex.ms 50).2.bank[0]? = some x ∧ (c'.getWindowStats .ddr5 Ex.ms 150).2.bank[0]? = some y ∧
    y.cycles.act ≠ x.cycles.act := by
  refine ⟨[{ t := 0, type := .PDEA }, { t := 1, type := .ACT }, { t := 30, type := .PDXA }], _, _, _, _, rfl, rfl, ?_, rfl, rfl, by decide⟩
  intro before c after h hty
  have : c ∈ [({ t := 0, type := .PDEA } : Cmd), { t := 1, type := .ACT }, { t := 30, type := .PDXA }] := by rw [h]; simp
  simp only [List.mem_cons, List.not_mem_nil, or_false] at this
  rcases this with rfl | rfl | rfl <;> simp at hty

/-- A trace for the example with an auto-precharge, a refresh and power-downs, from time 1 on. -/
def Ex.laterTrace : List Cmd :=
  [{ t := 1, type := .ACT, bank := 1 }, { t := 20, type := .RDA, bank := 1 }, { t := 60, type := .REFA }, { t := 120, type := .ACT, bank := 0 },
   { t := 140, type := .PDEA }, { t := 200, type := .PDXA }, { t := 260, type := .PRE, bank := 0 }]

theorem Ex.laterTrace_opens : OpensFirst Ex.laterTrace := by
  intro before c after h hty
  match before, h with
  | [], h => injection h with h _; subst h; simp at hty
  | [_], h => injection h with h1 h2; injection h2 with h2 h3; subst h1 h2; exact ⟨_, List.mem_singleton_self _, rfl, rfl, rfl⟩
  | _ :: _ :: before, h =>
    have : c ∈ Ex.laterTrace.drop 2 := by
      have : Ex.laterTrace.drop 2 = before ++ c :: after := by rw [h]; rfl
      rw [this]; simp
    simp only [Ex.laterTrace, List.drop_succ_cons, List.drop_zero, List.mem_cons, List.not_mem_nil, or_false] at this
    rcases this with rfl | rfl | rfl | rfl | rfl <;> simp at hty

/-- The hypotheses hold for a trace with an auto-precharge, a refresh and an active power-down in every standard, it is accepted by every
standard, and the time in precharged standby is indeed claimed to grow. -/
example : OpensFirst Ex.laterTrace ∧ (∀ std, NotAtZero std Ex.laterTrace) ∧
    ∀ std ∈ [Std.ddr4, .ddr5, .lpddr4, .lpddr5, .lpddr6], ∃ c, (Core.init Ex.ms).run std Ex.ms Ex.laterTrace = .ok c ∧
      ((c.getWindowStats std Ex.ms 400).2.bank[1]?).map (fun b => decide (0 < b.cycles.act ∧ b.cycles.act + b.cycles.powerDownAct +
        b.cycles.powerDownPre + b.cycles.selfRefresh + b.cycles.deepSleepMode ≤ 400 ∧ b.cycles.powerDownAct ≠ 0)) = some true :=
  ⟨Ex.laterTrace_opens, fun _ => .inr (.inr (by decide)), by
    intro std h
    simp only [List.mem_cons, List.not_mem_nil, or_false] at h
    rcases h with rfl | rfl | rfl | rfl | rfl <;> exact ⟨_, rfl, by decide +kernel⟩⟩

end DRAMPower
