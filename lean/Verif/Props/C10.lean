import Verif.Props.C13

/-!
# C10: power-down entry and exit are deferred to the earliest legal time
-/

namespace DRAMPower

open Spec

/-- The lower bounds a bank puts on a power-down transition: `tRCD` after the start of its last active
phase (if it was ever activated), `tRP` after its last precharge (if there was one), and the end of its last
refresh. -/
def Spec.pdBounds (tRCD tRP : Nat) (x : Bank) : List Nat :=
  (if x.counter.act = 0 then [] else [x.act.getStart + tRCD]) ++
  (if x.counter.pre = 0 then [] else [x.latestPre + tRP]) ++ [x.refreshEndTime]

/-- `e` is the earliest time not before `t` that respects the bounds of all `n` banks. -/
def Spec.EarliestFrom (tRCD tRP n : Nat) (banks : Nat → Bank) (t e : Nat) : Prop :=
  (t ≤ e ∧ ∀ b < n, ∀ x ∈ pdBounds tRCD tRP (banks b), x ≤ e) ∧
  ∀ e', (t ≤ e' ∧ ∀ b < n, ∀ x ∈ pdBounds tRCD tRP (banks b), x ≤ e') → e ≤ e'

/-- The deferred command of each of the four power-down commands. -/
def pdImp : CmdType → Option Imp
  | .PDEA => some .pdaEnter
  | .PDXA => some .pdaExit
  | .PDEP => some .pdpEnter
  | .PDXP => some .pdpExit
  | _ => none

theorem foldl_max_spec {α : Type} (f : α → Nat) (l : List α) : ∀ a, (a ≤ l.foldl (fun m x => max m (f x)) a ∧
    ∀ x ∈ l, f x ≤ l.foldl (fun m x => max m (f x)) a) ∧
    ∀ e, a ≤ e → (∀ x ∈ l, f x ≤ e) → l.foldl (fun m x => max m (f x)) a ≤ e := by
  induction l with
  | nil => intro a; simp
  | cons x l ih =>
    intro a
    rw [List.foldl_cons]
    obtain ⟨⟨h1, h2⟩, h3⟩ := ih (max a (f x))
    refine ⟨⟨by omega, ?_⟩, ?_⟩
    · intro y hy
      rcases List.mem_cons.1 hy with rfl | hy
      · omega
      · exact h2 y hy
    · intro e ha hx
      exact h3 e (by have := hx x (by simp); omega) (fun y hy => hx y (by simp [hy]))

theorem earliest_spec (std : Std) (ms : MemSpec) (r : Rank) (t : Nat) :
    EarliestFrom (effRCD std ms) ms.tRP r.nBanks r.banks t (max t (earliestPossible std ms r)) := by
  have hrw : earliestPossible std ms r = (List.range r.nBanks).foldl (fun m i => max m
      (max (max (if (r.banks i).counter.act = 0 then 0 else (r.banks i).act.getStart + effRCD std ms)
        (if (r.banks i).counter.pre = 0 then 0 else (r.banks i).latestPre + ms.tRP)) (r.banks i).refreshEndTime)) 0 := by
    unfold earliestPossible
    congr 1
    funext acc i
    simp only [Nat.max_assoc]
  obtain ⟨⟨_, h2⟩, h3⟩ := foldl_max_spec (fun i => max (max (if (r.banks i).counter.act = 0 then 0 else (r.banks i).act.getStart + effRCD std ms)
        (if (r.banks i).counter.pre = 0 then 0 else (r.banks i).latestPre + ms.tRP)) (r.banks i).refreshEndTime) (List.range r.nBanks) 0
  rw [← hrw] at h2 h3
  have hb : ∀ b e, (∀ x ∈ pdBounds (effRCD std ms) ms.tRP (r.banks b), x ≤ e) ↔
      max (max (if (r.banks b).counter.act = 0 then 0 else (r.banks b).act.getStart + effRCD std ms)
        (if (r.banks b).counter.pre = 0 then 0 else (r.banks b).latestPre + ms.tRP)) (r.banks b).refreshEndTime ≤ e := by
    intro b e
    unfold pdBounds
    by_cases ha : (r.banks b).counter.act = 0 <;> by_cases hp : (r.banks b).counter.pre = 0 <;> simp [ha, hp] <;> omega
  refine ⟨⟨by omega, ?_⟩, ?_⟩
  · intro b hlt
    rw [hb]
    have := h2 b (List.mem_range.2 hlt)
    omega
  · rintro e' ⟨h1', h2'⟩
    have := h3 e' (Nat.zero_le _) (fun x hx => (hb x e').1 (h2' x (List.mem_range.1 hx)))
    omega

/-- In every state reachable by an accepted trace, an accepted power-down command changes no rank at once
and defers the transition to exactly the earliest time respecting all bounds. (That the deferred command
takes effect at that time is C08.) -/
theorem C10 (std : Std) (ms : MemSpec) (cmds : List Cmd) (c c' : Core) (cmd : Cmd) (i : Imp)
    (hr : (Core.init ms).run std ms cmds = .ok c) (hd : c.doCommand std ms cmd = .ok c') (hi : pdImp cmd.type = some i) :
    ∃ e, EarliestFrom (tRCDof std ms) ms.tRP ms.numberOfBanks ((c.process std cmd.t).ranks cmd.rank).banks cmd.t e ∧
      c'.ranks = (c.process std cmd.t).ranks ∧
      c'.queue = addImplicit { t := e, rank := cmd.rank, imp := i } (c.process std cmd.t).queue := by
  have hwf : WF ms (c.process std cmd.t) := process_wf (run_wf (init_wf ms) hr)
  have hrcd : tRCDof std ms = effRCD std ms := by cases std <;> rfl
  refine ⟨max cmd.t (earliestPossible std ms ((c.process std cmd.t).ranks cmd.rank)), ?_, ?_⟩
  · have := earliest_spec std ms ((c.process std cmd.t).ranks cmd.rank) cmd.t
    rw [hwf cmd.rank] at this
    rw [hrcd]
    exact this
  · have hupd : ∀ (f : Nat → Rank) (j : Nat), upd f j (f j) = f := by
      intro f j; funext x; simp only [upd]; split
      · rename_i h; rw [h]
      · rfl
    simp only [Core.doCommand] at hd
    split at hd
    · rename_i hne
      exfalso
      unfold isNoEffect at hne
      revert hi hne
      cases std <;> cases cmd.type <;> simp [pdImp]
    · split at hd
      · split at hd
        · rename_i r imps hh
          injection hd with hd; subst hd
          have hri : r = (c.process std cmd.t).ranks cmd.rank ∧
              imps = [(max cmd.t (earliestPossible std ms ((c.process std cmd.t).ranks cmd.rank)), i)] := by
            cases hc : cmd.type <;> simp only [hc, pdImp] at hi <;> try (simp at hi; done)
            all_goals
              injection hi with hi; subst hi
              simp only [handle, hc] at hh
            · injection hh with hh; injection hh with h1 h2; exact ⟨h1.symm, h2.symm⟩
            · injection hh with hh; injection hh with h1 h2; exact ⟨h1.symm, h2.symm⟩
            · unfold handlePowerDownActExit at hh
              split at hh
              · exact absurd hh (by simp)
              · injection hh with hh; injection hh with h1 h2; exact ⟨h1.symm, h2.symm⟩
            · injection hh with hh; injection hh with h1 h2; exact ⟨h1.symm, h2.symm⟩
          rw [hri.1, hri.2]
          refine ⟨hupd _ _, rfl⟩
        · exact absurd hd (by simp)
      · exact absurd hd (by simp)

/-- The deferred transitions take effect at their own time: the power-down interval of the rank starts
(ends) then, and the rank is marked accordingly. -/
theorem C10_effect (std : Std) (r : Rank) (e : Nat) :
    ((exec std r e .pdaEnter).powerDownAct.start = some e ∧ (exec std r e .pdaEnter).powerDownAct.isOpen = true ∧
      (exec std r e .pdaEnter).memState = .pdnAct) ∧
    ((exec std r e .pdpEnter).powerDownPre.start = some e ∧ (exec std r e .pdpEnter).powerDownPre.isOpen = true ∧
      (exec std r e .pdpEnter).memState = .pdnPre) ∧
    ((exec std r e .pdaExit).powerDownAct.isOpen = false ∧ (exec std r e .pdaExit).memState = .notInPD ∧
      (r.powerDownAct.isOpen = true → (exec std r e .pdaExit).powerDownAct.stop = some e)) ∧
    ((exec std r e .pdpExit).powerDownPre.isOpen = false ∧ (exec std r e .pdpExit).memState = .notInPD ∧
      (r.powerDownPre.isOpen = true → (exec std r e .pdpExit).powerDownPre.stop = some e)) := by
  have hclose : ∀ I : Interval, I.isOpen = true → (I.close e).stop = some e := by
    intro I h; simp [Interval.close, h]
  have hx : (exec std r e .pdaExit).powerDownAct = r.powerDownAct.close e ∧ (exec std r e .pdaExit).memState = .notInPD := by
    cases std <;> simp only [exec, DDR4.execPdaExit, Shared.execPdaExit, LPDDR6.execPdaExit] <;>
      first | exact ⟨rfl, rfl⟩ | (split <;> exact ⟨rfl, rfl⟩)
  have hy : (exec std r e .pdpExit).powerDownPre = r.powerDownPre.close e ∧ (exec std r e .pdpExit).memState = .notInPD := by
    cases std <;> exact ⟨rfl, rfl⟩
  refine ⟨?_, ?_, ?_, ?_⟩
  · cases std <;> exact ⟨rfl, rfl, rfl⟩
  · cases std <;> exact ⟨rfl, rfl, rfl⟩
  · rw [hx.1, hx.2]; exact ⟨Interval.isOpen_close .., rfl, hclose _⟩
  · rw [hy.1, hy.2]; exact ⟨Interval.isOpen_close .., rfl, hclose _⟩

/-! ## The hypotheses can be met -/

/-- A precharge at 20 (bound 23), an activation at 22 (bound 25, 26 for LPDDR6) and a refresh until 18. -/
def c10Trace : List Cmd :=
  [{ t := 0, type := .ACT, bank := 0 }, { t := 8, type := .PREA }, { t := 10, type := .REFA }, { t := 19, type := .ACT, bank := 1 },
   { t := 20, type := .PRE, bank := 1 }, { t := 22, type := .ACT, bank := 2 }]

example (std : Std) : ((Core.init Ex.ms).run std Ex.ms (c10Trace ++ [{ t := 23, type := .PDEA }])).isOk = true ∧
    (match (Core.init Ex.ms).run std Ex.ms (c10Trace ++ [{ t := 23, type := .PDEA }]) with | .ok c => c.queue.map (·.t) | _ => []) =
      [if std = .lpddr6 then 26 else 25] := by
  refine ⟨?_, ?_⟩ <;> cases std <;> decide +kernel

end DRAMPower
