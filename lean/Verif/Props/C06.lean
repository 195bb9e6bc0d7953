import Verif.Lemmas.Session
import Verif.Props.Examples

/-!
# C06: querying statistics does not disturb the simulation
-/

namespace DRAMPower

/-- Times of the calls do not decrease. -/
def OrderedOps (ops : List Op) : Prop := ops.Pairwise (·.time ≤ ·.time)

instance (ops : List Op) : Decidable (OrderedOps ops) := by unfold OrderedOps; infer_instance

/-- The commands of a session. -/
def cmdsOf (ops : List Op) : List Cmd := ops.filterMap fun | .cmd c => some c | .query _ => none

/-- Answer of a fresh simulator that receives only the commands `cmds` and then the query `t`. -/
def fresh (std : Std) (ms : MemSpec) (cmds : List Cmd) (t : Nat) : Except Err CoreStats :=
  match (Core.init ms).run std ms cmds with
  | .ok c => .ok (c.getWindowStats std ms t).2
  | .error e => .error e

/-- The answers a session would give if no query had an effect: each query is answered by a fresh
simulator that has seen only the commands before it. -/
def undisturbed (std : Std) (ms : MemSpec) (before : List Cmd) : List Op → List (Except Err CoreStats)
  | [] => []
  | .cmd c :: ops => undisturbed std ms (before ++ [c]) ops
  | .query t :: ops => fresh std ms before t :: undisturbed std ms before ops

theorem run_append {std ms} {l l' : List Cmd} : ∀ {c : Core}, c.run std ms (l ++ l') = match c.run std ms l with
    | .ok c => c.run std ms l'
    | .error e => .error e := by
  induction l with
  | nil => intro c; rfl
  | cons a l ih =>
    intro c
    simp only [List.cons_append, Core.run]
    split <;> rename_i h
    · exact ih
    · rfl

/-- Two cores that agree once the queue has been processed up to `now`. -/
def SameAt (std : Std) (now : Nat) (c d : Core) : Prop := c.process std now = d.process std now

theorem SameAt.mono {std now t} {c d : Core} (h : SameAt std now c d) (ht : now ≤ t) : SameAt std t c d := by
  unfold SameAt
  rw [← Core.process_process ht, h, Core.process_process ht]

theorem SameAt.doCommand {std ms now cmd} {c d : Core} (h : SameAt std now c d) (ht : now ≤ cmd.t) :
    c.doCommand std ms cmd = d.doCommand std ms cmd := by
  rw [← doCommand_process ht, h, doCommand_process ht]

theorem session_spec {std ms} {ops : List Op} : ∀ {c d : Core} {now : Nat} {before : List Cmd},
    OrderedOps ops → (∀ o ∈ ops, now ≤ o.time) → SameAt std now c d → (Core.init ms).run std ms before = .ok d →
    match c.session std ms ops with
    | .ok (c', ans) => ∃ d', (Core.init ms).run std ms (before ++ cmdsOf ops) = .ok d' ∧
        (∀ t, now ≤ t → (∀ o ∈ ops, o.time ≤ t) → SameAt std t c' d') ∧
        ans.map .ok = undisturbed std ms before ops
    | .error e => (Core.init ms).run std ms (before ++ cmdsOf ops) = .error e := by
  induction ops with
  | nil =>
    intro c d now before _ _ hs hd
    refine ⟨d, by simpa [cmdsOf] using hd, ?_, rfl⟩
    intro t ht _
    exact hs.mono ht
  | cons o ops ih =>
    intro c d now before ho hn hs hd
    have ho' := List.pairwise_cons.1 ho
    cases o with
    | cmd cmd =>
      have hle : now ≤ cmd.t := hn (.cmd cmd) (by simp)
      simp only [Core.session]
      have hc : cmdsOf (.cmd cmd :: ops) = cmd :: cmdsOf ops := rfl
      rw [hs.doCommand hle, hc]
      cases hdc : d.doCommand std ms cmd with
      | error e =>
        simp only
        rw [run_append, hd]
        simp only [Core.run, hdc]
      | ok d1 =>
        simp only
        have hd1 : (Core.init ms).run std ms (before ++ [cmd]) = .ok d1 := by
          rw [run_append, hd]; simp only [Core.run, hdc]
        have := ih (c := d1) (d := d1) (now := cmd.t) (before := before ++ [cmd]) ho'.2 (fun x hx => ho'.1 x hx) rfl hd1
        rw [show before ++ cmd :: cmdsOf ops = before ++ [cmd] ++ cmdsOf ops by simp]
        cases hss : d1.session std ms ops with
        | error e => rw [hss] at this; exact this
        | ok res =>
          rw [hss] at this
          obtain ⟨d', g1, g2, g3⟩ := this
          refine ⟨d', g1, ?_, g3⟩
          intro t ht hall
          exact g2 t (hall (.cmd cmd) (by simp)) (fun x hx => hall x (by simp [hx]))
    | query t =>
      have hle : now ≤ t := hn (.query t) (by simp)
      have hc : cmdsOf (.query t :: ops) = cmdsOf ops := rfl
      simp only [Core.session, hc]
      have hst : SameAt std t (c.process std t) d := by
        unfold SameAt
        rw [Core.process_process (Nat.le_refl t)]
        exact hs.mono hle
      have := ih (c := c.process std t) (d := d) (now := t) (before := before) ho'.2 (fun x hx => ho'.1 x hx) hst hd
      have hg : (c.getWindowStats std ms t).1 = c.process std t := rfl
      rw [hg]
      cases hss : (c.process std t).session std ms ops with
      | error e => rw [hss] at this; exact this
      | ok res =>
        rw [hss] at this
        obtain ⟨d', g1, g2, g3⟩ := this
        refine ⟨d', g1, ?_, ?_⟩
        · intro t' ht' hall
          exact g2 t' (hall (.query t) (by simp)) (fun x hx => hall x (by simp [hx]))
        · simp only [undisturbed, List.map_cons, g3]
          congr 1
          unfold fresh
          rw [hd]
          have hsm : c.process std t = d.process std t := hs.mono hle
          simp only [Core.getWindowStats, hsm]

/-- Every query of a session is answered as if no other query had been made. -/
theorem C06_answers (std : Std) (ms : MemSpec) (ops : List Op) (ho : OrderedOps ops) (c : Core) (ans : List CoreStats)
    (h : (Core.init ms).session std ms ops = .ok (c, ans)) : ans.map .ok = undisturbed std ms [] ops := by
  have := session_spec (std := std) (ms := ms) (c := Core.init ms) (d := Core.init ms) (now := 0) (before := []) ho
    (fun _ _ => Nat.zero_le _) rfl rfl
  rw [h] at this
  exact this.choose_spec.2.2

/-- Queries do not influence whether the commands are accepted, nor the error. -/
theorem C06_acceptance (std : Std) (ms : MemSpec) (ops : List Op) (ho : OrderedOps ops) :
    (∃ r, (Core.init ms).session std ms ops = .ok r) ↔ (∃ c, (Core.init ms).run std ms (cmdsOf ops) = .ok c) := by
  have := session_spec (std := std) (ms := ms) (c := Core.init ms) (d := Core.init ms) (now := 0) (before := []) ho
    (fun _ _ => Nat.zero_le _) rfl rfl
  rw [List.nil_append] at this
  cases h : (Core.init ms).session std ms ops with
  | ok r => rw [h] at this; obtain ⟨d, hd, _⟩ := this; exact ⟨fun _ => ⟨d, hd⟩, fun _ => ⟨r, rfl⟩⟩
  | error e =>
    rw [h] at this
    simp only at this
    rw [this]
    constructor <;> rintro ⟨_, h'⟩ <;> exact absurd h' (by simp)

/-- Statistics after a session are those of a simulator that has received only the commands. -/
theorem C06_final (std : Std) (ms : MemSpec) (ops : List Op) (ho : OrderedOps ops) (c : Core) (ans : List CoreStats)
    (h : (Core.init ms).session std ms ops = .ok (c, ans)) (t : Nat) (ht : ∀ o ∈ ops, o.time ≤ t) :
    .ok (c.getWindowStats std ms t).2 = fresh std ms (cmdsOf ops) t := by
  have := session_spec (std := std) (ms := ms) (c := Core.init ms) (d := Core.init ms) (now := 0) (before := []) ho
    (fun _ _ => Nat.zero_le _) rfl rfl
  rw [h, List.nil_append] at this
  obtain ⟨d, hd, hs, _⟩ := this
  unfold fresh
  rw [hd]
  have hsm : c.process std t = d.process std t := hs t (Nat.zero_le _) ht
  simp only [Core.getWindowStats, hsm]

/-- Reading the current statistics with `getStats()` twice in a row gives the same answer. -/
theorem C06_getStats_repeat (std : Std) (ms : MemSpec) (cmds : List Cmd) (ho : Spec.Ordered cmds) (c : Core)
    (h : (Core.init ms).run std ms cmds = .ok c) :
    ((c.getStats std ms).1.getStats std ms).2 = (c.getStats std ms).2 := by
  have ht : ∃ now, Timed now c := by
    have key : ∀ (cmds : List Cmd) (c c' : Core) (now : Nat), Spec.Ordered cmds → (∀ x ∈ cmds, now ≤ x.t) → Timed now c →
        c.run std ms cmds = .ok c' → ∃ now, Timed now c' := by
      intro cmds
      induction cmds with
      | nil => intro c c' now _ _ h1 h2; simp only [Core.run] at h2; injection h2 with h2; subst h2; exact ⟨now, h1⟩
      | cons x cmds ih =>
        intro c c' now ho hn h1 h2
        have ho' := List.pairwise_cons.1 ho
        simp only [Core.run] at h2
        split at h2
        · rename_i c1 hc1
          exact ih c1 c' x.t ho'.2 ho'.1 (doCommand_timed h1 (hn x (by simp)) hc1).1 h2
        · exact absurd h2 (by simp)
    exact key cmds _ c 0 ho (by simp) (init_timed ms) h
  obtain ⟨now, ht⟩ := ht
  have hlast : (c.process std c.last).last = c.last := by
    have h1 := (process_timed (std := std) (t := c.last) (now := c.last) ⟨ht.sorted, ht.pend, Nat.le_refl _⟩ (Nat.le_refl _)).2
    have h2 := processQ_last_le (std := std) (t := c.last) (ranks := c.ranks) (last := c.last) (q := c.queue)
    have h3 : (c.process std c.last).last ≤ max c.last c.last := h2
    omega
  simp only [Core.getStats, Core.getWindowStats, Core.lastCommandTime, hlast, Core.process_process (Nat.le_refl _)]

/-- Full statement for `getStats()`: a preceding window query (not before the last command) does not change
what `getStats()` returns. -/
def C06_getStats_statement (std : Std) : Prop :=
  ∀ ms cmds, Spec.Ordered cmds → ∀ c, (Core.init ms).run std ms cmds = .ok c →
  ∀ t, Spec.NotBefore cmds t → ((c.getWindowStats std ms t).1.getStats std ms).2 = (c.getStats std ms).2

/-- It is false: the window query executes a pending auto-precharge, this moves the last command time and
with it the window `getStats()` reports about. -/
theorem C06_getStats_violation (std : Std) : ¬ C06_getStats_statement std := by
  intro h
  let cmds : List Cmd := [{ t := 0, type := .ACT }, { t := 5, type := .RDA }]
  have hw : (match (Core.init Ex.ms).run std Ex.ms cmds with
      | .ok c => decide (((c.getWindowStats std Ex.ms 50).1.getStats std Ex.ms).2 ≠ (c.getStats std Ex.ms).2)
      | .error _ => false) = true := by cases std <;> decide +kernel
  split at hw
  · rename_i c hc
    have := h Ex.ms cmds (by decide) c hc 50 (by decide)
    simp [this] at hw
  · simp at hw

/-! ## The hypotheses can be met -/

/-- A session with queries before, between and after commands, with pending implicit commands. -/
def c06Ops : List Op :=
  [.query 0, .cmd { t := 0, type := .ACT }, .query 3, .cmd { t := 5, type := .RDA }, .query 5, .query 8, .query 8,
   .cmd { t := 9, type := .REFA, rank := 1 }, .query 12, .cmd { t := 13, type := .PDEP }, .query 14, .query 40]

example (std : Std) : OrderedOps c06Ops ∧ ((Core.init Ex.ms).session std Ex.ms c06Ops).isOk = true ∧
    ∀ o ∈ c06Ops, o.time ≤ 50 := by
  refine ⟨?_, ?_, ?_⟩ <;> cases std <;> decide +kernel

end DRAMPower
