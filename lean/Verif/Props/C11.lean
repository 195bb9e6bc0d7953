import Verif.Props.C06

/-!
# C11: last command time

That the value is the time of the latest executed command is part of theorem `C08`.
-/

namespace DRAMPower

/-- Latest time of any call. -/
def latestOp (ops : List Op) : Nat := ops.foldl (fun m o => max m o.time) 0

/-- Latest time of any command. -/
def latestCmd (ops : List Op) : Nat := (cmdsOf ops).foldl (fun m c => max m c.t) 0

theorem session_append {std ms} {l l' : List Op} : ∀ {c : Core}, c.session std ms (l ++ l') = match c.session std ms l with
    | .ok (c, a) => (match c.session std ms l' with | .ok (c', a') => .ok (c', a ++ a') | .error e => .error e)
    | .error e => .error e := by
  induction l with
  | nil =>
    intro c
    simp only [List.nil_append, Core.session]
    split <;> simp_all
  | cons o l ih =>
    intro c
    cases o with
    | cmd cmd =>
      simp only [List.cons_append, Core.session]
      split
      · exact ih
      · rfl
    | query t =>
      simp only [List.cons_append, Core.session, ih]
      cases h : Core.session std ms (Core.getWindowStats std ms c t).1 l with
      | error e => rfl
      | ok r =>
        obtain ⟨c1, a⟩ := r
        simp only
        cases h' : Core.session std ms c1 l' with
        | error e => rfl
        | ok r => rfl

theorem session_timed {std ms} {ops : List Op} : ∀ {c c' : Core} {now ans}, Timed now c → OrderedOps ops →
    (∀ o ∈ ops, now ≤ o.time) → c.session std ms ops = .ok (c', ans) →
    c.last ≤ c'.last ∧ (∀ x ∈ cmdsOf ops, x.t ≤ c'.last) ∧ Timed (ops.foldl (fun m o => max m o.time) now) c' := by
  induction ops with
  | nil =>
    intro c c' now ans h _ _ hs
    simp only [Core.session] at hs
    injection hs with hs; injection hs with hs _; subst hs
    exact ⟨Nat.le_refl _, by simp [cmdsOf], h⟩
  | cons o ops ih =>
    intro c c' now ans h ho hn hs
    have ho' := List.pairwise_cons.1 ho
    have hno := hn o (by simp)
    have hmax : max now o.time = o.time := by omega
    cases o with
    | cmd cmd =>
      simp only [Core.session] at hs
      split at hs
      · rename_i c1 h1
        obtain ⟨ht, hl⟩ := doCommand_timed h hno h1
        obtain ⟨g1, g2, g3⟩ := ih ht ho'.2 ho'.1 hs
        have hcl : c.last ≤ cmd.t := Nat.le_trans h.last hno
        refine ⟨by omega, ?_, by rw [List.foldl_cons, hmax]; exact g3⟩
        intro x hx
        have hx' : x = cmd ∨ x ∈ cmdsOf ops := by
          have : cmdsOf (.cmd cmd :: ops) = cmd :: cmdsOf ops := rfl
          rw [this] at hx
          simpa using hx
        rcases hx' with rfl | hx'
        · omega
        · exact g2 x hx'
      · exact absurd hs (by simp)
    | query t =>
      simp only [Core.session] at hs
      split at hs
      · rename_i c1 a1 h1
        injection hs with hs; injection hs with hs _; subst hs
        obtain ⟨ht, hl⟩ := process_timed (std := std) h hno
        obtain ⟨g1, g2, g3⟩ := ih ht ho'.2 ho'.1 h1
        have hl' : c.last ≤ (c.process std t).last := hl
        have g1' : (c.process std t).last ≤ c1.last := g1
        refine ⟨by omega, g2, by rw [List.foldl_cons, hmax]; exact g3⟩
      · exact absurd hs (by simp)

theorem foldl_cmd_max_le {l : List Cmd} {m n : Nat} (hm : m ≤ n) (h : ∀ x ∈ l, x.t ≤ n) : l.foldl (fun m c => max m c.t) m ≤ n := by
  induction l generalizing m with
  | nil => exact hm
  | cons x l ih =>
    rw [List.foldl_cons]
    have := h x (by simp)
    exact ih (by omega) (fun y hy => h y (by simp [hy]))

/-- For calls with non-decreasing times: the last command time is at least the time of the latest explicit
command and at most the time of the latest call. -/
theorem C11_bounds (std : Std) (ms : MemSpec) (ops : List Op) (ho : OrderedOps ops) (c : Core) (ans : List CoreStats)
    (h : (Core.init ms).session std ms ops = .ok (c, ans)) :
    latestCmd ops ≤ c.lastCommandTime ∧ c.lastCommandTime ≤ latestOp ops := by
  obtain ⟨_, h2, h3⟩ := session_timed (init_timed ms) ho (fun _ _ => Nat.zero_le _) h
  exact ⟨foldl_cmd_max_le (Nat.zero_le _) h2, h3.last⟩

/-- It never decreases along a session. -/
theorem C11_monotone (std : Std) (ms : MemSpec) (ops ops' : List Op) (ho : OrderedOps (ops ++ ops'))
    (c c' : Core) (ans ans' : List CoreStats) (h : (Core.init ms).session std ms ops = .ok (c, ans))
    (h' : (Core.init ms).session std ms (ops ++ ops') = .ok (c', ans')) :
    c.lastCommandTime ≤ c'.lastCommandTime := by
  obtain ⟨ho1, ho2, ho3⟩ := List.pairwise_append.1 ho
  obtain ⟨_, _, h3⟩ := session_timed (init_timed ms) ho1 (fun _ _ => Nat.zero_le _) h
  rw [session_append, h] at h'
  simp only at h'
  split at h'
  · rename_i c2 a2 h2
    injection h' with h'; injection h' with h' _; subst h'
    refine (session_timed h3 ho2 ?_ h2).1
    intro o ho'
    have key : ∀ (l : List Op) (m n : Nat), m ≤ n → (∀ x ∈ l, x.time ≤ n) → l.foldl (fun m o => max m o.time) m ≤ n := by
      intro l
      induction l with
      | nil => intro m n h _; exact h
      | cons x l ih => intro m n hm hx; have := hx x (by simp); exact ih _ _ (Nat.max_le.2 ⟨hm, this⟩) (fun y hy => hx y (by simp [hy]))
    exact key ops 0 o.time (Nat.zero_le _) (fun x hx => ho3 x hx o ho')
  · exact absurd h' (by simp)

/-- Directly after a command it is the time of that command. -/
theorem C11_after_command (std : Std) (ms : MemSpec) (ops : List Op) (cmd : Cmd) (ho : OrderedOps (ops ++ [.cmd cmd]))
    (c : Core) (ans : List CoreStats) (h : (Core.init ms).session std ms (ops ++ [.cmd cmd]) = .ok (c, ans)) :
    c.lastCommandTime = cmd.t := by
  obtain ⟨ho1, _, ho3⟩ := List.pairwise_append.1 ho
  obtain ⟨h1, h2⟩ := C11_bounds std ms _ ho c ans h
  have key : ∀ (l : List Op) (m n : Nat), m ≤ n → (∀ x ∈ l, x.time ≤ n) → l.foldl (fun m o => max m o.time) m ≤ n := by
    intro l
    induction l with
    | nil => intro m n h _; exact h
    | cons x l ih => intro m n hm hx; have := hx x (by simp); exact ih _ _ (Nat.max_le.2 ⟨hm, this⟩) (fun y hy => hx y (by simp [hy]))
  have hop : latestOp (ops ++ [.cmd cmd]) ≤ cmd.t := by
    refine key _ 0 _ (Nat.zero_le _) ?_
    intro x hx
    rcases List.mem_append.1 hx with hx | hx
    · exact ho3 x hx (.cmd cmd) (by simp)
    · simp only [List.mem_singleton] at hx; subst hx; exact Nat.le_refl _
  have hc : cmd.t ≤ latestCmd (ops ++ [.cmd cmd]) := by
    unfold latestCmd
    have : cmdsOf (ops ++ [.cmd cmd]) = cmdsOf ops ++ [cmd] := by simp [cmdsOf]
    rw [this, List.foldl_append]
    simp only [List.foldl_cons, List.foldl_nil]
    omega
  omega

/-! ## The hypotheses can be met -/

example (std : Std) : OrderedOps (c06Ops ++ [.cmd { t := 60, type := .PDXP }]) ∧
    ((Core.init Ex.ms).session std Ex.ms (c06Ops ++ [.cmd { t := 60, type := .PDXP }])).isOk = true := by
  refine ⟨?_, ?_⟩ <;> cases std <;> decide +kernel

end DRAMPower
