import Verif.Spec.Schedule
import Verif.Lemmas.Session
import Verif.Sim.Trace

/-!
# The core follows a well-scheduled event log
-/

namespace DRAMPower

open Spec

def _root_.DRAMPower.Spec.Deferred.toQ (d : Deferred) : QEntry := ⟨d.t, d.rank, d.imp⟩

/-- `addImplicit` on tagged entries. -/
def tinsert (d : Deferred) : List Deferred → List Deferred
  | [] => [d]
  | x :: q => if d.t < x.t then d :: x :: q else x :: tinsert d q

theorem tinsert_erase (d : Deferred) (q : List Deferred) : (tinsert d q).map (·.toQ) = addImplicit d.toQ (q.map (·.toQ)) := by
  induction q with
  | nil => rfl
  | cons x q ih =>
    simp only [tinsert, List.map_cons, addImplicit]
    have : (d.toQ.t < x.toQ.t) ↔ d.t < x.t := Iff.rfl
    split
    · rw [if_pos (this.2 ‹_›)]; rfl
    · rw [if_neg (fun h => ‹¬ _› (this.1 h)), List.map_cons, ih]

theorem mem_tinsert {d x : Deferred} {q : List Deferred} : x ∈ tinsert d q ↔ x = d ∨ x ∈ q := by
  induction q with
  | nil => simp [tinsert]
  | cons y q ih =>
    simp only [tinsert]
    split
    · simp
    · simp only [List.mem_cons, ih]
      constructor
      · rintro (h | h | h) <;> simp [h]
      · rintro (h | h | h) <;> simp [h]

theorem tinsert_sorted {d : Deferred} {q : List Deferred} (h : q.Pairwise Deferred.before) (hd : ∀ x ∈ q, x.id < d.id) :
    (tinsert d q).Pairwise Deferred.before := by
  induction q with
  | nil => simp [tinsert]
  | cons y q ih =>
    have h' := List.pairwise_cons.1 h
    simp only [tinsert]
    split
    · rename_i hlt
      rw [List.pairwise_cons]
      refine ⟨?_, h⟩
      intro x hx
      rcases List.mem_cons.1 hx with rfl | hx
      · exact .inl hlt
      · have := h'.1 x hx
        unfold Deferred.before at this ⊢
        omega
    · rename_i hge
      rw [List.pairwise_cons]
      refine ⟨?_, ih h'.2 (fun x hx => hd x (by simp [hx]))⟩
      intro x hx
      rcases mem_tinsert.1 hx with rfl | hx
      · have := hd y (by simp)
        unfold Deferred.before
        omega
      · exact h'.1 x hx

theorem _root_.DRAMPower.Spec.Replays.append {std ms r0 n0 l r1 n1 l' r2 n2} (h : Replays std ms r0 n0 l r1 n1) (h' : Replays std ms r1 n1 l' r2 n2) :
    Replays std ms r0 n0 (l ++ l') r2 n2 := by
  induction h with
  | nil => exact h'
  | noEffect hc _ ih => exact .noEffect hc (ih h')
  | cmd hc _ ih => rw [List.cons_append, List.append_assoc]; exact .cmd hc (ih h')
  | exec _ ih => exact .exec (ih h')

/-- A split of `l ++ [e]` at `x` is at the end or inside `l`. -/
theorem snoc_split {α : Type} {l l₁ l₂ : List α} {e x : α} (h : l ++ [e] = l₁ ++ x :: l₂) :
    (l₁ = l ∧ x = e) ∨ ∃ l₃, l = l₁ ++ x :: l₃ := by
  rcases List.eq_nil_or_concat l₂ with rfl | ⟨l₃, y, rfl⟩
  · have := List.append_inj' h rfl
    exact .inl ⟨this.1.symm, by simpa using this.2.symm⟩
  · right
    refine ⟨l₃, ?_⟩
    have h' : l ++ [e] = (l₁ ++ x :: l₃) ++ [y] := by rw [h]; simp
    exact (List.append_inj' h' rfl).1

structure SInv (std : Std) (ms : MemSpec) (ranks0 : Nat → Rank) (c : Core) (tq : List Deferred) (n : Nat)
    (log : List Event) (now : Nat) : Prop where
  erase : tq.map (·.toQ) = c.queue
  rep : Replays std ms ranks0 0 log c.ranks n
  lex : tq.Pairwise Deferred.before
  pend : ∀ d, d ∈ tq ↔ .issue d ∈ log ∧ .exec d ∉ log
  ids : ∀ d, .issue d ∈ log → d.id < n
  numbered : log.Pairwise fun x y => ∀ a b, x = .issue a → y = .issue b → a.id < b.id
  issued : ∀ l₁ d l₂, log = l₁ ++ .exec d :: l₂ → .issue d ∈ l₁
  ordered : log.Pairwise fun x y => ∀ a b, x = .exec a → y = .exec b → a.before b
  inTime : ∀ l₁ c l₂, log = l₁ ++ .cmd c :: l₂ → ∀ d, .issue d ∈ l₁ → (.exec d ∈ l₁ ↔ d.t ≤ c.t)
  past : ∀ d, .exec d ∈ log → d.t ≤ now
  fut : ∀ d ∈ tq, now ≤ d.t
  exq : ∀ a, .exec a ∈ log → ∀ b ∈ tq, a.before b
  last : c.last = latest log
  lastLe : latest log ≤ now

theorem latest_snoc (log : List Event) (e : Event) :
    latest (log ++ [e]) = match e with | .cmd c => max (latest log) c.t | .exec d => max (latest log) d.t | .issue _ => latest log := by
  unfold latest
  rw [List.foldl_append]
  rfl

theorem exec_issued {log : List Event} (h : ∀ l₁ d l₂, log = l₁ ++ .exec d :: l₂ → .issue d ∈ l₁) {d} (hd : .exec d ∈ log) :
    .issue d ∈ log := by
  obtain ⟨l₁, l₂, rfl⟩ := List.append_of_mem hd
  exact List.mem_append_left _ (h _ _ _ rfl)

/-- A due deferred command is executed. -/
theorem SInv.pop {std ms ranks0 ranks last d tq n log now}
    (h : SInv std ms ranks0 { ranks := ranks, queue := d.toQ :: tq.map (·.toQ), last := last } (d :: tq) n log now) :
    SInv std ms ranks0 { ranks := upd ranks d.rank (exec std (ranks d.rank) d.t d.imp), queue := tq.map (·.toQ), last := d.t } tq n
      (log ++ [.exec d]) d.t := by
  have hlex := List.pairwise_cons.1 h.lex
  have hd := (h.pend d).1 (by simp)
  have hnow := h.fut d (by simp)
  refine ⟨rfl, ?_, hlex.2, ?_, ?_, ?_, ?_, ?_, ?_, ?_, ?_, ?_, ?_, ?_⟩
  · exact h.rep.append (.exec (.nil _ _))
  · intro x
    have hx := h.pend x
    simp only [List.mem_cons, List.mem_append, List.not_mem_nil, or_false, not_or, reduceCtorEq] at hx ⊢
    constructor
    · intro hm
      obtain ⟨h1, h2⟩ := hx.1 (.inr hm)
      refine ⟨h1, h2, ?_⟩
      intro he
      injection he with he
      subst he
      have := hlex.1 x hm
      unfold Deferred.before at this
      omega
    · rintro ⟨h1, h2, h3⟩
      rcases hx.2 ⟨h1, h2⟩ with rfl | hm
      · exact absurd rfl h3
      · exact hm
  · intro x hx
    simp only [List.mem_append, List.mem_singleton, reduceCtorEq, or_false] at hx
    exact h.ids x hx
  · rw [List.pairwise_append]
    refine ⟨h.numbered, by simp, ?_⟩
    intro x _ y hy a b _ hb
    simp only [List.mem_singleton] at hy
    subst hy
    simp at hb
  · intro l₁ x l₂ hs
    rcases snoc_split hs with ⟨rfl, hx⟩ | ⟨l₃, hl⟩
    · injection hx with hx; subst hx; exact hd.1
    · exact h.issued l₁ x l₃ hl
  · rw [List.pairwise_append]
    refine ⟨h.ordered, by simp, ?_⟩
    intro x hx y hy a b ha hb
    simp only [List.mem_singleton] at hy
    subst hy ha
    injection hb with hb
    subst hb
    exact h.exq a hx _ (by simp)
  · intro l₁ x l₂ hs y hy
    rcases snoc_split hs with ⟨rfl, hx⟩ | ⟨l₃, hl⟩
    · simp at hx
    · exact h.inTime l₁ x l₃ hl y hy
  · intro x hx
    simp only [List.mem_append, List.mem_singleton, Event.exec.injEq] at hx
    rcases hx with hx | rfl
    · have := h.past x hx; omega
    · exact Nat.le_refl _
  · intro x hx
    have := hlex.1 x hx
    unfold Deferred.before at this
    omega
  · intro a ha b hb
    simp only [List.mem_append, List.mem_singleton, Event.exec.injEq] at ha
    rcases ha with ha | rfl
    · exact h.exq a ha b (by simp [hb])
    · exact hlex.1 b hb
  · rw [latest_snoc]
    have := h.lastLe
    simp only
    omega
  · rw [latest_snoc]
    have := h.lastLe
    simp only
    omega

theorem SInv.raise {std ms ranks0 c tq n log now t} (h : SInv std ms ranks0 c tq n log now) (ht : now ≤ t)
    (hq : ∀ d ∈ tq, t ≤ d.t) : SInv std ms ranks0 c tq n log t :=
  { h with past := fun d hd => Nat.le_trans (h.past d hd) ht, fut := hq, lastLe := Nat.le_trans h.lastLe ht }

/-- Processing the queue executes exactly the due commands. -/
theorem SInv.process {std ms ranks0 t} : ∀ {tq ranks last n log now},
    SInv std ms ranks0 { ranks := ranks, queue := tq.map (·.toQ), last := last } tq n log now → now ≤ t →
    ∃ tq' log', SInv std ms ranks0 (processQ std t ranks last (tq.map (·.toQ))) tq' n log' t ∧
      (∀ d ∈ tq', t < d.t) ∧ commands log' = commands log := by
  intro tq
  induction tq with
  | nil => intro ranks last n log now h ht; exact ⟨[], log, h.raise ht (by simp), by simp, rfl⟩
  | cons d tq ih =>
    intro ranks last n log now h ht
    simp only [List.map_cons, processQ]
    split
    · rename_i hle
      obtain ⟨tq', log', h1, h2, h3⟩ := ih (SInv.pop h) hle
      refine ⟨tq', log', h1, h2, ?_⟩
      rw [h3]
      simp [commands]
    · rename_i hgt
      have hd : t < d.t := Nat.lt_of_not_le hgt
      have hall : ∀ x ∈ d :: tq, t < x.t := by
        intro x hx
        rcases List.mem_cons.1 hx with rfl | hx
        · exact hd
        · have := (List.pairwise_cons.1 h.lex).1 x hx
          unfold Deferred.before at this
          omega
      exact ⟨d :: tq, log, h.raise ht (fun x hx => Nat.le_of_lt (hall x hx)), hall, rfl⟩

theorem issues_cons (n rank : Nat) (i : Nat × Imp) (imps : List (Nat × Imp)) :
    issues n rank (i :: imps) = .issue ⟨n, i.1, rank, i.2⟩ :: issues (n + 1) rank imps := by
  simp [issues, List.zipIdx_cons]

/-- Facts kept while a command issues its deferred commands. -/
structure IInv (q : List QEntry) (tq : List Deferred) (n : Nat) (log : List Event) (now : Nat) : Prop where
  erase : tq.map (·.toQ) = q
  lex : tq.Pairwise Deferred.before
  pend : ∀ d, d ∈ tq ↔ .issue d ∈ log ∧ .exec d ∉ log
  ids : ∀ d, .issue d ∈ log → d.id < n
  numbered : log.Pairwise fun x y => ∀ a b, x = .issue a → y = .issue b → a.id < b.id
  issued : ∀ l₁ d l₂, log = l₁ ++ .exec d :: l₂ → .issue d ∈ l₁
  ordered : log.Pairwise fun x y => ∀ a b, x = .exec a → y = .exec b → a.before b
  inTime : ∀ l₁ c l₂, log = l₁ ++ .cmd c :: l₂ → ∀ d, .issue d ∈ l₁ → (.exec d ∈ l₁ ↔ d.t ≤ c.t)
  past : ∀ d, .exec d ∈ log → d.t ≤ now
  fut : ∀ d ∈ tq, now ≤ d.t
  exq : ∀ a, .exec a ∈ log → ∀ b ∈ tq, a.before b

theorem IInv.issue {q tq n log now rank} {i : Nat × Imp} (h : IInv q tq n log now) (hi : now ≤ i.1) :
    IInv (addImplicit ⟨i.1, rank, i.2⟩ q) (tinsert ⟨n, i.1, rank, i.2⟩ tq) (n + 1)
      (log ++ [.issue ⟨n, i.1, rank, i.2⟩]) now := by
  have hnew : .exec (⟨n, i.1, rank, i.2⟩ : Deferred) ∉ log := by
    intro hx
    have := h.ids _ (exec_issued h.issued hx)
    simp at this
  refine ⟨?_, ?_, ?_, ?_, ?_, ?_, ?_, ?_, ?_, ?_, ?_⟩
  · rw [tinsert_erase, h.erase]; rfl
  · refine tinsert_sorted h.lex ?_
    intro x hx
    exact h.ids x ((h.pend x).1 hx).1
  · intro x
    rw [mem_tinsert, h.pend x]
    simp only [List.mem_append, List.mem_singleton, Event.issue.injEq, reduceCtorEq, or_false]
    constructor
    · rintro (rfl | ⟨h1, h2⟩)
      · exact ⟨.inr rfl, hnew⟩
      · exact ⟨.inl h1, h2⟩
    · rintro ⟨h1 | rfl, h2⟩
      · exact .inr ⟨h1, h2⟩
      · exact .inl rfl
  · intro x hx
    simp only [List.mem_append, List.mem_singleton, Event.issue.injEq] at hx
    rcases hx with hx | rfl
    · have := h.ids x hx; omega
    · simp
  · rw [List.pairwise_append]
    refine ⟨h.numbered, by simp, ?_⟩
    intro x hx y hy a b ha hb
    simp only [List.mem_singleton] at hy
    subst hy ha
    injection hb with hb
    subst hb
    exact h.ids a hx
  · intro l₁ x l₂ hs
    rcases snoc_split hs with ⟨_, hx⟩ | ⟨l₃, hl⟩
    · simp at hx
    · exact h.issued l₁ x l₃ hl
  · rw [List.pairwise_append]
    refine ⟨h.ordered, by simp, ?_⟩
    intro x _ y hy a b _ hb
    simp only [List.mem_singleton] at hy
    subst hy
    simp at hb
  · intro l₁ x l₂ hs y hy
    rcases snoc_split hs with ⟨_, hx⟩ | ⟨l₃, hl⟩
    · simp at hx
    · exact h.inTime l₁ x l₃ hl y hy
  · intro x hx
    simp only [List.mem_append, List.mem_singleton, reduceCtorEq, or_false] at hx
    exact h.past x hx
  · intro x hx
    rcases mem_tinsert.1 hx with rfl | hx
    · exact hi
    · exact h.fut x hx
  · intro a ha b hb
    simp only [List.mem_append, List.mem_singleton, reduceCtorEq, or_false] at ha
    rcases mem_tinsert.1 hb with rfl | hb
    · have h1 := h.past a ha
      have h2 := h.ids a (exec_issued h.issued ha)
      unfold Deferred.before
      simp only
      omega
    · exact h.exq a ha b hb

theorem IInv.issueAll {rank} {imps : List (Nat × Imp)} : ∀ {q tq n log now}, IInv q tq n log now → (∀ i ∈ imps, now ≤ i.1) →
    ∃ tq', IInv (enqueue rank imps q) tq' (n + imps.length) (log ++ issues n rank imps) now := by
  induction imps with
  | nil => intro q tq n log now h _; exact ⟨tq, by simpa [enqueue, issues] using h⟩
  | cons i imps ih =>
    intro q tq n log now h hi
    obtain ⟨tq', h'⟩ := ih (h.issue (rank := rank) (hi i (by simp))) (fun x hx => hi x (by simp [hx]))
    refine ⟨tq', ?_⟩
    rw [issues_cons]
    rw [List.append_assoc, List.singleton_append] at h'
    rw [List.length_cons, show n + (imps.length + 1) = n + 1 + imps.length by omega]
    exact h'

theorem commands_issues (n rank : Nat) (imps : List (Nat × Imp)) : commands (issues n rank imps) = [] := by
  induction imps generalizing n with
  | nil => rfl
  | cons i imps ih => rw [issues_cons]; simpa [commands] using ih (n + 1)

theorem commands_append (l l' : List Event) : commands (l ++ l') = commands l ++ commands l' := by simp [commands]

theorem latest_issues (log : List Event) (n rank : Nat) (imps : List (Nat × Imp)) : latest (log ++ issues n rank imps) = latest log := by
  induction imps generalizing n log with
  | nil => simp [issues]
  | cons i imps ih =>
    rw [issues_cons, show log ++ Event.issue ⟨n, i.1, rank, i.2⟩ :: issues (n + 1) rank imps =
      (log ++ [Event.issue ⟨n, i.1, rank, i.2⟩]) ++ issues (n + 1) rank imps by simp, ih, latest_snoc]

/-- One explicit command. -/
theorem SInv.step {std ms ranks0 c tq n log now cmd c'} (h : SInv std ms ranks0 c tq n log now) (ht : now ≤ cmd.t)
    (hd : c.doCommand std ms cmd = .ok c') :
    ∃ tq' n' log', SInv std ms ranks0 c' tq' n' log' cmd.t ∧ commands log' = commands log ++ [cmd] := by
  have h0 : SInv std ms ranks0 { ranks := c.ranks, queue := tq.map (·.toQ), last := c.last } tq n log now := by
    rw [h.erase]; exact h
  obtain ⟨tq1, log1, h1, hgt, hc1⟩ := SInv.process h0 ht
  rw [h.erase] at h1
  have hproc : processQ std cmd.t c.ranks c.last c.queue = c.process std cmd.t := rfl
  rw [hproc] at h1
  have hlast : max cmd.t (c.process std cmd.t).last = cmd.t := by
    have := h1.last; have := h1.lastLe; omega
  -- the log with the command appended
  have hI : IInv (c.process std cmd.t).queue tq1 n (log1 ++ [.cmd cmd]) cmd.t := by
    refine ⟨h1.erase, h1.lex, ?_, ?_, ?_, ?_, ?_, ?_, ?_, h1.fut, ?_⟩
    · intro x; rw [h1.pend x]; simp
    · intro x hx; exact h1.ids x (by simpa using hx)
    · rw [List.pairwise_append]
      refine ⟨h1.numbered, by simp, ?_⟩
      intro x _ y hy a b _ hb
      simp only [List.mem_singleton] at hy
      subst hy
      simp at hb
    · intro l₁ x l₂ hs
      rcases snoc_split hs with ⟨_, hx⟩ | ⟨l₃, hl⟩
      · simp at hx
      · exact h1.issued l₁ x l₃ hl
    · rw [List.pairwise_append]
      refine ⟨h1.ordered, by simp, ?_⟩
      intro x _ y hy a b _ hb
      simp only [List.mem_singleton] at hy
      subst hy
      simp at hb
    · intro l₁ x l₂ hs y hy
      rcases snoc_split hs with ⟨rfl, hx⟩ | ⟨l₃, hl⟩
      · injection hx with hx
        subst hx
        constructor
        · exact h1.past y
        · intro hle
          apply Classical.byContradiction
          intro hne
          have := hgt y ((h1.pend y).2 ⟨hy, hne⟩)
          omega
      · exact h1.inTime l₁ x l₃ hl y hy
    · intro x hx; exact h1.past x (by simpa using hx)
    · intro a ha; exact h1.exq a (by simpa using ha)
  have hl1 : latest (log1 ++ [.cmd cmd]) = cmd.t := by
    rw [latest_snoc]; have := h1.lastLe; simp only; omega
  simp only [Core.doCommand, hlast] at hd
  split at hd
  · rename_i hne
    injection hd with hd
    subst hd
    refine ⟨tq1, n, log1 ++ [.cmd cmd], ⟨hI.erase, ?_, hI.lex, hI.pend, hI.ids, hI.numbered, hI.issued, hI.ordered, hI.inTime, hI.past,
      hI.fut, hI.exq, hl1.symm, by omega⟩, ?_⟩
    · refine h1.rep.append (.noEffect ?_ (.nil _ _))
      unfold isNoEffect at hne
      simpa using hne
    · rw [commands_append, hc1]; rfl
  · split at hd
    · split at hd
      · rename_i r imps hh
        injection hd with hd
        subst hd
        obtain ⟨tq2, h2⟩ := hI.issueAll (rank := cmd.rank) (handle_imps_ge hh)
        refine ⟨tq2, _, _, ⟨h2.erase, ?_, h2.lex, h2.pend, h2.ids, h2.numbered, h2.issued, h2.ordered, h2.inTime, h2.past,
          h2.fut, h2.exq, ?_, ?_⟩, ?_⟩
        · rw [List.append_assoc]
          refine h1.rep.append ?_
          have := Replays.cmd (std := std) (ms := ms) (n := n) (l := []) hh (.nil (std := std) (ms := ms) _ _)
          simpa using this
        · rw [latest_issues, hl1]
        · rw [latest_issues, hl1]; exact Nat.le_refl _
        · rw [commands_append, commands_append, commands_issues, hc1]; simp [commands]
      · exact absurd hd (by simp)
    · exact absurd hd (by simp)

theorem SInv.run {std ms ranks0 cmds} : ∀ {c tq n log now c'}, SInv std ms ranks0 c tq n log now → Ordered cmds →
    (∀ x ∈ cmds, now ≤ x.t) → c.run std ms cmds = .ok c' →
    ∃ tq' n' log' now', SInv std ms ranks0 c' tq' n' log' now' ∧ commands log' = commands log ++ cmds ∧
      ∀ t, now ≤ t → NotBefore cmds t → now' ≤ t := by
  induction cmds with
  | nil =>
    intro c tq n log now c' h _ _ hr
    simp only [Core.run] at hr; injection hr with hr; subst hr
    exact ⟨tq, n, log, now, h, by simp, fun t ht _ => ht⟩
  | cons x cmds ih =>
    intro c tq n log now c' h ho hn hr
    have ho' := List.pairwise_cons.1 ho
    simp only [Core.run] at hr
    split at hr
    · rename_i c1 hc1
      obtain ⟨tq1, n1, log1, h1, hl1⟩ := h.step (hn x (by simp)) hc1
      obtain ⟨tq2, n2, log2, now2, h2, hl2, hb⟩ := ih h1 ho'.2 ho'.1 hr
      refine ⟨tq2, n2, log2, now2, h2, by rw [hl2, hl1]; simp, ?_⟩
      intro t _ hnb
      exact hb t (hnb x (by simp)) (fun y hy => hnb y (by simp [hy]))
    · exact absurd hr (by simp)

theorem init_sinv (std : Std) (ms : MemSpec) : SInv std ms (Core.init ms).ranks (Core.init ms) [] 0 [] 0 := by
  refine ⟨rfl, .nil _ _, ?_, ?_, ?_, ?_, ?_, ?_, ?_, ?_, ?_, ?_, rfl, ?_⟩ <;> simp [latest]

end DRAMPower
