import Verif.Lemmas.Queue

/-!
# A core is a collection of independent rank-local machines
-/

namespace DRAMPower

/-- The commands of a trace that reach rank `i`. -/
def rankCmds (std : Std) (i : Nat) (cmds : List Cmd) : List Cmd :=
  cmds.filter fun c => c.rank = i && !isNoEffect std c.type

/-- `rprocess` on a pair. -/
def rproc (std : Std) (t : Nat) (s : HRes) : HRes := rprocess std t s.1 s.2

theorem rproc_rproc {std} {t t' : Nat} {s : HRes} (h : t ≤ t') :
    rproc std t' (rproc std t s) = rproc std t' s := rprocess_rprocess h

theorem Core.process_local' {std t} {c : Core} (h : Sorted c.queue) (i : Nat) :
    (c.process std t).local i = rproc std t (c.local i) := Core.process_local h i

theorem rstep_eq (std : Std) (ms : MemSpec) (s : HRes) (c : Cmd) :
    rstep std ms s c = rstep std ms (rproc std c.t s) c := by
  simp only [rstep]
  have : rprocess std c.t (rproc std c.t s).1 (rproc std c.t s).2 = rprocess std c.t s.1 s.2 :=
    rprocess_rprocess (Nat.le_refl _)
  rw [this]

theorem doCommand_sorted {std ms} {c c' : Core} {cmd : Cmd} (hs : Sorted c.queue)
    (h : c.doCommand std ms cmd = .ok c') : Sorted c'.queue := by
  simp only [Core.doCommand] at h
  have hp := Core.process_sorted (std := std) (t := cmd.t) hs
  split at h
  · injection h with h; subst h; exact hp
  · split at h
    · split at h
      · injection h with h; subst h; exact enqueue_sorted hp
      · exact absurd h (by simp)
    · exact absurd h (by simp)

theorem doCommand_local_ne {std ms} {c c' : Core} {cmd : Cmd} {i : Nat} (hs : Sorted c.queue)
    (h : c.doCommand std ms cmd = .ok c') (hne : isNoEffect std cmd.type = true ∨ cmd.rank ≠ i) :
    c'.local i = rproc std cmd.t (c.local i) := by
  simp only [Core.doCommand] at h
  rw [← Core.process_local' hs]
  split at h
  · injection h with h; subst h; rfl
  · rename_i hn
    split at h
    · split at h
      · injection h with h; subst h
        have hi : cmd.rank ≠ i := hne.resolve_left hn
        simp only [Core.local, enqueue_local_ne hi, upd]
        rw [if_neg (Ne.symm hi)]
      · exact absurd h (by simp)
    · exact absurd h (by simp)

theorem doCommand_local_eq {std ms} {c c' : Core} {cmd : Cmd} (hs : Sorted c.queue)
    (h : c.doCommand std ms cmd = .ok c') (hn : isNoEffect std cmd.type = false) :
    rstep std ms (c.local cmd.rank) cmd = .ok (c'.local cmd.rank) := by
  simp only [Core.doCommand, hn] at h
  have hp := Core.process_local' (std := std) (t := cmd.t) hs cmd.rank
  simp only [rproc] at hp
  have hps := Core.process_sorted (std := std) (t := cmd.t) hs
  simp only [rstep, ← hp]
  simp only [Bool.false_eq_true, if_false] at h
  split at h
  · split at h
    · rename_i r imps hh
      injection h with h; subst h
      simp only [Core.local] at hh ⊢
      rw [hh]
      simp only [enqueue_local hps, upd, if_true]
    · exact absurd h (by simp)
  · exact absurd h (by simp)

theorem doCommand_ok {std ms} {c : Core} {cmd : Cmd} (hs : Sorted c.queue)
    (h : isNoEffect std cmd.type = true ∨
      (cmd.rank < ms.numberOfRanks ∧ ∃ s', rstep std ms (c.local cmd.rank) cmd = .ok s')) :
    ∃ c', c.doCommand std ms cmd = .ok c' := by
  simp only [Core.doCommand]
  split
  · exact ⟨_, rfl⟩
  · rename_i hn
    obtain ⟨hr, s', hs'⟩ := h.resolve_left hn
    simp only [hr, if_true]
    have hp := Core.process_local' (std := std) (t := cmd.t) hs cmd.rank
    simp only [rproc] at hp
    simp only [rstep, ← hp] at hs'
    simp only [Core.local] at hs'
    split
    · exact ⟨_, rfl⟩
    · rename_i e he
      rw [he] at hs'
      exact absurd hs' (by simp)

theorem doCommand_rank_lt {std ms} {c c' : Core} {cmd : Cmd}
    (h : c.doCommand std ms cmd = .ok c') :
    isNoEffect std cmd.type = true ∨ cmd.rank < ms.numberOfRanks := by
  simp only [Core.doCommand] at h
  split at h
  · rename_i hn; exact .inl hn
  · split at h
    · rename_i hr; exact .inr hr
    · exact absurd h (by simp)

/-- Timestamps do not decrease, starting from `now`. -/
def TimesFrom (now : Nat) : List Cmd → Prop
  | [] => True
  | c :: cs => now ≤ c.t ∧ TimesFrom c.t cs

instance decTimesFrom (now : Nat) : (cs : List Cmd) → Decidable (TimesFrom now cs)
  | [] => isTrue trivial
  | c :: cs => @instDecidableAnd _ _ _ (decTimesFrom c.t cs)

/-- Time of the last command, at least `now`. -/
def endTime (now : Nat) : List Cmd → Nat
  | [] => now
  | c :: cs => endTime c.t cs

theorem le_endTime {now : Nat} {cs : List Cmd} (h : TimesFrom now cs) : now ≤ endTime now cs := by
  induction cs generalizing now with
  | nil => exact Nat.le_refl _
  | cons c cs ih => exact Nat.le_trans h.1 (ih h.2)

theorem rstep_congr {std ms} {s s' : HRes} {T : Nat} {c : Cmd} (h : rproc std T s = rproc std T s')
    (hT : T ≤ c.t) : rstep std ms s c = rstep std ms s' c := by
  rw [rstep_eq, ← rproc_rproc hT, h, rproc_rproc hT, ← rstep_eq]

/-- Projection of a run to one rank. -/
theorem run_local {std ms} {c c' : Core} {cmds : List Cmd} {i T : Nat} {s : HRes}
    (hs : Sorted c.queue) (ht : TimesFrom T cmds) (he : rproc std T s = rproc std T (c.local i))
    (h : c.run std ms cmds = .ok c') :
    Sorted c'.queue ∧ ∃ s', rrun std ms s (rankCmds std i cmds) = .ok s' ∧
      rproc std (endTime T cmds) s' = rproc std (endTime T cmds) (c'.local i) := by
  induction cmds generalizing c T s with
  | nil =>
    simp only [Core.run] at h; injection h with h; subst h
    exact ⟨hs, s, rfl, he⟩
  | cons cmd cmds ih =>
    simp only [Core.run] at h
    split at h
    · rename_i c1 h1
      have hs1 := doCommand_sorted hs h1
      by_cases hc : cmd.rank = i ∧ isNoEffect std cmd.type = false
      · have hl := doCommand_local_eq hs h1 hc.2
        have hrs : rstep std ms s cmd = .ok (c1.local i) := by
          rw [rstep_congr he ht.1, ← hc.1]; exact hl
        have hfil : rankCmds std i (cmd :: cmds) = cmd :: rankCmds std i cmds := by
          simp [rankCmds, hc.1, hc.2]
        rw [hfil]
        simp only [rrun, hrs]
        exact ih hs1 ht.2 rfl h
      · have hne : isNoEffect std cmd.type = true ∨ cmd.rank ≠ i := by
          by_cases hr : cmd.rank = i
          · left; cases hb : isNoEffect std cmd.type
            · exact absurd ⟨hr, hb⟩ hc
            · rfl
          · exact .inr hr
        have hl := doCommand_local_ne hs h1 hne
        have hfil : rankCmds std i (cmd :: cmds) = rankCmds std i cmds := by
          simp only [rankCmds]
          rw [List.filter_cons_of_neg]
          rcases hne with h | h <;> simp [h]
        rw [hfil]
        refine ih hs1 ht.2 ?_ h
        rw [hl, rproc_rproc (Nat.le_refl _), ← rproc_rproc ht.1, he, rproc_rproc ht.1]
    · exact absurd h (by simp)

/-- A trace is accepted when every rank accepts its own part. -/
theorem run_ok {std ms} {c : Core} {cmds : List Cmd} {T : Nat} {s : Nat → HRes}
    (hs : Sorted c.queue) (ht : TimesFrom T cmds)
    (he : ∀ i < ms.numberOfRanks, rproc std T (s i) = rproc std T (c.local i))
    (hr : ∀ cmd ∈ cmds, isNoEffect std cmd.type = true ∨ cmd.rank < ms.numberOfRanks)
    (h : ∀ i < ms.numberOfRanks, ∃ s', rrun std ms (s i) (rankCmds std i cmds) = .ok s') :
    ∃ c', c.run std ms cmds = .ok c' := by
  induction cmds generalizing c T s with
  | nil => exact ⟨c, rfl⟩
  | cons cmd cmds ih =>
    simp only [Core.run]
    have hok : ∃ c', c.doCommand std ms cmd = .ok c' := by
      apply doCommand_ok hs
      rcases hr cmd (by simp) with h' | h'
      · exact .inl h'
      · cases hb : isNoEffect std cmd.type
        · refine .inr ⟨h', ?_⟩
          obtain ⟨s', hs'⟩ := h _ h'
          have hfil : rankCmds std cmd.rank (cmd :: cmds) = cmd :: rankCmds std cmd.rank cmds := by
            simp [rankCmds, hb]
          rw [hfil] at hs'
          simp only [rrun] at hs'
          split at hs'
          · rename_i s1 h1
            exact ⟨s1, by rw [← rstep_congr (he _ h') ht.1]; exact h1⟩
          · exact absurd hs' (by simp)
        · exact .inl rfl
    obtain ⟨c1, h1⟩ := hok
    rw [h1]
    have hs1 := doCommand_sorted hs h1
    refine ih (s := fun i => if i = cmd.rank ∧ isNoEffect std cmd.type = false then c1.local i else s i)
      hs1 ht.2 ?_ (fun x hx => hr x (by simp [hx])) ?_
    · intro i hi
      split
      · rfl
      · rename_i hc
        have hne : isNoEffect std cmd.type = true ∨ cmd.rank ≠ i := by
          by_cases hr : i = cmd.rank
          · left; cases hb : isNoEffect std cmd.type
            · exact absurd ⟨hr, hb⟩ hc
            · rfl
          · exact .inr (Ne.symm hr)
        rw [doCommand_local_ne hs h1 hne, rproc_rproc (Nat.le_refl _), ← rproc_rproc ht.1, he i hi,
          rproc_rproc ht.1]
    · intro i hi
      obtain ⟨s', hs'⟩ := h i hi
      by_cases hc : i = cmd.rank ∧ isNoEffect std cmd.type = false
      · rw [if_pos hc]
        have hfil : rankCmds std i (cmd :: cmds) = cmd :: rankCmds std i cmds := by
          simp [rankCmds, hc.1, hc.2]
        rw [hfil] at hs'
        simp only [rrun] at hs'
        have hl := doCommand_local_eq hs h1 hc.2
        have hrs : rstep std ms (s i) cmd = .ok (c1.local i) := by
          rw [rstep_congr (he i hi) ht.1, hc.1]; exact hl
        rw [hrs] at hs'
        exact ⟨s', hs'⟩
      · rw [if_neg hc]
        have hfil : rankCmds std i (cmd :: cmds) = rankCmds std i cmds := by
          simp only [rankCmds]
          rw [List.filter_cons_of_neg]
          intro hcon
          simp only [Bool.and_eq_true, decide_eq_true_eq, Bool.not_eq_true'] at hcon
          exact hc ⟨hcon.1.symm, hcon.2⟩
        rw [hfil] at hs'
        exact ⟨s', hs'⟩

end DRAMPower
