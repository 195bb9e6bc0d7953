import Verif.Model.Session
import Verif.Lemmas.Handlers

/-!
# Lemmas about sessions
-/

namespace DRAMPower

/-! ## Implicit commands are never queued for the past -/

theorem refreshFold_imps (cnt : Counters → Counters) (d t : Nat) (l : List Nat) :
    ∀ res : HRes, (l.foldl (Shared.handleRefreshOnBank cnt d t) res).2 = res.2 ++ l.map fun b => (t + d, .refEnd b) := by
  induction l with
  | nil => intro res; simp
  | cons a l ih => intro res; rw [List.foldl_cons, ih]; simp [Shared.handleRefreshOnBank]

theorem handleRefAll_imps (std : Std) (ms : MemSpec) (r : Rank) (t : Nat) :
    (handleRefAll std ms r t).2 = (List.range r.nBanks).map fun b => (t + ms.tRFC, .refEnd b) := by
  cases std
  case ddr4 => rfl
  all_goals exact refreshFold_imps _ _ _ _ (r, [])

theorem handle_imps_ge {std ms r c r' imps} (h : handle std ms r c = .ok (r', imps)) : ∀ i ∈ imps, c.t ≤ i.1 := by
  have hmap : ∀ (d : Nat) (l : List Nat), ∀ i ∈ ([] : List (Nat × Imp)) ++ l.map (fun b => (c.t + d, Imp.refEnd b)), c.t ≤ i.1 := by
    intro d l i hi
    simp only [List.nil_append, List.mem_map] at hi
    obtain ⟨b, _, rfl⟩ := hi
    simp
  unfold handle at h
  split at h
  case h_1 | h_2 | h_5 | h_7 =>
    obtain ⟨_, h⟩ := withBank_ok h
    injection h with h; injection h with _ h; subst h; simp
  case h_3 => injection h with h; injection h with _ h; subst h; simp
  case h_4 => injection h with h; have := congrArg Prod.snd h; subst this
              rw [handleRefAll_imps]; exact hmap _ _
  case h_6 | h_8 =>
    obtain ⟨_, h⟩ := withBank_ok h
    injection h with h; injection h with _ h; subst h
    intro i hi
    simp only [List.mem_singleton] at hi
    subst hi
    simp only; omega
  case h_9 => injection h with h; have := congrArg Prod.snd h; subst this
              intro i hi
              simp only [handleSelfRefreshEntry, List.mem_append, handleRefAll_imps, List.mem_singleton] at hi
              rcases hi with hi | rfl
              · exact hmap _ _ i hi
              · simp
  case h_10 => unfold handleSelfRefreshExit at h; split at h
               · injection h with h; injection h with _ h; subst h; simp
               · exact absurd h (by simp)
  case h_11 | h_12 | h_14 =>
    injection h with h; injection h with _ h; subst h
    intro i hi
    simp only [List.mem_singleton] at hi
    subst hi
    simp only; omega
  case h_13 => unfold handlePowerDownActExit at h; split at h
               · exact absurd h (by simp)
               · injection h with h; injection h with _ h; subst h
                 intro i hi
                 simp only [List.mem_singleton] at hi
                 subst hi
                 simp only; omega
  case h_15 => split at h
               · obtain ⟨_, h⟩ := withBank_ok h
                 unfold handlePreSameBank at h
                 split at h
                 · exact absurd h (by simp)
                 · split at h
                   · injection h with h; injection h with _ h; subst h; simp
                   · exact absurd h (by simp)
               · exact absurd h (by simp)
  case h_16 => split at h
               · obtain ⟨_, h⟩ := withBank_ok h
                 unfold handleRefSameBank at h
                 split at h
                 · exact absurd h (by simp)
                 · split at h
                   · injection h with h; have := congrArg Prod.snd h; subst this
                     rw [refreshFold_imps]; exact hmap _ _
                   · exact absurd h (by simp)
               · exact absurd h (by simp)
  case h_17 => split at h
               · obtain ⟨_, h⟩ := withBank_ok h
                 injection h with h; have := congrArg Prod.snd h; subst this
                 intro i hi
                 simp only [handleRefPerBank, Shared.handleRefreshOnBank, List.nil_append, List.mem_singleton] at hi
                 subst hi
                 simp
               · exact absurd h (by simp)
  case h_18 => split at h
               · split at h
                 · exact absurd h (by simp)
                 · obtain ⟨_, h⟩ := withBank_ok h
                   unfold handleRefPerTwoBanks at h
                   simp only at h
                   split at h
                   · injection h with h; have := congrArg Prod.snd h; subst this
                     rw [refreshFold_imps]; exact hmap _ _
                   · exact absurd h (by simp)
               · exact absurd h (by simp)
  case h_19 => split at h
               · obtain ⟨_, h⟩ := withBank_ok h
                 obtain ⟨_, h⟩ := withBank_ok h
                 injection h with h; have := congrArg Prod.snd h; subst this
                 unfold handleRefDualBanks
                 rw [refreshFold_imps]; exact hmap _ _
               · exact absurd h (by simp)
  case h_20 => split at h
               · unfold handleDSMEntry at h; split at h
                 · injection h with h; injection h with _ h; subst h; simp
                 · exact absurd h (by simp)
               · exact absurd h (by simp)
  case h_21 => split at h
               · unfold handleDSMExit at h; split at h
                 · injection h with h; injection h with _ h; subst h; simp
                 · exact absurd h (by simp)
               · exact absurd h (by simp)
  all_goals exact absurd h (by simp)

/-! ## Processing and the last command time -/

theorem mem_enqueue {rank : Nat} {imps : List (Nat × Imp)} {q : List QEntry} {x : QEntry} :
    x ∈ enqueue rank imps q ↔ (∃ i ∈ imps, x = ⟨i.1, rank, i.2⟩) ∨ x ∈ q := by
  unfold enqueue
  induction imps generalizing q with
  | nil => simp
  | cons i imps ih =>
    rw [List.foldl_cons, ih, mem_addImplicit]
    simp only [List.mem_cons, exists_eq_or_imp]
    constructor
    · rintro (h | h | h) <;> simp [h]
    · rintro ((h | h) | h) <;> simp [h]

theorem processQ_queue_gt {std t ranks last} {q : List QEntry} (h : Sorted q) :
    ∀ e ∈ (processQ std t ranks last q).queue, t < e.t := by
  induction q generalizing ranks last with
  | nil => simp [processQ]
  | cons e q ih =>
    have h' := List.pairwise_cons.1 h
    simp only [processQ]
    split
    · exact ih h'.2
    · rename_i hgt
      intro x hx
      rcases List.mem_cons.1 hx with rfl | hx
      · omega
      · have := h'.1 x hx; omega

theorem processQ_queue_sub {std t ranks last} {q : List QEntry} :
    ∀ e ∈ (processQ std t ranks last q).queue, e ∈ q := by
  induction q generalizing ranks last with
  | nil => simp [processQ]
  | cons e q ih =>
    simp only [processQ]
    split
    · intro x hx; exact List.mem_cons_of_mem _ (ih x hx)
    · intro x hx; exact hx

theorem processQ_last_ge {std t ranks last} {q : List QEntry} (h : Sorted q) (hl : ∀ e ∈ q, last ≤ e.t) :
    last ≤ (processQ std t ranks last q).last := by
  induction q generalizing ranks last with
  | nil => simp [processQ]
  | cons e q ih =>
    have h' := List.pairwise_cons.1 h
    simp only [processQ]
    split
    · have h1 := hl e (by simp)
      exact Nat.le_trans h1 (ih h'.2 h'.1)
    · exact Nat.le_refl _

theorem processQ_last_le {std t ranks last} {q : List QEntry} :
    (processQ std t ranks last q).last ≤ max t last := by
  induction q generalizing ranks last with
  | nil => simp only [processQ]; omega
  | cons e q ih =>
    simp only [processQ]
    split
    · have := ih (ranks := upd ranks e.rank (exec std (ranks e.rank) e.t e.imp)) (last := e.t); omega
    · simp only; omega

/-- Reachable by calls with non-decreasing times, the last of them at `now` (or none yet). -/
structure Timed (now : Nat) (c : Core) : Prop where
  sorted : Sorted c.queue
  pend : ∀ e ∈ c.queue, c.last ≤ e.t
  last : c.last ≤ now

theorem init_timed (ms : MemSpec) : Timed 0 (Core.init ms) := by
  refine ⟨?_, ?_, ?_⟩ <;> simp [Core.init, Sorted]

theorem process_timed {std now t} {c : Core} (h : Timed now c) (ht : now ≤ t) :
    Timed t (c.process std t) ∧ c.last ≤ (c.process std t).last := by
  have hl := processQ_last_le (std := std) (t := t) (ranks := c.ranks) (last := c.last) (q := c.queue)
  refine ⟨⟨Core.process_sorted h.sorted, ?_, ?_⟩, processQ_last_ge h.sorted h.pend⟩
  · intro e he
    have h1 := processQ_queue_gt h.sorted e he
    have h2 := h.last
    show (processQ std t c.ranks c.last c.queue).last ≤ e.t
    omega
  · have h2 := h.last
    show (processQ std t c.ranks c.last c.queue).last ≤ t
    omega

theorem doCommand_timed {std ms now cmd} {c c' : Core} (h : Timed now c) (ht : now ≤ cmd.t)
    (hd : c.doCommand std ms cmd = .ok c') : Timed cmd.t c' ∧ c'.last = cmd.t := by
  obtain ⟨⟨h1, h2, h3⟩, h4⟩ := process_timed (std := std) h ht
  have hgt : ∀ e ∈ (c.process std cmd.t).queue, cmd.t < e.t := processQ_queue_gt h.sorted
  simp only [Core.doCommand] at hd
  have hm : max cmd.t (c.process std cmd.t).last = cmd.t := by omega
  rw [hm] at hd
  split at hd
  · injection hd with hd; subst hd
    exact ⟨⟨h1, fun e he => Nat.le_of_lt (hgt e he), Nat.le_refl _⟩, rfl⟩
  · split at hd
    · split at hd
      · rename_i hh
        injection hd with hd; subst hd
        refine ⟨⟨enqueue_sorted h1, ?_, Nat.le_refl _⟩, rfl⟩
        intro e he
        rcases mem_enqueue.1 he with ⟨i, hi, rfl⟩ | he
        · exact handle_imps_ge hh i hi
        · exact Nat.le_of_lt (hgt e he)
      · exact absurd hd (by simp)
    · exact absurd hd (by simp)

/-- A command does not notice an earlier query. -/
theorem doCommand_process {std ms} {c : Core} {t : Nat} {cmd : Cmd} (h : t ≤ cmd.t) :
    (c.process std t).doCommand std ms cmd = c.doCommand std ms cmd := by
  simp only [Core.doCommand, Core.process_process h]

end DRAMPower
