import Verif.Lemmas.Locality

/-!
# What handlers do to the number of banks and to the command counters
-/

namespace DRAMPower

/-! ## The bank vector keeps its size -/

theorem handlePre_nBanks (std : Std) (r : Rank) (b t : Nat) : (handlePre std r b t).nBanks = r.nBanks := by
  cases std <;> simp only [handlePre, DDR4.handlePre, Shared.handlePre] <;> split <;>
    first | rfl | (split <;> rfl)

theorem foldl_nBanks {α : Type} {f : Rank → α → Rank} (hf : ∀ r a, (f r a).nBanks = r.nBanks) (l : List α) :
    ∀ r, (l.foldl f r).nBanks = r.nBanks := by
  induction l with
  | nil => intro r; rfl
  | cons a l ih => intro r; rw [List.foldl_cons, ih, hf]

theorem refreshOnBank_nBanks (cnt : Counters → Counters) (d t : Nat) (res : HRes) (b : Nat) :
    (Shared.handleRefreshOnBank cnt d t res b).1.nBanks = res.1.nBanks := by
  simp only [Shared.handleRefreshOnBank]
  split <;> rfl

theorem refreshFold_nBanks (cnt : Counters → Counters) (d t : Nat) (l : List Nat) :
    ∀ res : HRes, (l.foldl (Shared.handleRefreshOnBank cnt d t) res).1.nBanks = res.1.nBanks := by
  induction l with
  | nil => intro r; rfl
  | cons a l ih => intro r; rw [List.foldl_cons, ih, refreshOnBank_nBanks]

theorem handleRefAll_nBanks (std : Std) (ms : MemSpec) (r : Rank) (t : Nat) :
    (handleRefAll std ms r t).1.nBanks = r.nBanks := by
  cases std
  case ddr4 => rfl
  all_goals
    exact refreshFold_nBanks _ _ _ _ (r, [])

theorem exec_nBanks (std : Std) (r : Rank) (t : Nat) (i : Imp) : (exec std r t i).nBanks = r.nBanks := by
  cases i with
  | pre b => exact handlePre_nBanks std r b t
  | refEnd b => cases std <;> simp only [exec, DDR4.execRefEnd, Shared.execRefEnd] <;> split <;> rfl
  | srefEnter => rfl
  | pdaEnter => cases std <;> rfl
  | pdaExit => cases std <;> simp only [exec, DDR4.execPdaExit, Shared.execPdaExit, LPDDR6.execPdaExit] <;> first | rfl | (split <;> rfl)
  | pdpEnter => cases std <;> rfl
  | pdpExit => cases std <;> rfl

theorem withBank_ok {r : Rank} {b : Nat} {k : Except Err HRes} {x : HRes} (h : withBank r b k = .ok x) :
    b < r.nBanks ∧ k = .ok x := by
  unfold withBank at h
  split at h
  · rename_i hb; exact ⟨hb, h⟩
  · exact absurd h (by simp)

theorem handle_nBanks {std ms r c r' imps} (h : handle std ms r c = .ok (r', imps)) : r'.nBanks = r.nBanks := by
  unfold handle at h
  split at h
  case h_1 => obtain ⟨_, h⟩ := withBank_ok h; injection h with h; injection h with h _; subst h
              cases std <;> simp only [handleAct, DDR4.handleAct, Shared.handleAct] <;> first | rfl | (split <;> rfl)
  case h_2 => obtain ⟨_, h⟩ := withBank_ok h; injection h with h; injection h with h _; subst h
              exact handlePre_nBanks ..
  case h_3 => injection h with h; injection h with h _; subst h
              exact foldl_nBanks (fun r b => handlePre_nBanks std r b c.t) _ _
  case h_4 => injection h with h; have := congrArg Prod.fst h; subst this; exact handleRefAll_nBanks ..
  case h_5 => obtain ⟨_, h⟩ := withBank_ok h; injection h with h; injection h with h _; subst h; rfl
  case h_6 => obtain ⟨_, h⟩ := withBank_ok h; injection h with h; injection h with h _; subst h; rfl
  case h_7 => obtain ⟨_, h⟩ := withBank_ok h; injection h with h; injection h with h _; subst h; rfl
  case h_8 => obtain ⟨_, h⟩ := withBank_ok h; injection h with h; injection h with h _; subst h; rfl
  case h_9 => injection h with h; have := congrArg Prod.fst h; subst this; exact handleRefAll_nBanks ..
  case h_10 => unfold handleSelfRefreshExit at h; split at h
               · injection h with h; injection h with h _; subst h; rfl
               · exact absurd h (by simp)
  case h_11 => injection h with h; injection h with h _; subst h; rfl
  case h_12 => injection h with h; injection h with h _; subst h; rfl
  case h_13 => unfold handlePowerDownActExit at h; split at h
               · exact absurd h (by simp)
               · injection h with h; injection h with h _; subst h; rfl
  case h_14 => injection h with h; injection h with h _; subst h; rfl
  case h_15 => split at h
               · obtain ⟨_, h⟩ := withBank_ok h
                 unfold handlePreSameBank at h
                 split at h
                 · exact absurd h (by simp)
                 · split at h
                   · injection h with h; injection h with h _; subst h
                     exact foldl_nBanks (fun r b => handlePre_nBanks .ddr5 r b c.t) _ _
                   · exact absurd h (by simp)
               · exact absurd h (by simp)
  case h_16 => split at h
               · obtain ⟨_, h⟩ := withBank_ok h
                 unfold handleRefSameBank at h
                 split at h
                 · exact absurd h (by simp)
                 · split at h
                   · injection h with h; have := congrArg Prod.fst h; subst this
                     exact refreshFold_nBanks ..
                   · exact absurd h (by simp)
               · exact absurd h (by simp)
  case h_17 => split at h
               · obtain ⟨_, h⟩ := withBank_ok h
                 injection h with h; have := congrArg Prod.fst h; subst this
                 exact refreshOnBank_nBanks ..
               · exact absurd h (by simp)
  case h_18 => split at h
               · split at h
                 · exact absurd h (by simp)
                 · obtain ⟨_, h⟩ := withBank_ok h
                   unfold handleRefPerTwoBanks at h
                   simp only at h
                   split at h
                   · injection h with h; have := congrArg Prod.fst h; subst this
                     exact refreshFold_nBanks ..
                   · exact absurd h (by simp)
               · exact absurd h (by simp)
  case h_19 => split at h
               · obtain ⟨_, h⟩ := withBank_ok h
                 obtain ⟨_, h⟩ := withBank_ok h
                 injection h with h; have := congrArg Prod.fst h; subst this
                 exact refreshFold_nBanks ..
               · exact absurd h (by simp)
  case h_20 => split at h
               · unfold handleDSMEntry at h; split at h
                 · injection h with h; injection h with h _; subst h; rfl
                 · exact absurd h (by simp)
               · exact absurd h (by simp)
  case h_21 => split at h
               · unfold handleDSMExit at h; split at h
                 · injection h with h; injection h with h _; subst h; rfl
                 · exact absurd h (by simp)
               · exact absurd h (by simp)
  all_goals exact absurd h (by simp)

theorem rprocess_nBanks (std : Std) (t : Nat) (q : List (Nat × Imp)) : ∀ r, (rprocess std t r q).1.nBanks = r.nBanks := by
  induction q with
  | nil => intro r; rfl
  | cons e q ih =>
    intro r
    simp only [rprocess]
    split
    · rw [ih, exec_nBanks]
    · rfl

/-- Reachable cores have `numberOfBanks` banks in every rank. -/
def WF (ms : MemSpec) (c : Core) : Prop := ∀ i, (c.ranks i).nBanks = ms.numberOfBanks

theorem processQ_wf {std ms t} {q : List QEntry} : ∀ {ranks last}, (∀ i, (ranks i : Rank).nBanks = ms.numberOfBanks) →
    WF ms (processQ std t ranks last q) := by
  induction q with
  | nil => intro ranks last h; exact h
  | cons e q ih =>
    intro ranks last h
    simp only [processQ]
    split
    · apply ih
      intro i
      simp only [upd]
      split
      · rw [exec_nBanks]; exact h _
      · exact h i
    · exact h

theorem process_wf {std ms t} {c : Core} (h : WF ms c) : WF ms (c.process std t) := processQ_wf h

theorem doCommand_wf {std ms cmd} {c c' : Core} (h : WF ms c) (hd : c.doCommand std ms cmd = .ok c') : WF ms c' := by
  simp only [Core.doCommand] at hd
  have hp : WF ms (c.process std cmd.t) := process_wf h
  split at hd
  · injection hd with hd; subst hd; exact hp
  · split at hd
    · split at hd
      · rename_i hh
        injection hd with hd; subst hd
        intro i
        simp only [upd]
        split
        · rw [handle_nBanks hh]; exact hp _
        · exact hp i
      · exact absurd hd (by simp)
    · exact absurd hd (by simp)

theorem run_wf {std ms cmds} : ∀ {c c' : Core}, WF ms c → c.run std ms cmds = .ok c' → WF ms c' := by
  induction cmds with
  | nil => intro c c' h hr; simp only [Core.run] at hr; injection hr with hr; subst hr; exact h
  | cons cmd cmds ih =>
    intro c c' h hr
    simp only [Core.run] at hr
    split at hr
    · rename_i h1; exact ih (doCommand_wf h h1) hr
    · exact absurd hr (by simp)

theorem init_wf (ms : MemSpec) : WF ms (Core.init ms) := fun _ => rfl

end DRAMPower
