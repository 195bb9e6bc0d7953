import Verif.Lemmas.Session
import Verif.Sim.Rel

/-!
# Which commands touch the self-refresh and deep-sleep intervals
-/

namespace DRAMPower

open Spec

/-- The two intervals. -/
def Rank.sd (r : Rank) : Interval × Interval := (r.sref, r.deepSleepMode)

theorem setBank_sd (r : Rank) (b : Nat) (x : Bank) : (r.setBank b x).sd = r.sd := rfl
theorem mapBanks_sd (r : Rank) (f : Bank → Bank) : (r.mapBanks f).sd = r.sd := rfl
theorem setAct_sd (r : Rank) (a : Interval) : ({ r with act := a } : Rank).sd = r.sd := rfl

theorem ifAct_sd (p : Prop) [Decidable p] (r : Rank) (a : Interval) : (if p then r else { r with act := a }).sd = r.sd := by
  split <;> rfl

theorem handlePre_sd (std : Std) (r : Rank) (b t : Nat) : (handlePre std r b t).sd = r.sd := by
  have : ∀ r : Rank, (Shared.handlePre r b t).sd = r.sd := by
    intro r
    unfold Shared.handlePre
    simp only
    split
    · rfl
    · exact ifAct_sd ..
  cases std
  case ddr4 => exact this r
  all_goals exact this r

theorem foldl_sd {α : Type} {f : Rank → α → Rank} (hf : ∀ r a, (f r a).sd = r.sd) (l : List α) :
    ∀ r, (l.foldl f r).sd = r.sd := by
  induction l with
  | nil => intro r; rfl
  | cons a l ih => intro r; rw [List.foldl_cons, ih, hf]

theorem refreshOnBank_sd (cnt : Counters → Counters) (d t : Nat) (res : HRes) (b : Nat) :
    (Shared.handleRefreshOnBank cnt d t res b).1.sd = res.1.sd := by
  unfold Shared.handleRefreshOnBank
  simp only [setBank_sd]
  exact ifAct_sd ..

theorem refreshFold_sd (cnt : Counters → Counters) (d t : Nat) (l : List Nat) :
    ∀ res : HRes, (l.foldl (Shared.handleRefreshOnBank cnt d t) res).1.sd = res.1.sd := by
  induction l with
  | nil => intro res; rfl
  | cons a l ih => intro res; rw [List.foldl_cons, ih, refreshOnBank_sd]

theorem handleRefAll_sd (std : Std) (ms : MemSpec) (r : Rank) (t : Nat) : (handleRefAll std ms r t).1.sd = r.sd := by
  cases std
  case ddr4 => rfl
  all_goals exact refreshFold_sd _ _ _ _ (r, [])

/-- Is it the deferred self-refresh entry? -/
def Imp.isSref : Imp → Bool
  | .srefEnter => true
  | _ => false

theorem exec_sd (std : Std) (r : Rank) (t : Nat) (i : Imp) :
    (exec std r t i).sd = if i.isSref = true then (r.sref.startAt t, r.deepSleepMode) else r.sd := by
  cases i with
  | pre b => exact handlePre_sd ..
  | refEnd b =>
    cases std <;> simp only [exec, DDR4.execRefEnd, Shared.execRefEnd, Imp.isSref] <;> exact ifAct_sd ..
  | srefEnter => rfl
  | pdaEnter => cases std <;> rfl
  | pdaExit => cases std <;> simp only [exec, DDR4.execPdaExit, Shared.execPdaExit, LPDDR6.execPdaExit] <;> first | rfl | (split <;> rfl)
  | pdpEnter => cases std <;> rfl
  | pdpExit => cases std <;> rfl

/-- Pending self-refresh entries. -/
def srefQ (q : List (Nat × Imp)) : List (Nat × Imp) := q.filter fun e => e.2.isSref

theorem rprocess_sorted {std t} {q : List (Nat × Imp)} : ∀ {r}, RSorted q → RSorted (rprocess std t r q).2 := by
  induction q with
  | nil => intro r h; exact h
  | cons e q ih =>
    intro r h
    simp only [rprocess]
    split
    · exact ih (List.pairwise_cons.1 h).2
    · exact h

theorem rprocess_sd {std t} {q : List (Nat × Imp)} : ∀ {r}, RSorted q →
    (rprocess std t r q).1.sd = (((srefQ q).filter (·.1 ≤ t)).foldl (fun I e => I.startAt e.1) r.sref, r.deepSleepMode) ∧
    srefQ (rprocess std t r q).2 = (srefQ q).filter fun e => t < e.1 := by
  induction q with
  | nil => intro r _; exact ⟨rfl, rfl⟩
  | cons e q ih =>
    intro r hs
    obtain ⟨h1, h2⟩ := List.pairwise_cons.1 hs
    simp only [rprocess]
    split
    · rename_i hle
      obtain ⟨g1, g2⟩ := ih (r := exec std r e.1 e.2) h2
      have hsd := exec_sd std r e.1 e.2
      have e1 : (exec std r e.1 e.2).sref = if e.2.isSref = true then r.sref.startAt e.1 else r.sref := by
        have := congrArg Prod.fst hsd
        rw [show (exec std r e.1 e.2).sref = (exec std r e.1 e.2).sd.1 from rfl, this]
        split <;> rfl
      have e2 : (exec std r e.1 e.2).deepSleepMode = r.deepSleepMode := by
        have := congrArg Prod.snd hsd
        rw [show (exec std r e.1 e.2).deepSleepMode = (exec std r e.1 e.2).sd.2 from rfl, this]
        split <;> rfl
      rw [g1, g2, e1, e2]
      unfold srefQ
      cases hi : e.2.isSref with
      | true =>
        rw [List.filter_cons_of_pos (by simpa using hi), List.filter_cons_of_pos (by simpa using hle), List.filter_cons_of_neg (by simp; omega)]
        exact ⟨rfl, rfl⟩
      | false =>
        rw [List.filter_cons_of_neg (by simp [hi])]
        exact ⟨rfl, rfl⟩
    · rename_i hgt
      have hall : ∀ x ∈ srefQ (e :: q), t < x.1 := by
        intro x hx
        rcases List.mem_cons.1 (List.mem_filter.1 hx).1 with rfl | hx
        · omega
        · have := h1 x hx; omega
      rw [List.filter_eq_nil_iff.2 (by intro x hx; have := hall x hx; simp; omega),
        List.filter_eq_self.2 (by intro x hx; simpa using hall x hx)]
      exact ⟨rfl, rfl⟩

theorem rinsert_sorted {e : Nat × Imp} {q : List (Nat × Imp)} (h : RSorted q) : RSorted (rinsert e q) := by
  induction q with
  | nil => simp [rinsert, RSorted]
  | cons x q ih =>
    obtain ⟨h1, h2⟩ := List.pairwise_cons.1 h
    simp only [rinsert]
    split
    · rename_i hlt
      refine List.pairwise_cons.2 ⟨?_, h⟩
      intro y hy
      rcases List.mem_cons.1 hy with rfl | hy
      · omega
      · have := h1 y hy; omega
    · refine List.pairwise_cons.2 ⟨?_, ih h2⟩
      intro y hy
      rcases mem_rinsert.1 hy with rfl | hy
      · omega
      · exact h1 y hy

theorem foldl_rinsert_sorted {imps : List (Nat × Imp)} : ∀ {q}, RSorted q → RSorted (imps.foldl (fun q i => rinsert i q) q) := by
  induction imps with
  | nil => intro q h; exact h
  | cons e imps ih => intro q h; exact ih (rinsert_sorted h)

theorem srefQ_insert_none {imps : List (Nat × Imp)} : ∀ {q}, srefQ imps = [] → srefQ (imps.foldl (fun q i => rinsert i q) q) = srefQ q := by
  induction imps with
  | nil => intro q _; rfl
  | cons e imps ih =>
    intro q h
    unfold srefQ at h
    rw [List.filter_cons] at h
    cases hi : e.2.isSref with
    | true => rw [hi] at h; simp at h
    | false =>
      rw [hi] at h
      rw [List.foldl_cons, ih (by simpa [srefQ] using h)]
      exact filter_rinsert_neg hi q

theorem srefQ_insert_last {imps : List (Nat × Imp)} {t : Nat} {q} (h : srefQ imps = []) (hq : srefQ q = []) :
    srefQ ((imps ++ [(t, Imp.srefEnter)]).foldl (fun q i => rinsert i q) q) = [(t, .srefEnter)] := by
  rw [List.foldl_append]
  refine filter_rinsert_nil rfl ?_
  exact (srefQ_insert_none h).trans hq

theorem srefQ_refEnds (t : Nat) (l : List Nat) : srefQ (l.map fun b => (t, Imp.refEnd b)) = [] := by
  unfold srefQ
  rw [List.filter_eq_nil_iff]
  intro x hx
  obtain ⟨b, _, rfl⟩ := List.mem_map.1 hx
  simp [Imp.isSref]

/-- Effect of a command on the two intervals and the pending self-refresh entries. -/
theorem handle_sd {std ms r c r' imps} (h : handle std ms r c = .ok (r', imps)) :
    match c.type with
    | .SREFEN => r'.sd = r.sd ∧ ∃ l, srefQ l = [] ∧ imps = l ++ [(c.t + ms.tRFC, .srefEnter)]
    | .SREFEX => r'.sd = (r.sref.close c.t, r.deepSleepMode) ∧ srefQ imps = []
    | .DSMEN => r'.sd = (r.sref, r.deepSleepMode.startAt c.t) ∧ srefQ imps = []
    | .DSMEX => r'.sd = (r.sref, r.deepSleepMode.close c.t) ∧ srefQ imps = []
    | _ => r'.sd = r.sd ∧ srefQ imps = [] := by
  have refOne : ∀ (cnt : Counters → Counters) (d : Nat) (l : List Nat), l.foldl (Shared.handleRefreshOnBank cnt d c.t) (r, []) = (r', imps) →
      r'.sd = r.sd ∧ srefQ imps = [] := by
    intro cnt d l hh
    have h1 := congrArg Prod.fst hh; have h2 := congrArg Prod.snd hh
    simp only at h1 h2
    refine ⟨by rw [← h1]; exact refreshFold_sd .., ?_⟩
    rw [← h2, refreshFold_imps, List.nil_append]
    exact srefQ_refEnds ..
  unfold handle at h
  split at h <;> rename_i hc <;> simp only [hc]
  case h_1 => obtain ⟨_, h⟩ := withBank_ok h; injection h with h; injection h with h h'; subst h h'
              refine ⟨?_, rfl⟩
              cases std <;> simp only [handleAct, DDR4.handleAct, Shared.handleAct] <;> first | rfl | (simp only [setBank_sd]; exact ifAct_sd ..)
  case h_2 => obtain ⟨_, h⟩ := withBank_ok h; injection h with h; injection h with h h'; subst h h'
              exact ⟨handlePre_sd .., rfl⟩
  case h_3 => injection h with h; injection h with h h'; subst h h'
              exact ⟨foldl_sd (fun r b => handlePre_sd std r b c.t) _ _, rfl⟩
  case h_4 => injection h with h
              have h1 := congrArg Prod.fst h; have h2 := congrArg Prod.snd h
              simp only at h1 h2
              subst h1 h2
              exact ⟨handleRefAll_sd .., by rw [handleRefAll_imps]; exact srefQ_refEnds ..⟩
  case h_5 | h_6 | h_7 | h_8 => obtain ⟨_, h⟩ := withBank_ok h; injection h with h; injection h with h h'; subst h h'; exact ⟨rfl, rfl⟩
  case h_9 => injection h with h
              have h1 := congrArg Prod.fst h; have h2 := congrArg Prod.snd h
              simp only at h1 h2
              subst h1 h2
              exact ⟨handleRefAll_sd .., _, by rw [handleRefAll_imps]; exact srefQ_refEnds .., rfl⟩
  case h_10 => unfold handleSelfRefreshExit at h; split at h
               · injection h with h; injection h with h h'; subst h h'; exact ⟨rfl, rfl⟩
               · exact absurd h (by simp)
  case h_11 | h_12 | h_14 => injection h with h; injection h with h h'; subst h h'; exact ⟨rfl, rfl⟩
  case h_13 => unfold handlePowerDownActExit at h; split at h
               · exact absurd h (by simp)
               · injection h with h; injection h with h h'; subst h h'; exact ⟨rfl, rfl⟩
  case h_15 => split at h
               · obtain ⟨_, h⟩ := withBank_ok h
                 unfold handlePreSameBank at h
                 split at h
                 · exact absurd h (by simp)
                 · split at h
                   · injection h with h; injection h with h h'; subst h h'
                     exact ⟨foldl_sd (fun r b => handlePre_sd .ddr5 r b c.t) _ _, rfl⟩
                   · exact absurd h (by simp)
               · exact absurd h (by simp)
  case h_16 => split at h
               · obtain ⟨_, h⟩ := withBank_ok h
                 unfold handleRefSameBank at h
                 split at h
                 · exact absurd h (by simp)
                 · split at h
                   · injection h with h; exact refOne _ _ _ h
                   · exact absurd h (by simp)
               · exact absurd h (by simp)
  case h_17 => split at h
               · obtain ⟨_, h⟩ := withBank_ok h
                 injection h with h
                 exact refOne _ _ [c.bank] h
               · exact absurd h (by simp)
  case h_18 => split at h
               · split at h
                 · exact absurd h (by simp)
                 · obtain ⟨_, h⟩ := withBank_ok h
                   unfold handleRefPerTwoBanks at h
                   simp only at h
                   split at h
                   · injection h with h; exact refOne _ _ _ h
                   · exact absurd h (by simp)
               · exact absurd h (by simp)
  case h_19 => split at h
               · obtain ⟨_, h⟩ := withBank_ok h
                 obtain ⟨_, h⟩ := withBank_ok h
                 injection h with h; exact refOne _ _ _ h
               · exact absurd h (by simp)
  case h_20 => split at h
               · unfold handleDSMEntry at h; split at h
                 · injection h with h; injection h with h h'; subst h h'; exact ⟨rfl, rfl⟩
                 · exact absurd h (by simp)
               · exact absurd h (by simp)
  case h_21 => split at h
               · unfold handleDSMExit at h; split at h
                 · injection h with h; injection h with h h'; subst h h'; exact ⟨rfl, rfl⟩
                 · exact absurd h (by simp)
               · exact absurd h (by simp)
  all_goals exact absurd h (by simp)

end DRAMPower
