import Verif.Lemmas.Serialize

/-!
# Elements outside the vectors stay untouched

In the model a vector is a function on all indices; here: no reachable state differs from the initial one outside
the index range of the vectors.
-/

namespace DRAMPower

/-- `n` banks, nothing stored outside. -/
structure Rank.Tidy (n : Nat) (r : Rank) : Prop where
  size : r.nBanks = n
  tail : ∀ b, n ≤ b → r.banks b = {}

/-- The bank captured by the lambda exists. -/
def Imp.Exists (n : Nat) : Imp → Prop
  | .pre b => b < n
  | .refEnd b => b < n
  | _ => True

theorem setBank_tidy {n r b x} (h : Rank.Tidy n r) (hb : b < n) : Rank.Tidy n (r.setBank b x) := by
  refine ⟨h.size, fun j hj => ?_⟩
  simp only [Rank.setBank, upd]
  rw [if_neg (by omega)]
  exact h.tail j hj

theorem mapBanks_tidy {n r f} (h : Rank.Tidy n r) : Rank.Tidy n (r.mapBanks f) := by
  refine ⟨h.size, fun j hj => ?_⟩
  simp only [Rank.mapBanks]
  rw [if_neg (by have := h.size; omega)]
  exact h.tail j hj

theorem mk_tidy {n} {r r' : Rank} (h : Rank.Tidy n r) (h1 : r'.nBanks = r.nBanks) (h2 : r'.banks = r.banks) : Rank.Tidy n r' :=
  ⟨h1.trans h.size, fun j hj => by rw [h2]; exact h.tail j hj⟩

theorem of_tidy {n} {r r' : Rank} (h : Rank.Tidy n r) (h1 : r'.nBanks = r.nBanks)
    (h2 : ∀ j, ¬ j < r.nBanks → r'.banks j = r.banks j) : Rank.Tidy n r' :=
  ⟨h1.trans h.size, fun j hj => by rw [h2 j (by rw [h.size]; omega)]; exact h.tail j hj⟩

theorem ifAct_tidy {n} {p : Prop} [Decidable p] {r : Rank} {a : Interval} (h : Rank.Tidy n r) :
    Rank.Tidy n (if p then r else { r with act := a }) := by
  split
  · exact h
  · exact mk_tidy h rfl rfl

theorem handlePre_tidy {n std r b t} (h : Rank.Tidy n r) (hb : b < n) : Rank.Tidy n (handlePre std r b t) := by
  have : Rank.Tidy n (Shared.handlePre r b t) := by
    unfold Shared.handlePre
    simp only
    split
    · exact h
    · exact ifAct_tidy (setBank_tidy h hb)
  cases std
  case ddr4 => exact this
  all_goals exact this

theorem handleAct_tidy {n std r b t} (h : Rank.Tidy n r) (hb : b < n) : Rank.Tidy n (handleAct std r b t) := by
  have : Rank.Tidy n (Shared.handleAct r b t) := by
    unfold Shared.handleAct
    simp only
    exact setBank_tidy (ifAct_tidy (setBank_tidy h hb)) hb
  cases std
  case ddr4 => exact mk_tidy (setBank_tidy h hb) rfl rfl
  all_goals exact this

theorem foldPre_tidy {n std t} {l : List Nat} : ∀ {r}, Rank.Tidy n r → (∀ b ∈ l, b < n) →
    Rank.Tidy n (l.foldl (fun r b => handlePre std r b t) r) := by
  induction l with
  | nil => intro r h _; exact h
  | cons a l ih => intro r h hl; exact ih (handlePre_tidy h (hl a (by simp))) (fun b hb => hl b (by simp [hb]))

theorem refreshOnBank_tidy {n cnt d t res b} (h : Rank.Tidy n (Prod.fst res)) (hb : b < n) :
    Rank.Tidy n (Shared.handleRefreshOnBank cnt d t res b).1 := by
  unfold Shared.handleRefreshOnBank
  simp only
  exact setBank_tidy (ifAct_tidy (setBank_tidy h hb)) hb

theorem refreshFold_tidy {n cnt d t} {l : List Nat} : ∀ {res : HRes}, Rank.Tidy n res.1 → (∀ b ∈ l, b < n) →
    Rank.Tidy n (l.foldl (Shared.handleRefreshOnBank cnt d t) res).1 := by
  induction l with
  | nil => intro r h _; exact h
  | cons a l ih => intro r h hl; exact ih (refreshOnBank_tidy h (hl a (by simp))) (fun b hb => hl b (by simp [hb]))

theorem handleRefAll_tidy {n std ms r t} (h : Rank.Tidy n r) : Rank.Tidy n (handleRefAll std ms r t).1 := by
  cases std
  case ddr4 => exact of_tidy h rfl fun j hj => by simp [handleRefAll, DDR4.handleRefAll, Rank.mapBanks, hj]
  all_goals
    exact mk_tidy (refreshFold_tidy (res := (r, [])) h (by intro b hb; rw [← h.size]; exact List.mem_range.1 hb)) rfl rfl

theorem exec_tidy {n std r t i} (h : Rank.Tidy n r) (hi : Imp.Exists n i) : Rank.Tidy n (exec std r t i) := by
  cases i with
  | pre b => exact handlePre_tidy h hi
  | refEnd b => cases std <;> simp only [exec, DDR4.execRefEnd, Shared.execRefEnd] <;> exact ifAct_tidy (setBank_tidy h hi)
  | srefEnter => exact mk_tidy h rfl rfl
  | pdaEnter => cases std <;> simp only [exec, DDR4.execPdaEnter, Shared.execPdaEnter] <;> exact mapBanks_tidy (mk_tidy h rfl rfl)
  | pdaExit =>
    cases std <;> simp only [exec, DDR4.execPdaExit, Shared.execPdaExit, LPDDR6.execPdaExit] <;>
      first
      | exact of_tidy h rfl fun j hj => by simp [Rank.mapBanks, hj]
      | (split <;> exact of_tidy h rfl fun j hj => by simp [Rank.mapBanks, hj])
  | pdpEnter =>
    cases std <;> simp only [exec, DDR4.execPdpEnter, Shared.execPdpEnter] <;>
      first | exact mk_tidy h rfl rfl | exact of_tidy h rfl fun j hj => by simp [Rank.mapBanks, hj]
  | pdpExit =>
    cases std <;> simp only [exec, DDR4.execPdpExit, Shared.execPdpExit] <;>
      first | exact mk_tidy h rfl rfl | exact mapBanks_tidy (mk_tidy h rfl rfl)

theorem exists_refEnds {n : Nat} {l : List Nat} {t : Nat} (h : ∀ b ∈ l, b < n) :
    ∀ e ∈ l.map (fun b => (t, Imp.refEnd b)), Imp.Exists n e.2 := by
  intro e he
  obtain ⟨b, hb, rfl⟩ := List.mem_map.1 he
  exact h b hb

theorem handle_tidy {n std ms r c r' imps} (hr : Rank.Tidy n r) (h : handle std ms r c = .ok (r', imps)) :
    Rank.Tidy n r' ∧ ∀ e ∈ imps, Imp.Exists n e.2 := by
  have refs : ∀ (cnt : Counters → Counters) (d : Nat) (l : List Nat), (∀ b ∈ l, b < n) →
      l.foldl (Shared.handleRefreshOnBank cnt d c.t) (r, []) = (r', imps) → Rank.Tidy n r' ∧ ∀ e ∈ imps, Imp.Exists n e.2 := by
    intro cnt d l hl hh
    have h1 := congrArg Prod.fst hh; have h2 := congrArg Prod.snd hh
    simp only at h1 h2
    refine ⟨by rw [← h1]; exact refreshFold_tidy hr hl, ?_⟩
    rw [← h2, refreshFold_imps, List.nil_append]
    exact exists_refEnds hl
  have rng : ∀ b ∈ List.range r.nBanks, b < n := by intro b hb; rw [← hr.size]; exact List.mem_range.1 hb
  have none : ∀ e ∈ ([] : List (Nat × Imp)), Imp.Exists n e.2 := by simp
  unfold handle at h
  split at h
  case h_1 => obtain ⟨hb, h⟩ := withBank_ok h; rw [hr.size] at hb; injection h with h; injection h with h h'; subst h h'
              exact ⟨handleAct_tidy hr hb, none⟩
  case h_2 => obtain ⟨hb, h⟩ := withBank_ok h; rw [hr.size] at hb; injection h with h; injection h with h h'; subst h h'
              exact ⟨handlePre_tidy hr hb, none⟩
  case h_3 => injection h with h; injection h with h h'; subst h h'
              exact ⟨foldPre_tidy hr rng, none⟩
  case h_4 => injection h with h
              have h1 := congrArg Prod.fst h; have h2 := congrArg Prod.snd h
              simp only at h1 h2
              subst h1 h2
              exact ⟨handleRefAll_tidy hr, by rw [handleRefAll_imps]; exact exists_refEnds rng⟩
  case h_5 | h_7 => obtain ⟨hb, h⟩ := withBank_ok h; rw [hr.size] at hb; injection h with h; injection h with h h'; subst h h'
                    exact ⟨setBank_tidy hr hb, none⟩
  case h_6 | h_8 => obtain ⟨hb, h⟩ := withBank_ok h; rw [hr.size] at hb; injection h with h; injection h with h h'; subst h h'
                    exact ⟨setBank_tidy hr hb, by intro e he; rw [List.mem_singleton] at he; subst he; exact hb⟩
  case h_9 => injection h with h
              have h1 := congrArg Prod.fst h; have h2 := congrArg Prod.snd h
              simp only at h1 h2
              subst h1 h2
              refine ⟨handleRefAll_tidy hr, ?_⟩
              intro e he
              simp only [handleSelfRefreshEntry, List.mem_append, List.mem_singleton] at he
              rcases he with he | rfl
              · rw [handleRefAll_imps] at he; exact exists_refEnds rng e he
              · exact trivial
  case h_10 => unfold handleSelfRefreshExit at h; split at h
               · injection h with h; injection h with h h'; subst h h'; exact ⟨mk_tidy hr rfl rfl, none⟩
               · exact absurd h (by simp)
  case h_11 | h_12 | h_14 => injection h with h; injection h with h h'; subst h h'
                             exact ⟨hr, by intro e he; rw [List.mem_singleton] at he; subst he; exact trivial⟩
  case h_13 => unfold handlePowerDownActExit at h; split at h
               · exact absurd h (by simp)
               · injection h with h; injection h with h h'; subst h h'
                 exact ⟨hr, by intro e he; rw [List.mem_singleton] at he; subst he; exact trivial⟩
  case h_15 => split at h
               · obtain ⟨_, h⟩ := withBank_ok h
                 unfold handlePreSameBank at h
                 split at h
                 · exact absurd h (by simp)
                 · split at h
                   · rename_i hall
                     injection h with h; injection h with h h'; subst h h'
                     exact ⟨foldPre_tidy (std := .ddr5) hr (by intro b hb; rw [← hr.size]; simpa using List.all_eq_true.1 hall b hb), none⟩
                   · exact absurd h (by simp)
               · exact absurd h (by simp)
  case h_16 => split at h
               · obtain ⟨_, h⟩ := withBank_ok h
                 unfold handleRefSameBank at h
                 split at h
                 · exact absurd h (by simp)
                 · split at h
                   · rename_i hall
                     injection h with h
                     exact refs _ _ _ (by intro b hb; rw [← hr.size]; simpa using List.all_eq_true.1 hall b hb) h
                   · exact absurd h (by simp)
               · exact absurd h (by simp)
  case h_17 => split at h
               · obtain ⟨hb, h⟩ := withBank_ok h; rw [hr.size] at hb
                 injection h with h
                 exact refs _ _ [c.bank] (by simpa using hb) h
               · exact absurd h (by simp)
  case h_18 => split at h
               · split at h
                 · exact absurd h (by simp)
                 · obtain ⟨hb, h⟩ := withBank_ok h; rw [hr.size] at hb
                   unfold handleRefPerTwoBanks at h
                   simp only at h
                   split at h
                   · rename_i hb2
                     rw [hr.size] at hb2
                     injection h with h
                     exact refs _ _ [_, _] (by simpa using ⟨hb, hb2⟩) h
                   · exact absurd h (by simp)
               · exact absurd h (by simp)
  case h_19 => split at h
               · obtain ⟨hb, h⟩ := withBank_ok h; rw [hr.size] at hb
                 obtain ⟨hb2, h⟩ := withBank_ok h; rw [hr.size] at hb2
                 injection h with h
                 exact refs _ _ [_, _] (by simpa using ⟨hb, hb2⟩) h
               · exact absurd h (by simp)
  case h_20 => split at h
               · unfold handleDSMEntry at h; split at h
                 · injection h with h; injection h with h h'; subst h h'; exact ⟨mk_tidy hr rfl rfl, none⟩
                 · exact absurd h (by simp)
               · exact absurd h (by simp)
  case h_21 => split at h
               · unfold handleDSMExit at h; split at h
                 · injection h with h; injection h with h h'; subst h h'; exact ⟨mk_tidy hr rfl rfl, none⟩
                 · exact absurd h (by simp)
               · exact absurd h (by simp)
  all_goals exact absurd h (by simp)

/-- Nothing stored outside the vectors, and all queued lambdas refer to existing ranks and banks. -/
structure Core.Tidy (ms : MemSpec) (c : Core) : Prop where
  ranks : ∀ i, Rank.Tidy ms.numberOfBanks (c.ranks i)
  tail : ∀ i, ms.numberOfRanks ≤ i → c.ranks i = { nBanks := ms.numberOfBanks }
  queue : ∀ e ∈ c.queue, e.rank < ms.numberOfRanks ∧ Imp.Exists ms.numberOfBanks e.imp

theorem init_tidy (ms : MemSpec) : (Core.init ms).Tidy ms := ⟨fun _ => ⟨rfl, fun _ _ => rfl⟩, fun _ _ => rfl, by simp [Core.init]⟩

theorem processQ_tidy {std ms t} {q : List QEntry} : ∀ {ranks last}, Core.Tidy ms { ranks := ranks, queue := q, last := last } →
    Core.Tidy ms (processQ std t ranks last q) := by
  induction q with
  | nil => intro ranks last h; exact h
  | cons e q ih =>
    intro ranks last h
    simp only [processQ]
    split
    · obtain ⟨h1, h2⟩ := h.queue e (by simp)
      refine ih ⟨fun i => ?_, fun i hi => ?_, fun x hx => h.queue x (by simp only at hx; simp [hx])⟩
      · simp only [upd]
        split
        · exact exec_tidy (h.ranks _) h2
        · exact h.ranks i
      · simp only [upd]
        rw [if_neg (by omega)]
        exact h.tail i hi
    · exact h

theorem process_tidy {std ms t} {c : Core} (h : c.Tidy ms) : (c.process std t).Tidy ms := processQ_tidy (q := c.queue) h

theorem doCommand_tidy {std ms cmd} {c c' : Core} (h : c.Tidy ms) (hd : c.doCommand std ms cmd = .ok c') : c'.Tidy ms := by
  have hp : (c.process std cmd.t).Tidy ms := process_tidy h
  simp only [Core.doCommand] at hd
  split at hd
  · injection hd with hd; subst hd; exact ⟨hp.ranks, hp.tail, hp.queue⟩
  · split at hd
    · rename_i hrank
      split at hd
      · rename_i r imps hh
        injection hd with hd; subst hd
        obtain ⟨h1, h2⟩ := handle_tidy (hp.ranks _) hh
        refine ⟨fun i => ?_, fun i hi => ?_, fun x hx => ?_⟩
        · simp only [upd]
          split
          · exact h1
          · exact hp.ranks i
        · simp only [upd]
          rw [if_neg (by omega)]
          exact hp.tail i hi
        · rcases mem_enqueue.1 hx with ⟨i, hi, rfl⟩ | hx
          · exact ⟨hrank, h2 i hi⟩
          · exact hp.queue x hx
      · exact absurd hd (by simp)
    · exact absurd hd (by simp)

theorem session_tidy {std ms ops} : ∀ {c c' : Core} {ans}, c.Tidy ms → c.session std ms ops = .ok (c', ans) → c'.Tidy ms := by
  induction ops with
  | nil =>
    intro c c' ans h hs
    simp only [Core.session] at hs
    injection hs with hs; injection hs with hs _; subst hs; exact h
  | cons op ops ih =>
    intro c c' ans h hs
    cases op with
    | cmd cmd =>
      simp only [Core.session] at hs
      split at hs
      · rename_i h1; exact ih (doCommand_tidy h h1) hs
      · exact absurd hs (by simp)
    | query t =>
      simp only [Core.session] at hs
      split at hs
      · rename_i c1 ans1 h1
        injection hs with hs; injection hs with hs _; subst hs
        exact ih (process_tidy h) h1
      · exact absurd hs (by simp)

end DRAMPower
