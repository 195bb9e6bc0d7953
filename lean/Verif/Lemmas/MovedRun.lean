import Verif.Lemmas.MovedStep
import Verif.Spec.Later
import Verif.Props.C09

/-! # The same trace at a later time: queue, traces and statistics -/

namespace DRAMPower

variable {P : Prop} {d : Nat} {std : Std} {ms : MemSpec}

/-- A queue entry `d` later. -/
def QEntry.shift (d : Nat) (e : QEntry) : QEntry := { e with t := e.t + d }

theorem addImplicit_shift (e : QEntry) (q : List QEntry) :
    addImplicit (e.shift d) (q.map (QEntry.shift d)) = (addImplicit e q).map (QEntry.shift d) := by
  induction q with
  | nil => rfl
  | cons x q ih =>
    simp only [List.map_cons, addImplicit]
    have : ((e.shift d).t < (x.shift d).t) ↔ e.t < x.t := by simp [QEntry.shift]
    by_cases h : e.t < x.t
    · rw [if_pos h, if_pos (this.2 h)]; rfl
    · rw [if_neg h, if_neg (fun h' => h (this.1 h')), ih]; rfl

theorem enqueue_shift (rank : Nat) (l : List (Nat × Imp)) : ∀ q : List QEntry,
    enqueue rank (laterImps d l) (q.map (QEntry.shift d)) = (enqueue rank l q).map (QEntry.shift d) := by
  induction l with
  | nil => intro q; rfl
  | cons x l ih =>
    intro q
    have := ih (addImplicit { t := x.1, rank := rank, imp := x.2 } q)
    rw [← addImplicit_shift] at this
    exact this

theorem mem_enqueue_imp {rank : Nat} {l : List (Nat × Imp)} : ∀ {q : List QEntry} {e : QEntry}, e ∈ enqueue rank l q →
    e ∈ q ∨ ∃ x ∈ l, e.t = x.1 ∧ e.imp = x.2 := by
  induction l with
  | nil => intro q e h; exact .inl h
  | cons x l ih =>
    intro q e h
    rcases ih (q := addImplicit { t := x.1, rank := rank, imp := x.2 } q) h with h | ⟨y, hy, h⟩
    · rcases mem_addImplicit.1 h with h | h
      · subst h; exact .inr ⟨x, by simp, rfl, rfl⟩
      · exact .inl h
    · exact .inr ⟨y, by simp [hy], h⟩

/-- Two cores. -/
structure CoreMoved (std : Std) (P : Prop) (d : Nat) (c c' : Core) : Prop where
  rank : ∀ i, RankMoved P d (c.ranks i) (c'.ranks i)
  queue : c'.queue = c.queue.map (QEntry.shift d)
  pos : ∀ e ∈ c.queue, Pos P e.t
  exit : ∀ e ∈ c.queue, e.imp = .pdaExit → std = .ddr4 ∨ P
  last : Later d c.last c'.last

theorem processQ_moved (t : Nat) (q : List QEntry) : ∀ {c c' : Nat → Rank} {l l' : Nat}, (∀ i, RankMoved P d (c i) (c' i)) →
    (∀ e ∈ q, Pos P e.t) → (∀ e ∈ q, e.imp = .pdaExit → std = .ddr4 ∨ P) → Later d l l' →
    CoreMoved std P d (processQ std t c l q) (processQ std (t + d) c' l' (q.map (QEntry.shift d))) := by
  induction q with
  | nil =>
    intro c c' l l' hr hp hx hl
    exact ⟨hr, rfl, by simp [processQ], by simp [processQ], hl⟩
  | cons e q ih =>
    intro c c' l l' hr hp hx hl
    simp only [List.map_cons, processQ]
    have : ((e.shift d).t ≤ t + d) ↔ e.t ≤ t := by simp [QEntry.shift]
    by_cases h : e.t ≤ t
    · rw [if_pos h, if_pos (this.2 h)]
      refine ih ?_ (fun x hx' => hp x (by simp [hx'])) (fun x hx' => hx x (by simp [hx'])) (.inl rfl)
      intro i
      show RankMoved P d (if i = e.rank then _ else _) (if i = e.rank then _ else _)
      by_cases hi : i = e.rank
      · rw [if_pos hi, if_pos hi]
        exact exec_moved std (hr e.rank) (hp e (by simp)) e.imp (hx e (by simp))
      · rw [if_neg hi, if_neg hi]
        exact hr i
    · rw [if_neg h, if_neg (fun h' => h (this.1 h'))]
      exact ⟨hr, rfl, hp, hx, hl⟩

theorem process_moved {c c' : Core} (h : CoreMoved std P d c c') (t : Nat) : CoreMoved std P d (c.process std t) (c'.process std (t + d)) := by
  unfold Core.process
  rw [h.queue]
  exact processQ_moved t c.queue h.rank h.pos h.exit h.last

/-- Two results of a command or a trace. -/
inductive CMoved (std : Std) (P : Prop) (d : Nat) : Except Err Core → Except Err Core → Prop
  | error (e : Err) : CMoved std P d (.error e) (.error e)
  | ok (c c' : Core) (h : CoreMoved std P d c c') : CMoved std P d (.ok c) (.ok c')

theorem doCommand_moved {c c' : Core} (h : CoreMoved std P d c c') (cmd : Cmd) (ht : Pos P cmd.t)
    (ha : cmd.type = .RDA ∨ cmd.type = .WRA → ((c.ranks cmd.rank).banks cmd.bank).counter.act ≠ 0) (hx : cmd.type = .PDXA → std = .ddr4 ∨ P) :
    CMoved std P d (c.doCommand std ms cmd) (c'.doCommand std ms (laterCmd d cmd)) := by
  have h1 := process_moved h cmd.t
  have hl : max (cmd.t + d) (c'.process std (cmd.t + d)).last = max cmd.t (c.process std cmd.t).last + d := h1.last.max_time
  have hact : ((((c.process std cmd.t).ranks cmd.rank).banks cmd.bank).counter.act) = ((c.ranks cmd.rank).banks cmd.bank).counter.act := by
    have := congrArg Counters.act (processQ_noPre (std := std) (t := cmd.t) (q := c.queue) (ranks := c.ranks) (last := c.last) cmd.rank cmd.bank)
    simpa [Counters.noPre, Core.process] using this
  simp only [Core.doCommand]
  have e1 : (laterCmd d cmd).t = cmd.t + d := rfl
  have e2 : (laterCmd d cmd).type = cmd.type := rfl
  have e3 : (laterCmd d cmd).rank = cmd.rank := rfl
  rw [e1, e2, e3, hl]
  split
  · exact .ok _ _ ⟨h1.rank, h1.queue, h1.pos, h1.exit, .inl rfl⟩
  · split
    · have h2 := handle_moved std ms (h1.rank cmd.rank) cmd ht (fun h' _ => by rw [hact]; exact ha h') hx
      generalize handle std ms ((c.process std cmd.t).ranks cmd.rank) cmd = x at h2 ⊢
      generalize handle std ms ((c'.process std (cmd.t + d)).ranks cmd.rank) (laterCmd d cmd) = y at h2 ⊢
      cases h2 with
      | error e => exact .error e
      | ok r s l hr hl' hi =>
        refine .ok _ _ ⟨fun i => ?_, ?_, fun e he => ?_, fun e he hee => ?_, .inl rfl⟩
        · simp only [upd]
          split
          · exact hr
          · exact h1.rank i
        · simp only [h1.queue]
          exact enqueue_shift cmd.rank l _
        · rcases mem_enqueue_imp he with he | ⟨x, hx', e1, e2⟩
          · exact h1.pos e he
          · intro hp
            have := ht hp
            have := hl' x hx'
            omega
        · rcases mem_enqueue_imp he with he | ⟨x, hx', e1, e2⟩
          · exact h1.exit e he hee
          · exact hi ⟨x, hx', by rw [← e2, hee]⟩
    · exact .error _

/-! ## Activations are counted and never forgotten -/

/-- No activation counter has gone down. -/
def ActLe (r s : Rank) : Prop := ∀ b, (r.banks b).counter.act ≤ (s.banks b).counter.act

theorem ActLe.trans {r s u : Rank} (h : ActLe r s) (h' : ActLe s u) : ActLe r u := fun b => Nat.le_trans (h b) (h' b)

theorem actLe_set (r : Rank) (b : Nat) (x : Bank) (h : (r.banks b).counter.act ≤ x.counter.act) : ActLe r (r.setBank b x) := by
  intro b'
  simp only [Rank.setBank, upd]
  split
  · rename_i e; subst e; exact h
  · exact Nat.le_refl _

theorem actLe_pre (r : Rank) (b t : Nat) : ActLe r (Shared.handlePre r b t) := by
  unfold Shared.handlePre
  simp only
  split
  · exact fun _ => Nat.le_refl _
  · split
    · exact actLe_set r b _ (Nat.le_refl _)
    · exact actLe_set r b _ (Nat.le_refl _)

theorem handlePre_shared (std : Std) : handlePre std = Shared.handlePre := by cases std <;> rfl

theorem actLe_preFold (t : Nat) (l : List Nat) : ∀ r : Rank, ActLe r (l.foldl (fun r b => Shared.handlePre r b t) r) := by
  induction l with
  | nil => intro r b; exact Nat.le_refl _
  | cons b l ih => intro r; exact (actLe_pre r b t).trans (ih _)

theorem actLe_ite (r : Rank) (p : Bool) (i : Interval) : ActLe r (if p then r else { r with act := i }) := by
  split <;> exact fun _ => Nat.le_refl _

theorem actLe_refresh {cnt : Counters → Counters} (hc : ∀ c, (cnt c).act = c.act) (dur t : Nat) (l : List Nat) : ∀ res : HRes,
    ActLe res.1 (l.foldl (Shared.handleRefreshOnBank cnt dur t) res).1 := by
  induction l with
  | nil => intro r b; exact Nat.le_refl _
  | cons b l ih =>
    intro res
    refine ActLe.trans ?_ (ih _)
    unfold Shared.handleRefreshOnBank
    simp only
    have h1 := actLe_set res.1 b { res.1.banks b with counter := cnt (res.1.banks b).counter } (by simp [hc])
    refine h1.trans ?_
    generalize res.1.setBank b { res.1.banks b with counter := cnt (res.1.banks b).counter } = u
    have h2 := actLe_ite u (u.isActive t) (u.act.startAt t)
    refine h2.trans ?_
    exact actLe_set _ b _ (Nat.le_refl _)

theorem actLe_refAll (std : Std) (ms : MemSpec) (r : Rank) (t : Nat) : ActLe r (handleRefAll std ms r t).1 := by
  cases std
  case ddr4 =>
    intro b
    simp only [handleRefAll, DDR4.handleRefAll, Rank.mapBanks]
    split <;> exact Nat.le_refl _
  all_goals exact actLe_refresh (cnt := fun c => { c with refAllBank := c.refAllBank + 1 }) (fun _ => rfl) ms.tRFC t (List.range r.nBanks) (r, [])

theorem actLe_act (std : Std) (r : Rank) (b t : Nat) : ActLe r (handleAct std r b t) ∧ ((handleAct std r b t).banks b).counter.act ≠ 0 := by
  have key : ∀ (x : Bank) (u : Rank), x.counter.act = (r.banks b).counter.act + 1 → ActLe (r.setBank b x) u → ActLe r u ∧ (u.banks b).counter.act ≠ 0 := by
    intro x u hx h
    refine ⟨(actLe_set r b x (by omega)).trans h, ?_⟩
    have h' := h b
    have : ((r.setBank b x).banks b) = x := by simp [Rank.setBank, upd]
    rw [this] at h'
    omega
  cases std
  case ddr4 => exact key { r.banks b with counter := { (r.banks b).counter with act := (r.banks b).counter.act + 1 }, state := .active, act := (r.banks b).act.startAt t } _ rfl fun _ => Nat.le_refl _
  all_goals
    refine key { r.banks b with counter := { (r.banks b).counter with act := (r.banks b).counter.act + 1 }, act := (r.banks b).act.startAt t } _ rfl ?_
    exact (actLe_ite _ _ _).trans (actLe_set _ b _ (Nat.le_refl _))

theorem actLe_handle {r : Rank} {c : Cmd} {x : HRes} (h : handle std ms r c = .ok x) :
    ActLe r x.1 ∧ (c.type = .ACT → (x.1.banks c.bank).counter.act ≠ 0) := by
  have hwb : ∀ {b : Nat} {k : Except Err HRes} {x : HRes}, withBank r b k = .ok x → k = .ok x := by
    intro b k x h
    unfold withBank at h
    split at h
    · exact h
    · cases h
  have hrefl : ActLe r r := fun _ => Nat.le_refl _
  unfold handle at h
  rw [handlePre_shared] at h
  cases hc : c.type <;> rw [hc] at h <;> simp only at h
  case ACT =>
    have := hwb h; injection this with this; subst this
    exact ⟨(actLe_act std r _ _).1, fun _ => (actLe_act std r _ _).2⟩
  all_goals refine ⟨?_, by simp⟩
  case PRE => have := hwb h; injection this with this; subst this; exact actLe_pre r _ _
  case PREA =>
    injection h with this; subst this
    unfold handlePreAll
    rw [handlePre_shared]
    exact actLe_preFold _ _ r
  case REFA => injection h with this; subst this; exact actLe_refAll std ms r _
  case RD => have := hwb h; injection this with this; subst this; exact actLe_set r _ _ (Nat.le_refl _)
  case WR => have := hwb h; injection this with this; subst this; exact actLe_set r _ _ (Nat.le_refl _)
  case RDA => have := hwb h; injection this with this; subst this; exact actLe_set r _ _ (Nat.le_refl _)
  case WRA => have := hwb h; injection this with this; subst this; exact actLe_set r _ _ (Nat.le_refl _)
  case SREFEN => injection h with this; subst this; exact actLe_refAll std ms r _
  case SREFEX =>
    unfold handleSelfRefreshExit at h
    split at h
    · injection h with this; subst this; exact hrefl
    · cases h
  case PDEA => injection h with this; subst this; exact hrefl
  case PDEP => injection h with this; subst this; exact hrefl
  case PDXP => injection h with this; subst this; exact hrefl
  case PDXA =>
    unfold handlePowerDownActExit at h
    split at h
    · cases h
    · injection h with this; subst this; exact hrefl
  case DSMEN =>
    split at h
    · unfold handleDSMEntry at h
      split at h
      · injection h with this; subst this; exact hrefl
      · cases h
    · cases h
  case DSMEX =>
    split at h
    · unfold handleDSMExit at h
      split at h
      · injection h with this; subst this; exact hrefl
      · cases h
    · cases h
  case PRESB =>
    split at h
    · have h := hwb h
      unfold handlePreSameBank at h
      split at h
      · cases h
      · split at h
        · injection h with this; subst this; exact actLe_preFold _ _ r
        · cases h
    · cases h
  case REFSB =>
    split at h
    · have h := hwb h
      unfold handleRefSameBank at h
      split at h
      · cases h
      · split at h
        · injection h with this; subst this; exact actLe_refresh (cnt := fun c => { c with refSameBank := c.refSameBank + 1 }) (fun _ => rfl) _ _ _ (r, [])
        · cases h
    · cases h
  case REFB =>
    split at h
    · have h := hwb h
      injection h with this; subst this
      exact actLe_refresh (cnt := fun c => { c with refPerBank := c.refPerBank + 1 }) (fun _ => rfl) ms.tRFCPB c.t [c.bank] (r, [])
    · cases h
  case REFP2B =>
    split at h
    · split at h
      · cases h
      · have h := hwb h
        unfold handleRefPerTwoBanks at h
        simp only at h
        split at h
        · injection h with this; subst this; exact actLe_refresh (cnt := fun c => { c with refPerTwoBanks := c.refPerTwoBanks + 1 }) (fun _ => rfl) _ _ _ (r, [])
        · cases h
    · cases h
  case REFDB =>
    split at h
    · have h := hwb (hwb h)
      injection h with this; subst this
      exact actLe_refresh (cnt := fun c => { c with refDualBanks := c.refDualBanks + 1 }) (fun _ => rfl) _ _ _ (r, [])
    · cases h
  all_goals cases h

theorem process_act (c : Core) (t i b : Nat) : (((c.process std t).ranks i).banks b).counter.act = ((c.ranks i).banks b).counter.act := by
  have := congrArg Counters.act (processQ_noPre (std := std) (t := t) (q := c.queue) (ranks := c.ranks) (last := c.last) i b)
  simpa [Counters.noPre, Core.process] using this

theorem actLe_doCommand {c c' : Core} {cmd : Cmd} (h : c.doCommand std ms cmd = .ok c') :
    (∀ i b, ((c.ranks i).banks b).counter.act ≤ ((c'.ranks i).banks b).counter.act) ∧
      (cmd.type = .ACT → ((c'.ranks cmd.rank).banks cmd.bank).counter.act ≠ 0) := by
  simp only [Core.doCommand] at h
  split at h
  · rename_i hn
    injection h with h; subst h
    refine ⟨fun i b => by simp only [process_act]; exact Nat.le_refl _, fun hc => ?_⟩
    rw [hc] at hn
    cases std <;> cases hn
  · split at h
    · split at h
      · rename_i r l hh
        injection h with h; subst h
        obtain ⟨h1, h2⟩ := actLe_handle hh
        refine ⟨fun i b => ?_, fun hc => by simpa [upd] using h2 hc⟩
        simp only [upd]
        split
        · rename_i e; subst e
          rw [← process_act (std := std) c cmd.t]
          exact h1 b
        · simp only [process_act]; exact Nat.le_refl _
      · cases h
    · cases h

theorem run_moved (cmds : List Cmd) : ∀ {c c' : Core} (done : List Cmd), CoreMoved std P d c c' → (∀ x ∈ cmds, Pos P x.t) →
    (∀ x ∈ cmds, x.type = .PDXA → std = .ddr4 ∨ P) → (∀ a ∈ done, a.type = .ACT → ((c.ranks a.rank).banks a.bank).counter.act ≠ 0) →
    OpensFirst (done ++ cmds) → CMoved std P d (c.run std ms cmds) (c'.run std ms (later d cmds)) := by
  induction cmds with
  | nil => intro c c' done h _ _ _ _; exact .ok _ _ h
  | cons x cmds ih =>
    intro c c' done h hp hx hd ho
    have h1 := doCommand_moved (ms := ms) h x (hp x (by simp)) (fun hty => by
      obtain ⟨a, ha, h1, h2, h3⟩ := ho done x cmds rfl hty
      have := hd a ha h1
      rwa [h2, h3] at this) (hx x (by simp))
    simp only [Core.run, later, List.map_cons]
    have e : c'.doCommand std ms { x with t := x.t + d } = c'.doCommand std ms (laterCmd d x) := rfl
    rw [e]
    cases hc : c.doCommand std ms x with
    | error er =>
      rw [hc] at h1
      generalize c'.doCommand std ms (laterCmd d x) = y at h1 ⊢
      cases h1
      exact .error er
    | ok c1 =>
      rw [hc] at h1
      generalize c'.doCommand std ms (laterCmd d x) = y at h1 ⊢
      cases h1 with
      | ok _ c2 h2 =>
        obtain ⟨l1, l2⟩ := actLe_doCommand hc
        refine ih (done ++ [x]) h2 (fun y hy => hp y (by simp [hy])) (fun y hy => hx y (by simp [hy])) ?_ (by simpa using ho)
        intro a ha hty
        rcases List.mem_append.1 ha with ha | ha
        · have := hd a ha hty
          have := l1 a.rank a.bank
          omega
        · simp at ha; subst ha
          exact l2 hty

theorem init_moved : CoreMoved std P d (Core.init ms) (Core.init ms) :=
  ⟨fun _ => RankMoved.init _, rfl, by simp [Core.init], by simp [Core.init], .inr ⟨rfl, rfl⟩⟩

/-! ## Statistics -/

theorem usub_later {t d x : Nat} (h : x ≤ t) : usub (t + d) x = usub t x + d := by
  unfold usub
  rw [if_pos h, if_pos (by omega)]
  omega

theorem le_usub_add (a b : Nat) : a ≤ usub a b + b := by
  unfold usub
  split <;> omega

theorem bankStats_moved {r s : Rank} (h : RankMoved P d r s) (t j : Nat) :
    (bankStats std s (t + d) j).counter = (bankStats std r t j).counter ∧ CyclesLater d t (bankStats std r t j).cycles (bankStats std s (t + d) j).cycles := by
  simp only [bankStats, CyclesLater, (h.bank j).counter, (h.bank j).act, h.pda, h.pdp, h.sref, h.dsm, Interval.countAt_shift, true_and]
  intro hle
  refine usub_later ?_
  have := le_usub_add (r.sref.countAt t) (r.deepSleepMode.countAt t)
  cases std <;> simp only at hle <;> omega

theorem rankStats_moved {r s : Rank} (h : RankMoved P d r s) (t : Nat) : CyclesLater d t (rankStats std r t) (rankStats std s (t + d)) := by
  simp only [rankStats, CyclesLater, h.act, h.pda, h.pdp, h.sref, h.dsm, Interval.countAt_shift, true_and]
  intro hle
  refine usub_later ?_
  have := le_usub_add (r.sref.countAt t) (r.deepSleepMode.countAt t)
  cases std <;> simp only at hle <;> omega

theorem forall₂_map {α β : Type} {R : β → β → Prop} {f g : α → β} (l : List α) (h : ∀ a, R (f a) (g a)) : List.Forall₂ R (l.map f) (l.map g) := by
  induction l with
  | nil => exact .nil
  | cons a l ih => exact .cons (h a) ih

theorem forall₂_append {β : Type} {R : β → β → Prop} {x y x' y' : List β} (h : List.Forall₂ R x y) (h' : List.Forall₂ R x' y') :
    List.Forall₂ R (x ++ x') (y ++ y') := by
  induction h with
  | nil => exact h'
  | cons a _ ih => exact .cons a ih

theorem stats_moved {c c' : Core} (h : CoreMoved std P d c c') (t : Nat) :
    StatsLater d t (c.getWindowStats std ms t).2 (c'.getWindowStats std ms (t + d)).2 := by
  have h1 := process_moved h t
  simp only [Core.getWindowStats, Core.statsAt, StatsLater]
  refine ⟨?_, forall₂_map _ fun i => rankStats_moved (h1.rank i) t⟩
  induction List.range ms.numberOfRanks with
  | nil => exact .nil
  | cons i l ih =>
    simp only [List.flatMap_cons]
    exact forall₂_append (forall₂_map _ fun j => bankStats_moved (h1.rank i) t j) ih

end DRAMPower
