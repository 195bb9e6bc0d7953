import Verif.Sim.Rel

/-!
# Executing implicit commands preserves the simulation relation
-/

namespace DRAMPower

open Spec

def Spec.State.setBank (σ : State) (b : Nat) (s : BankS) : State := { σ with bank := upd σ.bank b s }

@[simp] theorem Spec.State.setBank_mode (σ : State) (b : Nat) (s : BankS) : (σ.setBank b s).mode = σ.mode := rfl

@[simp] theorem Spec.State.setBank_same (σ : State) (b : Nat) (s : BankS) : (σ.setBank b s).bank b = s := by
  simp [Spec.State.setBank, upd]

theorem Spec.State.setBank_ne (σ : State) {b b' : Nat} (s : BankS) (h : b' ≠ b) :
    (σ.setBank b s).bank b' = σ.bank b' := by
  simp [Spec.State.setBank, upd, h]

theorem Rank.setBank_same (r : Rank) (b : Nat) (x : Bank) : (r.setBank b x).banks b = x := by
  simp [Rank.setBank, upd]

theorem Rank.setBank_ne (r : Rank) {b b' : Nat} (x : Bank) (h : b' ≠ b) : (r.setBank b x).banks b' = r.banks b' := by
  simp [Rank.setBank, upd, h]

theorem handlePre_eq (std : Std) : handlePre std = Shared.handlePre := by cases std <;> rfl

/-- Tail of every handler that closes a bank. -/
def closeRank (r : Rank) (t : Nat) : Rank := if r.isActive t then r else { r with act := r.act.close t }

theorem closeRank_same (r : Rank) (t : Nat) : closeRank r t = r ∨ closeRank r t = { r with act := r.act.close t } := by
  unfold closeRank; split <;> simp

/-- Closing bank `b`. -/
theorem closeBank_rel {std n T q₀ q r σ ent acc} (h : Rel std n T q₀ r σ ent acc) {b : Nat} (hb : b < n)
    {s' : BankS} {x' : Bank} (hs' : s'.status = .idle)
    (hold : (σ.bank b).status ≠ .idle) (hnr : ∀ u, T < u → (σ.bank b).status ≠ .refreshing u)
    (hbr : BankRel std σ.mode ent T s' x' (acc.act b))
    (hqge : ∀ e ∈ q, T ≤ e.1) (hqord : q.Pairwise qord)
    (hqb : bq b q = []) (hqb' : ∀ b' < n, b' ≠ b → bq b' q = bq b' q₀)
    (hqin : ∀ e ∈ q, e ∈ q₀) (hqm : mq q = mq q₀)
    (hok : ModeOK std n (σ.setBank b s') ent) :
    Rel std n T q (closeRank (r.setBank b x') T) (σ.setBank b s') ent acc := by
  have hst' : x'.state = .precharged := by rw [hbr.state, if_pos hs']
  have hend : T < r.endRefreshTime → ∃ b' < n, b' ≠ b ∧ (σ.bank b').status = .refreshing r.endRefreshTime := by
    intro ht
    obtain ⟨b', hb', hx⟩ := h.endRef ht
    refine ⟨b', hb', ?_, hx⟩
    rintro rfl
    exact hnr _ ht hx
  have hact : (r.setBank b x').isActive T = true ↔ ∃ b' < n, ((σ.setBank b s').bank b').status ≠ .idle := by
    have key : ∀ b' < n, (((r.setBank b x').banks b').state = .active ↔ ((σ.setBank b s').bank b').status ≠ .idle) := by
      intro b' hb'
      by_cases hbb : b' = b
      · subst hbb; rw [Rank.setBank_same, State.setBank_same]; simp [hst', hs']
      · rw [Rank.setBank_ne _ _ hbb, State.setBank_ne _ _ hbb]; exact h.state_iff hb'
    have hn : (r.setBank b x').nBanks = n := h.nb
    rw [DRAMPower.isActive_iff]
    · rw [hn]
      constructor <;> rintro ⟨b', hb', hx⟩
      · exact ⟨b', hb', (key b' hb').1 hx⟩
      · exact ⟨b', hb', (key b' hb').2 hx⟩
    · intro ht
      obtain ⟨b', hb', hne, hx⟩ := hend ht
      rw [hn]
      refine ⟨b', hb', (key b' hb').2 ?_⟩
      rw [State.setBank_ne _ _ hne, hx]; simp
  have hother : ∀ r' : Rank, r' = closeRank (r.setBank b x') T →
      r'.nBanks = n ∧ r'.banks = (r.setBank b x').banks ∧ r'.memState = r.memState ∧
      r'.powerDownAct = r.powerDownAct ∧ r'.powerDownPre = r.powerDownPre ∧ r'.sref = r.sref ∧
      r'.deepSleepMode = r.deepSleepMode ∧ r'.endRefreshTime = r.endRefreshTime := by
    rintro r' rfl
    rcases closeRank_same (r.setBank b x') T with h' | h' <;> rw [h'] <;>
      exact ⟨h.nb, rfl, rfl, rfl, rfl, rfl, rfl, rfl⟩
  obtain ⟨h1, h2, h3, h4, h5, h6, h7, h8⟩ := hother _ rfl
  refine ⟨h1, h.npos, hqge, hqord, ?_, ?_, ?_, ?_, ?_, ?_, hok, ?_⟩
  · intro b' hb'
    by_cases hbb : b' = b
    · subst hbb; rw [State.setBank_same, hs', hqb]; rfl
    · rw [State.setBank_ne _ _ hbb, hqb' b' hb' hbb]; exact h.qbank b' hb'
  · intro e he; exact h.qin e (hqin e he)
  · rw [hqm]; exact h.qmode
  · intro b' hb'
    rw [h2]
    by_cases hbb : b' = b
    · subst hbb; rw [State.setBank_same, Rank.setBank_same]; exact hbr
    · rw [State.setBank_ne _ _ hbb, Rank.setBank_ne _ _ hbb]; exact h.bank b' hb'
  · have hm := h.modeRel
    exact ⟨by rw [h3]; exact hm.mem, by rw [h4]; exact hm.pda, by rw [h5]; exact hm.pdp,
      by rw [h6]; exact hm.sref, by rw [h7]; exact hm.dsm, hm.entT, hm.srefT, by rw [h4]; exact hm.pdaStart⟩
  · have hex : ∃ b' < n, (σ.bank b').status ≠ .idle := ⟨b, hb, hold⟩
    have hr := h.ract
    simp only [hex, decide_true, Bool.true_and] at hr
    unfold closeRank
    by_cases ha : ∃ b' < n, ((σ.setBank b s').bank b').status ≠ .idle
    · rw [if_pos (hact.2 ha)]
      simp only [ha, decide_true, Bool.true_and]
      exact hr
    · have hna : (r.setBank b x').isActive T ≠ true := fun hc => ha (hact.1 hc)
      rw [if_neg hna]
      simp only [ha, decide_false, Bool.false_and]
      exact hr.close
  · rw [h8]
    intro ht
    obtain ⟨b', hb', hne, hx⟩ := hend ht
    exact ⟨b', hb', by rw [State.setBank_ne _ _ hne]; exact hx⟩

/-- Closing a bank that closes by itself keeps the low-power facts. -/
theorem ModeOK.close {std n T σ ent} (h : ModeOK std n σ ent) {b : Nat} {s' : BankS} (hb : b < n)
    (hs' : s'.status = .idle) (ha : s'.acted = (σ.bank b).acted) (hre : s'.refEnd = (σ.bank b).refEnd)
    (hpre : s'.preAt = (σ.bank b).preAt ∨ (s'.preAt = some T ∧ (σ.bank b).status = .opened (some T)))
    (hno : (σ.bank b).status ≠ .opened none) : ModeOK std n (σ.setBank b s') ent := by
  have hcase : ∀ b', (σ.setBank b s').bank b' = if b' = b then s' else σ.bank b' := by
    intro b'
    split
    · rename_i h; subst h; simp
    · rename_i h; exact State.setBank_ne _ _ h
  have hidle : ∀ b', (σ.bank b').status = .idle → ((σ.setBank b s').bank b').status = .idle := by
    intro b' hx; rw [hcase]; split <;> assumption
  have hopen : ∀ b' τ, (σ.bank b').isOpen τ = false → ((σ.setBank b s').bank b').isOpen τ = false := by
    intro b' τ hx; rw [hcase]; split
    · simp [BankS.isOpen, hs']
    · assumption
  unfold ModeOK at h ⊢
  rw [State.setBank_mode]
  split at h
  · trivial
  · obtain ⟨h1, h2, h3, h4, h5, h6⟩ := h
    refine ⟨?_, ?_, ?_, h4, ?_, ?_⟩
    · intro b' hb' u hx
      rw [hcase] at hx
      split at hx
      · rw [hs'] at hx; exact absurd hx (by simp)
      · exact h1 b' hb' u hx
    · intro hstd b' hb'
      have := h2 hstd b' hb'
      rw [hcase]
      split
      · rename_i hbb; subst hbb
        refine ⟨?_, ?_⟩
        · intro p hx; rw [hs'] at hx; exact absurd hx (by simp)
        · intro hac
          rw [ha] at hac
          refine ⟨by rw [hre]; exact (this.2 hac).1, ?_⟩
          intro p hp
          rcases hpre with hpre | ⟨hpre, hst⟩
          · rw [hpre] at hp; exact (this.2 hac).2 p hp
          · rw [hpre] at hp; injection hp with hp; subst hp
            exact this.1 _ hst
      · exact this
    · intro hstd
      obtain ⟨b', hb', hx⟩ := h3 hstd
      refine ⟨b', hb', ?_⟩
      rw [hcase, if_neg]
      · exact hx
      · rintro rfl; exact hno hx
    · intro he b' hb' u hx
      rw [hcase] at hx
      split at hx
      · rw [hs'] at hx; exact absurd hx (by simp)
      · exact h5 he b' hb' u hx
    · intro he hstd b' hb' u hx
      rw [hcase] at hx
      split at hx
      · rw [hs'] at hx; exact absurd hx (by simp)
      · exact h6 he hstd b' hb' u hx
  · obtain ⟨h1, h2, h3⟩ := h
    exact ⟨fun b' hb' => hopen _ _ (h1 b' hb'), h2, fun he b' hb' => hidle _ (h3 he b' hb')⟩
  · obtain ⟨h1, h3⟩ := h
    exact ⟨fun b' hb' => hopen _ _ (h1 b' hb'), fun he b' hb' => hidle _ (h3 he b' hb')⟩
  · exact fun b' hb' => hidle _ (h b' hb')


/-! ## Reading the head of the queue -/

theorem head_pre {std n T t b q r σ ent acc} (h : Rel std n T ((t, .pre b) :: q) r σ ent acc) :
    b < n ∧ (σ.bank b).status = .opened (some t) ∧ bq b q = [] := by
  have hb : b < n := by
    rcases h.qin (t, .pre b) (by simp) with h' | ⟨b', hb', h'⟩
    · simp [Imp.isMode] at h'
    · simp only [Imp.forBank, decide_eq_true_eq] at h'; omega
  refine ⟨hb, ?_⟩
  have := h.qbank b hb
  rw [bq_cons_eq (by simp [Imp.forBank])] at this
  cases hs : (σ.bank b).status with
  | idle => rw [hs] at this; simp [expBQ] at this
  | opened p =>
    rw [hs] at this
    cases p with
    | none => simp [expBQ] at this
    | some p => simp [expBQ] at this; simp [this]
  | refreshing u => rw [hs] at this; simp [expBQ] at this

theorem head_refEnd {std n T t b q r σ ent acc} (h : Rel std n T ((t, .refEnd b) :: q) r σ ent acc) :
    b < n ∧ (σ.bank b).status = .refreshing t ∧ bq b q = [] := by
  have hb : b < n := by
    rcases h.qin (t, .refEnd b) (by simp) with h' | ⟨b', hb', h'⟩
    · simp [Imp.isMode] at h'
    · simp only [Imp.forBank, decide_eq_true_eq] at h'; omega
  refine ⟨hb, ?_⟩
  have := h.qbank b hb
  rw [bq_cons_eq (by simp [Imp.forBank])] at this
  cases hs : (σ.bank b).status with
  | idle => rw [hs] at this; simp [expBQ] at this
  | opened p =>
    rw [hs] at this
    cases p <;> simp [expBQ] at this
  | refreshing u => rw [hs] at this; simp [expBQ] at this; simp [this]

/-- Pending bank entry of an open bank. -/
theorem Rel.mem_opened {std n T q r σ ent acc} (h : Rel std n T q r σ ent acc) {b p : Nat} (hb : b < n)
    (hs : (σ.bank b).status = .opened (some p)) : (p, Imp.pre b) ∈ q := by
  have := h.qbank b hb
  rw [hs] at this
  have hm : (p, Imp.pre b) ∈ bq b q := by rw [this]; simp [expBQ]
  exact (List.mem_filter.1 hm).1

theorem Rel.mem_refreshing {std n T q r σ ent acc} (h : Rel std n T q r σ ent acc) {b p : Nat} (hb : b < n)
    (hs : (σ.bank b).status = .refreshing p) : (p, Imp.refEnd b) ∈ q := by
  have := h.qbank b hb
  rw [hs] at this
  have hm : (p, Imp.refEnd b) ∈ bq b q := by rw [this]; simp [expBQ]
  exact (List.mem_filter.1 hm).1

theorem Rel.mem_exit {std n T q r σ ent acc} (h : Rel std n T q r σ ent acc) {a : Bool} {e x : Nat}
    (hm : σ.mode = .pd a e (some x)) : (x, exitImp a) ∈ q := by
  have := h.qmode
  rw [hm] at this
  have hm : (x, exitImp a) ∈ mq q := by rw [this]; simp [expMQ]
  exact (List.mem_filter.1 hm).1

/-- Behind a mode change all bank entries are strictly later. -/
theorem after_mode {std n T q r σ ent acc} {i : Imp} (h : Rel std n T ((T, i) :: q) r σ ent acc)
    (hi : i.isMode = true) {e : Nat × Imp} (he : e ∈ (T, i) :: q) (hne : e.2.isMode = false) : T < e.1 := by
  rcases List.mem_cons.1 he with rfl | he
  · rw [hi] at hne; exact absurd hne (by simp)
  · rcases (List.pairwise_cons.1 h.qord).1 e he with h' | ⟨_, h'⟩
    · exact h'
    · rw [h' hi] at hne; exact absurd hne (by simp)

/-- Whether a bank is open behind a mode change. -/
theorem open_after_mode {std n T q r σ ent acc} {i : Imp} (h : Rel std n T ((T, i) :: q) r σ ent acc)
    (hi : i.isMode = true) {b : Nat} (hb : b < n) :
    (σ.bank b).isOpen T = decide ((σ.bank b).status ≠ .idle) := by
  cases hs : (σ.bank b).status with
  | idle => simp [BankS.isOpen, hs]
  | opened p =>
    cases p with
    | none => simp [BankS.isOpen, hs]
    | some p =>
      have := after_mode h hi (h.mem_opened hb hs) rfl
      simp only at this
      simp [BankS.isOpen, hs, this]
  | refreshing u =>
    have := after_mode h hi (h.mem_refreshing hb hs) rfl
    simp only at this
    simp [BankS.isOpen, hs, this]

theorem Rel.tail_ge {std n T i q r σ ent acc} (h : Rel std n T ((T, i) :: q) r σ ent acc) :
    (∀ e ∈ q, T ≤ e.1) ∧ q.Pairwise DRAMPower.qord ∧
    (∀ e ∈ q, e.2.isMode = true ∨ ∃ b < n, e.2.forBank b = true) :=
  ⟨fun e he => h.qge e (by simp [he]), (List.pairwise_cons.1 h.qord).2, fun e he => h.qin e (by simp [he])⟩

theorem low_none_of_not_idle {std n σ ent} (h : ModeOK std n σ ent) {b : Nat} (hb : b < n)
    (hni : (σ.bank b).status ≠ .idle)
    (hc : (∃ u, (σ.bank b).status = .refreshing u) ∨ (std ≠ .ddr4 ∧ ∃ p, (σ.bank b).status = .opened (some p))) :
    lowNow σ.mode ent = none := by
  unfold ModeOK at h
  unfold lowNow
  cases hm : σ.mode with
  | normal => rfl
  | pd a e x =>
    cases hent : ent with
    | false => simp
    | true =>
      exfalso
      rw [hm] at h
      cases a with
      | true =>
        obtain ⟨_, _, _, _, h5, h6⟩ := h
        rcases hc with ⟨u, hu⟩ | ⟨hstd, p, hp⟩
        · exact h5 hent b hb u hu
        · exact h6 hent hstd b hb p hp
      | false => exact hni (h.2.2 hent b hb)
  | sref s =>
    cases hent : ent with
    | false => simp
    | true => rw [hm] at h; exact absurd (h.2 hent b hb) hni
  | dsm => rw [hm] at h; exact absurd (h b hb) hni

/-! ## Bank events -/

theorem sinceOK_idle {m : Mode} {s s' : BankS} {start : Nat} (h : sinceOK m s start)
    (hso : ∀ e x, m = .pd true e (some x) → s.isOpen x = false) (hs' : s'.status = .idle) (hsi : s'.since = s.since) :
    sinceOK m s' start := by
  unfold sinceOK at h ⊢
  split at h
  · rename_i e x
    rw [hso _ _ rfl] at h
    simp only [Bool.false_eq_true, if_false] at h
    have : s'.isOpen x = false := by simp [BankS.isOpen, hs']
    simp [this, hsi, h]
  · rw [hsi]; exact h

theorem exec_pre {std n T b q r σ ent acc} (h : Rel std n T ((T, .pre b) :: q) r σ ent acc) :
    Rel std n T q (exec std r T (.pre b)) (σ.setBank b ((σ.bank b).settle T)) ent acc := by
  obtain ⟨hb, hs, hbq⟩ := head_pre h
  have hbr := h.bank b hb
  have hset : (σ.bank b).settle T = { σ.bank b with status := .idle, preAt := some T, pres := (σ.bank b).pres + 1 } := by
    simp [BankS.settle, hs]
  have hstate : (r.banks b).state = .active := by rw [hbr.state, hs]; simp
  have hexec : exec std r T (.pre b) = closeRank (r.setBank b
      { r.banks b with counter := { (r.banks b).counter with pre := (r.banks b).counter.pre + 1 },
                       act := (r.banks b).act.close T, latestPre := T, state := .precharged }) T := by
    show handlePre std r b T = _
    rw [handlePre_eq]
    simp only [Shared.handlePre, hstate]
    rfl
  rw [hexec, hset]
  obtain ⟨htg, hto, _⟩ := h.tail_ge
  refine closeBank_rel h hb rfl (by rw [hs]; simp) (by rw [hs]; simp) ?_ htg hto hbq ?_ ?_ ?_ ?_
  · refine ⟨by simp, ?_, hbr.acted, by simp [hbr.pre.1], hbr.refEnd, ?_, by simp, by simp, ?_, by simp⟩
    · have := hbr.tr.close
      simpa using this
    · intro hac
      simp only at hac ⊢
      rw [Interval.getStart_close]
      refine sinceOK_idle (hbr.since hac) ?_ rfl rfl
      intro e x hm
      have := h.qge _ (h.mem_exit hm)
      simp only at this
      simp [BankS.isOpen, hs, this]
    · intro hstd _ _
      left
      simp only
      have hlow := low_none_of_not_idle h.modeOK hb (by rw [hs]; simp) (.inr ⟨hstd, T, hs⟩)
      have hop := hbr.tr.openEq
      rw [hs, hlow] at hop
      rw [Interval.getEnd_close_open (by simpa using hop)]
  · intro b' hb' hne
    rw [bq_cons_ne]
    simp [Imp.forBank, Ne.symm hne]
  · intro e he; simp [he]
  · rw [mq_cons_ne rfl]
  · exact h.modeOK.close (T := T) hb rfl rfl rfl (.inr ⟨rfl, hs⟩) (by rw [hs]; simp)

theorem exec_refEnd {std n T b q r σ ent acc} (h : Rel std n T ((T, .refEnd b) :: q) r σ ent acc) :
    Rel std n T q (exec std r T (.refEnd b)) (σ.setBank b ((σ.bank b).settle T)) ent acc := by
  obtain ⟨hb, hs, hbq⟩ := head_refEnd h
  have hbr := h.bank b hb
  have hset : (σ.bank b).settle T = { σ.bank b with status := .idle } := by
    simp [BankS.settle, hs]
  have hexec : exec std r T (.refEnd b) = closeRank (r.setBank b
      { r.banks b with act := (r.banks b).act.close T, state := .precharged }) T := by
    cases std <;> rfl
  rw [hexec, hset]
  obtain ⟨htg, hto, _⟩ := h.tail_ge
  refine closeBank_rel h hb rfl (by rw [hs]; simp) (by rw [hs]; intro u hu hc; injection hc; omega) ?_ htg hto hbq ?_ ?_ ?_ ?_
  · refine ⟨by simp, ?_, hbr.acted, hbr.pre, hbr.refEnd, ?_, by simp, by simp, ?_, by simp⟩
    · have := hbr.tr.close
      simpa using this
    · intro hac
      simp only at hac ⊢
      rw [Interval.getStart_close]
      refine sinceOK_idle (hbr.since hac) ?_ rfl rfl
      intro e x hm
      have := h.qge _ (h.mem_exit hm)
      simp only at this
      simp [BankS.isOpen, hs, this]
    · intro hstd _ _
      right
      simp only
      have hlow := low_none_of_not_idle h.modeOK hb (by rw [hs]; simp) (.inl ⟨T, hs⟩)
      have hop := hbr.tr.openEq
      rw [hs, hlow] at hop
      rw [Interval.getEnd_close_open (by simpa using hop), hbr.refr _ hs]
  · intro b' hb' hne
    rw [bq_cons_ne]
    simp [Imp.forBank, Ne.symm hne]
  · intro e he; simp [he]
  · rw [mq_cons_ne rfl]
  · exact h.modeOK.close (T := T) hb rfl rfl rfl (.inl rfl) (by rw [hs]; simp)

end DRAMPower
