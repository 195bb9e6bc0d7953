import Verif.Props.C09
import Verif.Props.C14
import Verif.Props.C01
import Verif.Props.C02

/-!
# C04: auto-precharge equals read/write plus explicit precharge
-/

namespace DRAMPower

open Spec

/-- `A` without its auto-precharge. -/
def Spec.plainAccess (A : Cmd) : Cmd := { A with type := if A.type = .RDA then .RD else .WR }

/-- Time of the explicit precharge: row opened at `a`, access `A`. -/
def Spec.prechargeTime (ms : MemSpec) (a : Nat) (A : Cmd) : Nat :=
  max (a + ms.tRAS) (A.t + if A.type = .RDA then ms.prechargeOffsetRD else ms.prechargeOffsetWR)

/-- Explicit precharge at time `p` of the bank accessed by `A`. -/
def Spec.preOf (p : Nat) (A : Cmd) : Cmd := { t := p, type := .PRE, rank := A.rank, bank := A.bank }

/-- Equal counters except that `n` reads (or writes, if `w`) with auto-precharge in `x` are plain ones in `y`. -/
def Spec.sameButSplit (w : Bool) (n : Nat) (x y : Counters) : Prop :=
  y.act = x.act ∧ y.pre = x.pre ∧ y.refAllBank = x.refAllBank ∧ y.refPerBank = x.refPerBank ∧
  y.refPerTwoBanks = x.refPerTwoBanks ∧ y.refDualBanks = x.refDualBanks ∧ y.refSameBank = x.refSameBank ∧
  (if w then y.reads = x.reads ∧ y.readAuto = x.readAuto ∧ y.writes = x.writes + n ∧ y.writeAuto + n = x.writeAuto
   else y.writes = x.writes ∧ y.writeAuto = x.writeAuto ∧ y.reads = x.reads + n ∧ y.readAuto + n = x.readAuto)

instance (w n x y) : Decidable (sameButSplit w n x y) := by unfold sameButSplit; infer_instance

/-- Traces `l0, ACT, l1, RDA/WRA, l2, l3` in which the ACT `o` is the last one to the bank before the access `A`,
and the precharge time lies between `l2` and `l3`. -/
structure Spec.AutoPreTrace (ms : MemSpec) (l1 l2 l3 : List Cmd) (o A : Cmd) : Prop where
  access : A.type = .RDA ∨ A.type = .WRA
  opens : o.type = .ACT ∧ o.rank = A.rank ∧ o.bank = A.bank
  last : ∀ x ∈ l1, ¬ (x.type = .ACT ∧ x.rank = A.rank ∧ x.bank = A.bank)
  before : ∀ x ∈ l2, x.t < prechargeTime ms o.t A
  after : ∀ x ∈ l3, prechargeTime ms o.t A ≤ x.t

/-- Full statement. -/
def C04_statement (std : Std) : Prop :=
  ∀ ms l0 l1 l2 l3 o A, ValidSpec std ms → AutoPreTrace ms l1 l2 l3 o A →
  ∀ cmds cmds', cmds = l0 ++ o :: (l1 ++ A :: (l2 ++ l3)) →
  cmds' = l0 ++ o :: (l1 ++ plainAccess A :: (l2 ++ preOf (prechargeTime ms o.t A) A :: l3)) →
  LegalTrace std ms cmds → LegalTrace std ms cmds' →
  ∀ c c', (Core.init ms).run std ms cmds = .ok c → (Core.init ms).run std ms cmds' = .ok c' →
  ∀ t, NotBefore cmds' t → ∀ i < ms.numberOfRanks,
    (c.getWindowStats std ms t).2.rankTotal[i]? = (c'.getWindowStats std ms t).2.rankTotal[i]? ∧
    ∀ b < ms.numberOfBanks, ∃ x y, (c.getWindowStats std ms t).2.bank[i * ms.numberOfBanks + b]? = some x ∧
      (c'.getWindowStats std ms t).2.bank[i * ms.numberOfBanks + b]? = some y ∧ x.cycles = y.cycles ∧
      sameButSplit (A.type = .WRA) (if i = A.rank ∧ b = A.bank then 1 else 0) x.counter y.counter

/-! ## The two timelines -/

/-- `s` with an auto-precharge of bank `k` pending at `p`. -/
def withAuto (p k : Nat) (s : State) : State :=
  { s with bank := fun b => if b = k then { s.bank k with status := .opened (some p) } else s.bank b }

theorem withAuto_settle {p k t : Nat} {s : State} (ho : (s.bank k).status = .opened none) (ht : t < p) :
    (withAuto p k s).settle t = withAuto p k (s.settle t) ∧ ((s.settle t).bank k).status = .opened none := by
  have h1 : (s.bank k).settle t = s.bank k := by unfold BankS.settle; rw [ho]
  constructor
  · simp only [withAuto, State.settle, State.mk.injEq, true_and, h1]
    funext b
    split
    · unfold BankS.settle
      simp only
      rw [if_neg (by omega)]
    · rfl
  · simp only [State.settle, h1, ho]

theorem withAuto_onBanks {p k : Nat} {s : State} {tgt : Nat → Bool} {f : BankS → BankS} (h : tgt k = false) :
    (withAuto p k s).onBanks tgt f = withAuto p k (s.onBanks tgt f) := by
  simp only [withAuto, State.onBanks, State.mk.injEq, true_and, h, Bool.false_eq_true, if_false]
  funext b
  by_cases hb : b = k
  · subst hb; simp [h]
  · simp [hb]

theorem withAuto_pdTime {std ms} {p k t : Nat} {s : State} : pdTime std ms (withAuto p k s) t = pdTime std ms s t := by
  unfold pdTime earliest
  congr 1
  apply foldl_max_congr
  intro b _
  simp only [withAuto]
  split
  · rename_i h; subst h; rfl
  · rfl

theorem onBanks_keep {s : State} {tgt : Nat → Bool} {f : BankS → BankS} {k : Nat} (h : tgt k = false) : (s.onBanks tgt f).bank k = s.bank k := by
  simp [State.onBanks, h]

/-- A command before the precharge time keeps the relation. -/
theorem withAuto_step {std ms} {p k : Nat} {s : State} {c : Cmd} (hk : k < ms.numberOfBanks) (ho : (s.bank k).status = .opened none)
    (ht : c.t < p) (hx : c.type ≠ .PDXA) (hl : legalCmd std ms ((withAuto p k s).settle c.t) c) :
    apply std ms (withAuto p k s) c = withAuto p k (apply std ms s c) ∧ ((apply std ms s c).bank k).status = .opened none := by
  obtain ⟨h1, h2⟩ := withAuto_settle ho ht
  rw [h1] at hl
  unfold apply
  rw [h1]
  generalize s.settle c.t = s at hl h2 ⊢
  unfold legalCmd at hl
  obtain ⟨_, _, hl⟩ := hl
  have hstat : ((withAuto p k s).bank k).status = .opened (some p) := by simp [withAuto]
  have hsing : c.type = .ACT ∨ c.type = .RDA ∨ c.type = .WRA → c.bank ≠ k → targets ms c k = false := by
    intro h hne
    unfold targets
    rcases h with h | h | h <;> simp [h, Ne.symm hne]
  have fin : ∀ {f : BankS → BankS}, targets ms c k = false →
      (withAuto p k s).onBanks (targets ms c) f = withAuto p k (s.onBanks (targets ms c) f) ∧
      ((s.onBanks (targets ms c) f).bank k).status = .opened none := by
    intro f h
    exact ⟨withAuto_onBanks h, by rw [onBanks_keep h]; exact h2⟩
  have noTgt : (∀ b < ms.numberOfBanks, targets ms c b = true → ((withAuto p k s).bank b).status = .idle) → targets ms c k = false := by
    intro h
    cases htk : targets ms c k with
    | false => rfl
    | true => have := h k hk htk; rw [hstat] at this; cases this
  have noTgt' : (∀ b < ms.numberOfBanks, targets ms c b = true → ((withAuto p k s).bank b).prechargeable) → targets ms c k = false := by
    intro h
    cases htk : targets ms c k with
    | false => rfl
    | true => have := h k hk htk; unfold BankS.prechargeable at this; rw [hstat] at this; simp at this
  cases hty : c.type <;> simp only [hty] at hl hsing hx ⊢
  case RD | WR => exact ⟨trivial, h2⟩
  case ACT =>
    exact fin (hsing (by simp) (by intro h; rw [h, hstat] at hl; exact absurd hl.2 (by simp)))
  case RDA | WRA =>
    exact fin (hsing (by simp) (by intro h; rw [h, hstat] at hl; exact absurd hl.2 (by simp)))
  case PRE | PREA | PRESB => exact fin (noTgt' hl.2)
  case REFA | REFB | REFP2B | REFDB | REFSB => exact fin (noTgt hl.2)
  case SREFEN =>
    obtain ⟨f1, f2⟩ := fin (f := (·.refresh c.t ms.tRFC)) (noTgt hl.2)
    refine ⟨?_, f2⟩
    rw [f1]; rfl
  case SREFEX | DSMEN | DSMEX => exact ⟨rfl, h2⟩
  case PDEA | PDEP => rw [withAuto_pdTime]; exact ⟨rfl, h2⟩
  case PDXP =>
    rw [withAuto_pdTime]
    have hm : (withAuto p k s).mode = s.mode := rfl
    rw [hm]
    cases s.mode <;> exact ⟨rfl, h2⟩
  case PDXA => exact absurd rfl hx

theorem stateFrom_append {std ms s} (x y : List Cmd) (τ : Nat) :
    stateFrom std ms s (x ++ y) τ = stateFrom std ms (stateFrom std ms s x τ) y τ := by
  unfold stateFrom
  rw [List.filter_append, List.foldl_append]

theorem stateFrom_all {std ms s} {x : List Cmd} {τ : Nat} (h : ∀ c ∈ x, c.t ≤ τ) : stateFrom std ms s x τ = x.foldl (apply std ms) s := by
  unfold stateFrom
  rw [List.filter_eq_self.2 (by intro a ha; simpa using h a ha)]

theorem stateFrom_none {std ms s} {x : List Cmd} {τ : Nat} (h : ∀ c ∈ x, τ < c.t) : stateFrom std ms s x τ = s := by
  unfold stateFrom
  rw [List.filter_eq_nil_iff.2 (by intro a ha; have := h a ha; simp; omega)]
  rfl

theorem legal_append {std ms} {x y : List Cmd} : ∀ {s now}, LegalFrom std ms s now (x ++ y) →
    LegalFrom std ms s now x ∧ ∃ now', LegalFrom std ms (x.foldl (apply std ms) s) now' y := by
  induction x with
  | nil => intro s now h; exact ⟨trivial, now, h⟩
  | cons c x ih =>
    intro s now h
    obtain ⟨h1, h2, h3⟩ := h
    obtain ⟨h4, h5⟩ := ih h3
    exact ⟨⟨h1, h2, h4⟩, h5⟩

/-- The commands before the precharge time keep the relation, at every instant. -/
theorem withAuto_run {std ms} {p k : Nat} {m : List Cmd} (hk : k < ms.numberOfBanks) : ∀ {s now}, (s.bank k).status = .opened none →
    (∀ c ∈ m, c.t < p) → (∀ c ∈ m, c.type ≠ .PDXA) → LegalFrom std ms (withAuto p k s) now m → ∀ τ,
    stateFrom std ms (withAuto p k s) m τ = withAuto p k (stateFrom std ms s m τ) ∧ ((stateFrom std ms s m τ).bank k).status = .opened none := by
  induction m with
  | nil => intro s now ho _ _ _ τ; exact ⟨rfl, ho⟩
  | cons c m ih =>
    intro s now ho ht hx hl τ
    obtain ⟨h1, h2, h3⟩ := hl
    obtain ⟨g1, g2⟩ := withAuto_step hk ho (ht c (by simp)) (hx c (by simp)) h2
    rw [g1] at h3
    by_cases hτ : c.t ≤ τ
    · rw [stateFrom_after_cons hτ, stateFrom_after_cons hτ, g1]
      exact ih g2 (fun x hx' => ht x (by simp [hx'])) (fun x hx' => hx x (by simp [hx'])) h3 τ
    · rw [stateFrom_before_cons (legal_times h3) (by omega), stateFrom_before_cons (legal_times h3) (by omega)]
      exact ⟨rfl, ho⟩

/-- What matters of a state during cycle `τ`. -/
def view (s : State) (τ : Nat) : Option Cat × (Nat → Bool) := (s.mode.low τ, fun b => (s.bank b).isOpen τ)

theorem view_bankCat {s s' : State} {τ : Nat} (h : view s τ = view s' τ) (b : Nat) : bankCat s b τ = bankCat s' b τ := by
  unfold view at h
  injection h with h1 h2
  unfold bankCat
  rw [h1, congrFun h2 b]

theorem view_rankCat {s s' : State} {τ : Nat} (h : view s τ = view s' τ) (n : Nat) : rankCat n s τ = rankCat n s' τ := by
  unfold view at h
  injection h with h1 h2
  unfold rankCat
  have h3 : (∃ b < n, (s.bank b).isOpen τ = true) ↔ (∃ b < n, (s'.bank b).isOpen τ = true) := by
    simp only [congrFun h2]
  rw [h1]
  simp only [h3]

theorem view_settle {s : State} {t τ : Nat} (h : t ≤ τ) : view (s.settle t) τ = view s τ := by
  unfold view
  simp only [State.settle, Mode.low_settle h, BankS.isOpen_settle h]

theorem view_withAuto {p k τ : Nat} {s : State} (ho : (s.bank k).status = .opened none) (h : τ < p) : view (withAuto p k s) τ = view s τ := by
  unfold view
  simp only [withAuto, Prod.mk.injEq, true_and]
  funext b
  split
  · rename_i hb; subst hb; simp [BankS.isOpen, ho, h]
  · rfl

theorem apply_settle {std ms} {s : State} {t : Nat} {c : Cmd} (h : t ≤ c.t) : apply std ms (s.settle t) c = apply std ms s c := by
  unfold apply
  rw [State.settle_settle h]

/-- The explicit precharge leads to the state in which the auto-precharge has happened. -/
theorem apply_preOf {std ms} {p : Nat} {A : Cmd} {s : State} (ho : (s.bank A.bank).status = .opened none) :
    apply std ms s (preOf p A) = (withAuto p A.bank s).settle p := by
  have h1 : (s.bank A.bank).settle p = s.bank A.bank := by unfold BankS.settle; rw [ho]
  simp only [apply, preOf, State.onBanks, State.settle, withAuto, targets, State.mk.injEq, true_and]
  funext b
  by_cases hb : b = A.bank
  · subst hb
    simp only [beq_self_eq_true, if_true, h1]
    simp only [BankS.precharge, BankS.settle, ho, Nat.le_refl, if_true]
  · simp only [hb, if_false, beq_eq_false_iff_ne.2 hb, Bool.false_eq_true]

theorem foldl_settle {std ms} {e : List Cmd} {s : State} {p t : Nat} (he : ∀ c ∈ e, p ≤ c.t) (ht : p ≤ t) :
    (e.foldl (apply std ms) (s.settle p)).settle t = (e.foldl (apply std ms) s).settle t := by
  cases e with
  | nil => exact State.settle_settle ht s
  | cons c e => rw [List.foldl_cons, List.foldl_cons, apply_settle (he c (by simp))]

theorem stateFrom_settle_view {std ms} {e : List Cmd} {s : State} {p τ : Nat} (he : ∀ c ∈ e, p ≤ c.t) (ht : p ≤ τ) :
    view (stateFrom std ms (s.settle p) e τ) τ = view (stateFrom std ms s e τ) τ := by
  unfold stateFrom
  cases hf : e.filter (·.t ≤ τ) with
  | nil => exact view_settle ht
  | cons c e' =>
    have : c ∈ e := by
      have : c ∈ e.filter (·.t ≤ τ) := by rw [hf]; simp
      exact (List.mem_filter.1 this).1
    rw [List.foldl_cons, List.foldl_cons, apply_settle (he c this)]

/-! ## Start of the active phase -/

/-- If the bank is open, its active phase began at `a`. -/
def phaseOK (a : Nat) (b : BankS) : Prop := ∀ p, b.status = .opened p → b.since = a

theorem phaseOK_settle {a t : Nat} {b : BankS} (h : phaseOK a b) : phaseOK a (b.settle t) := by
  unfold phaseOK at *
  unfold BankS.settle
  split
  · rename_i p hp
    split
    · intro p' h'; cases h'
    · exact h
  · split
    · intro p' h'; cases h'
    · exact h
  · exact h

theorem phaseOK_apply {std ms} {a k : Nat} {s : State} {c : Cmd} (h : phaseOK a (s.bank k)) (hx : c.type ≠ .PDXA)
    (ha : ¬ (c.type = .ACT ∧ c.bank = k)) (hl : legalCmd std ms (s.settle c.t) c) : phaseOK a ((apply std ms s c).bank k) := by
  have hs : phaseOK a ((s.settle c.t).bank k) := phaseOK_settle h
  unfold apply
  unfold legalCmd at hl
  obtain ⟨_, _, hl⟩ := hl
  generalize s.settle c.t = s at hs hl ⊢
  have key : ∀ (tgt : Nat → Bool) (f : BankS → BankS), (tgt k = true → phaseOK a (f (s.bank k))) → phaseOK a ((s.onBanks tgt f).bank k) := by
    intro tgt f hf
    simp only [State.onBanks]
    split
    · rename_i htk; exact hf htk
    · exact hs
  cases hty : c.type <;> simp only [hty] at hx ha hl ⊢
  case ACT =>
    apply key
    intro htk
    simp only [targets, hty, beq_iff_eq] at htk
    exact absurd ⟨trivial, htk.symm⟩ ha
  case PRE | PREA | PRESB =>
    apply key
    intro _ p hp
    unfold BankS.precharge at hp ⊢
    split at hp
    · cases hp
    · exact hs p hp
  case RDA | WRA =>
    apply key
    intro htk p hp
    simp only [targets, hty, beq_iff_eq] at htk
    rw [← htk] at hl
    exact hs none hl.2
  case REFA | REFB | REFP2B | REFDB | REFSB => exact key _ _ fun _ p hp => by cases hp
  case SREFEN => exact key _ _ fun _ p hp => by cases hp
  case PDXP => cases s.mode <;> exact hs
  case PDXA => exact absurd rfl hx
  all_goals exact hs

theorem phaseOK_run {std ms} {a k : Nat} {l : List Cmd} : ∀ {s now}, phaseOK a (s.bank k) → (∀ c ∈ l, c.type ≠ .PDXA) →
    (∀ c ∈ l, ¬ (c.type = .ACT ∧ c.bank = k)) → LegalFrom std ms s now l → phaseOK a ((l.foldl (apply std ms) s).bank k) := by
  induction l with
  | nil => intro s now h _ _ _; exact h
  | cons c l ih =>
    intro s now h hx ha hl
    exact ih (phaseOK_apply h (hx c (by simp)) (ha c (by simp)) hl.2.1) (fun x h => hx x (by simp [h])) (fun x h => ha x (by simp [h])) hl.2.2

/-! ## One rank -/

/-- The histories of the rank concerned. -/
theorem rank_split {std ms} {g0 g1 m e : List Cmd} {o A : Cmd} (hA : A.type = .RDA ∨ A.type = .WRA)
    (ho : o.type = .ACT ∧ o.bank = A.bank)
    (h1 : ∀ x ∈ g1, ¬ (x.type = .ACT ∧ x.bank = A.bank)) (hx1 : ∀ x ∈ g1, x.type ≠ .PDXA) (hx2 : ∀ x ∈ m, x.type ≠ .PDXA)
    (hm : ∀ x ∈ m, x.t < prechargeTime ms o.t A) (he : ∀ x ∈ e, prechargeTime ms o.t A ≤ x.t)
    (hl : Legal std ms (g0 ++ o :: (g1 ++ A :: (m ++ e)))) (hord : Ordered (g0 ++ o :: (g1 ++ A :: (m ++ e)))) :
    (∀ τ, view (stateAt std ms (g0 ++ o :: (g1 ++ A :: (m ++ e))) τ) τ =
      view (stateAt std ms (g0 ++ o :: (g1 ++ plainAccess A :: (m ++ preOf (prechargeTime ms o.t A) A :: e))) τ) τ) ∧
    ∀ t, prechargeTime ms o.t A ≤ t → ((g0 ++ o :: (g1 ++ A :: (m ++ e))).foldl (apply std ms) {}).settle t =
      ((g0 ++ o :: (g1 ++ plainAccess A :: (m ++ preOf (prechargeTime ms o.t A) A :: e))).foldl (apply std ms) {}).settle t := by
  generalize hp : prechargeTime ms o.t A = p at hm he
  have hAp : A.t ≤ p := by rw [← hp]; unfold prechargeTime; omega
  obtain ⟨_, now1, hl1⟩ := legal_append hl
  obtain ⟨_, hlo, hl2⟩ := hl1
  obtain ⟨hg1, now3, hl3⟩ := legal_append hl2
  obtain ⟨_, hlA, hl4⟩ := hl3
  obtain ⟨hlm, _⟩ := legal_append hl4
  have hph := phaseOK_run (a := o.t) (k := A.bank) (l := g1) (s := apply std ms (g0.foldl (apply std ms) {}) o) (by
    intro q hq
    simp [apply, ho, State.onBanks, targets, BankS.activate]) hx1 h1 hg1
  -- the state in which the access arrives
  have hfold : g1.foldl (apply std ms) (apply std ms (g0.foldl (apply std ms) {}) o) = (g0 ++ o :: g1).foldl (apply std ms) {} := by
    simp [List.foldl_append]
  rw [hfold] at hph hlA hlm hl4
  generalize hs : (g0 ++ o :: g1).foldl (apply std ms) {} = s at *
  have hk : A.bank < ms.numberOfBanks := by
    have := hlA.2.1
    unfold inRange at this
    rcases hA with h | h <;> simpa [h] using this
  have hst : ((s.settle A.t).bank A.bank).status = .opened none := by
    have := hlA.2.2
    rcases hA with h | h <;> simp only [h] at this <;> exact this.2
  have hsince : ((s.settle A.t).bank A.bank).since = o.t := phaseOK_settle hph none hst
  have eA : apply std ms s A = withAuto p A.bank (s.settle A.t) := by
    have : ∀ off, max (o.t + ms.tRAS) (A.t + off) = p → (s.settle A.t).onBanks (targets ms A) (·.autoPrecharge ms.tRAS A.t off) = withAuto p A.bank (s.settle A.t) := by
      intro off hoff
      have ht : targets ms A = fun b => b == A.bank := by
        unfold targets
        rcases hA with h | h <;> simp [h]
      rw [ht]
      simp only [State.onBanks, withAuto, State.mk.injEq, true_and]
      funext b
      by_cases hb : b = A.bank
      · subst hb; simp [BankS.autoPrecharge, hsince, hoff]
      · simp [hb]
    unfold apply
    rw [← hp] at this
    unfold prechargeTime at this
    rw [← hp]
    unfold prechargeTime
    rcases hA with h | h <;> simp only [h, if_true, reduceCtorEq, if_false] at this ⊢ <;> exact this _ rfl
  have eA' : apply std ms s (plainAccess A) = s.settle A.t := by
    unfold apply plainAccess
    rcases hA with h | h <;> simp [h]
  rw [eA] at hlm
  have hrun := fun τ => withAuto_run hk hst hm hx2 hlm τ
  -- order of the timestamps
  have e1 : g0 ++ o :: (g1 ++ A :: (m ++ e)) = (g0 ++ o :: g1) ++ A :: (m ++ e) := by simp
  have e2 : g0 ++ o :: (g1 ++ plainAccess A :: (m ++ preOf p A :: e)) = (g0 ++ o :: g1) ++ plainAccess A :: (m ++ preOf p A :: e) := by simp
  rw [e1] at hord ⊢
  rw [e2]
  have hord' := List.pairwise_append.1 hord
  have hbefore : ∀ x ∈ g0 ++ o :: g1, x.t ≤ A.t := fun x hx => hord'.2.2 x hx A (by simp)
  have hafter : ∀ x ∈ m ++ e, A.t ≤ x.t := fun x hx => (List.pairwise_cons.1 hord'.2.1).1 x hx
  have pt : (plainAccess A).t = A.t := rfl
  constructor
  · intro τ
    show view (stateFrom std ms {} _ τ) τ = view (stateFrom std ms {} _ τ) τ
    rw [stateFrom_append (g0 ++ o :: g1) (A :: (m ++ e)), stateFrom_append (g0 ++ o :: g1) (plainAccess A :: (m ++ preOf p A :: e))]
    by_cases hτ : A.t ≤ τ
    · rw [stateFrom_all (x := g0 ++ o :: g1) (fun c hc => Nat.le_trans (hbefore c hc) hτ), hs,
        stateFrom_after_cons hτ, stateFrom_after_cons (by rw [pt]; exact hτ), eA, eA', stateFrom_append, stateFrom_append]
      obtain ⟨r1, r2⟩ := hrun τ
      rw [r1]
      by_cases hτp : τ < p
      · rw [stateFrom_none (x := e) (fun c hc => Nat.lt_of_lt_of_le hτp (he c hc)),
          stateFrom_none (x := preOf p A :: e) (fun c hc => by
            rcases List.mem_cons.1 hc with rfl | hc
            · exact hτp
            · exact Nat.lt_of_lt_of_le hτp (he c hc))]
        exact view_withAuto r2 hτp
      · have hle : p ≤ τ := by omega
        rw [stateFrom_after_cons (c := preOf p A) hle, apply_preOf r2]
        exact (stateFrom_settle_view he hle).symm
    · have n1 : ∀ c ∈ A :: (m ++ e), τ < c.t := by
        intro c hc
        rcases List.mem_cons.1 hc with rfl | hc
        · omega
        · have := hafter c hc; omega
      rw [stateFrom_none n1, stateFrom_none (x := plainAccess A :: _)]
      intro c hc
      rcases List.mem_cons.1 hc with rfl | hc
      · exact n1 A (by simp)
      · rcases List.mem_append.1 hc with hc | hc
        · exact n1 c (by simp [hc])
        · rcases List.mem_cons.1 hc with rfl | hc
          · show τ < p; omega
          · exact n1 c (by simp [hc])
  · intro t ht
    rw [List.foldl_append (l := g0 ++ o :: g1), List.foldl_append (l := g0 ++ o :: g1), hs, List.foldl_cons, List.foldl_cons, eA, eA', List.foldl_append, List.foldl_append,
      List.foldl_cons]
    have hmt : ∀ c ∈ m, c.t ≤ p := fun c hc => Nat.le_of_lt (hm c hc)
    obtain ⟨r1, r2⟩ := hrun p
    rw [stateFrom_all hmt] at r1 r2
    rw [stateFrom_all hmt] at r1
    rw [r1, apply_preOf r2, foldl_settle he ht]

/-! ## Whole traces -/

theorem legalFrom_twoBanks {std ms} {h : List Cmd} : ∀ {s now}, LegalFrom std ms s now h → ∀ c ∈ h, twoBanks ms c := by
  induction h with
  | nil => intro s now _ c hc; simp at hc
  | cons x h ih =>
    intro s now hl c hc
    rcases List.mem_cons.1 hc with rfl | hc
    · have := hl.2.1.2.1
      unfold inRange at this
      unfold twoBanks
      cases hty : c.type <;> simp only [hty] at this ⊢ <;> simp_all
    · exact ih hl.2.2 c hc

theorem tame_twoBanks {std ms cmds} (ht : TameTrace std ms cmds) : ∀ c ∈ cmds, twoBanks ms c := by
  intro c hc
  cases hu : unaddressed std c.type with
  | true =>
    unfold unaddressed at hu
    unfold twoBanks
    cases hty : c.type <;> simp_all
  | false =>
    rcases ht.ranks c hc with h | h
    · rw [hu] at h; cases h
    · exact legalFrom_twoBanks (tame_legal (ht.tame c.rank h)) c (List.mem_filter.2 ⟨hc, by simp [hu]⟩)

theorem forRank_append (std : Std) (i : Nat) (x y : List Cmd) : forRank std i (x ++ y) = forRank std i x ++ forRank std i y :=
  List.filter_append ..

theorem forRank_cons_pos {std : Std} {i : Nat} {c : Cmd} {y : List Cmd} (h : c.rank = i) (h' : unaddressed std c.type = false) :
    forRank std i (c :: y) = c :: forRank std i y := by
  unfold forRank
  rw [List.filter_cons_of_pos (by simp [h, h'])]

theorem forRank_cons_neg {std : Std} {i : Nat} {c : Cmd} {y : List Cmd} (h : c.rank ≠ i) :
    forRank std i (c :: y) = forRank std i y := by
  unfold forRank
  rw [List.filter_cons_of_neg (by simp [h])]

theorem plus_inj {a b c : Counters} : a.plus c = b.plus c ↔ a = b := by
  obtain ⟨⟩ := a; obtain ⟨⟩ := b; obtain ⟨⟩ := c
  simp [Counters.plus]

theorem tally_append (ms : MemSpec) (x y : List Cmd) (b : Nat) : tally ms (x ++ y) b = (tally ms x b).plus (tally ms y b) := by
  simp only [tally, hits, Counters.plus, List.countP_append, Counters.mk.injEq]
  refine ⟨?_, ?_, ?_, ?_, ?_, ?_, ?_, ?_, ?_, ?_, ?_⟩ <;> first | trivial | ac_rfl

theorem tally_parts (ms : MemSpec) (x y z w : List Cmd) (o A : Cmd) (b : Nat) : tally ms (x ++ o :: (y ++ A :: (z ++ w))) b =
    (tally ms x b).plus ((tally ms [o] b).plus ((tally ms y b).plus ((tally ms [A] b).plus ((tally ms z b).plus (tally ms w b))))) := by
  rw [tally_append, tally_cons ms o (y ++ A :: (z ++ w)), tally_append, tally_cons ms A (z ++ w), tally_append]

/-- Missing from the full statement: (a) an active power-down of the rank that ends between the ACT and the
precharge; there the statement is false for every standard (`C04_violation`), because the code counts `tRAS` from
the end of the power-down; (b) the active power-down situations excluded by `benignCmd` (not DDR4). -/
theorem C04_partial (std : Std) (ms : MemSpec) (l0 l1 l2 l3 : List Cmd) (o A : Cmd) (hv : ValidSpec std ms)
    (h : AutoPreTrace ms l1 l2 l3 o A) (hpd : ∀ x ∈ l1 ++ l2, x.rank = A.rank → x.type ≠ .PDXA) (cmds cmds' : List Cmd)
    (hc : cmds = l0 ++ o :: (l1 ++ A :: (l2 ++ l3)))
    (hc' : cmds' = l0 ++ o :: (l1 ++ plainAccess A :: (l2 ++ preOf (prechargeTime ms o.t A) A :: l3)))
    (ht : TameTrace std ms cmds) (ht' : TameTrace std ms cmds') (c c' : Core)
    (hr : (Core.init ms).run std ms cmds = .ok c) (hr' : (Core.init ms).run std ms cmds' = .ok c')
    (t : Nat) (hT : NotBefore cmds' t) (i : Nat) (hi : i < ms.numberOfRanks) :
    (c.getWindowStats std ms t).2.rankTotal[i]? = (c'.getWindowStats std ms t).2.rankTotal[i]? ∧
    ∀ b < ms.numberOfBanks, ∃ x y, (c.getWindowStats std ms t).2.bank[i * ms.numberOfBanks + b]? = some x ∧
      (c'.getWindowStats std ms t).2.bank[i * ms.numberOfBanks + b]? = some y ∧ x.cycles = y.cycles ∧
      sameButSplit (A.type = .WRA) (if i = A.rank ∧ b = A.bank then 1 else 0) x.counter y.counter := by
  have hAu : unaddressed std A.type = false := by unfold unaddressed; rcases h.access with e | e <;> simp [e]
  have hAu' : unaddressed std (plainAccess A).type = false := by
    unfold unaddressed plainAccess; rcases h.access with e | e <;> simp [e]
  have hou : unaddressed std o.type = false := by unfold unaddressed; simp [h.opens.1]
  have hPu : unaddressed std (preOf (prechargeTime ms o.t A) A).type = false := by unfold unaddressed preOf; simp
  have hp : prechargeTime ms o.t A ≤ t := hT (preOf (prechargeTime ms o.t A) A) (by rw [hc']; simp)
  have hAt : A.t ≤ prechargeTime ms o.t A := by unfold prechargeTime; omega
  have hT0 : NotBefore cmds t := by
    intro x hx
    rw [hc] at hx
    simp only [List.mem_append, List.mem_cons] at hx
    rcases hx with hx | rfl | hx | rfl | hx | hx
    · exact hT x (by rw [hc']; simp [hx])
    · exact hT x (by rw [hc']; simp)
    · exact hT x (by rw [hc']; simp [hx])
    · omega
    · exact hT x (by rw [hc']; simp [hx])
    · exact hT x (by rw [hc']; simp [hx])
  -- the rank histories
  have hview : (∀ τ, view (stateAt std ms (forRank std i cmds) τ) τ = view (stateAt std ms (forRank std i cmds') τ) τ) ∧
      ((forRank std i cmds).foldl (apply std ms) {}).settle t = ((forRank std i cmds').foldl (apply std ms) {}).settle t := by
    by_cases hri : A.rank = i
    · have e1 : forRank std i cmds = forRank std i l0 ++ o :: (forRank std i l1 ++ A :: (forRank std i l2 ++ forRank std i l3)) := by
        rw [hc, forRank_append, forRank_cons_pos (h.opens.2.1.trans hri) hou, forRank_append, forRank_cons_pos hri hAu, forRank_append]
      have e2 : forRank std i cmds' = forRank std i l0 ++ o :: (forRank std i l1 ++ plainAccess A ::
          (forRank std i l2 ++ preOf (prechargeTime ms o.t A) A :: forRank std i l3)) := by
        rw [hc', forRank_append, forRank_cons_pos (h.opens.2.1.trans hri) hou, forRank_append, forRank_cons_pos (c := plainAccess A) hri hAu',
          forRank_append, forRank_cons_pos (c := preOf _ A) hri hPu]
      have mem : ∀ {l : List Cmd} {x}, x ∈ forRank std i l → x ∈ l ∧ x.rank = A.rank := by
        intro l x hx
        have := List.mem_filter.1 hx
        refine ⟨this.1, ?_⟩
        have h2 := this.2
        simp only [Bool.and_eq_true, decide_eq_true_eq] at h2
        rw [h2.1, hri]
      have hl := tame_legal (ht.tame i hi)
      have hord : Ordered (forRank std i cmds) := List.Pairwise.sublist List.filter_sublist ht.ordered
      rw [e1] at hl hord ⊢
      rw [e2]
      obtain ⟨v1, v2⟩ := rank_split (std := std) (ms := ms) (g0 := forRank std i l0) (g1 := forRank std i l1) (m := forRank std i l2)
        (e := forRank std i l3) h.access ⟨h.opens.1, h.opens.2.2⟩
        (fun x hx hh => h.last x (mem hx).1 ⟨hh.1, (mem hx).2, hh.2⟩)
        (fun x hx => hpd x (by simp [(mem hx).1]) (mem hx).2) (fun x hx => hpd x (by simp [(mem hx).1]) (mem hx).2)
        (fun x hx => h.before x (mem hx).1) (fun x hx => h.after x (mem hx).1) hl hord
      exact ⟨v1, v2 t hp⟩
    · have : forRank std i cmds = forRank std i cmds' := by
        rw [hc, hc']
        have ho' : o.rank ≠ i := by rw [h.opens.2.1]; exact hri
        rw [forRank_append, forRank_append, forRank_cons_neg ho', forRank_cons_neg ho', forRank_append, forRank_append,
          forRank_cons_neg hri, forRank_cons_neg (c := plainAccess A) hri, forRank_append, forRank_append,
          forRank_cons_neg (c := preOf _ A) hri]
      rw [this]
      exact ⟨fun _ => rfl, rfl⟩
  obtain ⟨hview, hset⟩ := hview
  constructor
  · have r1 := C02_partial std ms cmds hv ht c hr t hT0 i hi
    have r2 := C02_partial std ms cmds' hv ht' c' hr' t hT i hi
    rw [r1, r2]
    have : ∀ k, rankTime std ms (forRank std i cmds) k t = rankTime std ms (forRank std i cmds') k t := by
      intro k
      unfold rankTime
      apply List.countP_congr
      intro τ _
      unfold rankCategory
      rw [view_rankCat (hview τ)]
    simp only [this]
  · intro b hb
    refine ⟨_, _, stats_bank hi hb, stats_bank hi hb, ?_, ?_⟩
    · have r1 := C01_partial std ms cmds hv ht c hr t hT0 i hi b hb
      have r2 := C01_partial std ms cmds' hv ht' c' hr' t hT i hi b hb
      rw [stats_bank hi hb, Option.map_some, Option.some_inj] at r1 r2
      rw [r1, r2]
      have : ∀ k, bankTime std ms (forRank std i cmds) b k t = bankTime std ms (forRank std i cmds') b k t := by
        intro k
        unfold bankTime
        apply List.countP_congr
        intro τ _
        unfold category
        rw [view_bankCat (hview τ)]
      simp only [this]
    · have r1 := C09 std ms cmds hv.groups (tame_twoBanks ht) c hr t i hi b hb
      have r2 := C09 std ms cmds' hv.groups (tame_twoBanks ht') c' hr' t i hi b hb
      have p1 := C09_pre_partial std ms cmds hv ht c hr t hT0 i hi b hb
      have p2 := C09_pre_partial std ms cmds' hv ht' c' hr' t hT i hi b hb
      rw [stats_bank hi hb, Option.map_some, Option.some_inj] at r1 r2 p1 p2
      rw [hset, ← p2] at p1
      clear p2
      have hrel : (tally ms (forRank std i cmds) b).plus (if i = A.rank then tally ms [plainAccess A] b else {}) =
          (tally ms (forRank std i cmds') b).plus (if i = A.rank then tally ms [A] b else {}) := by
        by_cases hri : A.rank = i
        · have e1 : forRank std i cmds = forRank std i l0 ++ o :: (forRank std i l1 ++ A :: (forRank std i l2 ++ forRank std i l3)) := by
            rw [hc, forRank_append, forRank_cons_pos (h.opens.2.1.trans hri) hou, forRank_append, forRank_cons_pos hri hAu, forRank_append]
          have e2 : forRank std i cmds' = forRank std i l0 ++ o :: (forRank std i l1 ++ plainAccess A ::
              (forRank std i l2 ++ preOf (prechargeTime ms o.t A) A :: forRank std i l3)) := by
            rw [hc', forRank_append, forRank_cons_pos (h.opens.2.1.trans hri) hou, forRank_append, forRank_cons_pos (c := plainAccess A) hri hAu',
              forRank_append, forRank_cons_pos (c := preOf _ A) hri hPu]
          have eP : tally ms [preOf (prechargeTime ms o.t A) A] b = {} := by simp [tally, hits, preOf]
          rw [e1, e2, if_pos hri.symm, if_pos hri.symm]
          rw [tally_parts, tally_parts, tally_cons ms (preOf _ A) (forRank std i l3), eP]
          generalize tally ms (forRank std i l0) b = u0
          generalize tally ms (forRank std i l1) b = u1
          generalize tally ms (forRank std i l2) b = u2
          generalize tally ms (forRank std i l3) b = u3
          simp only [Counters.plus, Counters.mk.injEq]
          omega
        · have : forRank std i cmds = forRank std i cmds' := by
            rw [hc, hc']
            have ho' : o.rank ≠ i := by rw [h.opens.2.1]; exact hri
            rw [forRank_append, forRank_append, forRank_cons_neg ho', forRank_cons_neg ho', forRank_append, forRank_append,
              forRank_cons_neg hri, forRank_cons_neg (c := plainAccess A) hri, forRank_append, forRank_append,
              forRank_cons_neg (c := preOf _ A) hri]
          rw [this, if_neg (Ne.symm hri), if_neg (Ne.symm hri)]
      generalize (bankStats std ((c.process std t).ranks i) t b).counter = x at *
      generalize (bankStats std ((c'.process std t).ranks i) t b).counter = y at *
      rw [← r1, ← r2] at hrel
      obtain ⟨x1, x2, x3, x4, x5, x6, x7, x8, x9, x10, x11⟩ := x
      obtain ⟨y1, y2, y3, y4, y5, y6, y7, y8, y9, y10, y11⟩ := y
      by_cases hri : i = A.rank <;> by_cases hbA : b = A.bank <;> rcases h.access with e | e <;>
        simp [tally, hits, targets, plainAccess, e, hri, hbA, Counters.plus, Counters.noPre] at hrel p1 <;>
        simp [sameButSplit, e, hri, hbA] <;> omega

/-! ## The full statement is false -/

/-- `Ex.ms` with a longer `tRAS`. -/
def c04Ms : MemSpec := { Ex.ms with tRAS := 30 }

def c04Act : Cmd := { t := 0, type := .ACT, bank := 1 }
def c04Acc : Cmd := { t := 50, type := .RDA, bank := 1 }
def c04Pd : List Cmd := [{ t := 20, type := .PDEA }, { t := 40, type := .PDXA }]

/-- The row is opened at 0 and the power-down lasts from 20 to 40; the auto-precharge of the read at 50 happens at
40 + tRAS = 70 instead of max (0 + tRAS, 50 + 4) = 54. -/
theorem C04_violation (std : Std) : ¬ C04_statement std := by
  intro h
  have hw : ∀ c c', (Core.init c04Ms).run std c04Ms ([] ++ c04Act :: (c04Pd ++ c04Acc :: ([] ++ []))) = .ok c →
      (Core.init c04Ms).run std c04Ms ([] ++ c04Act :: (c04Pd ++ plainAccess c04Acc :: ([] ++ preOf (prechargeTime c04Ms 0 c04Acc) c04Acc :: []))) = .ok c' →
      (c.getWindowStats std c04Ms 100).2.rankTotal[0]? ≠ (c'.getWindowStats std c04Ms 100).2.rankTotal[0]? := by
    intro c c' h1 h2
    cases std <;>
    · have e1 := Except.ok.inj (h1.symm.trans (show _ = Except.ok _ by rfl))
      have e2 := Except.ok.inj (h2.symm.trans (show _ = Except.ok _ by rfl))
      subst e1 e2
      decide +kernel
  have a1 : ((Core.init c04Ms).run std c04Ms ([] ++ c04Act :: (c04Pd ++ c04Acc :: ([] ++ [])))).isOk = true := by cases std <;> decide +kernel
  have a2 : ((Core.init c04Ms).run std c04Ms ([] ++ c04Act :: (c04Pd ++ plainAccess c04Acc :: ([] ++ preOf (prechargeTime c04Ms 0 c04Acc) c04Acc :: [])))).isOk = true := by
    cases std <;> decide +kernel
  cases hc : (Core.init c04Ms).run std c04Ms ([] ++ c04Act :: (c04Pd ++ c04Acc :: ([] ++ []))) with
  | error e => rw [hc] at a1; cases a1
  | ok c =>
    cases hc' : (Core.init c04Ms).run std c04Ms ([] ++ c04Act :: (c04Pd ++ plainAccess c04Acc :: ([] ++ preOf (prechargeTime c04Ms 0 c04Acc) c04Acc :: []))) with
    | error e => rw [hc'] at a2; cases a2
    | ok c' =>
      refine hw c c' hc hc' (h c04Ms [] c04Pd [] [] c04Act c04Acc ?_ ⟨?_, ?_, ?_, ?_, ?_⟩ _ _ rfl rfl ?_ ?_ c c' hc hc' 100 ?_ 0 ?_).1 <;>
        cases std <;> decide +kernel

/-! ## The hypotheses can be met -/

/-- A read with auto-precharge between traffic on other banks and on the other rank. -/
example (std : Std) :
    let l0 : List Cmd := [{ t := 0, type := .ACT, bank := 0, rank := 1 }, { t := 1, type := .ACT, bank := 0 }]
    let o : Cmd := { t := 2, type := .ACT, bank := 1 }
    let l1 : List Cmd := [{ t := 4, type := .RD, bank := 0 }, { t := 5, type := .PDEA, rank := 1 }]
    let A : Cmd := { t := 6, type := .WRA, bank := 1 }
    let l2 : List Cmd := [{ t := 8, type := .PRE, bank := 0 }]
    let l3 : List Cmd := [{ t := 15, type := .REFA }]
    let cmds := l0 ++ o :: (l1 ++ A :: (l2 ++ l3))
    let cmds' := l0 ++ o :: (l1 ++ plainAccess A :: (l2 ++ preOf (prechargeTime Ex.ms o.t A) A :: l3))
    AutoPreTrace Ex.ms l1 l2 l3 o A ∧ (∀ x ∈ l1 ++ l2, x.rank = A.rank → x.type ≠ .PDXA) ∧ ValidSpec std Ex.ms ∧
    TameTrace std Ex.ms cmds ∧ TameTrace std Ex.ms cmds' ∧ prechargeTime Ex.ms o.t A = 11 ∧ NotBefore cmds' 40 := by
  refine ⟨⟨?_, ?_, ?_, ?_, ?_⟩, ?_, ?_, ?_, ?_, ?_, ?_⟩ <;> cases std <;> decide +kernel

end DRAMPower
